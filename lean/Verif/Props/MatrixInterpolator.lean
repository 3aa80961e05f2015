import Verif.Lemmas.MatrixInterpolator

/-!
# C64, C88: log-Euclidean interpolation of matrices

The eigensolver is any function that keeps the contract `SolvesSym` of Eigen's documentation and, where an answer is claimed, converges.
-/

namespace Verif.Props

open Verif Verif.Spec Matrix

/-- the contract of the eigensolver can be kept: there is a solver that keeps it and always converges -/
theorem C64_contract : ∃ solver : EigenSolver, SolvesSym solver ∧ Converges solver := by
  have h : ∀ (n : ℕ) (A : SqMat n), ∃ p : (Fin n → ℝ) × SqMat n, p.2.transpose * p.2 = 1 ∧ p.2 * diagonal p.1 * p.2.transpose = lowerSym A := fun n A => by
    obtain ⟨w, V, h1, h2⟩ := spectral (lowerSym_isSymm A)
    exact ⟨(w, V), h1, h2⟩
  choose f hf using h
  refine ⟨fun n A => some (f n A), fun n A w V e => ?_, fun n A => ⟨(f n A).1, (f n A).2, rfl⟩⟩
  have := hf n A
  have e' : f n A = (w, V) := Option.some.inj e
  rw [e'] at this
  exact this

/-- well formed data are accepted: as many matrices as nodes and at least two, increasing nodes, square matrices of one dimension, positive definite -/
theorem C64_accepts {solver : EigenSolver} (hs : SolvesSym solver) (hc : Converges solver) {x : List ℝ} {ms : List MatX} {n : ℕ} (h2 : 2 ≤ x.length)
    (hlen : x.length = ms.length) (hx : x.Pairwise (· < ·)) (hdim : ∀ A ∈ ms, A.rows = n ∧ A.cols = n) (hpd : ∀ A ∈ ms, (A.sq n).PosDef) :
    ∃ l, LogI.ctor solver x ms = .ok l ∧ l.n = n := by
  unfold LogI.ctor
  rw [if_neg (by omega), if_neg (by omega)]
  cases ms with
  | nil => simp only [List.length_nil] at hlen; omega
  | cons A ms =>
    obtain ⟨hr, hcl⟩ := hdim A (by simp)
    subst hr
    simp only []
    rw [if_neg (by omega)]
    have hall : ms.all (fun B => decide (B.rows = A.rows ∧ B.cols = A.cols)) = true := by
      rw [List.all_eq_true]
      intro B hB
      have := hdim B (by simp [hB])
      simp [this.1, this.2, hcl]
    rw [hall, (LogI.increasing_iff x).mpr hx]
    simp only [Bool.not_true, Bool.false_eq_true, if_false]
    obtain ⟨-, -, h3⟩ := LogI.logAll_spec hs ((A :: ms).map fun B => B.sq A.rows)
    obtain ⟨Ls, hLs⟩ := h3 hc (fun B hB => by
      obtain ⟨C, hC, rfl⟩ := List.mem_map.mp hB
      rw [lowerSym_of_isSymm (PosDef.isSymm' (hpd C hC))]
      exact hpd C hC)
    rw [hLs]
    exact ⟨_, rfl, rfl⟩

/-- what is accepted is well formed, except that only the lower triangles of the matrices are known to be those of positive definite matrices; every rejection is an
exception of the library and no datum is read outside the arrays -/
theorem C64_rejects {solver : EigenSolver} (hs : SolvesSym solver) (x : List ℝ) (ms : List MatX) :
    (∀ l, LogI.ctor solver x ms = .ok l → 2 ≤ x.length ∧ x.length = ms.length ∧ x.Pairwise (· < ·) ∧ (∀ A ∈ ms, A.rows = l.n ∧ A.cols = l.n) ∧
      (∀ A ∈ ms, (lowerSym (A.sq l.n)).PosDef) ∧ l.getMatrices = ms.map fun A => A.sq l.n) ∧
    ∀ e, LogI.ctor solver x ms = .error e → e = .wrong ∨ e = .runtimeError := by
  constructor
  · intro l h
    obtain ⟨h2, hlen, hx, hdim, hlx, hm, hlog⟩ := LogI.ctor_ok hs h
    refine ⟨h2, hlen, hx, hdim, fun A hA => ?_, hm⟩
    obtain ⟨i, hi⟩ := List.mem_iff_getElem?.mp hA
    obtain ⟨L, -, hL⟩ := hlog i A hi
    exact hL.posDef
  · intro e h
    unfold LogI.ctor at h
    split at h
    · cases h; exact Or.inl rfl
    split at h
    · cases h; exact Or.inl rfl
    rename_i h2 hlen
    cases ms with
    | nil => simp only [List.length_nil] at hlen; omega
    | cons A ms =>
      simp only [] at h
      split at h
      · cases h; exact Or.inl rfl
      split at h
      · cases h; exact Or.inl rfl
      split at h
      · cases h; exact Or.inl rfl
      cases hl : LogI.logAll solver ((A :: ms).map fun B => B.sq A.rows) with
      | error e' =>
        rw [hl] at h
        cases h
        exact Or.inr ((LogI.logAll_spec hs _).2.1 _ hl)
      | ok Ls => rw [hl] at h; cases h

/-- between two neighbouring nodes, ends included, the value is the exponential of the straight line between the logarithms -/
theorem C64_line {solver : EigenSolver} (hs : SolvesSym solver) (hc : Converges solver) {x : List ℝ} {ms : List MatX} {l : LogI} (h : LogI.ctor solver x ms = .ok l)
    (hsym : ∀ A ∈ ms, (A.sq l.n).IsSymm) {i : ℕ} {x0 x1 q : ℝ} {A B : MatX} (hx0 : x[i]? = some x0) (hx1 : x[i + 1]? = some x1) (hA : ms[i]? = some A)
    (hB : ms[i + 1]? = some B) (h0 : x0 ≤ q) (h1 : q ≤ x1) :
    ∃ M, l.evaluate solver q = .ok M ∧ Between (A.sq l.n) (B.sq l.n) ((q - x0) / (x1 - x0)) M := by
  obtain ⟨h2, hlen, hx, hdim, hlx, hm, hlog⟩ := LogI.ctor_ok hs h
  have hxle : x.Pairwise (· ≤ ·) := hx.imp fun h => h.le
  have hi1 := at_lt hx1
  have hpdA : (A.sq l.n).PosDef := by
    have := (C64_rejects hs x ms).1 l h |>.2.2.2.2.1 A (List.mem_of_getElem? hA)
    rwa [lowerSym_of_isSymm (hsym A (List.mem_of_getElem? hA))] at this
  have hpdB : (B.sq l.n).PosDef := by
    have := (C64_rejects hs x ms).1 l h |>.2.2.2.2.1 B (List.mem_of_getElem? hB)
    rwa [lowerSym_of_isSymm (hsym B (List.mem_of_getElem? hB))] at this
  rcases h0.lt_or_eq with h0 | rfl
  · have hk : lowerBound x q = i + 1 := lowerBound_eq hxle hi1.le (fun a _ ha => by
      simp only [Nat.add_sub_cancel] at ha
      rw [hx0] at ha; cases ha; exact h0) (fun a ha => by rw [hx1] at ha; cases ha; exact h1)
    have hp : place x q = (i, i + 1, (q - x0) / (x1 - x0)) := by
      have : i + 1 ≠ x.length := by omega
      simp [place, hk, this, hx0, hx1, List.getD_eq_getElem?_getD]
    have := LogI.evaluate_spec hs hc h hsym q (A := A) (B := B) (by rw [hp]; exact hA) (by rw [hp]; exact hB)
    rwa [hp] at this
  · have hk : lowerBound x x0 = i := lowerBound_eq hxle (by omega) (fun a hi ha => pairwise_at hx (by omega) ha hx0)
      (fun a ha => by rw [hx0] at ha; cases ha; exact le_rfl)
    have hfin : ∀ M, l.evaluate solver x0 = .ok M → M = A.sq l.n → ∃ M, l.evaluate solver x0 = .ok M ∧ Between (A.sq l.n) (B.sq l.n) ((x0 - x0) / (x1 - x0)) M := by
      intro M hM e
      obtain ⟨N, hN⟩ := exists_between hpdA hpdB ((x0 - x0) / (x1 - x0))
      refine ⟨M, hM, ?_⟩
      rw [sub_self, zero_div] at hN ⊢
      have hNA := between_zero hN
      subst hNA
      rw [e]
      exact hN
    by_cases hi : i = 0
    · subst hi
      have hp : place x x0 = (0, 0, 0) := by simp [place, hk]
      obtain ⟨M, hM, hb⟩ := LogI.evaluate_spec hs hc h hsym x0 (A := A) (B := A) (by rw [hp]; exact hA) (by rw [hp]; exact hA)
      rw [hp] at hb
      exact hfin M hM (between_self hb)
    · obtain ⟨C, hC⟩ := exists_at (v := ms) (i := i - 1) (by omega)
      obtain ⟨w, hw⟩ := exists_at (v := x) (i := i - 1) (by omega)
      have hwx : w < x0 := pairwise_at hx (by omega) hw hx0
      have hp : place x x0 = (i - 1, i, 1) := by
        have : i ≠ x.length := by omega
        simp [place, hk, this, hi, hx0, hw, List.getD_eq_getElem?_getD, div_self (sub_ne_zero.mpr hwx.ne')]
      obtain ⟨M, hM, hb⟩ := LogI.evaluate_spec hs hc h hsym x0 (A := C) (B := A) (by rw [hp]; exact hC) (by rw [hp]; exact hA)
      rw [hp] at hb
      exact hfin M hM (between_one hb)

/-- every interpolated matrix is positive definite, hence symmetric -/
theorem C64_posDef {solver : EigenSolver} (hs : SolvesSym solver) (hc : Converges solver) {x : List ℝ} {ms : List MatX} {l : LogI} (h : LogI.ctor solver x ms = .ok l)
    (hsym : ∀ A ∈ ms, (A.sq l.n).IsSymm) (q : ℝ) : ∃ M, l.evaluate solver q = .ok M ∧ M.PosDef ∧ M.IsSymm := by
  obtain ⟨h2, hlen, hx, hdim, hlx, hm, hlog⟩ := LogI.ctor_ok hs h
  obtain ⟨p1, p2⟩ := place_lt (x := x) (by omega) q
  obtain ⟨A, hA⟩ := exists_at (v := ms) (i := (place x q).1) (by omega)
  obtain ⟨B, hB⟩ := exists_at (v := ms) (i := (place x q).2.1) (by omega)
  obtain ⟨M, hM, hb⟩ := LogI.evaluate_spec hs hc h hsym q hA hB
  exact ⟨M, hM, hb.posDef, PosDef.isSymm' hb.posDef⟩

/-- the data are reproduced at the nodes -/
theorem C64_nodes {solver : EigenSolver} (hs : SolvesSym solver) (hc : Converges solver) {x : List ℝ} {ms : List MatX} {l : LogI} (h : LogI.ctor solver x ms = .ok l)
    (hsym : ∀ A ∈ ms, (A.sq l.n).IsSymm) {i : ℕ} {a : ℝ} {A : MatX} (ha : x[i]? = some a) (hA : ms[i]? = some A) : l.evaluate solver a = .ok (A.sq l.n) := by
  obtain ⟨h2, hlen, hx, hdim, hlx, hm, hlog⟩ := LogI.ctor_ok hs h
  have hi := at_lt ha
  by_cases hlast : i + 1 < x.length
  · obtain ⟨x1, hx1⟩ := exists_at (v := x) (i := i + 1) hlast
    obtain ⟨B, hB⟩ := exists_at (v := ms) (i := i + 1) (by omega)
    have h01 : a < x1 := pairwise_at hx (Nat.lt_succ_self i) ha hx1
    obtain ⟨M, hM, hb⟩ := C64_line hs hc h hsym ha hx1 hA hB le_rfl h01.le
    rw [sub_self, zero_div] at hb
    rw [hM, between_zero hb]
  · obtain ⟨j, rfl⟩ : ∃ j, i = j + 1 := ⟨i - 1, by omega⟩
    obtain ⟨x0, hx0⟩ := exists_at (v := x) (i := j) (by omega)
    obtain ⟨C, hC⟩ := exists_at (v := ms) (i := j) (by omega)
    have h01 : x0 < a := pairwise_at hx (Nat.lt_succ_self j) hx0 ha
    obtain ⟨M, hM, hb⟩ := C64_line hs hc h hsym hx0 ha hC hA h01.le le_rfl
    rw [div_self (sub_ne_zero.mpr h01.ne')] at hb
    rw [hM, between_one hb]

/-- on an interval whose two matrices are equal the value is that matrix -/
theorem C64_constant {solver : EigenSolver} (hs : SolvesSym solver) (hc : Converges solver) {x : List ℝ} {ms : List MatX} {l : LogI} (h : LogI.ctor solver x ms = .ok l)
    (hsym : ∀ A ∈ ms, (A.sq l.n).IsSymm) {i : ℕ} {x0 x1 q : ℝ} {A B : MatX} (hx0 : x[i]? = some x0) (hx1 : x[i + 1]? = some x1) (hA : ms[i]? = some A)
    (hB : ms[i + 1]? = some B) (hAB : A.sq l.n = B.sq l.n) (h0 : x0 ≤ q) (h1 : q ≤ x1) : l.evaluate solver q = .ok (A.sq l.n) := by
  obtain ⟨M, hM, hb⟩ := C64_line hs hc h hsym hx0 hx1 hA hB h0 h1
  rw [← hAB] at hb
  rw [hM, between_self hb]

/-- outside the nodes the end matrices are held -/
theorem C64_outside {solver : EigenSolver} (hs : SolvesSym solver) {x : List ℝ} {ms : List MatX} {l : LogI} (h : LogI.ctor solver x ms = .ok l) {first last : ℝ} {A B : MatX}
    (hf : x[0]? = some first) (hl : x[x.length - 1]? = some last) (hA : ms[0]? = some A) (hB : ms[x.length - 1]? = some B) (q : ℝ) :
    (q ≤ first → l.evaluate solver q = .ok (A.sq l.n)) ∧ (last < q → l.evaluate solver q = .ok (B.sq l.n)) := by
  obtain ⟨h2, hlen, hx, hdim, hlx, hm, hlog⟩ := LogI.ctor_ok hs h
  have hxle : x.Pairwise (· ≤ ·) := hx.imp fun h => h.le
  constructor
  · intro hq
    have hk : lowerBound x q = 0 := lowerBound_eq hxle (by omega) (fun a h0 => by omega) (fun a ha => by rw [hf] at ha; cases ha; exact hq)
    have hr : l.findIndexRange q = (0, 0) := by simp [LogI.findIndexRange, hlx, hk]
    rw [LogI.evaluate, hr]
    exact vecAt_some (by rw [hm, List.getElem?_map, hA]; rfl)
  · intro hq
    have hk : lowerBound x q = x.length := lowerBound_eq hxle le_rfl (fun a _ ha => by rw [hl] at ha; cases ha; exact hq) (fun a ha => by simp at ha)
    have hx0 : x ≠ [] := by rintro rfl; simp at h2
    have hr : l.findIndexRange q = (x.length - 1, x.length - 1) := by simp [LogI.findIndexRange, hlx, hk, hx0]
    rw [LogI.evaluate, hr]
    simp only [if_true]
    exact vecAt_some (by rw [hm, List.getElem?_map, hB]; rfl)

/-- evaluating at a vector of abscissae is evaluating at each of them -/
theorem C64_vector {solver : EigenSolver} (hs : SolvesSym solver) (hc : Converges solver) {x : List ℝ} {ms : List MatX} {l : LogI} (h : LogI.ctor solver x ms = .ok l)
    (hsym : ∀ A ∈ ms, (A.sq l.n).IsSymm) (qs : List ℝ) :
    ∃ Ms, l.evaluateAll solver qs = .ok Ms ∧ Ms.length = qs.length ∧ ∀ (i : ℕ) (q : ℝ), qs[i]? = some q → ∃ M, Ms[i]? = some M ∧ l.evaluate solver q = .ok M := by
  induction qs with
  | nil => exact ⟨[], rfl, rfl, by simp⟩
  | cons q qs ih =>
    obtain ⟨Ms, h1, h2, h3⟩ := ih
    obtain ⟨M, hM, -⟩ := C64_posDef hs hc h hsym q
    refine ⟨M :: Ms, by simp [LogI.evaluateAll, hM, h1], by simp [h2], fun i r hr => ?_⟩
    cases i with
    | zero =>
      simp only [List.getElem?_cons_zero, Option.some.injEq] at hr ⊢
      exact ⟨M, rfl, hr ▸ hM⟩
    | succ i =>
      simp only [List.getElem?_cons_succ] at hr ⊢
      exact h3 i r hr

/-- the matrices diag (1, 1) and diag (2, 5), for the examples -/
def exampleMats : List MatX := [⟨2, 2, fun i j => if i = j then 1 else 0⟩, ⟨2, 2, fun i j => if i = j then (if i = 0 then 2 else 5) else 0⟩]

theorem exampleMats_diagonal : ∀ A ∈ exampleMats, ∃ d : Fin 2 → ℝ, A.sq 2 = diagonal d ∧ ∀ i, 0 < d i := by
  intro A hA
  simp only [exampleMats, List.mem_cons, List.not_mem_nil, or_false] at hA
  rcases hA with rfl | rfl
  · refine ⟨fun _ => 1, ?_, fun _ => one_pos⟩
    ext i j
    fin_cases i <;> fin_cases j <;> simp [MatX.sq, diagonal]
  · refine ⟨fun i => if i = 0 then 2 else 5, ?_, fun i => by dsimp only; split_ifs <;> norm_num⟩
    ext i j
    fin_cases i <;> fin_cases j <;> simp [MatX.sq, diagonal]

example : ∃ (solver : EigenSolver) (l : LogI), SolvesSym solver ∧ Converges solver ∧ LogI.ctor solver [0, 1] exampleMats = .ok l ∧ ∀ A ∈ exampleMats, (A.sq l.n).IsSymm := by
  obtain ⟨solver, hs, hc⟩ := C64_contract
  obtain ⟨l, hl, hn⟩ := C64_accepts hs hc (x := [0, 1]) (ms := exampleMats) (n := 2) (by simp) (by simp [exampleMats]) (by simp) (by simp [exampleMats]) (fun A hA => by
    obtain ⟨d, hd, hp⟩ := exampleMats_diagonal A hA
    rw [hd, Matrix.posDef_diagonal_iff]
    exact hp)
  refine ⟨solver, l, hs, hc, hl, fun A hA => ?_⟩
  rw [hn]
  obtain ⟨d, hd, hp⟩ := exampleMats_diagonal A hA
  rw [hd]
  exact Matrix.isSymm_diagonal d

/-- symmetry is not tested: a matrix whose lower triangle is that of a positive definite matrix is accepted whatever its upper triangle, and answered as it is outside the
nodes and at the first one -/
theorem C64_asymmetric_violated : ∃ (solver : EigenSolver) (l : LogI) (M : SqMat l.n), SolvesSym solver ∧ Converges solver ∧
    LogI.ctor solver [0, 1] [⟨2, 2, fun i j => if i = j then 1 else if i < j then 7 else 0⟩, ⟨2, 2, fun i j => if i = j then 1 else 0⟩] = .ok l ∧
    l.evaluate solver 0 = .ok M ∧ ¬ M.IsSymm := by
  obtain ⟨solver, hs, hc⟩ := C64_contract
  have hpd : ∀ B ∈ [(⟨2, 2, fun i j => if i = j then 1 else if i < j then 7 else 0⟩ : MatX), ⟨2, 2, fun i j => if i = j then 1 else 0⟩], (lowerSym (B.sq 2)).PosDef := by
    intro B hB
    have : lowerSym (B.sq 2) = diagonal fun _ => 1 := by
      simp only [List.mem_cons, List.not_mem_nil, or_false] at hB
      rcases hB with rfl | rfl
      · ext i j
        fin_cases i <;> fin_cases j <;> simp [lowerSym, MatX.sq, diagonal]
      · ext i j
        fin_cases i <;> fin_cases j <;> simp [lowerSym, MatX.sq, diagonal]
    rw [this, Matrix.posDef_diagonal_iff]
    exact fun _ => one_pos
  obtain ⟨Ls, hLs⟩ := (LogI.logAll_spec hs
    ([(⟨2, 2, fun i j => if i = j then 1 else if i < j then 7 else 0⟩ : MatX), ⟨2, 2, fun i j => if i = j then 1 else 0⟩].map fun B => B.sq 2)).2.2 hc (fun A hA => by
    obtain ⟨B, hB, rfl⟩ := List.mem_map.mp hA
    exact hpd B hB)
  have hctor : LogI.ctor solver [0, 1] [⟨2, 2, fun i j => if i = j then 1 else if i < j then 7 else 0⟩, ⟨2, 2, fun i j => if i = j then 1 else 0⟩] =
      .ok ⟨2, [0, 1], [(⟨2, 2, fun i j => if i = j then 1 else if i < j then 7 else 0⟩ : MatX), ⟨2, 2, fun i j => if i = j then 1 else 0⟩].map fun B => B.sq 2, Ls⟩ := by
    unfold LogI.ctor
    have hi : LogI.increasing [0, 1] = true := (LogI.increasing_iff _).mpr (by simp)
    simp only [hi, hLs]
    simp
  refine ⟨solver, _, _, hs, hc, hctor, (C64_outside hs hctor (first := 0) (last := 1) rfl rfl rfl rfl 0).1 le_rfl, fun hsym => ?_⟩
  have := hsym.apply 0 1
  simp [MatX.sq] at this

/-! ## C88 -/

/-- the value of an interpolant made from matrices related one by one to those of another is related in the same way, if the relation is kept between matrices -/
theorem related {solver : EigenSolver} (hs : SolvesSym solver) (hc : Converges solver) {x : List ℝ} {ms ms' : List MatX} {n : ℕ} {xs xs' : List ℝ} {Ms Ms' Ls Ls' : List (SqMat n)}
    (h : LogI.ctor solver x ms = .ok ⟨n, xs, Ms, Ls⟩) (h' : LogI.ctor solver x ms' = .ok ⟨n, xs', Ms', Ls'⟩) (hsym : ∀ A ∈ ms, (A.sq n).IsSymm)
    (hsym' : ∀ A ∈ ms', (A.sq n).IsSymm) (f : SqMat n → SqMat n) (hf : ∀ (i : ℕ) A A', ms[i]? = some A → ms'[i]? = some A' → A'.sq n = f (A.sq n))
    (hb : ∀ A B r M, Between A B r M → Between (f A) (f B) r (f M)) (q : ℝ) :
    ∃ M, LogI.evaluate solver ⟨n, xs, Ms, Ls⟩ q = .ok M ∧ LogI.evaluate solver ⟨n, xs', Ms', Ls'⟩ q = .ok (f M) := by
  obtain ⟨h2, hlen, -⟩ := LogI.ctor_ok hs h
  obtain ⟨-, hlen', -⟩ := LogI.ctor_ok hs h'
  obtain ⟨p1, p2⟩ := place_lt (x := x) (by omega) q
  obtain ⟨A, hA⟩ := exists_at (v := ms) (i := (place x q).1) (by omega)
  obtain ⟨B, hB⟩ := exists_at (v := ms) (i := (place x q).2.1) (by omega)
  obtain ⟨A', hA'⟩ := exists_at (v := ms') (i := (place x q).1) (by omega)
  obtain ⟨B', hB'⟩ := exists_at (v := ms') (i := (place x q).2.1) (by omega)
  obtain ⟨M, hM, hbM⟩ := LogI.evaluate_spec hs hc h hsym q hA hB
  obtain ⟨M', hM', hbM'⟩ := LogI.evaluate_spec hs hc h' hsym' q hA' hB'
  refine ⟨M, hM, ?_⟩
  simp only [] at hbM hbM'
  rw [hf _ A A' hA hA', hf _ B B' hB hB'] at hbM'
  rw [hM', hbM'.unique (hb _ _ _ _ hbM)]

/-- the interpolant of matrices turned by a rotation or reflection is the interpolant turned -/
theorem C88_rotation {solver : EigenSolver} (hs : SolvesSym solver) (hc : Converges solver) {x : List ℝ} {ms ms' : List MatX} {n : ℕ} {xs xs' : List ℝ}
    {Ms Ms' Ls Ls' : List (SqMat n)} (h : LogI.ctor solver x ms = .ok ⟨n, xs, Ms, Ls⟩) (h' : LogI.ctor solver x ms' = .ok ⟨n, xs', Ms', Ls'⟩)
    (hsym : ∀ A ∈ ms, (A.sq n).IsSymm) (hsym' : ∀ A ∈ ms', (A.sq n).IsSymm) {R : SqMat n} (hR : R.transpose * R = 1)
    (hf : ∀ (i : ℕ) A A', ms[i]? = some A → ms'[i]? = some A' → A'.sq n = R * A.sq n * R.transpose) (q : ℝ) :
    ∃ M, LogI.evaluate solver ⟨n, xs, Ms, Ls⟩ q = .ok M ∧ LogI.evaluate solver ⟨n, xs', Ms', Ls'⟩ q = .ok (R * M * R.transpose) :=
  related hs hc h h' hsym hsym' (fun A => R * A * R.transpose) hf (fun _ _ _ _ hb => hb.rotate hR) q

/-- the interpolant of the inverses is the inverse of the interpolant -/
theorem C88_inverse {solver : EigenSolver} (hs : SolvesSym solver) (hc : Converges solver) {x : List ℝ} {ms ms' : List MatX} {n : ℕ} {xs xs' : List ℝ}
    {Ms Ms' Ls Ls' : List (SqMat n)} (h : LogI.ctor solver x ms = .ok ⟨n, xs, Ms, Ls⟩) (h' : LogI.ctor solver x ms' = .ok ⟨n, xs', Ms', Ls'⟩)
    (hsym : ∀ A ∈ ms, (A.sq n).IsSymm) (hsym' : ∀ A ∈ ms', (A.sq n).IsSymm)
    (hf : ∀ (i : ℕ) A A', ms[i]? = some A → ms'[i]? = some A' → A'.sq n = (A.sq n)⁻¹) (q : ℝ) :
    ∃ M, LogI.evaluate solver ⟨n, xs, Ms, Ls⟩ q = .ok M ∧ LogI.evaluate solver ⟨n, xs', Ms', Ls'⟩ q = .ok M⁻¹ :=
  related hs hc h h' hsym hsym' (fun A => A⁻¹) hf (fun _ _ _ _ hb => hb.inv) q

/-- the interpolant of matrices multiplied by a positive number is the interpolant multiplied by it -/
theorem C88_scale {solver : EigenSolver} (hs : SolvesSym solver) (hc : Converges solver) {x : List ℝ} {ms ms' : List MatX} {n : ℕ} {xs xs' : List ℝ}
    {Ms Ms' Ls Ls' : List (SqMat n)} (h : LogI.ctor solver x ms = .ok ⟨n, xs, Ms, Ls⟩) (h' : LogI.ctor solver x ms' = .ok ⟨n, xs', Ms', Ls'⟩)
    (hsym : ∀ A ∈ ms, (A.sq n).IsSymm) (hsym' : ∀ A ∈ ms', (A.sq n).IsSymm) {c : ℝ} (hcp : 0 < c)
    (hf : ∀ (i : ℕ) A A', ms[i]? = some A → ms'[i]? = some A' → A'.sq n = c • A.sq n) (q : ℝ) :
    ∃ M, LogI.evaluate solver ⟨n, xs, Ms, Ls⟩ q = .ok M ∧ LogI.evaluate solver ⟨n, xs', Ms', Ls'⟩ q = .ok (c • M) :=
  related hs hc h h' hsym hsym' (fun A => c • A) hf (fun _ _ _ _ hb => hb.scale hcp) q

example : ∃ (solver : EigenSolver) (xs xs' : List ℝ) (Ms Ms' Ls Ls' : List (SqMat 2)), SolvesSym solver ∧ Converges solver ∧
    LogI.ctor solver [0, 1] exampleMats = .ok ⟨2, xs, Ms, Ls⟩ ∧ LogI.ctor solver [0, 1] (exampleMats.map fun A => ⟨A.rows, A.cols, fun i j => 3 * A.elem i j⟩) = .ok ⟨2, xs', Ms', Ls'⟩ := by
  obtain ⟨solver, hs, hc⟩ := C64_contract
  obtain ⟨⟨n, xs, Ms, Ls⟩, hl, hn⟩ := C64_accepts hs hc (x := [0, 1]) (ms := exampleMats) (n := 2) (by simp) (by simp [exampleMats]) (by simp) (by simp [exampleMats])
    (fun A hA => by
      obtain ⟨d, hd, hp⟩ := exampleMats_diagonal A hA
      rw [hd, Matrix.posDef_diagonal_iff]
      exact hp)
  obtain ⟨⟨n', xs', Ms', Ls'⟩, hl', hn'⟩ := C64_accepts hs hc (x := [0, 1]) (ms := exampleMats.map fun A => ⟨A.rows, A.cols, fun i j => 3 * A.elem i j⟩) (n := 2) (by simp)
    (by simp [exampleMats]) (by simp) (by simp [exampleMats]) (fun B hB => by
      obtain ⟨A, hA, rfl⟩ := List.mem_map.mp hB
      obtain ⟨d, hd, hp⟩ := exampleMats_diagonal A hA
      have : MatX.sq ⟨A.rows, A.cols, fun i j => 3 * A.elem i j⟩ 2 = diagonal fun i => 3 * d i := by
        ext i j
        have := congrFun (congrFun hd i) j
        simp only [MatX.sq] at this ⊢
        rw [this]
        by_cases e : i = j <;> simp [e, diagonal]
      rw [this, Matrix.posDef_diagonal_iff]
      exact fun i => mul_pos (by norm_num) (hp i))
  cases hn
  cases hn'
  exact ⟨solver, xs, xs', Ms, Ms', Ls, Ls', hs, hc, hl, hl'⟩

/-- two eigensolvers that keep the contract give the same values -/
theorem C88_solver {solver solver' : EigenSolver} (hs : SolvesSym solver) (hc : Converges solver) (hs' : SolvesSym solver') (hc' : Converges solver') {x : List ℝ}
    {ms : List MatX} {n : ℕ} {xs xs' : List ℝ} {Ms Ms' Ls Ls' : List (SqMat n)} (h : LogI.ctor solver x ms = .ok ⟨n, xs, Ms, Ls⟩)
    (h' : LogI.ctor solver' x ms = .ok ⟨n, xs', Ms', Ls'⟩) (hsym : ∀ A ∈ ms, (A.sq n).IsSymm) (q : ℝ) :
    LogI.evaluate solver ⟨n, xs, Ms, Ls⟩ q = LogI.evaluate solver' ⟨n, xs', Ms', Ls'⟩ q := by
  obtain ⟨h2, hlen, -⟩ := LogI.ctor_ok hs h
  obtain ⟨p1, p2⟩ := place_lt (x := x) (by omega) q
  obtain ⟨A, hA⟩ := exists_at (v := ms) (i := (place x q).1) (by omega)
  obtain ⟨B, hB⟩ := exists_at (v := ms) (i := (place x q).2.1) (by omega)
  obtain ⟨M, hM, hbM⟩ := LogI.evaluate_spec hs hc h hsym q hA hB
  obtain ⟨M', hM', hbM'⟩ := LogI.evaluate_spec hs' hc' h' hsym q hA hB
  simp only [] at hbM hbM'
  rw [hM, hM', hbM.unique hbM']

/-- between two neighbouring nodes the determinant is the weighted geometric mean of the two determinants, so lies between them -/
theorem C88_determinant {solver : EigenSolver} (hs : SolvesSym solver) (hc : Converges solver) {x : List ℝ} {ms : List MatX} {l : LogI}
    (h : LogI.ctor solver x ms = .ok l) (hsym : ∀ A ∈ ms, (A.sq l.n).IsSymm) {i : ℕ} {x0 x1 q : ℝ} {A B : MatX} (hx0 : x[i]? = some x0) (hx1 : x[i + 1]? = some x1)
    (hA : ms[i]? = some A) (hB : ms[i + 1]? = some B) (h0 : x0 ≤ q) (h1 : q ≤ x1) :
    ∃ M, l.evaluate solver q = .ok M ∧ M.det = (A.sq l.n).det ^ (1 - (q - x0) / (x1 - x0)) * (B.sq l.n).det ^ ((q - x0) / (x1 - x0)) ∧
      min (A.sq l.n).det (B.sq l.n).det ≤ M.det ∧ M.det ≤ max (A.sq l.n).det (B.sq l.n).det := by
  obtain ⟨h2, hlen, hx, hdim, hlx, hm, hlog⟩ := LogI.ctor_ok hs h
  obtain ⟨M, hM, hb⟩ := C64_line hs hc h hsym hx0 hx1 hA hB h0 h1
  refine ⟨M, hM, hb.det, ?_⟩
  have h01 : 0 < x1 - x0 := sub_pos.mpr (pairwise_at hx (Nat.lt_succ_self i) hx0 hx1)
  have hr0 : 0 ≤ (q - x0) / (x1 - x0) := div_nonneg (by linarith) h01.le
  have hr1 : (q - x0) / (x1 - x0) ≤ 1 := (div_le_one h01).mpr (by linarith)
  obtain ⟨L, K, hL, hK, hN⟩ := hb
  rw [hN.det, hL.det, hK.det, Matrix.trace_add, Matrix.trace_smul, Matrix.trace_smul]
  simp only [smul_eq_mul]
  generalize (q - x0) / (x1 - x0) = r at hr0 hr1
  rcases le_total L.trace K.trace with hle | hle
  · rw [min_eq_left (Real.exp_le_exp.mpr hle), max_eq_right (Real.exp_le_exp.mpr hle)]
    constructor <;> apply Real.exp_le_exp.mpr
    · nlinarith [mul_le_mul_of_nonneg_left hle hr0]
    · nlinarith [mul_le_mul_of_nonneg_left hle (sub_nonneg.mpr hr1)]
  · rw [min_eq_right (Real.exp_le_exp.mpr hle), max_eq_left (Real.exp_le_exp.mpr hle)]
    constructor <;> apply Real.exp_le_exp.mpr
    · nlinarith [mul_le_mul_of_nonneg_left hle (sub_nonneg.mpr hr1)]
    · nlinarith [mul_le_mul_of_nonneg_left hle hr0]

/-- the interpolation of the same matrices read backwards gives the same values read backwards -/
theorem C88_reversed {solver : EigenSolver} (hs : SolvesSym solver) (hc : Converges solver) {x0 x1 : ℝ} {A B : MatX} {n : ℕ} {xs xs' : List ℝ} {Ms Ms' Ls Ls' : List (SqMat n)}
    (h : LogI.ctor solver [x0, x1] [A, B] = .ok ⟨n, xs, Ms, Ls⟩) (h' : LogI.ctor solver [-x1, -x0] [B, A] = .ok ⟨n, xs', Ms', Ls'⟩) (hA : (A.sq n).IsSymm)
    (hB : (B.sq n).IsSymm) {q : ℝ} (h0 : x0 ≤ q) (h1 : q ≤ x1) :
    LogI.evaluate solver ⟨n, xs, Ms, Ls⟩ q = LogI.evaluate solver ⟨n, xs', Ms', Ls'⟩ (-q) := by
  have hlt : x0 < x1 := by
    have := (LogI.ctor_ok hs h).2.2.1
    simpa using this
  obtain ⟨M, hM, hb⟩ := C64_line hs hc h (by simp [hA, hB]) (i := 0) (x0 := x0) (x1 := x1) (A := A) (B := B) rfl rfl rfl rfl h0 h1
  obtain ⟨N, hN, hb'⟩ := C64_line hs hc h' (by simp [hA, hB]) (i := 0) (x0 := -x1) (x1 := -x0) (q := -q) (A := B) (B := A) rfl rfl rfl rfl (by linarith) (by linarith)
  simp only [] at hb hb'
  have hr : (-q - -x1) / (-x0 - -x1) = 1 - (q - x0) / (x1 - x0) := by
    have : x1 - x0 ≠ 0 := sub_ne_zero.mpr hlt.ne'
    rw [show -x0 - -x1 = x1 - x0 by ring]
    field_simp
    ring
  rw [hr] at hb'
  rw [hM, hN, hb.swap.unique hb']

end Verif.Props
