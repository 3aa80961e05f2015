import Verif.Model.DoubleMove
import Verif.Spec.DoubleMove
import Verif.Props.DoubleAround
import Verif.Lemmas.DoubleBasis

/-!
# Lemmas for C144: objects of space moved several times in double precision
-/

namespace Verif.Props

open Verif Verif.Spec Verif.Double

/-- the transformation is made from a rotation vector or a translation vector and stands for this motion -/
inductive Makes (o : Bool) (sin cos : ℝ → ℝ) : DTrans → Motion → Prop where
  | turn {e x y z t : ℝ} {eps : F64 ℝ} {a : DAngle ℝ} {r : DRotVec} {T : DTrans} (he : e ≤ 1 / 8) (hx : Representable x ∧ |x| ≤ 2 ^ 500) (hy : Representable y ∧ |y| ≤ 2 ^ 500)
      (hz : Representable z ∧ |z| ≤ 2 ^ 500) (ha : a.inUnit .radian = .ok (.fin t)) (ht : Representable t) (h : DRotVec.ctor o (.fin e) ⟨.fin x, .fin y, .fin z⟩ a = .ok r)
      (hT : DTrans.Rotation o eps sin cos r = .ok T) : Makes o sin cos T (.turn (turnAbout x y z t))
  | shift {v : V3} {T : DTrans} (hv : Within v) (hT : DTrans.Translation (doubles v) = .ok T) : Makes o sin cos T (.shift (pure v))

namespace Move

/-- three numbers of the format -/
def Rep (b : V3) : Prop := Representable b.x ∧ Representable b.y ∧ Representable b.z

theorem within_of {b : V3} (h : Rep b) (hn : ‖pure b‖ ≤ 2 ^ 499) : Within b := by
  rw [pure_length] at hn
  obtain ⟨h1, h2, h3⟩ := within_length b
  exact ⟨⟨h.1, h1.trans hn⟩, ⟨h.2.1, h2.trans hn⟩, ⟨h.2.2, h3.trans hn⟩⟩

theorem sum_rep (q : Order4) {a b c d : F64 ℝ} {x : ℝ} (h : DT3.sum q a b c d = .fin x) : Representable x := by
  cases q <;> exact Around.add_rep h

theorem head_rep (q : Order4) {m : Fin 4 → Fin 4 → F64 ℝ} {v : DVec} {w : F64 ℝ} {b : V3} (h : DT3.head q m v w = doubles b) : Rep b :=
  ⟨sum_rep q (congrArg DVec.x h), sum_rep q (congrArg DVec.y h), sum_rep q (congrArg DVec.z h)⟩

/-- a rotation turns points and directions -/
theorem turn_step (o : Bool) (q : Order4) {sin cos : ℝ → ℝ} (hs : Accurate sin Real.sin) (hc : Accurate cos Real.cos) {T : DTrans} {w : Quaternion ℝ} (h : Makes o sin cos T (.turn w)) :
    ‖w‖ = 1 ∧ T.type = .rotation ∧ T.rigid = true ∧ ∀ a : V3, Within a → ∃ b, Rep b ∧ DT3.applyTo q T.matrix (doubles a) = .ok (doubles b) ∧ DT3.applyToVector q T.matrix (doubles a) = doubles b ∧
      ‖pure b - w * (pure a * star w)‖ ≤ 2 ^ (-45 : ℤ) * ‖pure a‖ + 2 ^ (-1070 : ℤ) := by
  cases h with
  | turn he hx hy hz ha ht h hT =>
    obtain ⟨M, hM, e⟩ := ok_of_bind hT
    obtain rfl := Except.ok.inj e
    obtain ⟨-, hd⟩ := accepted_axis o he hx hy hz h
    obtain ⟨hS0, -⟩ := DVec.nrm3_near o hd
    refine ⟨turnAbout_norm (by simpa only [sq] using hS0) _, rfl, rfl, fun a hw => ?_⟩
    obtain ⟨b, h1, h2, h3⟩ := (C141_rotation o q hs hc he hx hy hz ha ht h).2 _ M hM a hw
    exact ⟨b, head_rep q h2, h1, h2, h3⟩

/-- a translation moves points and leaves directions -/
theorem shift_step (o : Bool) (q : Order4) {sin cos : ℝ → ℝ} {T : DTrans} {w : Quaternion ℝ} (h : Makes o sin cos T (.shift w)) :
    T.type = .translation ∧ T.rigid = true ∧ ∀ a : V3, Within a → DT3.applyToVector q T.matrix (doubles a) = doubles a ∧ ∃ b, Rep b ∧ DT3.applyTo q T.matrix (doubles a) = .ok (doubles b) ∧
      ‖pure b - (pure a + w)‖ ≤ 2 * DQuat.u * (‖pure a‖ + ‖w‖) := by
  cases h with
  | @shift v _ hv hT =>
    obtain ⟨M, hM, e⟩ := ok_of_bind hT
    obtain rfl := Except.ok.inj e
    refine ⟨rfl, rfl, fun a ha => ?_⟩
    have big : (2 : ℝ) ^ 499 < 2 ^ 1024 := pow_lt_pow_right₀ one_lt_two (by norm_num)
    have fa : FiniteDoubles a := ⟨⟨ha.x.1, ha.x.2.trans_lt big⟩, ⟨ha.y.1, ha.y.2.trans_lt big⟩, ⟨ha.z.1, ha.z.2.trans_lt big⟩⟩
    have fv : FiniteDoubles v := ⟨⟨hv.x.1, hv.x.2.trans_lt big⟩, ⟨hv.y.1, hv.y.2.trans_lt big⟩, ⟨hv.z.1, hv.z.2.trans_lt big⟩⟩
    obtain ⟨m, h1, h2, h3, -⟩ := C119_translation q fa fv
    rw [h1] at hM
    obtain rfl := Except.ok.inj hM
    refine ⟨h3, ⟨rnd (a.x + v.x), rnd (a.y + v.y), rnd (a.z + v.z)⟩, ⟨rnd_representable _, rnd_representable _, rnd_representable _⟩, ?_, ?_⟩
    · have k : ∀ x y : ℝ, |x| ≤ 2 ^ 499 → |y| ≤ 2 ^ 499 → (F64.fin x).add (.fin y) = .fin (rnd (x + y)) := fun x y hx hy => by
        rw [F64.add]
        refine F64.ofExact_fin (lt_of_le_of_lt (DLinear.rnd_abs_le (DQuat.rep_two 500) ?_) (DQuat.two_lt (by norm_num)))
        rw [pow_succ, mul_two]
        exact (abs_add_le x y).trans (add_le_add hx hy)
      rw [h2]
      simp only [DVec.add, doubles, k _ _ ha.x.2 hv.x.2, k _ _ ha.y.2 hv.y.2, k _ _ ha.z.2 hv.z.2]
    · have u0 := DQuat.u_pos
      rw [← pure_plus, pure_sub]
      have e : ∀ x y X Y : ℝ, Representable x → Representable y → |x| ≤ X → |y| ≤ Y → |rnd (x + y) - (x + y)| ≤ DQuat.u * (X + Y) := fun x y X Y hx hy h1 h2 => by
        have := rnd_add_error hx hy
        have k := abs_add_le x y
        rw [show (2 : ℝ) ^ (-53 : ℤ) = DQuat.u by rw [DQuat.u]; norm_num] at this
        exact this.trans (mul_le_mul_of_nonneg_left (by linarith) u0.le)
      obtain ⟨a1, a2, a3⟩ := within_length a
      obtain ⟨v1, v2, v3⟩ := within_length v
      have := Around.pure_each (v := (⟨rnd (a.x + v.x), rnd (a.y + v.y), rnd (a.z + v.z)⟩ : V3) - (a + v)) (e _ _ _ _ ha.x.1 hv.x.1 a1 v1) (e _ _ _ _ ha.y.1 hv.y.1 a2 v2) (e _ _ _ _ ha.z.1 hv.z.1 a3 v3)
      rw [pure_length a, pure_length v]
      have p : 0 ≤ DQuat.u * (a.norm + v.norm) := mul_nonneg u0.le (add_nonneg a.norm_nonneg v.norm_nonneg)
      linarith

/-- one motion of a point, and of a direction -/
theorem one_step (o : Bool) (q : Order4) {sin cos : ℝ → ℝ} (hs : Accurate sin Real.sin) (hc : Accurate cos Real.cos) {T : DTrans} {m : Motion} (h : Makes o sin cos T m) :
    T.isDefined = true ∧ T.type ≠ .identity ∧ T.rigid = true ∧ ∀ a : V3, Within a →
      (∃ b, Rep b ∧ DT3.applyTo q T.matrix (doubles a) = .ok (doubles b) ∧ ‖pure b - m.point (pure a)‖ ≤ 2 ^ (-45 : ℤ) * (‖pure a‖ + m.reach) + 2 ^ (-1070 : ℤ)) ∧
      ∃ b, Rep b ∧ DT3.applyToVector q T.matrix (doubles a) = doubles b ∧ ‖pure b - m.direction (pure a)‖ ≤ 2 ^ (-45 : ℤ) * ‖pure a‖ + 2 ^ (-1070 : ℤ) := by
  have t0 := two_zpow_pos (α := ℝ) (-1070)
  have f := e45.1
  have u0 := DQuat.u_pos
  cases m with
  | turn w =>
    obtain ⟨-, h1, h2, h3⟩ := turn_step o q hs hc h
    refine ⟨by rw [DTrans.isDefined, h1]; rfl, by rw [h1]; decide, h2, fun a ha => ?_⟩
    obtain ⟨b, k0, k1, k2, k3⟩ := h3 a ha
    exact ⟨⟨b, k0, k1, by rw [Motion.reach, add_zero]; exact k3⟩, b, k0, k2, k3⟩
  | shift w =>
    obtain ⟨h1, h2, h3⟩ := shift_step o q h
    refine ⟨by rw [DTrans.isDefined, h1]; rfl, by rw [h1]; decide, h2, fun a ha => ?_⟩
    obtain ⟨k, b, k0, k1, k2⟩ := h3 a ha
    refine ⟨⟨b, k0, k1, k2.trans ?_⟩, a, ⟨ha.x.1, ha.y.1, ha.z.1⟩, k, ?_⟩
    · have p : 0 ≤ DQuat.u * (‖pure a‖ + ‖w‖) := by positivity
      rw [Motion.reach, f]
      generalize (2 : ℝ) ^ (-1070 : ℤ) = r at *
      linarith
    · rw [Motion.direction, sub_self, norm_zero]; positivity

/-- exact motions keep distances -/
theorem keeps {o : Bool} {sin cos : ℝ → ℝ} (hs : Accurate sin Real.sin) (hc : Accurate cos Real.cos) {T : DTrans} {m : Motion} (h : Makes o sin cos T m) (x y : Quaternion ℝ) :
    ‖m.point x - m.point y‖ = ‖x - y‖ ∧ ‖m.direction x - m.direction y‖ = ‖x - y‖ ∧ ‖m.point x‖ ≤ ‖x‖ + m.reach ∧ ‖m.direction x‖ = ‖x‖ ∧ 0 ≤ m.reach := by
  cases m with
  | turn w =>
    have n := (turn_step o .left hs hc h).1
    have k : ‖w * (x * star w) - w * (y * star w)‖ = ‖x - y‖ := by rw [← mul_sub, ← sub_mul, norm_mul, norm_mul, norm_star, n]; ring
    have k' : ‖w * (x * star w)‖ = ‖x‖ := by rw [norm_mul, norm_mul, norm_star, n]; ring
    exact ⟨k, k, by rw [Motion.reach, add_zero]; exact k'.le, k', le_refl _⟩
  | shift w => exact ⟨by simp [Motion.point], rfl, norm_add_le _ _, rfl, norm_nonneg _⟩

/-- the reach of several motions -/
noncomputable def reaches (r : Motion → ℝ) (ms : List Motion) : ℝ := (ms.map r).sum

/-- the errors of several motions add up: each part of an object that is moved with a small error in each step is near the exactly moved part at the end -/
theorem drift {ι σ : Type} {o : Bool} {sin cos : ℝ → ℝ} (mk : (ι → V3) → σ) (F : DTrans → σ → Res σ) (g : ι → Motion → Quaternion ℝ → Quaternion ℝ) (r : ι → Motion → ℝ) (I : (ι → V3) → Prop)
    {k τ : ℝ} (k0 : 0 ≤ k) (k1 : k ≤ 2 ^ (-43 : ℤ)) (τ0 : 0 ≤ τ) (τ1 : τ ≤ 1)
    (step : ∀ T m a, Makes o sin cos T m → (∀ i, Within (a i)) → I a → ∃ b, (∀ i, Rep (b i)) ∧ I b ∧ F T (mk a) = .ok (mk b) ∧ ∀ i, ‖pure (b i) - g i m (pure (a i))‖ ≤ k * (‖pure (a i)‖ + r i m) + τ)
    (exact_step : ∀ T m, Makes o sin cos T m → ∀ i x y, ‖g i m x - g i m y‖ = ‖x - y‖ ∧ ‖g i m x‖ ≤ ‖x‖ + r i m ∧ 0 ≤ r i m)
    {S : ι → ℝ} (hS : ∀ i, S i ≤ 2 ^ 490) {ts : List DTrans} {ms : List Motion} (h : List.Forall₂ (Makes o sin cos) ts ms) :
    ∀ (n : ℕ) (a : ι → V3) (x : ι → Quaternion ℝ), n + ms.length ≤ 2 ^ 40 → (∀ i, Rep (a i)) → I a → (∀ i, ‖pure (a i) - x i‖ ≤ n * (2 * k * S i + 2 * τ)) →
      (∀ i, ‖x i‖ + reaches (r i) ms ≤ S i) → ∃ b, (∀ i, Rep (b i)) ∧ I b ∧ DTrans.many F ts (mk a) = .ok (mk b) ∧
        ∀ i, ‖pure (b i) - ms.foldl (fun x m => g i m x) (x i)‖ ≤ (n + ms.length : ℕ) * (2 * k * S i + 2 * τ) := by
  induction h with
  | nil => exact fun n a x hn ha hI hx _ => ⟨a, ha, hI, rfl, by simpa using hx⟩
  | @cons T m ts ms hm hms ih =>
    intro n a x hn ha hI hx hr
    rw [List.length_cons] at hn
    have rs : ∀ i, 0 ≤ reaches (r i) ms := fun i => by
      clear ih hr hn hx
      induction hms with
      | nil => simp [reaches]
      | cons hm' _ ih' => simpa [reaches] using add_nonneg (exact_step _ _ hm' i 0 0).2.2 ih'
    have rc : ∀ i, reaches (r i) (m :: ms) = r i m + reaches (r i) ms := fun i => by simp [reaches]
    have xs : ∀ i, ‖x i‖ ≤ S i := fun i => by
      have := hr i; rw [rc] at this; have := (exact_step T m hm i 0 0).2.2; have := rs i; linarith
    have S0 : ∀ i, 0 ≤ S i := fun i => (norm_nonneg _).trans (xs i)
    have hn' : (n : ℝ) ≤ 2 ^ 40 := by
      have : n ≤ 2 ^ 40 := by omega
      exact_mod_cast this
    have kn : k * n ≤ 1 / 8 := by
      have : k * n ≤ 2 ^ (-43 : ℤ) * 2 ^ 40 := mul_le_mul k1 hn' (by positivity) (by positivity)
      refine this.trans ?_
      norm_num
    have c0 : ∀ i, 0 ≤ 2 * k * S i + 2 * τ := fun i => by have := mul_nonneg k0 (S0 i); linarith
    have d0 : ∀ i, (n : ℝ) * (2 * k * S i + 2 * τ) ≤ S i / 4 + 2 ^ 41 := fun i => by
      have h1 : (n : ℝ) * (2 * k * S i + 2 * τ) = 2 * (k * n) * S i + 2 * n * τ := by ring
      have h2 := mul_le_mul_of_nonneg_right kn (S0 i)
      have h3 : (n : ℝ) * τ ≤ 2 ^ 40 * 1 := mul_le_mul hn' τ1 τ0 (by positivity)
      rw [h1]
      linarith
    have na : ∀ i, ‖pure (a i)‖ ≤ S i + n * (2 * k * S i + 2 * τ) := fun i => by
      have := norm_le_norm_add_norm_sub' (pure (a i)) (x i)
      have h1 := hx i
      have h2 := xs i
      linarith
    have W : ∀ i, Within (a i) := fun i => within_of (ha i) (by
      have h1 := na i
      have h2 := d0 i
      have h3 := hS i
      have h4 : (2 : ℝ) ^ 490 + 2 ^ 490 / 4 + 2 ^ 41 ≤ 2 ^ 499 := by
        have : (2 : ℝ) ^ 41 ≤ 2 ^ 490 := pow_le_pow_right₀ one_le_two (by norm_num)
        have e : (2 : ℝ) ^ 499 = 512 * 2 ^ 490 := by rw [show (499 : ℕ) = 9 + 490 by norm_num, pow_add]; norm_num
        have p := pow_pos (two_pos (α := ℝ)) 490
        rw [e]
        clear e
        generalize (2 : ℝ) ^ 490 = B at *
        linarith
      generalize (2 : ℝ) ^ 490 = B at *
      generalize (2 : ℝ) ^ 499 = C at *
      linarith)
    obtain ⟨b, hb, hIb, hF, he⟩ := step T m a hm W hI
    obtain ⟨c, hc, hIc, hG, hd⟩ := ih (n + 1) b (fun i => g i m (x i)) (by omega) hb hIb (fun i => by
      have h1 := he i
      have h2 := (exact_step T m hm i (pure (a i)) (x i)).1
      have h3 := norm_sub_le_norm_sub_add_norm_sub (pure (b i)) (g i m (pure (a i))) (g i m (x i))
      have h4 := hx i
      have h5 := hr i
      rw [rc] at h5
      have h6 := rs i
      have h7 : k * (‖pure (a i)‖ + r i m) ≤ k * (S i + n * (2 * k * S i + 2 * τ)) := mul_le_mul_of_nonneg_left (by
        have := norm_le_norm_add_norm_sub' (pure (a i)) (x i)
        linarith) k0
      have h8 := mul_le_mul_of_nonneg_right kn (c0 i)
      have h9 : k * (S i + n * (2 * k * S i + 2 * τ)) = k * S i + k * n * (2 * k * S i + 2 * τ) := by ring
      have h10 := mul_nonneg k0 (S0 i)
      push_cast
      linarith) (fun i => by
      have h1 := (exact_step T m hm i (x i) 0).2.1
      have h2 := hr i
      rw [rc] at h2
      linarith)
    refine ⟨c, hc, hIc, ?_, fun i => ?_⟩
    · rw [DTrans.many, hF]; exact hG
    · have := hd i
      rw [List.foldl_cons, List.length_cons, show n + (ms.length + 1) = n + 1 + ms.length by omega]
      exact this

theorem reaches_zero (ms : List Motion) : reaches (fun _ => 0) ms = 0 := by simp [reaches]

/-- a direction that is turned and normalized -/
theorem unit_step (o : Bool) (q : Order4) {sin cos : ℝ → ℝ} (hs : Accurate sin Real.sin) (hc : Accurate cos Real.cos) {T : DTrans} {m : Motion} (h : Makes o sin cos T m) {a : V3} (ha : Within a)
    (n : |‖pure a‖ - 1| ≤ 16 * DQuat.u) : ∃ v b, Rep b ∧ DT3.applyToVector q T.matrix (doubles a) = doubles v ∧ (doubles v).normalized o = doubles b ∧ Within v ∧ |‖pure v‖ - 1| ≤ 273 * DQuat.u ∧
      |‖pure b‖ - 1| ≤ 16 * DQuat.u ∧ ‖pure b - m.direction (pure a)‖ ≤ 2 ^ (-43 : ℤ) * ‖pure a‖ := by
  have u0 := DQuat.u_pos
  have u1 := DQuat.u_small
  have f := e45.1
  have f' : (2 : ℝ) ^ (-43 : ℤ) = 1024 * DQuat.u := by rw [DQuat.u]; norm_num
  have t1 : (2 : ℝ) ^ (-1070 : ℤ) ≤ DQuat.u / 100 := by
    have : (2 : ℝ) ^ (-1070 : ℤ) ≤ 2 ^ (-60 : ℤ) := zpow_le_zpow_right₀ one_le_two (by norm_num)
    refine this.trans ?_
    rw [DQuat.u]; norm_num
  obtain ⟨v, hv, e1, e2⟩ := ((one_step o q hs hc h).2.2.2 a ha).2
  have k := (keeps hs hc h (pure a) 0).2.2.2.1
  rw [f] at e2
  rw [f']
  obtain ⟨n1, n2⟩ := abs_le.1 n
  have a1 : DQuat.u * ‖pure a‖ ≤ 1001 / 1000 * DQuat.u := by
    have := mul_le_mul_of_nonneg_left (show ‖pure a‖ ≤ 1001 / 1000 by norm_num at u1; linarith) u0.le
    linarith
  have a2 : 999 / 1000 * DQuat.u ≤ DQuat.u * ‖pure a‖ := by
    have := mul_le_mul_of_nonneg_left (show 999 / 1000 ≤ ‖pure a‖ by norm_num at u1; linarith) u0.le
    linarith
  have e3 : ‖pure v - m.direction (pure a)‖ ≤ 257 * DQuat.u := by
    refine e2.trans ?_
    generalize (2 : ℝ) ^ (-1070 : ℤ) = r at *
    linarith
  have nv : |‖pure v‖ - 1| ≤ 273 * DQuat.u := by
    have h1 := abs_norm_sub_norm_le (pure v) (m.direction (pure a))
    rw [k] at h1
    rw [abs_le] at h1 ⊢
    constructor <;> linarith
  obtain ⟨v1, v2⟩ := abs_le.1 nv
  have v3 : 1 / 2 ≤ ‖pure v‖ := by norm_num at u1; linarith
  have v4 : ‖pure v‖ ≤ 2 := by norm_num at u1; linarith
  have W : Within v := within_of hv (v4.trans (by
    calc (2 : ℝ) = 2 ^ 1 := by norm_num
      _ ≤ 2 ^ 499 := pow_le_pow_right₀ one_le_two (by norm_num)))
  obtain ⟨b, hb, r1, r2, r3, -, -, -, nb⟩ := normalized_any o W (le_trans (by norm_num) v3)
  have v0 : ‖pure v‖ ≠ 0 := by linarith
  have unit : ‖‖pure v‖⁻¹ • pure v‖ = 1 := by rw [norm_smul, norm_inv, norm_norm, inv_mul_cancel₀ v0]
  have apart : ‖‖pure v‖⁻¹ • pure v - pure v‖ ≤ 273 * DQuat.u := by
    have e : ‖pure v‖⁻¹ • pure v - pure v = (‖pure v‖⁻¹ - 1) • pure v := by rw [sub_smul, one_smul]
    have e' : |‖pure v‖⁻¹ - 1| * ‖pure v‖ = |‖pure v‖ - 1| := by
      rw [← abs_of_nonneg (norm_nonneg (pure v)), ← abs_mul, abs_of_nonneg (norm_nonneg (pure v)), sub_mul, inv_mul_cancel₀ v0, one_mul, abs_sub_comm]
    rw [e, norm_smul, Real.norm_eq_abs, e']
    exact nv
  refine ⟨v, b, ⟨r1, r2, r3⟩, e1, hb, W, nv, ?_, ?_⟩
  · have h1 := abs_norm_sub_norm_le (pure b) (‖pure v‖⁻¹ • pure v)
    rw [unit] at h1
    linarith
  · have h1 := norm_sub_le_norm_sub_add_norm_sub (pure b) (‖pure v‖⁻¹ • pure v) (m.direction (pure a))
    have h2 := norm_sub_le_norm_sub_add_norm_sub (‖pure v‖⁻¹ • pure v) (pure v) (m.direction (pure a))
    linarith

/-- a half length that is multiplied by the length of the moved axis -/
theorem extent_step (o : Bool) {v : V3} (hv : Within v) (n : |‖pure v‖ - 1| ≤ 273 * DQuat.u) {e : ℝ} (he : |e| ≤ 2 ^ 499) :
    ∃ f, Representable f ∧ (F64.fin e).mul ((doubles v).norm o) = .fin f ∧ |f - e| ≤ 2 ^ (-43 : ℤ) * |e| + 2 ^ (-1070 : ℤ) := by
  have u0 := DQuat.u_pos
  have u1 := DQuat.u_small
  have f' : (2 : ℝ) ^ (-43 : ℤ) = 1024 * DQuat.u := by rw [DQuat.u]; norm_num
  have t0 := DQuat.t_pos
  have t1 : DQuat.t ≤ (2 : ℝ) ^ (-1070 : ℤ) := by rw [e1070]; linarith
  have k := normR_near o v
  rw [pure_length] at n
  have t2 : (2 : ℝ) ^ (-535 : ℤ) ≤ DQuat.u / 100 := by
    have : (2 : ℝ) ^ (-535 : ℤ) ≤ 2 ^ (-60 : ℤ) := zpow_le_zpow_right₀ one_le_two (by norm_num)
    refine this.trans ?_
    rw [DQuat.u]; norm_num
  have m : |normR o v - 1| ≤ 276 * DQuat.u := by
    obtain ⟨n1, n2⟩ := abs_le.1 n
    have := mul_le_mul_of_nonneg_left (show v.norm ≤ 1001 / 1000 by norm_num at u1; linarith) u0.le
    generalize (2 : ℝ) ^ (-535 : ℤ) = r at *
    rw [mul_assoc] at k
    rw [abs_le] at k ⊢
    constructor <;> linarith
  have b5 : (2 : ℝ) ^ 499 ≤ 2 ^ 500 := pow_le_pow_right₀ one_le_two (by norm_num)
  have m' : |normR o v| ≤ 2 := by
    rw [abs_le] at m ⊢
    norm_num at u1
    constructor <;> linarith
  have b2 : (2 : ℝ) ≤ 2 ^ 500 := by
    calc (2 : ℝ) = 2 ^ 1 := by norm_num
      _ ≤ 2 ^ 500 := pow_le_pow_right₀ one_le_two (by norm_num)
  rw [norm_doubles o (hv.bounded.mono (by norm_num)), (DVec.mul_fin2 (he.trans b5) (m'.trans b2)).1, f']
  refine ⟨_, rnd_representable _, rfl, ?_⟩
  clear b5 b2 he
  have r := DVec.mul_near e (normR o v)
  have d : |e * normR o v - e| ≤ 276 * (DQuat.u * |e|) := by
    have : e * normR o v - e = e * (normR o v - 1) := by ring
    rw [this, abs_mul]
    have := mul_le_mul_of_nonneg_left m (abs_nonneg e)
    linarith
  have r' : DQuat.u * |e * normR o v| ≤ 2 * (DQuat.u * |e|) := by
    rw [abs_mul]
    have := mul_le_mul_of_nonneg_left m' (mul_nonneg u0.le (abs_nonneg e))
    linarith
  have p := mul_nonneg u0.le (abs_nonneg e)
  have := abs_sub_le (rnd (e * normR o v)) (e * normR o v) e
  generalize (2 : ℝ) ^ (-1070 : ℤ) = w at *
  linarith

theorem pure_axis (e : ℝ) : ‖pure ⟨e, 0, 0⟩‖ = |e| := by
  rw [pure_length]
  simp [V3.norm, V3.normSq, V3.dot, Real.sqrt_mul_self_eq_abs]

theorem pure_axis_sub (e f : ℝ) : ‖pure ⟨e, 0, 0⟩ - pure ⟨f, 0, 0⟩‖ = |e - f| := by
  rw [pure_sub, ← pure_axis]
  congr 2
  ext <;> simp

end Move

end Verif.Props
