import Verif.Model.Err
import Verif.Model.Interval
import Verif.Model.Rotation
import Mathlib.Algebra.Order.Floor.Ring

/-!
# Text

`include/OpenSpaceToolkit/Mathematics/Object/Eigen.hpp` 15-467 (the text of vectors and matrices, and its reading), `Quaternion.cpp` 400-408 and 646-663, and
`Interval.tpp` 493-521. Strings are lists of characters. A double is a number of an ordered field, an infinity or not a number; signed zeros are not
modelled. Printing a number with a given number of decimals rounds it to some nearest such decimal, `rnd` saying which. Printing a number that is not an
integer without a given number of decimals (the format `%g` with 15 digits) is left open here, `general`, and modelled in `Model/TextGeneral.lean`.
-/

namespace Verif

/-- a `double` -/
inductive Dbl (α : Type) where
  | nan
  | inf (negative : Bool)
  | fin (x : α)
  deriving DecidableEq

namespace Text

/-! ## Decimal numbers -/

/-- the character of a digit -/
def digitChar (d : ℕ) : Char := Char.ofNat (48 + d)

/-- the digits of a natural number -/
def digits (n : ℕ) : List Char := if h : n < 10 then [digitChar n] else digits (n / 10) ++ [digitChar (n % 10)]
  decreasing_by omega

/-- the last `p` digits of a natural number, with zeros in front -/
def padded : ℕ → ℕ → List Char
  | 0, _ => []
  | p + 1, n => padded p (n / 10) ++ [digitChar (n % 10)]

/-- `std::fixed` with `p` decimals of the decimal number `k / 10 ^ p` -/
def fixedText (p : ℕ) (k : ℤ) : List Char :=
  (if k < 0 then ['-'] else []) ++ digits (k.natAbs / 10 ^ p) ++ (if p = 0 then [] else '.' :: padded p k.natAbs)

/-- `find_last_not_of ('0') + 1` and `erase`: drop the zeros at the end -/
def dropZeros (s : List Char) : List Char := (s.reverse.dropWhile (· == '0')).reverse

variable {α : Type} [Field α] [LinearOrder α] [FloorRing α]

/-- `ScalarToString (double, int)` (`Eigen.hpp` 130-170); `std::to_string` prints six decimals; no precision is a negative precision -/
def scalarToString (rnd : α → ℤ) (general : α → List Char) (x : α) (precision : Option ℕ) : List Char :=
  match precision with
  | some p => fixedText p (rnd (x * 10 ^ p))
  | none => if ((⌊x⌋ : ℤ) : α) = x then dropZeros (fixedText 6 (rnd (x * 10 ^ 6))) ++ ['0'] else general x

/-- one element of a vector (`Eigen.hpp` 198-209) -/
def element (rnd : α → ℤ) (general : α → List Char) (precision : Option ℕ) : Dbl α → List Char
  | .nan => ['N', 'a', 'N']
  | .inf _ => ['I', 'n', 'f']
  | .fin x => scalarToString rnd general x precision

/-- the loop over rows or columns: elements with a comma and a space between them -/
def commaSep : List (List Char) → List Char
  | [] => []
  | [a] => a
  | a :: b :: l => a ++ [',', ' '] ++ commaSep (b :: l)

/-- `toString` (`Eigen.hpp` 181-231) of a column vector -/
def vecToString (rnd : α → ℤ) (general : α → List Char) (precision : Option ℕ) (v : List (Dbl α)) : List Char :=
  ['['] ++ commaSep (v.map (element rnd general precision)) ++ [']']

/-- `toString` (`Eigen.hpp` 181-231) of a matrix with more than one column, as a list of rows -/
def matToString (rnd : α → ℤ) (general : α → List Char) (precision : Option ℕ) (m : List (List (Dbl α))) : List Char :=
  ['['] ++ commaSep (m.map fun row => ['['] ++ commaSep (row.map (element rnd general precision)) ++ [']']) ++ [']']

/-! ## Reading -/

/-- the value of a sequence of digits -/
def readNat (s : List Char) : ℕ := s.foldl (fun a c => 10 * a + (c.toNat - 48)) 0

/-- the exponent of `strtod`, if there is one -/
def readExponent : List Char → ℤ
  | c :: r =>
    if c = 'e' ∨ c = 'E' then
      match r with
      | '-' :: r' => -(readNat (r'.takeWhile Char.isDigit) : ℤ)
      | '+' :: r' => readNat (r'.takeWhile Char.isDigit)
      | r' => readNat (r'.takeWhile Char.isDigit)
    else 0
  | [] => 0

/-- the fraction of `strtod`: its digits and the rest -/
def readFraction : List Char → List Char × List Char
  | '.' :: r => (r.takeWhile Char.isDigit, r.dropWhile Char.isDigit)
  | r => ([], r)

/-- `strtod` after the sign: a decimal number, an infinity, not a number, or nothing, which counts as zero -/
def readUnsigned (s : List Char) : Dbl α :=
  let whole := s.takeWhile Char.isDigit
  let (fraction, rest) := readFraction (s.dropWhile Char.isDigit)
  if whole = [] ∧ fraction = [] then
    if (s.take 3).map Char.toLower = ['n', 'a', 'n'] then .nan
    else if (s.take 3).map Char.toLower = ['i', 'n', 'f'] then .inf false
    else .fin 0
  else .fin ((readNat (whole ++ fraction) : α) / 10 ^ fraction.length * 10 ^ readExponent rest)

/-- the sign of a double changed -/
def neg : Dbl α → Dbl α
  | .nan => .nan
  | .inf b => .inf !b
  | .fin x => .fin (-x)

/-- `atof` -/
def atof (s : List Char) : Dbl α :=
  match s.dropWhile (· == ' ') with
  | '-' :: r => neg (readUnsigned r)
  | '+' :: r => readUnsigned r
  | r => readUnsigned r

/-- the tokens found by `getline` with a comma as the delimiter -/
def tokens (s : List Char) : List (List Char) :=
  match h : s.dropWhile (· != ',') with
  | [] => if s = [] then [] else [s]
  | _ :: r => s.takeWhile (· != ',') :: tokens r
  termination_by s.length
  decreasing_by
    have := (List.dropWhile_sublist (l := s) (· != ',')).length_le
    rw [h] at this
    simp at this
    omega

/-- `Parse` (`Eigen.hpp` 428-467) -/
def parse (s : List Char) : Res (List (Dbl α)) :=
  if s.length < 3 ∨ s.head? ≠ some '[' ∨ s.getLast? ≠ some ']' then .error .runtimeError
  else .ok ((tokens (s.drop 1).dropLast).map atof)

/-! ## Quaternions -/

/-- `toString` (`Quaternion.cpp` 400-408); an undefined quaternion is refused by `toVector` -/
noncomputable def quatToString (rnd : ℝ → ℤ) (general : ℝ → List Char) (precision : Option ℕ) (q : Option Quat) (f : Quat.Format) : Res (List Char) :=
  match q with
  | none => .error .undefined
  | some q =>
    let v := q.toVector f
    .ok (vecToString rnd general precision [.fin v.1, .fin v.2.1, .fin v.2.2.1, .fin v.2.2.2])

/-- `Parse` (`Quaternion.cpp` 646-663): the components x, y, z, s -/
noncomputable def quatParse (s : List Char) (f : Quat.Format) : Res (Dbl ℝ × Dbl ℝ × Dbl ℝ × Dbl ℝ) :=
  if s = [] then .error .undefined
  else do
    let v ← parse s
    match v with
    | [a, b, c, d] => .ok (match f with
      | .xyzs => (a, b, c, d)
      | .sxyz => (b, c, d, a))
    | _ => .error .runtimeError

end Text

/-! ## Intervals -/

/-- `toString` (`Interval.tpp` 493-521), with the text of the bounds -/
def Text.intervalToString {α : Type} [LinearOrder α] (text : α → List Char) (i : Interval α) : Res (List Char) :=
  match i.type, i.lb, i.ub with
  | .closed, some a, some b => .ok (['['] ++ text a ++ [',', ' '] ++ text b ++ [']'])
  | .opened, some a, some b => .ok ([']'] ++ text a ++ [',', ' '] ++ text b ++ ['['])
  | .halfOpenLeft, some a, some b => .ok ([']'] ++ text a ++ [',', ' '] ++ text b ++ [']'])
  | .halfOpenRight, some a, some b => .ok (['['] ++ text a ++ [',', ' '] ++ text b ++ ['['])
  | _, _, _ => .error .undefined

end Verif
