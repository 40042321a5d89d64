import Verif.Spec.FormatCode
import Mathlib.Algebra.Order.Ring.Rat
import Mathlib.Algebra.Field.Rat
import Mathlib.Algebra.Order.AbsoluteValue.Basic
import Mathlib.Algebra.Order.Field.Power

/-! # Specification: numbers as text, independent of the models (C88 to C90) -/

namespace Grate.Spec

open Grate

/-- `k` is the integer nearest to `v`, the even one if two are as near. -/
def Nearest (k : Nat) (v : ℚ) : Prop :=
  |(k : ℚ) - v| ≤ 1 / 2 ∧ (|(k : ℚ) - v| = 1 / 2 → k % 2 = 0)

/-- `whole` and `frac` are the digits before and after the point of the number `k / 10^p` written with `p` decimals. -/
def Decimals (p k : Nat) (whole frac : Bytes) : Prop :=
  Numeral whole (k / 10 ^ p) ∧ frac.length = p ∧ (∀ b ∈ frac, 48 ≤ b.toNat ∧ b.toNat ≤ 57) ∧
    digitsVal (whole ++ frac) = k

/-- `sgn`, `whole` and `frac` show the number `v` rounded to `p` decimals: a minus sign for negative numbers, and
the digits of the nearest number with that many decimals. (What is shown before zero is not said here.) -/
def ShowsFixed (p : Nat) (v : ℚ) (sgn whole frac : Bytes) : Prop :=
  (0 < v → sgn = []) ∧ (v < 0 → sgn = [45]) ∧ (sgn = [] ∨ sgn = [45]) ∧
    ∃ k, Nearest k (|v| * 10 ^ p) ∧ Decimals p k whole frac

/-- The digits before the point, with thousands separators or not. -/
def MaybeGrouped (group : Bool) (d g : Bytes) : Prop := if group then Grouped d g else g = d

/-- An exponent in a format like `0.00E+00`: a sign and at least two digits. -/
def ExponentText (e : Int) (t : Bytes) : Prop :=
  ∃ d, IsDigits d ∧ digitsVal d = e.natAbs ∧ 2 ≤ d.length ∧ (2 < d.length → d.head? ≠ some 48) ∧
    t = (if e < 0 then 45 else 43) :: d

/-- `text` is `v` in scientific notation with `p` decimals: one digit other than zero before the point, the
digits being those of `v / 10^e` rounded to `p` decimals (`10^e` being the power of ten in `v`, or the next
if rounding gives ten). -/
def ShowsScience (p : Nat) (v : ℚ) (text : Bytes) : Prop :=
  ∃ (sgn whole frac et : Bytes) (e : Int) (k : Nat),
    (sgn = if v < 0 then [45] else []) ∧ Decimals p k whole frac ∧ 10 ^ p ≤ k ∧ k < 10 ^ (p + 1) ∧
    ExponentText e et ∧ text = sgn ++ whole ++ (if p = 0 then [] else 46 :: frac) ++ 69 :: et ∧
    ((10 ^ e ≤ |v| ∧ |v| < 10 ^ (e + 1) ∧ Nearest k (|v| * 10 ^ (p - e))) ∨
     (10 ^ (e - 1) ≤ |v| ∧ |v| < 10 ^ e ∧ k = 10 ^ p ∧ Nearest (10 ^ (p + 1)) (|v| * 10 ^ (p - (e - 1)))))

/-- The code of scientific notation with `k` decimals: `0.00E+00` for two. -/
def scienceCode (k : Nat) : Bytes := lit "0." ++ List.replicate k 48 ++ lit "E+00"

end Grate.Spec
