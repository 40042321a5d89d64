import Verif.Spec.Decimal
import Verif.Lemmas.FloatOps

/-! # Specification: decimal numerals and the floats nearest to them, independent of the models (C91 to C93) -/

namespace Grate.Spec

open Grate Grate.F64

/-- The exponent of a numeral: nothing, or `e` or `E` and an integer with or without a sign. -/
inductive ExpPart : Bytes → Int → Prop
  | none : ExpPart [] 0
  | some (c : UInt8) (t : Bytes) (v : Int) : c = 101 ∨ c = 69 → DecValue t v → ExpPart (c :: t) v

/-- `s` is a decimal numeral with the value `q` and the exponent `e`: an optional sign, digits, perhaps a point
and digits behind it (a digit before or after the point there must be), perhaps an exponent. -/
def DecimalText (s : Bytes) (e : Int) (q : ℚ) : Prop :=
  ∃ sgn a b pt ex, (sgn = [] ∨ sgn = [43] ∨ sgn = [45]) ∧ (∀ c ∈ a ++ b, 48 ≤ c.toNat ∧ c.toNat ≤ 57) ∧ a ++ b ≠ [] ∧
    (pt = 46 :: b ∨ (pt = [] ∧ b = [])) ∧ ExpPart ex e ∧ s = sgn ++ a ++ pt ++ ex ∧
    q = (if sgn = [45] then -1 else 1) * digitsVal (a ++ b) * 10 ^ (e - b.length)

/-- `x` is the float64 nearest to `q`. If another one is as near, `x` is the one whose last bit is zero: an even
multiple of a power of two of which the other is an odd multiple. -/
def NearestFloat (q : ℚ) (x : Float) : Prop :=
  FFin x ∧ ∀ y, FFin y → |fval x - q| ≤ |fval y - q| ∧
    (|fval x - q| = |fval y - q| → fval y ≠ fval x →
      ∃ (m n : ℤ) (e : ℤ), fval x = m * 2 ^ e ∧ fval y = n * 2 ^ e ∧ m % 2 = 0 ∧ n % 2 = 1)

/-- `s` is the number `q` in plain decimal notation: a minus sign if it is negative, the digits before the point without
superfluous zeros, and if it is not an integer a point and the digits after it, the last one not a zero. -/
def PlainDecimal (q : ℚ) (s : Bytes) : Prop :=
  ∃ whole frac n, Numeral whole n ∧ (∀ c ∈ frac, 48 ≤ c.toNat ∧ c.toNat ≤ 57) ∧ frac.getLast? ≠ some 48 ∧
    s = (if q < 0 then [45] else []) ++ whole ++ (if frac = [] then [] else 46 :: frac) ∧
    |q| * 10 ^ frac.length = digitsVal (whole ++ frac)

end Grate.Spec
