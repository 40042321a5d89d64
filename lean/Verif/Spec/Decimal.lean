import Verif.Model.Base

/-! # Independent specification: decimal integer numerals -/

namespace Grate.Spec

open Grate

/-- Positional value of a string of ASCII digits: Σ dᵢ·10ⁱ. -/
def digitsVal : Bytes → Nat
  | [] => 0
  | d :: ds => (d.toNat - 48) * 10 ^ ds.length + digitsVal ds

/-- A non-empty string of ASCII digits. -/
def IsDigits (s : Bytes) : Prop := s ≠ [] ∧ ∀ b ∈ s, 48 ≤ b.toNat ∧ b.toNat ≤ 57

/-- `s` is a decimal integer numeral (optional sign) with value `v`. -/
inductive DecValue : Bytes → Int → Prop
  | plain (ds : Bytes) : IsDigits ds → DecValue ds (digitsVal ds)
  | plus (ds : Bytes) : IsDigits ds → DecValue (43 :: ds) (digitsVal ds)
  | minus (ds : Bytes) : IsDigits ds → DecValue (45 :: ds) (-(digitsVal ds : Int))

/-- Digits, comma-grouped from the right: the shape of a number with thousands separators. -/
inductive Grouped : Bytes → Bytes → Prop
  | base (g : Bytes) : 1 ≤ g.length → g.length ≤ 3 → Grouped g g
  | more {d s : Bytes} (g : Bytes) : Grouped d s → g.length = 3 → Grouped (d ++ g) (s ++ 44 :: g)

/-- `d` is the decimal numeral of `n` without leading zeros. -/
def Numeral (d : Bytes) (n : Nat) : Prop :=
  IsDigits d ∧ digitsVal d = n ∧ (d.head? = some 48 → d = [48])

end Grate.Spec
