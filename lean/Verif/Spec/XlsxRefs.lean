import Verif.Spec.Decimal

/-! # Specification: A1 references (ECMA-376 part 1, 18.3.1.4 and 18.18.62), independent of the models of
`/repo/xlsx` -/

namespace Grate.Spec

open Grate

/-- The value of column letters: A is 1, Z is 26, AA is 27. -/
def lettersVal : Bytes → Nat
  | [] => 0
  | b :: bs => (b.toNat - 64) * 26 ^ bs.length + lettersVal bs

/-- The letters of the column with a 0-based index. -/
def ColumnName (s : Bytes) (c : Nat) : Prop :=
  s ≠ [] ∧ (∀ b ∈ s, 65 ≤ b.toNat ∧ b.toNat ≤ 90) ∧ lettersVal s = c + 1

/-- The reference of the cell in column `c` and row `r`, both 0-based: column letters and row number. -/
inductive A1 (c r : Nat) : Bytes → Prop
  | mk (s ds : Bytes) : ColumnName s c → Numeral ds (r + 1) → A1 c r (s ++ ds)

end Grate.Spec
