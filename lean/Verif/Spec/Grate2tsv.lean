import Verif.Spec.Text
import Verif.Spec.Utf16

/-! # Specification: what `grate2tsv` writes, independent of the models -/

namespace Grate.Spec

open Grate

/-- The bytes that separate words in a cell: space, line feed, carriage return, tab. -/
def Gap (b : UInt8) : Prop := b = 32 ∨ b = 10 ∨ b = 13 ∨ b = 9

/-- `d` is `c` with every maximal run of bytes satisfying `P` replaced by the byte `by_`. -/
inductive Squeezed (P : UInt8 → Prop) (by_ : UInt8) : (c d : Bytes) → Prop
  | nil : Squeezed P by_ [] []
  | byte {b : UInt8} {c d : Bytes} : ¬ P b → Squeezed P by_ c d → Squeezed P by_ (b :: c) (b :: d)
  | run {g c d : Bytes} : g ≠ [] → (∀ b ∈ g, P b) → (∀ b, c.head? = some b → ¬ P b) →
      Squeezed P by_ c d → Squeezed P by_ (g ++ c) (by_ :: d)

/-- White space of Unicode (property White_Space). -/
def White (r : Nat) : Prop :=
  (9 ≤ r ∧ r ≤ 13) ∨ r = 0x20 ∨ r = 0x85 ∨ r = 0xA0 ∨ r = 0x1680 ∨ (0x2000 ≤ r ∧ r ≤ 0x200A) ∨
  r = 0x2028 ∨ r = 0x2029 ∨ r = 0x202F ∨ r = 0x205F ∨ r = 0x3000

/-- `t` is `s` without the white space at both ends. -/
def Stripped (s t : Bytes) : Prop :=
  ∃ a b : List Nat, (∀ r ∈ a, White r) ∧ (∀ r ∈ b, White r) ∧ s = utf8 a ++ t ++ utf8 b ∧
    (∀ r, White r → ¬ utf8 [r] <+: t) ∧ (∀ r, White r → ¬ utf8 [r] <:+ t)

/-- `t` is the cell text `c` with white space normalised: gaps condensed to one space, ends stripped. -/
def Tidy (c t : Bytes) : Prop := ∃ d, Squeezed Gap 32 c d ∧ Stripped d t

/-- A row that has some text. -/
def HasText (row : List Bytes) : Prop := ∃ c ∈ row, c ≠ []

instance (row : List Bytes) : Decidable (HasText row) := by unfold HasText; infer_instance

end Grate.Spec
