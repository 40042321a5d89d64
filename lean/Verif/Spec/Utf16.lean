import Verif.Model.Base

/-! # Specification: Unicode text (C66), independent of the models -/

namespace Grate.Spec

/-- Unicode scalar values. -/
def Scalar (r : Nat) : Prop := r < 0xD800 ∨ (0xE000 ≤ r ∧ r < 0x110000)

/-- The UTF-16 form of a scalar value. -/
def units (r : Nat) : List Nat :=
  if r < 0x10000 then [r] else [0xD800 + (r - 0x10000) / 0x400, 0xDC00 + (r - 0x10000) % 0x400]

/-- High and low surrogates. -/
def High (u : Nat) : Prop := 0xD800 ≤ u ∧ u < 0xDC00
/-- see `High` -/
def Low (u : Nat) : Prop := 0xDC00 ≤ u ∧ u < 0xE000

/-- The UTF-8 form of a text, by Lean's own encoder. -/
def utf8 (rs : List Nat) : Bytes := rs.flatMap (fun r => String.utf8EncodeChar (Char.ofNat r))

end Grate.Spec
