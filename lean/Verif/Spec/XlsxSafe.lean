import Verif.Spec.Xlsx

/-! # Specification: worksheet parts that can be read, however wrong they are -/

namespace Grate.Spec

open Grate Grate.Xlsx

/-- A digit. -/
def IsDig (b : UInt8) : Prop := 48 ≤ b.toNat ∧ b.toNat ≤ 57

/-- Not of the other style (`R1C1`), or with a row that is as long as what is before it: if `C` comes after the first digit, it is at
least as far from this digit as the digit from the start. -/
def PlainRef (s : Bytes) : Prop :=
  ∀ (pre : Bytes) (d : UInt8) (mid post : Bytes), s = pre ++ (d :: mid ++ 67 :: post) → (∀ b ∈ pre, ¬ IsDig b) → IsDig d →
    67 ∉ mid → pre.length ≤ mid.length + 1

/-- The last reference of a range of one or two references. -/
def RangeEnd (ref s : Bytes) : Prop := 58 ∉ s ∧ (ref = s ∨ ∃ a, 58 ∉ a ∧ ref = a ++ 58 :: s)

/-- Text of a cell with the attributes: not empty in a cell with a boolean; in a cell with a shared string, one of the numbers
below `strings`, or, if there are strings, something that does not begin like a number. -/
def TextFits (strings : Nat) (attrs : List (Bytes × Bytes)) (v : Bytes) : Prop :=
  (Has attrs "t" (lit "b") → v ≠ []) ∧
  (Has attrs "t" (lit "s") → (IsDigits v ∧ digitsVal v < strings) ∨
    (0 < strings ∧ (v = [] ∨ ∃ b rest, v = b :: rest ∧ ¬ IsDig b ∧ b ≠ 43 ∧ b ≠ 45)))

/-- The elements of a worksheet that are looked at. -/
def wsNames : List Bytes := [lit "dimension", lit "c", lit "mergeCell", lit "hyperlink"]

/-- The tokens of a worksheet part in any order. `fresh` tells that no cell and no dimension came before; `cell` has the
attributes of the cell that was started and not ended. -/
inductive SafeWs (strings : Nat) : Bool → Option (List (Bytes × Bytes)) → List Tok → Prop
  | nil (fresh : Bool) (cell : Option (List (Bytes × Bytes))) : SafeWs strings fresh cell []
  /-- any other element, end of an element, comment and so on -/
  | other (fresh : Bool) (cell : Option (List (Bytes × Bytes))) (t : Tok) (ts : List Tok) : ¬ Starts wsNames t →
      ¬ Stops [lit "c"] t → (∀ v, t ≠ .chars v) → SafeWs strings fresh cell ts → SafeWs strings fresh cell (t :: ts)
  /-- text outside of cells -/
  | outside (fresh : Bool) (v : Bytes) (ts : List Tok) : SafeWs strings fresh none ts →
      SafeWs strings fresh none (.chars v :: ts)
  /-- text in a cell -/
  | text (fresh : Bool) (attrs : List (Bytes × Bytes)) (v : Bytes) (ts : List Tok) : TextFits strings attrs v →
      SafeWs strings false (some attrs) ts → SafeWs strings fresh (some attrs) (.chars v :: ts)
  /-- a cell: its style is any unsigned number, its reference, if any, as above -/
  | cell (fresh : Bool) (old : Option (List (Bytes × Bytes))) (attrs : List (Bytes × Bytes)) (style : Nat) (ts : List Tok) :
      Distinct attrs → NumAttr attrs "s" 0 style → (∀ ref, Has attrs "r" ref → PlainRef ref) →
      SafeWs strings fresh (some attrs) ts → SafeWs strings fresh old (.start (lit "c") attrs :: ts)
  | cellEnd (fresh : Bool) (old : Option (List (Bytes × Bytes))) (ts : List Tok) : SafeWs strings fresh none ts →
      SafeWs strings fresh old (.stop (lit "c") :: ts)
  /-- a dimension that ends with a cell -/
  | dimension (fresh : Bool) (cell : Option (List (Bytes × Bytes))) (attrs : List (Bytes × Bytes)) (ref s : Bytes) (c r : Nat)
      (ts : List Tok) : Distinct attrs → Has attrs "ref" ref → RangeEnd ref s → A1 c r s → c < 2 ^ 63 - 1 →
      r < 2 ^ 63 - 1 → SafeWs strings false cell ts → SafeWs strings fresh cell (.start (lit "dimension") attrs :: ts)
  /-- any other dimension before the cells -/
  | dimensionFirst (cell : Option (List (Bytes × Bytes))) (attrs : List (Bytes × Bytes)) (ts : List Tok) : Distinct attrs →
      (∀ ref, Has attrs "ref" ref → ∃ s, RangeEnd ref s ∧ PlainRef s) → SafeWs strings false cell ts →
      SafeWs strings true cell (.start (lit "dimension") attrs :: ts)
  /-- a merged region that begins with a cell -/
  | merge (fresh : Bool) (cell : Option (List (Bytes × Bytes))) (attrs : List (Bytes × Bytes)) (ref s : Bytes) (c r : Nat)
      (ts : List Tok) : Distinct attrs → Has attrs "ref" ref → A1 c r s → c < 2 ^ 63 - 1 → r < 2 ^ 63 - 1 →
      (ref = s ∨ ∃ t, 58 ∉ t ∧ PlainRef t ∧ ref = s ++ 58 :: t) → SafeWs strings false cell ts →
      SafeWs strings fresh cell (.start (lit "mergeCell") attrs :: ts)
  /-- a link of a cell -/
  | link (fresh : Bool) (cell : Option (List (Bytes × Bytes))) (attrs : List (Bytes × Bytes)) (s : Bytes) (c r : Nat)
      (ts : List Tok) : Distinct attrs → Has attrs "ref" s → A1 c r s → c < 2 ^ 63 - 1 → r < 2 ^ 63 - 1 →
      SafeWs strings false cell ts → SafeWs strings fresh cell (.start (lit "hyperlink") attrs :: ts)

end Grate.Spec
