import Verif.Spec.Xlsx

/-! # Specification: links of sheets, independent of the models -/

namespace Grate.Spec

open Xlsx (Tok)

/-- No cell, or an empty one. -/
def NoCell (x : Option Cell) : Prop := x = none ∨ x = some .empty

/-- The two cells cannot be told apart: both are blank, or they have the same value, type, number format and link. -/
def SameCell (x y : Option Cell) : Prop :=
  (NoCell x ∧ NoCell y) ∨ ∃ c d, x = some c ∧ y = some d ∧ c.value = d.value ∧ c.type = d.type ∧
    c.formatNo = d.formatNo ∧ c.url = d.url

/-- A link of a worksheet of an OOXML workbook (18.3.1.47): the attributes of its element, its cell and where it leads
to. -/
structure XmlLink where
  attrs : List (Bytes × Bytes)
  row : Nat
  col : Nat
  target : Bytes

/-- The link is well-formed: it has the reference of one cell, and its relationship leads to its target (which is empty
for links inside the workbook, as these have no relationship). -/
structure XmlLink.Ok (links : Bytes → Bytes) (k : XmlLink) : Prop where
  distinct : Distinct k.attrs
  ref : ∃ s, Has k.attrs "ref" s ∧ A1 k.col k.row s
  small : k.row < maxIndex ∧ k.col < maxIndex
  target : (Lacks k.attrs "id" ∧ k.target = links []) ∨ ∃ id, Has k.attrs "id" id ∧ k.target = links id
  plain : k.target ∉ [lit "→", lit "⇥", lit "↓", lit "⤓"]

/-- The tokens of the link. -/
def XmlLink.toks (k : XmlLink) : List Tok := [.start (lit "hyperlink") k.attrs, .stop (lit "hyperlink")]

/-- A link of a sheet of a binary workbook (2.4.140): its region, the link, and its display text and target without
blanks at their ends. -/
structure BinLink where
  region : Region
  hyper : Hyper
  cls : Bytes
  tail : Bytes
  display : Bytes
  target : Bytes

/-- The record of the link. -/
def BinLink.record (k : BinLink) : Record := ⟨440, k.region.bytes ++ (k.hyper.bytes k.cls ++ k.tail)⟩

/-- The link covers a cell of a sheet with that many rows and columns. -/
def BinLink.Covers (maxRow maxCol : Nat) (k : BinLink) (r c : Nat) : Prop :=
  (k.region.clip maxRow maxCol).r0 ≤ r ∧ r ≤ (k.region.clip maxRow maxCol).r1 ∧
    (k.region.clip maxRow maxCol).c0 ≤ c ∧ c ≤ (k.region.clip maxRow maxCol).c1

/-- The link is well-formed and in the sheet. -/
structure BinLink.Ok (maxRow maxCol : Nat) (k : BinLink) : Prop where
  fits : k.region.Fits
  clips : k.region.Clips maxRow maxCol
  rows : k.region.r0 ≤ maxRow
  cols : k.region.c0 ≤ maxCol
  hyper : k.hyper.Ok
  cls : k.cls.length = 16
  display : Trims (utf8 (k.hyper.display.getD [])) k.display
  target : Trims (utf8 (k.hyper.location.getD k.hyper.target.show)) k.target
  first : BinLink.Covers maxRow maxCol k k.region.r0 k.region.c0

/-- What is shown for the link. -/
def BinLink.shown (k : BinLink) : Bytes := k.display ++ lit " <" ++ k.target ++ lit ">"

end Grate.Spec
