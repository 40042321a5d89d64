import Verif.Spec.Xlsx
import Verif.Spec.Xml

/-! # Specification: the texts of Office Open XML parts (ECMA-376), independent of the models of `/repo/xlsx` -/

namespace Grate.Spec

open Grate Grate.Xlsx

/-! ### Parts as files -/

/-- The byte order mark of UTF-8. -/
def bom : Bytes := [0xEF, 0xBB, 0xBF]

/-- A file with the text of a sequence of tokens, after a byte order mark or not. -/
def XmlFile (ts : List Tok) (bs : Bytes) : Prop :=
  XmlText ts bs ∨ ∃ t, bs = bom ++ t ∧ t.head? = some 60 ∧ XmlText ts t

/-- The archive has the parts of `a`, each written in some way, and no others. -/
structure WritesParts (a : List (Bytes × Except GoErr Part)) (z : List (Bytes × Except GoErr (Bytes × GoErr))) : Prop where
  has : ∀ n ts, HasPart a n ts → ∃ bs, HasBytes z n bs ∧ XmlFile ts bs
  lacks : ∀ n, LacksPart a n → ∀ e ∈ z, e.1 ≠ n

/-- How a text in UTF-16 (with a byte order mark, or a text that begins with `<`) begins. -/
def Utf16Start (bs : Bytes) : Prop :=
  ∃ rest, bs = 0xFF :: 0xFE :: rest ∨ bs = 0xFE :: 0xFF :: rest ∨ bs = 60 :: 0 :: rest ∨ bs = 0 :: 60 :: rest

/-! ### The text of a shared string (18.4.8) -/

/-- The content of an item and its text: the text of its `t` elements, in it or in its runs. The text of phonetic runs
(18.4.6) does not belong to it, nor does white space between elements. `ph` and `ws` say whether there can be any. -/
inductive ItemText (ph ws : Prop) : List Tok → Bytes → Prop
  | nil : ItemText ph ws [] []
  | text (a : List (Bytes × Bytes)) (inner ts : List Tok) (u : Bytes) :
      (∀ x ∈ inner, (∃ s, x = .chars s) ∨ x = .other) → ItemText ph ws ts u →
      ItemText ph ws (.start (lit "t") a :: (inner ++ .stop (lit "t") :: ts)) (textOf inner ++ u)
  | mark (x : Tok) (ts : List Tok) (u : Bytes) : (∀ s, x ≠ .chars s) →
      ¬ Starts [lit "si", lit "t", lit "rPh"] x → ¬ Stops [lit "si", lit "t", lit "rPh"] x → ItemText ph ws ts u →
      ItemText ph ws (x :: ts) u
  | white (s : Bytes) (ts : List Tok) (u : Bytes) : ws → XmlWhite s → ItemText ph ws ts u →
      ItemText ph ws (.chars s :: ts) u
  | phonetic (a : List (Bytes × Bytes)) (inner ts : List Tok) (u : Bytes) : ph →
      (∀ x ∈ inner, ¬ Starts [lit "si", lit "rPh"] x ∧ ¬ Stops [lit "si", lit "rPh"] x) → ItemText ph ws ts u →
      ItemText ph ws (.start (lit "rPh") a :: (inner ++ .stop (lit "rPh") :: ts)) u

/-- The tokens of a shared string part, and the texts of its items. -/
inductive SstItems (ph ws : Prop) : List Tok → List Bytes → Prop
  | nil : SstItems ph ws [] []
  | other (t : Tok) (ts : List Tok) (ss : List Bytes) : ¬ Starts [lit "si"] t → ¬ Stops [lit "si"] t →
      SstItems ph ws ts ss → SstItems ph ws (t :: ts) ss
  | item (attrs : List (Bytes × Bytes)) (inner ts : List Tok) (u : Bytes) (ss : List Bytes) : ItemText ph ws inner u →
      SstItems ph ws ts ss → SstItems ph ws (.start (lit "si") attrs :: (inner ++ .stop (lit "si") :: ts)) (u :: ss)

/-! ### Escaped characters (22.9.2.19, ST_Xstring) -/

/-- A character that XML cannot have, as `_xHHHH_`. -/
def Escape (e : Bytes) (n : Nat) : Prop := ∃ h, h.length = 4 ∧ HexNum h n ∧ e = lit "_x" ++ h ++ lit "_"

/-- What a text means (for characters outside of pairs of surrogates). -/
inductive XString : Bytes → Bytes → Prop
  | nil : XString [] []
  | plain (b : UInt8) (s t : Bytes) : (∀ e n, Escape e n → ¬ e <+: b :: s) → XString s t → XString (b :: s) (b :: t)
  | escape (e : Bytes) (n : Nat) (s t : Bytes) : Escape e n → XString s t → XString (e ++ s) (utf8 [n] ++ t)

/-! ### The date system of a workbook (18.2.28) -/

/-- The workbook part declares the 1904 date system. -/
def Declares1904 (ts : List Tok) : Prop :=
  ∃ attrs, .start (lit "workbookPr") attrs ∈ ts ∧ (Has attrs "date1904" (lit "1") ∨ Has attrs "date1904" (lit "true"))

end Grate.Spec
