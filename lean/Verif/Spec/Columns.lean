import Verif.Spec.XlsSheet
import Verif.Model.MakeFormat

/-! # Specification: what a row says about its cells (C133, C134) -/

namespace Grate.Spec

open Grate

/-- The codes of the number formats that are the same in all languages (ECMA-376, 18.8.30). -/
def standardCodes : List (Nat × Bytes) :=
  [(0, lit "General"), (1, lit "0"), (2, lit "0.00"), (3, lit "#,##0"), (4, lit "#,##0.00"), (9, lit "0%"), (10, lit "0.00%"),
    (11, lit "0.00E+00"), (12, lit "# ?/?"), (13, lit "# ??/??"), (14, lit "mm-dd-yy"), (15, lit "d-mmm-yy"), (16, lit "d-mmm"),
    (17, lit "mmm-yy"), (18, lit "h:mm AM/PM"), (19, lit "h:mm:ss AM/PM"), (20, lit "h:mm"), (21, lit "h:mm:ss"),
    (22, lit "m/d/yy h:mm"), (37, lit "#,##0 ;(#,##0)"), (38, lit "#,##0 ;[Red](#,##0)"), (39, lit "#,##0.00;(#,##0.00)"),
    (40, lit "#,##0.00;[Red](#,##0.00)"), (45, lit "mm:ss"), (46, lit "[h]:mm:ss"), (47, lit "mmss.0"), (48, lit "##0.0E+0"),
    (49, lit "@")]

/-- The value is one of the four marks in merged cells. -/
def IsMergeMark (v : GoVal) : Prop := v = .str (lit "→") ∨ v = .str (lit "⇥") ∨ v = .str (lit "↓") ∨ v = .str (lit "⤓")

/-- The number format of a cell, given what was written to it last: none (General) for blank cells, links and the marks in merged
cells. -/
inductive FormatNumberOf : Option What → Nat → Prop where
  | blank : FormatNumberOf none 0
  | value (v : GoVal) (n : Nat) : ¬ IsMergeMark v → FormatNumberOf (some (.value v n)) n
  | mark (v : GoVal) (n : Nat) : IsMergeMark v → FormatNumberOf (some (.value v n)) 0
  | text (t : Bytes) (n : Nat) : FormatNumberOf (some (.text t n)) n
  | link (l : Bytes) : FormatNumberOf (some (.link l)) 0

/-- A stored value, the name of its type, and a destination of `Scan` of that type, before and after. -/
inductive Stored : GoVal → Bytes → SDest → SDest → Prop where
  | number (x d : Float) : Stored (.f64 x) (lit "float") (.float d) (.float x)
  | boolean (b d : Bool) : Stored (.bool b) (lit "boolean") (.bool d) (.bool b)
  | text (t d : Bytes) : t ≠ [] → Stored (.str t) (lit "string") (.str d) (.str t)

/-- The formats of a workbook, in which `code` was the first to be defined for the number. -/
inductive DefinedAs (n : Nat) (code : Bytes) : Formatter → Prop where
  | first {x : Formatter} : x.codes n = none → DefinedAs n code (x.add makeFormatter n code).1
  | later {x : Formatter} (m : Nat) (other : Bytes) : DefinedAs n code x → DefinedAs n code (x.add makeFormatter m other).1
  | mode {x : Formatter} (b : Bool) : DefinedAs n code x → DefinedAs n code (x.setMode1904 b)

end Grate.Spec
