import Verif.Model.Base

/-! # Independent specification of delimited text (C04–C08) -/

namespace Grate.Spec

open Grate

/-- Element-wise relation of two lists of equal length. -/
inductive All2 {α β : Type} (R : α → β → Prop) : List α → List β → Prop
  | nil : All2 R [] []
  | cons {a : α} {b : β} {as : List α} {bs : List β} : R a b → All2 R as bs → All2 R (a :: as) (b :: bs)

/-- Grammar of text files: the lines a byte string consists of. A line is ended by LF or CRLF (one
CR belongs to the terminator); a last line may lack the LF. -/
inductive LinesOf : Bytes → List Bytes → Prop
  | nil : LinesOf [] []
  | lf {l rest : Bytes} {ls : List Bytes} : 10 ∉ l → l.getLast? ≠ some 13 → LinesOf rest ls →
      LinesOf (l ++ 10 :: rest) (l :: ls)
  | crlf {l rest : Bytes} {ls : List Bytes} : 10 ∉ l → LinesOf rest ls →
      LinesOf (l ++ 13 :: 10 :: rest) (l :: ls)
  | last {l : Bytes} : l ≠ [] → 10 ∉ l → l.getLast? ≠ some 13 → LinesOf l [l]
  | lastCR {l : Bytes} : 10 ∉ l → LinesOf (l ++ [13]) [l]

/-- `fs` are the tab-separated fields of `line`. -/
def FieldsOf (line : Bytes) (fs : List Bytes) : Prop :=
  fs ≠ [] ∧ (∀ f ∈ fs, (9 : UInt8) ∉ f) ∧ [(9 : UInt8)].intercalate fs = line

/-- The file contains a line (LF excluded) of at least 64 KiB. -/
def HasLongLine (content : Bytes) : Prop :=
  ∃ a l b : Bytes, content = a ++ l ++ b ∧ 65536 ≤ l.length ∧ (10 : UInt8) ∉ l

/-- A table written as tab-separated text with LF terminators. -/
def tsvText (rows : List (List Bytes)) : Bytes :=
  rows.flatMap (fun r => [(9 : UInt8)].intercalate r ++ [10])

/-- Number of rows having exactly `w` fields. -/
def widthCount (rows : List (List Bytes)) (w : Nat) : Nat :=
  (rows.filter (fun r => r.length = w)).length

/-- The documented detection rule: the text is declined iff some width ≥ 2 occurs more than 25 times
and no width ≥ 2 has more than 10 rows making up more than 80% of all rows. -/
def Declined (rows : List (List Bytes)) : Prop :=
  (∃ w, 2 ≤ w ∧ 25 < widthCount rows w) ∧
  ¬ (∃ w, 2 ≤ w ∧ 10 < widthCount rows w ∧ 4 * rows.length < 5 * widthCount rows w)

end Grate.Spec
