import Verif.Model.Tokens
import Verif.Spec.XlsSheet
import Verif.Spec.XlsxRefs

/-! # Specification: the parts of an Office Open XML workbook (ECMA-376), independent of the models of `/repo/xlsx`.

Parts are sequences of XML tokens (`Tok`). -/

namespace Grate.Spec

open Grate Grate.Xlsx

/-! ### Elements -/

/-- The token starts an element with one of the names. -/
def Starts (names : List Bytes) : Tok → Prop
  | .start n _ => n ∈ names
  | _ => False

/-- The token ends an element with one of the names. -/
def Stops (names : List Bytes) : Tok → Prop
  | .stop n => n ∈ names
  | _ => False

/-- XML allows an attribute once. -/
def Distinct (attrs : List (Bytes × Bytes)) : Prop := (attrs.map Prod.fst).Nodup

/-- The element has the attribute with a value. -/
def Has (attrs : List (Bytes × Bytes)) (k : String) (v : Bytes) : Prop := (lit k, v) ∈ attrs

/-- The element does not have the attribute. -/
def Lacks (attrs : List (Bytes × Bytes)) (k : String) : Prop := ∀ v, (lit k, v) ∉ attrs

/-- An unsigned number as an attribute; `d` if the attribute is absent. -/
def NumAttr (attrs : List (Bytes × Bytes)) (k : String) (d n : Nat) : Prop :=
  (Lacks attrs k ∧ n = d) ∨ (∃ s, Has attrs k s ∧ IsDigits s ∧ digitsVal s = n)

/-- The characters of a list of tokens. -/
def textOf : List Tok → Bytes
  | [] => []
  | .chars s :: ts => s ++ textOf ts
  | _ :: ts => textOf ts

/-! ### Shared strings (18.4) -/

/-- The tokens of a shared string part, and its strings. -/
inductive SstToks : List Tok → List Bytes → Prop
  | nil : SstToks [] []
  | other (t : Tok) (ts : List Tok) (ss : List Bytes) : ¬ Starts [lit "si"] t → ¬ Stops [lit "si"] t →
      SstToks ts ss → SstToks (t :: ts) ss
  | item (attrs : List (Bytes × Bytes)) (inner ts : List Tok) (ss : List Bytes) :
      (∀ t ∈ inner, ¬ Starts [lit "si"] t ∧ ¬ Stops [lit "si"] t) → SstToks ts ss →
      SstToks (.start (lit "si") attrs :: (inner ++ .stop (lit "si") :: ts)) (textOf inner :: ss)

/-! ### Styles (18.8) -/

/-- The number format of an xf element: none (General, 0) if number formats are disabled. Number formats with ids above
32767, and `false` for `0`, are left out. -/
structure XfFormat (attrs : List (Bytes × Bytes)) (n : Nat) : Prop where
  distinct : Distinct attrs
  base : ∃ k, NumAttr attrs "xfId" 0 k
  fmt : (Has attrs "applyNumberFormat" (lit "0") ∧ n = 0) ∨
    (¬ Has attrs "applyNumberFormat" (lit "0") ∧ ¬ Has attrs "applyNumberFormat" (lit "false") ∧
      NumAttr attrs "numFmtId" 0 n ∧ n < 32768)

/-- The elements with a meaning for number formats. -/
def styleNames : List Bytes := [lit "numFmt", lit "cellStyleXfs", lit "cellXfs", lit "xf"]

/-- The lists of styles. -/
def styleLists : List Bytes := [lit "cellStyleXfs", lit "cellXfs"]

/-- The content of a cellXfs element: one number format for each style. -/
inductive XfToks : List Tok → List Nat → Prop
  | nil : XfToks [] []
  | other (t : Tok) (ts : List Tok) (ns : List Nat) : ¬ Starts styleNames t → ¬ Stops styleLists t →
      XfToks ts ns → XfToks (t :: ts) ns
  | xf (attrs : List (Bytes × Bytes)) (n : Nat) (ts : List Tok) (ns : List Nat) : XfFormat attrs n →
      XfToks ts ns → XfToks (.start (lit "xf") attrs :: ts) (n :: ns)

/-- The tokens of a style part: the number formats it declares and, if there are any, the number formats of its cell
styles. -/
inductive StyleToks : List Tok → List (Nat × Bytes) → Option (List Nat) → Prop
  | nil : StyleToks [] [] none
  | other (t : Tok) (ts : List Tok) (as : List (Nat × Bytes)) (xfs : Option (List Nat)) : ¬ Starts styleNames t →
      StyleToks ts as xfs → StyleToks (t :: ts) as xfs
  /-- a number format (18.8.30) -/
  | numFmt (attrs : List (Bytes × Bytes)) (n : Nat) (code : Bytes) (ts : List Tok) (as : List (Nat × Bytes))
      (xfs : Option (List Nat)) : Distinct attrs → NumAttr attrs "numFmtId" 0 n → n < 32768 →
      Has attrs "formatCode" code → StyleToks ts as xfs →
      StyleToks (.start (lit "numFmt") attrs :: ts) ((n, code) :: as) xfs
  /-- the styles that cell styles are based on (18.8.9) -/
  | base (attrs : List (Bytes × Bytes)) (inner ts : List Tok) (as : List (Nat × Bytes)) (xfs : Option (List Nat)) :
      (∀ t ∈ inner, ¬ Starts [lit "numFmt", lit "cellStyleXfs", lit "cellXfs"] t ∧ ¬ Stops styleLists t) →
      StyleToks ts as xfs →
      StyleToks (.start (lit "cellStyleXfs") attrs :: (inner ++ .stop (lit "cellStyleXfs") :: ts)) as xfs
  /-- the cell styles (18.8.10), once -/
  | cells (attrs : List (Bytes × Bytes)) (k : Nat) (inner ts : List Tok) (ns : List Nat) (as : List (Nat × Bytes)) :
      Distinct attrs → NumAttr attrs "count" 0 k → k ≤ 2 ^ 47 → XfToks inner ns → StyleToks ts as none →
      StyleToks (.start (lit "cellXfs") attrs :: (inner ++ .stop (lit "cellXfs") :: ts)) as (some ns)

/-! ### Relationships (Open Packaging Conventions, 9.3) -/

/-- A name of a path: it has no slash. -/
def PathName (s : Bytes) : Prop := s ≠ [] ∧ 47 ∉ s

/-- A name that is not a dot or two dots. -/
def RealName (s : Bytes) : Prop := PathName s ∧ s ≠ lit "." ∧ s ≠ lit ".."

/-- The names, with slashes between them. -/
def pathOf : List Bytes → Bytes
  | [] => []
  | [s] => s
  | s :: ss => s ++ 47 :: pathOf ss

/-- Where a relative path leads from a directory. -/
inductive Leads : List Bytes → List Bytes → List Bytes → Prop
  | done (dir : List Bytes) : Leads dir [] dir
  | here (dir path to : List Bytes) : Leads dir path to → Leads dir (lit "." :: path) to
  | up (dir path to : List Bytes) (s : Bytes) : Leads dir path to → Leads (dir ++ [s]) (lit ".." :: path) to
  | down (dir path to : List Bytes) (s : Bytes) : RealName s → Leads (dir ++ [s]) path to → Leads dir (s :: path) to

/-- The part a target refers to: from the root, or from the directory of the part with the relationship. -/
inductive Refers (dir : List Bytes) : Bytes → Bytes → Prop
  | absolute (name : Bytes) : Refers dir (47 :: name) name
  | relative (path to : List Bytes) : path ≠ [] → (∀ s ∈ path, PathName s) → Leads dir path to → to ≠ [] →
      Refers dir (pathOf path) (pathOf to)

/-- A type of relationship between the parts of a document. -/
def relType (s : String) : Bytes := lit ("http://schemas.openxmlformats.org/officeDocument/2006/relationships/" ++ s)

/-- The types of relationships that lead to the parts of a workbook. -/
def partTypes : List Bytes := [relType "officeDocument", relType "worksheet", relType "styles", relType "sharedStrings"]

/-- A relationship: type, id, target and the part it refers to. -/
structure Relation where
  type : Bytes
  id : Bytes
  target : Bytes
  part : Bytes

/-- The tokens of a relationship part. -/
inductive RelToks (dir : List Bytes) : List Tok → List Relation → Prop
  | nil : RelToks dir [] []
  | other (t : Tok) (ts : List Tok) (rs : List Relation) : ¬ Starts [lit "Relationship"] t → RelToks dir ts rs →
      RelToks dir (t :: ts) rs
  | rel (attrs : List (Bytes × Bytes)) (r : Relation) (ts : List Tok) (rs : List Relation) : Distinct attrs →
      Has attrs "Type" r.type → Has attrs "Id" r.id → Has attrs "Target" r.target → Refers dir r.target r.part →
      RelToks dir ts rs → RelToks dir (.start (lit "Relationship") attrs :: ts) (r :: rs)
  /-- relationships of other types, to anything -/
  | foreign (attrs : List (Bytes × Bytes)) (type : Bytes) (ts : List Tok) (rs : List Relation) : Distinct attrs →
      Has attrs "Type" type → type ∉ partTypes → RelToks dir ts rs →
      RelToks dir (.start (lit "Relationship") attrs :: ts) rs

/-! ### The workbook part (18.2) -/

/-- The tokens of a workbook part: relationship ids and names of its sheets. -/
inductive BookToks : List Tok → List (Bytes × Bytes) → Prop
  | nil : BookToks [] []
  | other (t : Tok) (ts : List Tok) (ss : List (Bytes × Bytes)) : ¬ Starts [lit "sheet"] t → BookToks ts ss →
      BookToks (t :: ts) ss
  | sheet (attrs : List (Bytes × Bytes)) (id name : Bytes) (ts : List Tok) (ss : List (Bytes × Bytes)) :
      Distinct attrs → Has attrs "id" id → Has attrs "name" name → BookToks ts ss →
      BookToks (.start (lit "sheet") attrs :: ts) ((id, name) :: ss)

/-! ### Worksheets (18.3) -/

/-- The elements with a meaning for cells. -/
def sheetNames : List Bytes := [lit "dimension", lit "c", lit "mergeCell", lit "hyperlink"]

/-- The value of a text in a cell with a type (18.18.11). `parseFloat` is the meaning of numerals. -/
inductive CellMeans (ext : Ext) (strings : List Bytes) : Option Bytes → Bytes → GoVal → Prop
  | number (t : Option Bytes) (s : Bytes) (x : Float) : t = none ∨ t = some (lit "n") →
      ext.parseFloat s = (x, none) → CellMeans ext strings t s (.f64 x)
  | notNumber (t : Option Bytes) (s : Bytes) (x : Float) (e : NumErr) : t = none ∨ t = some (lit "n") →
      ext.parseFloat s = (x, some e) → CellMeans ext strings t s (.str s)
  | true (s : Bytes) : CellMeans ext strings (some (lit "b")) (49 :: s) (.bool true)
  | false (b : UInt8) (s : Bytes) : b ≠ 49 → CellMeans ext strings (some (lit "b")) (b :: s) (.bool false)
  | shared (s t : Bytes) : IsDigits s → digitsVal s < 2 ^ 63 → strings[digitsVal s]? = some t →
      CellMeans ext strings (some (lit "s")) s (.str t)
  | text (t s : Bytes) : t = lit "str" ∨ t = lit "inlineStr" ∨ t = lit "e" ∨ t = lit "d" →
      CellMeans ext strings (some t) s (.str s)

/-- The type of a cell. -/
def CellType? (attrs : List (Bytes × Bytes)) (t : Option Bytes) : Prop :=
  (Lacks attrs "t" ∧ t = none) ∨ (∃ s, Has attrs "t" s ∧ t = some s)

/-- A token in a cell that is not a text. -/
def CellToken (x : Tok) : Prop := (∀ s, x ≠ .chars s) ∧ ¬ Starts sheetNames x ∧ ¬ Stops [lit "c"] x

/-- The content of a cell and its value, if it has one: the text of a value (18.3.1.96) or of an inline string with one
run, after the formula (18.3.1.40), if there is one. There is no other text: no white space between the elements and no
second run. -/
inductive CellContent (ext : Ext) (strings : List Bytes) (t : Option Bytes) : List Tok → Option GoVal → Prop
  | blank (inner : List Tok) : (∀ x ∈ inner, CellToken x) → CellContent ext strings t inner none
  | value (pre post : List Tok) (e s : Bytes) (a : List (Bytes × Bytes)) (v : GoVal) : (∀ x ∈ pre, CellToken x) →
      (∀ x ∈ post, CellToken x) → e = lit "v" ∨ e = lit "t" → CellMeans ext strings t s v →
      CellContent ext strings t (pre ++ .start e a :: .chars s :: .stop e :: post) (some v)
  | formula (pre mid post : List Tok) (f s : Bytes) (a b : List (Bytes × Bytes)) (v : GoVal) : (∀ x ∈ pre, CellToken x) →
      (∀ x ∈ mid, CellToken x) → (∀ x ∈ post, CellToken x) → f ≠ [] → t ≠ some (lit "s") → CellMeans ext strings t s v →
      CellContent ext strings t (pre ++ .start (lit "f") a :: .chars f :: .stop (lit "f") ::
        (mid ++ .start (lit "v") b :: .chars s :: .stop (lit "v") :: post)) (some v)

/-- Sizes of sheets are 64-bit numbers. -/
def maxIndex : Nat := 2 ^ 63 - 1

/-- The reference of a region (18.18.63): one cell, or two of its corners. -/
inductive RegionRef : Region → Bytes → Prop
  | cell (r c : Nat) (s : Bytes) : A1 c r s → r < maxIndex → c < maxIndex → RegionRef ⟨r, r, c, c⟩ s
  | range (r0 r1 c0 c1 : Nat) (s t : Bytes) : A1 c0 r0 s → A1 c1 r1 t → r0 < maxIndex → c0 < maxIndex → r1 < maxIndex →
      c1 < maxIndex → RegionRef ⟨r0, r1, c0, c1⟩ (s ++ 58 :: t)

/-- The part of a region up to a row and a column. -/
def Region.upTo (maxRow maxCol : Nat) (g : Region) : Region := { g with r1 := min g.r1 maxRow, c1 := min g.c1 maxCol }

/-- The tokens of a worksheet after its dimension, and the cells they write. `strings` are the shared strings, `styles`
the formats of the cell styles, `links` the targets of the hyperlink relationships, `maxRow` and `maxCol` the last row
and column of the sheet. -/
inductive WsToks (ext : Ext) (strings : List Bytes) (styles : List Nat) (links : Bytes → Bytes) (maxRow maxCol : Nat) :
    List Tok → List Write → Prop
  | nil : WsToks ext strings styles links maxRow maxCol [] []
  | other (x : Tok) (ts : List Tok) (ws : List Write) : ¬ Starts sheetNames x →
      WsToks ext strings styles links maxRow maxCol ts ws → WsToks ext strings styles links maxRow maxCol (x :: ts) ws
  /-- a cell (18.3.1.4) -/
  | cell (attrs : List (Bytes × Bytes)) (r c k : Nat) (ref : Bytes) (t : Option Bytes) (inner : List Tok)
      (v : Option GoVal) (ts : List Tok) (ws : List Write) : Distinct attrs → Has attrs "r" ref → A1 c r ref →
      r < maxIndex → c < maxIndex → NumAttr attrs "s" 0 k → k < 2 ^ 63 → CellType? attrs t →
      CellContent ext strings t inner v → WsToks ext strings styles links maxRow maxCol ts ws →
      WsToks ext strings styles links maxRow maxCol (.start (lit "c") attrs :: (inner ++ .stop (lit "c") :: ts))
        (v.toList.map (fun v => ⟨r, c, .value v (styleFormat styles k)⟩) ++ ws)
  /-- a merged region (18.3.1.54) -/
  | merge (attrs : List (Bytes × Bytes)) (g : Region) (ref : Bytes) (vs : List Write) (ts : List Tok)
      (ws : List Write) : Distinct attrs → Has attrs "ref" ref → RegionRef g ref →
      RegionWrites (g.upTo maxRow maxCol) none vs → WsToks ext strings styles links maxRow maxCol ts ws →
      WsToks ext strings styles links maxRow maxCol (.start (lit "mergeCell") attrs :: ts) (vs ++ ws)
  /-- a hyperlink (18.3.1.47) of one cell; its target is shown in place of the value of the cell -/
  | link (attrs : List (Bytes × Bytes)) (r c : Nat) (ref l : Bytes) (ts : List Tok) (ws : List Write) :
      Distinct attrs → Has attrs "ref" ref → A1 c r ref → r < maxIndex → c < maxIndex →
      ((Lacks attrs "id" ∧ l = links []) ∨ ∃ id, Has attrs "id" id ∧ l = links id) → l ∉ [lit "→", lit "⇥", lit "↓", lit "⤓"] →
      WsToks ext strings styles links maxRow maxCol ts ws →
      WsToks ext strings styles links maxRow maxCol (.start (lit "hyperlink") attrs :: ts) (⟨r, c, .link l⟩ :: ws)

/-- The dimension of a sheet (18.3.1.35): its last row and column; a sheet with one cell is given an extra row and
column. -/
inductive DimRef : Bytes → Nat → Nat → Prop
  | one : DimRef (lit "A1") 1 1
  | cell (r c : Nat) (s : Bytes) : A1 c r s → s ≠ lit "A1" → r < maxIndex → c < maxIndex → DimRef s r c
  | range (r0 c0 r c : Nat) (s t : Bytes) : A1 c0 r0 s → A1 c r t → r < maxIndex → c < maxIndex →
      DimRef (s ++ 58 :: t) r c

/-- The tokens of a worksheet. -/
inductive WsPart (ext : Ext) (strings : List Bytes) (styles : List Nat) (links : Bytes → Bytes) :
    List Tok → Nat × Nat → List Write → Prop
  | plain (ts : List Tok) (ws : List Write) : WsToks ext strings styles links 0 0 ts ws →
      WsPart ext strings styles links ts (0, 0) ws
  | dimension (head : List Tok) (attrs : List (Bytes × Bytes)) (ref : Bytes) (r c : Nat) (ts : List Tok)
      (ws : List Write) : (∀ x ∈ head, ¬ Starts sheetNames x) → Distinct attrs → Has attrs "ref" ref → DimRef ref r c →
      WsToks ext strings styles links r c ts ws →
      WsPart ext strings styles links (head ++ .start (lit "dimension") attrs :: ts) (r, c) ws

/-- The targets of the external links of a worksheet. -/
inductive LinkToks : List Tok → List (Bytes × Bytes) → Prop
  | nil : LinkToks [] []
  | other (x : Tok) (ts : List Tok) (ls : List (Bytes × Bytes)) : ¬ Starts [lit "Relationship"] x → LinkToks ts ls →
      LinkToks (x :: ts) ls
  | link (attrs : List (Bytes × Bytes)) (id target : Bytes) (ts : List Tok) (ls : List (Bytes × Bytes)) : Distinct attrs →
      Has attrs "Id" id → Has attrs "Target" target → Has attrs "TargetMode" (lit "External") →
      Has attrs "Type" (relType "hyperlink") → LinkToks ts ls →
      LinkToks (.start (lit "Relationship") attrs :: ts) ((id, target) :: ls)
  | internal (attrs : List (Bytes × Bytes)) (ts : List Tok) (ls : List (Bytes × Bytes)) : Distinct attrs →
      ¬ (Has attrs "TargetMode" (lit "External") ∧ Has attrs "Type" (relType "hyperlink")) → LinkToks ts ls →
      LinkToks (.start (lit "Relationship") attrs :: ts) ls

/-- The target with an id: the last one; empty if there is none. -/
def targetOf : List (Bytes × Bytes) → Bytes → Bytes
  | [], _ => []
  | (i, t) :: ls, id => if (∃ l ∈ ls, l.1 = id) then targetOf ls id else if i = id then t else []

/-! ### Documents -/

/-- The archive has a part, complete and readable; the first entry with its name counts. -/
def HasPart (a : List (Bytes × Except GoErr Part)) (name : Bytes) (ts : List Tok) : Prop :=
  ∃ before after, a = before ++ (name, .ok ⟨ts, .eof⟩) :: after ∧ ∀ e ∈ before, e.1 ≠ name

/-- The archive has no entry with the name. -/
def LacksPart (a : List (Bytes × Except GoErr Part)) (name : Bytes) : Prop := ∀ e ∈ a, e.1 ≠ name

/-- The relationship part of a part (Open Packaging Conventions, 9.3.3). -/
def relsPart (dir : List Bytes) (base : Bytes) : Bytes := pathOf (dir ++ [lit "_rels", base ++ lit ".rels"])

/-- The parts that the relationships of a type lead to. -/
def partsOf (rs : List Relation) (type : Bytes) : List Bytes := (rs.filter (fun r => r.type = type)).map Relation.part

/-- The content of a document: the relationships of its workbook, the relationship ids and names of its sheets, the
declared number formats, the number formats of its styles and the shared strings. -/
structure Book where
  rels : List Relation
  sheets : List (Bytes × Bytes)
  formats : List (Nat × Bytes)
  styles : List Nat
  strings : List Bytes

/-- The parts of a document whose workbook part is named `base` in the directory `dir`. -/
structure XlsxFile (a : List (Bytes × Except GoErr Part)) (dir : List Bytes) (base : Bytes) (b : Book) : Prop where
  dirNames : ∀ s ∈ dir, RealName s
  baseName : RealName base
  /-- the relationships of the archive lead to the workbook part, by a relative path -/
  root : ∃ ts before after r, HasPart a (lit "_rels/.rels") ts ∧ RelToks [] ts (before ++ r :: after) ∧
    r.type = relType "officeDocument" ∧ r.target = pathOf (dir ++ [base]) ∧
    (∀ x ∈ after, x.type ≠ relType "officeDocument") ∧
    (∀ x ∈ before ++ r :: after, x.type ∉ [relType "worksheet", relType "styles", relType "sharedStrings"])
  rels : ∃ ts, HasPart a (relsPart dir base) ts ∧ RelToks dir ts b.rels
  noOther : ∀ x ∈ b.rels, x.type ≠ relType "officeDocument"
  ids : (b.rels.map Relation.id).Nodup
  workbook : ∃ ts, HasPart a (pathOf (dir ++ [base])) ts ∧ BookToks ts b.sheets
  /-- there is at most one part with styles -/
  styles : (partsOf b.rels (relType "styles") = [] ∧ b.formats = [] ∧ b.styles = []) ∨
    (∃ p ts xfs, partsOf b.rels (relType "styles") = [p] ∧ HasPart a p ts ∧ StyleToks ts b.formats xfs ∧
      b.styles = xfs.getD [])
  /-- there is at most one part with shared strings -/
  strings : (partsOf b.rels (relType "sharedStrings") = [] ∧ b.strings = []) ∨
    (∃ p ts, partsOf b.rels (relType "sharedStrings") = [p] ∧ HasPart a p ts ∧ SstToks ts b.strings)

end Grate.Spec
