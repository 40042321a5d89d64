import Verif.Props.Rows
import Verif.Props.SameNumber
import Verif.Props.Grater

/-! # C110: the same table reads the same from an xls and from an xlsx file -/

namespace Grate.Props

open Grate Grate.Spec Grate.Api

/-- The code that a workbook declares for a number format. -/
def codeOf (formats : List (Nat × Bytes)) (n : Nat) : Option Bytes := (formats.find? (fun a => a.1 == n)).map (·.2)

/-- Two numbers of formats in two workbooks mean the same format: it is the same built-in format, or both workbooks
declare the same code. -/
inductive SameFormat (fs fs' : List (Nat × Bytes)) : Nat → Nat → Prop
  | builtIn (n : Nat) : (builtInFormats n).isSome → SameFormat fs fs' n n
  | custom (n n' : Nat) (code : Bytes) : builtInFormats n = none → builtInFormats n' = none → codeOf fs n = some code →
      codeOf fs' n' = some code → SameFormat fs fs' n n'

/-- The format is one for numbers and dates, not for text. -/
def NotText (fs : List (Nat × Bytes)) (n : Nat) : Prop := (formatterOf fs).getCellType n ≠ some .string

/-- Two cells of two workbooks have the same content: the same value, text or link under the same format; a whole number
of at most eleven digits can be stored as an integer in the first and as a floating-point number in the second (if it is
not shown as text, or below a million); under General a text that is the result of a formula in the first can be a text
in the second. -/
inductive SameContent (fs fs' : List (Nat × Bytes)) : What → What → Prop
  | value (v : GoVal) (n n' : Nat) : SameFormat fs fs' n n' → SameContent fs fs' (.value v n) (.value v n')
  | whole (k : Int) (n n' : Nat) : SameFormat fs fs' n n' → k.natAbs < 10 ^ 11 → NotText fs n ∨ k.natAbs < 10 ^ 6 →
      SameContent fs fs' (.value (.sint k) n) (.value (.f64 (f64OfInt k)) n')
  | text (t : Bytes) (n n' : Nat) : SameFormat fs fs' n n' → SameContent fs fs' (.text t n) (.text t n')
  | result (t : Bytes) : t ≠ [] → SameContent fs fs' (.text t 0) (.value (.str t) 0)
  | link (l : Bytes) : SameContent fs fs' (.link l) (.link l)

/-- Two tables have the same content. -/
def SameCells (fs fs' : List (Nat × Bytes)) (ws ws' : List Write) : Prop :=
  ∀ r c, (lastAt r c ws = none ∧ lastAt r c ws' = none) ∨
    ∃ x y, lastAt r c ws = some x ∧ lastAt r c ws' = some y ∧ SameContent fs fs' x y

/-- A workbook declares a number once. -/
def OnceEach (fs : List (Nat × Bytes)) : Prop := (fs.map Prod.fst).Nodup

/-! ### The formatter of a workbook -/

theorem add_other {mk : Bytes → Fmt × CellType} (f : Formatter) {m n : Nat} (code : Bytes) (h : m ≠ n) :
    (f.add mk m code).1.codes n = f.codes n ∧ (f.add mk m code).1.types n = f.types n := by
  unfold Formatter.add
  split
  · exact ⟨by simp [upd, Ne.symm h], rfl⟩
  · split
    · exact ⟨rfl, rfl⟩
    · split
      · exact ⟨rfl, rfl⟩
      · exact ⟨by simp [upd, Ne.symm h], by simp [upd, Ne.symm h]⟩

theorem fold_other {n : Nat} : ∀ (l : List (Nat × Bytes)) (f : Formatter), n ∉ l.map Prod.fst →
    (l.foldl (fun f a => (f.add makeFormatter a.1 a.2).1) f).codes n = f.codes n ∧
    (l.foldl (fun f a => (f.add makeFormatter a.1 a.2).1) f).types n = f.types n := by
  intro l
  induction l with
  | nil => intro f _; exact ⟨rfl, rfl⟩
  | cons a l ih =>
    intro f h
    rw [List.map_cons, List.mem_cons, not_or] at h
    rw [List.foldl_cons]
    obtain ⟨h1, h2⟩ := ih (f.add makeFormatter a.1 a.2).1 h.2
    obtain ⟨h3, h4⟩ := add_other (mk := makeFormatter) f a.2 (Ne.symm h.1)
    exact ⟨h1.trans h3, h2.trans h4⟩

theorem fold_mode : ∀ (l : List (Nat × Bytes)) (f : Formatter),
    (l.foldl (fun f a => (f.add makeFormatter a.1 a.2).1) f).mode1904 = f.mode1904 := by
  intro l
  induction l with
  | nil => intro f; rfl
  | cons a l ih => intro f; rw [List.foldl_cons, ih, add_mode]

theorem formatter_mode (fs : List (Nat × Bytes)) : (formatterOf fs).mode1904 = false := fold_mode fs _

/-- What a declared code gives. -/
def declared (code : Bytes) : Option Fmt × Option CellType :=
  if asciiLower code = lit "general" then (some .ident, none)
  else (some (makeFormatter code).1, some (makeFormatter code).2)

theorem formatter_code {fs : List (Nat × Bytes)} (hf : OnceEach fs) {n : Nat} (hb : goFormatters n = none) {code : Bytes}
    (h : codeOf fs n = some code) :
    (formatterOf fs).codes n = (declared code).1 ∧ (formatterOf fs).types n = (declared code).2 := by
  unfold codeOf at h
  cases hfind : fs.find? (fun a => a.1 == n) with
  | none => rw [hfind] at h; cases h
  | some a =>
    rw [hfind] at h
    obtain ⟨m, c⟩ := a
    simp only [Option.map_some, Option.some.injEq] at h
    subst h
    obtain ⟨hm, l1, l2, rfl, hl1⟩ := List.find?_eq_some_iff_append.1 hfind
    have hm : m = n := by simpa using hm
    subst hm
    have n1 : m ∉ l1.map Prod.fst := by
      intro hm
      obtain ⟨a, ha, e⟩ := List.mem_map.1 hm
      have := hl1 a ha
      simp [e] at this
    have n2 : m ∉ l2.map Prod.fst := by
      have h := hf
      unfold OnceEach at h
      rw [List.map_append, List.map_cons, List.nodup_append] at h
      exact (List.nodup_cons.1 h.2.1).1
    unfold formatterOf
    rw [List.foldl_append, List.foldl_cons]
    obtain ⟨a1, a2⟩ := fold_other l1 Formatter.new n1
    obtain ⟨b1, b2⟩ := fold_other l2 ((l1.foldl (fun f a => (f.add makeFormatter a.1 a.2).1) Formatter.new).add
      makeFormatter m c).1 n2
    rw [b1, b2]
    generalize hg : l1.foldl (fun f a => (f.add makeFormatter a.1 a.2).1) Formatter.new = g at a1 a2
    have a1 : g.codes m = none := a1
    have a2 : g.types m = none := a2
    unfold declared Formatter.add
    split
    · exact ⟨by simp [upd], a2⟩
    · rw [hb, a1]
      exact ⟨by simp [upd], by simp [upd]⟩

/-- Formatters do the same with formats that mean the same. -/
structure Alike (ext : Ext) (f f' : Formatter) (n n' : Nat) : Prop where
  type : n ≠ 0 → f.getCellType n = f'.getCellType n'
  apply : ∀ v, f.apply ext n v = f'.apply ext n' v
  zero : n = 0 ↔ n' = 0
  mode : f.mode1904 = f'.mode1904

theorem builtin_none {n : Nat} (h : builtInFormats n = none) : goFormatters n = none ∧ builtInFormatTypes n = none ∧ n ≠ 0 := by
  obtain ⟨h1, h2, _⟩ := C29_tables_agree n
  rw [h] at h1
  have e1 : goFormatters n = none := by
    cases hg : goFormatters n with
    | none => rfl
    | some f => rw [hg] at h1; exact absurd (h1.2 rfl) (by simp)
  rw [e1] at h2
  refine ⟨e1, ?_, ?_⟩
  · cases hg : builtInFormatTypes n with
    | none => rfl
    | some f => rw [hg] at h2; exact absurd (h2.1 rfl).1 (by simp)
  · rintro rfl; cases h

theorem alike_of (ext : Ext) {fs fs' : List (Nat × Bytes)} (hf : OnceEach fs) (hf' : OnceEach fs') {n n' : Nat}
    (h : SameFormat fs fs' n n') : Alike ext (formatterOf fs) (formatterOf fs') n n' := by
  have hm : (formatterOf fs).mode1904 = (formatterOf fs').mode1904 := by rw [formatter_mode, formatter_mode]
  cases h with
  | builtIn hb =>
    obtain ⟨h1, h2, _⟩ := C29_tables_agree n
    obtain ⟨ff, hff⟩ := Option.isSome_iff_exists.1 (h1.1 hb)
    refine ⟨fun h0 => ?_, fun v => ?_, Iff.rfl, hm⟩
    · obtain ⟨t, ht⟩ := Option.isSome_iff_exists.1 (h2.2 ⟨h1.1 hb, h0⟩)
      unfold Formatter.getCellType
      rw [ht]
    · unfold Formatter.apply
      rw [hff, hm]
  | custom _ code hb hb' hc hc' =>
    obtain ⟨b1, b2, b3⟩ := builtin_none hb
    obtain ⟨b1', b2', b3'⟩ := builtin_none hb'
    obtain ⟨a1, a2⟩ := formatter_code hf b1 hc
    obtain ⟨a1', a2'⟩ := formatter_code hf' b1' hc'
    refine ⟨fun _ => ?_, fun v => ?_, ⟨fun h => absurd h b3, fun h => absurd h b3'⟩, hm⟩
    · unfold Formatter.getCellType
      rw [b2, b2', a2, a2']
    · unfold Formatter.apply
      rw [b1, b1', a1, a1', hm]

/-! ### Cells -/

/-- What a cell shows depends on its type, value and format. -/
theorem string_alike (ext : Ext) {f f' : Formatter} {x x' : Cell} (ht : x.type = x'.type) (hv : x.value = x'.value)
    (ha : ∀ v, f.apply ext x.formatNo v = f'.apply ext x'.formatNo v) : cellString ext f x = cellString ext f' x' := by
  unfold cellString
  rw [ht, hv, ha]

theorem value_alike (ext : Ext) {f f' : Formatter} {n n' : Nat} (h : Alike ext f f' n n') {v : GoVal} {x x' : Cell}
    (hx : putCell ext f v n = .ok x) (hx' : putCell ext f' v n' = .ok x') : cellString ext f x = cellString ext f' x' := by
  unfold putCell at hx hx'
  cases hm : v.marker with
  | true =>
    rw [hm] at hx hx'
    simp only [cond_true] at hx hx'
    rw [hx] at hx'
    cases hx'
    unfold staticCell at hx
    cases hc : newCell v with
    | ok c =>
      rw [hc] at hx
      simp only [GoRes.ok_bind] at hx
      cases c with
      | empty => cases hx
      | full a t g u =>
        cases hx
        unfold cellString
        rfl
    | err e => rw [hc] at hx; cases hx
    | panic => rw [hc] at hx; cases hx
  | false =>
    rw [hm] at hx hx'
    simp only [cond_false] at hx hx'
    have hty : typedCell ext f v n = typedCell ext f' v n' := by
      unfold typedCell
      by_cases h0 : n = 0
      · have h0' := h.zero.1 h0
        subst h0 h0'
        cases f.getCellType 0 <;> cases f'.getCellType 0 <;> rfl
      · rw [h.type h0, h.mode]
        have h0' : n' ≠ 0 := fun e => h0 (h.zero.2 e)
        cases f'.getCellType n' with
        | none => rfl
        | some t => simp only [if_neg h0, if_neg h0']
    rw [hty] at hx
    cases hc : typedCell ext f' v n' with
    | err e => rw [hc] at hx; cases hx
    | panic => rw [hc] at hx; cases hx
    | ok c =>
      rw [hc] at hx hx'
      simp only [GoRes.ok_bind] at hx hx'
      cases c with
      | empty => cases hx
      | full a t g u =>
        unfold Cell.setFormatNumber at hx hx'
        simp only at hx hx'
        by_cases h0 : n = 0
        · rw [if_pos h0] at hx
          rw [if_pos (h.zero.1 h0)] at hx'
          cases hx
          cases hx'
          exact string_alike ext rfl rfl (fun v => rfl)
        · rw [if_neg h0] at hx
          rw [if_neg (fun e => h0 (h.zero.2 e))] at hx'
          cases hx
          cases hx'
          refine string_alike ext rfl rfl (fun v => ?_)
          cases u with
          | nil => exact h.apply v
          | cons a u => rfl

theorem content_same {ext : Ext} (hg : GoShort ext) {fs fs' : List (Nat × Bytes)} (hf : OnceEach fs) (hf' : OnceEach fs')
    {w w' : What} (h : SameContent fs fs' w w') {x x' : Cell} (hx : Shows ext (formatterOf fs) w x)
    (hx' : Shows ext (formatterOf fs') w' x') : cellString ext (formatterOf fs) x = cellString ext (formatterOf fs') x' := by
  cases h with
  | value v n n' hs =>
    exact value_alike ext (alike_of ext hf hf' hs) ((builds_iff ..).1 hx) ((builds_iff ..).1 hx')
  | whole k n n' hs hk ht =>
    obtain ⟨c, c', h1, h2, h3⟩ := whole_same hg (made_formatter fs) hk n ht
    have hx := (builds_iff ..).1 hx
    rw [h1] at hx
    cases hx
    rw [h3]
    exact value_alike ext (alike_of ext hf hf' hs) h2 ((builds_iff ..).1 hx')
  | text t n n' hs =>
    obtain ⟨a1, a2, a3⟩ := hx
    obtain ⟨b1, b2, b3⟩ := hx'
    refine string_alike ext (by rw [a2, b2]) (by rw [a1, b1]) (fun v => ?_)
    rw [a3, b3]
    exact (alike_of ext hf hf' hs).apply v
  | result t ht =>
    obtain ⟨a1, a2, a3⟩ := hx
    have e1 : cellString ext (formatterOf fs) x = .ok t := by
      unfold cellString
      rw [a2, a1, a3]
      rfl
    have hx' := (builds_iff ..).1 hx'
    unfold putCell at hx'
    cases hm : (GoVal.str t).marker with
    | true =>
      rw [hm] at hx'
      simp only [cond_true, staticCell, newCell, textCell, if_neg ht, GoRes.ok_bind] at hx'
      cases hx'
      rw [e1]
      rfl
    | false =>
      rw [hm] at hx'
      have e2 : typedCell ext (formatterOf fs') (.str t) 0 = .ok (.full (.str t) .string none []) := by
        unfold typedCell
        cases (formatterOf fs').getCellType 0 <;> simp [newCell, textCell, ht]
      simp only [cond_false, e2, GoRes.ok_bind] at hx'
      cases hx'
      rw [e1]
      rfl
  | link l =>
    obtain ⟨a1, a2, a3, _⟩ := hx
    obtain ⟨b1, b2, b3, _⟩ := hx'
    refine string_alike ext (by rw [a2, b2]) (by rw [a1, b1]) (fun v => ?_)
    rw [a3, b3]
    rfl

/-! ### Sheets -/

/-- Two sheets whose rows show the same. -/
structure ShowSame (ext : Ext) (s s' : Sheet) : Prop where
  cols : s.numCols = s'.numCols
  cur : s.curRow = s'.curRow
  rows : s.rows.map (·.map (cellString ext s.fmtr)) = s'.rows.map (·.map (cellString ext s'.fmtr))

theorem showSame_next {ext : Ext} {s s' : Sheet} (h : ShowSame ext s s') : ShowSame ext s.next.1 s'.next.1 ∧ s.next.2 = s'.next.2 := by
  have hl : s.rows.length = s'.rows.length := by simpa using congrArg List.length h.rows
  unfold Sheet.next
  rw [hl, h.cur]
  split
  · exact ⟨h, rfl⟩
  · exact ⟨⟨h.cols, rfl, h.rows⟩, rfl⟩

theorem showSame_strings {ext : Ext} {s s' : Sheet} (h : ShowSame ext s s') : s.strings ext = s'.strings ext := by
  have hr : s.rows[(s'.curRow - 1).toNat]?.map (·.map (cellString ext s.fmtr)) =
      s'.rows[(s'.curRow - 1).toNat]?.map (·.map (cellString ext s'.fmtr)) := by
    rw [← List.getElem?_map, ← List.getElem?_map, h.rows]
  unfold Sheet.strings Sheet.row
  rw [h.cur, h.cols]
  split
  · cases h1 : s.rows[(s'.curRow - 1).toNat]? with
    | none =>
      cases h2 : s'.rows[(s'.curRow - 1).toNat]? with
      | none => rfl
      | some b => rw [h1, h2] at hr; cases hr
    | some a =>
      cases h2 : s'.rows[(s'.curRow - 1).toNat]? with
      | none => rw [h1, h2] at hr; cases hr
      | some b =>
        rw [h1, h2] at hr
        simp only [Option.map_some, Option.some.injEq] at hr
        simp only [GoRes.ok_bind, hr]
  · rfl

theorem showSame_drain {ext : Ext} : ∀ (fuel : Nat) {s s' : Sheet}, ShowSame ext s s' →
    drain Sheet.next (Sheet.strings ext) fuel s = drain Sheet.next (Sheet.strings ext) fuel s' := by
  intro fuel
  induction fuel with
  | zero => intro s s' _; rfl
  | succ fuel ih =>
    intro s s' h
    obtain ⟨h1, h2⟩ := showSame_next h
    rw [drain, drain]
    revert h1 h2
    cases s.next with
    | mk a more =>
      cases s'.next with
      | mk a' more' =>
        intro h1 h2
        simp only at h1 h2
        subst h2
        cases more with
        | false => rfl
        | true =>
          simp only
          rw [ih h1, showSame_strings h1]

/-- Sheets that hold tables with the same content, of the same size, show the same. -/
theorem holds_same {ext : Ext} (hg : GoShort ext) {fs fs' : List (Nat × Bytes)} (hf : OnceEach fs) (hf' : OnceEach fs')
    {ws ws' : List Write} (hw : SameCells fs fs' ws ws') {s s' : Sheet} (h : Holds ext (formatterOf fs) ws s)
    (h' : Holds ext (formatterOf fs') ws' s') {m m' : Nat × Nat} (hs : SizeIs m.1 m.2 ws s) (hs' : SizeIs m'.1 m'.2 ws' s')
    (hq : Rectangular s) (hq' : Rectangular s') {R C : Nat} (hR : Extent m.1 (ws.map (·.row)) R)
    (hC : Extent m.2 (ws.map (·.col)) C) (hR' : Extent m'.1 (ws'.map (·.row)) R) (hC' : Extent m'.2 (ws'.map (·.col)) C) :
    ShowSame ext s s' := by
  obtain ⟨a1, a2⟩ := size_extent h hs hR hC
  obtain ⟨b1, b2⟩ := size_extent h' hs' hR' hC'
  have r0 := hR.1
  have len : s.rows.length = R + 1 := by rcases hq.count with ⟨_, h0, _⟩ | ⟨h1, _⟩ <;> omega
  have len' : s'.rows.length = R + 1 := by rcases hq'.count with ⟨_, h0, _⟩ | ⟨h1, _⟩ <;> omega
  refine ⟨by rw [a2, b2], by rw [h.start, h'.start], ?_⟩
  rw [h.fmtr, h'.fmtr]
  apply List.ext_getElem
  · simp [len, len']
  intro i h1 h2
  simp only [List.length_map] at h1 h2
  rw [List.getElem_map, List.getElem_map]
  have w1 := hq.width _ (List.getElem_mem h1)
  have w2 := hq'.width _ (List.getElem_mem h2)
  apply List.ext_getElem
  · simp only [List.length_map]; omega
  intro j k1 k2
  simp only [List.length_map] at k1 k2
  rw [List.getElem_map, List.getElem_map]
  have c1 : s.cell? i j = some s.rows[i][j] := by
    rw [cell?_nat]; unfold Sheet.at?; rw [List.getElem?_eq_getElem h1]; simp
  have c2 : s'.cell? i j = some s'.rows[i][j] := by
    rw [cell?_nat]; unfold Sheet.at?; rw [List.getElem?_eq_getElem h2]; simp
  rcases hw i j with ⟨n1, n2⟩ | ⟨x, y, n1, n2, hc⟩
  · have e1 : s.rows[i][j] = .empty := by
      rcases h.blank i j n1 with e | e
      · rw [c1] at e; cases e
      · rw [c1] at e; exact Option.some.inj e
    have e2 : s'.rows[i][j] = .empty := by
      rcases h'.blank i j n2 with e | e
      · rw [c2] at e; cases e
      · rw [c2] at e; exact Option.some.inj e
    rw [e1, e2]
    rfl
  · obtain ⟨u, hu, eu⟩ := h.written i j x n1
    obtain ⟨v, hv, ev⟩ := h'.written i j y n2
    rw [c1] at eu
    rw [c2] at ev
    cases eu
    cases ev
    exact content_same hg hf hf' hc hu hv

/-- C110 for sheets: the sheet of an xls workbook stream and the sheet of an xlsx document, whose cells have the same
content and which have the same size, give the same rows, whatever `Strings` does with them. Missing: what C49 and C58
leave out; larger whole numbers, text formats (C109), formulas with text under other formats and error values with a
format, where it is false (`C110_counterexample`). -/
theorem C110_sheet_partial (p : Crypto.Prims) (ext : Ext) (hg : GoShort ext) {groups : List (List Record)}
    (h : Grouped groups) (hp : ∀ r ∈ groups.flatten, r.type ≠ 0x2F) {c : Content} (hc : AllGlobals .empty groups c)
    (rest : Bytes) (before after : List SheetEntry) (e : SheetEntry) (hx : c.sheets = before ++ e :: after)
    (hn : ∀ x ∈ before, utf8 x.name ≠ utf8 e.name) (i : Nat) (bof : Record) (rs : List Record)
    (hi : groups[i]? = some (bof :: rs)) (hpos : e.position = position groups i) (m : Nat × Nat)
    (hd : Declares (0, 0) rs m) (h1 : dimsCount rs ≤ 1) (ws : List Write)
    (hw : SheetRecs c.strings c.styles m.1 m.2 rs ws) (fs : List (Nat × Bytes))
    (hfs : fs = c.formats.map (fun a => (a.1, utf8 a.2)))
    (a : Xlsx.Archive) (d : Xlsx.Doc) (fs' : List (Nat × Bytes)) (hfs' : d.fmt = formatterOf fs') (dir : List Bytes)
    (base : Bytes) (hdir : ∀ s ∈ dir, RealName s) (hbase : PathName base) (ts : List Xlsx.Tok)
    (hpart : HasPart a (pathOf (dir ++ [base])) ts) (ls : List (Bytes × Bytes))
    (hl : (LacksPart a (relsPart dir base) ∧ ls = []) ∨ ∃ us, HasPart a (relsPart dir base) us ∧ LinkToks us ls)
    (m' : Nat × Nat) (ws' : List Write) (hw' : WsPart ext d.strings d.xfs (targetOf ls) ts m' ws')
    (ho : OnceEach fs) (ho' : OnceEach fs') (hsame : SameCells fs fs' ws ws') (R C : Nat)
    (hR : Extent m.1 (ws.map (·.row)) R) (hC : Extent m.2 (ws.map (·.col)) C)
    (hR' : Extent m'.1 (ws'.map (·.row)) R) (hC' : Extent m'.2 (ws'.map (·.col)) C) :
    ∃ b s s', Xls.loadStream p makeFormatter rest ⟨stream groups.flatten, rest⟩ = .ok b ∧
      b.get ext (utf8 e.name) = .ok (some s) ∧ Xlsx.parseSheet ext a d (pathOf (dir ++ [base])) = .ok (s', none) ∧
      ∀ fuel, drain Sheet.next (Sheet.strings ext) fuel s = drain Sheet.next (Sheet.strings ext) fuel s' := by
  obtain ⟨b, s, e1, e2, hh, hs, hq⟩ := C49_file_partial p makeFormatter ext h hp hc rest before after e hx hn i bof rs hi hpos
    m.1 m.2 hd ws hw
  obtain ⟨s', e3, hh', hs', hq'⟩ := C58_sheet_partial ext a d dir base hdir hbase ts hpart ls hl m' ws' hw'
  obtain ⟨g, hl2, _⟩ := load_content p makeFormatter h hp hc rest
  have hnf : b.nfmt = formatterOf fs := by
    rw [e1] at hl2
    cases hl2
    rw [hfs]
    exact addAll_formatter _ _
  rw [hnf] at hh
  rw [hfs'] at hh'
  exact ⟨b, s, s', e1, e2, e3, fun fuel => showSame_drain fuel
    (holds_same hg ho ho' hsame hh hh' hs hs' (hq h1) hq' hR hC hR' hC')⟩

/-- C110: an xls file and an xlsx file, in any program with all formats: `Open` and `Get` of two sheets whose cells have
the same content and which have the same size give the same rows. Missing: what C77 and C78 leave out, and what
`C110_sheet_partial` does. -/
theorem C110_open_partial (w : World) (ext : Ext) (hg : GoShort ext) (fn file : Bytes) (hf : w.files fn = .ok file)
    {groups : List (List Record)} (h : Grouped groups) (hp : ∀ r ∈ groups.flatten, r.type ≠ 0x2F) {c : Content}
    (hc : AllGlobals .empty groups c) (hs : StreamIn file (lit "Workbook") (stream groups.flatten))
    (hb : ∀ k ∈ w.bufs, 0 < k) (hbl : (stream groups.flatten).length < w.bufs.length)
    (before after : List SheetEntry) (e : SheetEntry) (hx : c.sheets = before ++ e :: after)
    (hn : ∀ x ∈ before, utf8 x.name ≠ utf8 e.name) (i : Nat) (bof : Record) (rs : List Record)
    (hi : groups[i]? = some (bof :: rs)) (hpos : e.position = position groups i) (m : Nat × Nat)
    (hd : Declares (0, 0) rs m) (h1 : dimsCount rs ≤ 1) (ws : List Write)
    (hw : SheetRecs c.strings c.styles m.1 m.2 rs ws)
    (fn' file' : Bytes) (hf' : w.files fn' = .ok file') (hnc : NotCompound file') (a : Xlsx.Archive)
    (hz : w.zip file' = .ok a) (hord : ∀ l, (w.order l).Perm l) (dir : List Bytes) (base : Bytes) (b : Spec.Book)
    (hbook : XlsxFile a dir base b) (j : Nat) (id name : Bytes) (hj : b.sheets[j]? = some (id, name))
    (hfirst : ∀ (k : Nat) (s : Bytes × Bytes), k < j → b.sheets[k]? = some s → s.2 ≠ name) (r : Relation) (hr : r ∈ b.rels)
    (hty : r.type = relType "worksheet") (hid : r.id = id) (sdir : List Bytes) (sbase : Bytes)
    (hsd : ∀ s ∈ sdir, RealName s) (hsb : PathName sbase) (hpart : r.part = pathOf (sdir ++ [sbase]))
    (ts : List Xlsx.Tok) (hts : HasPart a r.part ts) (ls : List (Bytes × Bytes))
    (hl : (LacksPart a (relsPart sdir sbase) ∧ ls = []) ∨ ∃ us, HasPart a (relsPart sdir sbase) us ∧ LinkToks us ls)
    (m' : Nat × Nat) (ws' : List Write) (hw' : WsPart ext b.strings b.styles (targetOf ls) ts m' ws')
    (ho : OnceEach (c.formats.map (fun a => (a.1, utf8 a.2)))) (ho' : OnceEach b.formats)
    (hsame : SameCells (c.formats.map (fun a => (a.1, utf8 a.2))) b.formats ws ws') (R C : Nat)
    (hR : Extent m.1 (ws.map (·.row)) R) (hC : Extent m.2 (ws.map (·.col)) C)
    (hR' : Extent m'.1 (ws'.map (·.row)) R) (hC' : Extent m'.2 (ws'.map (·.col)) C) :
    ∃ n, ∀ fuel, n ≤ fuel → ∀ t, Shipped { w with fuel := fuel } t →
      ∃ src src' src'' s s', openSrc t fn = .ok src ∧ openSrc t fn' = .ok src' ∧
        src.get ext (utf8 e.name) = .ok (src, .ok (.sheet s)) ∧ src'.get ext name = .ok (src'', .ok (.sheet s')) ∧
        ∀ k, drain Sheet.next (Sheet.strings ext) k s = drain Sheet.next (Sheet.strings ext) k s' := by
  obtain ⟨n, hn1⟩ := C77_xls_partial w ext fn file hf h hp hc hs hb hbl
  refine ⟨n, fun fuel hfu t ht => ?_⟩
  obtain ⟨src, o1, _, g1, _⟩ := hn1 fuel hfu t ht
  obtain ⟨s, e1, hh, hsz, hq⟩ := g1 before after e hx hn i bof rs hi hpos m.1 m.2 hd ws hw
  obtain ⟨src', o2, _, _, g2⟩ := C78_xlsx_partial { w with fuel := fuel } ext fn' file' hf' hnc a hz hord dir base b hbook t ht
  obtain ⟨src'', s', e2, hh', hsz', hq'⟩ := g2 j id name hj hfirst r hr hty hid sdir sbase hsd hsb hpart ts hts ls hl m' ws' hw'
  exact ⟨src, src', src'', s, s', o1, o2, e1, e2, fun k => showSame_drain k
    (holds_same hg ho ho' hsame hh hh' hsz hsz' (hq h1) hq' hR hC hR' hC')⟩

end Grate.Props
