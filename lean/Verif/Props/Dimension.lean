import Verif.Props.Links
import Verif.Props.SameStored

/-! # C143: the declared size of a sheet does not matter -/

namespace Grate.Props

open Spec
open Xlsx (Tok parseSheet)

/-- The tokens of a worksheet with these attributes of its dimension element (18.3.1.35), if it has one. -/
def withDimension (head : List Tok) (dim : Option (List (Bytes × Bytes))) (body : List Tok) : List Tok :=
  match dim with
  | none => body
  | some attrs => head ++ .start (lit "dimension") attrs :: body

/-- The last row and column that it gives; none are given without it. -/
def DimensionIs (dim : Option (List (Bytes × Bytes))) (m : Nat × Nat) : Prop :=
  match dim with
  | none => m = (0, 0)
  | some attrs => Distinct attrs ∧ ∃ ref, Has attrs "ref" ref ∧ DimRef ref m.1 m.2

/-- All merged regions end at or before the row and the column. -/
def MergesWithin (m : Nat × Nat) (ts : List Tok) : Prop :=
  ∀ attrs g ref, Tok.start (lit "mergeCell") attrs ∈ ts → Has attrs "ref" ref → RegionRef g ref → g.r1 ≤ m.1 ∧ g.c1 ≤ m.2

/-- The text in a table; nothing outside of it. -/
def textAt (t : List (List Bytes)) (i j : Nat) : Bytes := ((t[i]?.getD [])[j]?).getD []

namespace Dim

theorem upTo_within {g : Region} {r c : Nat} (h : g.r1 ≤ r ∧ g.c1 ≤ c) : g.upTo r c = g := by
  unfold Region.upTo
  cases g
  simp_all

/-- The same tokens write the same cells whatever size is declared, if all merges are inside. -/
theorem wsToks_size {ext : Ext} {strings : List Bytes} {styles : List Nat} {links : Bytes → Bytes} {m m' : Nat × Nat}
    {ts : List Tok} {ws : List Write} (h : WsToks ext strings styles links m.1 m.2 ts ws) (hm : MergesWithin m ts)
    (hm' : MergesWithin m' ts) : WsToks ext strings styles links m'.1 m'.2 ts ws := by
  induction h with
  | nil => exact .nil
  | other x ts ws hx _ ih =>
    exact .other x _ _ hx (ih (fun a g r h => hm a g r (List.mem_cons_of_mem _ h))
      (fun a g r h => hm' a g r (List.mem_cons_of_mem _ h)))
  | cell attrs r c k ref t inner v ts ws h1 h2 h3 h4 h5 h6 h7 h8 h9 _ ih =>
    refine .cell attrs r c k ref t inner v _ _ h1 h2 h3 h4 h5 h6 h7 h8 h9 (ih ?_ ?_)
    · exact fun a g r h => hm a g r (by simp [h])
    · exact fun a g r h => hm' a g r (by simp [h])
  | merge attrs g ref us ts ws h1 h2 h3 h4 _ ih =>
    have e := hm attrs g ref (by simp) h2 h3
    have e' := hm' attrs g ref (by simp) h2 h3
    rw [upTo_within e] at h4
    refine .merge attrs g ref us _ _ h1 h2 h3 (by rw [upTo_within e']; exact h4) (ih ?_ ?_)
    · exact fun a g r h => hm a g r (List.mem_cons_of_mem _ h)
    · exact fun a g r h => hm' a g r (List.mem_cons_of_mem _ h)
  | link attrs r c ref l ts ws h1 h2 h3 h4 h5 h6 h7 _ ih =>
    refine .link attrs r c ref l _ _ h1 h2 h3 h4 h5 h6 h7 (ih ?_ ?_)
    · exact fun a g r h => hm a g r (List.mem_cons_of_mem _ h)
    · exact fun a g r h => hm' a g r (List.mem_cons_of_mem _ h)

theorem part_of {ext : Ext} {strings : List Bytes} {styles : List Nat} {links : Bytes → Bytes} {m : Nat × Nat}
    {head body : List Tok} {ws : List Write} {dim : Option (List (Bytes × Bytes))} (hh : ∀ x ∈ head, ¬ Starts sheetNames x)
    (hd : DimensionIs dim m) (h : WsToks ext strings styles links m.1 m.2 body ws) :
    WsPart ext strings styles links (withDimension head dim body) m ws := by
  cases dim with
  | none => cases (show m = (0, 0) from hd); exact .plain _ _ h
  | some attrs =>
    obtain ⟨h1, ref, h2, h3⟩ := hd
    exact .dimension head attrs ref m.1 m.2 body ws hh h1 h2 h3 h

/-! ### Texts -/

theorem row_strings {ext : Ext} {s : Sheet} (hq : Rectangular s) {i : Nat} {row : List Cell} (hr : s.rows[i]? = some row)
    (t : List Bytes) : Sheet.strings ext { s with curRow := (i : Int) + 1 } = .ok t ↔
      row.map (cellString ext s.fmtr) = t.map .ok := by
  have hw := hq.width row (List.mem_of_getElem? hr)
  have e : Sheet.row { s with curRow := (i : Int) + 1 } = .ok row := by
    unfold Sheet.row
    rw [if_pos (by show (1 : Int) ≤ (i : Int) + 1; omega)]
    show (match s.rows[((i : Int) + 1 - 1).toNat]? with | some r => GoRes.ok r | none => .panic) = _
    rw [show ((i : Int) + 1 - 1).toNat = i by omega, hr]
  unfold Sheet.strings
  rw [e, GoRes.ok_bind]
  show (seqRes (row.map (cellString ext s.fmtr)) >>= fun cells => fillRow s.numCols [] cells) = .ok t ↔ _
  rw [← seqRes_ok]
  cases hs : seqRes (row.map (cellString ext s.fmtr)) with
  | ok cells =>
    have hl : cells.length = row.length := by
      have := congrArg List.length ((seqRes_ok _ _).1 hs)
      simpa using this.symm
    rw [GoRes.ok_bind]
    unfold fillRow
    rw [if_pos (by omega), show s.numCols.toNat - cells.length = 0 by omega]
    simp
  | err e => constructor <;> intro h <;> cases h
  | panic => constructor <;> intro h <;> cases h

theorem cell_row {s : Sheet} {i j : Nat} : s.cell? i j = s.rows[i]?.bind (·[j]?) := by
  rw [cell?_nat]
  unfold Sheet.at?
  cases s.rows[i]? <;> rfl

/-- What a program reads in the table. -/
theorem drain_text {ext : Ext} {s : Sheet} (hq : Rectangular s) (h0 : s.curRow = 0) {t : List (List Bytes)}
    (h : drain Sheet.next (Sheet.strings ext) (s.rows.length + 1) s = some (.ok t)) (i j : Nat) :
    (s.cell? i j = none → textAt t i j = []) ∧ ∀ c, s.cell? i j = some c → cellString ext s.fmtr c = .ok (textAt t i j) := by
  rw [C13_drain _ s h0, Option.some.injEq, seqRes_ok] at h
  have hi := congrArg (·[i]?) h
  simp only [List.getElem?_map] at hi
  rw [cell_row]
  unfold textAt
  cases hr : s.rows[i]? with
  | none =>
    have hlt : s.rows.length ≤ i := List.getElem?_eq_none_iff.1 hr
    rw [List.getElem?_eq_none (by simpa using hlt)] at hi
    cases ht : t[i]? with
    | none => exact ⟨fun _ => rfl, fun c hc => by cases hc⟩
    | some x => rw [ht] at hi; cases hi
  | some row =>
    have hlt := (List.getElem?_eq_some_iff.1 hr).1
    rw [List.getElem?_range hlt] at hi
    cases ht : t[i]? with
    | none => rw [ht] at hi; cases hi
    | some x =>
      rw [ht] at hi
      simp only [Option.map_some, Option.some.injEq] at hi
      have hx := congrArg (·[j]?) ((row_strings hq hr x).1 hi)
      simp only [List.getElem?_map] at hx
      simp only [Option.bind_some, Option.getD_some]
      cases hc : row[j]? with
      | none =>
        refine ⟨fun _ => ?_, fun c h => by cases h⟩
        rw [hc] at hx
        cases hj : x[j]? with
        | none => rfl
        | some y => rw [hj] at hx; cases hx
      | some c =>
        refine ⟨fun h => (by cases h), fun d hd => ?_⟩
        cases hd
        rw [hc] at hx
        cases hj : x[j]? with
        | none => rw [hj] at hx; cases hx
        | some y => rw [hj] at hx; simpa using hx

theorem exists_oks {α β : Type} (f : α → GoRes β) : ∀ (l : List α), (∀ x ∈ l, ∃ y, f x = .ok y) → ∃ ys : List β, l.map f = ys.map .ok
  | [], _ => ⟨[], rfl⟩
  | x :: l, h => by
    obtain ⟨y, hy⟩ := h x (by simp)
    obtain ⟨ys, hys⟩ := exists_oks f l (fun z hz => h z (by simp [hz]))
    exact ⟨y :: ys, by simp [hy, hys]⟩

/-- If all cells have texts there is such a table. -/
theorem drain_exists {ext : Ext} {s : Sheet} (hq : Rectangular s) (h0 : s.curRow = 0)
    (h : ∀ (i j : Nat) c, s.cell? i j = some c → ∃ x, cellString ext s.fmtr c = .ok x) :
    ∃ t, drain Sheet.next (Sheet.strings ext) (s.rows.length + 1) s = some (.ok t) := by
  rw [C13_drain _ s h0]
  obtain ⟨ys, hys⟩ := exists_oks (fun i : Nat => Sheet.strings ext { s with curRow := (i : Int) + 1 })
    (List.range s.rows.length) (by
      intro i hi
      have hlt := List.mem_range.1 hi
      have hr : s.rows[i]? = some s.rows[i] := List.getElem?_eq_getElem hlt
      obtain ⟨t, ht⟩ := exists_oks (cellString ext s.fmtr) s.rows[i] (by
        intro c hc
        obtain ⟨j, hj⟩ := List.mem_iff_getElem?.1 hc
        exact h i j c (by rw [cell_row, hr]; exact hj))
      exact ⟨t, (row_strings hq hr t).2 ht⟩)
  exact ⟨ys, congrArg some ((seqRes_ok _ _).2 hys)⟩

/-- Cells that cannot be told apart have the same text. -/
theorem same_string {ext : Ext} {f : Formatter} {x y : Option Cell} (h : SameCell x y) {d : Cell} (hy : y = some d) :
    (∃ c, x = some c ∧ cellString ext f c = cellString ext f d) ∨ NoCell x ∧ cellString ext f d = .ok [] := by
  rcases h with ⟨h1, h2⟩ | ⟨c, e, rfl, rfl, h1, h2, h3, _⟩
  · right
    refine ⟨h1, ?_⟩
    rcases h2 with h2 | h2
    · rw [h2] at hy; cases hy
    · rw [h2] at hy; cases hy; rfl
  · left
    cases hy
    exact ⟨c, rfl, face_string ext f (by unfold Cell.face; rw [h1, h2, h3])⟩

theorem same_symm {x y : Option Cell} (h : SameCell x y) : SameCell y x := by
  rcases h with ⟨h1, h2⟩ | ⟨c, e, h1, h2, h3, h4, h5, h6⟩
  · exact .inl ⟨h2, h1⟩
  · exact .inr ⟨e, c, h2, h1, h3.symm, h4.symm, h5.symm, h6.symm⟩

theorem same_tables {ext : Ext} {s s' : Sheet} (hf : s.fmtr = s'.fmtr) (hq : Rectangular s) (hq' : Rectangular s')
    (h0 : s.curRow = 0) (h0' : s'.curRow = 0) (h : ∀ i j : Nat, SameCell (s.cell? i j) (s'.cell? i j)) (t : List (List Bytes))
    (ht : drain Sheet.next (Sheet.strings ext) (s.rows.length + 1) s = some (.ok t)) :
    ∃ t', drain Sheet.next (Sheet.strings ext) (s'.rows.length + 1) s' = some (.ok t') ∧
      ∀ i j, textAt t' i j = textAt t i j := by
  have key : ∀ (i j : Nat) d, s'.cell? i j = some d → cellString ext s'.fmtr d = .ok (textAt t i j) := by
    intro i j d hd
    obtain ⟨k1, k2⟩ := drain_text hq h0 ht i j
    rw [hf] at k2
    rcases same_string (ext := ext) (f := s'.fmtr) (h i j) hd with ⟨c, hc, e⟩ | ⟨hc, e⟩
    · rw [← e]; exact k2 c hc
    · rw [e]
      rcases hc with hc | hc
      · rw [k1 hc]
      · have := k2 _ hc
        rw [show cellString ext s'.fmtr .empty = .ok [] from rfl] at this
        exact this
  obtain ⟨t', ht'⟩ := drain_exists (ext := ext) hq' h0' (fun i j d hd => ⟨_, key i j d hd⟩)
  refine ⟨t', ht', fun i j => ?_⟩
  obtain ⟨k1, k2⟩ := drain_text hq' h0' ht' i j
  cases hd : s'.cell? i j with
  | some d =>
    have := k2 d hd
    rw [key i j d hd] at this
    exact (GoRes.ok.inj this).symm
  | none =>
    rw [k1 hd]
    obtain ⟨l1, l2⟩ := drain_text hq h0 ht i j
    rcases h i j with ⟨hc | hc, _⟩ | ⟨_, _, _, h2, _⟩
    · exact (l1 hc).symm
    · have := l2 _ hc
      rw [show cellString ext s.fmtr .empty = .ok [] from rfl] at this
      exact GoRes.ok.inj this
    · rw [hd] at h2; cases h2

end Dim

/-- **C143**: the part of a sheet in two archives, with the same content and different dimension elements, or none in one of
them; all merged regions are inside of both sizes. Both are read without an error, all cells are the same, and if a program
reads the texts of one row by row it gets the texts of the other, up to blank rows and columns at the ends. Missing: merged
regions that are outside, where it is false (`C143_counterexample`), and what C58 leaves out. -/
theorem C143_sheet_partial (ext : Ext) (a a' : Xlsx.Archive) (d : Xlsx.Doc) (dir : List Bytes) (base : Bytes)
    (hdir : ∀ s ∈ dir, RealName s) (hbase : PathName base) (head head' body : List Tok) (hh : ∀ x ∈ head, ¬ Starts sheetNames x)
    (hh' : ∀ x ∈ head', ¬ Starts sheetNames x) (dim dim' : Option (List (Bytes × Bytes)))
    (m m' : Nat × Nat) (hm : DimensionIs dim m) (hm' : DimensionIs dim' m')
    (hp : HasPart a (pathOf (dir ++ [base])) (withDimension head dim body))
    (hp' : HasPart a' (pathOf (dir ++ [base])) (withDimension head' dim' body)) (ls : List (Bytes × Bytes))
    (hl : (LacksPart a (relsPart dir base) ∧ ls = []) ∨ ∃ us, HasPart a (relsPart dir base) us ∧ LinkToks us ls)
    (hl' : (LacksPart a' (relsPart dir base) ∧ ls = []) ∨ ∃ us, HasPart a' (relsPart dir base) us ∧ LinkToks us ls)
    (ws : List Write) (hw : WsToks ext d.strings d.xfs (targetOf ls) m.1 m.2 body ws) (hg : MergesWithin m body)
    (hg' : MergesWithin m' body) :
    ∃ s s', parseSheet ext a d (pathOf (dir ++ [base])) = .ok (s, none) ∧
      parseSheet ext a' d (pathOf (dir ++ [base])) = .ok (s', none) ∧
      (∀ i j : Nat, SameCell (s.cell? i j) (s'.cell? i j)) ∧ SizeIs m.1 m.2 ws s ∧ SizeIs m'.1 m'.2 ws s' ∧
      ∀ t, drain Sheet.next (Sheet.strings ext) (s.rows.length + 1) s = some (.ok t) →
        ∃ t', drain Sheet.next (Sheet.strings ext) (s'.rows.length + 1) s' = some (.ok t') ∧
          ∀ i j, textAt t' i j = textAt t i j := by
  have hw' := Dim.wsToks_size hw hg hg'
  obtain ⟨s, e, k, z, q⟩ := C58_sheet_partial ext a d dir base hdir hbase _ hp ls hl m ws (Dim.part_of hh hm hw)
  obtain ⟨s', e', k', z', q'⟩ := C58_sheet_partial ext a' d dir base hdir hbase _ hp' ls hl' m' ws (Dim.part_of hh' hm' hw')
  have hs : ∀ i j : Nat, SameCell (s.cell? i j) (s'.cell? i j) := fun i j => Links.holds_same k k' i j rfl
  exact ⟨s, s', e, e', hs, z, z',
    fun t ht => Dim.same_tables (by rw [k.fmtr, k'.fmtr]) q q' k.start k'.start hs t ht⟩

/-- C143 for files: two xlsx files with the same number formats whose sheets of a name have the same cells and declare any
sizes. `Get` gives both, the cells are the same, and so are the texts that a program reads row by row, up to blank rows and
columns at the ends. Missing: what C78 leaves out. -/
theorem C143_file_partial (w : Api.World) (ext : Ext) (fn fn' file file' : Bytes) (hf : w.files fn = .ok file)
    (hf' : w.files fn' = .ok file') (hn : NotCompound file) (hn' : NotCompound file') (a a' : Xlsx.Archive)
    (hz : w.zip file = .ok a) (hz' : w.zip file' = .ok a') (hord : ∀ l, (w.order l).Perm l) (dir dir' : List Bytes)
    (base base' : Bytes) (b b' : Spec.Book) (hb : XlsxFile a dir base b) (hb' : XlsxFile a' dir' base' b')
    (hfm : b.formats = b'.formats) (name : Bytes) (m m' : Nat × Nat) (ws ws' : List Write) (hc : PartOf ext a b name m ws)
    (hc' : PartOf ext a' b' name m' ws') (hw : SameGrid ws ws') (t : List (Grate.Entry Api.Source)) (ht : Shipped w t) :
    ∃ src src' x x' s s', openSrc t fn = .ok src ∧ openSrc t fn' = .ok src' ∧
      src.get ext name = .ok (x, .ok (.sheet s)) ∧ src'.get ext name = .ok (x', .ok (.sheet s')) ∧
      (∀ i j : Nat, SameCell (s.cell? i j) (s'.cell? i j)) ∧
      ∀ t, drain Sheet.next (Sheet.strings ext) (s.rows.length + 1) s = some (.ok t) →
        ∃ t', drain Sheet.next (Sheet.strings ext) (s'.rows.length + 1) s' = some (.ok t') ∧
          ∀ i j, textAt t' i j = textAt t i j := by
  obtain ⟨src, o, _, _, g⟩ := C78_xlsx_partial w ext fn file hf hn a hz hord dir base b hb t ht
  obtain ⟨src', o', _, _, g'⟩ := C78_xlsx_partial w ext fn' file' hf' hn' a' hz' hord dir' base' b' hb' t ht
  obtain ⟨i, id, r, sd, sb, ts, ls, h1, h2, h3, h4, h5, h6, h7, h8, h9, h10, h11⟩ := hc
  obtain ⟨i', id', r', sd', sb', ts', ls', h1', h2', h3', h4', h5', h6', h7', h8', h9', h10', h11'⟩ := hc'
  obtain ⟨x, s, e, k, hs, q⟩ := g i id name h1 h2 r h3 h4 h5 sd sb h6 h7 h8 ts h9 ls h10 m ws h11
  obtain ⟨x', s', e', k', hs', q'⟩ := g' i' id' name h1' h2' r' h3' h4' h5' sd' sb' h6' h7' h8' ts' h9' ls' h10' m' ws' h11'
  rw [← hfm] at k'
  have same : ∀ i j : Nat, SameCell (s.cell? i j) (s'.cell? i j) := fun i j => Links.holds_same k k' i j (hw i j)
  exact ⟨src, src', x, x', s, s', o, o', e, e', same,
    fun t ht => Dim.same_tables (by rw [k.fmtr, k'.fmtr]) q q' k.start k'.start same t ht⟩

/-- A text in A1 and the merged region A1:B1. -/
def exMerge : List Tok := [.start (lit "c") [(lit "r", lit "A1"), (lit "t", lit "str")], .start (lit "v") [], .chars (lit "x"),
  .stop (lit "v"), .stop (lit "c"), .start (lit "mergeCell") [(lit "ref", lit "A1:B1")]]

/-- C143 is false as stated: with the dimension A1:B1 the merged region is marked in B1, without a dimension element, which is
optional, there is nothing. -/
theorem C143_counterexample (ext : Ext) :
    (∃ s, parseSheet ext [(lit "s", .ok ⟨withDimension [] (some [(lit "ref", lit "A1:B1")]) exMerge, .eof⟩)] exXlsxDoc (lit "s") =
      .ok (s, none) ∧ s.cell? 0 1 = some (.full (.str (lit "⇥")) .static none [])) ∧
    ∃ s, parseSheet ext [(lit "s", .ok ⟨withDimension [] none exMerge, .eof⟩)] exXlsxDoc (lit "s") = .ok (s, none) ∧
      s.cell? 0 0 = some (.full (.str (lit "x")) .string none []) ∧ s.cell? 0 1 = none :=
  ⟨⟨_, rfl, rfl⟩, ⟨_, rfl, rfl, rfl⟩⟩

theorem Dim.exB1 : A1 1 0 (lit "B1") := by
  refine .mk (lit "B") (lit "1") ?_ ?_
  · unfold ColumnName; decide +kernel
  · unfold Numeral IsDigits; decide +kernel

theorem Dim.exD9 : A1 3 8 (lit "D9") := by
  refine .mk (lit "D") (lit "9") ?_ ?_
  · unfold ColumnName; decide +kernel
  · unfold Numeral IsDigits; decide +kernel

/-- The region of the reference A1:B1. -/
theorem Dim.region_a1b1 {g : Region} (h : RegionRef g (lit "A1:B1")) : g = ⟨0, 0, 0, 1⟩ := by
  generalize hs : lit "A1:B1" = ref at h
  cases h with
  | cell r c s ha _ _ => exact absurd (show (58 : UInt8) ∈ ref by rw [← hs]; decide +kernel) (Xlsx.a1_no_colon ha)
  | range r0 r1 c0 c1 s t ha hb h0 h1 h2 h3 =>
    have e := Xlsx.split_colon ha hb
    rw [← hs, show splitByte 58 (lit "A1:B1") = [lit "A1", lit "B1"] by decide +kernel] at e
    simp only [List.cons.injEq, and_true] at e
    obtain ⟨rfl, rfl⟩ := e
    unfold maxIndex at h0 h1 h2 h3
    have e1 := Xlsx.refToIndexes_a1 ha h1 h0
    have e2 := Xlsx.refToIndexes_a1 hb h3 h2
    rw [Xlsx.refToIndexes_a1 exA1 (by decide) (by decide)] at e1
    rw [Xlsx.refToIndexes_a1 exB1 (by decide) (by decide)] at e2
    simp only [GoRes.ok.injEq, Prod.mk.injEq] at e1 e2
    congr <;> omega

theorem Dim.exWithin {m : Nat × Nat} (h : 1 ≤ m.2) : MergesWithin m exMerge := by
  intro attrs g ref ha hr hg
  simp only [exMerge, List.mem_cons, reduceCtorEq, Xlsx.Tok.start.injEq, List.not_mem_nil, or_false, false_or] at ha
  have e : attrs = [(lit "ref", lit "A1:B1")] := by
    rcases ha with ⟨h, _⟩ | ⟨h, _⟩ | ⟨_, h⟩
    · exact absurd h (by decide +kernel)
    · exact absurd h (by decide +kernel)
    · exact h
  subst e
  unfold Has at hr
  simp only [List.mem_singleton, Prod.mk.injEq, true_and] at hr
  subst hr
  cases Dim.region_a1b1 hg
  exact ⟨Nat.zero_le _, h⟩

/-- The hypotheses hold for this content with the dimensions A1:D9 and A1. -/
theorem C143_witness (ext : Ext) : DimensionIs (some [(lit "ref", lit "A1:D9")]) (8, 3) ∧
    DimensionIs (some [(lit "ref", lit "A1")]) (1, 1) ∧ MergesWithin (8, 3) exMerge ∧ MergesWithin (1, 1) exMerge ∧
    ∃ ws, WsToks ext exXlsxDoc.strings exXlsxDoc.xfs (fun _ => []) 8 3 exMerge ws := by
  refine ⟨⟨by unfold Distinct; decide +kernel, lit "A1:D9", by unfold Has; decide +kernel, ?_⟩,
    ⟨by unfold Distinct; decide +kernel, lit "A1", by unfold Has; decide +kernel, .one⟩, Dim.exWithin (by decide),
    Dim.exWithin (by decide), ?_⟩
  · have := DimRef.range 0 0 8 3 _ _ exA1 Dim.exD9 (by unfold maxIndex; decide) (by unfold maxIndex; decide)
    have e : lit "A1" ++ 58 :: lit "D9" = lit "A1:D9" := by decide +kernel
    rwa [e] at this
  · have hreg : RegionRef ⟨0, 0, 0, 1⟩ (lit "A1:B1") := by
      have := RegionRef.range 0 0 0 1 _ _ exA1 Dim.exB1 (by unfold maxIndex; decide) (by unfold maxIndex; decide)
        (by unfold maxIndex; decide) (by unfold maxIndex; decide)
      have e : lit "A1" ++ 58 :: lit "B1" = lit "A1:B1" := by decide +kernel
      rwa [e] at this
    have hmerge := WsToks.merge (ext := ext) (strings := exXlsxDoc.strings) (styles := exXlsxDoc.xfs) (links := fun _ => [])
      (maxRow := 8) (maxCol := 3) [(lit "ref", lit "A1:B1")] _ _ _ _ _ (by unfold Distinct; decide +kernel)
      (by unfold Has; decide +kernel) hreg (Xls.region_exists _ none) .nil
    refine ⟨_, WsToks.cell [(lit "r", lit "A1"), (lit "t", lit "str")] 0 0 0 (lit "A1") (some (lit "str"))
      [.start (lit "v") [], .chars (lit "x"), .stop (lit "v")] (some (.str (lit "x"))) _ _
      (by unfold Distinct; decide +kernel) (by unfold Has; decide +kernel) exA1 (by unfold maxIndex; decide)
      (by unfold maxIndex; decide) ?_ (by decide) (.inr ⟨_, by unfold Has; decide +kernel, rfl⟩) ?_ hmerge⟩
    · refine .inl ⟨?_, rfl⟩
      intro v hv
      simp only [List.mem_cons, Prod.mk.injEq, List.not_mem_nil, or_false] at hv
      rcases hv with ⟨h, _⟩ | ⟨h, _⟩ <;> exact absurd h (by decide +kernel)
    · exact .value [] [] (lit "v") (lit "x") [] _ (by simp) (by simp) (.inl rfl) (.text _ _ (.inl rfl))

end Grate.Props
