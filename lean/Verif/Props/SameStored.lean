import Verif.Props.SameTable
import Verif.Props.XlsLayout

/-! # C122: how the cells of a sheet are stored does not matter -/

namespace Grate.Props

open Grate Grate.Spec Grate.Api

/-! ### Reading a sheet -/

/-- What a program can do with a sheet: the methods of a collection. -/
inductive SheetAct where
  | next
  | strings
  | types
  | formats
  | scan (args : List SDest)
  | isEmpty

/-- What it gets. -/
inductive SheetSaw where
  | flag (b : Bool)
  | texts (r : GoRes (List Bytes))
  | scanned (r : GoRes (List SDest × Option GoErr))

/-- What a program that calls these methods, one after the other, gets. -/
def seen (ext : Ext) : List SheetAct → Sheet → List SheetSaw
  | [], _ => []
  | .next :: as, s => .flag s.next.2 :: seen ext as s.next.1
  | .strings :: as, s => .texts (s.strings ext) :: seen ext as s
  | .types :: as, s => .texts s.types :: seen ext as s
  | .formats :: as, s => .texts s.formats :: seen ext as s
  | .scan ds :: as, s => .scanned (s.scan ds) :: seen ext as s
  | .isEmpty :: as, s => .flag s.isEmpty :: seen ext as s

/-- What these methods depend on in a cell. -/
def Cell.face (c : Cell) : Val × CellType × Nat := (c.value, c.type, c.formatNo)

/-- Two sheets with the same cells, links apart. -/
structure AlikeSheet (s s' : Sheet) : Prop where
  fmtr : s.fmtr = s'.fmtr
  numRows : s.numRows = s'.numRows
  numCols : s.numCols = s'.numCols
  cur : s.curRow = s'.curRow
  rows : s.rows.map (·.map Cell.face) = s'.rows.map (·.map Cell.face)

theorem alike_next {s s' : Sheet} (h : AlikeSheet s s') : AlikeSheet s.next.1 s'.next.1 ∧ s.next.2 = s'.next.2 := by
  have hl : s.rows.length = s'.rows.length := by simpa using congrArg List.length h.rows
  unfold Sheet.next
  rw [hl, h.cur]
  split
  · exact ⟨h, rfl⟩
  · exact ⟨⟨h.fmtr, h.numRows, h.numCols, rfl, h.rows⟩, rfl⟩

/-- The current rows. -/
theorem alike_row {s s' : Sheet} (h : AlikeSheet s s') :
    (s.row = .panic ∧ s'.row = .panic) ∨ ∃ r r', s.row = .ok r ∧ s'.row = .ok r' ∧ r.map Cell.face = r'.map Cell.face := by
  have hr : s.rows[(s'.curRow - 1).toNat]?.map (·.map Cell.face) = s'.rows[(s'.curRow - 1).toNat]?.map (·.map Cell.face) := by
    rw [← List.getElem?_map, ← List.getElem?_map, h.rows]
  unfold Sheet.row
  rw [h.cur]
  split
  · cases h1 : s.rows[(s'.curRow - 1).toNat]? with
    | none =>
      cases h2 : s'.rows[(s'.curRow - 1).toNat]? with
      | none => exact .inl ⟨rfl, rfl⟩
      | some b => rw [h1, h2] at hr; cases hr
    | some a =>
      cases h2 : s'.rows[(s'.curRow - 1).toNat]? with
      | none => rw [h1, h2] at hr; cases hr
      | some b =>
        rw [h1, h2] at hr
        simp only [Option.map_some, Option.some.injEq] at hr
        exact .inr ⟨a, b, rfl, rfl, hr⟩
  · exact .inl ⟨rfl, rfl⟩

theorem face_string (ext : Ext) (f : Formatter) {c c' : Cell} (h : Cell.face c = Cell.face c') : cellString ext f c = cellString ext f c' := by
  unfold Cell.face at h
  simp only [Prod.mk.injEq] at h
  unfold cellString
  rw [h.1, h.2.1, h.2.2]

/-- A function of the faces gives the same for rows with the same faces. -/
theorem map_face {α : Type} {f : Cell → α} (hf : ∀ c c', Cell.face c = Cell.face c' → f c = f c') : ∀ {r r' : List Cell},
    r.map Cell.face = r'.map Cell.face → r.map f = r'.map f
  | [], [], _ => rfl
  | [], _ :: _, h => by cases h
  | _ :: _, [], h => by cases h
  | c :: r, c' :: r', h => by
    simp only [List.map_cons, List.cons.injEq] at h
    rw [List.map_cons, List.map_cons, hf _ _ h.1, map_face hf h.2]

theorem scanRow_face : ∀ (ds : List SDest) {r r' : List Cell}, r.map Cell.face = r'.map Cell.face → scanRow r ds = scanRow r' ds
  | [], [], [], _ => rfl
  | [], _ :: _, _ :: _, _ => rfl
  | _ :: _, [], [], _ => rfl
  | _, [], _ :: _, h => by cases h
  | _, _ :: _, [], h => by cases h
  | d :: ds, c :: r, c' :: r', h => by
    simp only [List.map_cons, List.cons.injEq] at h
    have hv : c.value = c'.value := congrArg Prod.fst h.1
    rw [scanRow, scanRow, hv, scanRow_face ds h.2]

theorem alike_strings (ext : Ext) {s s' : Sheet} (h : AlikeSheet s s') : s.strings ext = s'.strings ext := by
  unfold Sheet.strings
  rcases alike_row h with ⟨h1, h2⟩ | ⟨r, r', h1, h2, h3⟩
  · rw [h1, h2]; rfl
  · rw [h1, h2, GoRes.ok_bind, GoRes.ok_bind, h.fmtr, h.numCols, map_face (fun c c' => face_string ext s'.fmtr) h3]

theorem alike_types {s s' : Sheet} (h : AlikeSheet s s') : s.types = s'.types := by
  unfold Sheet.types
  rcases alike_row h with ⟨h1, h2⟩ | ⟨r, r', h1, h2, h3⟩
  · rw [h1, h2]; rfl
  · rw [h1, h2, GoRes.ok_bind, GoRes.ok_bind, h.numCols,
      map_face (f := fun c => c.type.name) (fun c c' e => congrArg (fun x => CellType.name x.2.1) e) h3]

theorem alike_formats {s s' : Sheet} (h : AlikeSheet s s') : s.formats = s'.formats := by
  unfold Sheet.formats
  rcases alike_row h with ⟨h1, h2⟩ | ⟨r, r', h1, h2, h3⟩
  · rw [h1, h2]; rfl
  · rw [h1, h2, GoRes.ok_bind, GoRes.ok_bind, h.numCols]
    refine congrArg (fillRow s'.numCols []) (map_face (fun c c' e => ?_) h3)
    have : c.formatNo = c'.formatNo := congrArg (fun x => x.2.2) e
    rw [this]

theorem alike_scan {s s' : Sheet} (h : AlikeSheet s s') (ds : List SDest) : s.scan ds = s'.scan ds := by
  unfold Sheet.scan
  rcases alike_row h with ⟨h1, h2⟩ | ⟨r, r', h1, h2, h3⟩
  · rw [h1, h2]
  · rw [h1, h2, GoRes.ok_bind, GoRes.ok_bind, scanRow_face ds h3]

theorem alike_seen (ext : Ext) : ∀ (as : List SheetAct) {s s' : Sheet}, AlikeSheet s s' → seen ext as s = seen ext as s' := by
  intro as
  induction as with
  | nil => intro s s' _; rfl
  | cons a as ih =>
    intro s s' h
    cases a with
    | next =>
      obtain ⟨h1, h2⟩ := alike_next h
      rw [seen, seen, h2, ih h1]
    | strings => rw [seen, seen, alike_strings ext h, ih h]
    | types => rw [seen, seen, alike_types h, ih h]
    | formats => rw [seen, seen, alike_formats h, ih h]
    | scan ds => rw [seen, seen, alike_scan h ds, ih h]
    | isEmpty =>
      have : s.isEmpty = s'.isEmpty := by unfold Sheet.isEmpty; rw [h.numCols, h.numRows]
      rw [seen, seen, this, ih h]

/-! ### Sheets with the same cells -/

/-- The same cells are written, last. -/
def SameGrid (ws ws' : List Write) : Prop := ∀ r c, lastAt r c ws = lastAt r c ws'

theorem shows_face {ext : Ext} {f : Formatter} {w : What} {x y : Cell} (hx : Shows ext f w x) (hy : Shows ext f w y) :
    Cell.face x = Cell.face y := by
  cases w with
  | value v n =>
    have h1 := (builds_iff ..).1 hx
    have h2 := (builds_iff ..).1 hy
    rw [h1] at h2
    cases h2
    rfl
  | text t n =>
    obtain ⟨a, b, c⟩ := hx
    obtain ⟨a', b', c'⟩ := hy
    unfold Cell.face
    rw [a, b, c, a', b', c']
  | link l =>
    obtain ⟨a, b, c, _⟩ := hx
    obtain ⟨a', b', c', _⟩ := hy
    unfold Cell.face
    rw [a, b, c, a', b', c']

/-- Sheets of the same size in which the same cells are written are alike. -/
theorem grid_alike {ext : Ext} {f : Formatter} {ws ws' : List Write} (hw : SameGrid ws ws') {s s' : Sheet}
    (h : Holds ext f ws s) (h' : Holds ext f ws' s') {m m' : Nat × Nat} (hs : SizeIs m.1 m.2 ws s) (hs' : SizeIs m'.1 m'.2 ws' s')
    (hq : Rectangular s) (hq' : Rectangular s') {R C : Nat} (hR : Extent m.1 (ws.map (·.row)) R)
    (hC : Extent m.2 (ws.map (·.col)) C) (hR' : Extent m'.1 (ws'.map (·.row)) R) (hC' : Extent m'.2 (ws'.map (·.col)) C) :
    AlikeSheet s s' := by
  obtain ⟨a1, a2⟩ := size_extent h hs hR hC
  obtain ⟨b1, b2⟩ := size_extent h' hs' hR' hC'
  have r0 := hR.1
  have len : s.rows.length = R + 1 := by rcases hq.count with ⟨_, h0, _⟩ | ⟨h1, _⟩ <;> omega
  have len' : s'.rows.length = R + 1 := by rcases hq'.count with ⟨_, h0, _⟩ | ⟨h1, _⟩ <;> omega
  refine ⟨by rw [h.fmtr, h'.fmtr], by rw [a1, b1], by rw [a2, b2], by rw [h.start, h'.start], ?_⟩
  apply List.ext_getElem
  · simp [len, len']
  intro i h1 h2
  simp only [List.length_map] at h1 h2
  rw [List.getElem_map, List.getElem_map]
  have w1 := hq.width _ (List.getElem_mem h1)
  have w2 := hq'.width _ (List.getElem_mem h2)
  apply List.ext_getElem
  · simp only [List.length_map]; omega
  intro j k1 k2
  simp only [List.length_map] at k1 k2
  rw [List.getElem_map, List.getElem_map]
  have c1 : s.cell? i j = some s.rows[i][j] := by
    rw [cell?_nat]; unfold Sheet.at?; rw [List.getElem?_eq_getElem h1]; simp
  have c2 : s'.cell? i j = some s'.rows[i][j] := by
    rw [cell?_nat]; unfold Sheet.at?; rw [List.getElem?_eq_getElem h2]; simp
  have hij := hw i j
  cases hl : lastAt i j ws with
  | none =>
    rw [hl] at hij
    have e1 : s.rows[i][j] = .empty := by
      rcases h.blank i j hl with e | e
      · rw [c1] at e; cases e
      · rw [c1] at e; exact Option.some.inj e
    have e2 : s'.rows[i][j] = .empty := by
      rcases h'.blank i j hij.symm with e | e
      · rw [c2] at e; cases e
      · rw [c2] at e; exact Option.some.inj e
    rw [e1, e2]
  | some x =>
    rw [hl] at hij
    obtain ⟨u, hu, eu⟩ := h.written i j x hl
    obtain ⟨v, hv, ev⟩ := h'.written i j x hij.symm
    rw [c1] at eu
    rw [c2] at ev
    cases eu
    cases ev
    exact shows_face hu hv

/-! ### Xls files -/

/-- The records of a sheet with its size and its cells: `m` is the size that they declare, `ws` what they write. -/
def CellsOf (c : Content) (recs : List Record) (m : Nat × Nat) (ws : List Write) : Prop :=
  ∃ bof rs, recs = bof :: rs ∧ bof.type = 0x809 ∧ Declares (0, 0) rs m ∧ dimsCount rs ≤ 1 ∧
    SheetRecs c.strings c.styles m.1 m.2 rs ws

theorem xls_holds {c : Content} {subs : List (List Record)} {b : Xls.Book} (h : LoadedXls c subs b) (ext : Ext) {name : Bytes}
    {recs : List Record} (hs : StoredAs c subs name recs) {m : Nat × Nat} {ws : List Write} (hg : CellsOf c recs m ws) :
    ∃ s, b.get ext name = .ok (some s) ∧ Holds ext (formatterOf (c.formats.map (fun a => (a.1, utf8 a.2)))) ws s ∧
      SizeIs m.1 m.2 ws s ∧ Rectangular s := by
  obtain ⟨i, rs, g1, r1, v1⟩ := find_stored h hs ext
  obtain ⟨bof, rest, rfl, hbof, hd, h1, hw⟩ := hg
  obtain ⟨s, hp, hh, hz, hr⟩ := C49_sheet_partial ext b i rs r1 (h.sized rs (List.mem_of_getElem? r1)) c.strings c.styles
    (congrArg Xls.Book.strings h.book) (congrArg Xls.Book.xfs h.book) bof rest v1 hbof m.1 m.2 hd ws hw
  have hnf : b.nfmt = formatterOf (c.formats.map (fun a => (a.1, utf8 a.2))) := by
    have := congrArg Xls.Book.nfmt h.book
    rw [this]
    exact addAll_formatter _ _
  rw [hnf] at hh
  exact ⟨s, g1.trans hp, hh, hz, hr h1⟩

/-- **C122** for xls files: two files with the same number formats and sheets of the same size with the same cells, in whatever
order, with whatever records and numbers of shared strings and styles, with cells that are written several times: `Get` gives
sheets in which every program sees the same. Missing: what C49 and C77 leave out. -/
theorem C122_xls_partial (w : World) (ext : Ext) (fn fn' file file' : Bytes) (hf : w.files fn = .ok file)
    (hf' : w.files fn' = .ok file') (hb : ∀ k ∈ w.bufs, 0 < k) {c c' : Content} {subs subs' : List (List Record)}
    (h : XlsFile w file c subs) (h' : XlsFile w file' c' subs') (hfm : c.formats = c'.formats) (name : Bytes)
    (recs recs' : List Record) (hs : StoredAs c subs name recs) (hs' : StoredAs c' subs' name recs') (m m' : Nat × Nat)
    (ws ws' : List Write) (hc : CellsOf c recs m ws) (hc' : CellsOf c' recs' m' ws') (hw : SameGrid ws ws') (R C : Nat)
    (hR : Extent m.1 (ws.map (·.row)) R) (hC : Extent m.2 (ws.map (·.col)) C) (hR' : Extent m'.1 (ws'.map (·.row)) R)
    (hC' : Extent m'.2 (ws'.map (·.col)) C) :
    ∃ k, ∀ fuel, k ≤ fuel → ∀ t, Shipped { w with fuel := fuel } t → ∃ src src' s s', openSrc t fn = .ok src ∧
      openSrc t fn' = .ok src' ∧ src.get ext name = .ok (src, .ok (.sheet s)) ∧ src'.get ext name = .ok (src', .ok (.sheet s')) ∧
      ∀ as, seen ext as s = seen ext as s' := by
  obtain ⟨b, n, hl, ho⟩ := xlsFile_loaded w fn file hf hb h
  obtain ⟨b', n', hl', ho'⟩ := xlsFile_loaded w fn' file' hf' hb h'
  obtain ⟨s, g, hh, hz, hr⟩ := xls_holds hl ext hs hc
  obtain ⟨s', g', hh', hz', hr'⟩ := xls_holds hl' ext hs' hc'
  rw [← hfm] at hh'
  refine ⟨max n n', fun fuel hfu t ht => ⟨_, _, s, s', ho fuel (by omega) t ht, ho' fuel (by omega) t ht, ?_, ?_, fun as =>
    alike_seen ext as (grid_alike hw hh hh' hz hz' hr hr' hR hC hR' hC')⟩⟩
  · simp only [Source.get, g]
  · simp only [Source.get, g']

/-- C122 for xls files with the number formats numbered in other ways: the same rows are shown. -/
theorem C122_xls_numbering_partial (w : World) (ext : Ext) (hg : GoShort ext) (fn fn' file file' : Bytes)
    (hf : w.files fn = .ok file) (hf' : w.files fn' = .ok file') (hb : ∀ k ∈ w.bufs, 0 < k) {c c' : Content}
    {subs subs' : List (List Record)} (h : XlsFile w file c subs) (h' : XlsFile w file' c' subs')
    (fs fs' : List (Nat × Bytes)) (hfs : fs = c.formats.map (fun a => (a.1, utf8 a.2)))
    (hfs' : fs' = c'.formats.map (fun a => (a.1, utf8 a.2))) (ho : OnceEach fs) (ho' : OnceEach fs') (name : Bytes)
    (recs recs' : List Record) (hs : StoredAs c subs name recs) (hs' : StoredAs c' subs' name recs') (m m' : Nat × Nat)
    (ws ws' : List Write) (hc : CellsOf c recs m ws) (hc' : CellsOf c' recs' m' ws') (hw : SameCells fs fs' ws ws') (R C : Nat)
    (hR : Extent m.1 (ws.map (·.row)) R) (hC : Extent m.2 (ws.map (·.col)) C) (hR' : Extent m'.1 (ws'.map (·.row)) R)
    (hC' : Extent m'.2 (ws'.map (·.col)) C) :
    ∃ k, ∀ fuel, k ≤ fuel → ∀ t, Shipped { w with fuel := fuel } t → ∃ src src' s s', openSrc t fn = .ok src ∧
      openSrc t fn' = .ok src' ∧ src.get ext name = .ok (src, .ok (.sheet s)) ∧ src'.get ext name = .ok (src', .ok (.sheet s')) ∧
      ∀ k, drain Sheet.next (Sheet.strings ext) k s = drain Sheet.next (Sheet.strings ext) k s' := by
  obtain ⟨b, n, hl, hop⟩ := xlsFile_loaded w fn file hf hb h
  obtain ⟨b', n', hl', hop'⟩ := xlsFile_loaded w fn' file' hf' hb h'
  obtain ⟨s, g, hh, hz, hr⟩ := xls_holds hl ext hs hc
  obtain ⟨s', g', hh', hz', hr'⟩ := xls_holds hl' ext hs' hc'
  rw [← hfs] at hh
  rw [← hfs'] at hh'
  refine ⟨max n n', fun fuel hfu t ht => ⟨_, _, s, s', hop fuel (by omega) t ht, hop' fuel (by omega) t ht, ?_, ?_, fun k =>
    showSame_drain k (holds_same hg ho ho' hw hh hh' hz hz' hr hr' hR hC hR' hC')⟩⟩
  · simp only [Source.get, g]
  · simp only [Source.get, g']

/-! ### Xlsx files -/

/-- The part of the (first) sheet with a name in an xlsx file: `m` is the size that it declares, `ws` the cells that it has. -/
def PartOf (ext : Ext) (a : Xlsx.Archive) (b : Spec.Book) (name : Bytes) (m : Nat × Nat) (ws : List Write) : Prop :=
  ∃ (i : Nat) (id : Bytes) (r : Relation) (sdir : List Bytes) (sbase : Bytes) (ts : List Xlsx.Tok) (ls : List (Bytes × Bytes)),
    b.sheets[i]? = some (id, name) ∧ (∀ (j : Nat) (s : Bytes × Bytes), j < i → b.sheets[j]? = some s → s.2 ≠ name) ∧ r ∈ b.rels ∧
    r.type = relType "worksheet" ∧ r.id = id ∧ (∀ s ∈ sdir, RealName s) ∧ PathName sbase ∧ r.part = pathOf (sdir ++ [sbase]) ∧
    HasPart a r.part ts ∧
    ((LacksPart a (relsPart sdir sbase) ∧ ls = []) ∨ ∃ us, HasPart a (relsPart sdir sbase) us ∧ LinkToks us ls) ∧
    WsPart ext b.strings b.styles (targetOf ls) ts m ws

/-- **C122** for xlsx files: two files with the same number formats and sheets of the same size with the same cells, in whatever
order, with whatever numbers of shared strings and styles, inline or shared strings, names of parts, cells that occur several
times: `Get` gives sheets in which every program sees the same. Missing: what C58, C61 and C78 leave out. -/
theorem C122_xlsx_partial (w : World) (ext : Ext) (fn fn' file file' : Bytes) (hf : w.files fn = .ok file)
    (hf' : w.files fn' = .ok file') (hn : NotCompound file) (hn' : NotCompound file') (a a' : Xlsx.Archive)
    (hz : w.zip file = .ok a) (hz' : w.zip file' = .ok a') (hord : ∀ l, (w.order l).Perm l) (dir dir' : List Bytes)
    (base base' : Bytes) (b b' : Spec.Book) (hb : XlsxFile a dir base b) (hb' : XlsxFile a' dir' base' b')
    (hfm : b.formats = b'.formats) (name : Bytes) (m m' : Nat × Nat) (ws ws' : List Write) (hc : PartOf ext a b name m ws)
    (hc' : PartOf ext a' b' name m' ws') (hw : SameGrid ws ws') (R C : Nat) (hR : Extent m.1 (ws.map (·.row)) R)
    (hC : Extent m.2 (ws.map (·.col)) C) (hR' : Extent m'.1 (ws'.map (·.row)) R) (hC' : Extent m'.2 (ws'.map (·.col)) C)
    (t : List (Grate.Entry Source)) (ht : Shipped w t) :
    ∃ src src' x x' s s', openSrc t fn = .ok src ∧ openSrc t fn' = .ok src' ∧ src.get ext name = .ok (x, .ok (.sheet s)) ∧
      src'.get ext name = .ok (x', .ok (.sheet s')) ∧ ∀ as, seen ext as s = seen ext as s' := by
  obtain ⟨src, o, _, _, g⟩ := C78_xlsx_partial w ext fn file hf hn a hz hord dir base b hb t ht
  obtain ⟨src', o', _, _, g'⟩ := C78_xlsx_partial w ext fn' file' hf' hn' a' hz' hord dir' base' b' hb' t ht
  obtain ⟨i, id, r, sd, sb, ts, ls, h1, h2, h3, h4, h5, h6, h7, h8, h9, h10, h11⟩ := hc
  obtain ⟨i', id', r', sd', sb', ts', ls', h1', h2', h3', h4', h5', h6', h7', h8', h9', h10', h11'⟩ := hc'
  obtain ⟨x, s, e, hh, hs, hq⟩ := g i id name h1 h2 r h3 h4 h5 sd sb h6 h7 h8 ts h9 ls h10 m ws h11
  obtain ⟨x', s', e', hh', hs', hq'⟩ := g' i' id' name h1' h2' r' h3' h4' h5' sd' sb' h6' h7' h8' ts' h9' ls' h10' m' ws' h11'
  rw [← hfm] at hh'
  exact ⟨src, src', x, x', s, s', o, o', e, e', fun as => alike_seen ext as (grid_alike hw hh hh' hs hs' hq hq' hR hC hR' hC')⟩

/-- C122 for xlsx files with the number formats numbered in other ways: the same rows are shown. -/
theorem C122_xlsx_numbering_partial (w : World) (ext : Ext) (hg : GoShort ext) (fn fn' file file' : Bytes)
    (hf : w.files fn = .ok file) (hf' : w.files fn' = .ok file') (hn : NotCompound file) (hn' : NotCompound file')
    (a a' : Xlsx.Archive) (hz : w.zip file = .ok a) (hz' : w.zip file' = .ok a') (hord : ∀ l, (w.order l).Perm l)
    (dir dir' : List Bytes) (base base' : Bytes) (b b' : Spec.Book) (hb : XlsxFile a dir base b) (hb' : XlsxFile a' dir' base' b')
    (ho : OnceEach b.formats) (ho' : OnceEach b'.formats) (name : Bytes) (m m' : Nat × Nat) (ws ws' : List Write)
    (hc : PartOf ext a b name m ws) (hc' : PartOf ext a' b' name m' ws') (hw : SameCells b.formats b'.formats ws ws') (R C : Nat)
    (hR : Extent m.1 (ws.map (·.row)) R) (hC : Extent m.2 (ws.map (·.col)) C) (hR' : Extent m'.1 (ws'.map (·.row)) R)
    (hC' : Extent m'.2 (ws'.map (·.col)) C) (t : List (Grate.Entry Source)) (ht : Shipped w t) :
    ∃ src src' x x' s s', openSrc t fn = .ok src ∧ openSrc t fn' = .ok src' ∧ src.get ext name = .ok (x, .ok (.sheet s)) ∧
      src'.get ext name = .ok (x', .ok (.sheet s')) ∧
      ∀ k, drain Sheet.next (Sheet.strings ext) k s = drain Sheet.next (Sheet.strings ext) k s' := by
  obtain ⟨src, o, _, _, g⟩ := C78_xlsx_partial w ext fn file hf hn a hz hord dir base b hb t ht
  obtain ⟨src', o', _, _, g'⟩ := C78_xlsx_partial w ext fn' file' hf' hn' a' hz' hord dir' base' b' hb' t ht
  obtain ⟨i, id, r, sd, sb, ts, ls, h1, h2, h3, h4, h5, h6, h7, h8, h9, h10, h11⟩ := hc
  obtain ⟨i', id', r', sd', sb', ts', ls', h1', h2', h3', h4', h5', h6', h7', h8', h9', h10', h11'⟩ := hc'
  obtain ⟨x, s, e, hh, hs, hq⟩ := g i id name h1 h2 r h3 h4 h5 sd sb h6 h7 h8 ts h9 ls h10 m ws h11
  obtain ⟨x', s', e', hh', hs', hq'⟩ := g' i' id' name h1' h2' r' h3' h4' h5' sd' sb' h6' h7' h8' ts' h9' ls' h10' m' ws' h11'
  exact ⟨src, src', x, x', s, s', o, o', e, e', fun k => showSame_drain k
    (holds_same hg ho ho' hw hh hh' hs hs' hq hq' hR hC hR' hC')⟩

end Grate.Props
