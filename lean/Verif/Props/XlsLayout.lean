import Verif.Props.OpenEncrypted
import Verif.Props.Independent
import Verif.Props.XlsSafe
import Verif.Lemmas.XlsTight
import Verif.Lemmas.XlsErrors

/-! # C120, C121: how an xls file is laid out, and its other sheets -/

namespace Grate.Props

open Grate Grate.Spec Grate.Api

/-! ### C120: the compound file -/

/-- Opening a compound file is loading its stream `Workbook`, whatever comes of that. -/
theorem xls_stream (w : World) (fn file raw : Bytes) (hf : w.files fn = .ok file) (hs : StreamIn file (lit "Workbook") raw)
    (hb : ∀ k ∈ w.bufs, 0 < k) (hbl : raw.length < w.bufs.length) :
    ∃ n, ∀ fuel, n ≤ fuel → xlsOpen { w with fuel := fuel } fn =
      (do pure (.xls (← Xls.loadStream w.prims makeFormatter w.spare ⟨raw, w.spare⟩))) := by
  obtain ⟨d, r, ⟨n, hload⟩, ho, hr⟩ := stream_reads ⟨file, w.cap⟩ _ raw hs
  refine ⟨n, fun fuel hn => ?_⟩
  unfold xlsOpen
  simp only [hf]
  unfold Xls.openFile
  rw [hload fuel hn]
  simp only [ho, (hr w.bufs hb).2.1 hbl]

/-- The format that is tried first decides if it does not decline. -/
theorem open_decided (w : World) (fn : Bytes) (t : List (Grate.Entry Source)) (ht : Shipped w t)
    (h : ∀ e, xlsOpen w fn = .err e → e.isNotInFormat = false) : openSrc t fn = xlsOpen w fn := by
  rw [shipped_open ht]
  cases hx : xlsOpen w fn with
  | ok src => simp [openSrc, openTrace, formats, hx]
  | err e => simp [openSrc, openTrace, formats, hx, h e hx]
  | panic => simp [openSrc, openTrace, formats, hx]

/-- **C120 (the file).** Two compound files whose streams `Workbook` have the same bytes, in any program with all formats:
`Open` gives the same for both, a document, an error or a crash. Nothing else in the file matters: the other streams and storages,
their order in the directory, the sectors that the stream is in, what is in free sectors. -/
theorem C120_file_partial (w : World) (fn fn' file file' raw : Bytes) (hf : w.files fn = .ok file) (hf' : w.files fn' = .ok file')
    (hs : StreamIn file (lit "Workbook") raw) (hs' : StreamIn file' (lit "Workbook") raw)
    (hb : ∀ k ∈ w.bufs, 0 < k) (hbl : raw.length < w.bufs.length) :
    ∃ n, ∀ fuel, n ≤ fuel → ∀ t, Shipped { w with fuel := fuel } t → openSrc t fn' = openSrc t fn := by
  obtain ⟨n, hn⟩ := xls_stream w fn file raw hf hs hb hbl
  obtain ⟨n', hn'⟩ := xls_stream w fn' file' raw hf' hs' hb hbl
  have own : ∀ e, (do pure (Source.xls (← Xls.loadStream w.prims makeFormatter w.spare ⟨raw, w.spare⟩)) : GoRes Source) = .err e →
      e.isNotInFormat = false :=
    Xls.own_bind (Xls.own_loadStream _ _ _ _) (fun _ => Xls.own_pure _)
  refine ⟨max n n', fun fuel hfu t ht => ?_⟩
  rw [open_decided _ fn t ht (by rw [hn fuel (by omega)]; exact own),
    open_decided _ fn' t ht (by rw [hn' fuel (by omega)]; exact own), hn fuel (by omega), hn' fuel (by omega)]

/-- **C120 (decided).** A compound file with a stream `Workbook` is never taken for a file of another format: what loading the
stream gives is what `Open` gives. -/
theorem C120_decided_partial (w : World) (fn file raw : Bytes) (hf : w.files fn = .ok file) (hs : StreamIn file (lit "Workbook") raw)
    (hb : ∀ k ∈ w.bufs, 0 < k) (hbl : raw.length < w.bufs.length) :
    ∃ n, ∀ fuel, n ≤ fuel → ∀ t, Shipped { w with fuel := fuel } t →
      (∃ b, openSrc t fn = .ok (.xls b)) ∨ openSrc t fn = .panic ∨ ∃ e, openSrc t fn = .err e ∧ ¬ Recognised e := by
  obtain ⟨n, hn⟩ := xls_stream w fn file raw hf hs hb hbl
  refine ⟨n, fun fuel hfu t ht => ?_⟩
  have own := Xls.own_loadStream w.prims makeFormatter w.spare ⟨raw, w.spare⟩
  rw [open_decided _ fn t ht (by
    rw [hn fuel hfu]
    exact Xls.own_bind own (fun _ => Xls.own_pure _)), hn fuel hfu]
  cases h : Xls.loadStream w.prims makeFormatter w.spare ⟨raw, w.spare⟩ with
  | ok b => exact .inl ⟨b, rfl⟩
  | err e =>
    refine .inr (.inr ⟨e, rfl, fun hr => ?_⟩)
    have h1 := (isNotInFormat_iff e).2 hr
    rw [own e h] at h1
    cases h1
  | panic => exact .inr (.inl rfl)

/-! ### C121: the other sheets -/

/-- A compound file with a workbook: `c` is what its records say, `subs` are its substreams. It is plain, or encrypted with the
password that Excel uses when the user gave none; then the last substream is without its end. -/
inductive XlsFile (w : World) (file : Bytes) (c : Content) : List (List Record) → Prop
  | plain (groups : List (List Record)) : Grouped groups → (∀ r ∈ groups.flatten, r.type ≠ 0x2F) → AllGlobals .empty groups c →
      StreamIn file (lit "Workbook") (stream groups.flatten) → (stream groups.flatten).length < w.bufs.length → XlsFile w file c groups
  | encrypted (groups : List (List Record)) (last : List Record) (h : Header) : Digest w.prims →
      EncryptedFile w.prims file groups last h → AllGlobals .empty (groups ++ [last]) c →
      (stream (groups.flatten ++ last ++ [⟨0x0A, []⟩])).length < w.bufs.length → XlsFile w file c (groups ++ [last])

/-- The records of the (first) sheet with a name. -/
def StoredAs (c : Content) (subs : List (List Record)) (name : Bytes) (recs : List Record) : Prop :=
  ∃ (before after : List SheetEntry) (e : SheetEntry) (i : Nat), c.sheets = before ++ e :: after ∧
    (∀ x ∈ before, utf8 x.name ≠ name) ∧ utf8 e.name = name ∧ subs[i]? = some recs ∧ e.position = position subs i

/-- Records of a sheet that say what their cells are. -/
def GoodSheet (c : Content) (recs : List Record) : Prop :=
  ∃ bof rs mr mc ws, recs = bof :: rs ∧ bof.type = 0x809 ∧ Declares (0, 0) rs (mr, mc) ∧ SheetRecs c.strings c.styles mr mc rs ws

/-- Records of a sheet that have the bytes they announce, whatever these bytes say (as in C53). -/
def WholeSheet (c : Content) (recs : List Record) : Prop :=
  ∃ bof rs, recs = bof :: rs ∧ bof.type = 0x809 ∧ SafeSheet c.strings.length false rs ∧ ∀ r ∈ rs, r.data.length < 65536

/-- Two workbooks that agree in what all sheets use: shared strings, number formats, cell styles, and the names and states of the
sheets. (Not where the sheets are.) -/
structure SameShared (c c' : Content) : Prop where
  strings : c.strings = c'.strings
  formats : c.formats = c'.formats
  styles : c.styles = c'.styles
  sheets : c.sheets.map (fun e => (e.name, e.state)) = c'.sheets.map (fun e => (e.name, e.state))

/-- The workbook that opening such a file gives. -/
structure LoadedXls (c : Content) (subs : List (List Record)) (b : Xls.Book) : Prop where
  book : b = Xls.bookOf makeFormatter c b.subs b.pos2
  view : b.subs.map (·.map Xls.Rec.view) = subs
  index : ∀ (i : Nat), i < subs.length → b.subIndex (position subs i) = i
  sized : ∀ recs ∈ b.subs, Xls.Sized recs

theorem xlsFile_loaded (w : World) (fn file : Bytes) (hf : w.files fn = .ok file) (hb : ∀ k ∈ w.bufs, 0 < k) {c : Content}
    {subs : List (List Record)} (h : XlsFile w file c subs) :
    ∃ b n, LoadedXls c subs b ∧ ∀ fuel, n ≤ fuel → ∀ t, Shipped { w with fuel := fuel } t → openSrc t fn = .ok (.xls b) := by
  cases h with
  | plain _ hg hp hc hs hl =>
    obtain ⟨g, hload, hview, hpos⟩ := load_content w.prims makeFormatter hg hp hc w.spare
    obtain ⟨n, hn⟩ := open_xls w fn file _ hf hs hb hl _ hload
    refine ⟨_, n, ⟨rfl, hview, fun i hi => ?_, load_sized _ _ _ _ _ hload⟩, hn⟩
    unfold Xls.Book.subIndex
    rw [show (Xls.bookOf makeFormatter c g.subs g.pos2).pos2 = g.pos2 from rfl, hpos i hi]
    rfl
  | encrypted groups last hd hdg he hc hl =>
    obtain ⟨hwh, hlast, hok, ⟨pre, post, hfp, hpre⟩, ⟨hh, hm, hmatch⟩, hs⟩ := he
    have hlen : (encrypted (keyStream w.prims.md5 w.prims.rc4 Crypto.defaultPassword hd.salt)
        (groups.flatten ++ last ++ [⟨0x0A, []⟩])).length < w.bufs.length := by
      unfold encrypted
      rw [List.length_mapIdx, List.length_zip]
      omega
    obtain ⟨b, hload, hview, hidx, hbook⟩ := C67_encrypted w.prims hdg makeFormatter groups last hwh hlast hok pre post hd hfp hpre
      hh hm hmatch hc w.spare w.spare
    obtain ⟨n, hn⟩ := open_xls w fn file _ hf hs hb hlen b hload
    refine ⟨b, n, ⟨hbook, hview, fun i hi => ?_, load_sized _ _ _ _ _ hload⟩, hn⟩
    rw [List.length_append, List.length_singleton] at hi
    rw [position_append _ _ _ (by omega)]
    exact hidx i (by omega)

theorem find_stored {c : Content} {subs : List (List Record)} {b : Xls.Book} (h : LoadedXls c subs b) {name : Bytes}
    {recs : List Record} (hs : StoredAs c subs name recs) (ext : Ext) :
    ∃ (i : Nat) (rs : List Xls.Rec), b.get ext name = Xls.parseSheet ext b i ∧ b.subs[i]? = some rs ∧ rs.map Xls.Rec.view = recs := by
  obtain ⟨before, after, e, i, hx, hfirst, hname, hi, hpos⟩ := hs
  have hlt : i < subs.length := (List.getElem?_eq_some_iff.1 hi).1
  have hsub := hi
  rw [← h.view, List.getElem?_map] at hsub
  cases hr : b.subs[i]? with
  | none => rw [hr] at hsub; cases hsub
  | some rs =>
    rw [hr] at hsub
    simp only [Option.map_some, Option.some.injEq] at hsub
    refine ⟨i, rs, ?_, hr, hsub⟩
    have hfind : b.sheets.find? (fun s => decide (s.name = name)) = some (Xls.entry e) := by
      have hsheets : b.sheets = c.sheets.map Xls.entry := by
        have := congrArg Xls.Book.sheets h.book
        exact this
      rw [hsheets, hx, List.map_append, List.map_cons, List.find?_append]
      have hnone : (before.map Xls.entry).find? (fun s => decide (s.name = name)) = none := by
        rw [List.find?_eq_none]
        intro y hy
        obtain ⟨z, hz, rfl⟩ := List.mem_map.1 hy
        have := hfirst z hz
        unfold Xls.entry
        simpa using this
      rw [hnone, Option.none_or, List.find?_cons_of_pos (by unfold Xls.entry; simpa using hname)]
    unfold Xls.Book.get
    rw [hfind]
    simp only
    rw [show (Xls.entry e).position = e.position from rfl, hpos, h.index i hlt]

theorem missing_get {c : Content} {subs : List (List Record)} {b : Xls.Book} (h : LoadedXls c subs b) {name : Bytes}
    (hn : ∀ e ∈ c.sheets, utf8 e.name ≠ name) (ext : Ext) : b.get ext name = .err (.msg "xls: sheet not found") := by
  have hsheets : b.sheets = c.sheets.map Xls.entry := by
    have := congrArg Xls.Book.sheets h.book
    exact this
  have hf : b.sheets.find? (fun s => decide (s.name = name)) = none := by
    rw [hsheets, List.find?_eq_none]
    intro y hy
    obtain ⟨z, hz, rfl⟩ := List.mem_map.1 hy
    have := hn z hz
    unfold Xls.entry
    simpa using this
  unfold Xls.Book.get
  rw [hf]

/-- A sheet whose records say what its cells are, or at least have all their bytes, is read the same wherever it is and whatever
comes after it. -/
theorem same_sheet {ext : Ext} {c c' : Content} {subs subs' : List (List Record)} {b b' : Xls.Book} (h : LoadedXls c subs b)
    (h' : LoadedXls c' subs' b') (hc : SameShared c c') {name : Bytes} {recs : List Record} (hs : StoredAs c subs name recs)
    (hs' : StoredAs c' subs' name recs) (hg : GoodSheet c recs ∨ WholeSheet c recs) : b'.get ext name = b.get ext name := by
  obtain ⟨i, rs, g1, r1, v1⟩ := find_stored h hs ext
  obtain ⟨j, qs, g2, r2, v2⟩ := find_stored h' hs' ext
  have z1 := h.sized rs (List.mem_of_getElem? r1)
  have z2 := h'.sized qs (List.mem_of_getElem? r2)
  -- the workbook with nothing behind the records of the sheet
  let b0 : Xls.Book := { b with subs := [recs.map Xls.alone] }
  have hb0 : b0.subs[0]? = some (recs.map Xls.alone) := rfl
  have hstr : b.strings = c.strings.map utf8 := congrArg Xls.Book.strings h.book
  have hxf : b.xfs = c.styles := congrArg Xls.Book.xfs h.book
  have hnf : b.nfmt = Xls.addAll makeFormatter c.formats Formatter.new := congrArg Xls.Book.nfmt h.book
  have hstr' : b'.strings = c'.strings.map utf8 := congrArg Xls.Book.strings h'.book
  have hxf' : b'.xfs = c'.styles := congrArg Xls.Book.xfs h'.book
  have hnf' : b'.nfmt = Xls.addAll makeFormatter c'.formats Formatter.new := congrArg Xls.Book.nfmt h'.book
  have hview : (recs.map Xls.alone).map Xls.Rec.view = recs := by
    rw [List.map_map]
    exact (List.map_congr_left (fun r _ => rfl)).trans (List.map_id _)
  have hsized : Xls.Sized (recs.map Xls.alone) := by
    intro r hr
    obtain ⟨x, _, rfl⟩ := List.mem_map.1 hr
    rfl
  have l1 := Xls.below_parseSheet ext (b := b0) (b' := b) ⟨rfl, rfl, rfl⟩ 0 i hb0 r1 (Xls.alone_below _ _ v1 z1)
  have l2 := Xls.below_parseSheet ext (b := b0) (b' := b')
    ⟨by show b.strings = _; rw [hstr, hstr', hc.strings], by show b.nfmt = _; rw [hnf, hnf', hc.formats],
      by show b.xfs = _; rw [hxf, hxf', hc.styles]⟩ 0 j hb0 r2 (Xls.alone_below _ _ v2 z2)
  have np : Xls.parseSheet ext b0 0 ≠ .panic := by
    rcases hg with ⟨bof, rest, mr, mc, ws, rfl, hbof, hd, hw⟩ | ⟨bof, rest, rfl, hbof, hw, hlen⟩
    · obtain ⟨s, hp, _⟩ := C49_sheet_partial ext b0 0 _ hb0 hsized c.strings c.styles hstr hxf bof rest hview hbof mr mc hd ws hw
      rw [hp]
      intro h
      cases h
    · refine (Xls.parseSheet_safe ext b0 0 hb0 hview hbof ?_ hsized hlen).no_panic
      rw [show b0.strings = b.strings from rfl, hstr, List.length_map]
      exact hw
  rw [g1, g2, Xls.leRes_eq l1 np, Xls.leRes_eq l2 np]

/-- A program that asks only for names that two xls sources answer alike. -/
theorem run_xls {ext : Ext} {b b' : Xls.Book} {N : Bytes → Prop} (h : ∀ n, N n → b'.get ext n = b.get ext n) : ∀ (p : Client),
    p.Only N → p.run ext (.xls b') = p.run ext (.xls b) := by
  intro p
  induction p with
  | done => intro _; rfl
  | get n use next ih =>
    intro hp
    obtain ⟨h1, h2⟩ := hp
    simp only [Client.run, Source.get, h n h1]
    cases hg : b.get ext n with
    | panic => rfl
    | err e =>
      show (do let rest ← (next (.error e)).run ext (.xls b'); pure (_ :: rest)) =
        (do let rest ← (next (.error e)).run ext (.xls b); pure (_ :: rest))
      rw [ih _ (h2 _)]
    | ok x =>
      cases x with
      | none =>
        show (do let rest ← (next (.ok .noSheet)).run ext (.xls b'); pure (_ :: rest)) =
          (do let rest ← (next (.ok .noSheet)).run ext (.xls b); pure (_ :: rest))
        rw [ih _ (h2 _)]
      | some s =>
        show (do let rest ← (next (.ok (.sheet s))).run ext (.xls b'); pure (_ :: rest)) =
          (do let rest ← (next (.ok (.sheet s))).run ext (.xls b); pure (_ :: rest))
        rw [ih _ (h2 _)]

theorem loaded_list {c : Content} {subs : List (List Record)} {b : Xls.Book} (h : LoadedXls c subs b) :
    b.list = (c.sheets.filter (·.visible)).map (fun e => utf8 e.name) := by
  rw [h.book]
  unfold Xls.Book.list Xls.bookOf
  simp only
  rw [List.filter_map, List.map_map]
  congr 1
  apply List.filter_congr
  intro e _
  exact entry_visible e

theorem visible_names : ∀ (l l' : List SheetEntry), l.map (fun e => (e.name, e.state)) = l'.map (fun e => (e.name, e.state)) →
    (l.filter (·.visible)).map (fun e => utf8 e.name) = (l'.filter (·.visible)).map (fun e => utf8 e.name)
  | [], [], _ => rfl
  | [], _ :: _, h => by cases h
  | _ :: _, [], h => by cases h
  | x :: l, y :: l', h => by
    simp only [List.map_cons, List.cons.injEq, Prod.mk.injEq] at h
    obtain ⟨⟨h1, h2⟩, h3⟩ := h
    have hv : x.visible = y.visible := by unfold SheetEntry.visible; rw [h2]
    have ih := visible_names l l' h3
    cases hx : y.visible with
    | true =>
      rw [List.filter_cons_of_pos (by rw [hv, hx]), List.filter_cons_of_pos (by rw [hx]), List.map_cons, List.map_cons, ih, h1]
    | false =>
      rw [List.filter_cons_of_neg (by rw [hv, hx]; decide), List.filter_cons_of_neg (by rw [hx]; decide), ih]

/-- **C121.** Two xls files that agree in what all sheets use and in the records of some sheets, which say what their
cells are or at least have the bytes they announce: programs that ask only for those sheets (or for names that are not there) get
the same from both, whatever the other sheets are, damaged ones included, wherever the sheets are in the file, encrypted or not.
Missing: records that are cut off (`C121_counterexample`) and those that C53 leaves out. -/
theorem C121_partial (w : World) (ext : Ext) (N : Bytes → Prop) (fn fn' file file' : Bytes) (hf : w.files fn = .ok file)
    (hf' : w.files fn' = .ok file') (hb : ∀ k ∈ w.bufs, 0 < k) {c c' : Content} {subs subs' : List (List Record)}
    (h : XlsFile w file c subs) (h' : XlsFile w file' c' subs') (hc : SameShared c c')
    (hN : ∀ n, N n → (∀ e ∈ c.sheets, utf8 e.name ≠ n) ∨
      ∃ recs, StoredAs c subs n recs ∧ StoredAs c' subs' n recs ∧ (GoodSheet c recs ∨ WholeSheet c recs)) :
    ∃ k, ∀ fuel, k ≤ fuel → ∀ t, Shipped { w with fuel := fuel } t → ∃ src src', openSrc t fn = .ok src ∧
      openSrc t fn' = .ok src' ∧ src'.list = src.list ∧ ∀ p : Client, p.Only N → p.run ext src' = p.run ext src := by
  obtain ⟨b, n, hl, ho⟩ := xlsFile_loaded w fn file hf hb h
  obtain ⟨b', n', hl', ho'⟩ := xlsFile_loaded w fn' file' hf' hb h'
  refine ⟨max n n', fun fuel hfu t ht => ⟨_, _, ho fuel (by omega) t ht, ho' fuel (by omega) t ht, ?_, ?_⟩⟩
  · show b'.list = b.list
    rw [loaded_list hl, loaded_list hl', visible_names _ _ hc.sheets]
  · refine run_xls (fun m hm => ?_)
    rcases hN m hm with hno | ⟨recs, s1, s2, hg⟩
    · rw [missing_get hl hno ext, missing_get hl' (fun e he => ?_) ext]
      have : (e.name, e.state) ∈ c'.sheets.map (fun e => (e.name, e.state)) := List.mem_map_of_mem he
      rw [← hc.sheets] at this
      obtain ⟨x, hx, hxe⟩ := List.mem_map.1 this
      simp only [Prod.mk.injEq] at hxe
      rw [← hxe.1]
      exact hno x hx
    · exact same_sheet hl hl' hc s1 s2 hg

/-! ### Examples -/

/-- The entries of two sheets. -/
def exTwoEntry (k : Fin 4) : List SheetEntry :=
  [⟨50, 0, 0, 0, [0x41]⟩, ⟨if k.val < 2 then 106 else 82, 0, 0, 0, [0x42]⟩]

/-- What is in sheet `B`. -/
def exTwoFill (k : Fin 4) : Record :=
  if k.val = 0 then ⟨1, List.replicate 127 0⟩
  else if k.val = 1 then ⟨253, List.replicate 127 0xFF⟩
  else if k.val = 2 then ⟨1, List.replicate 151 0⟩ else ⟨1, List.replicate 150 0⟩

theorem exTwoFill_type : ∀ k : Fin 4, (exTwoFill k).type = 1 ∨ (exTwoFill k).type = 253 := by decide

/-- Workbooks with two sheets. In the second one sheet `B` is damaged (a cell with a shared string that is not there). In the third
and the fourth the size of sheet `A` is cut off; sheet `B` begins with records of different lengths. -/
def exTwo (k : Fin 4) : List (List Record) :=
  [[exBof 5] ++ (exTwoEntry k).map (fun e => ⟨0x85, e.data⟩) ++ [⟨0x0A, []⟩],
   if k.val < 2 then
     [exBof 0x10, ⟨512, leBytes 4 0 ++ (leBytes 4 1 ++ (leBytes 2 0 ++ (leBytes 2 1 ++ [0, 0])))⟩,
      ⟨638, cellHead 0 0 0 (leBytes 4 22 ++ [])⟩, ⟨0x0A, []⟩]
   else [exBof 0x10, ⟨512, [0, 0, 0, 0]⟩, ⟨0x0A, []⟩],
   [⟨0x809, bofData 0x10 0x1CBB 0x07CD ([0, 0, 0, 0, 6, 0, 0, 0] ++ if k.val < 3 then [] else [0])⟩,
    exTwoFill k, ⟨0x0A, []⟩]]

/-- What they say. -/
def exTwoContent (k : Fin 4) : Content := ⟨exTwoEntry k, 0, [], [], []⟩

/-- The files. -/
def exTwoFile (k : Fin 4) : Bytes := wbFileOf (stream (exTwo k).flatten) 0xFFFFFFFE wbSlots

theorem exTwo_grouped (k : Fin 4) : Grouped (exTwo k) ∧ ∀ r ∈ (exTwo k).flatten, r.type ≠ 0x2F := by
  have pl : ∀ (r : Record) (rs : List Record), (r.type ≠ 0x809 ∧ r.type ≠ 0x0A) → Balanced rs → Balanced (r :: rs) :=
    fun r rs h hb => .plain r rs h.1 h.2 hb
  refine ⟨⟨by unfold Record.Fits; revert k; decide +kernel, ?_⟩, by revert k; decide +kernel⟩
  have h0 : Substream ([exBof 5] ++ (exTwoEntry k).map (fun e => ⟨0x85, e.data⟩) ++ [⟨0x0A, []⟩]) :=
    ⟨_, [_, _], _, rfl, rfl, rfl, pl _ _ ⟨by show (133 : Nat) ≠ _; decide, by show (133 : Nat) ≠ _; decide⟩
      (pl _ _ ⟨by show (133 : Nat) ≠ _; decide, by show (133 : Nat) ≠ _; decide⟩ .nil)⟩
  have h1 : Substream ([exBof 0x10, ⟨512, leBytes 4 0 ++ (leBytes 4 1 ++ (leBytes 2 0 ++ (leBytes 2 1 ++ [0, 0])))⟩,
      ⟨638, cellHead 0 0 0 (leBytes 4 22 ++ [])⟩, ⟨0x0A, []⟩]) :=
    ⟨_, [_, _], _, rfl, rfl, rfl, pl _ _ (by decide) (pl _ _ (by decide) .nil)⟩
  have h2 : Substream ([exBof 0x10, ⟨512, [0, 0, 0, 0]⟩, ⟨0x0A, []⟩]) :=
    ⟨_, [_], _, rfl, rfl, rfl, pl _ _ (by decide) .nil⟩
  intro g hg
  simp only [exTwo, List.mem_cons, List.not_mem_nil, or_false] at hg
  rcases hg with rfl | rfl | rfl
  · exact h0
  · split
    · exact h1
    · exact h2
  · refine ⟨_, [_], _, rfl, rfl, rfl, pl _ _ ?_ .nil⟩
    rcases exTwoFill_type k with h | h <;> rw [h] <;> decide

theorem exTwo_content (k : Fin 4) : AllGlobals .empty (exTwo k) (exTwoContent k) := by
  have hs : ∀ e ∈ exTwoEntry k, e.position < 2 ^ 32 ∧ (e.name = [0x41] ∨ e.name = [0x42]) ∧ e.flags = 0 := by revert k; decide
  have ok : ∀ e ∈ exTwoEntry k, e.Ok := by
    intro e he
    obtain ⟨h1, h2, h3⟩ := hs e he
    refine ⟨h1, ?_, ?_, ?_⟩
    · rcases h2 with h2 | h2 <;> rw [h2] <;> intro r hr <;> simp only [List.mem_singleton] at hr <;> subst hr <;> unfold Scalar <;> decide
    · rcases h2 with h2 | h2 <;> rw [h2, h3] <;> unfold Fits <;> decide +kernel
    · rcases h2 with h2 | h2 <;> rw [h2] <;> decide
  have sk : ∀ (c c' : Content) (r : Record) (rs : List Record), ¬ telling r.type → Globals c rs c' →
      Globals c (r :: rs) c' := fun c c' r rs h => .skip c c' r rs (Or.inr h)
  refine .cons _ (exTwoContent k) _ _ _ ?_ (.cons _ (exTwoContent k) _ _ _ ?_ (.cons _ (exTwoContent k) _ _ _ ?_ (.nil _)))
  · refine .bof _ _ _ _ _ _ _ (by decide) (by decide) ?_
    refine .sheet _ _ _ _ (ok _ (by simp [exTwoEntry])) ?_
    refine .sheet _ _ _ _ (ok _ (by simp [exTwoEntry])) ?_
    exact .skip _ _ _ _ (Or.inl rfl) (.nil _)
  · split
    · refine .bof _ _ _ _ _ _ _ (by decide) (by decide) ?_
      iterate 2 refine sk _ _ _ _ (by unfold telling; decide) ?_
      exact .skip _ _ _ _ (Or.inl rfl) (.nil _)
    · refine .bof _ _ _ _ _ _ _ (by decide) (by decide) ?_
      refine sk _ _ _ _ (by unfold telling; decide) ?_
      exact .skip _ _ _ _ (Or.inl rfl) (.nil _)
  · refine .bof _ _ _ _ _ _ _ (by simp) (by decide) ?_
    refine sk _ _ _ _ (by rcases exTwoFill_type k with h | h <;> rw [h] <;> unfold telling <;> decide) ?_
    exact .skip _ _ _ _ (Or.inl rfl) (.nil _)

theorem exTwoDoc (k : Fin 4) : Spec.Doc (exTwoFile k) exHead (table (exTwoFile k) 9 [0]) wbSlots where
  header := ⟨_, rfl⟩
  numFAT := by decide
  firstDir := by decide
  firstMiniFAT := by decide
  numMiniFAT := by decide
  firstDIFAT := by decide
  numDIFAT := by decide
  headFAT := by decide
  table := ⟨[], Or.inr ⟨rfl, rfl⟩, by
    intro i hi
    have : i = 0 := by simpa [exHead] using hi
    subst this
    exact ⟨by unfold Regular; decide, by unfold HasSector; revert k; decide +kernel⟩, rfl⟩
  dir := ⟨[1], .cons 1 0xFFFFFFFE [] (by revert k; decide +kernel) .done, by
    intro i hi
    have : i = 1 := by simpa using hi
    subst this
    exact ⟨by unfold Regular; decide, by unfold HasSector; revert k; decide +kernel⟩, by revert k; decide +kernel⟩
  slotsOk := wbDoc.slotsOk
  root := ⟨wbRoot, exMid, _, rfl, rfl, by decide⟩

theorem exTwoStream (k : Fin 4) : StreamIn (exTwoFile k) (lit "Workbook") (stream (exTwo k).flatten) := by
  have e : ((([0, 1, 2, 3, 4] : List Nat).map (miniSector (sector (exTwoFile k) 9 3))).flatten).take wbEntry.size =
      stream (exTwo k).flatten := by revert k; decide +kernel
  have m0 : ∀ (i : Fin 5), (words (sector (exTwoFile k) 9 exHead.firstMiniFAT))[i.val]? =
      some (if i.val < 4 then i.val + 1 else 0xFFFFFFFE) := by revert k; decide +kernel
  have hl : (sector (exTwoFile k) 9 3).length = 512 := by revert k; decide +kernel
  have h := StreamIn.small (file := exTwoFile k) (name := lit "Workbook") exHead _ wbRoot exMid [] [exFree, exFree] wbEntry exMid
    [3] [0, 1, 2, 3, 4] (sector (exTwoFile k) 9 3) (exTwoDoc k) (by unfold Regular; decide)
    (by unfold HasSector; revert k; decide +kernel) (by decide) (by simp) (by decide) (by simp [entries]) (by decide +kernel) rfl (by decide)
    (.cons _ 0xFFFFFFFE _ (by revert k; decide +kernel) .done)
    (by
      intro i hi
      have : i = 3 := by simpa using hi
      subst this
      exact ⟨by unfold Regular; decide, by unfold HasSector; revert k; decide +kernel⟩) (by decide) (by simp)
    (.cons _ 1 _ (by revert k; decide +kernel) (.cons _ 2 _ (by revert k; decide +kernel) (.cons _ 3 _ (by revert k; decide +kernel)
      (.cons _ 4 _ (by revert k; decide +kernel) (.cons _ 0xFFFFFFFE _ (by revert k; decide +kernel) .done))))) (by decide)
    (by
      intro i hi
      have : i ≤ 4 := by revert i; decide
      refine ⟨by unfold Regular; omega, by omega⟩)
  rw [e] at h
  exact h

theorem exTwo_file (w : World) (hb : w.bufs = List.replicate 512 512) (k : Fin 4) :
    XlsFile w (exTwoFile k) (exTwoContent k) (exTwo k) :=
  .plain _ (exTwo_grouped k).1 (exTwo_grouped k).2 (exTwo_content k) (exTwoStream k) (by rw [hb]; revert k; decide +kernel)

end Grate.Props
