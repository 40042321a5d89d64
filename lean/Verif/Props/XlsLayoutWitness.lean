import Verif.Props.XlsLayout

/-! # Examples for C120 and C121 -/

namespace Grate.Props

open Grate Grate.Spec Grate.Api

/-! ### C120: the same stream elsewhere -/

/-- The stream is in the mini sectors 4, 3, 2, 1, 0. -/
def movedEntry : Spec.Entry := { name := wbName, objType := 2, start := 4, size := 261 }

/-- There is another stream before it. -/
def movedSlots : List Slot := [.used wbRoot exMid, .used (ex5Stream 65) exMid, .used movedEntry exMid, exFree]

/-- The file of C77 with its stream elsewhere, something else in the free mini sectors, and another stream. -/
def movedFile : Bytes :=
  let raw := stream exBook.flatten
  exHead.bytes ++ (([0xFFFFFFFD, 0xFFFFFFFE, 0xFFFFFFFE, 0xFFFFFFFE, 0xFFFFFFFE] ++ List.replicate 123 0xFFFFFFFF).flatMap (leBytes 4) ++
    (movedSlots.flatMap Slot.bytes ++ (([0xFFFFFFFE, 0, 1, 2, 3] ++ List.replicate 123 0xFFFFFFFF).flatMap (leBytes 4) ++
    ((raw.drop 256 ++ List.replicate 59 7) ++ (raw.drop 192).take 64 ++ (raw.drop 128).take 64 ++ (raw.drop 64).take 64 ++ raw.take 64 ++
      List.replicate 192 7))))

theorem movedDoc : Spec.Doc movedFile exHead (table movedFile 9 [0]) movedSlots where
  header := ⟨_, rfl⟩
  numFAT := by decide
  firstDir := by decide
  firstMiniFAT := by decide
  numMiniFAT := by decide
  firstDIFAT := by decide
  numDIFAT := by decide
  headFAT := by decide
  table := ⟨[], Or.inr ⟨rfl, rfl⟩, by
    intro i hi
    have : i = 0 := by simpa [exHead] using hi
    subst this
    exact ⟨by unfold Regular; decide, by unfold HasSector; decide +kernel⟩, rfl⟩
  dir := ⟨[1], .cons 1 0xFFFFFFFE [] (by decide +kernel) .done, by
    intro i hi
    have : i = 1 := by simpa using hi
    subst this
    exact ⟨by unfold Regular; decide, by unfold HasSector; decide +kernel⟩, by decide +kernel⟩
  slotsOk := by
    intro s hs
    have h2 : movedEntry.Ok := by refine ⟨?_, ?_, ?_, ?_, ?_⟩ <;> decide
    have h3 : (ex5Stream 65).Ok := by refine ⟨?_, ?_, ?_, ?_, ?_⟩ <;> decide
    simp only [movedSlots, List.mem_cons, List.not_mem_nil, or_false] at hs
    rcases hs with rfl | rfl | rfl | rfl
    · exact ⟨wbEntry_ok.1, by decide⟩
    · exact ⟨h3, by decide⟩
    · exact ⟨h2, by decide⟩
    · exact ⟨by decide, by decide⟩
  root := ⟨wbRoot, exMid, _, rfl, rfl, by decide⟩

theorem movedStream : StreamIn movedFile (lit "Workbook") (stream exBook.flatten) := by
  have h := StreamIn.small (file := movedFile) (name := lit "Workbook") exHead _ wbRoot exMid [.used (ex5Stream 65) exMid] [exFree]
    movedEntry exMid
    [3] [4, 3, 2, 1, 0] (sector movedFile 9 3) movedDoc (by unfold Regular; decide)
    (by unfold HasSector; decide +kernel) (by decide) (by intro s hs; simp only [List.mem_singleton] at hs; exact ⟨_, _, hs⟩)
    (by decide) (by intro x hx; simp only [entries, List.filterMap_cons, List.filterMap_nil, List.mem_singleton] at hx; subst hx; intro _; decide +kernel)
    (by decide +kernel) rfl (by decide)
    (.cons _ 0xFFFFFFFE _ (by decide +kernel) .done)
    (by
      intro i hi
      have : i = 3 := by simpa using hi
      subst this
      exact ⟨by unfold Regular; decide, by unfold HasSector; decide +kernel⟩) (by decide) (by simp)
    (.cons _ 3 _ (by decide +kernel) (.cons _ 2 _ (by decide +kernel) (.cons _ 1 _ (by decide +kernel)
      (.cons _ 0 _ (by decide +kernel) (.cons _ 0xFFFFFFFE _ (by decide +kernel) .done))))) (by decide)
    (by
      intro i hi
      have hl : (sector movedFile 9 3).length = 512 := by decide +kernel
      have : i ≤ 4 := by revert i; decide
      refine ⟨by unfold Regular; omega, by omega⟩)
  have e : ((([4, 3, 2, 1, 0] : List Nat).map (miniSector (sector movedFile 9 3))).flatten).take movedEntry.size =
      stream exBook.flatten := by decide +kernel
  rw [e] at h
  exact h

/-- C120: two files with different bytes and the same stream `Workbook`; `Open` gives the same document for both. -/
theorem C120_witness (w : World) (fn fn' : Bytes) (hf : w.files fn = .ok (wbFile 0xFFFFFFFE wbSlots))
    (hf' : w.files fn' = .ok movedFile) (hb : w.bufs = List.replicate 512 512) :
    wbFile 0xFFFFFFFE wbSlots ≠ movedFile ∧
    ∃ n, ∀ fuel, n ≤ fuel → ∀ t, Shipped { w with fuel := fuel } t → ∃ b, openSrc t fn = .ok (.xls b) ∧ openSrc t fn' = .ok (.xls b) := by
  have hb0 : ∀ k ∈ w.bufs, 0 < k := by rw [hb]; intro k hk; rw [(List.mem_replicate.1 hk).2]; decide
  have hbl : (stream exBook.flatten).length < w.bufs.length := by rw [hb]; decide +kernel
  refine ⟨by decide +kernel, ?_⟩
  obtain ⟨n, hn⟩ := C120_file_partial w fn fn' _ _ _ hf hf' wbStream movedStream hb0 hbl
  obtain ⟨b, n', hl, ho⟩ := xlsFile_loaded w fn _ hf hb0 (.plain _ exBook_grouped.1 exBook_grouped.2 exBook_content wbStream hbl)
  refine ⟨max n n', fun fuel hfu t ht => ⟨b, ho fuel (by omega) t ht, ?_⟩⟩
  rw [hn fuel (by omega) t ht]
  exact ho fuel (by omega) t ht

/-! ### C121 -/

theorem exTwo_shared (j k : Fin 4) : SameShared (exTwoContent j) (exTwoContent k) := ⟨rfl, rfl, rfl, rfl⟩

theorem exTwo_names (k : Fin 4) : (exTwoContent k).sheets.map (fun e => utf8 e.name) = [lit "A", lit "B"] := by
  revert k
  decide +kernel

/-- Sheet `A` is stored as the second substream. -/
theorem exTwo_A (k : Fin 4) (recs : List Record) (h : (exTwo k)[1]? = some recs) :
    StoredAs (exTwoContent k) (exTwo k) (lit "A") recs := by
  refine ⟨[], _, _, 1, rfl, by simp, by decide +kernel, h, ?_⟩
  clear h
  revert k
  decide +kernel

/-- Sheet `B` is stored as the third. -/
theorem exTwo_B (k : Fin 4) (recs : List Record) (h : (exTwo k)[2]? = some recs) :
    StoredAs (exTwoContent k) (exTwo k) (lit "B") recs := by
  refine ⟨[_], [], _, 2, rfl, ?_, ?_, h, ?_⟩
  · intro x hx
    simp only [List.mem_singleton] at hx
    subst hx
    decide +kernel
  · show utf8 [0x42] = lit "B"
    decide +kernel
  · clear h
    revert k
    decide +kernel

/-- The records of sheet `A` in the first two workbooks. -/
def exTwoSheet : List Record :=
  [exBof 0x10, ⟨512, leBytes 4 0 ++ (leBytes 4 1 ++ (leBytes 2 0 ++ (leBytes 2 1 ++ [0, 0])))⟩,
   ⟨638, cellHead 0 0 0 (leBytes 4 22 ++ [])⟩, ⟨0x0A, []⟩]

theorem exTwoSheet_good (k : Fin 4) : GoodSheet (exTwoContent k) exTwoSheet := by
  have hc : SheetRecs (exTwoContent k).strings (exTwoContent k).styles 1 1 _ _ :=
    .other ⟨512, leBytes 4 0 ++ (leBytes 4 1 ++ (leBytes 2 0 ++ (leBytes 2 1 ++ [0, 0])))⟩ _ _ (by unfold cellType; decide) (.rk 0 0 0 22 [] _ _ (by unfold HeadFits; decide) (by decide) (by decide)
      (.other ⟨0x0A, []⟩ _ _ (by unfold cellType; decide) .nil))
  exact ⟨_, _, 1, 1, _, rfl, rfl, .dims _ _ 0 1 0 1 [0, 0] _ (by decide) (by decide)
    (.other _ _ _ _ (by decide) (by decide) (by decide) (.other _ _ _ _ (by decide) (by decide) (by decide) (.nil _))), hc⟩

/-- The records of sheet `B` in the first workbook. -/
theorem exTwoB_good : GoodSheet (exTwoContent 0) [exBof 0x10, exTwoFill 0, ⟨0x0A, []⟩] := by
  have hc : SheetRecs (exTwoContent 0).strings (exTwoContent 0).styles 0 0 _ _ :=
    .other (exTwoFill 0) _ _ (by unfold cellType; decide) (.other ⟨0x0A, []⟩ _ _ (by unfold cellType; decide) .nil)
  exact ⟨_, _, 0, 0, _, rfl, rfl, .other _ _ _ _ (by decide) (by decide) (by decide)
    (.other _ _ _ _ (by decide) (by decide) (by decide) (.nil _)), hc⟩

/-- Sheet `B` of the second workbook, which is damaged, still has all its bytes. -/
theorem exTwoB_whole : WholeSheet (exTwoContent 1) [exBof 0x10, exTwoFill 1, ⟨0x0A, []⟩] := by
  refine ⟨_, _, rfl, rfl, ?_, by decide +kernel⟩
  refine .plain _ _ _ (by decide) (by decide) (by decide) ?_ (.plain _ _ _ (by decide) (by decide) (by decide) ?_ (.nil _))
  · constructor <;> intro e <;> first | exact absurd e (by decide) |
      exact ⟨List.replicate 6 0xFF, 0xFFFFFFFF, List.replicate 117 0xFF, rfl, by decide, by decide, rfl⟩
  · constructor <;> (intro e; exact absurd e (by decide))

/-- A sheet whose records say what its cells are can be read. -/
theorem good_get {c : Content} {subs : List (List Record)} {b : Xls.Book} (h : LoadedXls c subs b) (ext : Ext) {name : Bytes}
    {recs : List Record} (hs : StoredAs c subs name recs) (hg : GoodSheet c recs) : ∃ s, b.get ext name = .ok (some s) := by
  obtain ⟨i, rs, g1, r1, v1⟩ := find_stored h hs ext
  obtain ⟨bof, rest, mr, mc, ws, rfl, hbof, hd, hw⟩ := hg
  obtain ⟨s, hp, _⟩ := C49_sheet_partial ext b i rs r1 (h.sized rs (List.mem_of_getElem? r1)) c.strings c.styles
    (congrArg Xls.Book.strings h.book) (congrArg Xls.Book.xfs h.book) bof rest v1 hbof mr mc hd ws hw
  exact ⟨s, g1.trans hp⟩

set_option maxRecDepth 8000 in
/-- C121: sheet `B` of the second file is damaged and cannot be read, which it can in the first file; programs that use `A` get
the same from both files, and `A` can be read. -/
theorem C121_witness (w : World) (ext : Ext) (fn fn' : Bytes) (hf : w.files fn = .ok (exTwoFile 0))
    (hf' : w.files fn' = .ok (exTwoFile 1)) (hb : w.bufs = List.replicate 512 512) :
    ∃ k, ∀ fuel, k ≤ fuel → ∀ t, Shipped { w with fuel := fuel } t → ∃ src src', openSrc t fn = .ok src ∧
      openSrc t fn' = .ok src' ∧ (∀ p : Client, p.Only (· = lit "A") → p.run ext src' = p.run ext src) ∧
      (∃ s, src.get ext (lit "A") = .ok (src, .ok (.sheet s)) ∧ src'.get ext (lit "A") = .ok (src', .ok (.sheet s))) ∧
      (∃ s, src.get ext (lit "B") = .ok (src, .ok (.sheet s))) ∧ ∃ e, src'.get ext (lit "B") = .ok (src', .error e) := by
  have hb0 : ∀ k ∈ w.bufs, 0 < k := by rw [hb]; intro k hk; rw [(List.mem_replicate.1 hk).2]; decide
  obtain ⟨b, n, hl, ho⟩ := xlsFile_loaded w fn _ hf hb0 (exTwo_file w hb 0)
  obtain ⟨b', n', hl', ho'⟩ := xlsFile_loaded w fn' _ hf' hb0 (exTwo_file w hb 1)
  have hA : b'.get ext (lit "A") = b.get ext (lit "A") :=
    same_sheet hl hl' (exTwo_shared 0 1) (exTwo_A 0 exTwoSheet rfl) (exTwo_A 1 exTwoSheet rfl) (.inl (exTwoSheet_good 0))
  obtain ⟨sA, gA⟩ := good_get hl ext (exTwo_A 0 exTwoSheet rfl) (exTwoSheet_good 0)
  obtain ⟨sB, gB⟩ := good_get hl ext (exTwo_B 0 _ rfl) exTwoB_good
  obtain ⟨i, rs, g1, r1, v1⟩ := find_stored hl' (exTwo_B 1 _ rfl) ext
  have he : ∃ e, b'.get ext (lit "B") = .err e := by
    let b0 : Xls.Book := { b' with subs := [[exBof 0x10, exTwoFill 1, ⟨0x0A, []⟩].map Xls.alone], strings := [] }
    have hstr : b'.strings = [] := congrArg Xls.Book.strings hl'.book
    have l := Xls.below_parseSheet ext (b := b0) (b' := b') ⟨hstr.symm, rfl, rfl⟩ 0 i rfl r1
      (Xls.alone_below _ _ v1 (hl'.sized rs (List.mem_of_getElem? r1)))
    have hp : ∃ e, Xls.parseSheet ext b0 0 = .err e := ⟨_, rfl⟩
    obtain ⟨e, hp⟩ := hp
    exact ⟨e, by rw [g1, Xls.leRes_eq l (by rw [hp]; intro h; cases h), hp]⟩
  obtain ⟨e, he⟩ := he
  refine ⟨max n n', fun fuel hfu t ht => ⟨_, _, ho fuel (by omega) t ht, ho' fuel (by omega) t ht,
    run_xls (fun m hm => by subst hm; exact hA), ⟨sA, ?_, ?_⟩, ⟨sB, ?_⟩, ⟨e, ?_⟩⟩⟩
  · simp only [Source.get, gA]
  · simp only [Source.get, hA, gA]
  · simp only [Source.get, gB]
  · simp only [Source.get, he]

/-- No record gets lost, and their order is kept. -/
theorem placeAll_keeps : ∀ (rs : List Xls.Rec) (g g' : Xls.Groups), Xls.placeAll rs g = .ok g' → g.substr + 1 = g.subs.length →
    g'.subs.flatten = g.subs.flatten ++ rs := by
  intro rs
  induction rs with
  | nil => intro g g' h _; cases h; simp
  | cons r rs ih =>
    intro g g' h hi
    rw [Xls.placeAll, GoRes.bind_eq_ok] at h
    obtain ⟨g1, h1, h2⟩ := h
    have hc : (g.count r).substr + 1 = (g.count r).subs.length ∧ (g.count r).subs.flatten = g.subs.flatten := by
      unfold Xls.Groups.count
      simp only
      split
      · exact ⟨hi, rfl⟩
      · split
        · split
          · simp
          · exact ⟨hi, rfl⟩
        · exact ⟨hi, rfl⟩
    unfold Xls.Groups.place at h1
    split at h1
    · rename_i hp
      cases h1
      rw [ih _ _ h2 (by simpa using hc.1)]
      obtain ⟨l, x, e⟩ := List.eq_nil_or_concat (g.count r).subs |>.resolve_left (by intro h; rw [h] at hp; simp at hp; omega)
      rw [List.concat_eq_append] at e
      have : (g.count r).substr.toNat = l.length := by
        have := hc.1
        rw [e, List.length_append, List.length_singleton] at this
        omega
      have h3 := hc.2
      rw [e] at h3
      simp only
      rw [this, e, Xls.modify_last, ← h3]
      simp
    · cases h1

/-- The records of the third and the fourth workbook where they are in the stream. -/
theorem exTwo_loads (k : Fin 4) (hk : 2 ≤ k.val) (p : Crypto.Prims) (rest : Bytes) : ∃ g : Xls.Groups,
    Xls.loadStream p makeFormatter rest ⟨stream (exTwo k).flatten, rest⟩ =
      .ok (Xls.bookOf makeFormatter (exTwoContent k) g.subs g.pos2) ∧
    LoadedXls (exTwoContent k) (exTwo k) (Xls.bookOf makeFormatter (exTwoContent k) g.subs g.pos2) ∧
    g.subs[1]? = some (Xls.recsOf [exBof 0x10, ⟨512, [0, 0, 0, 0]⟩, ⟨0x0A, []⟩] (stream ((exTwo k).drop 2).flatten ++ rest)) := by
  obtain ⟨hgr, hnp⟩ := exTwo_grouped k
  have he := Xls.gather_stream false [] rest (exTwo k).flatten hgr.fits (fun r hr h => absurd h (hnp r hr)) Xls.Groups.init
  obtain ⟨g, hg, hb⟩ := Xls.between_all (exTwo k) [] Xls.Groups.init Xls.between_init hgr.whole
    (Xls.recsOf (exTwo k).flatten ([] ++ rest)) (Xls.map_view_recsOf _ _)
  rw [hg, GoRes.ok_bind, Xls.gather_short false [] rest (by simp), List.append_nil] at he
  rw [List.nil_append] at hb hg
  have hfl : g.subs.flatten = Xls.recsOf (exTwo k).flatten rest := placeAll_keeps _ _ _ hg rfl
  have hload : Xls.loadStream p makeFormatter rest ⟨stream (exTwo k).flatten, rest⟩ =
      .ok (Xls.bookOf makeFormatter (exTwoContent k) g.subs g.pos2) := by
    unfold Xls.loadStream
    rw [he, GoRes.ok_bind]
    exact Xls.processSubs_spec makeFormatter g.subs g.pos2 (exTwo_content k) g.subs hb.subs
  refine ⟨g, hload, ⟨rfl, hb.subs, fun i hi => ?_, load_sized _ _ _ _ _ hload⟩, ?_⟩
  · unfold Xls.Book.subIndex
    rw [show (Xls.bookOf makeFormatter (exTwoContent k) g.subs g.pos2).pos2 = g.pos2 from rfl, hb.look i hi]
    rfl
  · have hv := hb.subs
    have e2 : exTwo k = [[exBof 5] ++ (exTwoEntry k).map (fun e => ⟨0x85, e.data⟩) ++ [⟨0x0A, []⟩],
        [exBof 0x10, ⟨512, [0, 0, 0, 0]⟩, ⟨0x0A, []⟩]] ++ (exTwo k).drop 2 := by
      unfold exTwo
      rw [if_neg (by omega)]
      rfl
    generalize (exTwo k).drop 2 = tail at e2 ⊢
    rw [e2] at hv hfl
    obtain ⟨s0, q, hq, v0, hv⟩ := List.map_eq_cons_iff.1 hv
    obtain ⟨s1, q', rfl, v1, hv⟩ := List.map_eq_cons_iff.1 hv
    rw [hq] at hfl ⊢
    rw [List.flatten_append, Xls.recsOf_append, List.flatten_cons, List.flatten_cons, List.flatten_cons, List.flatten_cons,
      List.flatten_nil, List.append_nil, Xls.recsOf_append, List.append_assoc] at hfl
    have l0 := congrArg List.length v0
    have l1 := congrArg List.length v1
    rw [List.length_map] at l0 l1
    have len : ∀ (rs : List Record) (t : Bytes), (Xls.recsOf rs t).length = rs.length := by
      intro rs t
      have := congrArg List.length (Xls.map_view_recsOf rs t)
      rwa [List.length_map] at this
    have h1 := (List.append_inj hfl (by rw [len]; exact l0)).2
    have h2 := (List.append_inj h1 (by rw [len]; exact l1)).1
    rw [← h2]
    rfl

/-- The types of the cells in the first row of a sheet. -/
def firstTypes (s : Sheet) : GoRes (List Bytes) := s.next.1.types

theorem exTwo_cut (k : Fin 4) (hk : 2 ≤ k.val) (w : World) (ext : Ext) (fn : Bytes) (hf : w.files fn = .ok (exTwoFile k))
    (hb : w.bufs = List.replicate 512 512) : ∃ b n s l,
      (∀ fuel, n ≤ fuel → ∀ t, Shipped { w with fuel := fuel } t → openSrc t fn = .ok (.xls b)) ∧
      b.get ext (lit "A") = .ok (some s) ∧ firstTypes s = .ok l ∧ l.length = 14 + k.val := by
  have hb0 : ∀ k ∈ w.bufs, 0 < k := by rw [hb]; intro k hk; rw [(List.mem_replicate.1 hk).2]; decide
  obtain ⟨g, hload, hl, h1⟩ := exTwo_loads k hk w.prims w.spare
  have hlen : (stream (exTwo k).flatten).length < w.bufs.length := by
    rw [hb]
    clear hk hf h1 hload hl
    revert k
    decide +kernel
  obtain ⟨n, hn⟩ := open_xls w fn _ _ hf (exTwoStream k) hb0 hlen _ hload
  have hget : (Xls.bookOf makeFormatter (exTwoContent k) g.subs g.pos2).get ext (lit "A") =
      Xls.parseSheet ext (Xls.bookOf makeFormatter (exTwoContent k) g.subs g.pos2) 1 := by
    unfold Xls.Book.get
    have hfind : (Xls.bookOf makeFormatter (exTwoContent k) g.subs g.pos2).sheets.find? (fun s => decide (s.name = lit "A")) =
        some (Xls.entry ⟨50, 0, 0, 0, [0x41]⟩) := by
      show ((exTwoEntry k).map Xls.entry).find? _ = _
      unfold exTwoEntry
      rw [List.map_cons, List.find?_cons_of_pos (by decide +kernel)]
    rw [hfind]
    simp only
    have hp : (50 : Nat) = position (exTwo k) 1 := by clear * -; revert k; decide +kernel
    rw [show (Xls.entry ⟨50, 0, 0, 0, [0x41]⟩).position = 50 from rfl, hp, hl.index 1 (by simp [exTwo])]
  have hs : ∃ s l, Xls.parseSheet ext (Xls.bookOf makeFormatter (exTwoContent k) g.subs g.pos2) 1 = .ok (some s) ∧
      firstTypes s = .ok l ∧ l.length = 14 + k.val := by
    unfold Xls.parseSheet
    rw [show (Xls.bookOf makeFormatter (exTwoContent k) g.subs g.pos2).subs = g.subs from rfl, h1]
    have : k = 2 ∨ k = 3 := by omega
    clear * - this
    rcases this with rfl | rfl
    · exact ⟨_, _, rfl, rfl, rfl⟩
    · exact ⟨_, _, rfl, rfl, rfl⟩
  obtain ⟨s, l, h3, h4, h5⟩ := hs
  exact ⟨_, n, s, l, hn, hget.trans h3, h4, h5⟩

/-- C121 is false for a sheet whose record of its size is cut off: the size is then read from the records behind it, the first of
which belong to the next sheet. These two workbooks agree in everything but sheet `B`, and `A` does not have the same number of
columns in them. -/
theorem C121_counterexample (w : World) (ext : Ext) (fn fn' : Bytes) (hf : w.files fn = .ok (exTwoFile 2))
    (hf' : w.files fn' = .ok (exTwoFile 3)) (hb : w.bufs = List.replicate 512 512) :
    (∃ recs, XlsFile w (exTwoFile 2) (exTwoContent 2) (exTwo 2) ∧ XlsFile w (exTwoFile 3) (exTwoContent 3) (exTwo 3) ∧
      SameShared (exTwoContent 2) (exTwoContent 3) ∧ StoredAs (exTwoContent 2) (exTwo 2) (lit "A") recs ∧
      StoredAs (exTwoContent 3) (exTwo 3) (lit "A") recs) ∧
    ∃ k, ∀ fuel, k ≤ fuel → ∀ t, Shipped { w with fuel := fuel } t → ∃ src src' s s' l l', openSrc t fn = .ok src ∧
      openSrc t fn' = .ok src' ∧ src.get ext (lit "A") = .ok (src, .ok (.sheet s)) ∧
      src'.get ext (lit "A") = .ok (src', .ok (.sheet s')) ∧ firstTypes s = .ok l ∧ firstTypes s' = .ok l' ∧ l.length = 16 ∧
      l'.length = 17 := by
  refine ⟨⟨_, exTwo_file w hb 2, exTwo_file w hb 3, exTwo_shared 2 3, exTwo_A 2 _ rfl, exTwo_A 3 _ rfl⟩, ?_⟩
  obtain ⟨b, n, s, l, ho, hg, ht, hl⟩ := exTwo_cut 2 (by decide) w ext fn hf hb
  obtain ⟨b', n', s', l', ho', hg', ht', hl'⟩ := exTwo_cut 3 (by decide) w ext fn' hf' hb
  refine ⟨max n n', fun fuel hfu t htt => ⟨_, _, s, s', l, l', ho fuel (by omega) t htt, ho' fuel (by omega) t htt, ?_, ?_, ht, ht',
    hl, hl'⟩⟩
  · simp only [Source.get, hg]
  · simp only [Source.get, hg']

end Grate.Props
