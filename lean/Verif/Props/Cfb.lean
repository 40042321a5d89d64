import Verif.Lemmas.CfbDoc
import Verif.Props.Stream

/-! # C35-C39: compound documents -/

namespace Grate.Props

open Cfb Spec SliceReader

/-- What a user sees who reads the stream `r` to its end: whatever the (positive) buffer sizes, the reads
never fail or return anything but the bytes `b` in order, and enough of them return all of `b`. -/
def Reads (r : SliceReader) (b : Bytes) : Prop :=
  ∀ ks : List Nat, (∀ k ∈ ks, 0 < k) →
    (∀ x, r.readAll ks = some x → x = .ok b) ∧ (b.length < ks.length → r.readAll ks = some (.ok b)) ∧
    Delivers b 0 ks (readResults r ks)

theorem reads_mk (ds : List Bytes) (n : Nat) (hne : ∀ d ∈ ds, d ≠ []) :
    Reads (SliceReader.mk' (ds ++ List.replicate n [])) ds.flatten :=
  fun ks hk => ⟨(C33_readAll ds n hne ks hk).1, (C33_readAll ds n hne ks hk).2, C33_read ds n hne ks hk⟩

/-- The text of an entry's name. -/
def text (e : Entry) : Bytes := utf8Encode (utf16Decode e.name)

theorem utf16Decode_snoc : ∀ (us : List Nat), utf16Decode (us ++ [0]) = utf16Decode us ++ [0] := by
  intro us
  induction us using utf16Decode.induct with
  | case1 => rfl
  | case2 u h => simp [utf16Decode, h]
  | case3 u h => simp [utf16Decode, h]
  | case4 u v rest h ih =>
    rw [List.cons_append, List.cons_append, utf16Decode, if_pos h, ih, utf16Decode, if_pos h, List.cons_append]
  | case5 u v rest h h2 ih =>
    rw [List.cons_append] at ih
    rw [List.cons_append, List.cons_append, utf16Decode, if_neg h, if_pos h2, ih, utf16Decode, if_neg h, if_pos h2,
      List.cons_append]
  | case6 u v rest h h2 ih =>
    rw [List.cons_append] at ih
    rw [List.cons_append, List.cons_append, utf16Decode, if_neg h, if_neg h2, ih, utf16Decode, if_neg h, if_neg h2,
      List.cons_append]

theorem toDir_string {e : Entry} (ho : e.Ok) : (toDir e).string = .ok (text e) := by
  have h1 := ho.nameLen
  unfold Dir.string toDir
  simp only
  rw [if_neg (by omega), if_neg (by omega)]
  have h2 : (2 * ((e.name.length + 1 : Nat) : Int) / 2).toNat = e.name.length + 1 := by omega
  rw [h2]
  have h3 : (e.name ++ List.replicate (32 - e.name.length) 0).take (e.name.length + 1) = e.name ++ [0] := by
    rw [List.take_append, List.take_of_length_le (by omega), List.take_replicate]
    congr 1
    rw [show min (e.name.length + 1 - e.name.length) (32 - e.name.length) = 1 by omega]
    rfl
  rw [h3, utf16Decode_snoc, if_neg (by simp), List.dropLast_concat]
  rfl

/-- Opening the entry `e`, when no stream in front of it has its name. -/
theorem openDirs_skip (d : Document) (name : Bytes) : ∀ (pre : List Dir) (post : List Dir),
    (∀ x ∈ pre, ∃ n, x.string = .ok n ∧ ¬ (n = name ∧ x.objType = 2)) →
    openDirs d name (pre ++ post) = openDirs d name post := by
  intro pre
  induction pre with
  | nil => intro post _; rfl
  | cons x pre ih =>
    intro post h
    obtain ⟨n, hn, hx⟩ := h x (by simp)
    rw [List.cons_append, openDirs, hn]
    simp only [GoRes.ok_bind]
    rw [if_neg hx]
    exact ih post (fun y hy => h y (by simp [hy]))

/-! ## C35 -/

/-- C35. For every document with any allocation table: a stream of 4096 bytes or more is opened as exactly
the first `size` bytes of the sectors `ids` of its chain, in chain order (any number of sectors in any
order). The entry is the first stream of its name. -/
theorem C35_stream (d : Document) (e : Entry) (pre post : List Dir) (ids : List Nat)
    (hdir : d.dir = pre ++ toDir e :: post) (ho : e.Ok) (ht : e.objType = 2)
    (hpre : ∀ x ∈ pre, ∃ n, x.string = .ok n ∧ ¬ (n = text e ∧ x.objType = 2))
    (hcut : d.header.cutoff = 4096) (hbig : 4096 ≤ e.size)
    (hrun : Run d.fat e.start ids)
    (hs : ∀ i ∈ ids, Regular i ∧ HasSector d.data.val d.header.sectorShift i)
    (h1 : e.size ≤ ids.length * 2 ^ d.header.sectorShift)
    (h2 : (ids.length - 1) * 2 ^ d.header.sectorShift < e.size) :
    ∃ r, openStream d (text e) = .ok r ∧
      Reads r (((ids.map (sector d.data.val d.header.sectorShift)).flatten).take e.size) := by
  obtain ⟨ds, n, hg, hne, hf⟩ := getStreamReader_run d ids e.start e.size hrun hs (by omega) h1 h2 ho.size
  refine ⟨_, ?_, hf ▸ reads_mk ds n hne⟩
  unfold openStream
  rw [hdir, openDirs_skip d _ _ _ hpre, openDirs, toDir_string ho]
  simp only [GoRes.ok_bind]
  rw [if_pos ⟨trivial, ht⟩, if_neg (show ¬ ((toDir e).size : Int) < d.header.cutoff by
    rw [hcut]; show ¬ (e.size : Int) < 4096; omega), if_pos (show (toDir e).size ≠ 0 by show e.size ≠ 0; omega)]
  exact hg

/-- The slots in front of a used one, as the code sees them. -/
theorem front_used : ∀ (us : List Slot) (e : Entry) (mid : Bytes) (post : List Slot),
    (∀ s ∈ us, ∃ x m, s = .used x m) →
    ∃ r, front (us ++ .used e mid :: post) = entries us ++ e :: r ∧ (entries us).length = us.length := by
  intro us
  induction us with
  | nil => intro e mid post _; exact ⟨_, rfl, rfl⟩
  | cons s us ih =>
    intro e mid post h
    obtain ⟨x, m, rfl⟩ := h s (by simp)
    obtain ⟨r, hr, hl⟩ := ih e mid post (fun s hs => h s (by simp [hs]))
    exact ⟨r, by simp [front, entries, hr], by simp [entries, hl]⟩

theorem entries_ok {us : List Slot} (h : ∀ s ∈ us, s.Ok) : ∀ e ∈ entries us, e.Ok := by
  induction us with
  | nil => intro e he; cases he
  | cons s us ih =>
    intro e he
    cases s with
    | used x m =>
      rcases List.mem_cons.1 he with rfl | he
      · exact (h _ List.mem_cons_self).1
      · exact ih (fun s hs => h s (List.mem_cons_of_mem _ hs)) e he
    | free b => exact ih (fun s hs => h s (List.mem_cons_of_mem _ hs)) e he

/-- Loading a document in which the entry `e` is among the first four slots, no unused slot before it. -/
theorem load_entry (data : Slice) (h : Head) (fat : List Nat) (us post : List Slot) (e : Entry) (mid : Bytes)
    (mf : List Nat) (hd : Doc data.val h fat (us ++ .used e mid :: post)) (hm : MiniLoaded data.val h mf)
    (hus : ∀ s ∈ us, ∃ x m, s = .used x m) (h4 : us.length < 4)
    (hname : ∀ x ∈ entries us, x.objType = 2 → text x ≠ text e) :
    ∃ (d : Document) (pre pst : List Dir), (∃ n, ∀ fuel, n ≤ fuel → load fuel data = some (.ok d)) ∧
      d.dir = pre ++ toDir e :: pst ∧ (∀ x ∈ pre, ∃ n, x.string = .ok n ∧ ¬ (n = text e ∧ x.objType = 2)) ∧
      d.data = data ∧ d.header = headerOf h ∧ d.fat = fat ∧ d.minifat = mf ∧
      (d.mstart, d.msize) = (rootOf ((front (us ++ .used e mid :: post)).take 4)).getD (0, 0) := by
  obtain ⟨n, hn⟩ := load_doc data h fat _ mf hd hm
  obtain ⟨r, hr, hl⟩ := front_used us e mid post hus
  have hok : ∀ x ∈ entries us, x.Ok := entries_ok (fun s hs => hd.slotsOk s (by simp [hs]))
  refine ⟨_, (entries us).map toDir, (r.take (3 - us.length)).map toDir, ⟨n, hn⟩, ?_, ?_, rfl, rfl, rfl, rfl, rfl⟩
  · simp only
    rw [hr, List.take_append, List.take_of_length_le (by omega), hl,
      show 4 - us.length = (3 - us.length) + 1 by omega, List.take_succ_cons]
    simp
  · intro x hx
    obtain ⟨y, hy, rfl⟩ := List.mem_map.1 hx
    refine ⟨text y, toDir_string (hok y hy), ?_⟩
    rintro ⟨h1, h2⟩
    exact hname y hy h2 h1

/-- C35, from the bytes of the file: a version 3 document whose stream entry is among the first four
directory slots and whose mini FAT has at most 128 sectors; the chain is the one of the allocation table
stored in the file. -/
theorem C35_file (data : Slice) (h : Head) (fat : List Nat) (us post : List Slot) (e : Entry) (mid : Bytes)
    (mf ids : List Nat) (hd : Doc data.val h fat (us ++ .used e mid :: post)) (hm : MiniLoaded data.val h mf)
    (hus : ∀ s ∈ us, ∃ x m, s = .used x m) (h4 : us.length < 4)
    (hname : ∀ x ∈ entries us, x.objType = 2 → text x ≠ text e) (ht : e.objType = 2)
    (hbig : 4096 ≤ e.size) (hrun : Run fat e.start ids)
    (hs : ∀ i ∈ ids, Regular i ∧ HasSector data.val 9 i)
    (h1 : e.size ≤ ids.length * 512) (h2 : (ids.length - 1) * 512 < e.size) :
    ∃ d r, (∃ n, ∀ fuel, n ≤ fuel → load fuel data = some (.ok d)) ∧ openStream d (text e) = .ok r ∧
      Reads r (((ids.map (sector data.val 9)).flatten).take e.size) := by
  obtain ⟨d, pre, pst, hl, hdir, hpre, hdata, hhead, hfat, _, _⟩ := load_entry data h fat us post e mid mf hd hm hus h4 hname
  have ho : e.Ok := (hd.slotsOk (.used e mid) (by simp)).1
  have hsh : d.header.sectorShift = 9 := by rw [hhead]; rfl
  obtain ⟨r, hr, hrd⟩ := C35_stream d e pre pst ids hdir ho ht hpre (by rw [hhead]; rfl) hbig (by rw [hfat]; exact hrun)
    (by rw [hdata, hsh]; exact hs) (by rw [hsh]; exact h1) (by rw [hsh]; exact h2)
  rw [hdata, hsh] at hrd
  exact ⟨d, r, hl, hr, hrd⟩

/-! ## C36 -/

/-- C36. For every document with any tables: a stream below 4096 bytes is opened as exactly the first
`size` bytes of its 64-byte mini sectors `mids`, in chain order, taken from the mini stream `M` formed by
the chain `fids` of the root entry. -/
theorem C36_mini (d : Document) (e : Entry) (pre post : List Dir) (fids mids : List Nat) (M : Bytes)
    (hdir : d.dir = pre ++ toDir e :: post) (ho : e.Ok) (ht : e.objType = 2)
    (hpre : ∀ x ∈ pre, ∃ n, x.string = .ok n ∧ ¬ (n = text e ∧ x.objType = 2))
    (hcut : d.header.cutoff = 4096) (hsmall : e.size < 4096)
    (hms : d.header.miniSectorShift = 6) (h6 : 6 ≤ d.header.sectorShift)
    (hf : Chain d.fat d.mstart fids)
    (hfid : ∀ i ∈ fids, Regular i ∧ HasSector d.data.val d.header.sectorShift i)
    (hfl : fids.length ≤ 1 + d.msize / 2 ^ d.header.sectorShift)
    (hM : M = (fids.map (sector d.data.val d.header.sectorShift)).flatten)
    (hmc : Chain d.minifat e.start mids) (hml : mids.length ≤ 1 + e.size / 64)
    (hmid : ∀ i ∈ mids, Regular i ∧ (i + 1) * 64 ≤ M.length) :
    ∃ r, openStream d (text e) = .ok r ∧ Reads r (((mids.map (miniSector M)).flatten).take e.size) := by
  obtain ⟨ds, n, hg, hne, hfl⟩ := getMiniStreamReader_chain d hms h6 fids mids e.start e.size hf hfid hfl hmc hml M hM hmid
  refine ⟨_, ?_, hfl ▸ reads_mk ds n hne⟩
  unfold openStream
  rw [hdir, openDirs_skip d _ _ _ hpre, openDirs, toDir_string ho]
  simp only [GoRes.ok_bind]
  rw [if_pos ⟨trivial, ht⟩, if_pos (show ((toDir e).size : Int) < d.header.cutoff by
    rw [hcut]; show (e.size : Int) < 4096; omega)]
  exact hg

theorem rootOf_none : ∀ (es : List Entry), (∀ e ∈ es, e.objType ≠ 5) → rootOf es = none := by
  intro es
  induction es with
  | nil => intro _; rfl
  | cons e es ih =>
    intro h
    rw [rootOf, ih (fun x hx => h x (by simp [hx]))]
    simp only
    rw [if_neg (h e (by simp))]

theorem front_subset : ∀ (s : List Slot), ∀ e ∈ front s, e ∈ entries s := by
  intro s
  induction s with
  | nil => intro e he; cases he
  | cons x s ih =>
    intro e he
    cases x with
    | used y m =>
      rcases List.mem_cons.1 he with rfl | he
      · exact List.mem_cons_self
      · exact List.mem_cons_of_mem _ (ih e he)
    | free b => cases he

/-- C36, from the bytes of the file, for a mini FAT held in one sector (mini sector numbers below 128): the
mini stream is the chain of the root entry, the mini FAT is the sector named by the header. -/
theorem C36_file_partial (data : Slice) (h : Head) (fat : List Nat) (root : Entry) (rmid : Bytes)
    (us post : List Slot) (e : Entry) (mid : Bytes) (fids mids : List Nat) (M : Bytes)
    (hd : Doc data.val h fat (.used root rmid :: us ++ .used e mid :: post))
    (hmr : Regular h.firstMiniFAT) (hms : HasSector data.val 9 h.firstMiniFAT) (hmn : h.numMiniFAT ≤ 128)
    (hus : ∀ s ∈ us, ∃ x m, s = .used x m) (h4 : us.length < 3)
    (hname : ∀ x ∈ entries us, x.objType = 2 → text x ≠ text e) (ht : e.objType = 2)
    (hsmall : e.size < 4096)
    (hf : Chain fat root.start fids) (hfid : ∀ i ∈ fids, Regular i ∧ HasSector data.val 9 i)
    (hfl : fids.length ≤ 1 + root.size / 512)
    (hM : M = (fids.map (sector data.val 9)).flatten)
    (hmc : Chain (words (sector data.val 9 h.firstMiniFAT)) e.start mids) (hml : mids.length ≤ 1 + e.size / 64)
    (hmid : ∀ i ∈ mids, Regular i ∧ (i + 1) * 64 ≤ M.length) :
    ∃ d r, (∃ n, ∀ fuel, n ≤ fuel → load fuel data = some (.ok d)) ∧ openStream d (text e) = .ok r ∧
      Reads r (((mids.map (miniSector M)).flatten).take e.size) := by
  have hroot5 : root.objType = 5 ∧ ∀ x ∈ entries (us ++ .used e mid :: post), x.objType ≠ 5 := by
    obtain ⟨e', m', s', hs, h5, hrest⟩ := hd.root
    rw [List.cons_append] at hs
    injection hs with h1 h2
    injection h1 with h1 _
    subst h1 h2
    exact ⟨h5, hrest⟩
  obtain ⟨d, pre, pst, hl, hdir, hpre, hdata, hhead, hfat, hmf, hmini⟩ :=
    load_entry data h fat (.used root rmid :: us) post e mid _ hd (.one hmr hms hmn)
    (by
      intro s hs
      rcases List.mem_cons.1 hs with rfl | hs
      · exact ⟨_, _, rfl⟩
      · exact hus s hs)
    (by simp; omega)
    (by
      intro x hx h2
      rcases List.mem_cons.1 hx with rfl | hx
      · omega
      · exact hname x hx h2)
  have ho : e.Ok := (hd.slotsOk (.used e mid) (by simp)).1
  have hro : root.Ok := (hd.slotsOk (.used root rmid) (by simp)).1
  have hsh : d.header.sectorShift = 9 := by rw [hhead]; rfl
  have hr : rootOf ((front (.used root rmid :: us ++ .used e mid :: post)).take 4) = some (root.start, root.size) := by
    rw [List.cons_append, front, List.take_succ_cons, rootOf, rootOf_none _ (fun x hx =>
      hroot5.2 x (front_subset _ _ (List.mem_of_mem_take hx)))]
    simp only
    rw [if_pos hroot5.1, Nat.mod_eq_of_lt hro.size]
  rw [hr] at hmini
  injection hmini with hst hsz
  obtain ⟨r, hr, hrd⟩ := C36_mini d e pre pst fids mids M hdir ho ht hpre (by rw [hhead]; rfl) hsmall
    (by rw [hhead]; rfl) (by rw [hsh]; omega) (by rw [hfat, hst]; exact hf) (by rw [hdata, hsh]; exact hfid)
    (by rw [hsz, hsh]; exact hfl) (by rw [hdata, hsh]; exact hM) (by rw [hmf]; exact hmc) hml hmid
  exact ⟨d, r, hl, hr, hrd⟩

/-! ## A concrete document

Sector 0: FAT; 1: directory; 2: mini FAT; 3: mini stream; 4-12: the stream `A` in the order 4, 6, 5, 7-12. -/

/-- The header of the example. -/
def exHead : Head :=
  { minor := 62, numFAT := 1, firstDir := 1, trans := 0, firstMiniFAT := 2, numMiniFAT := 1,
    firstDIFAT := 0xFFFFFFFE, numDIFAT := 0, fatSectors := [0] }

/-- Its FAT sector. -/
def exFat : List Nat :=
  [0xFFFFFFFD, 0xFFFFFFFE, 0xFFFFFFFE, 0xFFFFFFFE, 6, 7, 5, 8, 9, 10, 11, 12, 0xFFFFFFFE] ++
    List.replicate 115 0xFFFFFFFF

/-- The root entry. -/
def exRoot : Entry := { name := [82], objType := 5, start := 3, size := 512 }
/-- A stream of 4100 bytes. -/
def exA : Entry := { name := [65], objType := 2, start := 4, size := 4100 }
/-- A stream of 100 bytes. -/
def exB : Entry := { name := [66], objType := 2, start := 1, size := 100 }
/-- The unused bytes of an entry. -/
def exMid : Bytes := List.replicate 49 0
/-- An unused slot. -/
def exFree : Slot := .free (List.replicate 128 0)

/-- The directory of the example. -/
def exSlots : List Slot := [.used exRoot exMid, .used exA exMid, .used exB exMid, exFree]

/-- The example document. -/
def exFile : Bytes :=
  exHead.bytes ++ (exFat.flatMap (leBytes 4) ++ (exSlots.flatMap Slot.bytes ++
    (([0xFFFFFFFE, 0] ++ List.replicate 126 0xFFFFFFFF).flatMap (leBytes 4) ++
    ((List.range 8).flatMap (fun i => List.replicate 64 (UInt8.ofNat i)) ++
    (List.range 9).flatMap (fun i => List.replicate 512 (UInt8.ofNat (100 + i)))))))

theorem exEntry_ok : exRoot.Ok ∧ exA.Ok ∧ exB.Ok := by
  refine ⟨⟨?_, ?_, ?_, ?_, ?_⟩, ⟨?_, ?_, ?_, ?_, ?_⟩, ⟨?_, ?_, ?_, ?_, ?_⟩⟩ <;> decide

theorem exDoc : Doc exFile exHead (table exFile 9 [0]) exSlots where
  header := ⟨_, rfl⟩
  numFAT := by decide
  firstDir := by decide
  firstMiniFAT := by decide
  numMiniFAT := by decide
  firstDIFAT := by decide
  numDIFAT := by decide
  headFAT := by decide
  table := ⟨[], Or.inr ⟨rfl, rfl⟩, by
    intro i hi
    have : i = 0 := by simpa [exHead] using hi
    subst this
    exact ⟨by unfold Regular; decide, by unfold HasSector; decide +kernel⟩, rfl⟩
  dir := ⟨[1], .cons 1 0xFFFFFFFE [] (by decide +kernel) .done, by
    intro i hi
    have : i = 1 := by simpa using hi
    subst this
    exact ⟨by unfold Regular; decide, by unfold HasSector; decide +kernel⟩, by decide +kernel⟩
  slotsOk := by
    intro s hs
    obtain ⟨h1, h2, h3⟩ := exEntry_ok
    simp only [exSlots, List.mem_cons, List.not_mem_nil, or_false] at hs
    rcases hs with rfl | rfl | rfl | rfl
    · exact ⟨h1, by decide⟩
    · exact ⟨h2, by decide⟩
    · exact ⟨h3, by decide⟩
    · exact ⟨by decide, by decide⟩
  root := ⟨exRoot, exMid, _, rfl, rfl, by decide⟩

theorem exMini : Regular exHead.firstMiniFAT ∧ HasSector exFile 9 exHead.firstMiniFAT :=
  ⟨by unfold Regular; decide, by unfold HasSector; decide +kernel⟩

/-- C35: the example meets the hypotheses. -/
theorem C35_witness : ∃ d r, (∃ n, ∀ fuel, n ≤ fuel → load fuel ⟨exFile, []⟩ = some (.ok d)) ∧
    openStream d (lit "A") = .ok r ∧
    Reads r (((([4, 6, 5, 7, 8, 9, 10, 11, 12] : List Nat).map (sector exFile 9)).flatten).take 4100) := by
  have h := C35_file ⟨exFile, []⟩ exHead (table exFile 9 [0]) [.used exRoot exMid] [.used exB exMid, exFree] exA exMid
    (words (sector exFile 9 2)) [4, 6, 5, 7, 8, 9, 10, 11, 12] exDoc (.one exMini.1 exMini.2 (by decide))
    (by simp) (by decide) (by decide) rfl (by decide)
    (by
      refine .cons _ 6 _ (by decide +kernel) (.cons _ 5 _ (by decide +kernel) (.cons _ 7 _ (by decide +kernel)
        (.cons _ 8 _ (by decide +kernel) (.cons _ 9 _ (by decide +kernel) (.cons _ 10 _ (by decide +kernel)
        (.cons _ 11 _ (by decide +kernel) (.cons _ 12 _ (by decide +kernel) (.one _)))))))))
    (by
      intro i hi
      have : i ≤ 12 := by revert i; decide
      have hl : exFile.length = 7168 := by decide +kernel
      refine ⟨by unfold Regular; omega, ?_⟩
      unfold HasSector
      simp only
      rw [hl]
      omega) (by decide) (by decide)
  exact h

/-- C36: the example meets the hypotheses (the mini chain 1, 0). -/
theorem C36_witness : ∃ d r, (∃ n, ∀ fuel, n ≤ fuel → load fuel ⟨exFile, []⟩ = some (.ok d)) ∧
    openStream d (lit "B") = .ok r ∧ Reads r (List.replicate 64 1 ++ List.replicate 36 0) := by
  have h := C36_file_partial ⟨exFile, []⟩ exHead (table exFile 9 [0]) exRoot exMid [.used exA exMid] [exFree] exB exMid
    [3] [1, 0] (sector exFile 9 3) exDoc exMini.1 exMini.2 (by decide)
    (by simp) (by decide) (by decide) rfl (by decide)
    (.cons _ 0xFFFFFFFE _ (by decide +kernel) .done)
    (by
      intro i hi
      have : i = 3 := by simpa using hi
      subst this
      exact ⟨by unfold Regular; decide, by unfold HasSector; decide +kernel⟩) (by decide) (by simp)
    (.cons _ 0 _ (by decide +kernel) (.cons _ 0xFFFFFFFE _ (by decide +kernel) .done)) (by decide)
    (by
      intro i hi
      have hl : (sector exFile 9 3).length = 512 := by decide +kernel
      have : i ≤ 1 := by revert i; decide
      refine ⟨by unfold Regular; omega, by omega⟩)
  have e : (((([1, 0] : List Nat).map (miniSector (sector exFile 9 3))).flatten).take exB.size) =
      List.replicate 64 1 ++ List.replicate 36 0 := by decide +kernel
  rw [e] at h
  exact h

/-! ## C36 fails beyond the first sector of the mini FAT -/

/-- A document with two mini FAT sectors (2 and 3) and a mini stream of 17 sectors (4-20). -/
def ex2Head : Head := { exHead with numMiniFAT := 2 }
/-- Its FAT. -/
def ex2Fat : List Nat :=
  [0xFFFFFFFD, 0xFFFFFFFE, 3, 0xFFFFFFFE] ++ (List.range 16).map (· + 5) ++ [0xFFFFFFFE] ++
    List.replicate 107 0xFFFFFFFF
/-- Its root entry. -/
def ex2Root : Entry := { name := [82], objType := 5, start := 4, size := 8704 }
/-- A stream of 64 bytes in mini sector 128. -/
def ex2B : Entry := { name := [66], objType := 2, start := 128, size := 64 }
/-- Its directory. -/
def ex2Slots : List Slot := [.used ex2Root exMid, .used ex2B exMid, exFree, exFree]
/-- The document. -/
def ex2File : Bytes :=
  ex2Head.bytes ++ (ex2Fat.flatMap (leBytes 4) ++ (ex2Slots.flatMap Slot.bytes ++
    ((List.replicate 128 0xFFFFFFFF ++ [0xFFFFFFFE] ++ List.replicate 127 0xFFFFFFFF).flatMap (leBytes 4) ++
      List.replicate 8704 7)))

theorem ex2File_length : ex2File.length = 11264 := by decide +kernel

theorem ex2Doc : Doc ex2File ex2Head (table ex2File 9 [0]) ex2Slots where
  header := ⟨_, rfl⟩
  numFAT := by decide
  firstDir := by decide
  firstMiniFAT := by decide
  numMiniFAT := by decide
  firstDIFAT := by decide
  numDIFAT := by decide
  headFAT := by decide
  table := ⟨[], Or.inr ⟨rfl, rfl⟩, by
    intro i hi
    have : i = 0 := by simpa [exHead, ex2Head] using hi
    subst this
    exact ⟨by unfold Regular; decide, by unfold HasSector; rw [ex2File_length]; decide⟩, rfl⟩
  dir := ⟨[1], .cons 1 0xFFFFFFFE [] (by decide +kernel) .done, by
    intro i hi
    have : i = 1 := by simpa using hi
    subst this
    exact ⟨by unfold Regular; decide, by unfold HasSector; rw [ex2File_length]; decide⟩, by decide +kernel⟩
  slotsOk := by
    intro s hs
    simp only [ex2Slots, List.mem_cons, List.not_mem_nil, or_false] at hs
    rcases hs with rfl | rfl | rfl | rfl
    · exact ⟨⟨by decide, by decide, by decide, by decide, by decide⟩, by decide⟩
    · exact ⟨⟨by decide, by decide, by decide, by decide, by decide⟩, by decide⟩
    · exact ⟨by decide, by decide⟩
    · exact ⟨by decide, by decide⟩
  root := ⟨ex2Root, exMid, _, rfl, rfl, by decide⟩

/-- C36 is false of the code when the mini FAT has more than one sector (mini streams above 8 KB): the
document below is well-formed, its mini FAT is the chain 2, 3 with 256 entries, the stream `B` is the single
mini sector 128, and the document loads, but opening the stream panics. -/
theorem C36_counterexample : ∃ (fat mfat : List Nat) (d : Document), Doc ex2File ex2Head fat ex2Slots ∧
    Chain fat ex2Head.firstMiniFAT [2, 3] ∧ mfat = table ex2File 9 [2, 3] ∧ mfat.length = 256 ∧
    Chain mfat ex2B.start [128] ∧ Chain fat ex2Root.start ((List.range 17).map (· + 4)) ∧
    (∃ n, ∀ fuel, n ≤ fuel → load fuel ⟨ex2File, []⟩ = some (.ok d)) ∧
    openStream d (text ex2B) = .panic := by
  obtain ⟨d, pre, pst, hl, hdir, hpre, hdata, hhead, hfat, hmf, hmini⟩ :=
    load_entry ⟨ex2File, []⟩ ex2Head (table ex2File 9 [0]) [.used ex2Root exMid] [exFree, exFree] ex2B exMid _ ex2Doc
    (.one (by unfold Regular; decide) (by unfold HasSector; simp only; rw [ex2File_length]; decide) (by decide))
    (by simp) (by decide) (by decide)
  have hch : Chain (table ex2File 9 [0]) ex2Root.start ((List.range 17).map (· + 4)) := by
    have h1 : table ex2File 9 [0] = ex2Fat := by decide +kernel
    rw [h1]
    have key : ∀ k, k ≤ 16 → Chain ex2Fat (k + 4) ((List.range (17 - k)).map (· + (k + 4))) := by
      intro k
      induction hn : 16 - k generalizing k with
      | zero =>
        intro hk
        have : k = 16 := by omega
        subst this
        exact .cons _ 0xFFFFFFFE _ (by decide) .done
      | succ n ih =>
        intro hk
        have h2 := ih (k + 1) (by omega) (by omega)
        have h3 : (List.range (17 - k)).map (· + (k + 4)) = (k + 4) ::
            (List.range (17 - (k + 1))).map (· + (k + 1 + 4)) := by
          rw [show 17 - k = (17 - (k + 1)) + 1 by omega, List.range_succ_eq_map, List.map_cons, List.map_map]
          rw [Nat.zero_add]
          refine List.cons_eq_cons.2 ⟨rfl, ?_⟩
          apply List.map_congr_left
          intro a _
          show a + 1 + (k + 4) = _
          omega
        rw [h3]
        refine .cons _ (k + 1 + 4) _ ?_ h2
        have hall : ∀ k : Fin 16, ex2Fat[k.val + 4]? = some (k.val + 1 + 4) := by decide
        exact hall ⟨k, by omega⟩
    exact key 0 (by omega)
  refine ⟨table ex2File 9 [0], table ex2File 9 [2, 3], d, ex2Doc,
    .cons _ 3 _ (by decide +kernel) (.cons _ 0xFFFFFFFE _ (by decide +kernel) .done), rfl, by decide +kernel,
    .cons _ 0xFFFFFFFE _ (by decide +kernel) .done, hch, hl, ?_⟩
  have hsh : d.header.sectorShift = 9 := by rw [hhead]; rfl
  have hms : d.header.miniSectorShift = 6 := by rw [hhead]; rfl
  have hst : d.mstart = 4 ∧ d.msize = 8704 := by
    have : rootOf ((front ([.used ex2Root exMid] ++ .used ex2B exMid :: [exFree, exFree])).take 4) = some (4, 8704) := by
      decide
    rw [this] at hmini
    injection hmini with h1 h2
    exact ⟨h1, h2⟩
  have hfids : ∀ i ∈ ((List.range 17).map (· + 4)), Regular i ∧ HasSector d.data.val d.header.sectorShift i := by
    intro i hi
    obtain ⟨k, hk, rfl⟩ := List.mem_map.1 hi
    rw [List.mem_range] at hk
    rw [hdata, hsh]
    refine ⟨by unfold Regular; omega, ?_⟩
    unfold HasSector
    simp only
    rw [ex2File_length]
    omega
  obtain ⟨fs, hfs, hfsl, hget⟩ := miniSectors_chain d ((List.range 17).map (· + 4)) d.mstart d.msize
    (1 + d.msize / 2 ^ d.header.sectorShift) (by rw [hfat, hst.1]; exact hch) hfids (by rw [hst.2, hsh]; decide)
  obtain ⟨sl, hsl, hfull⟩ := hget 16 20 (by decide)
  unfold openStream
  have ho : ex2B.Ok := (ex2Doc.slotsOk (.used ex2B exMid) (by simp [ex2Slots])).1
  rw [hdir, openDirs_skip d _ _ _ hpre, openDirs, toDir_string ho]
  simp only [GoRes.ok_bind]
  rw [if_pos ⟨trivial, rfl⟩, if_pos (show ((toDir ex2B).size : Int) < d.header.cutoff by rw [hhead]; decide)]
  unfold getMiniStreamReader
  simp only [hfs, GoRes.ok_bind]
  have hloop : miniStreamLoop d (fs ++ List.replicate (1 + d.msize / 2 ^ d.header.sectorShift - fs.length) ⟨[], []⟩)
      (1 + (toDir ex2B).size / 2 ^ d.header.miniSectorShift) (toDir ex2B).start (toDir ex2B).size = .panic := by
    rw [show (toDir ex2B).start = 128 from rfl, show (toDir ex2B).size = 64 from rfl, hms,
      show 1 + 64 / 2 ^ 6 = 2 from rfl, hst.2, hsh, hfsl]
    rw [show 1 + 8704 / 2 ^ 9 - (List.map (fun x => x + 4) (List.range 17)).length = 1 from rfl]
    unfold miniStreamLoop
    rw [if_neg (by decide), hsh, hms]
    simp only
    rw [show 128 * 2 ^ 6 / 2 ^ 9 = 16 from rfl, List.getElem?_append_left (by rw [hfsl]; decide), hsl]
    simp only
    have hflen : (full sl).length = 512 := by
      rw [hfull, hdata, hsh]
      unfold full
      rw [List.length_drop, List.length_append, ex2File_length]
      decide
    rw [show 128 * 2 ^ 6 % 2 ^ 9 = 0 from rfl, sub_eq sl (by omega) (by omega)]
    simp only [GoRes.ok_bind]
    have hnone : d.minifat[128]? = none := by
      rw [hmf]
      apply List.getElem?_eq_none
      decide +kernel
    rw [hnone]
  rw [hloop]
  rfl

/-! ## C37 -/

/-- The pointer at the end of every DIFAT sector is followed; a chain that reaches the end-of-chain mark
(`DifatEnds`), or no chain at all, is all that loading needs to terminate: every byte string, any fuel from
some number on. Missing from the full claim: cyclic DIFAT chains (`C37_counterexample`) and panics
(`C37_panic_counterexample`). -/
theorem C37_terminates_partial (data : Slice)
    (h : (parseHeader data.val).numDIFAT ≤ 0 ∨
      ∃ n, DifatEnds data.val (parseHeader data.val).sectorShift (parseHeader data.val).firstDIFAT n) :
    ∃ n, ∀ fuel, n ≤ fuel → load fuel data ≠ none := by
  have hdl : ∃ n, ∀ fuel, n ≤ fuel → (if 0 < (parseHeader data.val).numDIFAT then
      difatLoop data (parseHeader data.val).sectorShift fuel (parseHeader data.val).firstDIFAT
      else some (.ok [])) ≠ none := by
    rcases h with h | ⟨n, h⟩
    · exact ⟨0, fun fuel _ => by rw [if_neg (by omega)]; simp⟩
    · refine ⟨n + 1, fun fuel hf => ?_⟩
      split
      · exact difat_total data _ n _ fuel h (by omega)
      · simp
  obtain ⟨n, hn⟩ := hdl
  refine ⟨n + (parseHeader data.val).numMiniFAT.toNat + 2, fun fuel hf => ?_⟩
  have h1 := hn fuel (by omega)
  have h2 : minifatLoop data (parseHeader data.val).sectorShift (parseHeader data.val).numMiniFAT fuel
      (parseHeader data.val).firstMiniFAT [] ≠ none := by
    apply minifat_total _ _ _ _ _ _ (by omega)
    left
    have hp : (1 : Int) ≤ 2 ^ ((parseHeader data.val).sectorShift - 2) := by
      have := Nat.two_pow_pos ((parseHeader data.val).sectorShift - 2)
      exact_mod_cast this
    have hm : (fuel : Int) * 1 ≤ fuel * 2 ^ ((parseHeader data.val).sectorShift - 2) :=
      Int.mul_le_mul_of_nonneg_left hp (by omega)
    simp only [List.length_nil]
    omega
  unfold load
  simp only
  split
  · simp
  split
  · simp
  split
  · simp
  · simp
  split
  · rename_i heq
    exact absurd heq h1
  · simp
  · simp
  split
  · rename_i heq
    exact absurd heq h2
  · simp
  · simp
  · simp

/-- A header that announces one DIFAT sector (0), and that sector: it lists nothing and points to itself. -/
def cycHead : Head :=
  { minor := 62, numFAT := 0, firstDir := 0, trans := 0, firstMiniFAT := 0xFFFFFFFE, numMiniFAT := 0,
    firstDIFAT := 0, numDIFAT := 1, fatSectors := [] }
/-- The file. -/
def cycFile : Bytes := cycHead.bytes ++ (List.replicate 508 0xFF ++ List.replicate 4 0)

theorem cycHead_ok : HeadOk cycHead :=
  ⟨by decide, by decide, by decide, by decide, by decide, by decide, by decide, fun i hi => by cases hi⟩

/-- C37 is false of the code: loading this file of 1024 bytes never ends, whatever the fuel. -/
theorem C37_counterexample : ∀ fuel, load fuel ⟨cycFile, []⟩ = none := by
  intro fuel
  have hloop : ∀ fuel, difatLoop ⟨cycFile, []⟩ 9 fuel 0 = none := by
    intro fuel
    induction fuel with
    | zero => rfl
    | succ fuel ih =>
      unfold difatLoop
      rw [if_neg (by decide)]
      have hs := loadDifatSector_eq ⟨cycFile, []⟩ 127 ⟨cycFile.drop 512, []⟩ (by decide +kernel) (by
        have : (words ((cycFile.drop 512).take (4 * 127))).filter (fun i => i ≠ 0xFFFFFFFF ∧ i ≠ 0xFFFFFFFE) = [] := by
          decide +kernel
        simp only
        rw [this]
        intro i hi
        cases hi)
      have hdf : (⟨cycFile, []⟩ : Slice).dropFrom (secOff 9 0) = .ok ⟨cycFile.drop 512, []⟩ := by
        unfold Slice.dropFrom
        rw [if_pos (by decide +kernel)]
        rfl
      have hu : (⟨(cycFile.drop 512).drop (4 * 127), []⟩ : Slice).u32 = .ok 0 := by
        have : (cycFile.drop 512).drop (4 * 127) = [0, 0, 0, 0] := by decide +kernel
        rw [this]
        rfl
      rw [hdf]
      simp only [GoRes.ok_bind, show 2 ^ (9 - 2) - 1 = 127 from rfl, hs, hu, GoRes.pure_eq, ih]
      rfl
  unfold load
  simp only
  have hp : parseHeader cycFile = headerOf cycHead := parseHeader_head cycHead cycHead_ok _
  rw [hp, headerErr_head]
  simp only
  rw [if_neg (by decide)]
  have hh : loadHeaderDifat ⟨cycFile, []⟩ (headerOf cycHead).sectorShift (headerOf cycHead).difat = .ok [] :=
    loadHeaderDifat_eq _ (shift := 9) (by omega) [] 109 (by simp)
  rw [hh]
  simp only
  rw [if_pos (by decide), show (headerOf cycHead).sectorShift = 9 from rfl, show (headerOf cycHead).firstDIFAT = 0 from rfl,
    hloop]

/-- The same header without DIFAT, with one FAT sector that the file does not hold completely. -/
def cutFile : Bytes := { cycHead with numDIFAT := 0, fatSectors := [0] }.bytes ++ List.replicate 100 0

/-- C37: loading can also panic instead of returning an error. -/
theorem C37_panic_counterexample : ∀ fuel, load fuel ⟨cutFile, []⟩ = some .panic := by
  intro fuel
  unfold load
  simp only
  have hp : parseHeader cutFile = headerOf { cycHead with numDIFAT := 0, fatSectors := [0] } :=
    parseHeader_head _ ⟨by decide, by decide, by decide, by decide, by decide, by decide, by decide,
      by intro i hi; have : i = 0 := by simpa using hi
         subst this; unfold Regular; decide⟩ _
  rw [hp, headerErr_head]
  simp only
  rw [if_neg (by decide)]
  have hh : readFatSector ⟨cutFile, []⟩ 9 0 = .panic := by
    have : ∀ x : GoRes (List Nat), (match x with | .panic => true | _ => false) = true → x = .panic := by
      intro x hx; cases x <;> simp_all
    apply this
    decide +kernel
  have hh2 : loadHeaderDifat ⟨cutFile, []⟩ (headerOf { cycHead with numDIFAT := 0, fatSectors := [0] }).sectorShift
      (headerOf { cycHead with numDIFAT := 0, fatSectors := [0] }).difat = .panic := by
    show loadHeaderDifat ⟨cutFile, []⟩ 9 (0 :: List.replicate 108 0xFFFFFFFF) = _
    rw [loadHeaderDifat, if_neg (by decide), hh]
    rfl
  rw [hh2]

/-- C37: the example document meets the hypothesis of the partial theorem. -/
theorem C37_witness : (parseHeader exFile).numDIFAT ≤ 0 := by
  have hp : parseHeader exFile = headerOf exHead := parseHeader_head exHead (doc_headOk exDoc) _
  rw [hp]
  decide

/-! ## C38 -/

theorem leNat_inj : ∀ (a b : Bytes), a.length = b.length → leNat a = leNat b → a = b := by
  intro a
  induction a with
  | nil => intro b h _; exact (List.length_eq_zero_iff.1 h.symm).symm
  | cons x a ih =>
    intro b h he
    cases b with
    | nil => simp at h
    | cons y b =>
      simp only [leNat] at he
      have hx := x.toNat_lt
      have hy := y.toNat_lt
      have h1 : x.toNat = y.toNat := by omega
      rw [UInt8.toNat_inj.1 h1, ih b (by simpa using h) (by omega)]

/-- C38. A file that does not start with the compound-document signature, or that is too short for a
header, is answered with ErrNotInFormat (every byte string). -/
theorem C38_declined (fuel : Nat) (data : Slice) (h : ¬ signature <+: data.val ∨ data.val.length < 512) :
    load fuel data = some (.err .notInFormat) := by
  have hs : (parseHeader data.val).signature ≠ 0xe11ab1a1e011cfd0 := by
    unfold parseHeader
    simp only
    split
    · decide
    · rename_i hlen
      rcases h with h | h
      · intro he
        apply h
        have h8 : ((data.val.drop 0).take 8) = signature := by
          apply leNat_inj
          · rw [List.length_take, List.length_drop]
            show _ = 8
            omega
          · exact he
        rw [List.drop_zero] at h8
        rw [← h8]
        exact List.take_prefix _ _
      · exact absurd h hlen
  unfold load headerErr
  simp only
  rw [if_pos hs]

/-- C38: both kinds of files exist, and the example document is not one of them. -/
theorem C38_witness : ¬ signature <+: lit "a,b,c" ∧ signature <+: exFile ∧ ¬ exFile.length < 512 := by
  refine ⟨by decide, ⟨exFile.drop 8, ?_⟩, by decide +kernel⟩
  · have : exFile.take 8 = signature := by decide +kernel
    rw [← this, List.take_append_drop]

/-! ## C39 -/

theorem listStreams_eq : ∀ (es : List Entry), (∀ e ∈ es, e.Ok) →
    listStreams (es.map toDir) = .ok ((streams es).map text) := by
  intro es
  induction es with
  | nil => intro _; rfl
  | cons e es ih =>
    intro h
    rw [List.map_cons, listStreams]
    have h2 := ih (fun x hx => h x (by simp [hx]))
    by_cases ht : e.objType = 2
    · rw [if_pos (show (toDir e).objType = 2 from ht), toDir_string (h e (by simp)), h2]
      simp [streams, ht]
    · rw [if_neg (show ¬ (toDir e).objType = 2 from ht), h2]
      simp [streams, ht]

theorem front_all : ∀ (us fs : List Slot), (∀ s ∈ us, ∃ x m, s = .used x m) → (∀ s ∈ fs, ∃ b, s = .free b) →
    front (us ++ fs) = entries us ∧ entries (us ++ fs) = entries us ∧ (entries us).length = us.length := by
  intro us
  induction us with
  | nil =>
    intro fs _ hf
    refine ⟨?_, ?_, rfl⟩
    · cases fs with
      | nil => rfl
      | cons s fs => obtain ⟨b, rfl⟩ := hf s (by simp); rfl
    · induction fs with
      | nil => rfl
      | cons s fs ih =>
        obtain ⟨b, rfl⟩ := hf s (by simp)
        exact ih (fun s hs => hf s (by simp [hs]))
  | cons s us ih =>
    intro fs hu hf
    obtain ⟨x, m, rfl⟩ := hu s (by simp)
    obtain ⟨h1, h2, h3⟩ := ih fs (fun s hs => hu s (by simp [hs])) hf
    exact ⟨by simp [front, entries, h1], by simp [entries, h2], by simp [entries, h3]⟩

/-- C39 for directories of up to four entries without gaps: every stream of the directory is listed, in
order. (That each can be opened by its name is `C35_file` and `C36_file_partial`.) Missing: larger directories and
directories with unused slots in front of used ones, for which the claim is false (`C39_counterexample`). -/
theorem C39_list_partial (data : Slice) (h : Head) (fat : List Nat) (us fs : List Slot) (mf : List Nat)
    (hd : Doc data.val h fat (us ++ fs)) (hm : MiniLoaded data.val h mf)
    (hus : ∀ s ∈ us, ∃ x m, s = .used x m) (hfs : ∀ s ∈ fs, ∃ b, s = .free b) (h4 : us.length ≤ 4) :
    ∃ d, (∃ n, ∀ fuel, n ≤ fuel → load fuel data = some (.ok d)) ∧
      listStreams d.dir = .ok ((streams (entries (us ++ fs))).map text) := by
  obtain ⟨n, hn⟩ := load_doc data h fat _ mf hd hm
  obtain ⟨h1, h2, h3⟩ := front_all us fs hus hfs
  refine ⟨_, ⟨n, hn⟩, ?_⟩
  simp only
  rw [h1, h2, List.take_of_length_le (by omega)]
  exact listStreams_eq _ (entries_ok (fun s hs => hd.slotsOk s (by simp [hs])))

theorem openDirs_absent (d : Document) (name : Bytes) (es : List Entry) (hok : ∀ e ∈ es, e.Ok)
    (h : ∀ e ∈ es, ¬ (text e = name ∧ e.objType = 2)) : openDirs d name (es.map toDir) = .err notFound := by
  have := openDirs_skip d name (es.map toDir) [] (by
    intro x hx
    obtain ⟨e, he, rfl⟩ := List.mem_map.1 hx
    exact ⟨text e, toDir_string (hok e he), h e he⟩)
  rw [List.append_nil] at this
  rw [this]
  rfl

/-- The slots after the first four, and after the first unused one, are never seen: for every well-formed
document, a name that only occurs there is reported as not found and not listed. -/
theorem C39_actual (data : Slice) (h : Head) (fat : List Nat) (slots : List Slot) (mf : List Nat) (name : Bytes)
    (hd : Doc data.val h fat slots) (hm : MiniLoaded data.val h mf)
    (habs : ∀ e ∈ entries (slots.take 4), text e ≠ name) :
    ∃ d, (∃ n, ∀ fuel, n ≤ fuel → load fuel data = some (.ok d)) ∧ openStream d name = .err notFound ∧
      ∃ l, listStreams d.dir = .ok l ∧ name ∉ l := by
  obtain ⟨n, hn⟩ := load_doc data h fat _ mf hd hm
  have hsub : ∀ e ∈ (front slots).take 4, e ∈ entries (slots.take 4) := by
    intro e he
    rw [← front_of_take] at he
    exact front_subset _ _ he
  have hok : ∀ e ∈ (front slots).take 4, e.Ok := fun e he =>
    entries_ok (fun s hs => hd.slotsOk s (List.mem_of_mem_take hs)) e (hsub e he)
  refine ⟨_, ⟨n, hn⟩, ?_, _, listStreams_eq _ hok, ?_⟩
  · exact openDirs_absent _ _ _ hok (fun e he hc => habs e (hsub e he) hc.1)
  · intro hmem
    obtain ⟨e, he, hte⟩ := List.mem_map.1 hmem
    unfold streams at he
    exact habs e (hsub e (List.mem_filter.1 he).1) hte

/-- A document with five streams: the directory takes the sectors 1 and 2. -/
def ex5Head : Head := { exHead with firstMiniFAT := 0xFFFFFFFE, numMiniFAT := 0 }
/-- An empty stream. -/
def ex5Stream (c : Nat) : Entry := { name := [c], objType := 2, start := 0xFFFFFFFE, size := 0 }
/-- Its directory. -/
def ex5Slots : List Slot :=
  [.used exRoot exMid, .used (ex5Stream 65) exMid, .used (ex5Stream 66) exMid, .used (ex5Stream 67) exMid,
   .used (ex5Stream 68) exMid, exFree, exFree, exFree]
/-- The document. -/
def ex5File : Bytes :=
  ex5Head.bytes ++ (([0xFFFFFFFD, 2, 0xFFFFFFFE] ++ List.replicate 125 0xFFFFFFFF).flatMap (leBytes 4) ++
    ex5Slots.flatMap Slot.bytes)

theorem ex5Doc : Doc ex5File ex5Head (table ex5File 9 [0]) ex5Slots where
  header := ⟨_, rfl⟩
  numFAT := by decide
  firstDir := by decide
  firstMiniFAT := by decide
  numMiniFAT := by decide
  firstDIFAT := by decide
  numDIFAT := by decide
  headFAT := by decide
  table := ⟨[], Or.inr ⟨rfl, rfl⟩, by
    intro i hi
    have : i = 0 := by simpa [exHead, ex5Head] using hi
    subst this
    exact ⟨by unfold Regular; decide, by unfold HasSector; decide +kernel⟩, rfl⟩
  dir := ⟨[1, 2], .cons 1 2 _ (by decide +kernel) (.cons 2 0xFFFFFFFE [] (by decide +kernel) .done), by
    intro i hi
    have : i = 1 ∨ i = 2 := by simpa using hi
    rcases this with rfl | rfl
    · exact ⟨by unfold Regular; decide, by unfold HasSector; decide +kernel⟩
    · exact ⟨by unfold Regular; decide, by unfold HasSector; decide +kernel⟩, by decide +kernel⟩
  slotsOk := by
    have hst : ∀ c, c < 65536 → (ex5Stream c).Ok := fun c hc =>
      ⟨by simp [ex5Stream], by intro u hu; have : u = c := by simpa [ex5Stream] using hu
                               omega, by simp [ex5Stream], by simp [ex5Stream], by simp [ex5Stream]⟩
    intro s hs
    simp only [ex5Slots, List.mem_cons, List.not_mem_nil, or_false] at hs
    rcases hs with rfl | rfl | rfl | rfl | rfl | rfl | rfl | rfl
    · exact ⟨exEntry_ok.1, by decide⟩
    · exact ⟨hst _ (by decide), by decide⟩
    · exact ⟨hst _ (by decide), by decide⟩
    · exact ⟨hst _ (by decide), by decide⟩
    · exact ⟨hst _ (by decide), by decide⟩
    · exact ⟨by decide, by decide⟩
    · exact ⟨by decide, by decide⟩
    · exact ⟨by decide, by decide⟩
  root := ⟨exRoot, exMid, _, rfl, rfl, by decide⟩

/-- C39 is false of the code: the stream `D` of this document is neither listed nor found. -/
theorem C39_counterexample : ∃ (e : Entry) (d : Document), e ∈ streams (entries ex5Slots) ∧ text e = lit "D" ∧
    (∃ n, ∀ fuel, n ≤ fuel → load fuel ⟨ex5File, []⟩ = some (.ok d)) ∧ openStream d (lit "D") = .err notFound ∧
    ∃ l, listStreams d.dir = .ok l ∧ lit "D" ∉ l := by
  obtain ⟨d, h1, h2, h3⟩ := C39_actual ⟨ex5File, []⟩ ex5Head _ ex5Slots [] (lit "D") ex5Doc (.none rfl) (by decide)
  exact ⟨ex5Stream 68, d, by simp [ex5Slots, entries, streams, ex5Stream, exFree, exRoot], by decide, h1, h2, h3⟩

/-- C39: the example document meets the hypotheses of the partial theorem. -/
theorem C39_witness : ∃ d, (∃ n, ∀ fuel, n ≤ fuel → load fuel ⟨exFile, []⟩ = some (.ok d)) ∧
    listStreams d.dir = .ok [lit "A", lit "B"] :=
  C39_list_partial ⟨exFile, []⟩ exHead (table exFile 9 [0]) [.used exRoot exMid, .used exA exMid, .used exB exMid] [exFree]
    (words (sector exFile 9 2)) exDoc (.one exMini.1 exMini.2 (by decide)) (by simp) (by simp [exFree]) (by decide)

end Grate.Props
