import Verif.Lemmas.CfbSafe
import Verif.Props.Open
import Verif.Props.XlsSafe
import Verif.Props.XlsxSafe
import Verif.Props.Stream

/-! # C37 and C108: files that are wrong do not crash `Open` -/

namespace Grate.Props

open Grate Grate.Spec Grate.Api Grate.Cfb
open Grate.Xls (Safe safe_ok)

/-! ### The container -/

theorem parseHeader_long {b : Bytes} (h : ¬ b.length < 512) : parseHeader b =
    { signature := field b 0 8, classID := (field b 8 8, field b 16 8), minor := field b 24 2, major := field b 26 2,
      byteOrder := field b 28 2, sectorShift := field b 30 2, miniSectorShift := field b 32 2, reserved := (b.drop 34).take 6,
      numDirSectors := toI32 (field b 40 4), numFATSectors := toI32 (field b 44 4), firstDir := field b 48 4,
      cutoff := toI32 (field b 56 4), firstMiniFAT := field b 60 4, numMiniFAT := toI32 (field b 64 4),
      firstDIFAT := field b 68 4, numDIFAT := toI32 (field b 72 4),
      difat := (List.range 109).map (fun i => field b (76 + 4 * i) 4) } := by
  unfold parseHeader
  simp only [if_neg h]

/-- A header that passes the checks. -/
structure Passed (h : Cfb.Header) : Prop where
  shift : h.sectorShift = 9 ∨ h.sectorShift = 12
  cutoff : h.cutoff = 4096

theorem headerErr_passed {h : Cfb.Header} (hn : headerErr h = none) : Passed h := by
  unfold headerErr at hn
  repeat' split at hn
  all_goals first | (cases hn; done) | skip
  refine ⟨?_, ?_⟩
  · rename_i h1 h2 h3 h4 h5 h6 h7 h8 h9 h10
    omega
  · rename_i h10
    simpa using h10

theorem headerErr_short {b : Bytes} (h : b.length < 512) : headerErr (parseHeader b) ≠ none := by
  have : headerErr (parseHeader b) = some .notInFormat := by
    unfold parseHeader
    simp only [if_pos h]
    unfold headerErr
    rw [if_pos]
    decide +kernel
  rw [this]
  simp

theorem load_fields {fuel : Nat} {data : Slice} {d : Document} (h : load fuel data = some (.ok d)) :
    headerErr (parseHeader data.val) = none ∧ d.data = data ∧ d.header = parseHeader data.val ∧
    d.dir = (buildDirs data.val (parseHeader data.val).major 4
      (secOff (parseHeader data.val).sectorShift (parseHeader data.val).firstDir)).1 := by
  unfold load at h
  simp only at h
  split at h
  · cases h
  rename_i hn
  split at h
  · cases h
  split at h
  · cases h
  · cases h
  split at h
  · cases h
  · cases h
  · cases h
  split at h
  · cases h
  · cases h
  · cases h
  cases h
  exact ⟨hn, rfl, rfl, rfl⟩

theorem toI32_pos {n : Nat} (h : n < 2 ^ 32) : 0 < toI32 n ↔ 0 < n ∧ n < 2 ^ 31 := by
  unfold toI32
  split <;> omega

/-- C37, without crashes: loading a file of whole sectors with a DIFAT chain inside the file, if any, ends with a document
or an error, whatever else its bytes say (magic numbers, sizes, sector numbers, tables and directory are arbitrary); a
document has the allocation table of the file. Missing: other files, of which some crash and some never end
(`C37_panic_counterexample`, `C37_counterexample`). -/
theorem C37_whole_partial (data : Slice) (h : Whole data.val) : ∃ n, ∀ fuel, n ≤ fuel →
    ∃ r, load fuel data = some r ∧ r ≠ .panic ∧ ∀ d, r = .ok d → IsFat data.val d.fat := by
  cases hn : headerErr (parseHeader data.val) with
  | some e =>
    refine ⟨0, fun fuel _ => ⟨.err e, ?_, (fun h => by cases h), fun d hd => by cases hd⟩⟩
    unfold load
    simp only [hn]
  | none =>
    have hlen : ¬ data.val.length < 512 := fun hl => headerErr_short hl hn
    have hp := headerErr_passed hn
    have hph := parseHeader_long hlen
    have hbits : sectorBits data.val = (parseHeader data.val).sectorShift := by
      rw [hph]; exact numAt_field _ _ _
    have h2 : 2 ≤ (parseHeader data.val).sectorShift := by have := hp.shift; omega
    have hdvd : 2 ^ (parseHeader data.val).sectorShift ∣ data.val.length := hbits ▸ h.sectors
    have hnf : ¬ ((parseHeader data.val).numFATSectors < -1 ∨ (parseHeader data.val).numFATSectors = 2147483647 ∨
        (parseHeader data.val).numMiniFAT < -1 ∨ (parseHeader data.val).numMiniFAT = 2147483647) := by
      have e1 : (parseHeader data.val).numFATSectors = toI32 (numAt data.val 44 4) := by rw [hph, numAt_field]
      have e2 : (parseHeader data.val).numMiniFAT = toI32 (numAt data.val 64 4) := by rw [hph, numAt_field]
      have hle : 2 ^ (sectorBits data.val - 2) ≤ 1024 := by
        rcases hp.shift with hs | hs <;> rw [hbits, hs] <;> decide
      have h1 := h.numFAT
      have h3 := h.numMini
      rw [e1, e2]
      unfold toI32
      split <;> split <;> omega
    have hmini : (parseHeader data.val).numMiniFAT ≤ ((2 ^ ((parseHeader data.val).sectorShift - 2) : Nat) : Int) := by
      have e2 : (parseHeader data.val).numMiniFAT = toI32 (numAt data.val 64 4) := by rw [hph, numAt_field]
      have h3 := h.numMini
      rw [hbits] at h3
      have := Nat.two_pow_pos ((parseHeader data.val).sectorShift - 2)
      rw [e2]
      unfold toI32
      split <;> omega
    have hhead := loadHeaderDifat_whole data h2 hdvd (parseHeader data.val).difat (by
      rw [hph]
      intro s hs
      obtain ⟨i, _, rfl⟩ := List.mem_map.1 hs
      exact field_lt data.val (76 + 4 * i) 4)
    have hheads : (parseHeader data.val).difat.takeWhile (· ≠ 0xFFFFFFFF) = headSectors data.val := by
      rw [hph]
      unfold headSectors
      simp only [numAt_field]
    rw [hheads] at hhead
    have hdif : (0 < (parseHeader data.val).numDIFAT) ↔ HasDifat data.val := by
      have e : (parseHeader data.val).numDIFAT = toI32 (field data.val 72 4) := by rw [hph]
      unfold HasDifat
      rw [e, numAt_field, toI32_pos (by exact field_lt data.val 72 4)]
    have hdl : ∃ n ids, (HasDifat data.val ∧ Listed data.val (sectorBits data.val) (numAt data.val 68 4) ids ∨
        ¬ HasDifat data.val ∧ ids = []) ∧ ∀ fuel, n ≤ fuel → ∃ r, (if 0 < (parseHeader data.val).numDIFAT then
          difatLoop data (parseHeader data.val).sectorShift fuel (parseHeader data.val).firstDIFAT
          else some (.ok [])) = some r ∧ Safe r (fun x => x = table data.val (parseHeader data.val).sectorShift ids) := by
      by_cases hd : HasDifat data.val
      · obtain ⟨ids, hl⟩ := h.difat hd
        have hl' := hl
        rw [hbits, numAt_field, show field data.val 68 4 = (parseHeader data.val).firstDIFAT by rw [hph]] at hl'
        obtain ⟨n, hn⟩ := difatLoop_whole data h2 hdvd hl'
        refine ⟨n, ids, Or.inl ⟨hd, hl⟩, fun fuel hf => ?_⟩
        rw [if_pos (hdif.2 hd)]
        exact hn fuel hf
      · refine ⟨0, [], Or.inr ⟨hd, rfl⟩, fun fuel _ => ⟨.ok [], ?_, rfl⟩⟩
        rw [if_neg (fun h => hd (hdif.1 h))]
    obtain ⟨n, ids, hids, hloop⟩ := hdl
    refine ⟨n + 1, fun fuel hf => ?_⟩
    obtain ⟨fuel, rfl⟩ : ∃ k, fuel = k + 1 := ⟨fuel - 1, by omega⟩
    obtain ⟨r2, hr2, hs2⟩ := hloop (fuel + 1) (by omega)
    obtain ⟨r3, hr3, hs3⟩ := minifatLoop_whole data h2 hdvd _ hmini fuel (parseHeader data.val).firstMiniFAT
    unfold load
    simp only [hn, if_neg hnf]
    cases hr1 : loadHeaderDifat data (parseHeader data.val).sectorShift (parseHeader data.val).difat with
    | panic => rw [hr1] at hhead; exact hhead.elim
    | err e => exact ⟨.err e, rfl, (fun h => by cases h), fun d hd => by cases hd⟩
    | ok fat1 =>
      rw [hr1] at hhead
      have hfat1 : fat1 = table data.val (parseHeader data.val).sectorShift (headSectors data.val) := hhead
      simp only [hr2]
      cases r2 with
      | panic => exact hs2.elim
      | err e => exact ⟨.err e, rfl, (fun h => by cases h), fun d hd => by cases hd⟩
      | ok fat2 =>
        have hfat2 : fat2 = table data.val (parseHeader data.val).sectorShift ids := hs2
        simp only [hr3]
        cases r3 with
        | panic => exact absurd rfl hs3
        | err e => exact ⟨.err e, rfl, (fun h => by cases h), fun d hd => by cases hd⟩
        | ok mf =>
          refine ⟨_, rfl, (fun h => by cases h), fun d hd => ?_⟩
          cases hd
          refine ⟨ids, hids, ?_⟩
          simp only
          rw [hfat1, hfat2, hbits]
          unfold table
          rw [List.flatMap_append]

/-! ### Streams -/

theorem buildDirs_mem (b : Bytes) (major : Nat) : ∀ (n off : Nat), ∀ e ∈ (buildDirs b major n off).1,
    ∃ k < n, e = readDir b (off + 128 * k) major ∧ e.objType ≠ 0 := by
  intro n
  induction n with
  | zero => intro off e he; cases he
  | succ n ih =>
    intro off e he
    unfold buildDirs at he
    simp only at he
    split at he
    · cases he
    · rename_i hne
      rcases List.mem_cons.1 he with rfl | he
      · exact ⟨0, by omega, rfl, hne⟩
      · obtain ⟨k, hk, h1, h2⟩ := ih (off + 128) e he
        exact ⟨k + 1, by omega, by rw [h1]; congr 1; omega, h2⟩

theorem utf16Decode_ne : ∀ l : List Nat, l ≠ [] → utf16Decode l ≠ [] := by
  intro l hl
  match l, hl with
  | a :: l, _ =>
    cases l with
    | nil => rw [utf16Decode]; split <;> simp
    | cons b l => rw [utf16Decode]; repeat' split <;> simp

theorem readDir_entryAt {file : Bytes} (hl : ¬ file.length < 512) (k : Nat) :
    readDir file (secOff (parseHeader file).sectorShift (parseHeader file).firstDir + 128 * k) (parseHeader file).major =
    { name := (List.range 32).map (fun i => numAt (entryAt file k) (2 * i) 2)
      nameByteLen := toI16 (numAt (entryAt file k) 64 2)
      objType := numAt (entryAt file k) 66 1
      start := numAt (entryAt file k) 116 4
      size := entrySize file (entryAt file k) } := by
  have hoff : secOff (parseHeader file).sectorShift (parseHeader file).firstDir =
      (1 + numAt file 48 4) % 2 ^ 32 * 2 ^ sectorBits file := by
    rw [parseHeader_long hl]
    unfold secOff sectorBits
    simp only [numAt_field]
    rfl
  have hmaj : (parseHeader file).major = numAt file 26 2 := by rw [parseHeader_long hl, numAt_field]
  unfold readDir
  simp only
  rw [hoff, hmaj]
  have he : (if file.length < (1 + numAt file 48 4) % 2 ^ 32 * 2 ^ sectorBits file + 128 * k + 128 then List.replicate 128 0
      else (file.drop ((1 + numAt file 48 4) % 2 ^ 32 * 2 ^ sectorBits file + 128 * k)).take 128) = entryAt file k := rfl
  rw [he]
  simp only [numAt_field, entrySize]

theorem string_named {e : Bytes} {t s z : Nat} (hn : NameLen (numAt e 64 2)) :
    Safe (Dir.string ⟨(List.range 32).map (fun i => numAt e (2 * i) 2), toI16 (numAt e 64 2), t, s, z⟩)
      (fun name => NamedAs e name) := by
  have hlt : numAt e 64 2 < 65536 := by rw [numAt_field]; exact field_lt e 64 2
  unfold Dir.string
  simp only
  by_cases hodd : numAt e 64 2 % 2 = 1 ∨ 64 < numAt e 64 2
  · rw [if_pos]
    · exact safe_ok (Or.inl ⟨hodd, rfl⟩)
    · unfold NameLen at hn
      unfold toI16
      split <;> omega
  · have ht : toI16 (numAt e 64 2) = (numAt e 64 2 : Int) := by
      unfold toI16
      rw [if_pos (by omega)]
    rw [ht, if_neg (by omega), if_neg (by omega)]
    have hq : ((numAt e 64 2 : Int) / 2).toNat = numAt e 64 2 / 2 := by omega
    rw [hq, if_neg]
    · exact safe_ok (Or.inr ⟨by omega, by omega, rfl⟩)
    · intro h0
      refine utf16Decode_ne _ ?_ (List.length_eq_zero_iff.1 h0)
      apply List.ne_nil_of_length_pos
      rw [List.length_take, List.length_map, List.length_range]
      unfold NameLen at hn
      omega

/-- C37, for the streams: in a document loaded from such a file, opening a stream gives an error or the bytes of the
sectors of a chain, as many as the directory says. The allocation table may be anything, with cycles, shared and missing
sectors, as long as its numbers can be followed. Missing: the streams of less than 4096 bytes (see C36 for those that are
well-formed), and numbers that lead to the end of the file (`C37_stream_counterexample`). -/
theorem C37_streams_partial {fuel : Nat} {data : Slice} {d : Document} (h : load fuel data = some (.ok d)) {name : Bytes}
    (hs : Streams data.val d.fat name) : openStream d name ≠ .panic ∧ ∀ r, openStream d name = .ok r →
      ∃ k < 4, numAt (entryAt data.val k) 66 1 = 2 ∧ NamedAs (entryAt data.val k) name ∧
      ∃ raw, ChainBytes data.val (sectorBits data.val) d.fat (numAt (entryAt data.val k) 116 4)
        (entrySize data.val (entryAt data.val k)) raw ∧
        ∀ ks, (∀ x ∈ ks, 0 < x) → raw.length < ks.length → r.readAll ks = some (.ok raw) := by
  obtain ⟨hn, hdata, hhead, hdir⟩ := load_fields h
  have hlen : ¬ data.val.length < 512 := fun hl => headerErr_short hl hn
  have hp := headerErr_passed hn
  have hbits : sectorBits data.val = d.header.sectorShift := by
    rw [hhead, parseHeader_long hlen]; exact numAt_field _ _ _
  have hcut : d.header.cutoff = 4096 := by rw [hhead]; exact hp.cutoff
  have h9 : 9 ≤ d.header.sectorShift := by
    have := hp.shift
    rw [hhead]
    omega
  have hfol : ∀ t ∈ d.fat, Followable d.data.val d.header.sectorShift d.fat t := by
    rw [hdata, ← hbits]
    exact hs.table
  have hmem : ∀ e ∈ d.dir, ∃ k < 4, e = readDir data.val
      (secOff (parseHeader data.val).sectorShift (parseHeader data.val).firstDir + 128 * k) (parseHeader data.val).major ∧
      e.objType ≠ 0 := by
    rw [hdir]
    exact buildDirs_mem _ _ _ _
  have key : ∀ es : List Dir, (∀ e ∈ es, e ∈ d.dir) → Safe (openDirs d name es) (fun r =>
      ∃ k < 4, numAt (entryAt data.val k) 66 1 = 2 ∧ NamedAs (entryAt data.val k) name ∧
      ∃ raw, ChainBytes data.val (sectorBits data.val) d.fat (numAt (entryAt data.val k) 116 4)
        (entrySize data.val (entryAt data.val k)) raw ∧
        ∀ ks, (∀ x ∈ ks, 0 < x) → raw.length < ks.length → r.readAll ks = some (.ok raw)) := by
    intro es
    induction es with
    | nil => intro _; trivial
    | cons e es ih =>
      intro hes
      obtain ⟨k, hk, he, hob⟩ := hmem e (hes e (by simp))
      rw [readDir_entryAt hlen] at he
      subst he
      simp only at hob
      unfold openDirs
      refine (string_named (hs.names k hk hob)).bind (fun nm hnm => ?_)
      split
      · rename_i hc
        obtain ⟨rfl, h2⟩ := hc
        obtain ⟨hbig, hsm, hst⟩ := hs.streams k hk h2 hnm
        simp only
        rw [if_neg (by rw [hcut]; omega), if_pos (by omega)]
        have hst' : Followable d.data.val d.header.sectorShift d.fat (numAt (entryAt data.val k) 116 4) := by
          rw [hdata, ← hbits]
          exact hst
        refine (getStreamReader_follow d hfol h9 hst' (by omega) hsm).mono (fun r hr => ?_)
        obtain ⟨ds, n, rfl, hne, hraw⟩ := hr
        rw [hdata, ← hbits] at hraw
        exact ⟨k, hk, h2, hnm, _, hraw, fun ks hks hl => (C33_readAll ds n hne ks hks).2 hl⟩
      · exact ih (fun x hx => hes x (by simp [hx]))
  have hfin := key d.dir (fun e he => he)
  refine ⟨hfin.no_panic, fun r hr => ?_⟩
  unfold openStream at hr
  rw [hr] at hfin
  exact hfin

/-! ### C108 -/

/-- A workbook stream whose records have the bytes they announce (see `C53_stream_partial`). -/
def SafeRaw (raw : Bytes) : Prop :=
  ∃ groups last k t, raw = stream (groups ++ last.toList).flatten ++ t ∧ Substreams groups last ∧
    AllSafe 0 (groups ++ last.toList) k ∧ (∀ g ∈ groups ++ last.toList, SafeSheet k false g.tail) ∧ CutTail t

/-- What the compound file reader makes of the file, if it gets that far: the streams called `Workbook`. -/
def WorkbookIn (file raw : Bytes) : Prop :=
  ∃ fat, IsFat file fat ∧ ∃ k < 4, numAt (entryAt file k) 66 1 = 2 ∧ NamedAs (entryAt file k) (lit "Workbook") ∧
    ChainBytes file (sectorBits file) fat (numAt (entryAt file k) 116 4) (entrySize file (entryAt file k)) raw

/-- A file that the reader of compound files can take or leave: not one at all, or of whole sectors with tables and
directory entries that can be followed and with safe workbook streams. -/
inductive SafeCompound (file : Bytes) : Prop where
  | not : NotCompound file → SafeCompound file
  | whole : Whole file → (∀ fat, IsFat file fat → Streams file fat (lit "Workbook")) →
      (∀ raw, WorkbookIn file raw → SafeRaw raw) → SafeCompound file

theorem xlsOpen_safe (w : World) (ext : Ext) (fn file : Bytes) (hf : w.files fn = .ok file) (h : SafeCompound file)
    (hb : ∀ k ∈ w.bufs, 0 < k) (hbl : ∀ raw, WorkbookIn file raw → raw.length < w.bufs.length) :
    ∃ n, ∀ fuel, n ≤ fuel → xlsOpen { w with fuel := fuel } fn ≠ .panic ∧
      ∀ src, xlsOpen { w with fuel := fuel } fn = .ok src → ∀ name, src.get ext name ≠ .panic := by
  cases h with
  | not hn =>
    refine ⟨0, fun fuel _ => ?_⟩
    rw [xls_declines { w with fuel := fuel } fn file hf hn]
    exact ⟨(fun h => by cases h), fun src hs => by cases hs⟩
  | whole hw hst hraw =>
    obtain ⟨n, hn⟩ := C37_whole_partial ⟨file, w.cap⟩ hw
    refine ⟨n, fun fuel hfu => ?_⟩
    obtain ⟨r, hr, hnp, hfat⟩ := hn fuel hfu
    unfold xlsOpen
    simp only [hf]
    unfold Xls.openFile
    rw [hr]
    cases r with
    | panic => exact absurd rfl hnp
    | err e => exact ⟨(fun h => by cases h), fun src hs => by cases hs⟩
    | ok d =>
      have hd := hfat d rfl
      obtain ⟨ho, hok⟩ := C37_streams_partial hr (hst _ hd)
      simp only
      cases hos : openStream d (lit "Workbook") with
      | panic => exact absurd hos ho
      | err e => exact ⟨(fun h => by cases h), fun src hs => by cases hs⟩
      | ok rd =>
        obtain ⟨k, hk, h2, hnm, raw, hc, hread⟩ := hok rd hos
        have hwb : WorkbookIn file raw := ⟨d.fat, hd, k, hk, h2, hnm, hc⟩
        simp only
        rw [hread w.bufs hb (hbl raw hwb)]
        obtain ⟨groups, last, k, t, rfl, hsub, hall, hsh, hct⟩ := hraw raw hwb
        obtain ⟨h1, h3⟩ := C53_stream_partial w.prims makeFormatter ext hsub hall hsh hct w.spare
        simp only
        cases hl : Xls.loadStream w.prims makeFormatter w.spare ⟨stream (groups ++ last.toList).flatten ++ t, w.spare⟩ with
        | panic => exact absurd hl h1
        | err e => exact ⟨(fun h => by cases h), fun src hs => by cases hs⟩
        | ok b =>
          refine ⟨(fun h => by cases h), fun src hs name => ?_⟩
          cases hs
          have := h3 b hl name
          cases hg : b.get ext name with
          | panic => exact absurd hg this
          | err e => simp [Source.get, hg]
          | ok s => cases s <;> simp [Source.get, hg]

/-- An archive without the causes of C62. -/
def SafeArchive (a : Xlsx.Archive) : Prop :=
  (∀ n p, (n, Except.ok p) ∈ a → StyleSafe 0 p.toks) ∧
  ∀ d, (∃ mk order, Xlsx.openFile mk order (.ok a) = .ok d) → SafeDoc a d

theorem get_sheets {ext : Ext} {a : Xlsx.Archive} {d d' : Xlsx.Doc} {name : Bytes} {i : Nat}
    (h : Xlsx.Doc.get ext a d name = .ok (d', i, none)) : ∃ n p s, d'.sheets[i]? = some ⟨n, p, some s⟩ := by
  unfold Xlsx.Doc.get at h
  split at h
  · cases h
  · split at h
    · cases h
    · rename_i j _ _ s hs
      split at h
      · rename_i hst
        cases h
        obtain ⟨n, p, st⟩ := s
        simp only at hst
        exact ⟨n, p, _, by rw [hs, hst]⟩
      · obtain ⟨⟨r, e⟩, _, h2⟩ := GoRes.bind_eq_ok.1 h
        cases h2
        refine ⟨_, _, _, List.getElem?_set_self (List.getElem?_eq_some_iff.1 hs).1⟩

theorem xlsxOpen_safe (w : World) (ext : Ext) (fn file : Bytes) (hf : w.files fn = .ok file)
    (hz : ∀ a, w.zip file = .ok a → SafeArchive a) : xlsxOpen w fn ≠ .panic ∧
      ∀ src, xlsxOpen w fn = .ok src → ∀ name, src.get ext name ≠ .panic := by
  unfold xlsxOpen
  simp only [hf]
  cases ha : w.zip file with
  | error e => exact ⟨(fun h => by cases h), fun src hs => by cases hs⟩
  | ok a =>
    obtain ⟨h1, h2⟩ := hz a ha
    have := C62_open_partial makeFormatter w.order (.ok a) (fun a' e n p hp => by cases e; exact h1 n p hp)
    simp only
    cases ho : Xlsx.openFile makeFormatter w.order (.ok a) with
    | panic => exact absurd ho this
    | err e => exact ⟨(fun h => by cases h), fun src hs => by cases hs⟩
    | ok d =>
      refine ⟨(fun h => by cases h), fun src hs name => ?_⟩
      cases hs
      have hg := C62_get_partial ext a d d (h2 d ⟨_, _, ho⟩) .start name
      unfold Source.get
      simp only
      cases hx : Xlsx.Doc.get ext a d name with
      | panic => exact absurd hx hg
      | err e => simp
      | ok r =>
        obtain ⟨d', i, e⟩ := r
        cases e with
        | some e => simp
        | none =>
          obtain ⟨n, p, s, hi⟩ := get_sheets hx
          simp [hi]

/-- C108. Opening a file ends with a source or an error, and so does getting any collection of the source: for every file
whose bytes are a safe compound file or none at all, and a safe archive or none at all. Text files, empty files, files that
cannot be read and files of other formats are all included. Missing: the compound files and archives that are left out,
some of which do crash (`C108_counterexample`). -/
theorem C108_open_partial (w : World) (ext : Ext) (fn : Bytes) (hs : ∀ file, w.files fn = .ok file → SafeCompound file)
    (hz : ∀ file a, w.files fn = .ok file → w.zip file = .ok a → SafeArchive a) (hb : ∀ k ∈ w.bufs, 0 < k)
    (hbl : ∀ file raw, w.files fn = .ok file → WorkbookIn file raw → raw.length < w.bufs.length) :
    ∃ n, ∀ fuel, n ≤ fuel → ∀ t, Shipped { w with fuel := fuel } t →
      openSrc t fn ≠ .panic ∧ ∀ src, openSrc t fn = .ok src → ∀ name, src.get ext name ≠ .panic := by
  have hx : ∃ n, ∀ fuel, n ≤ fuel → xlsOpen { w with fuel := fuel } fn ≠ .panic ∧
      ∀ src, xlsOpen { w with fuel := fuel } fn = .ok src → ∀ name, src.get ext name ≠ .panic := by
    cases hf : w.files fn with
    | error e =>
      refine ⟨0, fun fuel _ => ?_⟩
      have : xlsOpen { w with fuel := fuel } fn = .err e := by
        unfold xlsOpen
        simp only [hf]
      rw [this]
      exact ⟨(fun h => by cases h), fun src hs => by cases hs⟩
    | ok file => exact xlsOpen_safe w ext fn file hf (hs file hf) hb (fun raw => hbl file raw hf)
  have hx2 : ∀ fuel, xlsxOpen { w with fuel := fuel } fn ≠ .panic ∧
      ∀ src, xlsxOpen { w with fuel := fuel } fn = .ok src → ∀ name, src.get ext name ≠ .panic := by
    intro fuel
    cases hf : w.files fn with
    | error e =>
      have : xlsxOpen { w with fuel := fuel } fn = .err e := by
        unfold xlsxOpen
        simp only [hf]
      rw [this]
      exact ⟨(fun h => by cases h), fun src hs => by cases hs⟩
    | ok file => exact xlsxOpen_safe { w with fuel := fuel } ext fn file hf (fun a => hz file a hf)
  have hx3 : ∀ fuel, tsvOpen { w with fuel := fuel } fn ≠ .panic ∧
      ∀ src, tsvOpen { w with fuel := fuel } fn = .ok src → ∀ name, src.get ext name ≠ .panic := by
    intro fuel
    unfold tsvOpen
    simp only
    cases hf : w.files fn with
    | error e => exact ⟨(fun h => by cases h), fun src hs => by cases hs⟩
    | ok file =>
      simp only
      have : Simple.openTSV w.iter fn (some file) ≠ .panic := by
        unfold Simple.openTSV Simple.scanLines
        simp only
        split
        · exact (fun h => by cases h)
        · simp only [GoRes.ok_bind]
          split <;> exact (fun h => by cases h)
      cases ho : Simple.openTSV w.iter fn (some file) with
      | panic => exact absurd ho this
      | err e => exact ⟨(fun h => by cases h), fun src hs => by cases hs⟩
      | ok f => exact ⟨(fun h => by cases h), fun src hs name => by cases hs; simp [Source.get]⟩
  have hx4 : ∀ fuel, csvOpen { w with fuel := fuel } fn ≠ .panic ∧
      ∀ src, csvOpen { w with fuel := fuel } fn = .ok src → ∀ name, src.get ext name ≠ .panic := by
    intro fuel
    unfold csvOpen
    simp only
    cases hf : w.files fn with
    | error e => exact ⟨(fun h => by cases h), fun src hs => by cases hs⟩
    | ok file =>
      simp only
      have : Simple.openCSV w.iter fn (some (w.csv file)) ≠ .panic := by
        unfold Simple.openCSV
        simp only
        split
        · exact (fun h => by cases h)
        · split <;> exact (fun h => by cases h)
        · split <;> exact (fun h => by cases h)
      cases ho : Simple.openCSV w.iter fn (some (w.csv file)) with
      | panic => exact absurd ho this
      | err e => exact ⟨(fun h => by cases h), fun src hs => by cases hs⟩
      | ok f => exact ⟨(fun h => by cases h), fun src hs name => by cases hs; simp [Source.get]⟩
  obtain ⟨n, hn⟩ := hx
  refine ⟨n, fun fuel hf t ht => ?_⟩
  rw [shipped_open ht]
  have hall : ∀ o ∈ formats { w with fuel := fuel }, o.op fn ≠ .panic ∧
      ∀ src, o.op fn = .ok src → ∀ name, src.get ext name ≠ .panic := by
    intro o ho
    simp only [formats, List.mem_cons, List.not_mem_nil, or_false] at ho
    rcases ho with rfl | rfl | rfl | rfl
    · exact hn fuel hf
    · exact hx2 fuel
    · exact hx3 fuel
    · exact hx4 fuel
  generalize formats { w with fuel := fuel } = os at hall
  induction os with
  | nil => exact ⟨(fun h => by cases h), fun src hs => by cases hs⟩
  | cons o os ih =>
    obtain ⟨h1, h2⟩ := hall o (by simp)
    have ih := ih (fun x hx => hall x (by simp [hx]))
    unfold openSrc openTrace
    cases ho : o.op fn with
    | panic => exact absurd ho h1
    | ok src => exact ⟨(fun h => by cases h), fun s hs => by cases hs; exact h2 src ho⟩
    | err e =>
      simp only
      split
      · exact ih
      · exact ⟨(fun h => by cases h), fun src hs => by cases hs⟩

end Grate.Props
