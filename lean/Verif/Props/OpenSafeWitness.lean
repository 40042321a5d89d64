import Verif.Props.OpenSafe

/-! # C37 and C108: an example of a wrong file that is safe, and files that crash -/

namespace Grate.Props

open Grate Grate.Spec Grate.Api Grate.Cfb

/-! ### A file with a cyclic chain -/

/-- The directory of the file: a root entry, and a workbook of 4096 bytes from sector 2 on. -/
def loopSlots (start : Nat) : List Slot :=
  [.used { name := [82], objType := 5, start := 77, size := 99999 } exMid,
   .used { name := wbName, objType := 2, start := start, size := 4096 } exMid, exFree, exFree]

/-- A substream of 512 bytes. -/
def loopGroup : List Record := [exBof 5, ⟨0x7777, List.replicate 484 1⟩, ⟨0x0A, []⟩]

/-- The header of the file. -/
def loopHead : Head := { cycHead with firstDir := 1, numDIFAT := 0, fatSectors := [0] }

/-- The file: sector 0 is the FAT, 1 the directory, 2 the data. In the FAT, sector 2 follows itself; other numbers lead
nowhere. -/
@[irreducible] def loopFile (start : Nat) : Bytes :=
  loopHead.bytes ++ (([0xFFFFFFFD, 5000, 2, 99] ++ List.replicate 124 0xFFFFFFFF).flatMap (leBytes 4) ++
    ((loopSlots start).flatMap Slot.bytes ++ stream loopGroup))

theorem loop_length : (loopFile 2).length = 2048 := by decide +kernel
theorem loop_bits : sectorBits (loopFile 2) = 9 := by decide +kernel

theorem loop_noDifat : ¬ HasDifat (loopFile 2) := by
  unfold HasDifat
  have : numAt (loopFile 2) 72 4 = 0 := by decide +kernel
  rw [this]
  omega

theorem loop_whole : Whole (loopFile 2) where
  sectors := by rw [loop_length, loop_bits]; decide
  numFAT := Or.inl (by decide +kernel)
  numMini := Or.inl (by rw [loop_bits]; decide +kernel)
  difat := fun h => absurd h loop_noDifat

/-- The table of the file. -/
def loopFat : List Nat := [0xFFFFFFFD, 5000, 2, 99] ++ List.replicate 124 0xFFFFFFFF

theorem loop_isFat {fat : List Nat} (h : IsFat (loopFile 2) fat) : fat = loopFat := by
  obtain ⟨ids, ⟨hd, _⟩ | ⟨_, rfl⟩, rfl⟩ := h
  · exact absurd hd loop_noDifat
  · rw [loop_bits]
    decide +kernel

theorem loop_follow {t : Nat} (h : t ∈ loopFat ∨ t = 2) : Followable (loopFile 2) 9 loopFat t := by
  have ht : t = 0xFFFFFFFD ∨ t = 5000 ∨ t = 2 ∨ t = 99 ∨ t = 0xFFFFFFFF := by
    rcases h with h | h
    · simp only [loopFat, List.mem_append, List.mem_cons, List.not_mem_nil, or_false, List.mem_replicate] at h
      omega
    · omega
  unfold Followable HasSector
  rw [loop_length]
  have hl : loopFat.length = 128 := by decide +kernel
  rw [hl]
  omega

theorem loop_entries : (entryAt (loopFile 2) 0).length = 128 ∧
    (numAt (entryAt (loopFile 2) 0) 66 1 = 5 ∧ numAt (entryAt (loopFile 2) 0) 64 2 = 4) ∧
    (numAt (entryAt (loopFile 2) 1) 66 1 = 2 ∧ numAt (entryAt (loopFile 2) 1) 64 2 = 18) ∧
    numAt (entryAt (loopFile 2) 2) 66 1 = 0 ∧ numAt (entryAt (loopFile 2) 3) 66 1 = 0 ∧
    entrySize (loopFile 2) (entryAt (loopFile 2) 1) = 4096 ∧ numAt (entryAt (loopFile 2) 1) 116 4 = 2 := by
  decide +kernel

theorem loop_streams : Streams (loopFile 2) loopFat (lit "Workbook") := by
  obtain ⟨_, ⟨a1, a2⟩, ⟨b1, b2⟩, c, d, e, f⟩ := loop_entries
  refine ⟨?_, ?_, ?_⟩
  · intro k hk ht
    unfold NameLen
    match k, hk with
    | 0, _ => rw [a2]; omega
    | 1, _ => rw [b2]; omega
    | 2, _ => exact absurd c ht
    | 3, _ => exact absurd d ht
  · rw [loop_bits]
    exact fun t ht => loop_follow (Or.inl ht)
  · intro k hk ht _
    rw [loop_bits]
    match k, hk with
    | 0, _ => rw [a1] at ht; cases ht
    | 1, _ => rw [e, f]; exact ⟨by omega, by omega, loop_follow (Or.inr rfl)⟩
    | 2, _ => rw [c] at ht; cases ht
    | 3, _ => rw [d] at ht; cases ht

theorem loop_run {ids : List Nat} (h : Run loopFat 2 ids) : ids = List.replicate ids.length 2 := by
  have key : ∀ s ids, Run loopFat s ids → s = 2 → ids = List.replicate ids.length 2 := by
    intro s ids h
    induction h with
    | one s => rintro rfl; rfl
    | cons s t ids ht _ ih =>
      rintro rfl
      have : t = 2 := by
        have : loopFat[2]? = some 2 := by decide
        rw [this] at ht
        cases ht
        rfl
      rw [List.length_cons, List.replicate_succ, ← ih this]
  exact key 2 ids h rfl

theorem loop_data : ((List.replicate 8 2).map (sector (loopFile 2) 9)).flatten =
    stream (List.replicate 8 loopGroup).flatten := by
  have h : sector (loopFile 2) 9 2 = stream loopGroup := by decide +kernel
  rw [List.map_replicate, h]
  unfold stream
  simp only [List.replicate, List.flatten_cons, List.flatten_nil, List.flatMap_append, List.flatMap_nil]

theorem loop_dataLen : (stream (List.replicate 8 loopGroup).flatten).length = 4096 := by
  have h : (stream loopGroup).length = 512 := by decide +kernel
  unfold stream at *
  simp only [List.replicate, List.flatten_cons, List.flatten_nil, List.flatMap_append, List.flatMap_nil, List.length_append, h]
  rfl

theorem loop_raw {raw : Bytes} (h : WorkbookIn (loopFile 2) raw) : raw = stream (List.replicate 8 loopGroup).flatten := by
  obtain ⟨_, ⟨a1, a2⟩, ⟨b1, b2⟩, c, d, e, f⟩ := loop_entries
  obtain ⟨fat, hfat, k, hk, ht, _, ids, hrun, _, hsz, hraw⟩ := h
  have hk1 : k = 1 := by
    rcases (by omega : k = 0 ∨ k = 1 ∨ k = 2 ∨ k = 3) with rfl | rfl | rfl | rfl
    · rw [a1] at ht; cases ht
    · rfl
    · rw [c] at ht; cases ht
    · rw [d] at ht; cases ht
  subst hk1
  rw [loop_isFat hfat, f] at hrun
  rw [loop_bits, e] at hsz
  rw [loop_bits, e] at hraw
  have hids := loop_run hrun
  obtain ⟨n, hn⟩ : ∃ n, ids.length = 8 + n := ⟨ids.length - 8, by omega⟩
  rw [hraw, hids, hn, List.replicate_add, List.map_append, List.flatten_append, loop_data]
  rw [List.take_append_of_le_length (by rw [loop_dataLen]), List.take_of_length_le (by rw [loop_dataLen])]

theorem loop_safeRaw : SafeRaw (stream (List.replicate 8 loopGroup).flatten) := by
  refine ⟨List.replicate 8 loopGroup, none, 0, [], by simp, ⟨?_, ?_, (fun g hg => by cases hg), ?_⟩, ?_, ?_, Or.inl (by decide)⟩
  · unfold Record.Fits
    decide +kernel
  · intro g hg
    rw [List.eq_of_mem_replicate hg]
    exact ⟨_, [_], _, rfl, rfl, rfl, .plain _ _ (by decide) (by decide) .nil⟩
  · decide +kernel
  · have one : SafeGlobals 0 loopGroup 0 :=
      .bof _ _ _ _ rfl (by decide +kernel) (.skip _ _ _ _ (Or.inr (by unfold telling; decide)) (.skip _ _ _ _ (Or.inl rfl) (.nil _)))
    iterate 8 refine .cons 0 0 0 _ _ one ?_
    exact .nil 0
  · intro g hg
    have hg : g ∈ List.replicate 8 loopGroup := by simpa using hg
    rw [List.eq_of_mem_replicate hg]
    refine .plain _ _ _ (by decide) (by decide) (by decide) ?_ (.plain _ _ _ (by decide) (by decide) (by decide) ?_ (.nil _))
    · constructor <;> (intro e; exact absurd e (by decide))
    · constructor <;> (intro e; exact absurd e (by decide))

/-- C108: the file with a cyclic chain meets the hypotheses. -/
theorem C108_witness : SafeCompound (loopFile 2) ∧ WorkbookIn (loopFile 2) (stream (List.replicate 8 loopGroup).flatten) ∧
    ¬ NotCompound (loopFile 2) := by
  obtain ⟨_, _, ⟨b1, b2⟩, _, _, e, f⟩ := loop_entries
  refine ⟨.whole loop_whole (fun fat h => by rw [loop_isFat h]; exact loop_streams)
    (fun raw h => by rw [loop_raw h]; exact loop_safeRaw), ?_, ?_⟩
  · refine ⟨loopFat, ⟨[], Or.inr ⟨loop_noDifat, rfl⟩, by rw [loop_bits]; decide +kernel⟩, 1, by decide, b1,
      Or.inr ⟨by rw [b2], by rw [b2]; decide, by decide +kernel⟩, List.replicate 8 2, ?_, ?_, ?_, ?_⟩
    · rw [f]
      iterate 7 refine .cons 2 2 _ (by decide) ?_
      exact .one 2
    · intro i hi
      rw [List.eq_of_mem_replicate hi, loop_bits]
      unfold HasSector
      rw [loop_length]
    · rw [e, loop_bits]
      decide
    · rw [e, loop_bits, loop_data, List.take_of_length_le (by rw [loop_dataLen])]
  · rintro (h | h)
    · exact h ⟨(loopFile 2).drop 8, by
        have : (loopFile 2).take 8 = signature := by decide +kernel
        rw [← this, List.take_append_drop]⟩
    · rw [loop_length] at h
      omega

/-! ### Files that crash -/

/-- C37 is false for streams that begin at the very end of the file: with the same directory, but for the workbook to begin
there, opening the stream crashes (if the buffer of the file has no room left). -/
theorem C37_stream_counterexample (fuel : Nat) : ∃ d, load (fuel + 1) ⟨loopFile 3, []⟩ = some (.ok d) ∧
    openStream d (lit "Workbook") = .panic := by
  have h1 : load (fuel + 1) ⟨loopFile 3, []⟩ = load 1 ⟨loopFile 3, []⟩ := by
    have hd : ¬ 0 < (parseHeader (loopFile 3)).numDIFAT := by decide +kernel
    have hm : (parseHeader (loopFile 3)).firstMiniFAT = secEndOfChain := by decide +kernel
    unfold load
    simp only [if_neg hd, minifatLoop, if_pos hm]
  have h2 : (match load 1 ⟨loopFile 3, []⟩ with
      | some (.ok d) => (match openStream d (lit "Workbook") with | .panic => true | _ => false)
      | _ => false) = true := by decide +kernel
  rw [h1]
  cases hl : load 1 ⟨loopFile 3, []⟩ with
  | none => rw [hl] at h2; cases h2
  | some r =>
    cases r with
    | panic => rw [hl] at h2; cases h2
    | err e => rw [hl] at h2; cases h2
    | ok d =>
      refine ⟨d, rfl, ?_⟩
      rw [hl] at h2
      cases ho : openStream d (lit "Workbook") with
      | panic => rfl
      | ok r => simp [ho] at h2
      | err e => simp [ho] at h2

/-- C108 is false of the code: opening the file with a cyclic DIFAT chain never ends (for no number of steps), and opening
the files of `C37_panic_counterexample` and `C37_stream_counterexample` crashes. -/
theorem C108_counterexample (w : World) (fn : Bytes) (hcap : w.cap = [])
    (hf : w.files fn = .ok cycFile ∨ w.files fn = .ok cutFile ∨ w.files fn = .ok (loopFile 3)) (hfuel : 0 < w.fuel)
    (t : List (Grate.Entry Source)) (ht : Shipped w t) : openSrc t fn = .panic := by
  rw [shipped_open ht]
  have hx : xlsOpen w fn = .panic := by
    unfold xlsOpen
    rcases hf with hf | hf | hf <;> simp only [hf, hcap]
    · unfold Xls.openFile
      rw [C37_counterexample]
    · unfold Xls.openFile
      rw [C37_panic_counterexample]
      rfl
    · obtain ⟨fuel, hfu⟩ : ∃ k, w.fuel = k + 1 := ⟨w.fuel - 1, by omega⟩
      obtain ⟨d, hl, ho⟩ := C37_stream_counterexample fuel
      unfold Xls.openFile
      rw [hfu, hl]
      simp only [ho]
      rfl
  simp [openSrc, openTrace, formats, hx]

end Grate.Props
