import Verif.Props.Grate2tsvSrc

/-! # An encrypted workbook, from the bytes of the file to the output of the commands -/

namespace Grate.Props

open Grate Grate.Spec Grate.Api

/-- The entry of its sheet. -/
def encEntry : SheetEntry := ⟨134, 0, 0, 0, [0x53]⟩

/-- The globals of the example workbook, with the record for the encryption. -/
def encGlobals : List Record :=
  [exBof 5, exFilePass, ⟨34, leBytes 2 1 ++ []⟩, ⟨224, leBytes 2 0 ++ (leBytes 2 14 ++ [])⟩,
    ⟨224, leBytes 2 0 ++ (leBytes 2 0 ++ [])⟩, ⟨0x85, encEntry.data⟩,
    ⟨252, [1, 0, 0, 0, 1, 0, 0, 0, 2, 0, 0, 0x68, 0x69]⟩, ⟨0x0A, []⟩]

/-- The records of the sheet, without the last. -/
def encSheet : List Record := exSheet.dropLast

/-- The content of the workbook. -/
def encContent : Content := ⟨[encEntry], 1, [[0x68, 0x69]], [], [14, 0]⟩

/-- The stream, encrypted. -/
def encStream : Bytes :=
  encrypted (keyStream toy.md5 toy.rc4 Crypto.defaultPassword (exHeader 0).salt)
    ([encGlobals].flatten ++ (exBof 0x10 :: encSheet) ++ [⟨0x0A, []⟩])

/-- Its directory entry. -/
def encDirEntry : Spec.Entry := { name := wbName, objType := 2, start := 0, size := 319 }

/-- The directory. -/
def encSlots : List Slot := [.used wbRoot exMid, .used encDirEntry exMid, exFree, exFree]

/-- The file. -/
def encFile : Bytes := (wbFileOf encStream 0xFFFFFFFE encSlots).take 2560

theorem encDoc : Spec.Doc encFile exHead (table encFile 9 [0]) encSlots where
  header := ⟨encFile.drop 512, by decide +kernel⟩
  numFAT := by decide
  firstDir := by decide
  firstMiniFAT := by decide
  numMiniFAT := by decide
  firstDIFAT := by decide
  numDIFAT := by decide
  headFAT := by decide
  table := ⟨[], Or.inr ⟨rfl, rfl⟩, by
    intro i hi
    have : i = 0 := by simpa [exHead] using hi
    subst this
    exact ⟨by unfold Regular; decide, by unfold HasSector; decide +kernel⟩, rfl⟩
  dir := ⟨[1], .cons 1 0xFFFFFFFE [] (by decide +kernel) .done, by
    intro i hi
    have : i = 1 := by simpa using hi
    subst this
    exact ⟨by unfold Regular; decide, by unfold HasSector; decide +kernel⟩, by decide +kernel⟩
  slotsOk := by
    intro s hs
    have h2 : encDirEntry.Ok := by refine ⟨?_, ?_, ?_, ?_, ?_⟩ <;> decide
    simp only [encSlots, List.mem_cons, List.not_mem_nil, or_false] at hs
    rcases hs with rfl | rfl | rfl | rfl
    · exact ⟨wbEntry_ok.1, by decide⟩
    · exact ⟨h2, by decide⟩
    · exact ⟨by decide, by decide⟩
    · exact ⟨by decide, by decide⟩
  root := ⟨wbRoot, exMid, _, rfl, rfl, by decide⟩

theorem encStreamIn : StreamIn encFile (lit "Workbook") encStream := by
  have h := StreamIn.small (file := encFile) (name := lit "Workbook") exHead _ wbRoot exMid [] [exFree, exFree] encDirEntry exMid
    [3] [0, 1, 2, 3, 4] (sector encFile 9 3) encDoc (by unfold Regular; decide)
    (by unfold HasSector; decide +kernel) (by decide) (by simp) (by decide) (by simp [entries]) (by decide +kernel) rfl (by decide)
    (.cons _ 0xFFFFFFFE _ (by decide +kernel) .done)
    (by
      intro i hi
      have : i = 3 := by simpa using hi
      subst this
      exact ⟨by unfold Regular; decide, by unfold HasSector; decide +kernel⟩) (by decide) (by simp)
    (.cons _ 1 _ (by decide +kernel) (.cons _ 2 _ (by decide +kernel) (.cons _ 3 _ (by decide +kernel)
      (.cons _ 4 _ (by decide +kernel) (.cons _ 0xFFFFFFFE _ (by decide +kernel) .done))))) (by decide)
    (by
      intro i hi
      have hl : (sector encFile 9 3).length = 512 := by decide +kernel
      have : i ≤ 4 := by revert i; decide
      refine ⟨by unfold Regular; omega, by omega⟩)
  have e : ((([0, 1, 2, 3, 4] : List Nat).map (miniSector (sector encFile 9 3))).flatten).take encDirEntry.size =
      encStream := by decide +kernel
  rw [e] at h
  exact h

/-- The example file is an encrypted workbook (and its stream is not the plain one). -/
theorem encFile_encrypted : EncryptedFile toy encFile [encGlobals] (exBof 0x10 :: encSheet) (exHeader 0) ∧
    encStream ≠ stream ([encGlobals].flatten ++ (exBof 0x10 :: encSheet) ++ [⟨0x0A, []⟩]) := by
  have pl : ∀ (r : Record) (rs : List Record), (r.type ≠ 0x809 ∧ r.type ≠ 0x0A) → Balanced rs → Balanced (r :: rs) :=
    fun r rs h hb => .plain r rs h.1 h.2 hb
  refine ⟨⟨?_, ?_, by unfold Record.Ok; decide +kernel, ⟨[exBof 5], _, rfl, by decide +kernel⟩,
    ⟨C42_witness.1, rfl, C42_witness.2.1⟩, encStreamIn⟩, by decide +kernel⟩
  · intro g hg
    simp only [List.mem_singleton] at hg
    subst hg
    refine ⟨_, [_, _, _, _, _, _], _, rfl, rfl, rfl, ?_⟩
    iterate 6 refine pl _ _ (by decide) ?_
    exact .nil
  · refine ⟨_, [_, _, _, _, _, _, _, _, _, _], rfl, rfl, ?_⟩
    iterate 3 refine pl _ _ (by decide) ?_
    refine .block _ _ [_] [_, _, _, _] rfl rfl (pl _ _ (by decide) .nil) ?_
    iterate 4 refine pl _ _ (by decide) ?_
    exact .nil

theorem enc_content : AllGlobals .empty ([encGlobals] ++ [exBof 0x10 :: encSheet]) encContent := by
  have sk : ∀ (c c' : Content) (r : Record) (rs : List Record), ¬ telling r.type → Globals c rs c' →
      Globals c (r :: rs) c' := fun c c' r rs h => .skip c c' r rs (Or.inr h)
  refine .cons _ encContent _ _ _ ?_ (.cons _ encContent _ _ _ ?_ (.nil _))
  · refine .bof _ _ 5 _ _ _ _ (by decide) (by decide) ?_
    refine sk _ _ _ _ (by unfold telling; decide) ?_
    refine .dateMode _ _ 1 [] _ (by decide) ?_
    refine .style _ _ 0 14 [] _ (by decide) ?_
    refine .style _ _ 0 0 [] _ (by decide) ?_
    refine .sheet _ _ encEntry _ ?_ ?_
    · exact ⟨by decide, by unfold Scalar; decide +kernel, by unfold Fits; decide +kernel, by decide +kernel⟩
    refine .strings _ _ [1, 0, 0, 0, 1, 0, 0, 0] [⟨false, 0, [0x68, 0x69], [], [], []⟩] [[0x68, 0x69]]
      [1, 0, 0, 0, 1, 0, 0, 0, 2, 0, 0, 0x68, 0x69] [] _ rfl ?_ ?_ ?_ (by decide +kernel) (by decide +kernel) ?_ ?_
    · intro s hs
      rw [List.mem_singleton] at hs
      subst hs
      exact ⟨by decide +kernel, by unfold Fits; decide +kernel, by unfold Fits; decide +kernel, by decide +kernel,
        by decide +kernel⟩
    · unfold NoLoneByte; decide +kernel
    · unfold Scalar; decide +kernel
    · intro r hr
      cases hr
      decide
    · exact .skip _ _ _ _ (Or.inl rfl) (.nil _)
  · refine .bof _ _ _ _ _ _ _ (by decide) (by decide) ?_
    iterate 3 refine sk _ _ _ _ (by unfold telling; decide) ?_
    refine .bof _ _ _ _ _ _ _ (by decide) (by decide) ?_
    refine sk _ _ _ _ (by unfold telling; decide) ?_
    refine .skip _ _ _ _ (Or.inl rfl) ?_
    iterate 4 refine sk _ _ _ _ (by unfold telling; decide) ?_
    exact .nil _

theorem encSheet_declares : Declares (0, 0) encSheet (4, 4) := by
  have ot : ∀ (r : Record) (rs : List Record), (r.type ≠ 0x809 ∧ r.type ≠ 129 ∧ r.type ≠ 512) →
      Declares (4, 4) rs (4, 4) → Declares (4, 4) (r :: rs) (4, 4) := fun r rs h => .other _ _ r rs h.1 h.2.1 h.2.2
  refine .dims _ _ 0 4 0 4 [0, 0] _ (by decide) (by decide) ?_
  iterate 2 refine ot _ _ (by decide) ?_
  refine .block _ _ _ _ [_] _ rfl rfl (by decide) ?_
  iterate 4 refine ot _ _ (by decide) ?_
  exact .nil _

theorem encSheet_recs : SheetRecs encContent.strings encContent.styles 4 4 encSheet exWrites := by
  refine .other _ _ _ (by unfold cellType; decide) ?_
  refine .number 0 0 0 _ [] _ _ (by unfold HeadFits; decide) (by decide) ?_
  have h2 := SheetRecs.mulRk (strings := encContent.strings) (styles := encContent.styles) (maxRow := 4) (maxCol := 4)
    1 0 1 [(1, 22), (1, 0x3FF00000)] (encSheet.drop 3) (exWrites.drop 3) (by decide) (by decide) (by decide) (by decide)
  refine h2 ?_
  refine .block _ _ [_] _ _ rfl rfl (by decide) ?_
  have h3 := SheetRecs.label (strings := encContent.strings) (styles := encContent.styles) (maxRow := 4) (maxCol := 4)
    2 0 1 0 [0x68, 0x69] [] (encSheet.drop 7) (exWrites.drop 4) (by unfold HeadFits; decide) (by decide) rfl
  refine h3 ?_
  have h4 := SheetRecs.formulaText (strings := encContent.strings) (styles := encContent.styles) (maxRow := 4)
    (maxCol := 4) 2 1 1 3 0 0 0 0 0 [0, 0] [] ⟨1, [0x61, 0x1F600]⟩ [] (encSheet.drop 9) (exWrites.drop 5)
    (by unfold HeadFits; decide) (by simp)
    ⟨by unfold Scalar; decide +kernel, by decide +kernel, by decide +kernel⟩ (by simp) (by decide +kernel) (by decide)
    (fun _ => rfl) (by intro r hr; cases hr; decide)
  refine h4 ?_
  have hr : RegionWrites (Region.clip 4 4 ⟨2, 3, 2, 3⟩) none (exWrites.drop 5) := by
    have := Xls.region_exists (Region.clip 4 4 ⟨2, 3, 2, 3⟩) none
    exact this
  have h5 := SheetRecs.merge (strings := encContent.strings) (styles := encContent.styles) (maxRow := 4)
    (maxCol := 4) [⟨2, 3, 2, 3⟩] [] (exWrites.drop 5 ++ []) [] [] (by decide)
    (.cons _ [] _ [] (by unfold Region.Fits; decide) (by unfold Region.Clips; decide) hr .nil)
  exact h5 .nil

theorem enc_writes : SheetWrites ([encGlobals] ++ [exBof 0x10 :: encSheet]) encContent encEntry (4, 4) exWrites := by
  refine ⟨⟨[], [], rfl, by simp⟩, ⟨1, exBof 0x10, encSheet, rfl, by decide +kernel, encSheet_declares, encSheet_recs,
    by decide +kernel⟩, C82_witness.2.2⟩

/-- C77 and C82: the encrypted example file meets the hypotheses; `Open`, `List` and `Get` on it, and what `grater` prints. -/
theorem C77_encrypted_witness (w : World) (ext : Ext) (fn : Bytes) (hf : w.files fn = .ok encFile) (hp : w.prims = toy)
    (hb : w.bufs = List.replicate 512 512) :
    ∃ b n, (∀ k, n ≤ k → ∀ t, Shipped { w with fuel := k } t → openSrc t fn = .ok (.xls b)) ∧
      (Source.xls b).list = [lit "S"] ∧
      ∃ s, (Source.xls b).get ext (lit "S") = .ok (.xls b, .ok (.sheet s)) ∧ Holds ext Formatter.new exWrites s := by
  obtain ⟨b, n, h1, h2, h3, _⟩ := C77_encrypted_partial w ext fn _ hf (by rw [hp]; exact toy_digest) _ _ _
    (by rw [hp]; exact encFile_encrypted.1) enc_content (by rw [hb]; intro k hk; rw [(List.mem_replicate.1 hk).2]; decide)
    (by rw [hb]; decide +kernel)
  obtain ⟨s, g1, g2, _⟩ := h3 [] [] encEntry rfl (by simp) 1 (exBof 0x10) encSheet rfl (by decide +kernel) 4 4
    encSheet_declares exWrites encSheet_recs
  exact ⟨b, n, h1, h2, s, g1, g2⟩

/-- C82: what `grater` prints for the encrypted example file is the table of its sheet. -/
theorem C82_encrypted_witness (w : World) (ext : Ext) (hpr : Prints ext) (fn : Bytes) (hf : w.files fn = .ok encFile)
    (hp : w.prims = toy) (hb : w.bufs = List.replicate 512 512) :
    ∃ (table : List (List Bytes)) (n m : Nat), Table ext Formatter.new (4, 4) exWrites table ∧
      ∀ k, n ≤ k → ∀ t, Shipped { w with fuel := k } t → ∀ fuel, m ≤ fuel → ∃ ev,
        Grater.main ext false fuel t [fn] = some (.ok ev) ∧ stdout ev = tsvText table ∧ stderr ev = [] := by
  obtain ⟨tables, n, m, h1, h2⟩ := C82_encrypted_partial w ext hpr fn _ hf (by rw [hp]; exact toy_digest) _ _ _
    (by rw [hp]; exact encFile_encrypted.1) enc_content (by rw [hb]; intro k hk; rw [(List.mem_replicate.1 hk).2]; decide)
    (by rw [hb]; decide +kernel) (fun _ => (4, 4)) (fun _ => exWrites) (by
      intro e he _
      simp only [encContent, List.mem_singleton] at he
      subst he
      exact enc_writes)
  have hv : encContent.sheets.filter (·.visible) = [encEntry] := rfl
  rw [hv] at h1
  cases h1 with
  | cons ht hn =>
    cases hn
    refine ⟨_, n, m, ht, fun k hk t htt fuel hfu => ?_⟩
    obtain ⟨ev, e1, e2, e3⟩ := h2 k hk t htt fuel hfu
    exact ⟨ev, e1, by rw [e2]; simp, e3⟩

end Grate.Props
