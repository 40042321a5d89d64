import Verif.Props.SameStored
import Verif.Props.XlsLayoutWitness

/-! # C122: example files -/

namespace Grate.Props

open Grate Grate.Spec Grate.Api

/-! ### The file with a given content -/

theorem sector_later {A R : Bytes} (hA : A.length = 512) (k : Nat) : sector (A ++ R) 9 (k + 1) = sector R 9 k := by
  unfold sector
  have : (k + 1 + 1) * 2 ^ 9 = A.length + (k + 1) * 2 ^ 9 := by rw [hA]; omega
  rw [this, ← List.drop_drop, List.drop_left]

theorem sector_first {A B R : Bytes} (hA : A.length = 512) (hB : B.length = 512) : sector (A ++ (B ++ R)) 9 0 = B := by
  unfold sector
  have : (0 + 1) * 2 ^ 9 = A.length := by rw [hA]; rfl
  rw [this, List.drop_left]
  have : 2 ^ 9 = B.length := by rw [hB]; rfl
  rw [this, List.take_left]

/-- The FAT of the file. -/
def wbFat : Bytes := ([0xFFFFFFFD, 0xFFFFFFFE, 0xFFFFFFFE, 0xFFFFFFFE, 0xFFFFFFFE] ++ List.replicate 123 0xFFFFFFFF).flatMap (leBytes 4)
/-- Its mini FAT. -/
def wbMini : Bytes := ([1, 2, 3, 4, 0xFFFFFFFE] ++ List.replicate 123 0xFFFFFFFF).flatMap (leBytes 4)
/-- Its directory. -/
def wbDir : Bytes := wbSlots.flatMap Slot.bytes

theorem wb_lengths : exHead.bytes.length = 512 ∧ wbFat.length = 512 ∧ wbMini.length = 512 ∧ wbDir.length = 512 := by decide +kernel

theorem wbFileOf_eq (content : Bytes) : wbFileOf content 0xFFFFFFFE wbSlots =
    exHead.bytes ++ (wbFat ++ (wbDir ++ (wbMini ++ (content ++ List.replicate 251 0)))) := by
  unfold wbFileOf
  have h1 : wbSlots.take 4 = wbSlots := rfl
  have h2 : wbSlots.drop 4 = [] := rfl
  rw [h1, h2, List.flatMap_nil, List.append_nil]
  rfl

theorem wbOf_sectors (content : Bytes) (hc : content.length = 261) :
    sector (wbFileOf content 0xFFFFFFFE wbSlots) 9 0 = wbFat ∧ sector (wbFileOf content 0xFFFFFFFE wbSlots) 9 1 = wbDir ∧
    sector (wbFileOf content 0xFFFFFFFE wbSlots) 9 2 = wbMini ∧
    sector (wbFileOf content 0xFFFFFFFE wbSlots) 9 3 = content ++ List.replicate 251 0 ∧
    (wbFileOf content 0xFFFFFFFE wbSlots).length = 2560 := by
  obtain ⟨a, b, c, d⟩ := wb_lengths
  rw [wbFileOf_eq]
  refine ⟨sector_first a b, ?_, ?_, ?_, ?_⟩
  · rw [sector_later a, sector_first b d]
  · rw [sector_later a, sector_later b, sector_first d c]
  · rw [sector_later a, sector_later b, sector_later d]
    have := sector_first (R := []) c (B := content ++ List.replicate 251 0) (by rw [List.length_append, hc, List.length_replicate])
    rw [List.append_nil] at this
    exact this
  · simp only [List.length_append, a, b, c, d, hc, List.length_replicate]

theorem wbOf_doc (content : Bytes) (hc : content.length = 261) :
    Spec.Doc (wbFileOf content 0xFFFFFFFE wbSlots) exHead (words wbFat) wbSlots := by
  obtain ⟨s0, s1, _, _, hl⟩ := wbOf_sectors content hc
  exact {
    header := ⟨_, wbFileOf_eq content⟩
    numFAT := by decide
    firstDir := by decide
    firstMiniFAT := by decide
    numMiniFAT := by decide
    firstDIFAT := by decide
    numDIFAT := by decide
    headFAT := by decide
    table := ⟨[], Or.inr ⟨rfl, rfl⟩, by
      intro i hi
      have : i = 0 := by simpa [exHead] using hi
      subst this
      exact ⟨by unfold Regular; decide, by unfold HasSector; rw [hl]; decide⟩, by
        show words wbFat = table _ 9 [0]
        unfold table
        rw [List.flatMap_cons, List.flatMap_nil, List.append_nil, s0]⟩
    dir := ⟨[1], .cons 1 0xFFFFFFFE [] (by decide +kernel) .done, by
      intro i hi
      have : i = 1 := by simpa using hi
      subst this
      exact ⟨by unfold Regular; decide, by unfold HasSector; rw [hl]; decide⟩, by
        rw [List.map_cons, List.map_nil, List.flatten_cons, List.flatten_nil, List.append_nil, s1]
        rfl⟩
    slotsOk := wbDoc.slotsOk
    root := ⟨wbRoot, exMid, _, rfl, rfl, by decide⟩ }

/-- The file has the content as its stream `Workbook`. -/
theorem wbOf_stream (content : Bytes) (hc : content.length = 261) :
    StreamIn (wbFileOf content 0xFFFFFFFE wbSlots) (lit "Workbook") content := by
  obtain ⟨s0, s1, s2, s3, hl⟩ := wbOf_sectors content hc
  have hlen : (content ++ List.replicate 251 (0 : UInt8)).length = 512 := by rw [List.length_append, hc, List.length_replicate]
  have e : ((([0, 1, 2, 3, 4] : List Nat).map (miniSector (content ++ List.replicate 251 0))).flatten).take wbEntry.size = content := by
    have h1 : (([0, 1, 2, 3, 4] : List Nat).map (miniSector (content ++ List.replicate 251 0))).flatten =
        (content ++ List.replicate 251 0).take 320 := by
      generalize content ++ List.replicate 251 0 = m
      simp only [List.map_cons, List.map_nil, List.flatten_cons, List.flatten_nil, List.append_nil, miniSector, Nat.zero_mul, List.drop_zero]
      have st : ∀ n : Nat, m.take n ++ (m.drop n).take 64 = m.take (n + 64) := fun n => by rw [List.take_add]
      rw [← List.append_assoc, ← List.append_assoc, ← List.append_assoc, st 64, st 128, st 192, st 256]
    rw [h1, List.take_take]
    show List.take (min 261 320) _ = _
    rw [show min 261 320 = content.length by rw [hc]; rfl, List.take_left]
  have h := StreamIn.small (file := wbFileOf content 0xFFFFFFFE wbSlots) (name := lit "Workbook") exHead _ wbRoot exMid []
    [exFree, exFree] wbEntry exMid [3] [0, 1, 2, 3, 4] (content ++ List.replicate 251 0) (wbOf_doc content hc)
    (by unfold Regular; decide) (by unfold HasSector; rw [hl]; decide) (by decide) (by simp) (by decide) (by simp [entries])
    (by decide +kernel) rfl (by decide)
    (.cons _ 0xFFFFFFFE _ (by decide +kernel) .done)
    (by
      intro i hi
      have : i = 3 := by simpa using hi
      subst this
      exact ⟨by unfold Regular; decide, by unfold HasSector; rw [hl]⟩) (by decide)
    (by rw [List.map_cons, List.map_nil, List.flatten_cons, List.flatten_nil, List.append_nil, s3])
    (by
      show Chain (words (sector _ 9 2)) _ _
      rw [s2]
      exact .cons _ 1 _ (by decide +kernel) (.cons _ 2 _ (by decide +kernel) (.cons _ 3 _ (by decide +kernel)
        (.cons _ 4 _ (by decide +kernel) (.cons _ 0xFFFFFFFE _ (by decide +kernel) .done))))) (by decide)
    (by
      intro i hi
      have : i ≤ 4 := by revert i; decide
      refine ⟨by unfold Regular; omega, by omega⟩)
  rw [e] at h
  exact h

/-! ### Two workbooks with the same sheet -/

/-- The entry of the sheet. -/
def exStoredEntry : SheetEntry := ⟨73, 0, 0, 0, [0x53]⟩

/-- The size of the sheet: two rows and two columns. -/
def exStoredDims : Record := ⟨512, leBytes 4 0 ++ (leBytes 4 2 ++ (leBytes 2 0 ++ (leBytes 2 2 ++ [0, 0])))⟩

/-- The cells, in the first workbook: two texts, then two numbers, one by one. -/
def exStoredSheet : List Record :=
  [exStoredDims, ⟨253, cellHead 0 0 1 (leBytes 4 0 ++ [])⟩, ⟨253, cellHead 0 1 1 (leBytes 4 1 ++ [])⟩,
   ⟨638, cellHead 1 0 0 (leBytes 4 22 ++ [])⟩, ⟨638, cellHead 1 1 0 (leBytes 4 26 ++ [])⟩, ⟨1, List.replicate 86 0⟩, ⟨0x0A, []⟩]

/-- The cells, in the second workbook: the numbers in one record, then the texts in another order, one of them after another text
in the same cell. -/
def exStoredSheet2 : List Record :=
  [exStoredDims, ⟨189, leBytes 2 1 ++ (leBytes 2 0 ++ ([(1, 22), (1, 26)].flatMap (fun v : Nat × Nat => leBytes 2 v.1 ++ leBytes 4 v.2) ++ leBytes 2 1))⟩,
   ⟨253, cellHead 0 1 0 (leBytes 4 1 ++ [])⟩, ⟨253, cellHead 0 1 0 (leBytes 4 0 ++ [])⟩, ⟨253, cellHead 0 0 0 (leBytes 4 1 ++ [])⟩,
   ⟨1, List.replicate 78 0⟩, ⟨0x0A, []⟩]

/-- The first workbook: the texts are `a` and `b`, the styles are a date and a general one. -/
def exStored : List (List Record) :=
  [[exBof 5, ⟨224, leBytes 2 0 ++ (leBytes 2 14 ++ [])⟩, ⟨224, leBytes 2 0 ++ (leBytes 2 0 ++ [])⟩, ⟨0x85, exStoredEntry.data⟩,
    ⟨252, [2, 0, 0, 0, 2, 0, 0, 0, 1, 0, 0, 0x61, 1, 0, 0, 0x62]⟩, ⟨0x0A, []⟩], exBof 0x10 :: exStoredSheet]

/-- The second workbook: texts and styles in the other order. -/
def exStored2 : List (List Record) :=
  [[exBof 5, ⟨224, leBytes 2 0 ++ (leBytes 2 0 ++ [])⟩, ⟨224, leBytes 2 0 ++ (leBytes 2 14 ++ [])⟩, ⟨0x85, exStoredEntry.data⟩,
    ⟨252, [2, 0, 0, 0, 2, 0, 0, 0, 1, 0, 0, 0x62, 1, 0, 0, 0x61]⟩, ⟨0x0A, []⟩], exBof 0x10 :: exStoredSheet2]

/-- What they say. -/
def exStoredContent : Content := ⟨[exStoredEntry], 0, [[0x61], [0x62]], [], [14, 0]⟩
def exStoredContent2 : Content := ⟨[exStoredEntry], 0, [[0x62], [0x61]], [], [0, 14]⟩

/-- The cells of the sheets. -/
def exStoredWrites : List Write :=
  [⟨0, 0, .value (.str (utf8 [0x61])) 0⟩, ⟨0, 1, .value (.str (utf8 [0x62])) 0⟩,
   ⟨1, 0, .value (rkMeans 22) 14⟩, ⟨1, 1, .value (rkMeans 26) 14⟩]
def exStoredWrites2 : List Write :=
  [⟨1, 0, .value (rkMeans 22) 14⟩, ⟨1, 1, .value (rkMeans 26) 14⟩, ⟨0, 1, .value (.str (utf8 [0x61])) 0⟩,
   ⟨0, 1, .value (.str (utf8 [0x62])) 0⟩, ⟨0, 0, .value (.str (utf8 [0x61])) 0⟩]

theorem exStored_grouped : (Grouped exStored ∧ ∀ r ∈ exStored.flatten, r.type ≠ 0x2F) ∧
    Grouped exStored2 ∧ ∀ r ∈ exStored2.flatten, r.type ≠ 0x2F := by
  have pl : ∀ (r : Record) (rs : List Record), (r.type ≠ 0x809 ∧ r.type ≠ 0x0A) → Balanced rs → Balanced (r :: rs) :=
    fun r rs h hb => .plain r rs h.1 h.2 hb
  refine ⟨⟨⟨by unfold Record.Fits; decide +kernel, ?_⟩, by decide +kernel⟩, ⟨by unfold Record.Fits; decide +kernel, ?_⟩, by decide +kernel⟩ <;>
    (intro g hg
     simp only [exStored, exStored2, List.mem_cons, List.not_mem_nil, or_false] at hg
     rcases hg with rfl | rfl)
  · refine ⟨_, [_, _, _, _], _, rfl, rfl, rfl, ?_⟩
    iterate 4 refine pl _ _ (by decide) ?_
    exact .nil
  · refine ⟨_, [_, _, _, _, _, _], _, rfl, rfl, rfl, ?_⟩
    iterate 6 refine pl _ _ (by decide) ?_
    exact .nil
  · refine ⟨_, [_, _, _, _], _, rfl, rfl, rfl, ?_⟩
    iterate 4 refine pl _ _ (by decide) ?_
    exact .nil
  · refine ⟨_, [_, _, _, _, _, _], _, rfl, rfl, rfl, ?_⟩
    iterate 6 refine pl _ _ (by decide) ?_
    exact .nil

theorem exStored_content : AllGlobals .empty exStored exStoredContent := by
  have sk : ∀ (c c' : Content) (r : Record) (rs : List Record), ¬ telling r.type → Globals c rs c' →
      Globals c (r :: rs) c' := fun c c' r rs h => .skip c c' r rs (Or.inr h)
  refine .cons _ exStoredContent _ _ _ ?_ (.cons _ exStoredContent _ _ _ ?_ (.nil _))
  · refine .bof _ _ 5 _ _ _ _ (by decide) (by decide) ?_
    refine .style _ _ 0 14 [] _ (by decide) ?_
    refine .style _ _ 0 0 [] _ (by decide) ?_
    refine .sheet _ _ exStoredEntry _ ?_ ?_
    · exact ⟨by decide, by unfold Spec.Scalar; decide +kernel, by unfold Fits; decide +kernel, by decide +kernel⟩
    refine .strings _ _ [2, 0, 0, 0, 2, 0, 0, 0] [⟨false, 0, [0x61], [], [], []⟩, ⟨false, 0, [0x62], [], [], []⟩] [[0x61], [0x62]]
      [2, 0, 0, 0, 2, 0, 0, 0, 1, 0, 0, 0x61, 1, 0, 0, 0x62] [] _ rfl ?_ ?_ ?_ (by decide +kernel) (by decide +kernel) ?_ ?_
    · intro s hs
      simp only [List.mem_cons, List.not_mem_nil, or_false] at hs
      rcases hs with rfl | rfl <;>
      exact ⟨by decide +kernel, by unfold Fits; decide +kernel, by unfold Fits; decide +kernel, by decide +kernel,
        by decide +kernel⟩
    · unfold NoLoneByte; decide +kernel
    · unfold Spec.Scalar; decide +kernel
    · intro r hr
      cases hr
      decide
    · exact .skip _ _ _ _ (Or.inl rfl) (.nil _)
  · refine .bof _ _ _ _ _ _ _ (by decide) (by decide) ?_
    iterate 6 refine sk _ _ _ _ (by unfold telling; decide) ?_
    exact .skip _ _ _ _ (Or.inl rfl) (.nil _)

theorem exStored2_content : AllGlobals .empty exStored2 exStoredContent2 := by
  have sk : ∀ (c c' : Content) (r : Record) (rs : List Record), ¬ telling r.type → Globals c rs c' →
      Globals c (r :: rs) c' := fun c c' r rs h => .skip c c' r rs (Or.inr h)
  refine .cons _ exStoredContent2 _ _ _ ?_ (.cons _ exStoredContent2 _ _ _ ?_ (.nil _))
  · refine .bof _ _ 5 _ _ _ _ (by decide) (by decide) ?_
    refine .style _ _ 0 0 [] _ (by decide) ?_
    refine .style _ _ 0 14 [] _ (by decide) ?_
    refine .sheet _ _ exStoredEntry _ ?_ ?_
    · exact ⟨by decide, by unfold Spec.Scalar; decide +kernel, by unfold Fits; decide +kernel, by decide +kernel⟩
    refine .strings _ _ [2, 0, 0, 0, 2, 0, 0, 0] [⟨false, 0, [0x62], [], [], []⟩, ⟨false, 0, [0x61], [], [], []⟩] [[0x62], [0x61]]
      [2, 0, 0, 0, 2, 0, 0, 0, 1, 0, 0, 0x62, 1, 0, 0, 0x61] [] _ rfl ?_ ?_ ?_ (by decide +kernel) (by decide +kernel) ?_ ?_
    · intro s hs
      simp only [List.mem_cons, List.not_mem_nil, or_false] at hs
      rcases hs with rfl | rfl <;>
      exact ⟨by decide +kernel, by unfold Fits; decide +kernel, by unfold Fits; decide +kernel, by decide +kernel,
        by decide +kernel⟩
    · unfold NoLoneByte; decide +kernel
    · unfold Spec.Scalar; decide +kernel
    · intro r hr
      cases hr
      decide
    · exact .skip _ _ _ _ (Or.inl rfl) (.nil _)
  · refine .bof _ _ _ _ _ _ _ (by decide) (by decide) ?_
    iterate 6 refine sk _ _ _ _ (by unfold telling; decide) ?_
    exact .skip _ _ _ _ (Or.inl rfl) (.nil _)

theorem exStored_declares (rs : List Record) (h : ∀ r ∈ rs, r.type ≠ 0x809 ∧ r.type ≠ 129 ∧ r.type ≠ 512) :
    Declares (0, 0) (exStoredDims :: rs) (2, 2) := by
  refine .dims _ _ 0 2 0 2 [0, 0] _ (by decide) (by decide) ?_
  induction rs with
  | nil => exact .nil _
  | cons r rs ih =>
    obtain ⟨h1, h2, h3⟩ := h r (.head _)
    exact .other _ _ r rs h1 h2 h3 (ih (fun x hx => h x (.tail _ hx)))

theorem exStored_cells : CellsOf exStoredContent (exBof 0x10 :: exStoredSheet) (2, 2) exStoredWrites := by
  refine ⟨_, _, rfl, rfl, exStored_declares _ (by decide +kernel), by decide +kernel, ?_⟩
  refine .other _ _ _ (by unfold cellType; decide) ?_
  have h1 := SheetRecs.label (strings := exStoredContent.strings) (styles := exStoredContent.styles) (maxRow := 2) (maxCol := 2)
    0 0 1 0 [0x61] [] (exStoredSheet.drop 2) (exStoredWrites.drop 1) (by unfold HeadFits; decide) (by decide) rfl
  refine h1 ?_
  have h2 := SheetRecs.label (strings := exStoredContent.strings) (styles := exStoredContent.styles) (maxRow := 2) (maxCol := 2)
    0 1 1 1 [0x62] [] (exStoredSheet.drop 3) (exStoredWrites.drop 2) (by unfold HeadFits; decide) (by decide) rfl
  refine h2 ?_
  refine .rk 1 0 0 22 [] _ _ (by unfold HeadFits; decide) (by decide) (by decide) ?_
  refine .rk 1 1 0 26 [] _ _ (by unfold HeadFits; decide) (by decide) (by decide) ?_
  exact .other ⟨1, _⟩ _ _ (by unfold cellType; decide) (.other ⟨0x0A, []⟩ _ _ (by unfold cellType; decide) .nil)

theorem exStored2_cells : CellsOf exStoredContent2 (exBof 0x10 :: exStoredSheet2) (2, 2) exStoredWrites2 := by
  refine ⟨_, _, rfl, rfl, exStored_declares _ (by decide +kernel), by decide +kernel, ?_⟩
  refine .other _ _ _ (by unfold cellType; decide) ?_
  have h0 := SheetRecs.mulRk (strings := exStoredContent2.strings) (styles := exStoredContent2.styles) (maxRow := 2) (maxCol := 2)
    1 0 1 [(1, 22), (1, 26)] (exStoredSheet2.drop 2) (exStoredWrites2.drop 2) (by decide) (by decide) (by decide) (by decide)
  refine h0 ?_
  have h1 := SheetRecs.label (strings := exStoredContent2.strings) (styles := exStoredContent2.styles) (maxRow := 2) (maxCol := 2)
    0 1 0 1 [0x61] [] (exStoredSheet2.drop 3) (exStoredWrites2.drop 3) (by unfold HeadFits; decide) (by decide) rfl
  refine h1 ?_
  have h2 := SheetRecs.label (strings := exStoredContent2.strings) (styles := exStoredContent2.styles) (maxRow := 2) (maxCol := 2)
    0 1 0 0 [0x62] [] (exStoredSheet2.drop 4) (exStoredWrites2.drop 4) (by unfold HeadFits; decide) (by decide) rfl
  refine h2 ?_
  have h3 := SheetRecs.label (strings := exStoredContent2.strings) (styles := exStoredContent2.styles) (maxRow := 2) (maxCol := 2)
    0 0 0 1 [0x61] [] (exStoredSheet2.drop 5) [] (by unfold HeadFits; decide) (by decide) rfl
  refine h3 ?_
  exact .other ⟨1, _⟩ _ _ (by unfold cellType; decide) (.other ⟨0x0A, []⟩ _ _ (by unfold cellType; decide) .nil)

theorem exStored_grid : SameGrid exStoredWrites exStoredWrites2 := by
  intro r c
  simp only [exStoredWrites, exStoredWrites2, lastAt]
  match r, c with
  | 0, 0 => rfl
  | 0, 1 => rfl
  | 0, c + 2 => rfl
  | 1, 0 => rfl
  | 1, 1 => rfl
  | 1, c + 2 => rfl
  | r + 2, c => rfl

/-- The hypotheses of C122 hold: the same table stored in two ways. -/
theorem C122_witness (w : World) (ext : Ext) (hb : w.bufs = List.replicate 512 512)
    (hf : w.files (lit "a.xls") = .ok (wbFileOf (stream exStored.flatten) 0xFFFFFFFE wbSlots))
    (hf' : w.files (lit "b.xls") = .ok (wbFileOf (stream exStored2.flatten) 0xFFFFFFFE wbSlots)) :
    stream exStored.flatten ≠ stream exStored2.flatten ∧
    ∃ k, ∀ fuel, k ≤ fuel → ∀ t, Shipped { w with fuel := fuel } t → ∃ src src' s s', openSrc t (lit "a.xls") = .ok src ∧
      openSrc t (lit "b.xls") = .ok src' ∧ src.get ext (lit "S") = .ok (src, .ok (.sheet s)) ∧
      src'.get ext (lit "S") = .ok (src', .ok (.sheet s')) ∧ ∀ as, seen ext as s = seen ext as s' := by
  have pos : ∀ k ∈ w.bufs, 0 < k := by rw [hb]; decide +kernel
  have l1 : (stream exStored.flatten).length = 261 := by decide +kernel
  have l2 : (stream exStored2.flatten).length = 261 := by decide +kernel
  have hn : utf8 exStoredEntry.name = lit "S" := by decide +kernel
  have p1 : position exStored 1 = exStoredEntry.position := by decide +kernel
  have p2 : position exStored2 1 = exStoredEntry.position := by decide +kernel
  refine ⟨by decide +kernel, C122_xls_partial w ext _ _ _ _ hf hf' pos
    (.plain _ exStored_grouped.1.1 exStored_grouped.1.2 exStored_content (wbOf_stream _ l1) (by rw [l1, hb]; decide +kernel))
    (.plain _ exStored_grouped.2.1 exStored_grouped.2.2 exStored2_content (wbOf_stream _ l2) (by rw [l2, hb]; decide +kernel))
    rfl _ _ _ ⟨[], [], exStoredEntry, 1, rfl, by simp, hn, rfl, p1⟩ ⟨[], [], exStoredEntry, 1, rfl, by simp, hn, rfl, p2⟩
    _ _ _ _ exStored_cells exStored2_cells exStored_grid 2 2 ?_ ?_ ?_ ?_⟩ <;> unfold Extent <;> decide +kernel

/-! ### Two xlsx files with the same sheet -/

/-- An archive with another part in the place of one. -/
def putPart (a : Xlsx.Archive) (n : Bytes) (ts : List Xlsx.Tok) : Xlsx.Archive :=
  a.map (fun e => if e.1 = n then (n, .ok ⟨ts, .eof⟩) else e)

theorem hasPart_put {a : Xlsx.Archive} {n m : Bytes} {ts us : List Xlsx.Tok} (hne : m ≠ n) (h : HasPart a m us) :
    HasPart (putPart a n ts) m us := by
  obtain ⟨before, after, rfl, hb⟩ := h
  refine ⟨putPart before n ts, putPart after n ts, by simp [putPart, hne], ?_⟩
  intro e he
  obtain ⟨x, hx, rfl⟩ := List.mem_map.1 he
  split
  · exact hne.symm
  · exact hb x hx

theorem hasPart_put_self {a : Xlsx.Archive} {n : Bytes} {ts us : List Xlsx.Tok} (h : HasPart a n us) : HasPart (putPart a n ts) n ts := by
  obtain ⟨before, after, rfl, hb⟩ := h
  refine ⟨putPart before n ts, putPart after n ts, by simp [putPart], ?_⟩
  intro e he
  obtain ⟨x, hx, rfl⟩ := List.mem_map.1 he
  rw [if_neg (hb x hx)]
  exact hb x hx

theorem lacksPart_put {a : Xlsx.Archive} {n m : Bytes} {ts : List Xlsx.Tok} (hne : m ≠ n) (h : LacksPart a m) : LacksPart (putPart a n ts) m := by
  intro e he
  obtain ⟨x, hx, rfl⟩ := List.mem_map.1 he
  split
  · exact hne.symm
  · exact h x hx

theorem xlsxFile_put {a : Xlsx.Archive} {dir : List Bytes} {base : Bytes} {b : Spec.Book} (h : XlsxFile a dir base b) {n : Bytes}
    {ts : List Xlsx.Tok} (h0 : lit "_rels/.rels" ≠ n) (h1 : relsPart dir base ≠ n) (h2 : pathOf (dir ++ [base]) ≠ n)
    (h3 : ∀ p ∈ partsOf b.rels (relType "styles") ++ partsOf b.rels (relType "sharedStrings"), p ≠ n) :
    XlsxFile (putPart a n ts) dir base b where
  dirNames := h.dirNames
  baseName := h.baseName
  root := by
    obtain ⟨us, x, y, r, hp, hr⟩ := h.root
    exact ⟨us, x, y, r, hasPart_put h0 hp, hr⟩
  rels := by
    obtain ⟨us, hp, hr⟩ := h.rels
    exact ⟨us, hasPart_put h1 hp, hr⟩
  noOther := h.noOther
  ids := h.ids
  workbook := by
    obtain ⟨us, hp, hr⟩ := h.workbook
    exact ⟨us, hasPart_put h2 hp, hr⟩
  styles := by
    rcases h.styles with h | ⟨p, us, xfs, e, hp, hr⟩
    · exact .inl h
    · exact .inr ⟨p, us, xfs, e, hasPart_put (h3 p (by rw [e]; simp)) hp, hr⟩
  strings := by
    rcases h.strings with h | ⟨p, us, e, hp, hr⟩
    · exact .inl h
    · exact .inr ⟨p, us, e, hasPart_put (h3 p (by rw [e]; simp)) hp, hr⟩

/-- The cells of the sheet "two" of the archive of C61. -/
theorem exPartCells_ok (ext : Ext) : ∀ x ∈ exPartCells, x.Ok ext exXlsxBook.strings exXlsxBook.styles := by
  intro x hx
  obtain ⟨y, hy, rfl⟩ := List.mem_map.1 hx
  obtain ⟨h1, h2, h3, ⟨k, h4, h5, _⟩, _⟩ := (C58_witness ext).1 y hy
  simp only [exSheetCells, List.mem_cons, List.not_mem_nil, or_false] at hy
  rcases hy with rfl | rfl
  · refine ⟨h1, h2, h3, ⟨k, h4, h5, rfl⟩, ⟨some (lit "s"), .inr ⟨_, by unfold Has; decide +kernel, rfl⟩, ?_⟩⟩
    refine .value [] [] (lit "v") (lit "1") [] _ (by simp) (by simp) (.inl rfl) ?_
    exact .shared (lit "1") (lit "two") (isDigits_of (by decide +kernel)) (by decide +kernel) (by decide +kernel)
  · refine ⟨h1, h2, h3, ⟨k, h4, h5, rfl⟩, ⟨some (lit "b"), .inr ⟨_, by unfold Has; decide +kernel, rfl⟩, ?_⟩⟩
    refine .formula [] [] [] (lit "A1=2") (lit "1") [] [] _ (by simp) (by simp) (by simp) (by decide +kernel) ?_ ?_
    · exact fun h => absurd (Option.some.inj h) (by decide +kernel)
    · exact .true []

/-- A list with the first cell of the sheet twice, the rest in between. -/
def exPartCells2 : List ACell := exPartCells ++ exPartCells.reverse

/-- That archive with the sheet stored in another way. -/
def exStoredZip : Xlsx.Archive := putPart exZip (lit "xl/worksheets/sheet1.xml") (exPartCells2.flatMap ACell.toks)

theorem exPart_of (ext : Ext) (a : Xlsx.Archive) (cells : List ACell)
    (hc : ∀ x ∈ cells, x.Ok ext exXlsxBook.strings exXlsxBook.styles)
    (hp : HasPart a (lit "xl/worksheets/sheet1.xml") (cells.flatMap ACell.toks))
    (hl : LacksPart a (relsPart [lit "xl", lit "worksheets"] (lit "sheet1.xml"))) :
    PartOf ext a exXlsxBook (lit "two") (0, 0) (cells.map ACell.write) := by
  have names : ∀ s ∈ [lit "xl", lit "worksheets"], RealName s := by
    intro s hs
    simp only [List.mem_cons, List.not_mem_nil, or_false] at hs
    rcases hs with rfl | rfl <;> exact realName_of (by decide +kernel)
  have hname : lit "xl/worksheets/sheet1.xml" = pathOf ([lit "xl", lit "worksheets"] ++ [lit "sheet1.xml"]) := by decide +kernel
  refine ⟨1, lit "rId1", _, [lit "xl", lit "worksheets"], lit "sheet1.xml", _, [], rfl, ?_, List.mem_cons_self .., rfl, rfl, names,
    (realName_of (by decide +kernel)).1, hname, hp, .inl ⟨hl, rfl⟩, .plain _ _ (cells_toks _ hc)⟩
  intro j s hj hs
  have : j = 0 := by omega
  subst this
  cases hs
  decide +kernel

theorem exStoredZip_part : HasPart exZip (lit "xl/worksheets/sheet1.xml") (exPartCells.flatMap ACell.toks) := by
  refine ⟨[_, _, _, _], [_], rfl, ?_⟩
  intro e he
  simp only [List.mem_cons, List.not_mem_nil, or_false] at he
  rcases he with rfl | rfl | rfl | rfl <;> decide +kernel

theorem exStoredZip_lacks : LacksPart exZip (relsPart [lit "xl", lit "worksheets"] (lit "sheet1.xml")) := by
  intro e he
  simp only [exZip, List.mem_cons, List.not_mem_nil, or_false] at he
  rcases he with rfl | rfl | rfl | rfl | rfl | rfl <;> decide +kernel

theorem exStoredZip_book : XlsxFile exStoredZip [lit "xl"] (lit "workbook.xml") exXlsxBook := by
  refine xlsxFile_put C61_witness (by decide +kernel) (by decide +kernel) (by decide +kernel) ?_
  intro q hq
  have e : partsOf exXlsxBook.rels (relType "styles") ++ partsOf exXlsxBook.rels (relType "sharedStrings") = [lit "strings.xml"] := by
    decide +kernel
  rw [e, List.mem_singleton] at hq
  subst hq
  decide +kernel

theorem exStoredZip_ok (ext : Ext) : ∀ x ∈ exPartCells2, x.Ok ext exXlsxBook.strings exXlsxBook.styles := by
  intro x hx
  rcases List.mem_append.1 hx with h | h
  · exact exPartCells_ok ext x h
  · exact exPartCells_ok ext x (List.mem_reverse.1 h)

theorem exStoredZip_grid : SameGrid (exPartCells.map ACell.write) (exPartCells2.map ACell.write) := by
  intro r c
  have e1 : exPartCells.map ACell.write = [⟨0, 0, .value (.str (lit "two")) 0⟩, ⟨11, 27, .value (.bool true) 0⟩] := rfl
  have e2 : exPartCells2.map ACell.write = [⟨0, 0, .value (.str (lit "two")) 0⟩, ⟨11, 27, .value (.bool true) 0⟩,
    ⟨11, 27, .value (.bool true) 0⟩, ⟨0, 0, .value (.str (lit "two")) 0⟩] := rfl
  rw [e1, e2]
  simp only [lastAt]
  by_cases h1 : (0 = r ∧ 0 = c)
  · obtain ⟨rfl, rfl⟩ := h1
    rfl
  by_cases h2 : (11 = r ∧ 27 = c)
  · obtain ⟨rfl, rfl⟩ := h2
    rfl
  rw [if_neg h1, if_neg h2]

/-- The hypotheses of C122 hold for xlsx files. -/
theorem C122_xlsx_witness (p : Crypto.Prims) (ext : Ext) (t : List (Grate.Entry Source)) (ht : Shipped (otherWorld p exStoredZip) t) :
    exZip ≠ exStoredZip ∧ ∃ src src' x x' s s', openSrc t (lit "a.xlsx") = .ok src ∧ openSrc t (lit "b.xlsx") = .ok src' ∧
      src.get ext (lit "two") = .ok (x, .ok (.sheet s)) ∧ src'.get ext (lit "two") = .ok (x', .ok (.sheet s')) ∧
      ∀ as, seen ext as s = seen ext as s' := by
  refine ⟨?_, C122_xlsx_partial (otherWorld p exStoredZip) ext (lit "a.xlsx") (lit "b.xlsx") _ _ rfl rfl ?_ ?_ exZip exStoredZip rfl rfl ?_
    _ _ _ _ _ _ C61_witness exStoredZip_book rfl (lit "two") _ _ _ _ (exPart_of ext _ exPartCells (exPartCells_ok ext) exStoredZip_part exStoredZip_lacks)
    (exPart_of ext _ exPartCells2 ?_ (hasPart_put_self exStoredZip_part)
      (lacksPart_put (by decide +kernel) exStoredZip_lacks)) ?_ 12 28 ?_ ?_ ?_ ?_ t ht⟩
  · intro h
    have := congrArg (fun a : Xlsx.Archive => a.map (fun e => match e.2 with | .ok q => q.toks.length | .error _ => 0)) h
    exact absurd this (by decide +kernel)
  · rw [if_pos rfl]
    exact .inr (by decide)
  · rw [if_neg (by decide +kernel)]
    exact .inr (by decide)
  · exact fun l => List.Perm.refl l
  · exact exStoredZip_ok ext
  · exact exStoredZip_grid
  all_goals unfold Extent; decide +kernel

/-- They also meet the hypotheses of the version with other numbers for the formats. -/
theorem C122_xlsx_numbering_witness (p : Crypto.Prims) (ext : Ext) (hg : GoShort ext) (t : List (Grate.Entry Source)) (ht : Shipped (otherWorld p exStoredZip) t) :
    ∃ src src' x x' s s', openSrc t (lit "a.xlsx") = .ok src ∧ openSrc t (lit "b.xlsx") = .ok src' ∧
      src.get ext (lit "two") = .ok (x, .ok (.sheet s)) ∧ src'.get ext (lit "two") = .ok (x', .ok (.sheet s')) ∧
      ∀ k, drain Sheet.next (Sheet.strings ext) k s = drain Sheet.next (Sheet.strings ext) k s' := by
  refine C122_xlsx_numbering_partial (otherWorld p exStoredZip) ext hg (lit "a.xlsx") (lit "b.xlsx") _ _ rfl rfl ?_ ?_ exZip exStoredZip rfl rfl ?_
    _ _ _ _ _ _ C61_witness exStoredZip_book ?_ ?_ (lit "two") _ _ _ _ (exPart_of ext _ exPartCells (exPartCells_ok ext) exStoredZip_part exStoredZip_lacks)
    (exPart_of ext _ exPartCells2 ?_ (hasPart_put_self exStoredZip_part)
      (lacksPart_put (by decide +kernel) exStoredZip_lacks)) ?_ 12 28 ?_ ?_ ?_ ?_ t ht
  · rw [if_pos rfl]
    exact .inr (by decide)
  · rw [if_neg (by decide +kernel)]
    exact .inr (by decide)
  · exact fun l => List.Perm.refl l
  · unfold OnceEach; decide +kernel
  · unfold OnceEach; decide +kernel
  · exact exStoredZip_ok ext
  · intro r c
    have e1 : exPartCells.map ACell.write = [⟨0, 0, .value (.str (lit "two")) 0⟩, ⟨11, 27, .value (.bool true) 0⟩] := rfl
    have hg := exStoredZip_grid r c
    rw [← hg, e1]
    simp only [lastAt]
    by_cases h1 : (0 = r ∧ 0 = c)
    · obtain ⟨rfl, rfl⟩ := h1
      exact .inr ⟨_, _, rfl, rfl, .value _ _ _ (.builtIn 0 rfl)⟩
    by_cases h2 : (11 = r ∧ 27 = c)
    · obtain ⟨rfl, rfl⟩ := h2
      exact .inr ⟨_, _, rfl, rfl, .value _ _ _ (.builtIn 0 rfl)⟩
    rw [if_neg h1, if_neg h2]
    exact .inl ⟨rfl, rfl⟩
  all_goals unfold Extent; decide +kernel

/-! ### Two workbooks with different numbers for the same format -/

/-- The entry of the sheet. -/
def exCustomEntry : SheetEntry := ⟨57, 0, 0, 0, [0x53]⟩

/-- The code `0.0`. -/
def exCustomCode : List Nat := [0x30, 0x2E, 0x30]

/-- A sheet with one number. -/
def exCustomSheet : List Record :=
  [⟨512, leBytes 4 0 ++ (leBytes 4 1 ++ (leBytes 2 0 ++ (leBytes 2 1 ++ [0, 0])))⟩,
   ⟨638, cellHead 0 0 0 (leBytes 4 22 ++ [])⟩, ⟨1, List.replicate 144 0⟩, ⟨0x0A, []⟩]

/-- The workbooks: the format has the number 164 or 165. -/
def exCustom (k : Fin 2) : List (List Record) :=
  [[exBof 5, ⟨1054, leBytes 2 (164 + k.val) ++ (xlString 2 (bit 0 0) 0 (exCustomCode.flatMap units) ++ [])⟩,
    ⟨224, leBytes 2 0 ++ (leBytes 2 (164 + k.val) ++ [])⟩, ⟨0x85, exCustomEntry.data⟩, ⟨0x0A, []⟩], exBof 0x10 :: exCustomSheet]

/-- What they say. -/
def exCustomContent (k : Fin 2) : Content := ⟨[exCustomEntry], 0, [], [(164 + k.val, exCustomCode)], [164 + k.val]⟩

/-- The cells. -/
def exCustomWrites (k : Fin 2) : List Write := [⟨0, 0, .value (rkMeans 22) (164 + k.val)⟩]

theorem exCustom_grouped (k : Fin 2) : Grouped (exCustom k) ∧ ∀ r ∈ (exCustom k).flatten, r.type ≠ 0x2F := by
  have pl : ∀ (r : Record) (rs : List Record), (r.type ≠ 0x809 ∧ r.type ≠ 0x0A) → Balanced rs → Balanced (r :: rs) :=
    fun r rs h hb => .plain r rs h.1 h.2 hb
  refine ⟨⟨by unfold Record.Fits; revert k; decide +kernel, ?_⟩, by revert k; decide +kernel⟩
  intro g hg
  simp only [exCustom, List.mem_cons, List.not_mem_nil, or_false] at hg
  rcases hg with rfl | rfl
  · refine ⟨_, [_, _, _], _, rfl, rfl, rfl, ?_⟩
    refine pl _ _ ⟨by show (1054 : Nat) ≠ _; decide, by show (1054 : Nat) ≠ _; decide⟩ ?_
    refine pl _ _ ⟨by show (224 : Nat) ≠ _; decide, by show (224 : Nat) ≠ _; decide⟩ ?_
    refine pl _ _ (by decide) ?_
    exact .nil
  · refine ⟨_, [_, _, _], _, rfl, rfl, rfl, ?_⟩
    iterate 3 refine pl _ _ (by decide) ?_
    exact .nil

theorem exCustom_content (k : Fin 2) : AllGlobals .empty (exCustom k) (exCustomContent k) := by
  have sk : ∀ (c c' : Content) (r : Record) (rs : List Record), ¬ telling r.type → Globals c rs c' →
      Globals c (r :: rs) c' := fun c c' r rs h => .skip c c' r rs (Or.inr h)
  refine .cons _ (exCustomContent k) _ _ _ ?_ (.cons _ (exCustomContent k) _ _ _ ?_ (.nil _))
  · refine .bof _ _ 5 _ _ _ _ (by decide) (by decide) ?_
    refine .format _ _ (164 + k.val) 0 exCustomCode [] _ (by omega) (by unfold Spec.Scalar; decide +kernel) (by unfold Fits; decide +kernel)
      (by decide +kernel) ?_
    refine .style _ _ 0 (164 + k.val) [] _ (by omega) ?_
    refine .sheet _ _ exCustomEntry _ ?_ ?_
    · exact ⟨by decide, by unfold Spec.Scalar; decide +kernel, by unfold Fits; decide +kernel, by decide +kernel⟩
    exact .skip _ _ _ _ (Or.inl rfl) (.nil _)
  · refine .bof _ _ _ _ _ _ _ (by decide) (by decide) ?_
    iterate 3 refine sk _ _ _ _ (by unfold telling; decide) ?_
    exact .skip _ _ _ _ (Or.inl rfl) (.nil _)

theorem exCustom_cells (k : Fin 2) : CellsOf (exCustomContent k) (exBof 0x10 :: exCustomSheet) (1, 1) (exCustomWrites k) := by
  refine ⟨_, _, rfl, rfl, ?_, by decide +kernel, ?_⟩
  · refine .dims _ _ 0 1 0 1 [0, 0] _ (by decide) (by decide) ?_
    exact .other _ _ _ _ (by decide) (by decide) (by decide) (.other _ _ _ _ (by decide) (by decide) (by decide)
      (.other _ _ _ _ (by decide) (by decide) (by decide) (.nil _)))
  · refine .other _ _ _ (by unfold cellType; decide) ?_
    refine .rk 0 0 0 22 [] _ _ (by unfold HeadFits; decide) (by decide) (by decide) ?_
    exact .other ⟨1, _⟩ _ _ (by unfold cellType; decide) (.other ⟨0x0A, []⟩ _ _ (by unfold cellType; decide) .nil)

theorem exCustom_same : SameCells ((exCustomContent 0).formats.map (fun a => (a.1, utf8 a.2)))
    ((exCustomContent 1).formats.map (fun a => (a.1, utf8 a.2))) (exCustomWrites 0) (exCustomWrites 1) := by
  intro r c
  by_cases h : (0 = r ∧ 0 = c)
  · obtain ⟨rfl, rfl⟩ := h
    exact .inr ⟨_, _, rfl, rfl, .value _ _ _ (.custom _ _ (utf8 exCustomCode) rfl rfl rfl rfl)⟩
  · simp only [exCustomWrites, lastAt]
    rw [if_neg h, if_neg h]
    exact .inl ⟨rfl, rfl⟩

/-- The hypotheses of the versions of C122 with other numbers for the formats hold: the format `0.0` with the number 164 and with
the number 165. -/
theorem C122_numbering_witness (w : World) (ext : Ext) (hg : GoShort ext) (hb : w.bufs = List.replicate 512 512)
    (hf : w.files (lit "a.xls") = .ok (wbFileOf (stream (exCustom 0).flatten) 0xFFFFFFFE wbSlots))
    (hf' : w.files (lit "b.xls") = .ok (wbFileOf (stream (exCustom 1).flatten) 0xFFFFFFFE wbSlots)) :
    exCustomWrites 0 ≠ exCustomWrites 1 ∧
    ∃ k, ∀ fuel, k ≤ fuel → ∀ t, Shipped { w with fuel := fuel } t → ∃ src src' s s', openSrc t (lit "a.xls") = .ok src ∧
      openSrc t (lit "b.xls") = .ok src' ∧ src.get ext (lit "S") = .ok (src, .ok (.sheet s)) ∧
      src'.get ext (lit "S") = .ok (src', .ok (.sheet s')) ∧
      ∀ k, drain Sheet.next (Sheet.strings ext) k s = drain Sheet.next (Sheet.strings ext) k s' := by
  have pos : ∀ k ∈ w.bufs, 0 < k := by rw [hb]; decide +kernel
  have l : ∀ k, (stream (exCustom k).flatten).length = 261 := by decide +kernel
  have hn : utf8 exCustomEntry.name = lit "S" := by decide +kernel
  have p : ∀ k, exCustomEntry.position = position (exCustom k) 1 := by decide +kernel
  have file : ∀ k, XlsFile w (wbFileOf (stream (exCustom k).flatten) 0xFFFFFFFE wbSlots) (exCustomContent k) (exCustom k) := fun k =>
    .plain _ (exCustom_grouped k).1 (exCustom_grouped k).2 (exCustom_content k) (wbOf_stream _ (l k)) (by rw [l, hb]; decide +kernel)
  have stored : ∀ k, StoredAs (exCustomContent k) (exCustom k) (lit "S") (exBof 0x10 :: exCustomSheet) := fun k =>
    ⟨[], [], exCustomEntry, 1, rfl, by simp, hn, rfl, p k⟩
  refine ⟨by simp [exCustomWrites], C122_xls_numbering_partial w ext hg _ _ _ _ hf hf' pos (file 0) (file 1) _ _ rfl rfl ?_ ?_ _ _ _
    (stored 0) (stored 1) _ _ _ _ (exCustom_cells 0) (exCustom_cells 1) exCustom_same 1 1 ?_ ?_ ?_ ?_⟩
  · unfold OnceEach; decide +kernel
  · unfold OnceEach; decide +kernel
  all_goals unfold Extent; decide +kernel

end Grate.Props
