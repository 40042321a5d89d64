import Verif.Lemmas.CfbCut
import Verif.Props.SameStoredWitness

/-! # C124: xls files that are cut off

If nothing is left over in the buffer the file is read into, a file cut off anywhere is never read as a workbook other
than that of the whole file. If the buffer is larger than the file, the missing part of the last sector is taken from it. -/

namespace Grate.Props

open Grate Grate.Spec Grate.Api Grate.Cfb

/-! ### Opening as an xls file -/

/-- Only the xls format gives xls workbooks. -/
theorem only_xls {w : World} {t : List (Grate.Entry Source)} (ht : Shipped w t) {fn : Bytes} {b : Xls.Book} :
    openSrc t fn = .ok (.xls b) ↔ xlsOpen w fn = .ok (.xls b) := by
  rw [shipped_open ht]
  constructor
  · intro h
    have h2 : ∀ x, xlsxOpen w fn = .ok x → ∀ c, x ≠ .xls c := by
      intro x hx c hc
      subst hc
      unfold xlsxOpen at hx
      split at hx
      · cases hx
      · split at hx
        · cases hx
        · obtain ⟨d, _, hx⟩ := GoRes.bind_eq_ok.1 hx
          cases hx
    have h3 : ∀ x, tsvOpen w fn = .ok x → ∀ c, x ≠ .xls c := by
      intro x hx c hc
      subst hc
      unfold tsvOpen at hx
      split at hx
      · cases hx
      · obtain ⟨d, _, hx⟩ := GoRes.bind_eq_ok.1 hx
        cases hx
    have h4 : ∀ x, csvOpen w fn = .ok x → ∀ c, x ≠ .xls c := by
      intro x hx c hc
      subst hc
      unfold csvOpen at hx
      split at hx
      · cases hx
      · obtain ⟨d, _, hx⟩ := GoRes.bind_eq_ok.1 hx
        cases hx
    simp only [openSrc, openTrace, formats] at h
    cases e1 : xlsOpen w fn with
    | ok x => simp only [e1] at h; exact h
    | panic => simp only [e1] at h; cases h
    | err e =>
      simp only [e1] at h
      split at h
      · cases e2 : xlsxOpen w fn with
        | ok x => simp only [e2, GoRes.ok.injEq] at h; exact absurd h (h2 x e2 b)
        | panic => simp only [e2] at h; cases h
        | err e =>
          simp only [e2] at h
          split at h
          · cases e3 : tsvOpen w fn with
            | ok x => simp only [e3, GoRes.ok.injEq] at h; exact absurd h (h3 x e3 b)
            | panic => simp only [e3] at h; cases h
            | err e =>
              simp only [e3] at h
              split at h
              · cases e4 : csvOpen w fn with
                | ok x => simp only [e4, GoRes.ok.injEq] at h; exact absurd h (h4 x e4 b)
                | panic => simp only [e4] at h; cases h
                | err e => simp only [e4] at h; split at h <;> cases h
              · cases h
          · cases h
      · cases h
  · intro h
    simp [openSrc, openTrace, formats, h]

/-- A file that begins like another, from which nothing but its own bytes can be read. -/
theorem openFile_shorter {p : Crypto.Prims} {mk : Bytes → Fmt × CellType} {spare : Bytes} {fuel : Nat} {ks : List Nat}
    {s t : Slice} (h : Shorter s t)
    (hn : NoRoot t.val (parseHeader t.val).major 3 (secOff (parseHeader t.val).sectorShift (parseHeader t.val).firstDir + 128))
    {b : Xls.Book} (ho : Xls.openFile p mk spare fuel ks s = some (.ok b)) :
    Xls.openFile p mk spare fuel ks t = some (.ok b) := by
  unfold Xls.openFile at ho ⊢
  cases e1 : load fuel s with
  | none => rw [e1] at ho; cases ho
  | some r =>
    rw [e1] at ho
    cases r with
    | err e => cases ho
    | panic => cases ho
    | ok d =>
      simp only at ho
      cases e2 : openStream d (lit "Workbook") with
      | err e => rw [e2] at ho; cases ho
      | panic => rw [e2] at ho; cases ho
      | ok r =>
        rcases load_shorter h e1 hn with h0 | ⟨e, h1, h2⟩
        · rw [h0] at e2; cases e2
        · rw [h1]
          simp only
          rw [h2 _ _ e2]
          rw [e2] at ho
          exact ho

/-- In a document only the first entry of the directory is a root entry. -/
theorem doc_noRoot {file : Bytes} {h : Spec.Head} {fat : List Nat} {slots : List Slot} (hd : Spec.Doc file h fat slots)
    {x : Bytes} (hx : parseHeader x = headerOf h)
    (hs : ∀ k, k < 4 → (x.drop ((h.firstDir + 1) * 2 ^ 9 + 128 * k)).take 128 = (file.drop ((h.firstDir + 1) * 2 ^ 9 + 128 * k)).take 128) :
    NoRoot x (parseHeader x).major 3 (secOff (parseHeader x).sectorShift (parseHeader x).firstDir + 128) := by
  obtain ⟨dids, hchain, hdids, hdir⟩ := hd.dir
  obtain ⟨e, m, s, hsl, _, h5⟩ := hd.root
  have hslots : slots ≠ [] := by rw [hsl]; simp
  obtain ⟨hr, hsec, hl4, hget⟩ := dir_slots hchain hdids hdir hd.slotsOk hslots
  rw [hx]
  intro i hi
  show (readDir x (secOff 9 h.firstDir + 128 + 128 * i) 3).objType ≠ 5
  rw [secOff_eq hr, show (h.firstDir + 1) * 2 ^ 9 + 128 + 128 * i = (h.firstDir + 1) * 2 ^ 9 + 128 * (i + 1) by omega]
  have hlen : (slots.take 4).length = 4 := by
    have := List.length_pos_iff.2 hslots
    rw [List.length_take]; omega
  have hi4 : i + 1 < (slots.take 4).length := by omega
  have hg := hget (i + 1) _ (List.getElem?_eq_getElem hi4)
  rw [← hs (i + 1) (by omega)] at hg
  have hmem : (slots.take 4)[i + 1] ∈ s := by
    have h1 : (slots.take 4)[i + 1] = slots[i + 1]'(by rw [List.length_take] at hi4; omega) := List.getElem_take
    rw [h1]
    subst hsl
    exact List.getElem_mem ..
  have hok := hd.slotsOk _ (List.mem_of_mem_take (List.getElem_mem hi4))
  cases hc : (slots.take 4)[i + 1] with
  | used y mid =>
    rw [hc] at hg hmem hok
    rw [readDir_used x _ hok.1 hok.2 hg]
    refine h5 y ?_
    clear hg hok hsl hc hlen hi4 hget h5
    induction s with
    | nil => cases hmem
    | cons z s ih =>
      cases z with
      | used z zm =>
        rcases List.mem_cons.1 hmem with h | h
        · injection h with h _; subst h; exact List.mem_cons_self
        · exact List.mem_cons_of_mem _ (ih h)
      | free f =>
        rcases List.mem_cons.1 hmem with h | h
        · cases h
        · exact ih h
  | free f =>
    rw [hc] at hg hok
    rw [readDir_free x _ hok.1 hok.2 hg]
    decide

/-- C124. A version 3 compound document, cut off at any place, where the buffer the file is read into holds nothing behind
it: if `Open` gives a workbook, it is the one it gives for the whole file. Missing: buffers that hold something
(`C124_spare_partial`, `C124_counterexample`); the cut file may be taken for a text (`C124_text_counterexample`), and it may panic
(C37). -/
theorem C124_cut_partial (w : World) (hcap : w.cap = []) (fn fn' file : Bytes) (k : Nat) (hf : w.files fn = .ok file)
    (hf' : w.files fn' = .ok (file.take k)) (h : Spec.Head) (fat : List Nat) (slots : List Slot)
    (hd : Spec.Doc file h fat slots) (t : List (Grate.Entry Source)) (ht : Shipped w t) (b : Xls.Book)
    (ho : openSrc t fn' = .ok (.xls b)) : openSrc t fn = .ok (.xls b) := by
  rw [only_xls ht] at ho ⊢
  unfold xlsOpen at ho ⊢
  rw [hf'] at ho
  rw [hf]
  rw [hcap] at ho ⊢
  simp only at ho ⊢
  obtain ⟨rest, hfile⟩ := hd.header
  have hp : parseHeader file = headerOf h := by rw [hfile]; exact parseHeader_head h (doc_headOk hd) rest
  cases e : Xls.openFile w.prims makeFormatter w.spare w.fuel w.bufs ⟨file.take k, []⟩ with
  | none => rw [e] at ho; cases ho
  | some r =>
    rw [e] at ho
    simp only at ho
    obtain ⟨b', rfl, hb⟩ := GoRes.bind_eq_ok.1 ho
    cases hb
    rw [openFile_shorter (t := ⟨file, []⟩) ⟨by simpa using List.take_prefix k file, (List.take_prefix k file).length_le⟩
      (doc_noRoot hd hp (fun _ _ => rfl)) e]
    rfl

/-- C124. What is read if the buffer holds something behind the file: the document, cut off anywhere behind the first sector
of its directory, is read like the file that goes on with these bytes. -/
theorem C124_spare_partial (w : World) (fn fn' file : Bytes) (k : Nat) (hf' : w.files fn' = .ok (file.take k))
    (hf : w.files fn = .ok (file.take k ++ w.cap)) (h : Spec.Head) (fat : List Nat) (slots : List Slot)
    (hd : Spec.Doc file h fat slots) (hk : (h.firstDir + 2) * 512 ≤ k) (t t' : List (Grate.Entry Source)) (ht : Shipped w t)
    (ht' : Shipped { w with cap := [] } t') (b : Xls.Book) (ho : openSrc t fn' = .ok (.xls b)) :
    openSrc t' fn = .ok (.xls b) := by
  rw [only_xls ht] at ho
  rw [only_xls ht']
  unfold xlsOpen at ho ⊢
  rw [hf'] at ho
  simp only at ho ⊢
  rw [hf]
  simp only
  obtain ⟨rest, hfile⟩ := hd.header
  have ok := doc_headOk hd
  have hh : h.bytes.length = 512 := head_length h ok
  obtain ⟨r', hr'⟩ : ∃ r', file.take k ++ w.cap = h.bytes ++ r' := by
    refine ⟨(rest.take (k - 512)) ++ w.cap, ?_⟩
    rw [hfile, List.take_append, hh, List.take_of_length_le (by omega), List.append_assoc]
  have hp : parseHeader (file.take k ++ w.cap) = headerOf h := by rw [hr']; exact parseHeader_head h ok r'
  have hle : (h.firstDir + 2) * 512 ≤ file.length := by
    obtain ⟨dids, hchain, hdids, hdir⟩ := hd.dir
    obtain ⟨e, m, s, hsl, _, _⟩ := hd.root
    obtain ⟨_, hsec, _, _⟩ := dir_slots hchain hdids hdir hd.slotsOk (by rw [hsl]; simp)
    unfold HasSector at hsec
    omega
  cases e : Xls.openFile w.prims makeFormatter w.spare w.fuel w.bufs ⟨file.take k, w.cap⟩ with
  | none => rw [e] at ho; cases ho
  | some r =>
    rw [e] at ho
    simp only at ho
    obtain ⟨b', rfl, hb⟩ := GoRes.bind_eq_ok.1 ho
    cases hb
    rw [openFile_shorter (t := ⟨file.take k ++ w.cap, []⟩) ⟨by rw [List.append_nil],
      by rw [List.length_append]; exact Nat.le_add_right _ _⟩
      (doc_noRoot hd hp (fun j hj => by
        generalize hA : (h.firstDir + 1) * 2 ^ 9 + 128 * j = a
        have h0 : a + 128 ≤ k := by omega
        have h1 : (file.take k).length = min k file.length := List.length_take
        have h2 : a + 128 ≤ (file.take k).length := by omega
        rw [List.drop_append_of_le_length (Nat.le_trans (Nat.le_add_right _ _) h2),
          List.take_append_of_le_length (by rw [List.length_drop]; omega), List.drop_take, List.take_take,
          Nat.min_eq_left (by omega)])) e]
    rfl

/-! ### A file that loses its last bytes -/

/-- What is read from the small sectors depends on the buffer only, not on the length of the file. -/
theorem mini_same {d e : Document} (hb : d.data.val ++ d.data.rest = e.data.val ++ e.data.rest) (hh : d.header = e.header)
    (hf : d.fat = e.fat) (hm : d.minifat = e.minifat) (h1 : d.mstart = e.mstart) (h2 : d.msize = e.msize) (sid size : Nat) :
    getMiniStreamReader d sid size = getMiniStreamReader e sid size := by
  have hsub : ∀ lo hi, d.data.sub lo hi = e.data.sub lo hi := by
    intro lo hi
    have hl := congrArg List.length hb
    rw [List.length_append, List.length_append] at hl
    unfold Slice.sub
    rw [hb, hl]
  have hsec : ∀ slots fsid fsize, miniSectorsLoop d slots fsid fsize = miniSectorsLoop e slots fsid fsize := by
    intro slots
    induction slots with
    | zero =>
      intro fsid fsize
      unfold miniSectorsLoop
      simp only [hsub, hh]
    | succ n ih =>
      intro fsid fsize
      unfold miniSectorsLoop
      simp only [hsub, hh, hf, ih]
  have hmin : ∀ fs slots sid size, miniStreamLoop d fs slots sid size = miniStreamLoop e fs slots sid size := by
    intro fs slots
    induction slots with
    | zero =>
      intro sid size
      unfold miniStreamLoop
      simp only [hh]
    | succ n ih =>
      intro sid size
      unfold miniStreamLoop
      simp only [hh, hm, ih]
  unfold getMiniStreamReader
  rw [h1, h2, hh]
  simp only [hsec, hmin]

/-- The sheet: its size, something else, and 100000 in B2. -/
def exCutSheet : List Record :=
  [exStoredDims, ⟨1, List.replicate 128 0⟩, ⟨638, cellHead 1 1 1 (leBytes 4 400002 ++ [])⟩, ⟨0x0A, []⟩]

/-- The workbook. -/
def exCut : List (List Record) := [exStored.headD [], exBof 0x10 :: exCutSheet]

/-- The sheet of the file that is cut off in the number and goes on with zeros. -/
def exCutSheet' : List Record :=
  [exStoredDims, ⟨1, List.replicate 128 0⟩, ⟨638, cellHead 1 1 1 (leBytes 4 130 ++ [])⟩, ⟨0, []⟩]

/-- The stream of the workbook without its last seven bytes. -/
def exCutBytes : Bytes := (stream exCut.flatten).take 254

/-- The file, cut off: 258 bytes are missing, which in the whole file are 3 bytes of the number, the end of the sheet and
unused space. -/
def exCutFile : Bytes := exHead.bytes ++ (wbFat ++ (wbDir ++ (wbMini ++ exCutBytes)))

/-- The stream as it is read from the cut file: it goes on with zeros. -/
def exCutRead : Bytes := exCutBytes ++ List.replicate 7 0

theorem exCut_lengths : (stream exCut.flatten).length = 261 ∧ exCutBytes.length = 254 ∧ exCutRead.length = 261 := by decide +kernel

/-- The cut file, and the one it is read as. -/
theorem exCutFile_eq : exCutFile = (wbFileOf (stream exCut.flatten) 0xFFFFFFFE wbSlots).take 2302 ∧
    exCutFile ++ List.replicate 258 0 = wbFileOf exCutRead 0xFFFFFFFE wbSlots := by
  obtain ⟨a, b, c, d⟩ := wb_lengths
  obtain ⟨l1, l2, l3⟩ := exCut_lengths
  constructor
  · rw [wbFileOf_eq]
    unfold exCutFile exCutBytes
    have tk : ∀ (A B : Bytes) (n : Nat), A.length = 512 → (A ++ B).take (512 + n) = A ++ B.take n := by
      intro A B n hA
      rw [← hA, List.take_length_add_append]
    rw [show 2302 = 512 + (512 + (512 + (512 + 254))) from rfl, tk _ _ _ a, tk _ _ _ b, tk _ _ _ d, tk _ _ _ c,
      List.take_append_of_le_length (by rw [l1]; decide)]
  · rw [wbFileOf_eq]
    unfold exCutFile exCutRead
    simp only [List.append_assoc]
    rw [List.replicate_append_replicate]

/-- A file that begins like the example is a document, whatever follows. -/
theorem wbTail_doc (T : Bytes) : Spec.Doc (exHead.bytes ++ (wbFat ++ (wbDir ++ (wbMini ++ T)))) exHead (words wbFat) wbSlots ∧
    MiniLoaded (exHead.bytes ++ (wbFat ++ (wbDir ++ (wbMini ++ T)))) exHead (words wbMini) := by
  obtain ⟨a, b, c, d⟩ := wb_lengths
  have hl : (exHead.bytes ++ (wbFat ++ (wbDir ++ (wbMini ++ T)))).length = 2048 + T.length := by
    simp only [List.length_append, a, b, c, d]
    omega
  have s0 : sector (exHead.bytes ++ (wbFat ++ (wbDir ++ (wbMini ++ T)))) 9 0 = wbFat := sector_first a b
  have s1 : sector (exHead.bytes ++ (wbFat ++ (wbDir ++ (wbMini ++ T)))) 9 1 = wbDir := by rw [sector_later a, sector_first b d]
  have s2 : sector (exHead.bytes ++ (wbFat ++ (wbDir ++ (wbMini ++ T)))) 9 2 = wbMini := by
    rw [sector_later a, sector_later b, sector_first d c]
  constructor
  · exact {
      header := ⟨_, rfl⟩
      numFAT := by decide
      firstDir := by decide
      firstMiniFAT := by decide
      numMiniFAT := by decide
      firstDIFAT := by decide
      numDIFAT := by decide
      headFAT := by decide
      table := ⟨[], Or.inr ⟨rfl, rfl⟩, by
        intro i hi
        have : i = 0 := by simpa [exHead] using hi
        subst this
        exact ⟨by unfold Regular; decide, by unfold HasSector; rw [hl]; omega⟩, by
          show words wbFat = table _ 9 [0]
          unfold table
          rw [List.flatMap_cons, List.flatMap_nil, List.append_nil, s0]⟩
      dir := ⟨[1], .cons 1 0xFFFFFFFE [] (by decide +kernel) .done, by
        intro i hi
        have : i = 1 := by simpa using hi
        subst this
        exact ⟨by unfold Regular; decide, by unfold HasSector; rw [hl]; omega⟩, by
          rw [List.map_cons, List.map_nil, List.flatten_cons, List.flatten_nil, List.append_nil, s1, wbDir]⟩
      slotsOk := wbDoc.slotsOk
      root := ⟨wbRoot, exMid, _, rfl, rfl, by decide⟩ }
  · have h := MiniLoaded.one (file := exHead.bytes ++ (wbFat ++ (wbDir ++ (wbMini ++ T)))) (h := exHead) (by unfold Regular; decide)
      (show HasSector _ 9 2 by unfold HasSector; rw [hl]; omega) (by decide)
    rw [show sector _ 9 exHead.firstMiniFAT = wbMini from s2] at h
    exact h

/-- The cut file is still a document. -/
theorem exCut_doc : Spec.Doc exCutFile exHead (words wbFat) wbSlots ∧ MiniLoaded exCutFile exHead (words wbMini) := wbTail_doc _

/-- Streams kept in small sectors are found alike. -/
theorem openDirs_same {d e : Document} (hb : d.data.val ++ d.data.rest = e.data.val ++ e.data.rest) (hh : d.header = e.header)
    (hf : d.fat = e.fat) (hm : d.minifat = e.minifat) (h1 : d.mstart = e.mstart) (h2 : d.msize = e.msize) (name : Bytes) :
    ∀ es : List Dir, (∀ x ∈ es, x.objType = 2 → (x.size : Int) < d.header.cutoff) → openDirs d name es = openDirs e name es := by
  intro es
  induction es with
  | nil => intro _; rfl
  | cons x es ih =>
    intro hs
    have ih := ih (fun y hy => hs y (List.mem_cons_of_mem _ hy))
    unfold openDirs
    cases x.string with
    | err er => rfl
    | panic => rfl
    | ok n =>
      simp only [GoRes.ok_bind]
      split
      · rename_i hc
        have := hs x List.mem_cons_self hc.2
        rw [if_pos this, if_pos (hh ▸ this), mini_same hb hh hf hm h1 h2]
      · exact ih

set_option maxRecDepth 20000 in
/-- The cut file, with zeros behind it in the buffer, is read as a stream that goes on with zeros. -/
theorem exCut_reads (more : Bytes) : ∃ d r, (∃ n, ∀ fuel, n ≤ fuel → Cfb.load fuel ⟨exCutFile, List.replicate 258 0 ++ more⟩ = some (.ok d)) ∧
    openStream d (lit "Workbook") = .ok r ∧ Reads r exCutRead := by
  obtain ⟨n1, h1⟩ := load_doc ⟨exCutFile, List.replicate 258 0 ++ more⟩ _ _ _ _ exCut_doc.1 exCut_doc.2
  obtain ⟨a, b, c, d⟩ := wb_lengths
  obtain ⟨_, _, s2, _, hl⟩ := wbOf_sectors exCutRead exCut_lengths.2.2
  have hm : MiniLoaded (wbFileOf exCutRead 0xFFFFFFFE wbSlots) exHead (words wbMini) := by
    rw [← s2]
    exact .one (by unfold Regular; decide) (by unfold HasSector; rw [hl]; decide) (by decide)
  obtain ⟨n2, h2⟩ := load_doc ⟨wbFileOf exCutRead 0xFFFFFFFE wbSlots, more⟩ _ _ _ _ (wbOf_doc exCutRead exCut_lengths.2.2) hm
  obtain ⟨d', r, ⟨n3, h3⟩, h4, h5⟩ := stream_reads ⟨wbFileOf exCutRead 0xFFFFFFFE wbSlots, more⟩ _ _ (wbOf_stream exCutRead exCut_lengths.2.2)
  have := (h2 (max n2 n3) (Nat.le_max_left _ _)).symm.trans (h3 (max n2 n3) (Nat.le_max_right _ _))
  simp only [Option.some.injEq, GoRes.ok.injEq] at this
  subst this
  refine ⟨_, r, ⟨n1, h1⟩, ?_, h5⟩
  rw [← h4]
  unfold openStream
  refine openDirs_same ?_ ?_ ?_ ?_ ?_ ?_ _ _ ?_
  rotate_left
  iterate 5 rfl
  rotate_left
  · show exCutFile ++ (List.replicate 258 0 ++ more) = _
    rw [← List.append_assoc, exCutFile_eq.2]
  · show ∀ x ∈ List.map toDir [wbRoot, wbEntry], x.objType = 2 → (x.size : Int) < 4096
    decide +kernel

/-- The workbook that is read from the cut file. -/
def exCut' : List (List Record) := [exStored.headD [], exBof 0x10 :: exCutSheet']

theorem exCutRead_eq : exCutRead = stream exCut'.flatten := by decide +kernel

/-- What both workbooks say besides their cells. -/
theorem exCut_content : AllGlobals .empty exCut exStoredContent ∧ AllGlobals .empty exCut' exStoredContent := by
  have sk : ∀ (c c' : Content) (r : Record) (rs : List Record), ¬ telling r.type → Globals c rs c' →
      Globals c (r :: rs) c' := fun c c' r rs h => .skip c c' r rs (Or.inr h)
  have h1 : Globals .empty (exStored.headD []) exStoredContent := by
    refine .bof _ _ 5 _ _ _ _ (by decide) (by decide) ?_
    refine .style _ _ 0 14 [] _ (by decide) ?_
    refine .style _ _ 0 0 [] _ (by decide) ?_
    refine .sheet _ _ exStoredEntry _ ?_ ?_
    · exact ⟨by decide, by unfold Spec.Scalar; decide +kernel, by unfold Fits; decide +kernel, by decide +kernel⟩
    refine .strings _ _ [2, 0, 0, 0, 2, 0, 0, 0] [⟨false, 0, [0x61], [], [], []⟩, ⟨false, 0, [0x62], [], [], []⟩] [[0x61], [0x62]]
      [2, 0, 0, 0, 2, 0, 0, 0, 1, 0, 0, 0x61, 1, 0, 0, 0x62] [] _ rfl ?_ ?_ ?_ (by decide +kernel) (by decide +kernel) ?_ ?_
    · intro s hs
      simp only [List.mem_cons, List.not_mem_nil, or_false] at hs
      rcases hs with rfl | rfl <;>
      exact ⟨by decide +kernel, by unfold Fits; decide +kernel, by unfold Fits; decide +kernel, by decide +kernel,
        by decide +kernel⟩
    · unfold NoLoneByte; decide +kernel
    · unfold Spec.Scalar; decide +kernel
    · intro r hr
      cases hr
      decide
    · exact .skip _ _ _ _ (Or.inl rfl) (.nil _)
  constructor
  · refine .cons _ exStoredContent _ _ _ h1 (.cons _ exStoredContent _ _ _ ?_ (.nil _))
    refine .bof _ _ _ _ _ _ _ (by decide) (by decide) ?_
    iterate 3 refine sk _ _ _ _ (by unfold telling; decide) ?_
    exact .skip _ _ _ _ (Or.inl rfl) (.nil _)
  · refine .cons _ exStoredContent _ _ _ h1 (.cons _ exStoredContent _ _ _ ?_ (.nil _))
    refine .bof _ _ _ _ _ _ _ (by decide) (by decide) ?_
    iterate 3 refine sk _ _ _ _ (by unfold telling; decide) ?_
    exact sk _ _ _ _ (by unfold telling; decide) (.nil _)

theorem exCut_grouped : Grouped exCut ∧ ∀ r ∈ exCut.flatten, r.type ≠ 0x2F := by
  have pl : ∀ (r : Record) (rs : List Record), (r.type ≠ 0x809 ∧ r.type ≠ 0x0A) → Balanced rs → Balanced (r :: rs) :=
    fun r rs h hb => .plain r rs h.1 h.2 hb
  refine ⟨⟨by unfold Record.Fits; decide +kernel, ?_⟩, by decide +kernel⟩
  intro g hg
  simp only [exCut, exStored, List.headD_cons, List.mem_cons, List.not_mem_nil, or_false] at hg
  rcases hg with rfl | rfl
  · refine ⟨_, [_, _, _, _], _, rfl, rfl, rfl, ?_⟩
    iterate 4 refine pl _ _ (by decide) ?_
    exact .nil
  · refine ⟨_, [_, _, _], _, rfl, rfl, rfl, ?_⟩
    iterate 3 refine pl _ _ (by decide) ?_
    exact .nil

/-- The cells of the two sheets. -/
theorem exCut_cells : SheetRecs exStoredContent.strings exStoredContent.styles 2 2 exCutSheet [⟨1, 1, .value (.sint 100000) 0⟩] ∧
    SheetRecs exStoredContent.strings exStoredContent.styles 2 2 exCutSheet' [⟨1, 1, .value (.sint 32) 0⟩] := by
  constructor
  · refine .other _ _ _ (by unfold cellType; decide) (.other ⟨1, _⟩ _ _ (by unfold cellType; decide) ?_)
    exact .rk 1 1 1 400002 [] _ _ (by unfold HeadFits; decide) (by decide) (by decide) (.other ⟨0x0A, []⟩ _ _ (by unfold cellType; decide) .nil)
  · refine .other _ _ _ (by unfold cellType; decide) (.other ⟨1, _⟩ _ _ (by unfold cellType; decide) ?_)
    exact .rk 1 1 1 130 [] _ _ (by unfold HeadFits; decide) (by decide) (by decide) (.other ⟨0, []⟩ _ _ (by unfold cellType; decide) .nil)

/-- The workbook read from the cut file. -/
theorem exCut_loads (p : Crypto.Prims) (ext : Ext) (rest : Bytes) : ∃ b s, Xls.loadStream p makeFormatter rest ⟨exCutRead, rest⟩ = .ok b ∧
    b.list = [lit "S"] ∧ b.get ext (lit "S") = .ok (some s) ∧ Holds ext b.nfmt [⟨1, 1, .value (.sint 32) 0⟩] s := by
  obtain ⟨g, h1, h2, h3⟩ : ∃ g, Xls.placeAll (Xls.recsOf exCut'.flatten rest) Xls.Groups.init = .ok g ∧
      g.subs.map (·.map Xls.Rec.view) = exCut' ∧ g.pos2.lookup 73 = some 1 := by
    refine ⟨_, rfl, ?_, ?_⟩
    · rfl
    · rfl
  have hb : Xls.loadStream p makeFormatter rest ⟨exCutRead, rest⟩ = .ok (Xls.bookOf makeFormatter exStoredContent g.subs g.pos2) := by
    unfold Xls.loadStream
    have := Xls.gather_stream false [] rest exCut'.flatten (by unfold Record.Fits; decide +kernel)
      (fun r hr hx => absurd hx ((show ∀ r ∈ exCut'.flatten, r.type ≠ 0x2F by decide +kernel) r hr)) Xls.Groups.init
    rw [List.append_nil, List.nil_append, h1, GoRes.ok_bind, Xls.gather_short _ [] rest (show 0 < 4 by decide) g] at this
    rw [exCutRead_eq, this, GoRes.ok_bind]
    simp only
    exact Xls.processSubs_spec makeFormatter g.subs g.pos2 exCut_content.2 g.subs h2
  have hsub : (g.subs.map (·.map Xls.Rec.view))[1]? = some (exBof 0x10 :: exCutSheet') := by rw [h2]; rfl
  rw [List.getElem?_map] at hsub
  cases hrecs : g.subs[1]? with
  | none => rw [hrecs] at hsub; cases hsub
  | some recs =>
    rw [hrecs] at hsub
    simp only [Option.map_some, Option.some.injEq] at hsub
    obtain ⟨s, k1, k2, _⟩ := C49_sheet_partial ext (Xls.bookOf makeFormatter exStoredContent g.subs g.pos2) 1 recs hrecs
      (load_sized p makeFormatter rest _ _ hb recs (List.mem_of_getElem? hrecs)) exStoredContent.strings exStoredContent.styles rfl rfl
      _ _ hsub (by decide) 2 2 (exStored_declares _ (by decide +kernel)) _ exCut_cells.2
    refine ⟨_, s, hb, (show (exStoredContent.sheets.map Xls.entry |>.filter (fun s => s.hidden &&& 3 = 0)).map Xls.BoundSheet.name = [lit "S"] by
      decide +kernel), ?_, k2⟩
    unfold Xls.Book.get
    have hf : (Xls.bookOf makeFormatter exStoredContent g.subs g.pos2).sheets.find? (fun s => decide (s.name = lit "S")) = some (Xls.entry exStoredEntry) := by
      unfold Xls.bookOf
      simp only [exStoredContent, List.map_cons, List.map_nil]
      rw [List.find?_cons_of_pos (by decide +kernel)]
    rw [hf]
    simp only
    rw [show (Xls.bookOf makeFormatter exStoredContent g.subs g.pos2).subIndex (Xls.entry exStoredEntry).position = 1 by
      unfold Xls.Book.subIndex Xls.bookOf
      simp only
      show (List.lookup 73 g.pos2).getD 0 = 1
      rw [h3]; rfl]
    exact k1

/-- C124 is false of buffers larger than the file: the whole file has 100000 in B2, and after losing its last 258 bytes, with
zeros in the buffer in their place, it opens without an error and has 32 in B2. -/
theorem C124_counterexample (w : World) (ext : Ext) (more : Bytes) (hb : w.bufs = List.replicate 512 512)
    (hcap : w.cap = List.replicate 258 0 ++ more)
    (hf : w.files (lit "a.xls") = .ok (wbFileOf (stream exCut.flatten) 0xFFFFFFFE wbSlots))
    (hf' : w.files (lit "b.xls") = .ok ((wbFileOf (stream exCut.flatten) 0xFFFFFFFE wbSlots).take 2302)) :
    Spec.Doc (wbFileOf (stream exCut.flatten) 0xFFFFFFFE wbSlots) exHead (words wbFat) wbSlots ∧
    ∃ n, ∀ fuel, n ≤ fuel → ∀ t, Shipped { w with fuel := fuel } t → ∃ src src' s s' f f', openSrc t (lit "a.xls") = .ok src ∧
      openSrc t (lit "b.xls") = .ok src' ∧ src.list = [lit "S"] ∧ src'.list = [lit "S"] ∧
      src.get ext (lit "S") = .ok (src, .ok (.sheet s)) ∧ src'.get ext (lit "S") = .ok (src', .ok (.sheet s')) ∧
      Holds ext f [⟨1, 1, .value (.sint 100000) 0⟩] s ∧ Holds ext f' [⟨1, 1, .value (.sint 32) 0⟩] s' := by
  have pos : ∀ k ∈ w.bufs, 0 < k := by rw [hb]; decide +kernel
  obtain ⟨l1, l2, l3⟩ := exCut_lengths
  have hn : utf8 exStoredEntry.name = lit "S" := by decide +kernel
  obtain ⟨n, h1⟩ := C77_xls_partial w ext _ _ hf exCut_grouped.1 exCut_grouped.2 exCut_content.1 (wbOf_stream _ l1) pos
    (by rw [l1, hb]; decide +kernel)
  obtain ⟨b, s', k1, k2, k3, k4⟩ := exCut_loads w.prims ext w.spare
  obtain ⟨d, r, ⟨m, hload⟩, ho, hr⟩ := exCut_reads more
  refine ⟨wbOf_doc _ l1, max n m, fun fuel hfu t ht => ?_⟩
  obtain ⟨src, g1, g2, g3, _⟩ := h1 fuel (by omega) t ht
  obtain ⟨s, q1, q2, _⟩ := g3 [] [] exStoredEntry rfl (by simp) 1 (exBof 0x10) exCutSheet rfl (by decide +kernel) 2 2
    (exStored_declares _ (by decide +kernel)) _ exCut_cells.1
  rw [hn] at q1
  refine ⟨src, .xls b, s, s', _, _, g1, ?_, by rw [g2]; decide +kernel, k2, q1, ?_, q2, k4⟩
  · rw [only_xls ht]
    unfold xlsOpen
    simp only [hf']
    rw [← exCutFile_eq.1, hcap]
    unfold Xls.openFile
    rw [hload fuel (by omega)]
    simp only [ho, (hr w.bufs pos).2.1 (by rw [l3, hb]; decide +kernel), k1]
    rfl
  · unfold Source.get
    simp only [k3]

/-- C124 for files cut off in their header: they are no xls files for `Open`. -/
theorem C124_header (w : World) (fn file : Bytes) (k : Nat) (hk : k < 512) (hf : w.files fn = .ok (file.take k))
    (t : List (Grate.Entry Source)) (ht : Shipped w t) (b : Xls.Book) : openSrc t fn ≠ .ok (.xls b) := by
  rw [Ne, only_xls ht, xls_declines w fn _ hf (.inr (by rw [List.length_take]; omega))]
  intro h
  cases h

/-- C124, files cut off in their header are taken for texts: the example file after its first eight bytes opens without an
error as a table of one cell. -/
theorem C124_text_counterexample (w : World) (ext : Ext) (hi : ∀ m, (w.iter m).Perm m) (content : Bytes) (ez : GoErr)
    (hf : w.files (lit "a.xls") = .ok ((wbFileOf content 0xFFFFFFFE wbSlots).take 8)) (hz : w.zip signature = .error ez)
    (t : List (Grate.Entry Source)) (ht : Shipped w t) :
    ∃ f, openSrc t (lit "a.xls") = .ok (.text f) ∧ (Source.text f).list = [lit "a.xls"] ∧
      drain Simple.File.next Simple.File.strings 2 f = some (.ok [[signature]]) ∧
      ∀ name, (Source.text f).get ext name = .ok (.text f, .ok (.text f)) := by
  have h8 : (wbFileOf content 0xFFFFFFFE wbSlots).take 8 = signature := by
    rw [wbFileOf_eq, List.take_append_of_le_length (by rw [wb_lengths.1]; decide)]
    decide +kernel
  rw [h8] at hf
  have hp : lit "a.xls" = pathOf ([] ++ [lit "a.xls"]) := by decide +kernel
  rw [hp] at hf
  obtain ⟨f, h1, h2, h3, h4⟩ := C79_text w ext [] (lit "a.xls") (by unfold PathName; decide +kernel) signature hf (.inr (by decide +kernel)) ez
    hz hi [signature] [[signature]]
    (by
      rintro ⟨a, l, b, h, hl, _⟩
      have := congrArg List.length h
      rw [List.length_append, List.length_append, show signature.length = 8 by decide +kernel] at this
      omega)
    (.last (by decide +kernel) (by decide +kernel) (by decide +kernel))
    (.cons (by unfold FieldsOf; decide +kernel) .nil) (by decide) (few_rows (by decide)) t ht
  rw [← hp] at h1
  exact ⟨f, h1, h2, h4, h3⟩

/-- C124: a file that loses bytes that are not used is read as the whole file. -/
theorem C124_witness (w : World) (hcap : w.cap = []) (hb : w.bufs = List.replicate 512 512)
    (hf : w.files (lit "a.xls") = .ok (wbFileOf (stream exCut.flatten) 0xFFFFFFFE wbSlots ++ [1, 2, 3]))
    (hf' : w.files (lit "b.xls") = .ok ((wbFileOf (stream exCut.flatten) 0xFFFFFFFE wbSlots ++ [1, 2, 3]).take 2560)) :
    Spec.Doc (wbFileOf (stream exCut.flatten) 0xFFFFFFFE wbSlots ++ [1, 2, 3]) exHead (words wbFat) wbSlots ∧
    ∃ b n, ∀ fuel, n ≤ fuel → ∀ t, Shipped { w with fuel := fuel } t → openSrc t (lit "b.xls") = .ok (.xls b) ∧
      openSrc t (lit "a.xls") = .ok (.xls b) := by
  obtain ⟨l1, l2, l3⟩ := exCut_lengths
  have hd : Spec.Doc (wbFileOf (stream exCut.flatten) 0xFFFFFFFE wbSlots ++ [1, 2, 3]) exHead (words wbFat) wbSlots := by
    have := (wbTail_doc (stream exCut.flatten ++ List.replicate 251 0 ++ [1, 2, 3])).1
    rw [wbFileOf_eq]
    simpa only [List.append_assoc] using this
  obtain ⟨b, hl, _⟩ := C45_sheets w.prims makeFormatter exCut_grouped.1 exCut_grouped.2 exCut_content.1 w.spare
  have h2560 : (wbFileOf (stream exCut.flatten) 0xFFFFFFFE wbSlots ++ [1, 2, 3]).take 2560 = wbFileOf (stream exCut.flatten) 0xFFFFFFFE wbSlots := by
    rw [← (wbOf_sectors _ l1).2.2.2.2, List.take_left]
  obtain ⟨n, hn⟩ := open_xls w _ _ _ (h2560 ▸ hf') (wbOf_stream _ l1) (by rw [hb]; decide +kernel) (by rw [l1, hb]; decide +kernel) b hl
  refine ⟨hd, b, n, fun fuel hfu t ht => ⟨hn fuel hfu t ht, ?_⟩⟩
  exact C124_cut_partial { w with fuel := fuel } hcap _ _ _ 2560 hf hf' _ _ _ hd t ht b (hn fuel hfu t ht)

end Grate.Props
