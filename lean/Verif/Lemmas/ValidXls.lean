import Verif.Lemmas.ValidFiles
import Verif.Lemmas.XlsStream

/-! # Lemmas: the text in xls files is valid UTF-8 (C129) -/

namespace Grate.Valid

open Grate Grate.Spec Grate.Xls

/-! ### The workbook -/

theorem decodeChars_ok {n : Nat} {f : UInt8} {h : Nat} {raw : Slice} {r : Bytes × Nat} (e : decodeChars n f h raw = .ok r) : ValidUtf8 r.1 := by
  unfold decodeChars at e
  split at e
  · rw [GoRes.bind_eq_ok] at e
    obtain ⟨_, _, e⟩ := e
    simp only [GoRes.pure_eq, GoRes.ok.injEq] at e; subst e; exact u16_ok _
  · rw [GoRes.bind_eq_ok] at e
    obtain ⟨_, _, e⟩ := e
    simp only [GoRes.pure_eq, GoRes.ok.injEq] at e; subst e; exact u16_ok _

theorem decodeShort_ok {raw : Slice} {r : Bytes × Nat} (e : decodeShort raw = .ok r) : ValidUtf8 r.1 := by
  unfold decodeShort at e
  simp only [GoRes.bind_eq_ok] at e
  obtain ⟨_, _, _, _, _, _, e⟩ := e
  exact decodeChars_ok e

theorem decodeLong_ok {raw : Slice} {r : Bytes × Nat} (e : decodeLong raw = .ok r) : ValidUtf8 r.1 := by
  unfold decodeLong at e
  simp only [GoRes.bind_eq_ok] at e
  obtain ⟨_, _, _, _, _, _, _, _, e⟩ := e
  exact decodeChars_ok e

theorem readString_ok {buf : Slice} {later : List Slice} {r} (e : readString buf later = .ok r) : ValidUtf8 r.1 := by
  unfold readString at e
  simp only [GoRes.bind_eq_ok] at e
  obtain ⟨_, _, _, _, _, _, _, _, _, _, _, _, _, _, _, _, _, _, e⟩ := e
  simp only [GoRes.pure_eq, GoRes.ok.injEq] at e; subst e; exact u16_ok _

theorem sstLoop_ok : ∀ (n : Nat) (buf : Slice) (later : List Slice) (ss : List Bytes), sstLoop n buf later = some (.ok ss) → ∀ s ∈ ss, ValidUtf8 s
  | 0, _, _, _, e => by simp [sstLoop] at e
  | n + 1, buf, later, ss, e => by
    unfold sstLoop at e
    split at e
    · split at e
      · rename_i s buf' later' hr
        split at e
        · rename_i ss' hs
          simp only [Option.some.injEq, GoRes.ok.injEq] at e; subst e
          intro x hx
          rcases List.mem_cons.1 hx with rfl | hx
          · exact readString_ok hr
          · exact sstLoop_ok n buf' later' ss' hs x hx
        · exact sstLoop_ok n buf' later' ss e
      · simp at e
      · simp at e
    · split at e
      · simp only [Option.some.injEq, GoRes.ok.injEq] at e; subst e; simp
      · exact sstLoop_ok n _ _ ss e

theorem parseSST_ok {recs : List Slice} {ss : List Bytes} (e : parseSST recs = .ok ss) : ∀ s ∈ ss, ValidUtf8 s := by
  cases recs with
  | nil => simp [parseSST] at e
  | cons r later =>
    simp only [parseSST, GoRes.bind_eq_ok] at e
    obtain ⟨_, _, _, _, buf, _, e⟩ := e
    cases hs : sstLoop (sstFuel buf later) buf later with
    | none => rw [hs] at e; simp at e
    | some x =>
      rw [hs, Option.getD_some] at e
      rw [e] at hs
      exact sstLoop_ok _ _ _ ss hs

/-- The text in a workbook. -/
structure BookOk (b : Book) : Prop where
  names : ∀ s ∈ b.sheets, ValidUtf8 s.name
  strings : ∀ s ∈ b.strings, ValidUtf8 s
  nfmt : FmtrOk b.nfmt

theorem processRec_ok {nr : Rec} {later : List Rec} {b b' : Book} (h : BookOk b) (e : processRec makeFormatter nr later b = .ok b') : BookOk b' := by
  unfold processRec at e
  split at e
  · simp only [GoRes.ok.injEq] at e; subst e; exact h
  split at e
  · rw [GoRes.bind_eq_ok] at e
    obtain ⟨ss, hs, e⟩ := e
    simp only [GoRes.pure_eq, GoRes.ok.injEq] at e; subst e
    exact ⟨h.names, parseSST_ok hs, h.nfmt⟩
  split at e
  · rw [GoRes.bind_eq_ok] at e
    obtain ⟨_, _, e⟩ := e
    simp only [GoRes.pure_eq, GoRes.ok.injEq] at e; subst e; exact h
  split at e
  · rw [GoRes.bind_eq_ok] at e
    obtain ⟨_, _, e⟩ := e
    simp only [GoRes.pure_eq, GoRes.ok.injEq] at e; subst e; exact h
  split at e
  · rw [GoRes.bind_eq_ok] at e
    obtain ⟨_, _, e⟩ := e
    simp only [GoRes.pure_eq, GoRes.ok.injEq] at e; subst e; exact ⟨h.names, h.strings, h.nfmt⟩
  split at e
  · simp only [GoRes.bind_eq_ok] at e
    obtain ⟨no, _, _, _, ⟨code, _⟩, hc, e⟩ := e
    simp only [GoRes.pure_eq, GoRes.ok.injEq] at e; subst e
    exact ⟨h.names, h.strings, add_ok h.nfmt _ (decodeLong_ok hc)⟩
  split at e
  · simp only [GoRes.bind_eq_ok] at e
    obtain ⟨_, _, _, _, e⟩ := e
    simp only [GoRes.pure_eq, GoRes.ok.injEq] at e; subst e; exact ⟨h.names, h.strings, h.nfmt⟩
  split at e
  · rw [GoRes.bind_eq_ok] at e
    obtain ⟨bs, hb, e⟩ := e
    simp only [GoRes.pure_eq, GoRes.ok.injEq] at e; subst e
    refine ⟨fun s hs => ?_, h.strings, h.nfmt⟩
    rcases List.mem_append.1 hs with hs | hs
    · exact h.names s hs
    · rw [List.mem_singleton] at hs; subst hs
      unfold boundSheet at hb
      simp only [GoRes.bind_eq_ok] at hb
      obtain ⟨_, _, _, _, _, _, _, _, _, _, _, hn, hb⟩ := hb
      simp only [GoRes.pure_eq, GoRes.ok.injEq] at hb; subst hb
      exact decodeShort_ok hn
  · simp only [GoRes.ok.injEq] at e; subst e; exact h

theorem processSub_ok : ∀ (rs : List Rec) (b b' : Book), BookOk b → processSub makeFormatter rs b = .ok b' → BookOk b'
  | [], b, b', h, e => by simp only [processSub, GoRes.ok.injEq] at e; subst e; exact h
  | r :: rs, b, b', h, e => by
    rw [processSub, GoRes.bind_eq_ok] at e
    obtain ⟨b1, h1, e⟩ := e
    exact processSub_ok rs b1 b' (processRec_ok h h1) e

theorem processSubs_ok : ∀ (ss : List (List Rec)) (b b' : Book), BookOk b → processSubs makeFormatter ss b = .ok b' → BookOk b'
  | [], b, b', h, e => by simp only [processSubs, GoRes.ok.injEq] at e; subst e; exact h
  | r :: rs, b, b', h, e => by
    rw [processSubs, GoRes.bind_eq_ok] at e
    obtain ⟨b1, h1, e⟩ := e
    exact processSubs_ok rs b1 b' (processSub_ok r b b1 h h1) e

theorem groups_ok (g : Groups) : BookOk g.book := ⟨by simp [Groups.book], by simp [Groups.book], newFmtr_ok⟩

theorem loadDecrypted_ok {raw : Slice} {b : Book} (e : loadDecrypted makeFormatter raw = .ok b) : BookOk b := by
  unfold loadDecrypted at e
  rw [GoRes.bind_eq_ok] at e
  obtain ⟨x, _, e⟩ := e
  cases x with
  | done g => exact processSubs_ok _ _ _ (groups_ok g) e
  | filePass d => simp at e

theorem loadStream_ok {p : Crypto.Prims} {spare : Bytes} {raw : Slice} {b : Book} (e : loadStream p makeFormatter spare raw = .ok b) : BookOk b := by
  unfold loadStream at e
  rw [GoRes.bind_eq_ok] at e
  obtain ⟨x, _, e⟩ := e
  cases x with
  | done g => exact processSubs_ok _ _ _ (groups_ok g) e
  | filePass d =>
    simp only [GoRes.bind_eq_ok] at e
    obtain ⟨_, _, e⟩ := e
    split at e
    · simp only [GoRes.bind_eq_ok] at e
      obtain ⟨_, _, _, _, _, _, e⟩ := e
      exact loadDecrypted_ok e
    · split at e <;> simp at e

theorem openBook_ok {p : Crypto.Prims} {spare : Bytes} {fuel : Nat} {ks : List Nat} {file : Slice} {b : Book}
    (e : Xls.openFile p makeFormatter spare fuel ks file = some (.ok b)) : BookOk b := by
  unfold Xls.openFile at e
  split at e
  · simp at e
  · simp at e
  · simp at e
  · split at e
    · simp at e
    · simp at e
    · split at e
      · simp at e
      · simp at e
      · simp at e
      · simp only [Option.some.injEq] at e
        exact loadStream_ok e

/-! ### Sheets -/

theorem berr_ok (c : UInt8) : ValidUtf8 (berr c) := by
  have : ∀ c : UInt8, berr c ∈ [lit "#NULL!", lit "#DIV/0!", lit "#VALUE!", lit "#REF!", lit "#NAME?", lit "#NUM!", lit "#N/A",
      lit "#GETTING_DATA", lit "<unknown error>"] := by
    intro c
    unfold berr
    repeat' split
    all_goals simp
  have hall : [lit "#NULL!", lit "#DIV/0!", lit "#VALUE!", lit "#REF!", lit "#NAME?", lit "#NUM!", lit "#N/A",
      lit "#GETTING_DATA", lit "<unknown error>"].all validB = true := by decide +kernel
  exact validB_ok (List.all_eq_true.1 hall _ (this c))

theorem boolErr_ok {ext : Ext} (hp : PrintsText ext) {b : Book} {d : Slice} {s s' : Sheet} (h : SheetOk s) (e : boolErrRec ext b d s = .ok s') : SheetOk s' := by
  unfold boolErrRec at e
  simp only [GoRes.bind_eq_ok] at e
  obtain ⟨_, _, _, _, _, _, _, _, _, _, _, _, _, _, _, _, e⟩ := e
  split at e
  · exact put_ok hp h (v := .bool _) trivial e
  · exact put_ok hp h (v := .str _) (berr_ok _) e

theorem rkValue_ok (r : Nat) : GoValOk (rkValue r) := by unfold rkValue; split <;> trivial

theorem mulRkLoop_ok {ext : Ext} (hp : PrintsText ext) {b : Book} {d : Slice} {row col : Nat} : ∀ (n i : Nat) (s s' : Sheet), SheetOk s →
    mulRkLoop ext b d row col n i s = .ok s' → SheetOk s'
  | 0, _, s, s', h, e => by simp only [mulRkLoop, GoRes.ok.injEq] at e; subst e; exact h
  | n + 1, i, s, s', h, e => by
    simp only [mulRkLoop, GoRes.bind_eq_ok] at e
    obtain ⟨_, _, _, _, _, _, v, _, s1, h1, e⟩ := e
    exact mulRkLoop_ok hp n (i + 1) s1 s' (put_ok hp h (rkValue_ok _) h1) e

theorem formulaValue_ok {ext : Ext} (hp : PrintsText ext) {row col fno : Nat} {f : Slice} {s s' : Sheet} (h : SheetOk s)
    (e : formulaValue ext row col fno f s = .ok s') : SheetOk s' := by
  unfold formulaValue at e
  rw [GoRes.bind_eq_ok] at e
  obtain ⟨x, _, e⟩ := e
  split at e
  · rw [GoRes.bind_eq_ok] at e
    obtain ⟨x0, _, e⟩ := e
    split at e
    · exact put_ok hp h (v := .str []) nil e
    · split at e
      · rw [GoRes.bind_eq_ok] at e
        obtain ⟨_, _, e⟩ := e
        exact put_ok hp h (v := .bool _) trivial e
      · split at e
        · rw [GoRes.bind_eq_ok] at e
          obtain ⟨_, _, e⟩ := e
          exact put_ok hp h (v := .str _) (berr_ok _) e
        · simp only [GoRes.pure_eq, GoRes.ok.injEq] at e; subst e; exact h
  · rw [GoRes.bind_eq_ok] at e
    obtain ⟨_, _, e⟩ := e
    exact put_ok hp h (v := .f64 _) trivial e

theorem label_ok {ext : Ext} (hp : PrintsText ext) {b : Book} (hb : BookOk b) {d : Slice} {s s' : Sheet} (h : SheetOk s)
    (e : labelRec ext b d s = .ok s') : SheetOk s' := by
  unfold labelRec at e
  simp only [GoRes.bind_eq_ok] at e
  obtain ⟨_, _, _, _, _, _, _, _, _, _, _, _, _, _, _, _, e⟩ := e
  split at e
  · simp at e
  · split at e
    · simp at e
    · rename_i t ht
      split at e
      · simp only [GoRes.pure_eq, GoRes.ok.injEq] at e; subst e; exact h
      · exact put_ok hp h (v := .str t) (hb.strings t (List.mem_of_getElem? ht)) e

theorem regionCell_ok {ext : Ext} (hp : PrintsText ext) {top : Option Bytes} (ht : ∀ t, top = some t → ValidUtf8 t) {r0 r1 c0 c1 rn cn : Nat} {s s' : Sheet}
    (h : SheetOk s) (e : putRegionCell ext top r0 r1 c0 c1 rn cn s = .ok s') : SheetOk s' := by
  unfold putRegionCell at e
  split at e
  · simp only [GoRes.ok.injEq] at e; subst e; exact h
  · rename_i v hv
    refine put_ok hp h (v := .str v) ?_ e
    unfold regionVal at hv
    split at hv
    · exact ht v hv
    · refine marker_ok ?_
      split at hv
      · split at hv <;> simp only [Option.some.injEq] at hv <;> simp [← hv]
      · split at hv <;> simp only [Option.some.injEq] at hv <;> simp [← hv]

theorem regionRow_ok {ext : Ext} (hp : PrintsText ext) {top : Option Bytes} (ht : ∀ t, top = some t → ValidUtf8 t) {r0 r1 c0 c1 rn : Nat} :
    ∀ (n cn : Nat) (s s' : Sheet), SheetOk s → putRegionRow ext top r0 r1 c0 c1 rn n cn s = .ok s' → SheetOk s'
  | 0, _, s, s', h, e => by simp only [putRegionRow, GoRes.ok.injEq] at e; subst e; exact h
  | n + 1, cn, s, s', h, e => by
    rw [putRegionRow, GoRes.bind_eq_ok] at e
    obtain ⟨s1, h1, e⟩ := e
    exact regionRow_ok hp ht n (cn + 1) s1 s' (regionCell_ok hp ht h h1) e

theorem regionRows_ok {ext : Ext} (hp : PrintsText ext) {top : Option Bytes} (ht : ∀ t, top = some t → ValidUtf8 t) {r0 r1 c0 c1 : Nat} :
    ∀ (n rn : Nat) (s s' : Sheet), SheetOk s → putRegionRows ext top r0 r1 c0 c1 n rn s = .ok s' → SheetOk s'
  | 0, _, s, s', h, e => by simp only [putRegionRows, GoRes.ok.injEq] at e; subst e; exact h
  | n + 1, rn, s, s', h, e => by
    rw [putRegionRows, GoRes.bind_eq_ok] at e
    obtain ⟨s1, h1, e⟩ := e
    exact regionRows_ok hp ht n (rn + 1) s1 s' (regionRow_ok hp ht _ _ s s1 h h1) e

theorem mergeLoop_ok {ext : Ext} (hp : PrintsText ext) {mr mc : Nat} : ∀ (n : Nat) (raw : Slice) (s s' : Sheet), SheetOk s →
    mergeLoop ext mr mc n raw s = .ok s' → SheetOk s'
  | 0, _, s, s', h, e => by simp only [mergeLoop, GoRes.ok.injEq] at e; subst e; exact h
  | n + 1, raw, s, s', h, e => by
    simp only [mergeLoop, GoRes.bind_eq_ok] at e
    obtain ⟨_, _, _, _, _, _, _, _, _, _, _, _, _, _, _, _, raw', _, s1, h1, e⟩ := e
    exact mergeLoop_ok hp n raw' s1 s' (regionRows_ok hp (by simp) _ _ s s1 h h1) e

/-! ### Links -/

/-- The slice ends at the end of the bytes. -/
def Within (d : Bytes) (raw : Slice) : Prop := raw.val <:+ d

theorem within_drop {d : Bytes} {raw raw' : Slice} {n : Nat} (h : Within d raw) (e : raw.dropFrom n = .ok raw') : Within d raw' := by
  unfold Slice.dropFrom at e
  split at e
  · simp only [GoRes.ok.injEq] at e
    subst e
    exact (List.drop_suffix n raw.val).trans h
  · simp at e

theorem within_read16u {d : Bytes} : ∀ (n : Nat) (raw : Slice) (r), Within d raw → read16u n raw = .ok r → Within d r.2
  | 0, raw, r, h, e => by simp only [read16u, GoRes.ok.injEq] at e; subst e; exact h
  | n + 1, raw, r, h, e => by
    simp only [read16u, GoRes.bind_eq_ok] at e
    obtain ⟨_, _, raw', hr, ⟨us, raw''⟩, h2, e⟩ := e
    simp only [GoRes.pure_eq, GoRes.ok.injEq] at e
    subst e
    exact within_read16u n raw' (us, raw'') (within_drop h hr) h2

theorem hyperString_ok {d : Bytes} {raw : Slice} {r} (h : Within d raw) (e : hyperString raw = .ok r) : ValidUtf8 r.1 ∧ Within d r.2 := by
  unfold hyperString at e
  simp only [GoRes.bind_eq_ok] at e
  obtain ⟨_, _, _, _, raw', hr, ⟨us, raw''⟩, h2, e⟩ := e
  simp only [GoRes.pure_eq, GoRes.ok.injEq] at e
  subst e
  exact ⟨u16_ok _, within_read16u _ _ _ (within_drop h hr) h2⟩

theorem moniker_ok {d : Bytes} (hd : ¬ fileMonikerId <:+: d) {raw : Slice} {r} (h : Within d raw) (e : parseMoniker raw = .ok r) : ValidUtf8 r.1 := by
  unfold parseMoniker at e
  rw [GoRes.bind_eq_ok] at e
  obtain ⟨cls, hc, e⟩ := e
  split at e
  · simp only [GoRes.bind_eq_ok] at e
    obtain ⟨_, _, e⟩ := e
    unfold urlMoniker at e
    simp only [GoRes.bind_eq_ok] at e
    obtain ⟨_, _, _, _, ⟨us, raw''⟩, h2, e⟩ := e
    simp only [GoRes.pure_eq, GoRes.ok.injEq] at e
    subst e
    exact u16_ok _
  · split at e
    · rename_i hf
      rw [GoRes.bind_eq_ok] at e
      obtain ⟨raw', hr, _⟩ := e
      refine absurd ?_ hd
      unfold Slice.dropFrom at hr
      split at hr
      · rename_i hlen
        unfold Slice.sub at hc
        split at hc
        · simp only [GoRes.ok.injEq] at hc
          subst hc
          simp only at hf
          have hid : fileMonikerId = Xls.fileClass := rfl
          rw [hid, ← hf]
          have hlen : 16 ≤ raw.val.length := hlen
          rw [List.drop_zero, List.take_append_of_le_length (by simpa using hlen)]
          exact (List.take_prefix _ _).isInfix.trans h.isInfix
        · simp at hc
      · simp at hr
    · simp at e

theorem trim_ok {s : Bytes} (h : ValidUtf8 s) : ValidUtf8 (trim s) := by
  have hset : ∀ b : UInt8, decide (b ∈ trimSet) = true → b.toNat < 128 := by
    intro b hb
    simp only [decide_eq_true_eq] at hb
    unfold trimSet at hb
    simp only [List.mem_cons, List.not_mem_nil, or_false] at hb
    rcases hb with rfl | rfl | rfl | rfl | rfl | rfl | rfl <;> decide
  have hback : ∀ (s : Bytes), ValidUtf8 s → ValidUtf8 (s.reverse.dropWhile (fun b => decide (b ∈ trimSet))).reverse := by
    intro s hs
    have e : s = (s.reverse.dropWhile (fun b => decide (b ∈ trimSet))).reverse ++ (s.reverse.takeWhile (fun b => decide (b ∈ trimSet))).reverse := by
      rw [← List.reverse_append, List.takeWhile_append_dropWhile, List.reverse_reverse]
    rw [e] at hs
    have hasc : AsciiOnly (s.reverse.takeWhile (fun b => decide (b ∈ trimSet))).reverse := by
      intro b hb
      exact hset b (List.all_eq_true.1 (List.all_takeWhile (p := fun b => decide (b ∈ trimSet)) (l := s.reverse)) b (List.mem_reverse.1 hb))
    have hfront : ∀ (t a : Bytes), AsciiOnly t → ValidUtf8 (a ++ t) → ValidUtf8 a := by
      intro t
      induction t with
      | nil => intro a _ h; simpa using h
      | cons x t _ => intro a ht h; exact (cut (ht x (by simp)) h).1
    exact hfront _ _ hasc hs
  unfold trim
  refine hback _ (dropWhile_low (fun b hb => ?_) h)
  cases hx : decide (b ∈ trimSet) with
  | false => rfl
  | true => have := hset b hx; omega

theorem link_ok {d : Slice} (hd : ¬ fileMonikerId <:+: d.val) {raw : Slice} (h : Within d.val raw) {r} (e : decodeHyperlinks raw = .ok r) :
    ValidUtf8 r.1 ∧ ValidUtf8 r.2 := by
  unfold decodeHyperlinks at e
  rw [GoRes.bind_eq_ok] at e
  obtain ⟨raw1, h1, e⟩ := e
  have w1 := within_drop h h1
  simp only [GoRes.bind_eq_ok] at e
  obtain ⟨_, _, _, _, e⟩ := e
  split at e
  · simp at e
  · simp only [GoRes.bind_eq_ok] at e
    obtain ⟨_, _, flags, _, raw2, h2, ⟨disp, raw3⟩, h3, raw4, h4, ⟨link, raw5⟩, h5, lnk, h6, e⟩ := e
    simp only [GoRes.pure_eq, GoRes.ok.injEq] at e
    subst e
    have w2 := within_drop w1 h2
    have w3 : ValidUtf8 disp ∧ Within d.val raw3 := by
      unfold displayPart at h3
      split at h3
      · exact hyperString_ok w2 h3
      · simp only [GoRes.ok.injEq, Prod.mk.injEq] at h3
        rw [← h3.1, ← h3.2]; exact ⟨nil, w2⟩
    have w4 : Within d.val raw4 := by
      unfold framePart at h4
      split at h4
      · simp only [GoRes.bind_eq_ok] at h4
        obtain ⟨_, _, _, _, h4⟩ := h4
        exact within_drop w3.2 h4
      · simp only [GoRes.ok.injEq] at h4
        rw [← h4]; exact w3.2
    have w5 : ValidUtf8 link := by
      unfold monikerPart at h5
      split at h5
      · split at h5
        · exact (hyperString_ok w4 h5).1
        · exact moniker_ok hd w4 h5
      · simp only [GoRes.ok.injEq, Prod.mk.injEq] at h5
        rw [← h5.1]; exact nil
    refine ⟨trim_ok w3.1, trim_ok ?_⟩
    unfold locationPart at h6
    split at h6
    · rw [GoRes.bind_eq_ok] at h6
      obtain ⟨⟨s, raw6⟩, h7, h6⟩ := h6
      simp only [GoRes.pure_eq, GoRes.ok.injEq] at h6
      subst h6
      unfold hyperString at h7
      simp only [GoRes.bind_eq_ok] at h7
      obtain ⟨_, _, _, _, raw', hr, ⟨us, raw''⟩, _, h7⟩ := h7
      simp only [GoRes.pure_eq, GoRes.ok.injEq, Prod.mk.injEq] at h7
      rw [← h7.1]
      exact u16_ok _
    · simp only [GoRes.ok.injEq] at h6
      rw [← h6]; exact w5

theorem hlink_ok {ext : Ext} (hp : PrintsText ext) {mr mc : Nat} {d : Slice} (hd : ¬ fileMonikerId <:+: d.val) {s s' : Sheet} (h : SheetOk s)
    (e : hlinkRec ext mr mc d s = .ok s') : SheetOk s' := by
  unfold hlinkRec at e
  simp only [GoRes.bind_eq_ok] at e
  obtain ⟨_, _, _, _, _, _, _, _, _, _, _, _, _, _, _, _, e⟩ := e
  split at e
  · simp only [GoRes.pure_eq, GoRes.ok.injEq] at e; subst e; exact h
  · split at e
    · simp only [GoRes.pure_eq, GoRes.ok.injEq] at e; subst e; exact h
    · rw [GoRes.bind_eq_ok] at e
      obtain ⟨raw, hraw, e⟩ := e
      split at e
      · simp at e
      · simp only [GoRes.ok.injEq] at e; subst e; exact h
      · rename_i display link hl
        have hv := link_ok hd (within_drop (List.suffix_refl _) hraw) hl
        refine regionRows_ok hp ?_ _ _ s s' h e
        intro t ht
        simp only [Option.some.injEq] at ht
        subst ht
        exact append (append (append hv.1 (validB_ok (by decide +kernel))) hv.2) (validB_ok (by decide +kernel))

/-! ### Texts of formulas -/

theorem and1 (f : UInt8) : (f &&& 1 = 0) ↔ f.toNat % 2 = 0 := by
  rw [← UInt8.toNat_inj, UInt8.toNat_and]
  show f.toNat &&& 1 = 0 ↔ _
  rw [Nat.and_one_is_mod]

theorem drop_val {raw raw' : Slice} {n : Nat} (e : raw.dropFrom n = .ok raw') : raw'.val = raw.val.drop n := by
  unfold Slice.dropFrom at e
  split at e
  · simp only [GoRes.ok.injEq] at e; subst e; rfl
  · simp at e

theorem idx_val {raw : Slice} {n : Nat} {b : UInt8} (e : raw.idx n = .ok b) : raw.val[n]? = some b := by
  unfold Slice.idx at e
  split at e
  · rename_i h; simp only [GoRes.ok.injEq] at e; subst e; exact h
  · simp at e

theorem stringCont_ok {cap : Nat} : ∀ (rs : List Rec) (s : Bytes),
    (∀ cont c post, rs.map Rec.view = cont ++ c :: post → (∀ x ∈ cont, x.type = 60) → c.type = 60 →
      ∀ flags, c.data[0]? = some flags → flags.toNat % 2 = 0 → ValidUtf8 (c.data.drop 1)) →
    stringCont cap rs = .ok s → ValidUtf8 s
  | [], s, _, e => by simp only [stringCont, GoRes.ok.injEq] at e; subst e; exact nil
  | r :: rs, s, h, e => by
    rw [stringCont] at e
    split at e
    · simp only [GoRes.ok.injEq] at e; subst e; exact nil
    · rename_i ht
      have ht : r.type = 60 := Decidable.not_not.1 ht
      simp only [GoRes.bind_eq_ok] at e
      obtain ⟨f, hf, raw, hr, part, hpart, more, hmore, e⟩ := e
      simp only [GoRes.pure_eq, GoRes.ok.injEq] at e
      subst e
      refine append ?_ (stringCont_ok rs more (fun cont c post e1 e2 e3 => ?_) hmore)
      · unfold stringPart at hpart
        split at hpart
        · rename_i h0
          simp only [GoRes.ok.injEq] at hpart
          subst hpart
          rw [drop_val hr]
          exact h [] r.view (rs.map Rec.view) rfl (by simp) ht f (idx_val hf) ((and1 f).1 h0)
        · split at hpart
          · simp at hpart
          · rw [GoRes.bind_eq_ok] at hpart
            obtain ⟨_, _, hpart⟩ := hpart
            simp only [GoRes.pure_eq, GoRes.ok.injEq] at hpart
            subst hpart
            exact u16_ok _
      · refine h (r.view :: cont) c post (by rw [List.map_cons, e1]; rfl) (fun x hx => ?_) e3
        rcases List.mem_cons.1 hx with rfl | hx
        · exact ht
        · exact e2 x hx

theorem stringRec_ok {r : Rec} {later : List Rec} (ht : r.type = 519) (hn : NoCodePage ((r :: later).map Rec.view)) {st st' : CellSt} (h : SheetOk st.sheet)
    (e : stringRec r.data later st = .ok st') : SheetOk st'.sheet := by
  unfold stringRec at e
  simp only [GoRes.bind_eq_ok] at e
  obtain ⟨_, _, n, _, flags, hf, raw, hr, fs, hfs, more, hmore, s1, h1, e⟩ := e
  simp only [GoRes.pure_eq, GoRes.ok.injEq] at e
  subst e
  refine set_ok h (str_ok (append ?_ ?_)) h1
  · unfold stringHead at hfs
    split at hfs
    · rename_i h0
      simp only [GoRes.ok.injEq] at hfs
      subst hfs
      rw [drop_val hr]
      exact hn.text [] r.view (later.map Rec.view) rfl ht flags (idx_val hf) ((and1 flags).1 h0)
    · rw [GoRes.bind_eq_ok] at hfs
      obtain ⟨_, _, hfs⟩ := hfs
      simp only [GoRes.pure_eq, GoRes.ok.injEq] at hfs
      subst hfs
      exact u16_ok _
  · exact stringCont_ok later more (fun cont c post e1 => hn.more [] r.view cont c post (by rw [List.map_cons, e1]; rfl) ht) hmore

theorem with_ok {st st' : CellSt} {x : GoRes Sheet} (h : ∀ s, x = .ok s → SheetOk s) (e : st.with x = .ok st') : SheetOk st'.sheet := by
  unfold CellSt.with at e
  rw [GoRes.bind_eq_ok] at e
  obtain ⟨s, hs, e⟩ := e
  simp only [GoRes.pure_eq, GoRes.ok.injEq] at e
  subst e
  exact h s hs

theorem cellRec_ok {ext : Ext} (hp : PrintsText ext) {b : Book} (hb : BookOk b) {mr mc : Nat} {r : Rec} {later : List Rec}
    (hn : NoCodePage ((r :: later).map Rec.view)) {st st' : CellSt} (h : SheetOk st.sheet) (e : cellRec ext b mr mc r later st = .ok st') :
    SheetOk st'.sheet := by
  unfold cellRec at e
  split at e
  · exact with_ok (fun s hs => boolErr_ok hp h hs) e
  split at e
  · refine with_ok (fun s hs => ?_) e
    unfold mulRkRec at hs
    simp only [GoRes.bind_eq_ok] at hs
    obtain ⟨_, _, _, _, _, _, _, _, hs⟩ := hs
    exact mulRkLoop_ok hp _ _ _ _ h hs
  split at e
  · refine with_ok (fun s hs => ?_) e
    unfold numberRec at hs
    simp only [GoRes.bind_eq_ok] at hs
    obtain ⟨_, _, _, _, _, _, _, _, _, _, _, _, _, _, _, _, hs⟩ := hs
    exact put_ok hp h (v := .f64 _) trivial hs
  split at e
  · refine with_ok (fun s hs => ?_) e
    unfold rkRec at hs
    simp only [GoRes.bind_eq_ok] at hs
    obtain ⟨_, _, _, _, _, _, _, _, _, _, _, _, _, _, _, _, hs⟩ := hs
    exact put_ok hp h (rkValue_ok _) hs
  split at e
  · unfold formulaRec at e
    simp only [GoRes.bind_eq_ok] at e
    obtain ⟨_, _, _, _, _, _, _, _, _, _, _, _, _, _, s1, h1, e⟩ := e
    simp only [GoRes.pure_eq, GoRes.ok.injEq] at e
    subst e
    exact formulaValue_ok hp h h1
  split at e
  · rename_i ht
    exact stringRec_ok ht hn h e
  split at e
  · exact with_ok (fun s hs => label_ok hp hb h hs) e
  split at e
  · rename_i ht
    exact with_ok (fun s hs => hlink_ok hp (hn.link r.view (by simp) ht) h hs) e
  split at e
  · refine with_ok (fun s hs => ?_) e
    unfold mergeRec at hs
    simp only [GoRes.bind_eq_ok] at hs
    obtain ⟨_, _, _, _, _, _, hs⟩ := hs
    exact mergeLoop_ok hp _ _ _ _ h hs
  · simp only [GoRes.ok.injEq] at e; subst e; exact h

theorem noCode_tail {r : Record} {rs : List Record} (h : NoCodePage (r :: rs)) : NoCodePage rs :=
  ⟨fun pre x post e => h.text (r :: pre) x post (by rw [e]; rfl), fun pre x cont c post e => h.more (r :: pre) x cont c post (by rw [e]; rfl),
    fun x hx => h.link x (List.mem_cons_of_mem _ hx)⟩

theorem pass2_ok {ext : Ext} (hp : PrintsText ext) {b : Book} (hb : BookOk b) {mr mc : Nat} : ∀ (rs : List Rec) (first : Bool) (nested : Nat) (st st' : CellSt),
    NoCodePage (rs.map Rec.view) → SheetOk st.sheet → pass2 ext b mr mc first nested rs st = .ok st' → SheetOk st'.sheet
  | [], _, _, st, st', _, h, e => by rw [pass2] at e; simp only [GoRes.ok.injEq] at e; subst e; exact h
  | r :: rs, first, nested, st, st', hn, h, e => by
    have ht : NoCodePage (rs.map Rec.view) := noCode_tail hn
    rw [pass2] at e
    split at e
    · exact pass2_ok hp hb rs _ _ st st' ht h e
    · split at e
      · exact pass2_ok hp hb rs _ _ st st' ht h e
      · rw [GoRes.bind_eq_ok] at e
        obtain ⟨st1, h1, e⟩ := e
        exact pass2_ok hp hb rs _ _ st1 st' ht (cellRec_ok hp hb hn h h1) e

theorem pass1_ok : ∀ (rs : List Rec) (first : Bool) (nested : Nat) (d d' : Dims), SheetOk d.sheet → pass1 first nested rs d = .ok (some d') → SheetOk d'.sheet
  | [], _, _, d, d', h, e => by rw [pass1] at e; simp only [GoRes.ok.injEq, Option.some.injEq] at e; subst e; exact h
  | r :: rs, first, nested, d, d', h, e => by
    rw [pass1] at e
    split at e
    · exact pass1_ok rs _ _ d d' h e
    · split at e
      · exact pass1_ok rs _ _ d d' h e
      · split at e
        · rw [GoRes.bind_eq_ok] at e
          obtain ⟨_, _, e⟩ := e
          split at e
          · simp at e
          · exact pass1_ok rs _ _ d d' h e
        · split at e
          · rw [GoRes.bind_eq_ok] at e
            obtain ⟨d1, h1, e⟩ := e
            refine pass1_ok rs _ _ d1 d' ?_ e
            unfold dimensions at h1
            simp only [GoRes.bind_eq_ok] at h1
            obtain ⟨_, _, _, _, _, _, _, _, _, _, _, _, _, _, _, _, h1⟩ := h1
            simp only [GoRes.pure_eq, GoRes.ok.injEq] at h1
            subst h1
            exact resize_ok h _ _
          · exact pass1_ok rs _ _ d d' h e

theorem xlsSheet_ok {ext : Ext} (hp : PrintsText ext) {b : Book} (hb : BookOk b) (hn : ∀ rs ∈ b.subs, NoCodePage (rs.map Rec.view)) {i : Nat} {s : Sheet}
    (e : Xls.parseSheet ext b i = .ok (some s)) : SheetOk s := by
  unfold Xls.parseSheet at e
  split at e
  · simp at e
  · rename_i recs hr
    rw [GoRes.bind_eq_ok] at e
    obtain ⟨o, ho, e⟩ := e
    cases o with
    | none => simp at e
    | some d =>
      simp only at e
      rw [GoRes.bind_eq_ok] at e
      obtain ⟨st, hst, e⟩ := e
      simp only [GoRes.pure_eq, GoRes.ok.injEq, Option.some.injEq] at e
      subst e
      exact pass2_ok hp hb recs _ _ _ st (hn recs (List.mem_of_getElem? hr)) (pass1_ok recs _ _ _ d (new_ok hb.nfmt) ho) hst

end Grate.Valid
