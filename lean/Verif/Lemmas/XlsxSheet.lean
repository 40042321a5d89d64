import Verif.Lemmas.XlsPasses
import Verif.Lemmas.XlsxRels

/-! # Lemmas about the worksheets of Office Open XML workbooks -/

namespace Grate.Xlsx

open Grate Grate.Spec Grate.Xls

theorem a1_no_colon {c r : Nat} {s : Bytes} (h : A1 c r s) : (58 : UInt8) ∉ s := by
  obtain ⟨s, ds, h1, h2⟩ := h
  rw [List.mem_append]
  rintro (h | h)
  · exact absurd (h1.2.1 _ h).1 (by decide)
  · exact absurd (h2.1.2 _ h).2 (by decide)

theorem a1_ne_nil {c r : Nat} {s : Bytes} (h : A1 c r s) : s ≠ [] := by
  obtain ⟨s, ds, h1, h2⟩ := h
  simp [h1.1]

theorem a1_index {c r : Nat} {s : Bytes} (h : A1 c r s) (hr : r < maxIndex) (hc : c < maxIndex) :
    refToIndexes s = .ok ((c : Int), (r : Int)) := refToIndexes_a1 h hc hr

theorem split_colon {c r c' r' : Nat} {s t : Bytes} (hs : A1 c r s) (ht : A1 c' r' t) :
    splitByte 58 (s ++ 58 :: t) = [s, t] := by
  rw [Simple.splitByte_append 58 s t (a1_no_colon hs), Simple.splitByte_noSep 58 t (a1_no_colon ht)]

/-! ### Cells -/

/-- The type of a cell, as the code keeps it. -/
def typeText (t : Option Bytes) : Bytes :=
  match t with
  | none => lit "n"
  | some s => if s = [] then lit "n" else s

theorem lit_types : lit "n" ≠ lit "b" ∧ lit "s" ≠ lit "b" ∧ lit "s" ≠ lit "n" ∧ lit "b" ≠ [] ∧ lit "n" ≠ [] ∧ lit "s" ≠ [] := by
  decide +kernel

theorem lit_texts : ∀ t : Bytes, t = lit "str" ∨ t = lit "inlineStr" ∨ t = lit "e" ∨ t = lit "d" →
    t ≠ [] ∧ t ≠ lit "b" ∧ t ≠ lit "n" ∧ t ≠ lit "s" := by
  rintro t (rfl | rfl | rfl | rfl) <;> decide +kernel

theorem cellValue_spec {ext : Ext} {strings : List Bytes} {t : Option Bytes} {s : Bytes} {v : GoVal}
    (h : CellMeans ext strings t s v) : cellValue ext strings (typeText t) s = .ok (some v) ∧ Supported v := by
  have hn : ∀ t : Option Bytes, t = none ∨ t = some (lit "n") → typeText t = lit "n" := by
    rintro t (rfl | rfl)
    · rfl
    · unfold typeText; simp [lit_types]
  cases h with
  | number t s x ht hp =>
    refine ⟨?_, trivial⟩
    unfold cellValue
    rw [hn _ ht, if_neg lit_types.1, if_pos rfl, hp]
  | notNumber t s x e ht hp =>
    refine ⟨?_, trivial⟩
    unfold cellValue
    rw [hn _ ht, if_neg lit_types.1, if_pos rfl, hp]
  | true s =>
    refine ⟨?_, trivial⟩
    unfold cellValue typeText
    simp [lit_types]
  | false b s hb =>
    refine ⟨?_, trivial⟩
    unfold cellValue typeText
    simp [lit_types, hb]
  | shared s t hs hlt hi =>
    refine ⟨?_, trivial⟩
    unfold cellValue typeText
    simp only [lit_types, if_false]
    rw [if_pos trivial, parseInt_digits 64 (by decide) hs (by omega)]
    unfold index
    rw [if_pos (by omega), Int.toNat_natCast, hi]
    rfl
  | text t s ht =>
    refine ⟨?_, trivial⟩
    obtain ⟨h1, h2, h3, h4⟩ := lit_texts t ht
    unfold cellValue typeText
    simp only [h1, h2, h3, h4, if_false]

/-- The values of the texts in a cell, in order. -/
inductive CellTexts (ext : Ext) (strings : List Bytes) (t : Option Bytes) : List Tok → List GoVal → Prop
  | nil : CellTexts ext strings t [] []
  | text (s : Bytes) (v : GoVal) (ts : List Tok) (vs : List GoVal) : CellMeans ext strings t s v →
      CellTexts ext strings t ts vs → CellTexts ext strings t (.chars s :: ts) (v :: vs)
  | other (x : Tok) (ts : List Tok) (vs : List GoVal) : (∀ s, x ≠ .chars s) → ¬ Starts sheetNames x →
      ¬ Stops [lit "c"] x → CellTexts ext strings t ts vs → CellTexts ext strings t (x :: ts) vs

theorem cellTexts_append {ext : Ext} {strings : List Bytes} {t : Option Bytes} {xs ys : List Tok} {vs ws : List GoVal}
    (h : CellTexts ext strings t xs vs) (h' : CellTexts ext strings t ys ws) :
    CellTexts ext strings t (xs ++ ys) (vs ++ ws) := by
  induction h with
  | nil => exact h'
  | text s v ts vs hm _ ih => exact .text s v _ _ hm ih
  | other x ts vs h1 h2 h3 _ ih => exact .other x _ _ h1 h2 h3 ih

theorem cellTexts_tokens {ext : Ext} {strings : List Bytes} {t : Option Bytes} : ∀ {xs : List Tok},
    (∀ x ∈ xs, CellToken x) → CellTexts ext strings t xs []
  | [], _ => .nil
  | x :: xs, h => .other x xs [] (h x (by simp)).1 (h x (by simp)).2.1 (h x (by simp)).2.2
      (cellTexts_tokens (fun y hy => h y (by simp [hy])))

theorem inner_names : ∀ e : Bytes, e = lit "v" ∨ e = lit "t" ∨ e = lit "f" → e ∉ sheetNames ∧ e ∉ [lit "c"] := by
  rintro e (rfl | rfl | rfl) <;> decide +kernel

theorem cellTexts_elem {ext : Ext} {strings : List Bytes} {t : Option Bytes} {e s : Bytes} {a : List (Bytes × Bytes)}
    {v : GoVal} {post : List Tok} {vs : List GoVal} (he : e = lit "v" ∨ e = lit "t" ∨ e = lit "f")
    (hm : CellMeans ext strings t s v) (h : CellTexts ext strings t post vs) :
    CellTexts ext strings t (.start e a :: .chars s :: .stop e :: post) (v :: vs) := by
  obtain ⟨h1, h2⟩ := inner_names e he
  exact .other _ _ _ (by simp) h1 (by simp [Stops]) (.text s v _ _ hm (.other _ _ _ (by simp) (by simp [Starts]) h2 h))

/-- The text of a formula has some value in a cell of the same type. -/
theorem formula_means {ext : Ext} {strings : List Bytes} {t : Option Bytes} {s f : Bytes} {v : GoVal}
    (h : CellMeans ext strings t s v) (hf : f ≠ []) (ht : t ≠ some (lit "s")) : ∃ w, CellMeans ext strings t f w := by
  have hnum : t = none ∨ t = some (lit "n") → ∃ w, CellMeans ext strings t f w := by
    intro h
    rcases hp : ext.parseFloat f with ⟨x, _ | e⟩
    · exact ⟨_, .number t f x h hp⟩
    · exact ⟨_, .notNumber t f x e h hp⟩
  have hbool : t = some (lit "b") → ∃ w, CellMeans ext strings t f w := by
    rintro rfl
    cases f with
    | nil => exact absurd rfl hf
    | cons b f =>
      by_cases hb : b = 49
      · subst hb; exact ⟨_, .true f⟩
      · exact ⟨_, .false b f hb⟩
  cases h with
  | number _ _ _ h _ => exact hnum h
  | notNumber _ _ _ _ h _ => exact hnum h
  | true => exact hbool rfl
  | false => exact hbool rfl
  | shared => exact absurd rfl ht
  | text t _ h => exact ⟨_, .text t f h⟩

theorem cellContent_texts {ext : Ext} {strings : List Bytes} {t : Option Bytes} {inner : List Tok} {v : Option GoVal}
    (h : CellContent ext strings t inner v) :
    ∃ ws, CellTexts ext strings t inner (ws ++ v.toList) ∧ (v = none → ws = []) := by
  cases h with
  | blank inner h => exact ⟨[], cellTexts_tokens h, fun _ => rfl⟩
  | value pre post e s a v h1 h2 he hm =>
    refine ⟨[], ?_, fun _ => rfl⟩
    exact cellTexts_append (vs := []) (cellTexts_tokens h1)
      (cellTexts_elem (he.elim .inl (fun h => .inr (.inl h))) hm (cellTexts_tokens h2))
  | formula pre mid post f s a b v h1 h2 h3 hf ht hm =>
    obtain ⟨w, hw⟩ := formula_means hm hf ht
    refine ⟨[w], ?_, by simp⟩
    refine cellTexts_append (vs := []) (cellTexts_tokens h1) (cellTexts_elem (.inr (.inr rfl)) hw ?_)
    exact cellTexts_append (vs := []) (cellTexts_tokens h2) (cellTexts_elem (.inl rfl) hm (cellTexts_tokens h3))

theorem lastAt_cell (r c x y : Nat) (n : Nat) (ws : List GoVal) (v : GoVal) :
    lastAt r c (([v]).map (fun v => (⟨x, y, .value v n⟩ : Write))) =
      lastAt r c ((ws ++ [v]).map (fun v => (⟨x, y, .value v n⟩ : Write))) := by
  rw [List.map_append, lastAt_append]
  simp only [List.map_cons, List.map_nil, lastAt]
  by_cases h : x = r ∧ y = c
  · simp [h]
  · simp only [if_neg h]
    induction ws with
    | nil => rfl
    | cons w ws ih => simp only [List.map_cons, lastAt]; rw [if_neg h]; rw [Option.none_or] at ih; rw [← ih]; rfl

theorem sheetLoop_step (ext : Ext) (d : Doc) (links : Bytes → Bytes) (t : Tok) (ts : List Tok) (st st' : WsSt)
    (h : sheetTok ext d links t st = .ok st') : sheetLoop ext d links (t :: ts) st = sheetLoop ext d links ts st' := by
  rw [sheetLoop, h, GoRes.ok_bind]

/-- Elements without a meaning, inside and outside of cells. -/
theorem sheetTok_other (ext : Ext) (d : Doc) (links : Bytes → Bytes) (t : Tok) (st : WsSt) (h1 : ¬ Starts sheetNames t)
    (h2 : ¬ Stops [lit "c"] t) (h3 : ∀ s, t ≠ .chars s) : sheetTok ext d links t st = .ok st := by
  unfold sheetTok
  cases t with
  | start n a =>
    have h := starts_not h1
    simp only
    rw [if_neg (h _ (by simp [sheetNames])), if_neg (h _ (by simp [sheetNames])), if_neg (h _ (by simp [sheetNames])),
      if_neg (h _ (by simp [sheetNames]))]
  | stop n => simp only; rw [if_neg (stops_not h2 _ (by simp))]
  | chars v => exact absurd rfl (h3 v)
  | other => rfl

/-- Tokens outside of cells. -/
theorem sheetTok_outside (ext : Ext) (d : Doc) (links : Bytes → Bytes) (t : Tok) (st : WsSt) (h1 : ¬ Starts sheetNames t)
    (h2 : st.cell = []) : sheetTok ext d links t st = .ok st := by
  by_cases hs : Stops [lit "c"] t
  · cases t with
    | stop n =>
      have : n = lit "c" := by simpa [Stops] using hs
      subst this
      unfold sheetTok
      simp only [if_true]
      cases st
      simp only at h2
      rw [h2]
    | _ => exact hs.elim
  · cases t with
    | chars v => unfold sheetTok charsTok; simp only; rw [if_pos h2]
    | start n a => exact sheetTok_other ext d links _ st h1 hs (by simp)
    | stop n => exact sheetTok_other ext d links _ st h1 hs (by simp)
    | other => exact sheetTok_other ext d links _ st h1 hs (by simp)

/-- The content of a cell. -/
theorem cellTexts_spec (ext : Ext) (d : Doc) (links : Bytes → Bytes) {t : Option Bytes} {inner : List Tok}
    {vs : List GoVal} (h : CellTexts ext d.strings t inner vs) {r c : Nat} {ref : Bytes} (hr : A1 c r ref)
    (h1 : r < maxIndex) (h2 : c < maxIndex) : ∀ (ts : List Tok) (st : WsSt), st.cell = ref → st.typ = typeText t →
      SheetInv st.sheet →
      ∃ s', sheetLoop ext d links (inner ++ ts) st = sheetLoop ext d links ts { st with sheet := s' } ∧
        Upd ext st.sheet s' (vs.map (fun v => ⟨r, c, .value v st.fno⟩)) := by
  induction h with
  | nil => intro ts st _ _ _; exact ⟨st.sheet, rfl, Upd.refl ext st.sheet⟩
  | text s v inner vs hm _ ih =>
    intro ts st hc ht hi
    obtain ⟨hv, hsup⟩ := cellValue_spec hm
    obtain ⟨s1, hp, u1⟩ := put_upd ext hi r c hsup st.fno
    obtain ⟨s2, e, u2⟩ := ih ts { st with sheet := s1 } hc ht (u1.inv hi)
    refine ⟨s2, ?_, u1.trans u2⟩
    rw [List.cons_append, sheetLoop_step ext d links _ _ st { st with sheet := s1 }, e]
    unfold sheetTok charsTok
    simp only
    rw [hc, if_neg (a1_ne_nil hr), a1_index hr h1 h2, GoRes.ok_bind]
    simp only
    rw [if_pos (by omega), ht, hv, GoRes.ok_bind]
    simp only
    rw [hp]
    rfl
  | other x inner vs hx1 hx2 hx3 _ ih =>
    intro ts st hc ht hi
    obtain ⟨s2, e, u2⟩ := ih ts st hc ht hi
    refine ⟨s2, ?_, u2⟩
    rw [List.cons_append, sheetLoop_step ext d links _ _ st st (sheetTok_other ext d links x st hx2 hx3 hx1), e]

theorem typeText_attr {attrs : List (Bytes × Bytes)} {t : Option Bytes} (hd : Distinct attrs) (h : CellType? attrs t) :
    (if attr attrs (lit "t") = [] then lit "n" else attr attrs (lit "t")) = typeText t := by
  rcases h with ⟨hl, rfl⟩ | ⟨s, hs, rfl⟩
  · rw [attr_lacks hl, if_pos rfl]; rfl
  · rw [attr_has hd hs]; rfl

theorem cElem_spec (d : Doc) {attrs : List (Bytes × Bytes)} {k : Nat} {ref : Bytes} {t : Option Bytes}
    (hd : Distinct attrs) (hr : Has attrs "r" ref) (hk : NumAttr attrs "s" 0 k) (hlt : k < 2 ^ 63)
    (ht : CellType? attrs t) (st : WsSt) :
    cElem d attrs st = .ok { st with typ := typeText t, cell := ref, fno := styleFormat d.xfs k } := by
  unfold cElem
  simp only
  rw [typeText_attr hd ht, attr_has hd hr, numAttr_val 64 (by decide) hd hk (by omega)]
  unfold styleFormat
  by_cases h : k < d.xfs.length
  · rw [if_pos (by omega)]
    unfold index
    rw [if_pos (by omega), Int.toNat_natCast, List.getElem?_eq_getElem h]
    simp only
    rw [GoRes.ok_bind, List.getD_eq_getElem?_getD, List.getElem?_eq_getElem h]
    rfl
  · rw [if_neg (by omega), GoRes.ok_bind, List.getD_eq_getElem?_getD, List.getElem?_eq_none (by omega)]
    rfl

/-! ### Merged regions -/

theorem mergeVal_eq (r0 r1 c0 c1 r c : Nat) :
    mergeVal (r0 : Int) r1 c0 c1 r c = regionVal none r0 r1 c0 c1 r c := by
  unfold mergeVal regionVal
  simp only [Int.natCast_inj]

theorem mergeRow_eq (ext : Ext) (r0 r1 c0 c1 r : Nat) : ∀ (n c : Nat) (s : Sheet),
    mergeRow ext r0 r1 c0 c1 r n c s = putRegionRow ext none r0 r1 c0 c1 r n c s := by
  intro n
  induction n with
  | zero => intro c s; rfl
  | succ n ih =>
    intro c s
    rw [mergeRow, putRegionRow]
    have : mergeCell ext r0 r1 c0 c1 r c s = putRegionCell ext none r0 r1 c0 c1 r c s := by
      unfold mergeCell putRegionCell
      rw [mergeVal_eq]
      cases regionVal none r0 r1 c0 c1 r c <;> rfl
    rw [this]
    cases putRegionCell ext none r0 r1 c0 c1 r c s with
    | ok s' => rw [GoRes.ok_bind, GoRes.ok_bind, ← ih]; rfl
    | err e => rfl
    | panic => rfl

theorem mergeRows_eq (ext : Ext) (r0 r1 c0 c1 : Nat) : ∀ (n r : Nat) (s : Sheet),
    mergeRows ext r0 r1 c0 c1 n r s = putRegionRows ext none r0 r1 c0 c1 n r s := by
  intro n
  induction n with
  | zero => intro r s; rfl
  | succ n ih =>
    intro r s
    rw [mergeRows, putRegionRows, show ((c1 : Int) + 1 - c0).toNat = c1 + 1 - c0 by omega, mergeRow_eq]
    cases putRegionRow ext none r0 r1 c0 c1 r (c1 + 1 - c0) c0 s with
    | ok s' => rw [GoRes.ok_bind, GoRes.ok_bind, ← ih]; rfl
    | err e => rfl
    | panic => rfl

theorem mergeElem_spec (ext : Ext) {attrs : List (Bytes × Bytes)} {g : Region} {ref : Bytes} {vs : List Write}
    {maxRow maxCol : Nat} (hd : Distinct attrs) (hr : Has attrs "ref" ref) (hg : RegionRef g ref)
    (hw : RegionWrites (g.upTo maxRow maxCol) none vs) (st : WsSt) (h1 : st.maxRow = maxRow) (h2 : st.maxCol = maxCol)
    (hi : SheetInv st.sheet) :
    ∃ s', mergeElem ext attrs st = .ok { st with sheet := s' } ∧ Upd ext st.sheet s' vs := by
  obtain ⟨s', e, u⟩ := putRegion_spec ext _ none vs hw hi
  refine ⟨s', ?_, u⟩
  unfold mergeElem
  rw [attr_has hd hr]
  have key : ∀ r0 r1 c0 c1 : Nat, g = ⟨r0, r1, c0, c1⟩ →
      (do
        let r1' : Int := if (r1 : Int) > st.maxRow then st.maxRow else r1
        let c1' : Int := if (c1 : Int) > st.maxCol then st.maxCol else c1
        let s ← mergeRows ext r0 r1' c0 c1' (r1' + 1 - (r0 : Int)).toNat r0 st.sheet
        pure { st with sheet := s }) = (GoRes.ok { st with sheet := s' } : GoRes WsSt) := by
    rintro r0 r1 c0 c1 rfl
    have e1 : (if (r1 : Int) > st.maxRow then st.maxRow else (r1 : Int)) = ((min r1 maxRow : Nat) : Int) := by
      rw [h1]; split <;> omega
    have e2 : (if (c1 : Int) > st.maxCol then st.maxCol else (c1 : Int)) = ((min c1 maxCol : Nat) : Int) := by
      rw [h2]; split <;> omega
    simp only [e1, e2]
    rw [show (((min r1 maxRow : Nat) : Int) + 1 - (r0 : Int)).toNat = min r1 maxRow + 1 - r0 by omega, mergeRows_eq]
    have : putRegionRows ext none r0 (min r1 maxRow) c0 (min c1 maxCol) (min r1 maxRow + 1 - r0) r0 st.sheet = .ok s' := e
    rw [this]
    rfl
  cases hg with
  | cell r c s ha hr hc =>
    rw [Simple.splitByte_noSep 58 ref (a1_no_colon ha)]
    simp only
    rw [a1_index ha hr hc, GoRes.ok_bind]
    simp only [GoRes.ok_bind]
    exact key r r c c rfl
  | range r0 r1 c0 c1 s t ha hb k1 k2 k3 k4 =>
    rw [split_colon ha hb]
    simp only
    rw [a1_index ha k1 k2, a1_index hb k3 k4]
    simp only [GoRes.ok_bind]
    exact key r0 r1 c0 c1 rfl

/-! ### Hyperlinks -/

theorem link_upd (ext : Ext) {s : Sheet} (h : SheetInv s) (row col : Nat) (l : Bytes) (hl : isMarker l = false) :
    ∃ s1 s2, s.put ext row col (.str l) 0 = .ok s1 ∧ s1.setURL row col l = .ok s2 ∧
      Upd ext s s2 [⟨row, col, .link l⟩] := by
  obtain ⟨s1, hp, hu⟩ := put_upd ext h row col (v := .str l) trivial 0
  obtain ⟨y, hy, _, _, hat, _⟩ := put_at hp
  have hi := hu.inv h
  have hin := hu.inside _ (List.mem_singleton.2 rfl)
  simp only at hin
  have hcell : ∃ ty, y = .full (if l = [] then .nil else .str l) ty none [] := by
    unfold putCell at hy
    have hm : (GoVal.str l).marker = false := hl
    have ht : typedCell ext s.fmtr (.str l) 0 = .ok (textCell l) := by
      unfold typedCell
      cases s.fmtr.getCellType 0 with
      | none => rfl
      | some ct => simp only [if_true]; rfl
    rw [hm] at hy
    simp only [cond_false, ht, GoRes.ok_bind] at hy
    unfold textCell at hy
    by_cases h0 : l = []
    · rw [if_pos h0] at hy ⊢
      cases hy
      exact ⟨_, rfl⟩
    · rw [if_neg h0] at hy ⊢
      cases hy
      exact ⟨_, rfl⟩
  obtain ⟨ty, rfl⟩ := hcell
  generalize hv : (if l = [] then Val.nil else Val.str l) = v at *
  have hc1 : s1.cell? row col = some (.full v ty none []) := by
    rw [cell?_nat]; simpa using hat
  have hs2 : ∃ s2, s1.store row col (.full v .hyperlink (some 0) [l]) = .ok s2 := by
    unfold Sheet.store; rw [hc1]; exact ⟨_, rfl⟩
  obtain ⟨s2, hs2⟩ := hs2
  obtain ⟨_, _, ha2, ho2⟩ := store_at hs2
  obtain ⟨hf2, hr2, hcc2, hcu2, _, _⟩ := store_fields hs2
  refine ⟨s1, s2, hp, ?_, ?_⟩
  · unfold Sheet.setURL
    rw [if_neg (by omega), hc1]
    exact hs2
  · constructor
    · intro _; exact inv_store hi hs2
    · rw [hf2, hu.fmtr]
    · intro r c
      have hcells := hu.cells r c
      unfold lastAt at hcells ⊢
      simp only [lastAt] at hcells ⊢
      by_cases hc : row = r ∧ col = c
      · rw [if_pos hc]
        obtain ⟨rfl, rfl⟩ := hc
        exact ⟨.full v .hyperlink (some 0) [l], ⟨hv.symm, rfl, rfl, rfl⟩, by simpa using ha2⟩
      · rw [if_neg hc] at hcells ⊢
        rw [ho2 r c (by omega)]
        exact hcells
    · intro hr; exact rect_store (hu.rect hr) hs2
    · rw [hr2]; exact hu.rows
    · rw [hcc2]; exact hu.cols
    · intro hc; rw [hcu2]; exact hu.cur hc
    · intro w hw
      simp at hw
      subst hw
      rw [hr2, hcc2]
      exact hin
    · rw [hr2, hcc2]
      exact ⟨fun n h hw => hu.tight.1 n h (fun w hm => by
          rw [List.mem_singleton] at hm; subst hm; have := hw _ (List.mem_singleton.2 rfl); exact this),
        fun n h hw => hu.tight.2 n h (fun w hm => by
          rw [List.mem_singleton] at hm; subst hm; have := hw _ (List.mem_singleton.2 rfl); exact this)⟩

/-! ### The tokens of a worksheet -/

theorem lit_names : lit "c" ≠ lit "dimension" ∧ lit "mergeCell" ≠ lit "dimension" ∧ lit "mergeCell" ≠ lit "c" ∧
    lit "hyperlink" ≠ lit "dimension" ∧ lit "hyperlink" ≠ lit "c" ∧ lit "hyperlink" ≠ lit "mergeCell" := by
  decide +kernel

theorem wsToks_spec (ext : Ext) (d : Doc) (links : Bytes → Bytes) {maxRow maxCol : Nat} {ts : List Tok}
    {ws : List Write} (h : WsToks ext d.strings d.xfs links maxRow maxCol ts ws) : ∀ (st : WsSt), st.cell = [] →
      st.maxRow = maxRow → st.maxCol = maxCol → SheetInv st.sheet →
      ∃ st', sheetLoop ext d links ts st = .ok st' ∧ Upd ext st.sheet st'.sheet ws ∧ st'.cell = [] ∧
        st'.maxRow = maxRow ∧ st'.maxCol = maxCol := by
  induction h with
  | nil => intro st h1 h2 h3 _; exact ⟨st, rfl, Upd.refl ext st.sheet, h1, h2, h3⟩
  | other x ts ws hx _ ih =>
    intro st h1 h2 h3 h4
    obtain ⟨st', e, u, hk⟩ := ih st h1 h2 h3 h4
    exact ⟨st', by rw [sheetLoop_step ext d links _ _ st st (sheetTok_outside ext d links x st hx h1), e], u, hk⟩
  | cell attrs r c k ref t inner v ts ws hd hr ha k1 k2 hk hlt ht hcc _ ih =>
    intro st h1 h2 h3 h4
    obtain ⟨us, htx, hus⟩ := cellContent_texts hcc
    have e1 := cElem_spec d hd hr hk hlt ht st
    obtain ⟨s1, e2, u1⟩ := cellTexts_spec ext d links htx ha k1 k2 (.stop (lit "c") :: ts)
      { st with typ := typeText t, cell := ref, fno := styleFormat d.xfs k } rfl rfl h4
    obtain ⟨st', e, u, hk⟩ := ih { st with typ := typeText t, cell := [], fno := styleFormat d.xfs k, sheet := s1 } rfl h2 h3
      (u1.inv h4)
    have u1' : Upd ext st.sheet s1 (v.toList.map (fun v => ⟨r, c, .value v (styleFormat d.xfs k)⟩)) := by
      refine u1.same (fun r' c' => ?_)
      cases v with
      | none => rw [hus rfl]; rfl
      | some v => exact lastAt_cell r' c' r c _ us v
    refine ⟨st', ?_, u1'.trans u, hk⟩
    rw [sheetLoop_step ext d links _ _ st { st with typ := typeText t, cell := ref, fno := styleFormat d.xfs k }, e2,
      sheetLoop_step ext d links _ _ _
        { st with typ := typeText t, cell := [], fno := styleFormat d.xfs k, sheet := s1 }, e]
    · unfold sheetTok; simp only [if_true]
    · unfold sheetTok; simp only; rw [if_neg lit_names.1, if_pos trivial, e1]
  | merge attrs g ref vs ts ws hd hr hg hw _ ih =>
    intro st h1 h2 h3 h4
    obtain ⟨s1, e1, u1⟩ := mergeElem_spec ext hd hr hg hw st h2 h3 h4
    obtain ⟨st', e, u, hk⟩ := ih { st with sheet := s1 } h1 h2 h3 (u1.inv h4)
    refine ⟨st', ?_, u1.trans u, hk⟩
    rw [sheetLoop_step ext d links _ _ st { st with sheet := s1 }, e]
    unfold sheetTok
    simp only
    rw [if_neg lit_names.2.1, if_neg lit_names.2.2.1, if_pos trivial, e1]
  | link attrs r c ref l ts ws hd hr ha k1 k2 hid hm _ ih =>
    intro st h1 h2 h3 h4
    have hmk : isMarker l = false := by
      simp only [List.mem_cons, List.not_mem_nil, or_false, not_or] at hm
      simp only [isMarker, Bool.or_eq_false_iff, beq_eq_false_iff_ne]
      exact ⟨⟨⟨hm.2.2.2, hm.2.1⟩, hm.2.2.1⟩, hm.1⟩
    have hl : links (attr attrs (lit "id")) = l := by
      rcases hid with ⟨hl, rfl⟩ | ⟨id, hid, rfl⟩
      · rw [attr_lacks hl]
      · rw [attr_has hd hid]
    obtain ⟨s1, s2, e1, e2, u1⟩ := link_upd ext h4 r c l hmk
    obtain ⟨st', e, u, hk⟩ := ih { st with sheet := s2 } h1 h2 h3 (u1.inv h4)
    refine ⟨st', ?_, u1.trans u, hk⟩
    rw [sheetLoop_step ext d links _ _ st { st with sheet := s2 }, e]
    unfold sheetTok
    simp only
    rw [if_neg lit_names.2.2.2.1, if_neg lit_names.2.2.2.2.1, if_neg lit_names.2.2.2.2.2, if_pos trivial]
    unfold linkElem
    rw [attr_has hd hr, a1_index ha k1 k2, GoRes.ok_bind]
    simp only
    rw [hl, e1, GoRes.ok_bind, e2]
    rfl

theorem dimElem_spec {attrs : List (Bytes × Bytes)} {ref : Bytes} {r c : Nat} (hd : Distinct attrs)
    (hr : Has attrs "ref" ref) (h : DimRef ref r c) (st : WsSt) :
    dimElem attrs st = .ok { st with maxCol := c, maxRow := r, sheet := st.sheet.resize r c } := by
  unfold dimElem
  rw [attr_has hd hr]
  cases h with
  | one => simp only [if_true]; rfl
  | cell _ _ _ ha hne k1 k2 =>
    simp only
    rw [if_neg hne, Simple.splitByte_noSep 58 ref (a1_no_colon ha)]
    simp only
    rw [a1_index ha k1 k2]
    rfl
  | range r0 c0 _ _ s t ha hb k1 k2 =>
    simp only
    rw [if_neg, split_colon ha hb]
    · simp only
      rw [a1_index hb k1 k2]
      rfl
    · intro he
      have : (58 : UInt8) ∈ lit "A1" := by rw [← he]; simp
      exact absurd this (by decide +kernel)

theorem sheetLoop_head (ext : Ext) (d : Doc) (links : Bytes → Bytes) (ts : List Tok) (st : WsSt) (h : st.cell = []) :
    ∀ head : List Tok, (∀ x ∈ head, ¬ Starts sheetNames x) →
      sheetLoop ext d links (head ++ ts) st = sheetLoop ext d links ts st := by
  intro head
  induction head with
  | nil => intro _; rfl
  | cons x head ih =>
    intro hh
    rw [List.cons_append, sheetLoop_step ext d links _ _ st st (sheetTok_outside ext d links x st (hh x (by simp)) h),
      ih (fun y hy => hh y (by simp [hy]))]

theorem sheetLoop_append (ext : Ext) (d : Doc) (links : Bytes → Bytes) (ys : List Tok) : ∀ (xs : List Tok) (st : WsSt),
    sheetLoop ext d links (xs ++ ys) st = (do sheetLoop ext d links ys (← sheetLoop ext d links xs st)) := by
  intro xs
  induction xs with
  | nil => intro st; rfl
  | cons x xs ih =>
    intro st
    rw [List.cons_append, sheetLoop, sheetLoop]
    cases sheetTok ext d links x st with
    | ok s => rw [GoRes.ok_bind, GoRes.ok_bind, ih]
    | err e => rfl
    | panic => rfl

/-- The dimension element of a sheet. -/
theorem sheetLoop_dim (ext : Ext) (d : Doc) (links : Bytes → Bytes) {head : List Tok} {attrs : List (Bytes × Bytes)}
    {ref : Bytes} {r c : Nat} (hh : ∀ x ∈ head, ¬ Starts sheetNames x) (hd : Distinct attrs) (hr : Has attrs "ref" ref)
    (hdim : DimRef ref r c) (ts : List Tok) :
    sheetLoop ext d links (head ++ .start (lit "dimension") attrs :: ts) ⟨[], [], 0, 0, 0, Sheet.new d.fmt⟩ =
      sheetLoop ext d links ts ⟨[], [], 0, c, r, (Sheet.new d.fmt).resize r c⟩ := by
  rw [sheetLoop_head ext d links _ _ (by rfl) head hh,
    sheetLoop_step ext d links _ _ _ ⟨[], [], 0, c, r, (Sheet.new d.fmt).resize r c⟩]
  unfold sheetTok
  simp only
  rw [if_pos trivial, dimElem_spec hd hr hdim]

/-- A worksheet part: the sheet after its dimension, and the writes. -/
theorem wsPart_spec (ext : Ext) (d : Doc) (links : Bytes → Bytes) {ts : List Tok} {m : Nat × Nat} {ws : List Write}
    (h : WsPart ext d.strings d.xfs links ts m ws) :
    ∃ s0 st', sheetLoop ext d links ts ⟨[], [], 0, 0, 0, Sheet.new d.fmt⟩ = .ok st' ∧ Upd ext s0 st'.sheet ws ∧
      SheetInv s0 ∧ AllBlank s0 ∧ s0.fmtr = d.fmt ∧ s0.curRow = 0 ∧ RectInv s0 ∧ (m.1 : Int) ≤ s0.numRows ∧
      (m.2 : Int) ≤ s0.numCols ∧ (∀ n : Int, 0 < n → (m.1 : Int) ≤ n → s0.numRows ≤ n) ∧
      ∀ n : Int, 0 < n → (m.2 : Int) ≤ n → s0.numCols ≤ n := by
  cases h with
  | plain ts ws h =>
    obtain ⟨st', e, u, _⟩ := wsToks_spec ext d links h ⟨[], [], 0, 0, 0, Sheet.new d.fmt⟩ rfl rfl rfl (inv_new _)
    exact ⟨_, st', e, u, inv_new _, allBlank_new _, rfl, rfl, rect_new _, Int.le_refl _, Int.le_refl _,
      fun _ _ h => h, fun _ _ h => h⟩
  | dimension head attrs ref r c ts ws hh hd hr hdim h =>
    have hinv : SheetInv ((Sheet.new d.fmt).resize r c) := inv_resize (inv_new _) (by omega) (by omega)
    obtain ⟨st', e, u, _⟩ := wsToks_spec ext d links h ⟨[], [], 0, c, r, (Sheet.new d.fmt).resize r c⟩ rfl rfl rfl hinv
    refine ⟨_, st', ?_, u, hinv, allBlank_resize (allBlank_new _) _ _, by rw [resize_fmtr]; rfl, rfl,
      rect_resize (rect_new _) (by simp [Sheet.new]) (by simp [Sheet.new]), ?_, ?_, ?_, ?_⟩
    · rw [sheetLoop_dim ext d links hh hd hr hdim, e]
    · unfold Sheet.resize; simp only; split <;> omega
    · unfold Sheet.resize; simp only; split <;> omega
    · intro n h0 h1; unfold Sheet.resize; simp only; split <;> omega
    · intro n h0 h1; unfold Sheet.resize; simp only; split <;> omega

/-! ### The targets of links -/

theorem tHyperlink_eq : tHyperlink = relType "hyperlink" := by decide +kernel

theorem targetOf_cons (i t : Bytes) (ls : List (Bytes × Bytes)) (id : Bytes) :
    targetOf ((i, t) :: ls) id = if (∃ l ∈ ls, l.1 = id) then targetOf ls id else if i = id then t else [] := rfl

theorem linkLoop_spec {ts : List Tok} {ls : List (Bytes × Bytes)} (h : LinkToks ts ls) : ∀ (m : Bytes → Bytes) (id : Bytes),
    linkLoop ts m id = if (∃ l ∈ ls, l.1 = id) then targetOf ls id else m id := by
  induction h with
  | nil => intro m id; simp [linkLoop]
  | other x ts ls hx _ ih =>
    intro m id
    rw [← ih]
    cases x with
    | start n a =>
      rw [linkLoop, if_neg]
      rintro ⟨he, _⟩
      exact starts_not hx _ (by simp) he
    | stop n => rw [linkLoop]; simp
    | chars v => rw [linkLoop]; simp
    | other => rw [linkLoop]; simp
  | link attrs i target ts ls hd h1 h2 h3 h4 _ ih =>
    intro m id
    rw [linkLoop, if_pos ⟨rfl, attr_has hd h3, by rw [tHyperlink_eq]; exact attr_has hd h4⟩, ih, attr_has hd h1,
      attr_has hd h2, targetOf_cons]
    by_cases hl : ∃ l ∈ ls, l.1 = id
    · have : ∃ l ∈ (i, target) :: ls, l.1 = id := by
        obtain ⟨l, h1, h2⟩ := hl; exact ⟨l, by simp [h1], h2⟩
      rw [if_pos hl, if_pos this, if_pos hl]
    · by_cases hi : i = id
      · have : ∃ l ∈ (i, target) :: ls, l.1 = id := ⟨_, List.mem_cons_self, hi⟩
        rw [if_neg hl, if_pos this, if_neg hl, if_pos hi, if_pos hi.symm]
      · have : ¬ ∃ l ∈ (i, target) :: ls, l.1 = id := by
          rintro ⟨l, h1, h2⟩
          rcases List.mem_cons.1 h1 with rfl | h1
          · exact hi h2
          · exact hl ⟨l, h1, h2⟩
        rw [if_neg hl, if_neg this, if_neg (fun h => hi h.symm)]
  | internal attrs ts ls hd h1 _ ih =>
    intro m id
    rw [linkLoop, if_neg, ih]
    rintro ⟨_, e1, e2⟩
    apply h1
    have hne : lit "External" ≠ [] := by decide +kernel
    have hne2 : relType "hyperlink" ≠ [] := by decide +kernel
    refine ⟨?_, ?_⟩
    · refine Classical.byContradiction (fun h => ?_)
      exact attr_ne hd h hne e1
    · refine Classical.byContradiction (fun h => ?_)
      exact attr_ne hd h hne2 (by rw [← tHyperlink_eq]; exact e2)

theorem targetOf_none {ls : List (Bytes × Bytes)} {id : Bytes} (h : ¬ ∃ l ∈ ls, l.1 = id) : targetOf ls id = [] := by
  cases ls with
  | nil => rfl
  | cons l ls =>
    obtain ⟨i, t⟩ := l
    rw [targetOf_cons, if_neg, if_neg]
    · intro he; exact h ⟨_, List.mem_cons_self, he⟩
    · rintro ⟨x, h1, h2⟩; exact h ⟨x, by simp [h1], h2⟩

/-- The links of a worksheet: none without a relationship part. -/
theorem linkMap_spec {a : Archive} {dir : List Bytes} {base : Bytes} (hd : ∀ s ∈ dir, RealName s) (hb : PathName base)
    {ls : List (Bytes × Bytes)}
    (h : (LacksPart a (relsPart dir base) ∧ ls = []) ∨ ∃ ts, HasPart a (relsPart dir base) ts ∧ LinkToks ts ls) :
    linkMap a (pathOf (dir ++ [base])) = targetOf ls := by
  unfold linkMap
  rw [relsOf_spec dir base hd hb]
  rcases h with ⟨h, rfl⟩ | ⟨ts, h, hl⟩
  · rw [openXML_lacks h]; rfl
  · rw [openXML_has h]
    funext id
    simp only
    rw [linkLoop_spec hl]
    split
    · rfl
    · rename_i hn; rw [targetOf_none hn]

end Grate.Xlsx
