import Verif.Lemmas.XlsLoad
import Verif.Lemmas.XlsSafe

/-! # Lemmas: the passes over the records do not panic -/

namespace Grate.Xls

open Grate Grate.Spec

/-! ### The first pass -/

theorem dimensions_safe (data : Slice) (d : Dims) (h : SheetInv d.sheet) (hd : 12 ≤ data.val.length) :
    Safe (dimensions data d) (fun d' => SheetInv d'.sheet) := by
  unfold dimensions
  refine (safe_sub data 0 4 (by omega) (by omega)).bind fun t ht => ?_
  refine (safe_u32 t (by rw [ht, take_drop_len _ (by omega)]; omega)).bind fun _ _ => ?_
  refine (safe_sub data 4 8 (by omega) (by omega)).bind fun t ht => ?_
  refine (safe_u32 t (by rw [ht, take_drop_len _ (by omega)]; omega)).bind fun _ _ => ?_
  refine (safe_sub data 8 10 (by omega) (by omega)).bind fun t ht => ?_
  refine (safe_u16 t (by rw [ht, take_drop_len _ (by omega)]; omega)).bind fun _ _ => ?_
  refine (safe_sub data 10 12 (by omega) (by omega)).bind fun t ht => ?_
  refine (safe_u16 t (by rw [ht, take_drop_len _ (by omega)]; omega)).bind fun _ _ => ?_
  exact inv_resize h (by omega) (by omega)

/-- What is known after the first pass. -/
def DimsOk (o : Option Dims) : Prop := ∀ d, o = some d → SheetInv d.sheet

theorem dimsOk_some {d : Dims} (h : SheetInv d.sheet) : DimsOk (some d) := by
  intro d' e; cases e; exact h

theorem pass1_open : ∀ (inner : List Rec) (d : Dims), (∀ r ∈ inner, r.type ≠ recEOF) →
    pass1 false 1 inner d = .ok (some d)
  | [], d, _ => by rw [pass1]
  | r :: inner, d, h => by
    rw [pass1, if_pos (by omega), if_neg (h r (by simp))]
    exact pass1_open inner d (fun x hx => h x (by simp [hx]))

theorem pass1_step (r : Rec) (rs : List Rec) (hb : r.type ≠ recBOF) (h1 : r.type = 129 → 2 ≤ r.data.val.length)
    (h2 : r.type = 512 → 12 ≤ r.data.val.length)
    (ih : ∀ d : Dims, SheetInv d.sheet → Safe (pass1 false 0 rs d) DimsOk) (d : Dims) (hd : SheetInv d.sheet) :
    Safe (pass1 false 0 (r :: rs) d) DimsOk := by
  rw [pass1, if_neg (by omega), if_neg hb]
  split
  · rename_i e
    have := h1 e
    refine (safe_idx r.data 1 (by omega)).bind fun x _ => ?_
    split
    · intro d' e; cases e
    · exact ih d hd
  · split
    · rename_i e
      exact (dimensions_safe r.data d hd (h2 e)).bind fun d' hd' => ih d' hd'
    · exact ih d hd

theorem split_views {recs : List Rec} {b e : Record} {inner rs : List Record}
    (h : recs.map Rec.view = b :: (inner ++ e :: rs)) : ∃ ob os oe ors, recs = ob :: (os ++ oe :: ors) ∧ ob.view = b ∧
      os.map Rec.view = inner ∧ oe.view = e ∧ ors.map Rec.view = rs := by
  obtain ⟨ob, r1, rfl, hb, h1⟩ := map_view_cons h
  obtain ⟨os, r2, rfl, hi, h2⟩ := List.map_eq_append_iff.1 h1
  obtain ⟨oe, ors, rfl, he, h3⟩ := map_view_cons h2
  exact ⟨ob, os, oe, ors, rfl, hb, hi, he, h3⟩

theorem pass1_safe {k : Nat} {ready : Bool} {vs : List Record} (h : SafeSheet k ready vs) :
    ∀ (recs : List Rec), recs.map Rec.view = vs → ∀ d : Dims, SheetInv d.sheet → Safe (pass1 false 0 recs d) DimsOk := by
  induction h with
  | nil => intro recs hr d hd; rw [List.map_eq_nil_iff] at hr; subst hr; rw [pass1]; exact dimsOk_some hd
  | block ready b e inner rs hb he hi _ ih =>
    intro recs hr d hd
    obtain ⟨ob, os, oe, ors, rfl, h1, h2, h3, h4⟩ := split_views hr
    rw [pass1, if_neg (by omega), if_pos (by rw [(rec_view h1).1, hb]; rfl), if_neg (by simp),
      pass1_inner oe (by rw [(rec_view h3).1, he]; rfl) os ors d (view_types h2 (fun t => t ≠ recEOF) hi)]
    exact ih ors h4 d hd
  | open_ ready b inner hb hi =>
    intro recs hr d hd
    obtain ⟨ob, os, rfl, h1, h2⟩ := map_view_cons hr
    rw [pass1, if_neg (by omega), if_pos (by rw [(rec_view h1).1, hb]; rfl), if_neg (by simp),
      pass1_open os d (view_types h2 (fun t => t ≠ recEOF) hi)]
    exact dimsOk_some hd
  | plain ready r rs hb _ _ hf _ ih =>
    intro recs hr
    obtain ⟨q, qs, rfl, hq, hqs⟩ := map_view_cons hr
    subst hq
    exact pass1_step q qs hb hf.wsBool hf.dimensions (ih qs hqs)
  | formula ready r rs ht _ _ _ ih =>
    intro recs hr
    obtain ⟨q, qs, rfl, hq, hqs⟩ := map_view_cons hr
    subst hq
    have ht : q.type = 6 := ht
    exact pass1_step q qs (by rw [ht]; decide) (by omega) (by omega) (ih qs hqs)
  | formulaOther ready r rs ht _ _ ih =>
    intro recs hr
    obtain ⟨q, qs, rfl, hq, hqs⟩ := map_view_cons hr
    subst hq
    have ht : q.type = 6 := ht
    exact pass1_step q qs (by rw [ht]; decide) (by omega) (by omega) (ih qs hqs)
  | text r rs ht _ _ _ ih =>
    intro recs hr
    obtain ⟨q, qs, rfl, hq, hqs⟩ := map_view_cons hr
    subst hq
    have ht : q.type = 519 := ht
    exact pass1_step q qs (by rw [ht]; decide) (by omega) (by omega) (ih qs hqs)

/-! ### The second pass -/

theorem pass2_open (ext : Ext) (b : Book) (mr mc : Nat) : ∀ (inner : List Rec) (st : CellSt),
    (∀ r ∈ inner, r.type ≠ recEOF) → pass2 ext b mr mc false 1 inner st = .ok st
  | [], d, _ => by rw [pass2]
  | r :: inner, d, h => by
    rw [pass2, if_pos (by omega), if_neg (h r (by simp))]
    exact pass2_open ext b mr mc inner d (fun x hx => h x (by simp [hx]))

theorem cell_safe (ext : Ext) (b : Book) (mr mc : Nat) (r : Rec) (later : List Rec) {ready : Bool} {st : CellSt}
    (h : StOk ready st) (h6 : r.type ≠ 6) (h519 : r.type ≠ 519) (hf : RecFits b.strings.length r.view)
    (hs : r.size = r.data.val.length) (hl : r.data.val.length < 65536) :
    Safe (cellRec ext b mr mc r later st) (StOk ready) := by
  unfold cellRec
  split
  · rename_i e; exact with_safe h (boolErr_safe ext b r.data h.inv (hf.boolErr e))
  split
  · rename_i e; rw [hs]; exact with_safe h (mulRk_safe ext b r.data h.inv (hf.mulRk e) hl)
  split
  · rename_i e; exact with_safe h (number_safe ext b r.data h.inv (hf.number e))
  split
  · rename_i e; exact with_safe h (rk_safe ext b r.data h.inv (hf.rk e))
  split
  · rename_i e; exact with_safe h (label_safe ext b r.data h.inv (hf.label e))
  split
  · rename_i e; exact with_safe h (hlink_safe ext mr mc r.data h.inv (hf.hlink e))
  split
  · rename_i e; exact with_safe h (merge_safe ext mr mc r.data h.inv (hf.merge e))
  exact h

theorem pass2_safe (ext : Ext) (b : Book) (mr mc : Nat) {ready : Bool} {vs : List Record}
    (h : SafeSheet b.strings.length ready vs) : ∀ (recs : List Rec), recs.map Rec.view = vs → Sized recs →
    (∀ v ∈ vs, v.data.length < 65536) → ∀ st : CellSt, StOk ready st →
    Safe (pass2 ext b mr mc false 0 recs st) (fun st' => SheetInv st'.sheet) := by
  induction h with
  | nil => intro recs hr _ _ st hst; rw [List.map_eq_nil_iff] at hr; subst hr; rw [pass2]; exact hst.inv
  | block ready o e inner rs hb he hi _ ih =>
    intro recs hr hz hv st hst
    obtain ⟨ob, os, oe, ors, rfl, h1, h2, h3, h4⟩ := split_views hr
    rw [pass2_block ext b mr mc ob oe (by rw [(rec_view h1).1, hb]; rfl) (by rw [(rec_view h3).1, he]; rfl) os ors st
      (view_types h2 (fun t => t ≠ recEOF) hi)]
    exact ih ors h4 (fun r hr => hz r (by simp [hr])) (fun v hv' => hv v (by simp [hv'])) st hst
  | open_ ready o inner hb hi =>
    intro recs hr hz hv st hst
    obtain ⟨ob, os, rfl, h1, h2⟩ := map_view_cons hr
    rw [pass2, if_neg (by omega), if_pos (by rw [(rec_view h1).1, hb]; rfl), if_neg (by simp),
      pass2_open ext b mr mc os st (view_types h2 (fun t => t ≠ recEOF) hi)]
    exact hst.inv
  | plain ready r rs hb h6 h519 hf _ ih =>
    intro recs hr hz hv st hst
    obtain ⟨q, qs, rfl, hq, hqs⟩ := map_view_cons hr
    subst hq
    rw [pass2, if_neg (by omega), if_neg (show ¬ q.type = recBOF from hb)]
    refine (cell_safe ext b mr mc q qs hst h6 h519 hf (hz q (by simp)) (hv q.view (by simp))).bind fun st' hst' => ?_
    exact ih qs hqs (fun r hr => hz r (by simp [hr])) (fun v hv' => hv v (by simp [hv'])) st' hst'
  | formula ready r rs ht hl hk _ ih =>
    intro recs hr hz hv st hst
    obtain ⟨q, qs, rfl, hq, hqs⟩ := map_view_cons hr
    subst hq
    have ht : q.type = 6 := ht
    rw [pass2, if_neg (by omega), if_neg (by rw [ht]; decide)]
    unfold cellRec
    rw [if_neg (by omega), if_neg (by omega), if_neg (by omega), if_neg (by omega), if_pos ht]
    refine (formula_safe ext b q.data hst hl).bind fun st' hst' => ?_
    exact ih qs hqs (fun r hr => hz r (by simp [hr])) (fun v hv' => hv v (by simp [hv'])) st' (hst'.2 hk)
  | formulaOther ready r rs ht hl _ ih =>
    intro recs hr hz hv st hst
    obtain ⟨q, qs, rfl, hq, hqs⟩ := map_view_cons hr
    subst hq
    have ht : q.type = 6 := ht
    rw [pass2, if_neg (by omega), if_neg (by rw [ht]; decide)]
    unfold cellRec
    rw [if_neg (by omega), if_neg (by omega), if_neg (by omega), if_neg (by omega), if_pos ht]
    refine (formula_safe ext b q.data hst hl).bind fun st' hst' => ?_
    exact ih qs hqs (fun r hr => hz r (by simp [hr])) (fun v hv' => hv v (by simp [hv'])) st' hst'.1
  | text r rs ht hf hc _ ih =>
    intro recs hr hz hv st hst
    obtain ⟨q, qs, rfl, hq, hqs⟩ := map_view_cons hr
    subst hq
    have ht : q.type = 519 := ht
    rw [pass2, if_neg (by omega), if_neg (by rw [ht]; decide)]
    unfold cellRec
    rw [if_neg (by omega), if_neg (by omega), if_neg (by omega), if_neg (by omega), if_neg (by omega), if_pos ht]
    refine (string_safe q.data qs hst hf (by rw [hqs]; exact hc)).bind fun st' hst' => ?_
    exact ih qs hqs (fun r hr => hz r (by simp [hr])) (fun v hv' => hv v (by simp [hv'])) st' hst'

theorem parseSheet_safe (ext : Ext) (b : Book) (i : Nat) {recs : List Rec} (hi : b.subs[i]? = some recs)
    {o : Record} {vs : List Record} (hv : recs.map Rec.view = o :: vs) (ho : o.type = 0x809)
    (h : SafeSheet b.strings.length false vs) (hz : Sized recs) (hl : ∀ v ∈ vs, v.data.length < 65536) :
    Safe (parseSheet ext b i) (fun _ => True) := by
  unfold parseSheet
  rw [hi]
  obtain ⟨q, qs, rfl, hq, hqs⟩ := map_view_cons hv
  have hb : q.type = recBOF := by rw [(rec_view hq).1, ho]; rfl
  have e1 : ∀ d, pass1 true 0 (q :: qs) d = pass1 false 0 qs d := by
    intro d; rw [pass1, if_neg (by omega), if_pos hb, if_pos rfl]
  have e2 : ∀ mr mc st, pass2 ext b mr mc true 0 (q :: qs) st = pass2 ext b mr mc false 0 qs st := by
    intro mr mc st; rw [pass2, if_neg (by omega), if_pos hb, if_pos rfl]
  simp only
  rw [e1]
  refine (pass1_safe h qs hqs _ (inv_new _)).bind fun o ho => ?_
  cases o with
  | none => trivial
  | some d =>
    simp only
    rw [e2]
    refine (pass2_safe ext b _ _ h qs hqs (fun r hr => hz r (by simp [hr])) hl _
      ⟨ho d rfl, Nat.le_refl _, fun e => by cases e⟩).bind fun _ _ => trivial

/-! ### The workbook globals -/

theorem read16s_safe : ∀ (n : Nat) (raw : Slice), 2 * n ≤ raw.val.length → Safe (read16s n raw) (fun _ => True)
  | 0, _, _ => by rw [read16s]; trivial
  | n + 1, raw, h => by
    rw [read16s]
    refine (safe_sub raw 0 2 (by omega) (by omega)).bind fun t ht => ?_
    refine (safe_u16 t (by rw [ht, take_drop_len _ (by omega)]; omega)).bind fun u _ => ?_
    refine (safe_drop raw 2 (by omega)).bind fun raw' hr => ?_
    exact (read16s_safe n raw' (by rw [hr, List.length_drop]; omega)).bind fun x hx => trivial

theorem decodeChars_safe (n : Nat) (flags : UInt8) (head : Nat) (raw : Slice)
    (h : (if bit flags 0 then 2 * n else n) ≤ raw.val.length) : Safe (decodeChars n flags head raw) (fun _ => True) := by
  unfold decodeChars
  split
  · rename_i e
    rw [if_neg (by rw [bit0_eq]; simpa using e)] at h
    exact (safe_sub raw 0 n (by omega) h).bind fun _ _ => trivial
  · rename_i e
    rw [if_pos ((bit0_eq flags).2 e)] at h
    exact (read16s_safe n raw h).bind fun _ _ => trivial

theorem short_safe {raw : Slice} (h : CountedText 1 raw.val) : Safe (decodeShort raw) (fun _ => True) := by
  obtain ⟨n, flags, chars, hn, he, hc⟩ := h
  obtain ⟨dv, dr⟩ := raw
  simp only at he
  subst he
  unfold decodeShort
  have e0 : (⟨leBytes 1 n ++ flags :: chars, dr⟩ : Slice).idx 0 = .ok (UInt8.ofNat n) := by
    simp only [leBytes, Slice.idx, List.cons_append, List.nil_append, List.getElem?_cons_zero]
    rw [Nat.mod_eq_of_lt (by omega)]
  have e1 : (⟨leBytes 1 n ++ flags :: chars, dr⟩ : Slice).idx 1 = .ok flags := rfl
  have e2 := drop_here (leBytes 1 n ++ [flags]) chars dr 2 (by simp [leBytes_length])
  rw [List.append_assoc, List.singleton_append] at e2
  rw [e0, GoRes.ok_bind, e1, GoRes.ok_bind, e2, GoRes.ok_bind,
    show (UInt8.ofNat n).toNat = n from by rw [UInt8.toNat_ofNat']; omega]
  exact decodeChars_safe n flags 2 ⟨chars, dr⟩ hc

theorem long_safe {raw : Slice} (h : CountedText 2 raw.val) : Safe (decodeLong raw) (fun _ => True) := by
  obtain ⟨n, flags, chars, hn, he, hc⟩ := h
  obtain ⟨dv, dr⟩ := raw
  simp only at he
  subst he
  unfold decodeLong
  have hu := u16_here n (by omega) [] ((flags :: chars) ++ dr)
  rw [List.append_nil] at hu
  have e1 : (⟨leBytes 2 n ++ flags :: chars, dr⟩ : Slice).idx 2 = .ok flags := rfl
  have e2 := drop_here (leBytes 2 n ++ [flags]) chars dr 3 (by simp [leBytes_length])
  rw [List.append_assoc, List.singleton_append] at e2
  rw [sub_here (leBytes 2 n) (flags :: chars) dr 2 (by rw [leBytes_length]), GoRes.ok_bind, hu, GoRes.ok_bind, e1,
    GoRes.ok_bind, e2, GoRes.ok_bind]
  exact decodeChars_safe n flags 3 ⟨chars, dr⟩ hc

theorem checkBOF_safe (data : Slice) (h : 16 ≤ data.val.length) : Safe (checkBOF data) (fun _ => True) := by
  unfold checkBOF
  refine (safe_sub data 0 2 (by omega) (by omega)).bind fun t ht => ?_
  refine (safe_u16 t (by rw [ht, take_drop_len _ (by omega)]; omega)).bind fun _ _ => ?_
  refine (safe_sub data 2 4 (by omega) (by omega)).bind fun t ht => ?_
  refine (safe_u16 t (by rw [ht, take_drop_len _ (by omega)]; omega)).bind fun _ _ => ?_
  refine (safe_sub data 4 6 (by omega) (by omega)).bind fun t ht => ?_
  refine (safe_u16 t (by rw [ht, take_drop_len _ (by omega)]; omega)).bind fun _ _ => ?_
  refine (safe_sub data 6 8 (by omega) (by omega)).bind fun t ht => ?_
  refine (safe_u16 t (by rw [ht, take_drop_len _ (by omega)]; omega)).bind fun _ _ => ?_
  refine (safe_sub data 8 16 (by omega) (by omega)).bind fun t ht => ?_
  refine (safe_u64 t (by rw [ht, take_drop_len _ (by omega)]; omega)).bind fun _ _ => ?_
  split
  · trivial
  · split <;> trivial

theorem boundSheet_safe (data : Slice) {head name : Bytes} (hh : head.length = 6) (he : data.val = head ++ name)
    (hn : CountedText 1 name) : Safe (boundSheet data) (fun _ => True) := by
  have hl : 6 ≤ data.val.length := by rw [he, List.length_append]; omega
  unfold boundSheet
  refine (safe_sub data 0 4 (by omega) (by omega)).bind fun t ht => ?_
  refine (safe_u32 t (by rw [ht, take_drop_len _ (by omega)]; omega)).bind fun _ _ => ?_
  refine (safe_idx data 4 (by omega)).bind fun _ _ => ?_
  refine (safe_idx data 5 (by omega)).bind fun _ _ => ?_
  refine (safe_drop data 6 hl).bind fun t ht => ?_
  refine (short_safe (raw := t) (by rw [ht, he, ← hh, List.drop_left]; exact hn)).bind fun _ _ => trivial

theorem processSub_safe (mk : Bytes → Fmt × CellType) {k k' : Nat} {rs : List Record} (h : SafeGlobals k rs k') :
    ∀ (recs : List Rec), recs.map Rec.view = rs → ∀ b : Book, b.strings.length = k →
      Safe (processSub mk recs b) (fun b' => b'.strings.length = k') := by
  have nonempty : ∀ {q : Rec} {n : Nat}, n ≤ q.view.data.length → 0 < n → ¬ q.data.len = 0 := by
    intro q n h1 h2
    have : q.view.data.length = q.data.len := rfl
    omega
  induction h with
  | nil => intro recs hr b hb; rw [List.map_eq_nil_iff] at hr; subst hr; exact hb
  | skip k k' r rs h1 _ ih =>
    intro recs hr b hb
    obtain ⟨q, qs, rfl, hq, hqs⟩ := map_view_cons hr
    have := processSub_skip mk b [q] qs (by
      intro x hx
      rw [List.mem_singleton] at hx
      subst hx
      subst hq
      exact h1)
    rw [List.cons_append, List.nil_append] at this
    rw [this]
    exact ih qs hqs b hb
  | bof k k' r rs ht hl _ ih =>
    intro recs hr b hb
    obtain ⟨q, qs, rfl, hq, hqs⟩ := map_view_cons hr
    subst hq
    have ht : q.type = 2057 := ht
    rw [processSub]
    have : Safe (processRec mk q qs b) (fun b' => b' = b) := by
      unfold processRec
      rw [if_neg (nonempty hl (by omega)), if_neg (by omega), if_pos (show q.type = recBOF from ht)]
      exact (checkBOF_safe q.data hl).bind fun _ _ => rfl
    exact this.bind fun b' e => ih qs hqs b' (by rw [e, hb])
  | setting k k' r rs ht hl _ ih =>
    intro recs hr b hb
    obtain ⟨q, qs, rfl, hq, hqs⟩ := map_view_cons hr
    subst hq
    have ht : q.type = 66 ∨ q.type = 34 := ht
    rw [processSub]
    have : Safe (processRec mk q qs b) (fun b' => b'.strings = b.strings) := by
      unfold processRec
      rw [if_neg (nonempty hl (by omega)), if_neg (by omega), if_neg (by unfold recBOF; omega)]
      rcases ht with ht | ht
      · rw [if_pos ht]
        exact (safe_u16 q.data hl).bind fun _ _ => rfl
      · rw [if_neg (by omega), if_pos ht]
        exact (safe_u16 q.data hl).bind fun _ _ => rfl
    exact this.bind fun b' e => ih qs hqs b' (by rw [e, hb])
  | format k k' r no code rs ht hn he hc _ ih =>
    intro recs hr b hb
    obtain ⟨q, qs, rfl, hq, hqs⟩ := map_view_cons hr
    subst hq
    have ht : q.type = 1054 := ht
    have he : q.data.val = no ++ code := he
    have hl : 2 ≤ q.data.val.length := by rw [he, List.length_append]; omega
    rw [processSub]
    have : Safe (processRec mk q qs b) (fun b' => b'.strings = b.strings) := by
      unfold processRec
      rw [if_neg (nonempty (n := 2) hl (by omega)), if_neg (by omega), if_neg (by unfold recBOF; omega), if_neg (by omega),
        if_neg (by omega), if_pos ht]
      refine (safe_u16 q.data hl).bind fun _ _ => ?_
      refine (safe_drop q.data 2 hl).bind fun t ht => ?_
      refine (long_safe (raw := t) (by rw [ht, he, List.drop_left' hn]; exact hc)).bind fun _ _ => rfl
    exact this.bind fun b' e => ih qs hqs b' (by rw [e, hb])
  | style k k' r rs ht hl _ ih =>
    intro recs hr b hb
    obtain ⟨q, qs, rfl, hq, hqs⟩ := map_view_cons hr
    subst hq
    have ht : q.type = 224 := ht
    have hl : 4 ≤ q.data.val.length := hl
    rw [processSub]
    have : Safe (processRec mk q qs b) (fun b' => b'.strings = b.strings) := by
      unfold processRec
      rw [if_neg (nonempty (n := 4) hl (by omega)), if_neg (by omega), if_neg (by unfold recBOF; omega), if_neg (by omega),
        if_neg (by omega), if_neg (by omega), if_pos ht]
      refine (safe_drop q.data 2 (by omega)).bind fun t ht => ?_
      exact (safe_u16 t (by rw [ht, List.length_drop]; omega)).bind fun _ _ => rfl
    exact this.bind fun b' e => ih qs hqs b' (by rw [e, hb])
  | sheet k k' r head name rs ht hh he hn _ ih =>
    intro recs hr b hb
    obtain ⟨q, qs, rfl, hq, hqs⟩ := map_view_cons hr
    subst hq
    have ht : q.type = 133 := ht
    have he : q.data.val = head ++ name := he
    have hl : 6 ≤ q.data.val.length := by rw [he, List.length_append]; omega
    rw [processSub]
    have : Safe (processRec mk q qs b) (fun b' => b'.strings = b.strings) := by
      unfold processRec
      rw [if_neg (nonempty (n := 6) hl (by omega)), if_neg (by omega), if_neg (by unfold recBOF; omega), if_neg (by omega),
        if_neg (by omega), if_neg (by omega), if_neg (by omega), if_pos ht]
      exact (boundSheet_safe q.data hh he hn).bind fun _ _ => rfl
    exact this.bind fun b' e => ih qs hqs b' (by rw [e, hb])
  | strings k k' counts ss first more rs hc hok hlone hrec hhead _ ih =>
    intro recs hr b hb
    obtain ⟨q, qs, rfl, hq, hqs⟩ := map_view_cons hr
    obtain ⟨ht, hd⟩ := rec_view hq
    rw [processSub]
    have hp : parseSST (q.data :: (qs.takeWhile (fun r => decide (r.type = recContinue))).map Rec.data) =
        .ok (ss.map (fun s => u16str s.units)) := by
      refine Props.sst_strings counts hc ss hok hlone _ ?_
      rw [List.map_cons, takeWhile_conts more rs hhead qs hqs, hrec, hd]
    have hlen : ¬ q.data.len = 0 := by
      unfold sstRecords at hrec
      simp only [List.cons.injEq] at hrec
      have : 8 ≤ first.length := by
        match counts, hc with
        | [a, b, c, d, e, f, g, h], _ =>
          rw [← hrec.1]
          simp [recordsOf]
      rw [hd]
      simp only [Slice.len]
      omega
    unfold processRec
    rw [if_neg hlen, if_pos ht, hp, GoRes.ok_bind, GoRes.pure_eq, GoRes.ok_bind]
    obtain ⟨a, c, rfl, ha, hcc⟩ := List.map_eq_append_iff.1 hqs
    rw [processSub_skip]
    · exact ih c hcc _ (by simp)
    · intro r hr
      have : r.view ∈ more.map (fun d => (⟨0x3C, d⟩ : Record)) := by rw [← ha]; exact List.mem_map_of_mem hr
      obtain ⟨d, _, hd⟩ := List.mem_map.1 this
      right
      rw [show r.type = r.view.type from rfl, ← hd]
      show ¬ telling 60
      unfold telling
      decide

theorem processSubs_safe (mk : Bytes → Fmt × CellType) {k k' : Nat} {gs : List (List Record)} (h : AllSafe k gs k') :
    ∀ (recs : List (List Rec)), recs.map (·.map Rec.view) = gs → ∀ b : Book, b.strings.length = k →
      Safe (processSubs mk recs b) (fun b' => b'.strings.length = k') := by
  induction h with
  | nil k => intro recs hr b hb; rw [List.map_eq_nil_iff] at hr; subst hr; exact hb
  | cons k k1 k2 g gs h1 _ ih =>
    intro recs hr b hb
    obtain ⟨q, qs, rfl, hq, hqs⟩ := List.map_eq_cons_iff.1 hr
    rw [processSubs]
    exact (processSub_safe mk h1 q hq b hb).bind fun b' hb' => ih qs hqs b' hb'

/-! ### The substreams of the sheets -/

/-- The positions lead to substreams. -/
def Targets (g : Groups) : Prop := ∀ x ∈ g.pos2, x.2 < g.subs.length

theorem count_targets {g : Groups} (nr : Rec) (h : Targets g) : Targets (g.count nr) := by
  unfold Groups.count
  split
  · exact h
  · split
    · split
      · intro x hx
        simp only [List.mem_cons] at hx
        simp only [List.length_append, List.length_cons, List.length_nil]
        rcases hx with rfl | hx
        · simp
        · have := h x hx; omega
      · exact h
    · exact h

theorem place_targets {g g' : Groups} {nr : Rec} (h : Targets g) (hp : g.place nr = .ok g') : Targets g' := by
  unfold Groups.place at hp
  split at hp
  · cases hp
    intro x hx
    rw [List.length_modify]
    exact h x hx
  · cases hp

theorem gather_targets (d : Bool) : ∀ (n : Nat) (raw : Slice) (g g' : Groups), raw.len ≤ n → Targets g →
    gather d raw g = .ok (.done g') → Targets g' := by
  intro n
  induction n with
  | zero =>
    intro raw g g' hl hg h
    rw [gather] at h
    split at h
    · cases h; exact hg
    · cases h
    · cases h
    · rename_i hn
      exfalso
      unfold nextRecord at hn
      rw [if_pos (by omega)] at hn
      cases hn
  | succ n ih =>
    intro raw g g' hl hg h
    rw [gather] at h
    split at h
    · cases h; exact hg
    · cases h
    · cases h
    · rename_i nr no hn
      split at h
      · rename_i raw' hr'
        have hlt := nextRecord_pos hn hr'
        simp only at h
        split at h
        · cases h
        · split at h
          · rename_i g1 hp
            exact ih raw' g1 g' (by omega) (place_targets (count_targets nr hg) hp) h
          · cases h
          · cases h
      · cases h
      · cases h

theorem lookup_mem {pos2 : List (Nat × Nat)} {p i : Nat} (h : pos2.lookup p = some i) : (p, i) ∈ pos2 := by
  induction pos2 with
  | nil => cases h
  | cons x xs ih =>
    obtain ⟨a, b⟩ := x
    rw [List.lookup_cons] at h
    split at h
    · rename_i e
      cases h
      rw [beq_iff_eq] at e
      subst e
      exact List.mem_cons_self
    · exact List.mem_cons_of_mem _ (ih h)

theorem processSubs_nil (mk : Bytes → Fmt × CellType) (b : Book) : processSubs mk [] b = .ok b := rfl

end Grate.Xls
