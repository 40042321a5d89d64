import Verif.Lemmas.XlsSheet

/-! # Lemmas about the two passes over the records of a worksheet -/

namespace Grate.Xls

open Spec

/-! ### Formulas -/

theorem idx_cons (b : UInt8) (c rest : Bytes) (i : Nat) : (⟨b :: c, rest⟩ : Slice).idx (i + 1) = (⟨c, rest⟩ : Slice).idx i := by
  unfold Slice.idx; simp only [List.getElem?_cons_succ]

theorem idx_zero (b : UInt8) (c rest : Bytes) : (⟨b :: c, rest⟩ : Slice).idx 0 = .ok b := rfl

theorem special_yes (a b c d e f : UInt8) (tail rest : Bytes) :
    formulaSpecial ⟨a :: b :: c :: d :: e :: f :: 0xFF :: 0xFF :: tail, rest⟩ = .ok true := rfl

theorem special_no (bits : Nat) (hb : bits < 2 ^ 64) (h : bits / 2 ^ 48 ≠ 0xFFFF) (tail rest : Bytes) :
    formulaSpecial ⟨leBytes 8 bits ++ tail, rest⟩ = .ok false := by
  have e6 : (⟨leBytes 8 bits ++ tail, rest⟩ : Slice).idx 6 = .ok (UInt8.ofNat (bits / 2 ^ 48 % 256)) := by
    unfold Slice.idx leBytes leBytes leBytes leBytes leBytes leBytes leBytes
    simp only [List.cons_append, List.getElem?_cons_succ, List.getElem?_cons_zero, Nat.div_div_eq_div_mul]
  have e7 : (⟨leBytes 8 bits ++ tail, rest⟩ : Slice).idx 7 = .ok (UInt8.ofNat (bits / 2 ^ 56 % 256)) := by
    unfold Slice.idx leBytes leBytes leBytes leBytes leBytes leBytes leBytes leBytes
    simp only [List.cons_append, List.getElem?_cons_succ, List.getElem?_cons_zero, Nat.div_div_eq_div_mul]
  have hff : ∀ n : Nat, n < 256 → UInt8.ofNat n = 0xFF → n = 255 := by
    intro n hn he
    have := congrArg UInt8.toNat he
    simpa [Nat.mod_eq_of_lt hn] using this
  unfold formulaSpecial
  rw [e6, GoRes.ok_bind]
  by_cases h6 : UInt8.ofNat (bits / 2 ^ 48 % 256) = 0xFF
  · rw [if_pos h6, e7, GoRes.ok_bind]
    have h6' := hff _ (by omega) h6
    by_cases h7 : UInt8.ofNat (bits / 2 ^ 56 % 256) = 0xFF
    · have h7' := hff _ (by omega) h7
      omega
    · rw [decide_eq_false h7]; rfl
  · rw [if_neg h6]; rfl

/-- A Formula record with a given value. -/
theorem formulaRec_spec (ext : Ext) (b : Book) (row col xf : Nat) (x rest : Bytes) (hf : HeadFits row col xf)
    (st : CellSt) (s' : Sheet) (hv : formulaValue ext row col (b.fmtOf xf) ⟨x, rest⟩ st.sheet = .ok s') :
    formulaRec ext b ⟨cellHead row col xf x, rest⟩ st = .ok { st with sheet := s', formulaRow := row, formulaCol := col } := by
  obtain ⟨_, e1⟩ := head_row row col xf x rest
  obtain ⟨_, e2⟩ := head_col row col xf x rest
  obtain ⟨_, e3⟩ := head_xf row col xf x rest
  have e4 := head_drop6 row col xf x rest
  unfold formulaRec
  simp only [e1, e2, e3, e4, GoRes.ok_bind, u16_exact row hf.1, u16_exact col hf.2.1, u16_exact xf hf.2.2, hv]
  rfl

theorem formula_number (ext : Ext) (row col n bits : Nat) (hb : bits < 2 ^ 64) (h : bits / 2 ^ 48 ≠ 0xFFFF)
    (tail rest : Bytes) (s : Sheet) : formulaValue ext row col n ⟨leBytes 8 bits ++ tail, rest⟩ s =
      s.put ext row col (.f64 (Float.ofBits (UInt64.ofNat bits))) n := by
  unfold formulaValue
  rw [special_no bits hb h, GoRes.ok_bind, if_neg (by simp), u64_here bits hb, GoRes.ok_bind]

theorem formula_text (ext : Ext) (row col n : Nat) (u v x y z : UInt8) (tail rest : Bytes) (s : Sheet) :
    formulaValue ext row col n ⟨0 :: u :: v :: x :: y :: z :: 0xFF :: 0xFF :: tail, rest⟩ s = s.put ext row col (.str []) n := by
  unfold formulaValue
  rw [special_yes, GoRes.ok_bind, if_pos rfl, idx_zero, GoRes.ok_bind, if_pos rfl]

theorem formula_bool (ext : Ext) (row col n : Nat) (u v x y z : UInt8) (tail rest : Bytes) (s : Sheet) :
    formulaValue ext row col n ⟨1 :: u :: v :: x :: y :: z :: 0xFF :: 0xFF :: tail, rest⟩ s =
      s.put ext row col (.bool (v ≠ 0)) n := by
  unfold formulaValue
  rw [special_yes, GoRes.ok_bind, if_pos rfl, idx_zero, GoRes.ok_bind, if_neg (by decide), if_pos rfl]
  rfl

theorem formula_error (ext : Ext) (row col n : Nat) (u v x y z : UInt8) (tail rest : Bytes) (s : Sheet) :
    formulaValue ext row col n ⟨2 :: u :: v :: x :: y :: z :: 0xFF :: 0xFF :: tail, rest⟩ s =
      s.put ext row col (.str (errorText v)) 0 := by
  unfold formulaValue
  rw [special_yes, GoRes.ok_bind, if_pos rfl, idx_zero, GoRes.ok_bind, if_neg (by decide), if_neg (by decide), if_pos rfl,
    ← berr_eq]
  rfl

theorem formula_blank (ext : Ext) (row col n : Nat) (u v x y z : UInt8) (tail rest : Bytes) (s : Sheet) :
    formulaValue ext row col n ⟨3 :: u :: v :: x :: y :: z :: 0xFF :: 0xFF :: tail, rest⟩ s = .ok s := by
  unfold formulaValue
  rw [special_yes, GoRes.ok_bind, if_pos rfl, idx_zero, GoRes.ok_bind, if_neg (by decide), if_neg (by decide),
    if_neg (by decide)]
  rfl

/-! ### The text of a formula -/

theorem ascii_units (t : List Nat) (h : ∀ r ∈ t, r < 128) : t.flatMap units = t := by
  induction t with
  | nil => rfl
  | cons r t ih =>
    have := h r (by simp)
    rw [List.flatMap_cons, ih (fun x hx => h x (by simp [hx])), units, if_pos (by omega)]
    rfl

theorem part_spec (usCap : Nat) (hc : 8224 ≤ usCap) (p : TextPart) (ok : p.Ok) (rest : Bytes) :
    stringPart usCap p.flags ⟨charBytes (bit p.flags 0) (p.text.flatMap units), rest⟩ = .ok (utf8 p.text) := by
  unfold stringPart
  cases hb : bit p.flags 0 with
  | false =>
    rw [if_pos ((flag0 p.flags).2 hb)]
    have hn := ok.narrow hb
    rw [ascii_units p.text hn, ascii_bytes p.text hn]
  | true =>
    have hl : (⟨charBytes true (p.text.flatMap units), rest⟩ : Slice).len / 2 = (p.text.flatMap units).length := by
      unfold Slice.len
      rw [charBytes_length]
      simp
    have hs := ok.size
    have hr := read16u_spec (p.text.flatMap units) [] rest (flat_units_lt p.text ok.scalar)
    rw [List.append_nil] at hr
    rw [if_neg (fun h => by rw [(flag0 p.flags).1 h] at hb; cases hb), hl, if_neg (by omega), hr, GoRes.ok_bind]
    simp only [u16str_text p.text ok.scalar]
    rfl

theorem stringCont_spec (usCap : Nat) (hc : 8224 ≤ usCap) : ∀ (ps : List TextPart) (conts recs : List Rec),
    conts.map Rec.view = ps.map (fun q => ⟨0x3C, q.bytes⟩) → (∀ q ∈ ps, q.Ok) → (∀ r, recs.head? = some r → r.type ≠ 0x3C) →
    stringCont usCap (conts ++ recs) = .ok (utf8 (ps.flatMap TextPart.text)) := by
  intro ps
  induction ps with
  | nil =>
    intro conts recs hv _ hr
    cases conts with
    | cons _ _ => simp at hv
    | nil =>
      cases recs with
      | nil => rfl
      | cons r recs =>
        rw [List.nil_append, stringCont, if_pos (show r.type ≠ recContinue from hr r rfl)]
        rfl
  | cons p ps ih =>
    intro conts recs hv ok hr
    cases conts with
    | nil => simp at hv
    | cons r conts =>
      simp only [List.map_cons, List.cons.injEq] at hv
      obtain ⟨hr1, hv⟩ := hv
      have ht : r.type = 0x3C := congrArg Record.type hr1
      have hd : r.data.val = p.bytes := congrArg Record.data hr1
      have hd' : r.data = ⟨p.flags :: charBytes (bit p.flags 0) (p.text.flatMap units), r.data.rest⟩ := by
        cases hx : r.data with
        | mk v rest => rw [hx] at hd; simp only at hd; rw [hd]; rfl
      have ih := ih conts recs hv (fun q hq => ok q (by simp [hq])) hr
      rw [List.cons_append, stringCont, if_neg (by rw [ht]; decide), hd', idx_zero, GoRes.ok_bind, drop_one, GoRes.ok_bind,
        part_spec usCap hc p (ok p (by simp)), GoRes.ok_bind, ih, GoRes.ok_bind, List.flatMap_cons, utf8_append]
      rfl

theorem flatMap_units (ps : List TextPart) :
    ps.flatMap (fun q => q.text.flatMap units) = (ps.flatMap TextPart.text).flatMap units := by
  induction ps with
  | nil => rfl
  | cons p ps ih => rw [List.flatMap_cons, List.flatMap_cons, List.flatMap_append, ih]

theorem stringRec_spec (p : TextPart) (ps : List TextPart) (conts recs : List Rec) (count : Nat) (rest : Bytes)
    (ok : p.Ok) (oks : ∀ q ∈ ps, q.Ok)
    (hc : count = ((p :: ps).flatMap (fun q => q.text.flatMap units)).length) (hlt : count < 65536)
    (hw : bit p.flags 0 = true → ps = []) (hv : conts.map Rec.view = ps.map (fun q => ⟨0x3C, q.bytes⟩))
    (hr : ∀ r, recs.head? = some r → r.type ≠ 0x3C) (st : CellSt) (hu : 8224 ≤ st.usCap) (s2 : Sheet)
    (hs : st.sheet.set st.formulaRow st.formulaCol (.str (utf8 ((p :: ps).flatMap TextPart.text))) = .ok s2) :
    ∃ cap, 8224 ≤ cap ∧
      stringRec ⟨leBytes 2 count ++ p.bytes, rest⟩ (conts ++ recs) st = .ok { st with sheet := s2, usCap := cap } := by
  have e1 : (⟨leBytes 2 count ++ p.bytes, rest⟩ : Slice).sub 0 2 = .ok ⟨leBytes 2 count, p.bytes ++ rest⟩ :=
    sub_here _ _ _ _ (leBytes_length 2 _).symm
  have e2 : (⟨leBytes 2 count ++ p.bytes, rest⟩ : Slice).idx 2 = .ok p.flags := rfl
  have e3 : (⟨leBytes 2 count ++ p.bytes, rest⟩ : Slice).dropFrom 3 =
      .ok ⟨charBytes (bit p.flags 0) (p.text.flatMap units), rest⟩ :=
    drop_two (leBytes 2 count) [p.flags] _ rest 3 (by simp [leBytes_length])
  unfold stringRec
  simp only [e1, e2, e3, GoRes.ok_bind, u16_exact count hlt]
  cases hb : bit p.flags 0 with
  | false =>
    have hn := ok.narrow hb
    have h0 := (flag0 p.flags).2 hb
    have hh : stringHead count p.flags ⟨charBytes false (p.text.flatMap units), rest⟩ = .ok (utf8 p.text) := by
      unfold stringHead
      rw [if_pos h0, ascii_units p.text hn, ascii_bytes p.text hn]
    refine ⟨st.usCap, hu, ?_⟩
    rw [hh]
    simp only [if_pos h0, GoRes.ok_bind, stringCont_spec st.usCap hu ps conts recs hv oks hr]
    rw [List.flatMap_cons, utf8_append] at hs
    rw [hs]
    rfl
  | true =>
    have h0 : ¬ (p.flags &&& 1 = 0) := fun h => by rw [(flag0 p.flags).1 h] at hb; cases hb
    have hp := hw hb
    subst hp
    have hcount : count = (p.text.flatMap units).length := by rw [hc]; simp
    have hh : stringHead count p.flags ⟨charBytes true (p.text.flatMap units), rest⟩ = .ok (utf8 p.text) := by
      unfold stringHead
      have hr := read16u_spec (p.text.flatMap units) [] rest (flat_units_lt p.text ok.scalar)
      rw [List.append_nil] at hr
      rw [if_neg h0, hcount, hr, GoRes.ok_bind]
      simp only [u16str_text p.text ok.scalar]
      rfl
    refine ⟨max st.usCap count, by omega, ?_⟩
    rw [hh]
    simp only [if_neg h0, GoRes.ok_bind, stringCont_spec (max st.usCap count) (by omega) [] conts recs hv oks hr]
    rw [List.flatMap_cons, utf8_append] at hs
    rw [hs]
    rfl

/-! ### The second pass -/

/-- All records have the size of their data. -/
def Sized (recs : List Rec) : Prop := ∀ r ∈ recs, r.size = r.data.val.length

theorem cellRec_other (ext : Ext) (b : Book) (mr mc : Nat) (r : Rec) (later : List Rec) (st : CellSt)
    (h : ¬ cellType r.type) : cellRec ext b mr mc r later st = .ok st := by
  unfold cellType at h
  unfold cellRec
  repeat rw [if_neg (by omega)]

theorem pass2_other (ext : Ext) (b : Book) (mr mc : Nat) (r : Rec) (rs : List Rec) (st : CellSt) (h : ¬ cellType r.type) :
    pass2 ext b mr mc false 0 (r :: rs) st = pass2 ext b mr mc false 0 rs st := by
  have hb : r.type ≠ recBOF := by unfold cellType at h; unfold recBOF; omega
  rw [pass2, if_neg (by omega), if_neg hb, cellRec_other ext b mr mc r rs st h, GoRes.ok_bind]

theorem pass2_others (ext : Ext) (b : Book) (mr mc : Nat) : ∀ (ms rs : List Rec) (st : CellSt),
    (∀ m ∈ ms, ¬ cellType m.type) → pass2 ext b mr mc false 0 (ms ++ rs) st = pass2 ext b mr mc false 0 rs st := by
  intro ms
  induction ms with
  | nil => intro rs st _; rfl
  | cons m ms ih =>
    intro rs st h
    rw [List.cons_append, pass2_other ext b mr mc m _ st (h m (by simp)), ih rs st (fun x hx => h x (by simp [hx]))]

theorem pass2_cell (ext : Ext) (b : Book) (mr mc : Nat) (r : Rec) (rs : List Rec) (st st' : CellSt)
    (h : r.type ≠ recBOF) (hc : cellRec ext b mr mc r rs st = .ok st') :
    pass2 ext b mr mc false 0 (r :: rs) st = pass2 ext b mr mc false 0 rs st' := by
  rw [pass2, if_neg (by omega), if_neg h, hc, GoRes.ok_bind]

theorem pass2_inner (ext : Ext) (b : Book) (mr mc : Nat) (e : Rec) (he : e.type = recEOF) :
    ∀ (inner rs : List Rec) (st : CellSt), (∀ r ∈ inner, r.type ≠ recEOF) →
      pass2 ext b mr mc false 1 (inner ++ e :: rs) st = pass2 ext b mr mc false 0 rs st := by
  intro inner
  induction inner with
  | nil =>
    intro rs st _
    rw [List.nil_append, pass2, if_pos (by omega), if_pos he]
  | cons r inner ih =>
    intro rs st h
    rw [List.cons_append, pass2, if_pos (by omega), if_neg (h r (by simp)), ih rs st (fun x hx => h x (by simp [hx]))]

theorem pass2_block (ext : Ext) (b : Book) (mr mc : Nat) (o e : Rec) (ho : o.type = recBOF) (he : e.type = recEOF)
    (inner rs : List Rec) (st : CellSt) (h : ∀ r ∈ inner, r.type ≠ recEOF) :
    pass2 ext b mr mc false 0 (o :: (inner ++ e :: rs)) st = pass2 ext b mr mc false 0 rs st := by
  rw [pass2, if_neg (by omega), if_pos ho, if_neg (by simp), pass2_inner ext b mr mc e he inner rs st h]

theorem rec_view {r : Rec} {v : Record} (h : r.view = v) : r.type = v.type ∧ r.data = ⟨v.data, r.data.rest⟩ := by
  subst h
  exact ⟨rfl, rfl⟩

theorem with_ok (st : CellSt) (s : Sheet) : st.with (.ok s) = .ok { st with sheet := s } := rfl

theorem map_view_cons {recs : List Rec} {v : Record} {vs : List Record} (h : recs.map Rec.view = v :: vs) :
    ∃ r rs, recs = r :: rs ∧ r.view = v ∧ rs.map Rec.view = vs := by
  cases recs with
  | nil => cases h
  | cons r rs =>
    rw [List.map_cons, List.cons.injEq] at h
    exact ⟨r, rs, rfl, h.1, h.2⟩

theorem view_types {recs : List Rec} {vs : List Record} (h : recs.map Rec.view = vs) (P : Nat → Prop)
    (hv : ∀ v ∈ vs, P v.type) : ∀ r ∈ recs, P r.type := by
  intro r hr
  have : r.view ∈ vs := by rw [← h]; exact List.mem_map_of_mem hr
  exact hv _ this

theorem view_head {recs : List Rec} {vs : List Record} (h : recs.map Rec.view = vs) (P : Nat → Prop)
    (hv : ∀ v, vs.head? = some v → P v.type) : ∀ r, recs.head? = some r → P r.type := by
  intro r hr
  cases recs with
  | nil => cases hr
  | cons x xs =>
    simp only [List.head?_cons, Option.some.injEq] at hr
    subst hr
    rw [List.map_cons] at h
    subst h
    exact hv _ rfl

theorem pass2_spec (ext : Ext) (b : Book) (strings : List (List Nat)) (styles : List Nat) (mr mc : Nat)
    (hs : b.strings = strings.map utf8) (hx : b.xfs = styles) {rs : List Record} {ws : List Write}
    (h : SheetRecs strings styles mr mc rs ws) :
    ∀ (recs : List Rec) (st : CellSt), recs.map Rec.view = rs → Sized recs → SheetInv st.sheet → 8224 ≤ st.usCap →
      ∃ st', pass2 ext b mr mc false 0 recs st = .ok st' ∧ Upd ext st.sheet st'.sheet ws := by
  have hfmt : ∀ xf, b.fmtOf xf = styleFormat styles xf := styleFormat_eq b styles hx
  -- a record that only changes the sheet
  have one : ∀ (t : Nat) (data : Bytes) (rs : List Record) (vs ws : List Write), t ≠ recBOF →
      (∀ (recs : List Rec) (st : CellSt), recs.map Rec.view = rs → Sized recs → SheetInv st.sheet → 8224 ≤ st.usCap →
        ∃ st', pass2 ext b mr mc false 0 recs st = .ok st' ∧ Upd ext st.sheet st'.sheet ws) →
      (∀ (r : Rec) (later : List Rec) (st : CellSt), r.type = t → r.data = ⟨data, r.data.rest⟩ →
        r.size = data.length → SheetInv st.sheet → ∃ st1, cellRec ext b mr mc r later st = .ok st1 ∧
        st1.usCap = st.usCap ∧ Upd ext st.sheet st1.sheet vs) →
      ∀ (recs : List Rec) (st : CellSt), recs.map Rec.view = ⟨t, data⟩ :: rs → Sized recs → SheetInv st.sheet →
        8224 ≤ st.usCap →
        ∃ st', pass2 ext b mr mc false 0 recs st = .ok st' ∧ Upd ext st.sheet st'.sheet (vs ++ ws) := by
    intro t data rs vs ws ht ih hc recs st hv hsz hi hu
    obtain ⟨r, recs, rfl, hr, hv⟩ := map_view_cons hv
    obtain ⟨h1, h2⟩ := rec_view hr
    obtain ⟨st1, e1, hu1, u1⟩ := hc r recs st h1 h2 (by rw [hsz r (by simp), h2]) hi
    obtain ⟨st2, e2, u2⟩ := ih recs st1 hv (fun x hx => hsz x (by simp [hx])) (u1.inv hi) (by omega)
    refine ⟨st2, ?_, u1.trans u2⟩
    rw [pass2_cell ext b mr mc r recs st st1 (by rw [h1]; exact ht) e1]
    exact e2
  induction h with
  | nil =>
    intro recs st hv _ _ _
    have : recs = [] := by simpa using hv
    subst this
    exact ⟨st, rfl, Upd.refl ext _⟩
  | other r rs ws hr _ ih =>
    intro recs st hv hsz hi hu
    obtain ⟨r', recs, rfl, hr', hv⟩ := map_view_cons hv
    rw [pass2_other ext b mr mc r' recs st (by rw [(rec_view hr').1]; exact hr)]
    exact ih recs st hv (fun x hx => hsz x (by simp [hx])) hi hu
  | block o e inner rs ws ho he hin _ ih =>
    intro recs st hv hsz hi hu
    obtain ⟨o', recs, rfl, ho', hv⟩ := map_view_cons hv
    obtain ⟨inner', recs2, rfl, hv1, hv2⟩ := List.map_eq_append_iff.1 hv
    obtain ⟨e', recs, rfl, he', hv⟩ := map_view_cons hv2
    rw [pass2_block ext b mr mc o' e' (by rw [(rec_view ho').1]; exact ho) (by rw [(rec_view he').1]; exact he) inner' recs
      st (view_types hv1 (fun t => t ≠ recEOF) hin)]
    exact ih recs st hv (fun x hx => hsz x (by simp [hx])) hi hu
  | number row col xf bits tail rs ws hf hb _ ih =>
    refine one 515 _ rs [_] ws (by decide) ih ?_
    intro r later st ht hd hz hi
    obtain ⟨s', e1, u1⟩ := numberRec_spec ext b row col xf bits tail r.data.rest hf hb hi
    rw [hfmt] at u1
    refine ⟨{ st with sheet := s' }, ?_, rfl, u1⟩
    unfold cellRec
    rw [if_neg (by omega), if_neg (by omega), if_pos ht, hd, e1, with_ok]
  | rk row col xf v tail rs ws hf hv h3 _ ih =>
    refine one 638 _ rs [_] ws (by decide) ih ?_
    intro r later st ht hd hz hi
    obtain ⟨s', e1, u1⟩ := rkRec_spec ext b row col xf v tail r.data.rest hf hv h3 hi
    rw [hfmt] at u1
    refine ⟨{ st with sheet := s' }, ?_, rfl, u1⟩
    unfold cellRec
    rw [if_neg (by omega), if_neg (by omega), if_neg (by omega), if_pos ht, hd, e1, with_ok]
  | mulRk row col last vs rs ws hr hc hl hv _ ih =>
    refine one 189 _ rs _ ws (by decide) ih ?_
    intro r later st ht hd hz hi
    obtain ⟨s', e1, u1⟩ := mulRkRec_spec ext b row col last vs r.data.rest r.size hr hc hl
      (by rw [hz]; simp only [List.length_append, leBytes_length, rkList_length]; omega) hv hi
    rw [hx] at u1
    refine ⟨{ st with sheet := s' }, ?_, rfl, u1⟩
    unfold cellRec
    rw [if_neg (by omega), if_pos ht, hd, e1, with_ok]
  | bool row col xf v tail rs ws hf _ ih =>
    refine one 517 _ rs [_] ws (by decide) ih ?_
    intro r later st ht hd hz hi
    obtain ⟨s', e1, u1⟩ := boolRec_spec ext b row col xf v tail r.data.rest hf hi
    rw [hfmt] at u1
    refine ⟨{ st with sheet := s' }, ?_, rfl, u1⟩
    unfold cellRec
    rw [if_pos ht, hd, e1, with_ok]
  | error row col xf v k tail rs ws hf hk _ ih =>
    refine one 517 _ rs [_] ws (by decide) ih ?_
    intro r later st ht hd hz hi
    obtain ⟨s', e1, u1⟩ := errorRec_spec ext b row col xf v k tail r.data.rest hf hk hi
    refine ⟨{ st with sheet := s' }, ?_, rfl, u1⟩
    unfold cellRec
    rw [if_pos ht, hd, e1, with_ok]
  | label row col xf i t tail rs ws hf hi' ht' _ ih =>
    refine one 253 _ rs _ ws (by decide) ih ?_
    intro r later st ht hd hz hi
    obtain ⟨s', e1, u1⟩ := labelRec_spec ext b strings hs row col xf i t tail r.data.rest hf hi' ht' hi
    rw [hfmt] at u1
    refine ⟨{ st with sheet := s' }, ?_, rfl, u1⟩
    unfold cellRec
    rw [if_neg (by omega), if_neg (by omega), if_neg (by omega), if_neg (by omega), if_neg (by omega), if_neg (by omega),
      if_pos ht, hd, e1, with_ok]
  | formula row col xf bits tail rs ws hf hb hn _ ih =>
    refine one 6 _ rs [_] ws (by decide) ih ?_
    intro r later st ht hd hz hi
    obtain ⟨s', hp, u1⟩ := put_upd ext hi row col (v := .f64 (Float.ofBits (UInt64.ofNat bits))) trivial (b.fmtOf xf)
    have e1 := formulaRec_spec ext b row col xf (leBytes 8 bits ++ tail) r.data.rest hf st s'
      (by rw [formula_number ext row col _ bits hb hn]; exact hp)
    rw [hfmt] at u1
    refine ⟨{ st with sheet := s', formulaRow := row, formulaCol := col }, ?_, rfl, u1⟩
    unfold cellRec
    rw [if_neg (by omega), if_neg (by omega), if_neg (by omega), if_neg (by omega), if_pos ht, hd, e1]
  | formulaBool row col xf u v x y z tail rs ws hf _ ih =>
    refine one 6 _ rs [_] ws (by decide) ih ?_
    intro r later st ht hd hz hi
    obtain ⟨s', hp, u1⟩ := put_upd ext hi row col (v := .bool (v ≠ 0)) trivial (b.fmtOf xf)
    have e1 := formulaRec_spec ext b row col xf _ r.data.rest hf st s'
      (by rw [formula_bool ext row col _ u v x y z tail]; exact hp)
    rw [hfmt] at u1
    refine ⟨{ st with sheet := s', formulaRow := row, formulaCol := col }, ?_, rfl, u1⟩
    unfold cellRec
    rw [if_neg (by omega), if_neg (by omega), if_neg (by omega), if_neg (by omega), if_pos ht, hd, e1]
  | formulaError row col xf u v x y z tail rs ws hf _ ih =>
    refine one 6 _ rs [_] ws (by decide) ih ?_
    intro r later st ht hd hz hi
    obtain ⟨s', hp, u1⟩ := put_upd ext hi row col (v := .str (errorText v)) trivial 0
    have e1 := formulaRec_spec ext b row col xf _ r.data.rest hf st s'
      (by rw [formula_error ext row col _ u v x y z tail]; exact hp)
    refine ⟨{ st with sheet := s', formulaRow := row, formulaCol := col }, ?_, rfl, u1⟩
    unfold cellRec
    rw [if_neg (by omega), if_neg (by omega), if_neg (by omega), if_neg (by omega), if_pos ht, hd, e1]
  | formulaBlank row col xf u v x y z tail rs ws hf _ ih =>
    refine one 6 _ rs [] ws (by decide) ih ?_
    intro r later st ht hd hz hi
    have e1 := formulaRec_spec ext b row col xf _ r.data.rest hf st st.sheet
      (by rw [formula_blank ext row col _ u v x y z tail])
    refine ⟨{ st with formulaRow := row, formulaCol := col }, ?_, rfl, Upd.refl ext _⟩
    unfold cellRec
    rw [if_neg (by omega), if_neg (by omega), if_neg (by omega), if_neg (by omega), if_pos ht, hd, e1]
  | formulaText row col xf count u v x y z tail mid p ps rs ws hf hm ok oks hc hlt hw hr _ ih =>
    intro recs st hv hsz hi hu
    obtain ⟨f', recs, rfl, hf', hv⟩ := map_view_cons hv
    obtain ⟨mid', recs2, rfl, hv1, hv2⟩ := List.map_eq_append_iff.1 hv
    obtain ⟨t', recs3, rfl, ht', hv3⟩ := map_view_cons hv2
    obtain ⟨conts, recs, rfl, hv4, hv⟩ := List.map_eq_append_iff.1 hv3
    obtain ⟨s1, s2, hp, hset, u1⟩ := text_upd ext hi row col (utf8 ((p :: ps).flatMap TextPart.text)) (b.fmtOf xf)
    rw [hfmt] at u1
    obtain ⟨hft, hfd⟩ := rec_view hf'
    obtain ⟨htt, htd⟩ := rec_view ht'
    have e1 := formulaRec_spec ext b row col xf _ f'.data.rest hf st s1
      (by rw [formula_text ext row col _ u v x y z tail]; exact hp)
    have hrh := view_head hv (fun t => t ≠ 0x3C) hr
    obtain ⟨cap, hcap, e2⟩ := stringRec_spec p ps conts recs count t'.data.rest ok oks hc hlt hw hv4 hrh
      { st with sheet := s1, formulaRow := row, formulaCol := col } hu s2 hset
    obtain ⟨st', e3, u2⟩ := ih recs { st with sheet := s2, formulaRow := row, formulaCol := col, usCap := cap } hv
      (fun x hx => hsz x (by simp [hx])) (u1.inv hi) hcap
    refine ⟨st', ?_, u1.trans u2⟩
    have c1 : cellRec ext b mr mc f' (mid' ++ t' :: (conts ++ recs)) st =
        .ok { st with sheet := s1, formulaRow := row, formulaCol := col } := by
      unfold cellRec
      simp only at hft hfd
      rw [if_neg (by omega), if_neg (by omega), if_neg (by omega), if_neg (by omega), if_pos hft, hfd, e1]
    have c2 : cellRec ext b mr mc t' (conts ++ recs) { st with sheet := s1, formulaRow := row, formulaCol := col } =
        .ok { st with sheet := s2, formulaRow := row, formulaCol := col, usCap := cap } := by
      unfold cellRec
      simp only at htt htd
      rw [if_neg (by omega), if_neg (by omega), if_neg (by omega), if_neg (by omega), if_neg (by omega), if_pos htt, htd,
        e2]
    have hct : ∀ m ∈ conts, ¬ cellType m.type := by
      refine view_types hv4 (fun t => ¬ cellType t) ?_
      intro q hq
      obtain ⟨w, _, rfl⟩ := List.mem_map.1 hq
      show ¬ cellType 0x3C
      unfold cellType; decide
    rw [pass2_cell ext b mr mc f' _ st _ (by rw [hft]; show 6 ≠ recBOF; decide) c1,
      pass2_others ext b mr mc mid' _ _ (view_types hv1 (fun t => ¬ cellType t) hm),
      pass2_cell ext b mr mc t' _ _ _ (by rw [htt]; show 519 ≠ recBOF; decide) c2, pass2_others ext b mr mc conts _ _ hct]
    exact e3
  | merge gs tail vs rs ws hl ha _ ih =>
    refine one 229 _ rs _ ws (by decide) ih ?_
    intro r later st ht hd hz hi
    obtain ⟨s', e1, u1⟩ := mergeRec_spec ext mr mc ha hl tail r.data.rest hi
    refine ⟨{ st with sheet := s' }, ?_, rfl, u1⟩
    unfold cellRec
    rw [if_neg (by omega), if_neg (by omega), if_neg (by omega), if_neg (by omega), if_neg (by omega), if_neg (by omega),
      if_neg (by omega), if_neg (by omega), if_pos ht, hd, e1, with_ok]
  | hlink g h cls tail d l vs rs ws hf hc hr hco ok hcl hd' hl' hw _ ih =>
    refine one 440 _ rs _ ws (by decide) ih ?_
    intro r later st ht hd hz hi
    obtain ⟨s', e1, u1⟩ := hlinkRec_spec ext mr mc g h cls tail r.data.rest d l vs hf hc hr hco ok hcl hd' hl' hw hi
    refine ⟨{ st with sheet := s' }, ?_, rfl, u1⟩
    unfold cellRec
    rw [if_neg (by omega), if_neg (by omega), if_neg (by omega), if_neg (by omega), if_neg (by omega), if_neg (by omega),
      if_neg (by omega), if_pos ht, hd, e1, with_ok]

/-! ### The first pass -/

/-- No cell has a value. -/
def AllBlank (s : Sheet) : Prop := ∀ r c : Nat, s.at? r c = none ∨ s.at? r c = some .empty

theorem allBlank_resize {s : Sheet} (h : AllBlank s) (R C : Int) : AllBlank (s.resize R C) := by
  intro r c
  rcases resize_at s R C r c with ⟨x, h1, h2⟩ | ⟨_, h2⟩
  · rcases h r c with h3 | h3
    · rw [h3] at h1; cases h1
    · rw [h3] at h1; cases h1; exact .inr h2
  · exact h2

theorem allBlank_new (f : Formatter) : AllBlank (Sheet.new f) := fun _ _ => .inl rfl

theorem dimsCount_cons (r : Record) (rs : List Record) : dimsCount (r :: rs) = (if r.type = 512 then 1 else 0) + dimsCount rs := by
  unfold dimsCount
  rw [List.filter_cons]
  by_cases h : r.type = 512 <;> simp [h]
  omega

theorem dimsCount_append (a b : List Record) : dimsCount (a ++ b) = dimsCount a + dimsCount b := by
  unfold dimsCount; rw [List.filter_append, List.length_append]

/-- The state of the first pass. -/
structure Pass1 (f : Formatter) (d : Dims) : Prop where
  inv : SheetInv d.sheet
  fmtr : d.sheet.fmtr = f
  blank : AllBlank d.sheet
  cur : d.sheet.curRow = 0
  size : (d.maxRow : Int) ≤ d.sheet.numRows ∧ (d.maxCol : Int) ≤ d.sheet.numCols
  tight : (∀ n : Int, 0 < n → (d.maxRow : Int) ≤ n → d.sheet.numRows ≤ n) ∧
    ∀ n : Int, 0 < n → (d.maxCol : Int) ≤ n → d.sheet.numCols ≤ n

theorem pass1_inner (e : Rec) (he : e.type = recEOF) : ∀ (inner rs : List Rec) (d : Dims),
    (∀ r ∈ inner, r.type ≠ recEOF) → pass1 false 1 (inner ++ e :: rs) d = pass1 false 0 rs d := by
  intro inner
  induction inner with
  | nil => intro rs d _; rw [List.nil_append, pass1, if_pos (by omega), if_pos he]
  | cons r inner ih =>
    intro rs d h
    rw [List.cons_append, pass1, if_pos (by omega), if_neg (h r (by simp)), ih rs d (fun x hx => h x (by simp [hx]))]

theorem dimensions_spec (r0 r1 c0 c1 : Nat) (h1 : r1 < 2 ^ 32) (h2 : c1 < 65536) (tail rest : Bytes) (d : Dims) :
    dimensions ⟨leBytes 4 r0 ++ (leBytes 4 r1 ++ (leBytes 2 c0 ++ (leBytes 2 c1 ++ tail))), rest⟩ d =
      .ok ⟨r1, c1, d.sheet.resize r1 c1⟩ := by
  have e : leBytes 4 r0 ++ (leBytes 4 r1 ++ (leBytes 2 c0 ++ (leBytes 2 c1 ++ tail))) =
      (leBytes 4 r0 ++ leBytes 4 r1) ++ (leBytes 2 c0 ++ (leBytes 2 c1 ++ tail)) := by simp
  have e' : leBytes 4 r0 ++ (leBytes 4 r1 ++ (leBytes 2 c0 ++ (leBytes 2 c1 ++ tail))) =
      (leBytes 4 r0 ++ leBytes 4 r1 ++ leBytes 2 c0) ++ (leBytes 2 c1 ++ tail) := by simp
  have s1 := sub_here (leBytes 4 r0) (leBytes 4 r1 ++ (leBytes 2 c0 ++ (leBytes 2 c1 ++ tail))) rest 4
    (leBytes_length 4 _).symm
  have s2 := sub_second (leBytes 4 r0) (leBytes 4 r1) (leBytes 2 c0 ++ (leBytes 2 c1 ++ tail)) rest 4 8
    (leBytes_length 4 _).symm (by simp [leBytes_length])
  have s3 := sub_second (leBytes 4 r0 ++ leBytes 4 r1) (leBytes 2 c0) (leBytes 2 c1 ++ tail) rest 8 10
    (by simp [leBytes_length]) (by simp [leBytes_length])
  have s4 := sub_second (leBytes 4 r0 ++ leBytes 4 r1 ++ leBytes 2 c0) (leBytes 2 c1) tail rest 10 12
    (by simp [leBytes_length]) (by simp [leBytes_length])
  rw [← e] at s3
  rw [← e'] at s4
  have a1 : ∃ x, (⟨leBytes 4 r0, leBytes 4 r1 ++ (leBytes 2 c0 ++ (leBytes 2 c1 ++ tail)) ++ rest⟩ : Slice).u32 = .ok x :=
    ⟨_, rfl⟩
  have a3 : ∃ x, (⟨leBytes 2 c0, leBytes 2 c1 ++ tail ++ rest⟩ : Slice).u16 = .ok x := ⟨_, rfl⟩
  obtain ⟨x, a1⟩ := a1
  obtain ⟨y, a3⟩ := a3
  unfold dimensions
  simp only [s1, s2, s3, s4, GoRes.ok_bind, a1, a3, u32_exact r1 h1, u16_exact c1 h2]
  rfl

theorem flag4 (f : UInt8) : (f &&& 0x10 ≠ 0) ↔ bit f 4 = true := by
  revert f; apply byte_all; unfold bit; decide +kernel

theorem pass1_spec (f : Formatter) {m m' : Nat × Nat} {rs : List Record} (h : Declares m rs m') :
    ∀ (recs : List Rec) (d : Dims), recs.map Rec.view = rs → m = (d.maxRow, d.maxCol) → Pass1 f d →
      ∃ d', pass1 false 0 recs d = .ok (some d') ∧ m' = (d'.maxRow, d'.maxCol) ∧ Pass1 f d' ∧
        (dimsCount rs = 0 → d' = d) ∧ (d.sheet = Sheet.new f → dimsCount rs ≤ 1 → RectInv d'.sheet) := by
  induction h with
  | nil m =>
    intro recs d hv hm hp
    have : recs = [] := by simpa using hv
    subst this
    exact ⟨d, rfl, hm, hp, fun _ => rfl, fun he _ => by rw [he]; exact rect_new f⟩
  | other m m' r rs h1 h2 h3 _ ih =>
    intro recs d hv hm hp
    obtain ⟨r', recs, rfl, hr', hv⟩ := map_view_cons hv
    obtain ⟨ht, _⟩ := rec_view hr'
    obtain ⟨d', e, a, b, c1, c2⟩ := ih recs d hv hm hp
    have hc := dimsCount_cons r rs
    rw [if_neg h3] at hc
    refine ⟨d', ?_, a, b, fun h => c1 (by omega), fun he h => c2 he (by omega)⟩
    rw [pass1, if_neg (by omega), if_neg (by rw [ht]; exact h1), if_neg (by rw [ht]; exact h2),
      if_neg (by rw [ht]; exact h3)]
    exact e
  | block m m' o e inner rs ho he hin _ ih =>
    intro recs d hv hm hp
    obtain ⟨o', recs, rfl, ho', hv⟩ := map_view_cons hv
    obtain ⟨inner', recs2, rfl, hv1, hv2⟩ := List.map_eq_append_iff.1 hv
    obtain ⟨e', recs, rfl, he', hv⟩ := map_view_cons hv2
    obtain ⟨d', ee, a, b, c1, c2⟩ := ih recs d hv hm hp
    have hc := dimsCount_cons o (inner ++ e :: rs)
    have hc2 := dimsCount_cons e rs
    rw [dimsCount_append] at hc
    refine ⟨d', ?_, a, b, fun h => c1 (by omega), fun he h => c2 he (by omega)⟩
    rw [pass1, if_neg (by omega), if_pos (by rw [(rec_view ho').1]; exact ho), if_neg (by simp),
      pass1_inner e' (by rw [(rec_view he').1]; exact he) inner' recs d (view_types hv1 (fun t => t ≠ recEOF) hin)]
    exact ee
  | wsBool m m' x y tail rs hb _ ih =>
    intro recs d hv hm hp
    obtain ⟨r', recs, rfl, hr', hv⟩ := map_view_cons hv
    obtain ⟨ht, hd⟩ := rec_view hr'
    simp only at ht hd
    obtain ⟨d', e, a, b, c1, c2⟩ := ih recs d hv hm hp
    have hc := dimsCount_cons ⟨129, x :: y :: tail⟩ rs
    rw [if_neg (by simp)] at hc
    refine ⟨d', ?_, a, b, fun h => c1 (by omega), fun he h => c2 he (by omega)⟩
    rw [pass1, if_neg (by omega), if_neg (by rw [ht]; decide), if_pos ht, hd]
    have hi : (⟨x :: y :: tail, r'.data.rest⟩ : Slice).idx 1 = .ok y := rfl
    rw [hi, GoRes.ok_bind, if_neg (by rw [flag4, hb]; simp)]
    exact e
  | dims m m' r0 r1 c0 c1 tail rs h1 h2 _ ih =>
    intro recs d hv hm hp
    obtain ⟨r', recs, rfl, hr', hv⟩ := map_view_cons hv
    obtain ⟨ht, hd⟩ := rec_view hr'
    simp only at ht hd
    have hp' : Pass1 f ⟨r1, c1, d.sheet.resize r1 c1⟩ :=
      ⟨inv_resize hp.inv (by omega) (by omega), by rw [resize_fmtr]; exact hp.fmtr, allBlank_resize hp.blank _ _, rfl, by
        unfold Sheet.resize
        simp only
        constructor <;> split <;> omega, by
        unfold Sheet.resize
        simp only
        constructor <;> intro n h0 h1 <;> split <;> omega⟩
    obtain ⟨d', e, a, b, k1, k2⟩ := ih recs ⟨r1, c1, d.sheet.resize r1 c1⟩ hv rfl hp'
    have hc := dimsCount_cons ⟨512, leBytes 4 r0 ++ (leBytes 4 r1 ++ (leBytes 2 c0 ++ (leBytes 2 c1 ++ tail)))⟩ rs
    rw [if_pos rfl] at hc
    refine ⟨d', ?_, a, b, fun h => by omega, ?_⟩
    · rw [pass1, if_neg (by omega), if_neg (by rw [ht]; decide), if_neg (by rw [ht]; decide), if_pos ht, hd,
        dimensions_spec r0 r1 c0 c1 h1 h2, GoRes.ok_bind]
      exact e
    · intro he hcnt
      rw [k1 (by omega)]
      simp only
      rw [he]
      exact rect_resize (rect_new f) (by simp [Sheet.new]) (by simp [Sheet.new])

end Grate.Xls
