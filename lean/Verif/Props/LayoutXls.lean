import Verif.Props.XlsLayout

/-! # C149: layout and embedded objects in an xls sheet -/

namespace Grate.Spec

/-- The types of the records of a sheet that are read: BOF, EOF, Continue, WsBool, Dimensions, BoolErr, MulRk, Number, RK, Formula,
String, LabelSst, HLink, MergeCells. All others are about layout and settings, or for other programs. -/
def readTypes : List Nat := [0x809, 0x0A, 0x3C, 129, 512, 517, 189, 515, 638, 6, 519, 253, 440, 229]

/-- Records that may be anywhere among the records of a sheet: one of another type with its Continue records, or an embedded object
(a chart), from its BOF to its EOF. -/
inductive Extra {α : Type} (ty : α → Nat) : List α → Prop
  | layout (x : α) (conts : List α) : ty x ∉ readTypes → (∀ k ∈ conts, ty k = 0x3C) → Extra ty (x :: conts)
  | object (b e : α) (inner : List α) : ty b = 0x809 → ty e = 0x0A → (∀ r ∈ inner, ty r ≠ 0x0A) → Extra ty (b :: (inner ++ [e]))

/-- What follows does not continue the record before. -/
def NoCont {α : Type} (ty : α → Nat) (rs : List α) : Prop := ∀ r ∈ rs.head?, ty r ≠ 0x3C

/-- Two lists of records that are the same but for such records. -/
inductive SameCells {α : Type} (ty : α → Nat) : List α → List α → Prop
  | nil : SameCells ty [] []
  | same (r : α) (ts us : List α) : ty r ≠ 0x809 → SameCells ty ts us → SameCells ty (r :: ts) (r :: us)
  | left (x ts us : List α) : Extra ty x → NoCont ty ts → SameCells ty ts us → SameCells ty (x ++ ts) us
  | right (x ts us : List α) : Extra ty x → NoCont ty us → SameCells ty ts us → SameCells ty ts (x ++ us)

/-- Two sheets with the same records but for such records; the first ones, which begin the sheets, may differ as well. -/
def SameSheet {α : Type} (ty : α → Nat) (recs recs' : List α) : Prop :=
  ∃ bof bof' ts us, recs = bof :: ts ∧ recs' = bof' :: us ∧ ty bof = 0x809 ∧ ty bof' = 0x809 ∧ SameCells ty ts us

end Grate.Spec

namespace Grate.Props

open Grate Grate.Spec Grate.Api

namespace Dress

theorem extra_map {α β : Type} {ta : α → Nat} {tb : β → Nat} {f : α → β} (h : ∀ a, tb (f a) = ta a) {x : List α}
    (hx : Extra ta x) : Extra tb (x.map f) := by
  cases hx with
  | layout x conts h1 h2 =>
    refine .layout _ _ (by rw [h]; exact h1) ?_
    intro k hk
    obtain ⟨q, hq, rfl⟩ := List.mem_map.1 hk
    rw [h]
    exact h2 q hq
  | object b e inner h1 h2 h3 =>
    rw [List.map_cons, List.map_append]
    refine .object _ _ _ (by rw [h]; exact h1) (by rw [h]; exact h2) ?_
    intro k hk
    obtain ⟨q, hq, rfl⟩ := List.mem_map.1 hk
    rw [h]
    exact h3 q hq

theorem noCont_map {α β : Type} {ta : α → Nat} {tb : β → Nat} {f : α → β} (h : ∀ a, tb (f a) = ta a) {x : List α}
    (hx : NoCont ta x) : NoCont tb (x.map f) := by
  intro r hr
  rw [List.head?_map] at hr
  obtain ⟨q, hq, rfl⟩ := Option.map_eq_some_iff.1 hr
  rw [h]
  exact hx q hq

theorem same_map {α β : Type} {ta : α → Nat} {tb : β → Nat} {f : α → β} (h : ∀ a, tb (f a) = ta a) {ts us : List α}
    (hx : SameCells ta ts us) : SameCells tb (ts.map f) (us.map f) := by
  induction hx with
  | nil => exact .nil
  | same r ts us h1 _ ih => exact .same _ _ _ (by rw [h]; exact h1) ih
  | left x ts us h1 h2 _ ih =>
    rw [List.map_append]
    exact .left _ _ _ (extra_map h h1) (noCont_map h h2) ih
  | right x ts us h1 h2 _ ih =>
    rw [List.map_append]
    exact .right _ _ _ (extra_map h h1) (noCont_map h h2) ih

/-! ### The passes -/

theorem pass1_inner : ∀ (inner : List Xls.Rec) (e : Xls.Rec) (ts : List Xls.Rec) (d : Xls.Dims), e.type = 0x0A →
    (∀ r ∈ inner, r.type ≠ 0x0A) → Xls.pass1 false 1 (inner ++ e :: ts) d = Xls.pass1 false 0 ts d
  | [], e, ts, d, he, _ => by
    rw [List.nil_append, Xls.pass1, if_pos (by decide), if_pos (show e.type = Xls.recEOF from he)]
  | r :: inner, e, ts, d, he, hi => by
    rw [List.cons_append, Xls.pass1, if_pos (by decide), if_neg (show ¬ r.type = Xls.recEOF from hi r (by simp))]
    exact pass1_inner inner e ts d he (fun q hq => hi q (by simp [hq]))

theorem pass1_conts : ∀ (conts ts : List Xls.Rec) (d : Xls.Dims), (∀ r ∈ conts, r.type = 0x3C) →
    Xls.pass1 false 0 (conts ++ ts) d = Xls.pass1 false 0 ts d
  | [], _, _, _ => rfl
  | r :: conts, ts, d, h => by
    have h0 := h r (by simp)
    rw [List.cons_append, Xls.pass1, if_neg (by decide), if_neg (by rw [h0]; decide), if_neg (by rw [h0]; decide),
      if_neg (by rw [h0]; decide)]
    exact pass1_conts conts ts d (fun q hq => h q (by simp [hq]))

theorem pass1_extra {x : List Xls.Rec} (hx : Extra Xls.Rec.type x) (ts : List Xls.Rec) (d : Xls.Dims) :
    Xls.pass1 false 0 (x ++ ts) d = Xls.pass1 false 0 ts d := by
  cases hx with
  | layout x conts h1 h2 =>
    simp only [readTypes, List.mem_cons, List.not_mem_nil, or_false, not_or] at h1
    rw [List.cons_append, Xls.pass1, if_neg (by decide), if_neg (show ¬ x.type = Xls.recBOF from h1.1), if_neg h1.2.2.2.1, if_neg h1.2.2.2.2.1]
    exact pass1_conts conts ts d h2
  | object b e inner h1 h2 h3 =>
    rw [List.cons_append, List.append_assoc, Xls.pass1, if_neg (by decide), if_pos (show b.type = Xls.recBOF from h1)]
    exact pass1_inner inner e ts d h2 h3

theorem pass1_same {ts us : List Xls.Rec} (h : SameCells Xls.Rec.type ts us) :
    ∀ d, Xls.pass1 false 0 ts d = Xls.pass1 false 0 us d := by
  induction h with
  | nil => intro d; rfl
  | same r ts us h1 _ ih =>
    intro d
    rw [Grate.Props.pass1_step _ _ _ h1, Grate.Props.pass1_step _ _ _ h1]
    simp only [ih]
  | left x ts us h1 _ _ ih => intro d; rw [pass1_extra h1, ih]
  | right x ts us h1 _ _ ih => intro d; rw [pass1_extra h1, ih]

theorem cont_none {ts : List Xls.Rec} (h : NoCont Xls.Rec.type ts) (cap : Nat) : Xls.stringCont cap ts = .ok [] := by
  cases ts with
  | nil => rfl
  | cons r ts => rw [Xls.stringCont, if_pos (show r.type ≠ Xls.recContinue from h r rfl)]

theorem cont_extra {x : List Xls.Rec} (hx : Extra Xls.Rec.type x) (ts : List Xls.Rec) (cap : Nat) :
    Xls.stringCont cap (x ++ ts) = .ok [] := by
  apply cont_none
  cases hx with
  | layout x conts h1 h2 =>
    intro r hr
    simp only [List.cons_append, List.head?_cons, Option.mem_def, Option.some.injEq] at hr
    subst hr
    simp only [readTypes, List.mem_cons, List.not_mem_nil, or_false, not_or] at h1
    exact h1.2.2.1
  | object b e inner h1 h2 h3 =>
    intro r hr
    simp only [List.cons_append, List.head?_cons, Option.mem_def, Option.some.injEq] at hr
    subst hr
    rw [h1]
    decide

theorem cont_same {ts us : List Xls.Rec} (h : SameCells Xls.Rec.type ts us) (cap : Nat) :
    Xls.stringCont cap ts = Xls.stringCont cap us := by
  induction h with
  | nil => rfl
  | same r ts us h1 _ ih => rw [Xls.stringCont, Xls.stringCont, ih]
  | left x ts us h1 h2 _ ih => rw [cont_extra h1, ← ih, cont_none h2]
  | right x ts us h1 h2 _ ih => rw [cont_extra h1, ih, cont_none h2]

theorem cell_same (ext : Ext) {b b' : Xls.Book} (hs : b.strings = b'.strings) (hx : b.xfs = b'.xfs) (mr mc : Nat) (r : Xls.Rec)
    {ts us : List Xls.Rec} (h : SameCells Xls.Rec.type ts us) (st : Xls.CellSt) :
    Xls.cellRec ext b mr mc r ts st = Xls.cellRec ext b' mr mc r us st := by
  have e1 : Xls.cellRec ext b mr mc r us st = Xls.cellRec ext b' mr mc r us st := by
    unfold Xls.cellRec Xls.boolErrRec Xls.mulRkRec Xls.numberRec Xls.rkRec Xls.formulaRec Xls.labelRec
    simp only [Grate.Props.mulRkLoop_book ext b' b hx, Xls.Book.fmtOf, hs, hx]
  rw [← e1]
  unfold Xls.cellRec Xls.stringRec
  simp only [cont_same h]

theorem pass2_inner (ext : Ext) (b : Xls.Book) (mr mc : Nat) : ∀ (inner : List Xls.Rec) (e : Xls.Rec) (ts : List Xls.Rec)
    (st : Xls.CellSt), e.type = 0x0A → (∀ r ∈ inner, r.type ≠ 0x0A) →
    Xls.pass2 ext b mr mc false 1 (inner ++ e :: ts) st = Xls.pass2 ext b mr mc false 0 ts st
  | [], e, ts, st, he, _ => by
    rw [List.nil_append, Xls.pass2, if_pos (by decide), if_pos (show e.type = Xls.recEOF from he)]
  | r :: inner, e, ts, st, he, hi => by
    rw [List.cons_append, Xls.pass2, if_pos (by decide), if_neg (show ¬ r.type = Xls.recEOF from hi r (by simp))]
    exact pass2_inner ext b mr mc inner e ts st he (fun q hq => hi q (by simp [hq]))

theorem cell_other (ext : Ext) (b : Xls.Book) (mr mc : Nat) (r : Xls.Rec) (ts : List Xls.Rec) (st : Xls.CellSt)
    (h : r.type = 0x3C ∨ r.type ∉ readTypes) : Xls.cellRec ext b mr mc r ts st = .ok st := by
  have : r.type ≠ 517 ∧ r.type ≠ 189 ∧ r.type ≠ 515 ∧ r.type ≠ 638 ∧ r.type ≠ 6 ∧ r.type ≠ 519 ∧ r.type ≠ 253 ∧
      r.type ≠ 440 ∧ r.type ≠ 229 := by
    rcases h with h | h
    · rw [h]; decide
    · simp only [readTypes, List.mem_cons, List.not_mem_nil, or_false, not_or] at h
      exact h.2.2.2.2.2
  obtain ⟨a1, a2, a3, a4, a5, a6, a7, a8, a9⟩ := this
  unfold Xls.cellRec
  rw [if_neg a1, if_neg a2, if_neg a3, if_neg a4, if_neg a5, if_neg a6, if_neg a7, if_neg a8, if_neg a9]

theorem pass2_other (ext : Ext) (b : Xls.Book) (mr mc : Nat) (r : Xls.Rec) (ts : List Xls.Rec) (st : Xls.CellSt)
    (h : r.type = 0x3C ∨ r.type ∉ readTypes) :
    Xls.pass2 ext b mr mc false 0 (r :: ts) st = Xls.pass2 ext b mr mc false 0 ts st := by
  have hb : ¬ r.type = Xls.recBOF := by
    rcases h with h | h
    · rw [h]; decide
    · exact fun e => h (by rw [e]; decide)
  rw [Xls.pass2, if_neg (by decide), if_neg hb, cell_other ext b mr mc r ts st h]
  rfl

theorem pass2_conts (ext : Ext) (b : Xls.Book) (mr mc : Nat) : ∀ (conts ts : List Xls.Rec) (st : Xls.CellSt),
    (∀ r ∈ conts, r.type = 0x3C) → Xls.pass2 ext b mr mc false 0 (conts ++ ts) st = Xls.pass2 ext b mr mc false 0 ts st
  | [], _, _, _ => rfl
  | r :: conts, ts, st, h => by
    rw [List.cons_append, pass2_other ext b mr mc r _ st (.inl (h r (by simp)))]
    exact pass2_conts ext b mr mc conts ts st (fun q hq => h q (by simp [hq]))

theorem pass2_extra (ext : Ext) (b : Xls.Book) (mr mc : Nat) {x : List Xls.Rec} (hx : Extra Xls.Rec.type x) (ts : List Xls.Rec)
    (st : Xls.CellSt) : Xls.pass2 ext b mr mc false 0 (x ++ ts) st = Xls.pass2 ext b mr mc false 0 ts st := by
  cases hx with
  | layout x conts h1 h2 =>
    rw [List.cons_append, pass2_other ext b mr mc x _ st (.inr h1)]
    exact pass2_conts ext b mr mc conts ts st h2
  | object o e inner h1 h2 h3 =>
    rw [List.cons_append, List.append_assoc, Xls.pass2, if_neg (by decide), if_pos (show o.type = Xls.recBOF from h1)]
    exact pass2_inner ext b mr mc inner e ts st h2 h3

theorem pass2_same (ext : Ext) {b b' : Xls.Book} (hs : b.strings = b'.strings) (hx : b.xfs = b'.xfs) (mr mc : Nat)
    {ts us : List Xls.Rec} (h : SameCells Xls.Rec.type ts us) :
    ∀ st, Xls.pass2 ext b mr mc false 0 ts st = Xls.pass2 ext b' mr mc false 0 us st := by
  induction h with
  | nil => intro st; rfl
  | same r ts us h1 h2 ih =>
    intro st
    rw [Xls.pass2, Xls.pass2, if_neg (by decide), if_neg (show ¬ r.type = Xls.recBOF from h1), if_neg (by decide),
      if_neg (show ¬ r.type = Xls.recBOF from h1), cell_same ext hs hx mr mc r h2]
    simp only [ih]
  | left x ts us h1 _ _ ih => intro st; rw [pass2_extra ext b mr mc h1, ih]
  | right x ts us h1 _ _ ih => intro st; rw [pass2_extra ext b' mr mc h1, ih]

end Dress

/-- **C149 (the sheet).** Two sheets with the same records but for records that are not read and embedded objects, in workbooks with
the same strings, number formats and styles: reading one gives what reading the other gives, a sheet, no sheet, an error or a crash.
The records that are the same may be anything. -/
theorem C149_sheet (ext : Ext) (b b' : Xls.Book) (hs : b.strings = b'.strings) (hn : b.nfmt = b'.nfmt) (hx : b.xfs = b'.xfs)
    (i j : Nat) (recs recs' : List Xls.Rec) (hi : b.subs[i]? = some recs) (hj : b'.subs[j]? = some recs')
    (h : SameSheet Xls.Rec.type recs recs') : Xls.parseSheet ext b i = Xls.parseSheet ext b' j := by
  obtain ⟨bof, bof', ts, us, rfl, rfl, h1, h2, h⟩ := h
  have q1 : ∀ d, Xls.pass1 true 0 (bof :: ts) d = Xls.pass1 true 0 (bof' :: us) d := by
    intro d
    simp only [Xls.pass1, if_pos (show bof.type = Xls.recBOF from h1), if_pos (show bof'.type = Xls.recBOF from h2), Nat.lt_irrefl,
      if_false, if_true]
    exact Dress.pass1_same h d
  have q2 : ∀ mr mc st, Xls.pass2 ext b mr mc true 0 (bof :: ts) st = Xls.pass2 ext b' mr mc true 0 (bof' :: us) st := by
    intro mr mc st
    simp only [Xls.pass2, if_pos (show bof.type = Xls.recBOF from h1), if_pos (show bof'.type = Xls.recBOF from h2), Nat.lt_irrefl,
      if_false, if_true]
    exact Dress.pass2_same ext hs hx mr mc h st
  unfold Xls.parseSheet
  rw [hi, hj, hn]
  simp only [q1, q2]

/-- The same for two loaded files. -/
theorem Dress.loaded {ext : Ext} {c c' : Content} {subs subs' : List (List Record)} {b b' : Xls.Book} (h : LoadedXls c subs b)
    (h' : LoadedXls c' subs' b') (hc : c.strings = c'.strings ∧ c.formats = c'.formats ∧ c.styles = c'.styles) {name name' : Bytes}
    {recs recs' : List Record} (hs : StoredAs c subs name recs) (hs' : StoredAs c' subs' name' recs')
    (hr : recs = recs' ∨ SameSheet Record.type recs recs') (hg : GoodSheet c recs ∨ WholeSheet c recs) :
    b'.get ext name' = b.get ext name ∧ b.get ext name ≠ .panic := by
  obtain ⟨i, rs, g1, r1, v1⟩ := find_stored h hs ext
  obtain ⟨j, qs, g2, r2, v2⟩ := find_stored h' hs' ext
  have z1 := h.sized rs (List.mem_of_getElem? r1)
  have z2 := h'.sized qs (List.mem_of_getElem? r2)
  let b0 : Xls.Book := { b with subs := [recs.map Xls.alone] }
  let b1 : Xls.Book := { b with subs := [recs'.map Xls.alone] }
  have hb0 : b0.subs[0]? = some (recs.map Xls.alone) := rfl
  have hb1 : b1.subs[0]? = some (recs'.map Xls.alone) := rfl
  have hstr : b.strings = c.strings.map utf8 := congrArg Xls.Book.strings h.book
  have hxf : b.xfs = c.styles := congrArg Xls.Book.xfs h.book
  have hnf : b.nfmt = Xls.addAll makeFormatter c.formats Formatter.new := congrArg Xls.Book.nfmt h.book
  have hstr' : b'.strings = c'.strings.map utf8 := congrArg Xls.Book.strings h'.book
  have hxf' : b'.xfs = c'.styles := congrArg Xls.Book.xfs h'.book
  have hnf' : b'.nfmt = Xls.addAll makeFormatter c'.formats Formatter.new := congrArg Xls.Book.nfmt h'.book
  have hview : (recs.map Xls.alone).map Xls.Rec.view = recs := by
    rw [List.map_map]
    exact (List.map_congr_left (fun r _ => rfl)).trans (List.map_id _)
  have hsized : Xls.Sized (recs.map Xls.alone) := by
    intro r hr
    obtain ⟨x, _, rfl⟩ := List.mem_map.1 hr
    rfl
  have l1 := Xls.below_parseSheet ext (b := b0) (b' := b) ⟨rfl, rfl, rfl⟩ 0 i hb0 r1 (Xls.alone_below _ _ v1 z1)
  have l2 := Xls.below_parseSheet ext (b := b1) (b' := b')
    ⟨by show b.strings = _; rw [hstr, hstr', hc.1], by show b.nfmt = _; rw [hnf, hnf', hc.2.1],
      by show b.xfs = _; rw [hxf, hxf', hc.2.2]⟩ 0 j hb1 r2 (Xls.alone_below _ _ v2 z2)
  have same : Xls.parseSheet ext b0 0 = Xls.parseSheet ext b1 0 := by
    rcases hr with rfl | ⟨bof, bof', ts, us, rfl, rfl, h1, h2, hr⟩
    · rfl
    refine C149_sheet ext b0 b1 rfl rfl rfl 0 0 _ _ hb0 hb1 ?_
    exact ⟨_, _, _, _, rfl, rfl, h1, h2, Dress.same_map (f := Xls.alone) (fun _ => rfl) hr⟩
  have np : Xls.parseSheet ext b0 0 ≠ .panic := by
    rcases hg with ⟨bof, rest, mr, mc, ws, rfl, hbof, hd, hw⟩ | ⟨bof, rest, rfl, hbof, hw, hlen⟩
    · obtain ⟨s, hp, _⟩ := C49_sheet_partial ext b0 0 _ hb0 hsized c.strings c.styles hstr hxf bof rest hview hbof mr mc hd ws hw
      rw [hp]
      intro h
      cases h
    · refine (Xls.parseSheet_safe ext b0 0 hb0 hview hbof ?_ hsized hlen).no_panic
      rw [show b0.strings = b.strings from rfl, hstr, List.length_map]
      exact hw
  rw [g1, g2, Xls.leRes_eq l1 np, Xls.leRes_eq l2 (same ▸ np), same]
  exact ⟨rfl, same ▸ np⟩

/-- **C149 (the file).** Two xls files that agree in what all sheets use, and in the records of some sheets but for records that are
not read and embedded objects: programs that ask only for those sheets (or for names that are not there) get the same from both,
encrypted or not. Missing: as in C121, sheets with records that are cut off. -/
theorem C149_file_partial (w : World) (ext : Ext) (N : Bytes → Prop) (fn fn' file file' : Bytes) (hf : w.files fn = .ok file)
    (hf' : w.files fn' = .ok file') (hb : ∀ k ∈ w.bufs, 0 < k) {c c' : Content} {subs subs' : List (List Record)}
    (h : XlsFile w file c subs) (h' : XlsFile w file' c' subs') (hc : SameShared c c')
    (hN : ∀ n, N n → (∀ e ∈ c.sheets, utf8 e.name ≠ n) ∨ ∃ recs recs', StoredAs c subs n recs ∧ StoredAs c' subs' n recs' ∧
      SameSheet Record.type recs recs' ∧ (GoodSheet c recs ∨ WholeSheet c recs)) :
    ∃ k, ∀ fuel, k ≤ fuel → ∀ t, Shipped { w with fuel := fuel } t → ∃ src src', openSrc t fn = .ok src ∧
      openSrc t fn' = .ok src' ∧ src'.list = src.list ∧ ∀ p : Client, p.Only N → p.run ext src' = p.run ext src := by
  obtain ⟨b, n, hl, ho⟩ := xlsFile_loaded w fn file hf hb h
  obtain ⟨b', n', hl', ho'⟩ := xlsFile_loaded w fn' file' hf' hb h'
  refine ⟨max n n', fun fuel hfu t ht => ⟨_, _, ho fuel (by omega) t ht, ho' fuel (by omega) t ht, ?_, ?_⟩⟩
  · show b'.list = b.list
    rw [loaded_list hl, loaded_list hl', visible_names _ _ hc.sheets]
  · refine run_xls (fun m hm => ?_)
    rcases hN m hm with hno | ⟨recs, recs', s1, s2, hr, hg⟩
    · rw [missing_get hl hno ext, missing_get hl' (fun e he => ?_) ext]
      have : (e.name, e.state) ∈ c'.sheets.map (fun e => (e.name, e.state)) := List.mem_map_of_mem he
      rw [← hc.sheets] at this
      obtain ⟨x, hx, hxe⟩ := List.mem_map.1 this
      simp only [Prod.mk.injEq] at hxe
      rw [← hxe.1]
      exact hno x hx
    · exact (Dress.loaded hl hl' ⟨hc.strings, hc.formats, hc.styles⟩ s1 s2 (.inr hr) hg).1

end Grate.Props
