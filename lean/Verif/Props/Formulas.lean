import Verif.Spec.Formulas
import Verif.Lemmas.XlsxSheet
import Verif.Props.Independent
import Verif.Props.Links
import Verif.Props.SameStoredWitness

/-! # C132: formulas are read by their results -/

namespace Grate.Props

open Grate Grate.Spec Grate.Api

namespace Formulas

/-! ### Writing a cell twice -/

theorem put_eq (ext : Ext) (s : Sheet) (r c : Int) (v : GoVal) (n : Nat) :
    s.put ext r c v n = (putCell ext s.fmtr v n >>= fun x => (s.grow r c).store r c x) := by
  unfold Sheet.put
  simp only [grow_fmtr]

theorem resize_sizes (s : Sheet) (r c : Int) : (s.resize r c).numRows = (if r ≤ 0 then 1 else r) ∧
    (s.resize r c).numCols = (if c ≤ 0 then 1 else c) := ⟨rfl, rfl⟩

/-- After growing, the cell is inside of the size. -/
theorem grow_sizes (s : Sheet) (r c : Int) (hr : 0 ≤ r) (hc : 0 ≤ c) : r < (s.grow r c).numRows ∧ c < (s.grow r c).numCols := by
  unfold Sheet.grow
  by_cases h : r ≥ s.numRows ∨ c ≥ s.numCols
  · rw [if_pos h]
    simp only [resize_sizes]
    constructor
    · split <;> split <;> omega
    · split <;> split <;> omega
  · rw [if_neg h]
    omega

theorem grow_inside (s : Sheet) (r c : Int) (hr : r < s.numRows) (hc : c < s.numCols) : s.grow r c = s := by
  unfold Sheet.grow
  rw [if_neg (by omega)]

theorem cell_some {s : Sheet} {r c : Int} {y : Cell} (h : s.cell? r c = some y) (x : Cell) :
    ∃ z, ({ s with rows := s.rows.modify r.toNat (fun l => l.set c.toNat x) } : Sheet).cell? r c = some z := by
  unfold Sheet.cell? at h ⊢
  split at h
  · rename_i hrc
    rw [if_pos hrc]
    simp only [List.getElem?_modify]
    cases hl : s.rows[r.toNat]? with
    | none => rw [hl] at h; cases h
    | some l =>
      rw [hl] at h
      simp only at h
      simp only [if_true, Option.map_eq_map, Option.map_some]
      obtain ⟨hlt, _⟩ := List.getElem?_eq_some_iff.1 h
      exact ⟨x, List.getElem?_set_self hlt⟩
  · cases h

/-- A value written to a cell replaces one written before. -/
theorem put_put (ext : Ext) (s : Sheet) (r c : Int) (hr : 0 ≤ r) (hc : 0 ≤ c) (v w : GoVal) (hv : Supported v) (hw : Supported w)
    (n : Nat) : (s.put ext r c v n >>= fun s => s.put ext r c w n) = s.put ext r c w n := by
  obtain ⟨x1, t1, o1, e1⟩ := putCell_ok ext s.fmtr hv n
  obtain ⟨x2, t2, o2, e2⟩ := putCell_ok ext s.fmtr hw n
  simp only [put_eq]
  rw [e1, e2, GoRes.ok_bind, GoRes.ok_bind]
  obtain ⟨g1, g2⟩ := grow_sizes s r c hr hc
  have gf : (s.grow r c).fmtr = s.fmtr := grow_fmtr s r c
  generalize s.grow r c = g at g1 g2 gf
  unfold Sheet.store
  cases hg : g.cell? r c with
  | none => rfl
  | some y =>
    obtain ⟨z, hz⟩ := cell_some hg (.full x1 t1 o1 [])
    rw [← gf] at e2
    simp only [GoRes.ok_bind, e2]
    rw [grow_inside _ r c (by exact g1) (by exact g2), hz]
    simp only [List.modify_modify_eq]
    congr 3
    funext l
    simp only [Function.comp, List.set_set]

/-! ### Texts in cells -/

theorem value_ok {ext : Ext} {strings : List Bytes} {t f : Bytes} (ht : t ≠ lit "s") (hf : f ≠ []) :
    Xlsx.cellValue ext strings t f = .ok none ∨ ∃ v, Xlsx.cellValue ext strings t f = .ok (some v) ∧ Supported v := by
  unfold Xlsx.cellValue
  by_cases h1 : t = lit "b"
  · rw [if_pos h1]
    cases f with
    | nil => exact absurd rfl hf
    | cons c f => exact .inr ⟨_, rfl, trivial⟩
  · rw [if_neg h1]
    by_cases h2 : t = lit "n"
    · rw [if_pos h2]
      rcases ext.parseFloat f with ⟨x, _ | e⟩
      · exact .inr ⟨_, rfl, trivial⟩
      · exact .inr ⟨_, rfl, trivial⟩
    · rw [if_neg h2, if_neg ht]
      by_cases h3 : t = []
      · rw [if_pos h3]; exact .inl rfl
      · rw [if_neg h3]; exact .inr ⟨_, rfl, trivial⟩

theorem value_any {ext : Ext} {strings : List Bytes} {t s : Bytes} (ht : t ≠ lit "s") :
    Xlsx.cellValue ext strings t s = .panic ∨
      (t = [] ∧ Xlsx.cellValue ext strings t s = .ok none) ∨ ∃ v, Xlsx.cellValue ext strings t s = .ok (some v) ∧ Supported v := by
  unfold Xlsx.cellValue
  by_cases h1 : t = lit "b"
  · rw [if_pos h1]
    cases s with
    | nil => exact .inl rfl
    | cons c f => exact .inr (.inr ⟨_, rfl, trivial⟩)
  · rw [if_neg h1]
    by_cases h2 : t = lit "n"
    · rw [if_pos h2]
      rcases ext.parseFloat s with ⟨x, _ | e⟩
      · exact .inr (.inr ⟨_, rfl, trivial⟩)
      · exact .inr (.inr ⟨_, rfl, trivial⟩)
    · rw [if_neg h2, if_neg ht]
      by_cases h3 : t = []
      · rw [if_pos h3]; exact .inr (.inl ⟨h3, rfl⟩)
      · rw [if_neg h3]; exact .inr (.inr ⟨_, rfl, trivial⟩)

theorem put_cases (ext : Ext) (s : Sheet) (r c : Int) (v : GoVal) (hv : Supported v) (n : Nat) :
    s.put ext r c v n = .panic ∨ ∃ s', s.put ext r c v n = .ok s' := by
  obtain ⟨x, t, o, e⟩ := putCell_ok ext s.fmtr hv n
  rw [put_eq, e, GoRes.ok_bind]
  unfold Sheet.store
  split
  · exact .inl rfl
  · exact .inr ⟨_, rfl⟩

/-- A text in a cell replaces one before it. -/
theorem chars_chars (ext : Ext) (d : Xlsx.Doc) (f s : Bytes) (st : Xlsx.WsSt) (ht : st.typ ≠ lit "s") (hf : f ≠ []) :
    (Xlsx.charsTok ext d f st >>= Xlsx.charsTok ext d s) = Xlsx.charsTok ext d s st := by
  unfold Xlsx.charsTok
  by_cases h0 : st.cell = []
  · simp only [if_pos h0, GoRes.ok_bind]
  · simp only [if_neg h0]
    cases hr : Xlsx.refToIndexes st.cell with
    | panic => rfl
    | err e => rfl
    | ok p =>
      obtain ⟨c, r⟩ := p
      simp only [GoRes.ok_bind]
      by_cases hrc : 0 ≤ c ∧ 0 ≤ r
      · simp only [if_pos hrc]
        rcases value_ok (ext := ext) (strings := d.strings) ht hf with hv | ⟨v, hv, sv⟩
        · simp only [hv, GoRes.ok_bind, GoRes.pure_eq, if_neg h0, hr, if_pos hrc]
        · simp only [hv, GoRes.ok_bind]
          rcases value_any (ext := ext) (strings := d.strings) (s := s) ht with hw | ⟨_, hw⟩ | ⟨w, hw, sw⟩
          · simp only [hw, GoRes.panic_bind]
            rcases put_cases ext st.sheet r c v sv st.fno with e | ⟨s', e⟩
            · simp only [e, GoRes.panic_bind]
            · simp only [e, GoRes.ok_bind, GoRes.pure_eq, if_neg h0, hr, if_pos hrc, hw, GoRes.panic_bind]
          · exfalso
            rename_i h3
            rw [h3] at hv
            simp only [Xlsx.cellValue] at hv
            rw [if_neg (by decide +kernel), if_neg (by decide +kernel), if_neg (by decide +kernel)] at hv
            simp at hv
          · simp only [hw, GoRes.ok_bind]
            have hp := put_put ext st.sheet r c hrc.2 hrc.1 v w sv sw st.fno
            rw [← hp]
            cases hs : st.sheet.put ext r c v st.fno with
            | panic => rfl
            | err e => rfl
            | ok s1 => simp only [GoRes.ok_bind, GoRes.pure_eq, if_neg h0, hr, if_pos hrc, hw]
      · simp only [if_neg hrc, GoRes.pure_eq, GoRes.ok_bind, if_neg h0, hr]

/-! ### Worksheets -/

theorem loop_skip (ext : Ext) (d : Xlsx.Doc) (links : Bytes → Bytes) (ts : List Xlsx.Tok) (st : Xlsx.WsSt) :
    ∀ pre : List Xlsx.Tok, (∀ x ∈ pre, CellToken x) →
      Xlsx.sheetLoop ext d links (pre ++ ts) st = Xlsx.sheetLoop ext d links ts st := by
  intro pre
  induction pre with
  | nil => intro _; rfl
  | cons x pre ih =>
    intro h
    have hx := h x (by simp)
    rw [List.cons_append, Xlsx.sheetLoop_step ext d links x _ st st (Xlsx.sheetTok_other ext d links x st hx.2.1 hx.2.2 hx.1)]
    exact ih (fun y hy => h y (by simp [hy]))

theorem start_token (n : Bytes) (a : List (Bytes × Bytes)) (h : n = lit "f" ∨ n = lit "v") : CellToken (.start n a) := by
  refine ⟨by simp, ?_, by simp [Stops]⟩
  rcases h with rfl | rfl
  · show ¬ lit "f" ∈ sheetNames
    decide +kernel
  · show ¬ lit "v" ∈ sheetNames
    decide +kernel

theorem stop_token (n : Bytes) (h : n = lit "f" ∨ n = lit "v") : CellToken (.stop n) := by
  refine ⟨by simp, by simp [Starts], ?_⟩
  rcases h with rfl | rfl
  · show ¬ lit "f" ∈ [lit "c"]
    decide +kernel
  · show ¬ lit "v" ∈ [lit "c"]
    decide +kernel

theorem loop_token (ext : Ext) (d : Xlsx.Doc) (links : Bytes → Bytes) (x : Xlsx.Tok) (ts : List Xlsx.Tok) (st : Xlsx.WsSt)
    (h : CellToken x) : Xlsx.sheetLoop ext d links (x :: ts) st = Xlsx.sheetLoop ext d links ts st :=
  loop_skip ext d links ts st [x] (by simpa using h)

theorem loop_chars (ext : Ext) (d : Xlsx.Doc) (links : Bytes → Bytes) (v : Bytes) (ts : List Xlsx.Tok) (st : Xlsx.WsSt) :
    Xlsx.sheetLoop ext d links (.chars v :: ts) st = (Xlsx.charsTok ext d v st >>= Xlsx.sheetLoop ext d links ts) := rfl

theorem bind_congr {α β : Type} (x : GoRes α) (f g : α → GoRes β) (h : ∀ a, f a = g a) : (x >>= f) = (x >>= g) := by
  have : f = g := funext h
  rw [this]

theorem loop_without {ext : Ext} {d : Xlsx.Doc} {links : Bytes → Bytes} {ts ts' : List Xlsx.Tok} (h : WithoutFormulas ts ts') :
    ∀ st, Xlsx.sheetLoop ext d links ts st = Xlsx.sheetLoop ext d links ts' st := by
  induction h with
  | nil => intro st; rfl
  | keep t ts ts' _ ih =>
    intro st
    simp only [Xlsx.sheetLoop]
    exact bind_congr _ _ _ ih
  | empty a ts ts' _ ih =>
    intro st
    rw [loop_token _ _ _ _ _ _ (start_token _ a (.inl rfl)), loop_token _ _ _ _ _ _ (stop_token _ (.inl rfl))]
    exact ih st
  | formula attrs a b pre mid f s ts ts' hd ht hp hm hf _ ih =>
    intro st
    have typ : ∀ st', Xlsx.sheetTok ext d links (.start (lit "c") attrs) st = .ok st' → st'.typ ≠ lit "s" := by
      intro st' he
      unfold Xlsx.sheetTok at he
      simp only at he
      rw [if_neg (by decide +kernel), if_pos trivial] at he
      unfold Xlsx.cElem at he
      obtain ⟨n, _, he⟩ := GoRes.bind_eq_ok.1 he
      cases he
      simp only
      split
      · decide +kernel
      · exact Xlsx.attr_ne hd ht (by decide +kernel)
    show (Xlsx.sheetTok ext d links (.start (lit "c") attrs) st >>= _) = (Xlsx.sheetTok ext d links (.start (lit "c") attrs) st >>= _)
    cases hc : Xlsx.sheetTok ext d links (.start (lit "c") attrs) st with
    | panic => rfl
    | err e => rfl
    | ok st' =>
      have ht' := typ st' hc
      simp only [GoRes.ok_bind]
      rw [loop_skip _ _ _ _ _ pre hp, loop_skip _ _ _ _ _ pre hp, loop_skip _ _ _ _ _ mid hm,
        loop_token _ _ _ _ _ _ (start_token _ a (.inl rfl)), loop_token _ _ _ _ _ _ (start_token _ b (.inr rfl)),
        loop_chars, loop_chars, ← chars_chars ext d f s st' ht' hf]
      cases Xlsx.charsTok ext d f st' with
      | panic => rfl
      | err e => rfl
      | ok s1 =>
        simp only [GoRes.ok_bind]
        rw [loop_token _ _ _ _ _ _ (stop_token _ (.inl rfl)), loop_skip _ _ _ _ _ mid hm,
          loop_token _ _ _ _ _ _ (start_token _ b (.inr rfl)), loop_chars]
        refine bind_congr _ _ _ (fun s2 => ?_)
        rw [loop_token _ _ _ _ _ _ (stop_token _ (.inr rfl)), loop_token _ _ _ _ _ _ (stop_token _ (.inr rfl))]
        exact ih s2

theorem loop_asValues {ext : Ext} {d : Xlsx.Doc} {links : Bytes → Bytes} {ts ts' : List Xlsx.Tok} (h : FormulasAsValues ts ts') :
    ∀ st, Xlsx.sheetLoop ext d links ts st = Xlsx.sheetLoop ext d links ts' st := by
  induction h with
  | nil => intro st; rfl
  | keep t ts ts' _ ih =>
    intro st
    simp only [Xlsx.sheetLoop]
    exact bind_congr _ _ _ ih
  | noResult a f ts ts' _ ih =>
    intro st
    rw [loop_token _ _ _ _ _ _ (start_token _ a (.inl rfl)), loop_token _ _ _ _ _ _ (start_token _ _ (.inr rfl)), loop_chars,
      loop_chars]
    refine bind_congr _ _ _ (fun s2 => ?_)
    rw [loop_token _ _ _ _ _ _ (stop_token _ (.inl rfl)), loop_token _ _ _ _ _ _ (stop_token _ (.inr rfl))]
    exact ih s2
  | emptyResult a b f ts ts' _ ih =>
    intro st
    rw [loop_token _ _ _ _ _ _ (start_token _ a (.inl rfl)), loop_token _ _ _ _ _ _ (start_token _ _ (.inr rfl)), loop_chars,
      loop_chars]
    refine bind_congr _ _ _ (fun s2 => ?_)
    rw [loop_token _ _ _ _ _ _ (stop_token _ (.inl rfl)), loop_token _ _ _ _ _ _ (stop_token _ (.inr rfl)),
      loop_token _ _ _ _ _ _ (start_token _ b (.inr rfl)), loop_token _ _ _ _ _ _ (stop_token _ (.inr rfl))]
    exact ih s2

/-- Parts whose texts are read alike, with the same relationships. -/
theorem parse_by {ext : Ext} {a b : Xlsx.Archive} {R : List Xlsx.Tok → List Xlsx.Tok → Prop} {n : Bytes} (d : Xlsx.Doc)
    (hR : ∀ ts us, R ts us → ∀ links st, Xlsx.sheetLoop ext d links ts st = Xlsx.sheetLoop ext d links us st)
    (h1 : PartsBy R (Xlsx.openXML a n) (Xlsx.openXML b n))
    (h2 : SamePart (Xlsx.openXML a (Xlsx.relsOf n)) (Xlsx.openXML b (Xlsx.relsOf n))) :
    Xlsx.parseSheet ext a d n = Xlsx.parseSheet ext b d n := by
  have hl : Xlsx.linkMap a n = Xlsx.linkMap b n := by
    unfold Xlsx.linkMap
    generalize Xlsx.openXML a (Xlsx.relsOf n) = x at h2
    generalize Xlsx.openXML b (Xlsx.relsOf n) = y at h2
    cases h2 with
    | error e => rfl
    | part ts us e hs => exact linkLoop_same hs _
  unfold Xlsx.parseSheet
  rw [hl]
  generalize Xlsx.openXML a n = x at h1
  generalize Xlsx.openXML b n = y at h1
  cases h1 with
  | error e => rfl
  | part ts us e h => simp only [hR ts us h]

/-! ### Programs -/

/-- The sheets with the names are read alike from both archives. -/
def AlikeOn (ext : Ext) (N : Bytes → Prop) (a b : Xlsx.Archive) (d : Xlsx.Doc) : Prop :=
  ∀ s ∈ d.sheets, N s.name → ∀ d', Xlsx.parseSheet ext a d' s.docname = Xlsx.parseSheet ext b d' s.docname

theorem AlikeOn.set {ext : Ext} {N : Bytes → Prop} {a b : Xlsx.Archive} {d : Xlsx.Doc} (h : AlikeOn ext N a b d) (i : Nat)
    (x : Xlsx.XSheet) (hx : d.sheets[i]? = some x) (st : Option (Sheet × Option GoErr)) :
    AlikeOn ext N a b { d with sheets := d.sheets.set i { x with state := st } } := by
  intro s hs
  rcases List.mem_or_eq_of_mem_set hs with hs | rfl
  · exact h s hs
  · exact h x (List.mem_of_getElem? hx)

theorem docGet_alike {ext : Ext} {N : Bytes → Prop} {a b : Xlsx.Archive} {d : Xlsx.Doc} (hd : AlikeOn ext N a b d) {n : Bytes}
    (hN : N n) : d.get ext a n = d.get ext b n ∧ ∀ d' i e, d.get ext a n = .ok (d', i, e) → AlikeOn ext N a b d' := by
  cases hf : d.find n with
  | none =>
    unfold Xlsx.Doc.get
    simp only [hf]
    exact ⟨trivial, fun _ _ _ h => by cases h⟩
  | some i =>
    obtain ⟨x, hx, hn, _⟩ := find_some hf
    have hs := hd x (List.mem_of_getElem? hx) (hn ▸ hN)
    unfold Xlsx.Doc.get
    simp only [hf, hx]
    split
    · exact ⟨rfl, fun _ _ _ h => by cases h; exact hd⟩
    · refine ⟨by rw [hs d], fun d' j e hg => ?_⟩
      obtain ⟨r, _, hr⟩ := GoRes.bind_eq_ok.1 hg
      cases hr
      exact hd.set i x hx _

theorem get_alike {ext : Ext} {N : Bytes → Prop} {a b : Xlsx.Archive} {d : Xlsx.Doc} (hd : AlikeOn ext N a b d) {n : Bytes}
    (hN : N n) : ((Source.xlsx a d).get ext n = .panic ∧ (Source.xlsx b d).get ext n = .panic) ∨
    ∃ d' r, AlikeOn ext N a b d' ∧ (Source.xlsx a d).get ext n = .ok (.xlsx a d', r) ∧
      (Source.xlsx b d).get ext n = .ok (.xlsx b d', r) := by
  obtain ⟨h1, h2⟩ := docGet_alike (ext := ext) hd hN
  simp only [Source.get, ← h1]
  cases hg : d.get ext a n with
  | panic => exact .inl ⟨rfl, rfl⟩
  | err e => exact .inr ⟨d, _, hd, rfl, rfl⟩
  | ok x =>
    obtain ⟨d', i, e⟩ := x
    have hd' := h2 _ _ _ hg
    cases e with
    | some e => exact .inr ⟨d', _, hd', rfl, rfl⟩
    | none =>
      simp only
      split
      · exact .inr ⟨d', _, hd', rfl, rfl⟩
      · exact .inl ⟨rfl, rfl⟩

theorem used_alike {ext : Ext} {N : Bytes → Prop} {a b : Xlsx.Archive} {d : Xlsx.Doc} (hd : AlikeOn ext N a b d) (n : Bytes)
    (c : Coll) : ∃ d', AlikeOn ext N a b d' ∧ (Source.xlsx a d).used n c = .xlsx a d' ∧ (Source.xlsx b d).used n c = .xlsx b d' := by
  cases c with
  | sheet s =>
    simp only [Source.used]
    split
    · split
      · rename_i i _ _ x hx
        exact ⟨_, hd.set i x hx _, rfl, rfl⟩
      · exact ⟨_, hd, rfl, rfl⟩
    · exact ⟨_, hd, rfl, rfl⟩
  | noSheet => exact ⟨d, hd, rfl, rfl⟩
  | text f => exact ⟨d, hd, rfl, rfl⟩

theorem run_alike {ext : Ext} {N : Bytes → Prop} {a b : Xlsx.Archive} : ∀ (p : Client) (d : Xlsx.Doc), p.Only N →
    AlikeOn ext N a b d → p.run ext (.xlsx b d) = p.run ext (.xlsx a d) := by
  intro p
  induction p with
  | done => intro d _ _; rfl
  | get n use next ih =>
    intro d hp hd
    rcases get_alike (ext := ext) hd hp.1 with ⟨e1, e2⟩ | ⟨d', r, hd', e1, e2⟩
    · simp only [Client.run, e1, e2]
    · simp only [Client.run, e1, e2, GoRes.ok_bind]
      cases r with
      | error e => simp only [ih _ d' (hp.2 _) hd']
      | ok c =>
        obtain ⟨d'', hd'', u1, u2⟩ := used_alike hd' n (use c)
        simp only [u1, u2, ih _ d'' (hp.2 _) hd'']

theorem opener_by (w : World) (ext : Ext) (N : Bytes → Prop) (fn fn' file file' : Bytes) (hf : w.files fn = .ok file)
    (hf' : w.files fn' = .ok file') (a b : Xlsx.Archive) (hz : w.zip file = .ok a) (hz' : w.zip file' = .ok b)
    (ho : ∀ l, (w.order l).Perm l) (hc : ∀ n, Core a n → SamePart (Xlsx.openXML a n) (Xlsx.openXML b n))
    (R : List Xlsx.Tok → List Xlsx.Tok → Prop)
    (hR : ∀ d ts us, R ts us → ∀ links st, Xlsx.sheetLoop ext d links ts st = Xlsx.sheetLoop ext d links us st)
    (hs : ∀ n x, N n → SheetPart a n x → PartsBy R (Xlsx.openXML a x) (Xlsx.openXML b x) ∧
      SamePart (Xlsx.openXML a (Xlsx.relsOf x)) (Xlsx.openXML b (Xlsx.relsOf x))) :
    OpenAlikeOn N ext (xlsxOpen w fn) (xlsxOpen w fn') := by
  unfold OpenAlikeOn
  simp only [xlsxOpen, hf, hf', hz, hz', ← openFile_agree ho (fun n hn => (hc n hn).alike)]
  cases hd : Xlsx.openFile makeFormatter w.order (.ok a) with
  | ok d =>
    refine .inl ⟨_, _, rfl, rfl, rfl, fun p hp => run_alike p d hp (fun s hm hN d' => ?_)⟩
    obtain ⟨h1, h2⟩ := hs _ _ hN (openFile_parts hd s hm)
    exact parse_by d' (hR d') h1 h2
  | err e => exact .inr (.inl ⟨e, rfl, rfl⟩)
  | panic => exact .inr (.inr ⟨rfl, rfl⟩)

end Formulas

open Formulas

/-! ### The theorems -/

/-- **C132 (sheet).** A worksheet gives the same sheet, or the same error, or panics as well, with and without the formulas of cells
that have a result. Formulas without a result, or with the empty text as the result, are excluded: see
`C132_asValues_counterexample`; and so are formulas in cells of the type of shared strings. -/
theorem C132_sheet_partial (ext : Ext) (a b : Xlsx.Archive) (d : Xlsx.Doc) (n : Bytes)
    (h : PartsBy WithoutFormulas (Xlsx.openXML a n) (Xlsx.openXML b n))
    (hl : SamePart (Xlsx.openXML a (Xlsx.relsOf n)) (Xlsx.openXML b (Xlsx.relsOf n))) :
    Xlsx.parseSheet ext a d n = Xlsx.parseSheet ext b d n :=
  parse_by d (fun _ _ h _ st => loop_without h st) h hl

/-- **C132 (opener).** For files: whatever a program does with the sheets of two workbooks, of which one is the other without
formulas, it sees the same. -/
theorem C132_opener_partial (w : World) (ext : Ext) (N : Bytes → Prop) (fn fn' file file' : Bytes) (hf : w.files fn = .ok file)
    (hf' : w.files fn' = .ok file') (a b : Xlsx.Archive) (hz : w.zip file = .ok a) (hz' : w.zip file' = .ok b)
    (ho : ∀ l, (w.order l).Perm l) (hc : ∀ n, Core a n → SamePart (Xlsx.openXML a n) (Xlsx.openXML b n))
    (hs : ∀ n x, N n → SheetPart a n x → PartsBy WithoutFormulas (Xlsx.openXML a x) (Xlsx.openXML b x) ∧
      SamePart (Xlsx.openXML a (Xlsx.relsOf x)) (Xlsx.openXML b (Xlsx.relsOf x))) :
    OpenAlikeOn N ext (xlsxOpen w fn) (xlsxOpen w fn') :=
  opener_by w ext N fn fn' file file' hf hf' a b hz hz' ho hc _ (fun _ _ _ h _ st => loop_without h st) hs

/-- **C132 (Open).** In a program with all formats. -/
theorem C132_open_partial (w : World) (ext : Ext) (N : Bytes → Prop) (fn fn' file file' : Bytes) (hf : w.files fn = .ok file)
    (hf' : w.files fn' = .ok file') (hn : NotCompound file) (hn' : NotCompound file') (a b : Xlsx.Archive)
    (hz : w.zip file = .ok a) (hz' : w.zip file' = .ok b)
    (ho : ∀ l, (w.order l).Perm l) (hc : ∀ n, Core a n → SamePart (Xlsx.openXML a n) (Xlsx.openXML b n))
    (hs : ∀ n x, N n → SheetPart a n x → PartsBy WithoutFormulas (Xlsx.openXML a x) (Xlsx.openXML b x) ∧
      SamePart (Xlsx.openXML a (Xlsx.relsOf x)) (Xlsx.openXML b (Xlsx.relsOf x)))
    (d : Xlsx.Doc) (t : List (Grate.Entry Source)) (ht : Shipped w t) (hop : openSrc t fn = .ok (.xlsx a d)) :
    ∃ src', openSrc t fn' = .ok src' ∧ src'.list = (Source.xlsx a d).list ∧
      ∀ p : Client, p.Only N → p.run ext src' = p.run ext (.xlsx a d) :=
  open_alikeOn w ext N fn fn' file file' hf hf' hn hn'
    (C132_opener_partial w ext N fn fn' file file' hf hf' a b hz hz' ho hc hs) a d t ht hop

/-- C132 is false of every formula that has no result or the empty text as its result: the sheet is read like the one that has the
text of the formula as the value of the cell. -/
theorem C132_asValues_counterexample (ext : Ext) (a b : Xlsx.Archive) (d : Xlsx.Doc) (n : Bytes)
    (h : PartsBy FormulasAsValues (Xlsx.openXML a n) (Xlsx.openXML b n))
    (hl : SamePart (Xlsx.openXML a (Xlsx.relsOf n)) (Xlsx.openXML b (Xlsx.relsOf n))) :
    Xlsx.parseSheet ext a d n = Xlsx.parseSheet ext b d n :=
  parse_by d (fun _ _ h _ st => loop_asValues h st) h hl

/-! ### Examples -/

/-- A worksheet with one cell, A1. -/
def exFormulaArchive (t : Bytes) (inner : List Xlsx.Tok) : Xlsx.Archive :=
  [(lit "s", .ok ⟨.start (lit "c") [(lit "r", lit "A1"), (lit "t", t)] :: (inner ++ [.stop (lit "c")]), .eof⟩)]

/-- Examples: a formula with the result "", one that was never computed, and a comparison that was never computed and that is true:
the sheets show the text of the formula, and false; without the formulas the cells are blank. -/
theorem C132_counterexample (ext : Ext) :
    (∃ s, Xlsx.parseSheet ext (exFormulaArchive (lit "str") [.start (lit "f") [], .chars (lit "B1&C1"), .stop (lit "f"),
        .start (lit "v") [], .stop (lit "v")]) exXlsxDoc (lit "s") = .ok (s, none) ∧
      firstRow ext s = .ok [lit "B1&C1"]) ∧
    (∃ s, Xlsx.parseSheet ext (exFormulaArchive (lit "str") [.start (lit "v") [], .stop (lit "v")]) exXlsxDoc (lit "s") =
        .ok (s, none) ∧ s.cell? 0 0 = none) ∧
    (∃ s, Xlsx.parseSheet ext (exFormulaArchive (lit "str") [.start (lit "f") [], .chars (lit "B1&C1"), .stop (lit "f")])
        exXlsxDoc (lit "s") = .ok (s, none) ∧ firstRow ext s = .ok [lit "B1&C1"]) ∧
    (∃ s, Xlsx.parseSheet ext (exFormulaArchive (lit "b") [.start (lit "f") [], .chars (lit "2>1"), .stop (lit "f")])
        exXlsxDoc (lit "s") = .ok (s, none) ∧ s.cell? 0 0 = some (.full (.bool false) .boolean none [])) := by
  refine ⟨⟨_, rfl, ?_⟩, ⟨_, rfl, rfl⟩, ⟨_, rfl, ?_⟩, ⟨_, rfl, rfl⟩⟩
  · rfl
  · rfl

/-- The cells of the sheet "two" of the archive of C61 without their formula. -/
def exPlainCells : List Xlsx.Tok :=
  [.start (lit "c") [(lit "r", lit "A1"), (lit "s", lit "1"), (lit "t", lit "s")], .start (lit "v") [], .chars (lit "1"),
    .stop (lit "v"), .stop (lit "c"), .start (lit "c") [(lit "r", lit "AB12"), (lit "t", lit "b")], .start (lit "v") [],
    .chars (lit "1"), .stop (lit "v"), .stop (lit "c")]

theorem exPlain_without : WithoutFormulas (exSheetCells.flatMap ACell.toks) exPlainCells := by
  refine .keep _ _ _ (.keep _ _ _ (.keep _ _ _ (.keep _ _ _ (.keep _ _ _ ?_))))
  refine .formula [(lit "r", lit "AB12"), (lit "t", lit "b")] [] [] [] [] (lit "A1=2") (lit "1") [.stop (lit "c")] [.stop (lit "c")]
    ?_ ?_ (by simp) (by simp) (by decide +kernel) (.keep _ _ _ .nil)
  · unfold Distinct; simp only [List.map_cons, List.map_nil]; decide +kernel
  · unfold Has; decide +kernel

/-- The archive of C61 without its formula. -/
def exPlainZip : Xlsx.Archive := putPart exZip (lit "xl/worksheets/sheet1.xml") exPlainCells

theorem putPart_same (a : Xlsx.Archive) (n m : Bytes) (ts : List Xlsx.Tok) (h : m ≠ n) :
    Xlsx.openXML (putPart a n ts) m = Xlsx.openXML a m := by
  unfold putPart
  induction a with
  | nil => rfl
  | cons e a ih =>
    obtain ⟨k, x⟩ := e
    by_cases hk : k = n
    · subst hk
      simp only [List.map_cons, if_true, Xlsx.openXML, if_neg h.symm]
      exact ih
    · simp only [List.map_cons, if_neg hk, Xlsx.openXML]
      rw [ih]

/-- The hypotheses of C132 are met by the archive of C61, which has a formula in AB12 of the sheet "two", and the archive without
it. -/
theorem C132_witness (p : Crypto.Prims) (t : List (Grate.Entry Source)) (ht : Shipped (otherWorld p exPlainZip) t) :
    (∀ n, Core exZip n → SamePart (Xlsx.openXML exZip n) (Xlsx.openXML exPlainZip n)) ∧
    (∀ n x, n = lit "two" → SheetPart exZip n x →
      PartsBy WithoutFormulas (Xlsx.openXML exZip x) (Xlsx.openXML exPlainZip x) ∧
      SamePart (Xlsx.openXML exZip (Xlsx.relsOf x)) (Xlsx.openXML exPlainZip (Xlsx.relsOf x))) ∧
    exSheetCells.flatMap ACell.toks ≠ exPlainCells ∧
    ∃ d, openSrc t (lit "a.xlsx") = .ok (.xlsx exZip d) ∧ d.list = [lit "one", lit "two"] := by
  have core : ∀ n, Core exZip n → n ≠ lit "xl/worksheets/sheet1.xml" := by
    intro n h
    cases h with
    | package => decide +kernel
    | workbook dir doc h =>
      rcases exZip_related h with ⟨rfl, _, rfl⟩ | ⟨rfl, ⟨h1, _⟩ | ⟨h1, _⟩⟩
      · decide +kernel
      · exact absurd h1 (by decide +kernel)
      · exact absurd h1 (by decide +kernel)
    | workbookRels doc h =>
      rcases exZip_related h with ⟨_, _, rfl⟩ | ⟨h1, _⟩
      · decide +kernel
      · exact absurd h1 (by decide +kernel)
    | styles dir t h =>
      rcases exZip_related h with ⟨_, h1, _⟩ | ⟨_, ⟨h1, _⟩ | ⟨h1, _⟩⟩ <;> exact absurd h1 (by decide +kernel)
    | strings dir t h =>
      rcases exZip_related h with ⟨_, h1, _⟩ | ⟨rfl, ⟨h1, _⟩ | ⟨_, rfl⟩⟩
      · exact absurd h1 (by decide +kernel)
      · exact absurd h1 (by decide +kernel)
      · decide +kernel
  refine ⟨fun n hn => ?_, fun n x hn hx => ?_, ?_, otherWorld_open p _ t ht⟩
  · unfold exPlainZip
    rw [putPart_same _ _ _ _ (core n hn)]
    exact SamePart.refl _
  · subst hn
    rcases exZip_two hx with rfl | rfl
    · refine ⟨?_, ?_⟩
      · have e1 : Xlsx.openXML exZip (lit "xl/worksheets/sheet1.xml") = .ok ⟨exSheetCells.flatMap ACell.toks, .eof⟩ := rfl
        have e2 : Xlsx.openXML exPlainZip (lit "xl/worksheets/sheet1.xml") = .ok ⟨exPlainCells, .eof⟩ := rfl
        rw [e1, e2]
        exact .part _ _ _ exPlain_without
      · unfold exPlainZip
        rw [putPart_same _ _ _ _ (by decide +kernel)]
        exact SamePart.refl _
    · refine ⟨?_, ?_⟩
      · unfold exPlainZip
        rw [putPart_same _ _ _ _ (by decide +kernel)]
        cases h : Xlsx.openXML exZip [] with
        | error e => exact .error e
        | ok p =>
          obtain ⟨e, he⟩ : ∃ e, Xlsx.openXML exZip [] = .error e := ⟨_, rfl⟩
          rw [he] at h
          cases h
      · unfold exPlainZip
        rw [putPart_same _ _ _ _ (by decide +kernel)]
        exact SamePart.refl _
  · intro h
    have := congrArg List.length h
    exact absurd this (by decide +kernel)

end Grate.Props
