import Verif.Props.Unused
import Verif.Lemmas.XlsxSafe

/-! # C147: indentation of the parts of an xlsx file

Line ends and spaces between the elements of a part do not matter outside the cells (`c`) of worksheets and the entries (`si`) of
the table of strings. Inside these they do. -/

namespace Grate.Props

open Grate Grate.Spec Grate.Api

/-! ### Specification -/

/-- The beginning or the end of a cell or of an entry of the table of strings. -/
def Bound : Xlsx.Tok → Prop
  | .start n _ => n = lit "c" ∨ n = lit "si"
  | .stop n => n = lit "c" ∨ n = lit "si"
  | _ => False

/-- The same tokens up to character data (such as line ends and spaces) outside the elements `c` and `si`. The first argument says
in which of the two the tokens begin, if in any. Elements `c` and `si` that are nested do not occur in such files. -/
inductive Indented : Option Bytes → List Xlsx.Tok → List Xlsx.Tok → Prop where
  | nil (w : Option Bytes) : Indented w [] []
  | left (v : Bytes) (ts us : List Xlsx.Tok) : Indented none ts us → Indented none (.chars v :: ts) us
  | right (v : Bytes) (ts us : List Xlsx.Tok) : Indented none ts us → Indented none ts (.chars v :: us)
  | enter (n : Bytes) (as : List (Bytes × Bytes)) (ts us : List Xlsx.Tok) : n = lit "c" ∨ n = lit "si" → Indented (some n) ts us →
    Indented none (.start n as :: ts) (.start n as :: us)
  | leave (n : Bytes) (ts us : List Xlsx.Tok) : Indented none ts us → Indented (some n) (.stop n :: ts) (.stop n :: us)
  | same (w : Option Bytes) (t : Xlsx.Tok) (ts us : List Xlsx.Tok) : ¬ Bound t → Indented w ts us →
    Indented w (t :: ts) (t :: us)

/-- The same part up to indentation; or exactly the same. -/
inductive IndentedPart : Except GoErr Xlsx.Part → Except GoErr Xlsx.Part → Prop where
  | part (ts us : List Xlsx.Tok) (e : GoErr) : Indented none ts us → IndentedPart (.ok ⟨ts, e⟩) (.ok ⟨us, e⟩)
  | same (x : Except GoErr Xlsx.Part) : IndentedPart x x

/-- The same texts of parts up to indentation. -/
inductive IndentedText : Except GoErr (Bytes × GoErr) → Except GoErr (Bytes × GoErr) → Prop where
  | text (ts us : List Xlsx.Tok) (bs bs' : Bytes) : XmlText ts bs → XmlText us bs' → Indented none ts us →
    IndentedText (.ok (bs, .eof)) (.ok (bs', .eof))
  | same (x : Except GoErr (Bytes × GoErr)) : IndentedText x x

/-- White space between elements. -/
def Blank (ws : Bytes) : Prop := ws ≠ [] ∧ ∀ b ∈ ws, b = 9 ∨ b = 10 ∨ b = 13 ∨ b = 32

/-- What white space stands for as the value of a cell with a type. -/
inductive SpoiltBy (ext : Ext) (strings : List Bytes) (ws : Bytes) : Option Bytes → GoVal → Prop
  | number (t : Option Bytes) (x : Float) (e : NumErr) : t = none ∨ t = some (lit "n") → ext.parseFloat ws = (x, some e) →
    SpoiltBy ext strings ws t (.str ws)
  | bool : SpoiltBy ext strings ws (some (lit "b")) (.bool false)
  | shared (s : Bytes) : strings.head? = some s → SpoiltBy ext strings ws (some (lit "s")) (.str s)
  | text (t : Bytes) : t = lit "str" ∨ t = lit "inlineStr" ∨ t = lit "e" ∨ t = lit "d" → SpoiltBy ext strings ws (some t) (.str ws)

/-! ### The readers -/

namespace Indent

theorem rels {w : Option Bytes} {ts us : List Xlsx.Tok} (dir : Bytes) (h : Indented w ts us) : ∀ st,
    Xlsx.relsLoop dir ts st = Xlsx.relsLoop dir us st := by
  induction h with
  | nil => intro _; rfl
  | left v ts us _ ih => intro st; exact ih st
  | right v ts us _ ih => intro st; exact ih st
  | enter n as ts us _ _ ih => intro st; simp only [Xlsx.relsLoop, ih]
  | leave n ts us _ ih => intro st; simp only [Xlsx.relsLoop, ih]
  | same w t ts us _ _ ih => intro st; cases t <;> simp only [Xlsx.relsLoop, ih]

theorem workbook {w : Option Bytes} {ts us : List Xlsx.Tok} (rels : Xlsx.Rels) (h : Indented w ts us) :
    Xlsx.workbookLoop rels ts = Xlsx.workbookLoop rels us := by
  induction h with
  | nil => rfl
  | left v ts us _ ih => exact ih
  | right v ts us _ ih => exact ih
  | enter n as ts us _ _ ih => simp only [Xlsx.workbookLoop, ih]
  | leave n ts us _ ih => simp only [Xlsx.workbookLoop, ih]
  | same w t ts us _ _ ih => cases t <;> simp only [Xlsx.workbookLoop, ih]

theorem styles {w : Option Bytes} {ts us : List Xlsx.Tok} (mk : Bytes → Fmt × CellType) (h : Indented w ts us) : ∀ st,
    Xlsx.stylesLoop mk ts st = Xlsx.stylesLoop mk us st := by
  induction h with
  | nil => intro _; rfl
  | left v ts us _ ih => intro st; exact ih st
  | right v ts us _ ih => intro st; exact ih st
  | enter n as ts us _ _ ih => intro st; simp only [Xlsx.stylesLoop, ih]
  | leave n ts us _ ih => intro st; simp only [Xlsx.stylesLoop, ih]
  | same w t ts us _ _ ih => intro st; cases t <;> simp only [Xlsx.stylesLoop, ih]

theorem link {w : Option Bytes} {ts us : List Xlsx.Tok} (h : Indented w ts us) : ∀ m,
    Xlsx.linkLoop ts m = Xlsx.linkLoop us m := by
  induction h with
  | nil => intro _; rfl
  | left v ts us _ ih => intro m; exact ih m
  | right v ts us _ ih => intro m; exact ih m
  | enter n as ts us _ _ ih => intro m; simp only [Xlsx.linkLoop, ih]
  | leave n ts us _ ih => intro m; simp only [Xlsx.linkLoop, ih]
  | same w t ts us _ _ ih => intro m; cases t <;> simp only [Xlsx.linkLoop, ih]

theorem c_ne_si : lit "c" ≠ lit "si" := by decide +kernel

/-- What was collected before an entry of the table does not matter. -/
theorem strings {w : Option Bytes} {ts us : List Xlsx.Tok} (h : Indented w ts us) : ∀ v v' out, (w = some (lit "si") → v = v') →
    Xlsx.stringsLoop ts v out = Xlsx.stringsLoop us v' out := by
  induction h with
  | nil => intro _ _ _ _; rfl
  | left x ts us _ ih => intro v v' out _; exact ih _ _ out (fun e => nomatch e)
  | right x ts us _ ih => intro v v' out _; exact ih _ _ out (fun e => nomatch e)
  | enter n as ts us hn _ ih =>
    intro v v' out _
    simp only [Xlsx.stringsLoop]
    refine ih _ _ out (fun e => ?_)
    rw [if_pos (Option.some.inj e), if_pos (Option.some.inj e)]
  | leave n ts us _ ih =>
    intro v v' out hv
    simp only [Xlsx.stringsLoop]
    by_cases e : n = lit "si"
    · rw [if_pos e, if_pos e, hv (by rw [e])]
      exact ih _ _ _ (fun e => nomatch e)
    · rw [if_neg e, if_neg e]
      exact ih _ _ _ (fun e => nomatch e)
  | same w t ts us ht _ ih =>
    intro v v' out hv
    cases t with
    | chars x => exact ih _ _ out (fun e => by rw [hv e])
    | other => exact ih _ _ out hv
    | start n as =>
      have : n ≠ lit "si" := fun e => ht (.inr e)
      simp only [Xlsx.stringsLoop, if_neg this]
      exact ih _ _ out hv
    | stop n =>
      have : n ≠ lit "si" := fun e => ht (.inr e)
      simp only [Xlsx.stringsLoop, if_neg this]
      exact ih _ _ out hv

/-- Only the beginning and the end of a cell change which cell is being read. -/
theorem tok_cell {ext : Ext} {d : Xlsx.Doc} {links : Bytes → Bytes} {t : Xlsx.Tok} {st st' : Xlsx.WsSt} (ht : ¬ Bound t)
    (h : Xlsx.sheetTok ext d links t st = .ok st') (hc : st.cell = []) : st'.cell = [] := by
  cases t with
  | chars v =>
    simp only [Xlsx.sheetTok, Xlsx.charsTok, if_pos hc] at h
    cases h
    exact hc
  | other => cases h; exact hc
  | stop n =>
    have : n ≠ lit "c" := fun e => ht (.inl e)
    simp only [Xlsx.sheetTok, if_neg this] at h
    cases h
    exact hc
  | start n as =>
    have hn : n ≠ lit "c" := fun e => ht (.inl e)
    simp only [Xlsx.sheetTok, if_neg hn] at h
    split at h
    · unfold Xlsx.dimElem at h
      simp only at h
      split at h
      · cases h; exact hc
      · obtain ⟨x, _, h⟩ := GoRes.bind_eq_ok.1 h
        cases h
        exact hc
    · split at h
      · unfold Xlsx.mergeElem at h
        simp only at h
        obtain ⟨x, _, h⟩ := GoRes.bind_eq_ok.1 h
        obtain ⟨y, _, h⟩ := GoRes.bind_eq_ok.1 h
        obtain ⟨z, _, h⟩ := GoRes.bind_eq_ok.1 h
        cases h
        exact hc
      · split at h
        · unfold Xlsx.linkElem at h
          obtain ⟨x, _, h⟩ := GoRes.bind_eq_ok.1 h
          obtain ⟨y, _, h⟩ := GoRes.bind_eq_ok.1 h
          obtain ⟨z, _, h⟩ := GoRes.bind_eq_ok.1 h
          cases h
          exact hc
        · cases h
          exact hc

theorem sheet {w : Option Bytes} {ts us : List Xlsx.Tok} (ext : Ext) (d : Xlsx.Doc) (links : Bytes → Bytes) (h : Indented w ts us) :
    ∀ st, (w ≠ some (lit "c") → st.cell = []) → Xlsx.sheetLoop ext d links ts st = Xlsx.sheetLoop ext d links us st := by
  induction h with
  | nil => intro _ _; rfl
  | left v ts us _ ih =>
    intro st hc
    have hc := hc (fun e => nomatch e)
    rw [← ih st (fun _ => hc)]
    simp only [Xlsx.sheetLoop, Xlsx.sheetTok, Xlsx.charsTok, if_pos hc, GoRes.ok_bind]
  | right v ts us _ ih =>
    intro st hc
    have hc := hc (fun e => nomatch e)
    rw [ih st (fun _ => hc)]
    simp only [Xlsx.sheetLoop, Xlsx.sheetTok, Xlsx.charsTok, if_pos hc, GoRes.ok_bind]
  | enter n as ts us hn _ ih =>
    intro st hc
    have hc := hc (fun e => nomatch e)
    simp only [Xlsx.sheetLoop]
    by_cases e : n = lit "c"
    · cases Xlsx.sheetTok ext d links (.start n as) st with
      | ok st' => exact ih st' (fun h => absurd (by rw [e]) h)
      | err e => rfl
      | panic => rfl
    · have hsi := hn.resolve_left e
      subst hsi
      have : Xlsx.sheetTok ext d links (.start (lit "si") as) st = .ok st := by
        simp only [Xlsx.sheetTok]
        rw [if_neg (by decide +kernel), if_neg (by decide +kernel), if_neg (by decide +kernel), if_neg (by decide +kernel)]
      rw [this]
      exact ih st (fun _ => hc)
  | leave n ts us _ ih =>
    intro st hc
    simp only [Xlsx.sheetLoop, Xlsx.sheetTok, GoRes.ok_bind]
    by_cases e : n = lit "c"
    · rw [if_pos e]
      exact ih _ (fun _ => rfl)
    · rw [if_neg e]
      exact ih st (fun _ => hc (fun h => e (Option.some.inj h)))
  | same w t ts us ht _ ih =>
    intro st hc
    simp only [Xlsx.sheetLoop]
    cases hs : Xlsx.sheetTok ext d links t st with
    | ok st' => exact ih st' (fun h => tok_cell ht hs (hc h))
    | err e => rfl
    | panic => rfl

theorem alike {ts us : List Xlsx.Tok} (h : Indented none ts us) : AlikeToks ts us :=
  ⟨fun dir => rels dir h, fun r => workbook r h, fun mk => styles mk h, fun out => strings h [] [] out (fun _ => rfl), link h,
    fun ext d links st hc => sheet ext d links h st (fun _ => hc)⟩

theorem alikePart {x y : Except GoErr Xlsx.Part} (h : IndentedPart x y) : AlikePart x y := by
  cases h with
  | part ts us e h => exact .part ts us e (alike h)
  | same x => exact (SamePart.refl x).alike

theorem text_part (T : Xlsx.XmlTables) {x y : Except GoErr (Bytes × GoErr)} (h : IndentedText x y) :
    IndentedPart (x.map (fun c => Xlsx.xmlPart T c.1 c.2)) (y.map (fun c => Xlsx.xmlPart T c.1 c.2)) := by
  cases h with
  | same x => exact .same _
  | text ts us bs bs' h1 h2 h3 =>
    simp only [Except.map, Xlsx.xmlPart_text T h1, Xlsx.xmlPart_text T h2]
    exact .part ts us .eof h3

/-! ### Cells -/

theorem spoilt {ext : Ext} {strings : List Bytes} {ws : Bytes} {t : Option Bytes} {v : GoVal} (hw : Blank ws)
    (h : SpoiltBy ext strings ws t v) : Xlsx.cellValue ext strings (Xlsx.typeText t) ws = .ok (some v) ∧ Supported v := by
  obtain ⟨hne, hb⟩ := hw
  obtain ⟨b, rest, rfl⟩ := List.exists_cons_of_ne_nil hne
  have hb := hb b List.mem_cons_self
  cases h with
  | number t x e ht hp => exact Xlsx.cellValue_spec (.notNumber t _ x e ht hp)
  | bool => exact Xlsx.cellValue_spec (.false b rest (by rcases hb with rfl | rfl | rfl | rfl <;> decide))
  | text t ht => exact Xlsx.cellValue_spec (.text t _ ht)
  | shared s hs =>
    have e0 : (parseInt 64 (b :: rest)).1 = 0 := Xlsx.parseInt_other (.inr ⟨b, rest, rfl, by
      rcases hb with rfl | rfl | rfl | rfl <;> unfold IsDig <;> decide, by rcases hb with rfl | rfl | rfl | rfl <;> decide,
      by rcases hb with rfl | rfl | rfl | rfl <;> decide⟩)
    have ty : Xlsx.typeText (some (lit "s")) = lit "s" := by decide +kernel
    refine ⟨?_, by trivial⟩
    unfold Xlsx.cellValue
    rw [ty, if_neg (by decide +kernel), if_neg (by decide +kernel), if_pos rfl, e0]
    cases strings with
    | nil => cases hs
    | cons s0 ss =>
      cases hs
      rfl

/-- A text in a cell. -/
theorem chars_step (ext : Ext) (d : Xlsx.Doc) (links : Bytes → Bytes) {t : Option Bytes} {s ref : Bytes} {v : GoVal} {r c : Nat}
    (hv : Xlsx.cellValue ext d.strings (Xlsx.typeText t) s = .ok (some v)) (hsup : Supported v) (hr : A1 c r ref)
    (h1 : r < maxIndex) (h2 : c < maxIndex) (st : Xlsx.WsSt) (hc : st.cell = ref) (ht : st.typ = Xlsx.typeText t)
    (hi : SheetInv st.sheet) :
    ∃ s', Xlsx.sheetTok ext d links (.chars s) st = .ok { st with sheet := s' } ∧
      Xls.Upd ext st.sheet s' [⟨r, c, .value v st.fno⟩] := by
  obtain ⟨s1, hp, u1⟩ := Xls.put_upd ext hi r c hsup st.fno
  refine ⟨s1, ?_, u1⟩
  unfold Xlsx.sheetTok Xlsx.charsTok
  simp only
  rw [hc, if_neg (Xlsx.a1_ne_nil hr), Xlsx.a1_index hr h1 h2, GoRes.ok_bind]
  simp only
  rw [if_pos (by omega), ht, hv, GoRes.ok_bind]
  simp only
  rw [hp]
  rfl

/-- A worksheet with one cell, with another text after its value or without. -/
theorem oneCell (ext : Ext) (a : Xlsx.Archive) (d : Xlsx.Doc) (n : Bytes) {attrs : List (Bytes × Bytes)} {r c k : Nat} {ref : Bytes}
    {t : Option Bytes} {s : Bytes} {v : GoVal} (hd : Distinct attrs) (hr : Has attrs "r" ref) (ha : A1 c r ref) (h1 : r < maxIndex)
    (h2 : c < maxIndex) (hk : NumAttr attrs "s" 0 k) (hk' : k < 2 ^ 63) (ht : CellType? attrs t)
    (hv : Xlsx.cellValue ext d.strings (Xlsx.typeText t) s = .ok (some v)) (hsup : Supported v) (more : Option (Bytes × GoVal))
    (hm : ∀ x ∈ more, Xlsx.cellValue ext d.strings (Xlsx.typeText t) x.1 = .ok (some x.2) ∧ Supported x.2)
    (h : Xlsx.openXML a n = .ok ⟨.start (lit "c") attrs :: .start (lit "v") [] :: .chars s :: .stop (lit "v") ::
      ((more.toList.map (fun x => Xlsx.Tok.chars x.1)) ++ [.stop (lit "c")]), .eof⟩) :
    ∃ sh y, Xlsx.parseSheet ext a d n = .ok (sh, none) ∧ sh.cell? r c = some y ∧
      Builds ext d.fmt ((more.map (·.2)).getD v) (styleFormat d.xfs k) y := by
  have c1 : ∀ links, Xlsx.sheetTok ext d links (.start (lit "c") attrs) ⟨[], [], 0, 0, 0, Sheet.new d.fmt⟩ =
      .ok ⟨Xlsx.typeText t, ref, styleFormat d.xfs k, 0, 0, Sheet.new d.fmt⟩ := by
    intro links
    simp only [Xlsx.sheetTok]
    rw [if_neg (by decide +kernel), Xlsx.cElem_spec d hd hr hk hk' ht]
    rfl
  have c2 : ∀ links st, Xlsx.sheetTok ext d links (.start (lit "v") []) st = .ok st := by
    intro links st
    simp only [Xlsx.sheetTok]
    rw [if_neg (by decide +kernel), if_neg (by decide +kernel), if_neg (by decide +kernel), if_neg (by decide +kernel)]
  have c3 : ∀ links st, Xlsx.sheetTok ext d links (.stop (lit "v")) st = .ok st := by
    intro links st
    simp only [Xlsx.sheetTok]
    rw [if_neg (by decide +kernel)]
  obtain ⟨s1, e1, u1⟩ := chars_step ext d (Xlsx.linkMap a n) hv hsup ha h1 h2
    ⟨Xlsx.typeText t, ref, styleFormat d.xfs k, 0, 0, Sheet.new d.fmt⟩ rfl rfl (inv_new _)
  have hf : ∀ ws s', Xls.Upd ext (Sheet.new d.fmt) s' ws → Holds ext d.fmt ws s' := fun ws s' u =>
    holds_of_upd rfl (Xls.allBlank_new _) rfl u
  have hl : Xlsx.parseSheet ext a d n = (do
      let st ← Xlsx.sheetLoop ext d (Xlsx.linkMap a n) ((more.toList.map (fun x => Xlsx.Tok.chars x.1)) ++ [.stop (lit "c")])
        ⟨Xlsx.typeText t, ref, styleFormat d.xfs k, 0, 0, s1⟩
      pure (st.sheet, none)) := by
    unfold Xlsx.parseSheet
    rw [h]
    simp only
    rw [Xlsx.sheetLoop_step _ _ _ _ _ _ _ (c1 _), Xlsx.sheetLoop_step _ _ _ _ _ _ _ (c2 _ _), Xlsx.sheetLoop_step _ _ _ _ _ _ _ e1,
      Xlsx.sheetLoop_step _ _ _ _ _ _ _ (c3 _ _)]
    rfl
  rw [hl]
  cases more with
  | none =>
    obtain ⟨y, g1, g2⟩ := (hf _ _ u1).written r c (.value v (styleFormat d.xfs k)) (by simp [lastAt])
    exact ⟨s1, y, rfl, g2, g1⟩
  | some x =>
    obtain ⟨m1, m2⟩ := hm x rfl
    obtain ⟨s2, e2, u2⟩ := chars_step ext d (Xlsx.linkMap a n) m1 m2 ha h1 h2
      ⟨Xlsx.typeText t, ref, styleFormat d.xfs k, 0, 0, s1⟩ rfl rfl (u1.inv (inv_new _))
    obtain ⟨y, g1, g2⟩ := (hf _ _ (u1.trans u2)).written r c (.value x.2 (styleFormat d.xfs k)) (by simp [lastAt])
    refine ⟨s2, y, ?_, g2, g1⟩
    simp only [Option.toList_some, List.map_cons, List.map_nil, List.cons_append, List.nil_append]
    rw [Xlsx.sheetLoop_step _ _ _ _ _ _ _ e2]
    rfl

end Indent

/-! ### C147 -/

/-- **C147 (opener, partial).** Two archives whose parts differ only in indentation outside the elements `c` and `si` open alike.
Missing is indentation inside these elements, where it is false (`C147_cell_counterexample`, `C147_string_counterexample`). -/
theorem C147_opener_partial (w : World) (ext : Ext) (fn fn' file file' : Bytes) (hf : w.files fn = .ok file)
    (hf' : w.files fn' = .ok file') (a b : Xlsx.Archive) (hz : w.zip file = .ok a) (hz' : w.zip file' = .ok b)
    (ho : ∀ l, (w.order l).Perm l) (h : List.Forall₂ (fun x y => x.1 = y.1 ∧ IndentedPart x.2 y.2) a b) :
    OpenAlike ext (xlsxOpen w fn) (xlsxOpen w fn') :=
  opener_agree w ext fn fn' file file' hf hf' a b hz hz' ho (fun n _ =>
    openXML_forall₂ (h.imp (fun _ _ hxy => ⟨hxy.1, Indent.alikePart hxy.2⟩)) n)

/-- **C147 (Open, partial).** In a program with all formats. -/
theorem C147_open_partial (w : World) (ext : Ext) (fn fn' file file' : Bytes) (hf : w.files fn = .ok file)
    (hf' : w.files fn' = .ok file') (hn : NotCompound file) (hn' : NotCompound file') (a b : Xlsx.Archive)
    (hz : w.zip file = .ok a) (hz' : w.zip file' = .ok b) (ho : ∀ l, (w.order l).Perm l)
    (h : List.Forall₂ (fun x y => x.1 = y.1 ∧ IndentedPart x.2 y.2) a b)
    (d : Xlsx.Doc) (t : List (Grate.Entry Source)) (ht : Shipped w t) (hop : openSrc t fn = .ok (.xlsx a d)) :
    ∃ src', openSrc t fn' = .ok src' ∧ src'.list = (Source.xlsx a d).list ∧
      ∀ p : Client, p.run ext src' = p.run ext (.xlsx a d) :=
  open_agree w ext fn fn' file file' hf hf' hn hn' (C147_opener_partial w ext fn fn' file file' hf hf' a b hz hz' ho h) a d t ht hop

/-- **C147 (files, partial).** For the bytes of the parts. -/
theorem C147_file_partial (w : World) (ext : Ext) (T : Xlsx.XmlTables) (fn fn' file file' : Bytes) (hf : w.files fn = .ok file)
    (hf' : w.files fn' = .ok file') (hn : NotCompound file) (hn' : NotCompound file') (z z' : Xlsx.Files)
    (hz : w.zip file = .ok (z.archive T)) (hz' : w.zip file' = .ok (z'.archive T)) (ho : ∀ l, (w.order l).Perm l)
    (h : List.Forall₂ (fun x y => x.1 = y.1 ∧ IndentedText x.2 y.2) z z')
    (d : Xlsx.Doc) (t : List (Grate.Entry Source)) (ht : Shipped w t) (hop : openSrc t fn = .ok (.xlsx (z.archive T) d)) :
    ∃ src', openSrc t fn' = .ok src' ∧ src'.list = (Source.xlsx (z.archive T) d).list ∧
      ∀ p : Client, p.run ext src' = p.run ext (.xlsx (z.archive T) d) := by
  refine C147_open_partial w ext fn fn' file file' hf hf' hn hn' _ _ hz hz' ho ?_ d t ht hop
  unfold Xlsx.Files.archive
  rw [List.forall₂_map_left_iff, List.forall₂_map_right_iff]
  exact h.imp (fun x y hxy => ⟨hxy.1, Indent.text_part T hxy.2⟩)

/-- **C147 (cells).** Inside a cell it is false, for every cell with a value and every white space after the value: the cell has the
value that the white space stands for. A truth value becomes FALSE, a shared string becomes the first one of the table, and
numbers and texts become the white space. -/
theorem C147_cell_counterexample (ext : Ext) (d : Xlsx.Doc) (n : Bytes) (attrs : List (Bytes × Bytes)) (r c k : Nat) (ref : Bytes)
    (t : Option Bytes) (s ws : Bytes) (v v' : GoVal) (hd : Distinct attrs) (hr : Has attrs "r" ref) (ha : A1 c r ref)
    (h1 : r < maxIndex) (h2 : c < maxIndex) (hk : NumAttr attrs "s" 0 k) (hk' : k < 2 ^ 63) (ht : CellType? attrs t)
    (hv : CellMeans ext d.strings t s v) (hw : Blank ws) (hs : SpoiltBy ext d.strings ws t v') :
    (∀ a, Xlsx.openXML a n = .ok ⟨[.start (lit "c") attrs, .start (lit "v") [], .chars s, .stop (lit "v"), .stop (lit "c")],
        .eof⟩ →
      ∃ sh y, Xlsx.parseSheet ext a d n = .ok (sh, none) ∧ sh.cell? r c = some y ∧
        Builds ext d.fmt v (styleFormat d.xfs k) y) ∧
    ∀ a, Xlsx.openXML a n = .ok ⟨[.start (lit "c") attrs, .start (lit "v") [], .chars s, .stop (lit "v"), .chars ws,
        .stop (lit "c")], .eof⟩ →
      ∃ sh y, Xlsx.parseSheet ext a d n = .ok (sh, none) ∧ sh.cell? r c = some y ∧
        Builds ext d.fmt v' (styleFormat d.xfs k) y := by
  obtain ⟨e1, s1⟩ := Xlsx.cellValue_spec hv
  obtain ⟨e2, s2⟩ := Indent.spoilt hw hs
  exact ⟨fun a h => Indent.oneCell ext a d n hd hr ha h1 h2 hk hk' ht e1 s1 none (fun x hx => nomatch hx) h,
    fun a h => Indent.oneCell ext a d n hd hr ha h1 h2 hk hk' ht e1 s1 (some (ws, v')) (fun x hx => by cases hx; exact ⟨e2, s2⟩) h⟩

/-- **C147 (strings).** Inside an entry of the table of strings it is false as well: the white space becomes part of the string. -/
theorem C147_string_counterexample (x ws ws' : Bytes) (out : List Bytes) :
    Xlsx.parseSharedStrings ⟨[.start (lit "si") [], .start (lit "t") [], .chars x, .stop (lit "t"), .stop (lit "si")], .eof⟩ out =
      .ok (out ++ [x]) ∧
    Xlsx.parseSharedStrings ⟨[.start (lit "si") [], .chars ws, .start (lit "t") [], .chars x, .stop (lit "t"), .chars ws',
      .stop (lit "si")], .eof⟩ out = .ok (out ++ [ws ++ x ++ ws']) := by
  have h : lit "t" ≠ lit "si" := by decide +kernel
  constructor <;> simp [Xlsx.parseSharedStrings, Xlsx.stringsLoop, Xlsx.finish, Xlsx.finErr, h]

/-! ### Witnesses -/

/-- A line end before every token outside cells and entries. -/
def indent : Option Bytes → List Xlsx.Tok → List Xlsx.Tok
  | _, [] => []
  | none, .start n as :: ts =>
    .chars (lit "\n") :: .start n as :: indent (if n = lit "c" ∨ n = lit "si" then some n else none) ts
  | some m, .stop n :: ts => .stop n :: indent (if n = m then none else some m) ts
  | none, t :: ts => .chars (lit "\n") :: t :: indent none ts
  | some m, t :: ts => t :: indent (some m) ts

/-- Whether cells and entries are not nested. -/
def tidy : Option Bytes → List Xlsx.Tok → Bool
  | _, [] => true
  | none, .start n _ :: ts => tidy (if n = lit "c" ∨ n = lit "si" then some n else none) ts
  | none, .stop n :: ts => decide (¬ (n = lit "c" ∨ n = lit "si")) && tidy none ts
  | some m, .start n _ :: ts => decide (¬ (n = lit "c" ∨ n = lit "si")) && tidy (some m) ts
  | some m, .stop n :: ts => if n = m then tidy none ts else decide (¬ (n = lit "c" ∨ n = lit "si")) && tidy (some m) ts
  | w, _ :: ts => tidy w ts

theorem indent_tidy : ∀ (ts : List Xlsx.Tok) (w : Option Bytes), tidy w ts = true → Indented w ts (indent w ts) := by
  intro ts
  induction ts with
  | nil => intro w _; cases w <;> exact .nil _
  | cons t ts ih =>
    intro w h
    cases w with
    | none =>
      cases t with
      | start n as =>
        by_cases hn : n = lit "c" ∨ n = lit "si"
        · simp only [tidy, if_pos hn] at h
          simp only [indent, if_pos hn]
          exact .right _ _ _ (.enter n as _ _ hn (ih _ h))
        · simp only [tidy, if_neg hn] at h
          simp only [indent, if_neg hn]
          exact .right _ _ _ (.same _ _ _ _ hn (ih _ h))
      | stop n =>
        simp only [tidy, Bool.and_eq_true, decide_eq_true_eq] at h
        exact .right _ _ _ (.same _ _ _ _ h.1 (ih _ h.2))
      | chars v => exact .right _ _ _ (.same _ _ _ _ id (ih _ h))
      | other => exact .right _ _ _ (.same _ _ _ _ id (ih _ h))
    | some m =>
      cases t with
      | start n as =>
        simp only [tidy, Bool.and_eq_true, decide_eq_true_eq] at h
        exact .same _ _ _ _ h.1 (ih _ h.2)
      | stop n =>
        by_cases e : n = m
        · subst e
          simp only [tidy] at h
          simp only [indent]
          exact .leave _ _ _ (ih _ h)
        · simp only [tidy, if_neg e, Bool.and_eq_true, decide_eq_true_eq] at h
          simp only [indent, if_neg e]
          exact .same _ _ _ _ h.1 (ih _ h.2)
      | chars v => exact .same _ _ _ _ id (ih _ h)
      | other => exact .same _ _ _ _ id (ih _ h)

/-- The archive of C61 with its parts indented. -/
def exIndented : Xlsx.Archive := exZip.map (fun e => (e.1, e.2.map (fun p => ⟨indent none p.toks, p.fin⟩)))

/-- The hypotheses of C147 are met by the archive of C61 and the one with its parts indented, and those about cells by a truth
value: TRUE becomes FALSE. -/
theorem C147_witness (p : Crypto.Prims) (ext : Ext) (t : List (Grate.Entry Source)) (ht : Shipped (otherWorld p exIndented) t) :
    List.Forall₂ (fun x y => x.1 = y.1 ∧ IndentedPart x.2 y.2) exZip exIndented ∧
    Xlsx.openXML exIndented (lit "xl/worksheets/sheet1.xml") ≠ Xlsx.openXML exZip (lit "xl/worksheets/sheet1.xml") ∧
    (∃ d, openSrc t (lit "a.xlsx") = .ok (.xlsx exZip d) ∧ d.list = [lit "one", lit "two"]) ∧
    Distinct [(lit "r", lit "A1"), (lit "t", lit "b")] ∧ Has [(lit "r", lit "A1"), (lit "t", lit "b")] "r" (lit "A1") ∧
    NumAttr [(lit "r", lit "A1"), (lit "t", lit "b")] "s" 0 0 ∧
    CellType? [(lit "r", lit "A1"), (lit "t", lit "b")] (some (lit "b")) ∧
    CellMeans ext [] (some (lit "b")) (lit "1") (.bool true) ∧ Blank (lit "\n  ") ∧
    SpoiltBy ext [] (lit "\n  ") (some (lit "b")) (.bool false) := by
  refine ⟨?_, ?_, otherWorld_open p _ t ht, by unfold Distinct; decide +kernel, by unfold Has; decide +kernel,
    .inl ⟨fun v hv => ?_, rfl⟩, .inr ⟨_, by unfold Has; decide +kernel, rfl⟩, .true [],
    ⟨by decide +kernel, by decide +kernel⟩, .bool⟩
  rotate_left 2
  · have := List.mem_map_of_mem (f := Prod.fst) hv
    revert this
    simp only [List.map_cons, List.map_nil]
    decide +kernel
  · unfold exIndented
    rw [List.forall₂_map_right_iff, List.forall₂_same]
    intro e he
    refine ⟨rfl, ?_⟩
    have key : exZip.all (fun e => match e.2 with
        | .ok p => tidy none p.toks
        | .error _ => true) = true := by decide +kernel
    have hk := List.all_eq_true.1 key e he
    obtain ⟨n, x⟩ := e
    cases x with
    | error e => exact .same _
    | ok p => exact .part _ _ _ (indent_tidy _ _ hk)
  · have e1 : Xlsx.openXML exIndented (lit "xl/worksheets/sheet1.xml") =
        .ok ⟨indent none (exSheetCells.flatMap ACell.toks), .eof⟩ := rfl
    have e2 : Xlsx.openXML exZip (lit "xl/worksheets/sheet1.xml") = .ok ⟨exSheetCells.flatMap ACell.toks, .eof⟩ := rfl
    rw [e1, e2]
    intro h
    simp only [Except.ok.injEq, Xlsx.Part.mk.injEq, and_true] at h
    simp [indent, exSheetCells, ACell.toks] at h

end Grate.Props
