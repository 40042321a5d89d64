import Verif.Props.Indent

/-! # C148: layout and settings in the parts of an xlsx file

Column widths, heights of rows, views, filters, fonts, colours, print settings and everything else that is not one of a few
elements with a few attributes does not matter. -/

namespace Grate.Props

open Grate Grate.Spec Grate.Api

/-! ### Specification -/

/-- The elements with a meaning for names, values, number formats, merged regions and links. -/
def readElems : List Bytes :=
  [lit "Relationship", lit "sheet", lit "numFmt", lit "cellStyleXfs", lit "cellXfs", lit "xf", lit "si", lit "dimension", lit "c",
    lit "mergeCell", lit "hyperlink"]

/-- Their attributes with a meaning. -/
def readAttrs : List Bytes :=
  [lit "Id", lit "Type", lit "Target", lit "TargetMode", lit "id", lit "name", lit "numFmtId", lit "formatCode", lit "count",
    lit "xfId", lit "applyNumberFormat", lit "ref", lit "r", lit "t", lit "s"]

/-- The same attributes as far as they have a meaning. -/
def SameRead (as bs : List (Bytes × Bytes)) : Prop :=
  as.filter (fun a => decide (a.1 ∈ readAttrs)) = bs.filter (fun a => decide (a.1 ∈ readAttrs))

/-- The beginnings and ends of all other elements, comments and instructions; and text, outside the elements `c` and `si`. -/
def Layout (w : Option Bytes) : Xlsx.Tok → Prop
  | .start n _ => n ∉ readElems
  | .stop n => n ∉ readElems
  | .chars _ => w = none
  | .other => True

/-- The same tokens up to layout and settings. The first argument says in which of the elements `c` and `si` the tokens begin, if
in any. -/
inductive Adorned : Option Bytes → List Xlsx.Tok → List Xlsx.Tok → Prop where
  | nil (w : Option Bytes) : Adorned w [] []
  | left (w : Option Bytes) (t : Xlsx.Tok) (ts us : List Xlsx.Tok) : Layout w t → Adorned w ts us → Adorned w (t :: ts) us
  | right (w : Option Bytes) (t : Xlsx.Tok) (ts us : List Xlsx.Tok) : Layout w t → Adorned w ts us → Adorned w ts (t :: us)
  | enter (n : Bytes) (as bs : List (Bytes × Bytes)) (ts us : List Xlsx.Tok) : n = lit "c" ∨ n = lit "si" → SameRead as bs →
    Adorned (some n) ts us → Adorned none (.start n as :: ts) (.start n bs :: us)
  | leave (n : Bytes) (ts us : List Xlsx.Tok) : Adorned none ts us → Adorned (some n) (.stop n :: ts) (.stop n :: us)
  | start (w : Option Bytes) (n : Bytes) (as bs : List (Bytes × Bytes)) (ts us : List Xlsx.Tok) : ¬ (n = lit "c" ∨ n = lit "si") →
    SameRead as bs → Adorned w ts us → Adorned w (.start n as :: ts) (.start n bs :: us)
  | same (w : Option Bytes) (t : Xlsx.Tok) (ts us : List Xlsx.Tok) : ¬ Bound t → Adorned w ts us → Adorned w (t :: ts) (t :: us)

/-- The same part up to layout and settings; or exactly the same. -/
inductive AdornedPart : Except GoErr Xlsx.Part → Except GoErr Xlsx.Part → Prop where
  | part (ts us : List Xlsx.Tok) (e : GoErr) : Adorned none ts us → AdornedPart (.ok ⟨ts, e⟩) (.ok ⟨us, e⟩)
  | same (x : Except GoErr Xlsx.Part) : AdornedPart x x

/-- The same texts of parts up to layout and settings. -/
inductive AdornedText : Except GoErr (Bytes × GoErr) → Except GoErr (Bytes × GoErr) → Prop where
  | text (ts us : List Xlsx.Tok) (bs bs' : Bytes) : XmlText ts bs → XmlText us bs' → Adorned none ts us →
    AdornedText (.ok (bs, .eof)) (.ok (bs', .eof))
  | same (x : Except GoErr (Bytes × GoErr)) : AdornedText x x

/-! ### Attributes -/

namespace Adorn

theorem fold_read {β : Type} (f : Bytes → β) {k : Bytes} (hk : k ∈ readAttrs) : ∀ (as : List (Bytes × Bytes)) (z : β),
    as.foldl (fun res a => if a.1 = k then f a.2 else res) z =
      (as.filter (fun a => decide (a.1 ∈ readAttrs))).foldl (fun res a => if a.1 = k then f a.2 else res) z := by
  intro as
  induction as with
  | nil => intro _; rfl
  | cons a as ih =>
    intro z
    by_cases h : a.1 ∈ readAttrs
    · rw [List.filter_cons_of_pos (by simp [h]), List.foldl_cons, List.foldl_cons, ih]
    · have hne : a.1 ≠ k := fun e => h (e ▸ hk)
      rw [List.filter_cons_of_neg (by simp [h]), List.foldl_cons, if_neg hne, ih]

theorem attr_read {as bs : List (Bytes × Bytes)} (h : SameRead as bs) {k : Bytes} (hk : k ∈ readAttrs) :
    Xlsx.attr as k = Xlsx.attr bs k := by
  have e1 := fold_read id hk as []
  have e2 := fold_read id hk bs []
  rw [h] at e1
  exact e1.trans e2.symm

theorem attr?_read {as bs : List (Bytes × Bytes)} (h : SameRead as bs) {k : Bytes} (hk : k ∈ readAttrs) :
    Xlsx.attr? as k = Xlsx.attr? bs k := by
  have e1 := fold_read some hk as none
  have e2 := fold_read some hk bs none
  rw [h] at e1
  exact e1.trans e2.symm

theorem rel_elem {as bs : List (Bytes × Bytes)} (h : SameRead as bs) (dir : Bytes) (st : Xlsx.RelSt) :
    Xlsx.relElem dir as st = Xlsx.relElem dir bs st := by
  simp only [Xlsx.relElem, attr_read h (k := lit "Type") (by decide +kernel), attr_read h (k := lit "Target") (by decide +kernel),
    attr_read h (k := lit "Id") (by decide +kernel)]

theorem style_elem {as bs : List (Bytes × Bytes)} (h : SameRead as bs) (mk : Bytes → Fmt × CellType) (n : Bytes) (st : Xlsx.StyleSt) :
    Xlsx.styleElem mk n as st = Xlsx.styleElem mk n bs st := by
  simp only [Xlsx.styleElem, Xlsx.xfElem, attr_read h (k := lit "numFmtId") (by decide +kernel),
    attr_read h (k := lit "formatCode") (by decide +kernel), attr_read h (k := lit "count") (by decide +kernel),
    attr_read h (k := lit "xfId") (by decide +kernel), attr_read h (k := lit "applyNumberFormat") (by decide +kernel)]

theorem sheet_elem {as bs : List (Bytes × Bytes)} (h : SameRead as bs) (ext : Ext) (d : Xlsx.Doc) (links : Bytes → Bytes) (n : Bytes)
    (st : Xlsx.WsSt) : Xlsx.sheetTok ext d links (.start n as) st = Xlsx.sheetTok ext d links (.start n bs) st := by
  simp only [Xlsx.sheetTok, Xlsx.dimElem, Xlsx.cElem, Xlsx.mergeElem, Xlsx.linkElem, attr_read h (k := lit "ref") (by decide +kernel),
    attr_read h (k := lit "t") (by decide +kernel), attr_read h (k := lit "s") (by decide +kernel),
    attr_read h (k := lit "r") (by decide +kernel), attr_read h (k := lit "id") (by decide +kernel)]

/-! ### The readers -/

theorem not_read {n m : Bytes} (h : n ∉ readElems) (hm : m ∈ readElems) : n ≠ m := fun e => h (e ▸ hm)

theorem rels_start {as bs : List (Bytes × Bytes)} (h : SameRead as bs) (dir n : Bytes) {ts us : List Xlsx.Tok}
    (ih : ∀ st, Xlsx.relsLoop dir ts st = Xlsx.relsLoop dir us st) (st : Xlsx.RelSt) :
    Xlsx.relsLoop dir (.start n as :: ts) st = Xlsx.relsLoop dir (.start n bs :: us) st := by
  simp only [Xlsx.relsLoop, rel_elem h, ih]

theorem rels_skip {w : Option Bytes} {t : Xlsx.Tok} (h : Layout w t) (dir : Bytes) (ts : List Xlsx.Tok) (st : Xlsx.RelSt) :
    Xlsx.relsLoop dir (t :: ts) st = Xlsx.relsLoop dir ts st := by
  cases t with
  | start n as => simp only [Xlsx.relsLoop, if_neg (not_read h (by decide +kernel : lit "Relationship" ∈ readElems))]
  | stop n => rfl
  | chars v => rfl
  | other => rfl

theorem rels {w : Option Bytes} {ts us : List Xlsx.Tok} (dir : Bytes) (h : Adorned w ts us) : ∀ st,
    Xlsx.relsLoop dir ts st = Xlsx.relsLoop dir us st := by
  induction h with
  | nil => intro _; rfl
  | left w t ts us ht _ ih => intro st; rw [rels_skip ht, ih]
  | right w t ts us ht _ ih => intro st; rw [rels_skip ht, ih]
  | enter n as bs ts us _ hs _ ih => exact rels_start hs dir n ih
  | leave n ts us _ ih => intro st; simp only [Xlsx.relsLoop, ih]
  | start w n as bs ts us _ hs _ ih => exact rels_start hs dir n ih
  | same w t ts us _ _ ih => intro st; cases t <;> simp only [Xlsx.relsLoop, ih]

theorem workbook_start {as bs : List (Bytes × Bytes)} (h : SameRead as bs) (rels : Xlsx.Rels) (n : Bytes) {ts us : List Xlsx.Tok}
    (ih : Xlsx.workbookLoop rels ts = Xlsx.workbookLoop rels us) :
    Xlsx.workbookLoop rels (.start n as :: ts) = Xlsx.workbookLoop rels (.start n bs :: us) := by
  simp only [Xlsx.workbookLoop, attr?_read h (k := lit "id") (by decide +kernel), attr?_read h (k := lit "name") (by decide +kernel), ih]

theorem workbook_skip {w : Option Bytes} {t : Xlsx.Tok} (h : Layout w t) (rels : Xlsx.Rels) (ts : List Xlsx.Tok) :
    Xlsx.workbookLoop rels (t :: ts) = Xlsx.workbookLoop rels ts := by
  cases t with
  | start n as => simp only [Xlsx.workbookLoop, if_neg (not_read h (by decide +kernel : lit "sheet" ∈ readElems))]
  | stop n => rfl
  | chars v => rfl
  | other => rfl

theorem workbook {w : Option Bytes} {ts us : List Xlsx.Tok} (rels : Xlsx.Rels) (h : Adorned w ts us) :
    Xlsx.workbookLoop rels ts = Xlsx.workbookLoop rels us := by
  induction h with
  | nil => rfl
  | left w t ts us ht _ ih => rw [workbook_skip ht, ih]
  | right w t ts us ht _ ih => rw [workbook_skip ht, ih]
  | enter n as bs ts us _ hs _ ih => exact workbook_start hs rels n ih
  | leave n ts us _ ih => simp only [Xlsx.workbookLoop, ih]
  | start w n as bs ts us _ hs _ ih => exact workbook_start hs rels n ih
  | same w t ts us _ _ ih => cases t <;> simp only [Xlsx.workbookLoop, ih]

theorem styles_start {as bs : List (Bytes × Bytes)} (h : SameRead as bs) (mk : Bytes → Fmt × CellType) (n : Bytes)
    {ts us : List Xlsx.Tok} (ih : ∀ st, Xlsx.stylesLoop mk ts st = Xlsx.stylesLoop mk us st) (st : Xlsx.StyleSt) :
    Xlsx.stylesLoop mk (.start n as :: ts) st = Xlsx.stylesLoop mk (.start n bs :: us) st := by
  simp only [Xlsx.stylesLoop, style_elem h, ih]

theorem styles_skip {w : Option Bytes} {t : Xlsx.Tok} (h : Layout w t) (mk : Bytes → Fmt × CellType) (ts : List Xlsx.Tok)
    (st : Xlsx.StyleSt) : Xlsx.stylesLoop mk (t :: ts) st = Xlsx.stylesLoop mk ts st := by
  cases t with
  | start n as =>
    simp only [Xlsx.stylesLoop, Xlsx.styleElem, if_neg (not_read h (by decide +kernel : lit "numFmt" ∈ readElems)),
      if_neg (not_read h (by decide +kernel : lit "cellStyleXfs" ∈ readElems)),
      if_neg (not_read h (by decide +kernel : lit "cellXfs" ∈ readElems)),
      if_neg (not_read h (by decide +kernel : lit "xf" ∈ readElems)), GoRes.ok_bind]
  | stop n =>
    have : ¬ (n = lit "cellStyleXfs" ∨ n = lit "cellXfs") := fun e =>
      e.elim (not_read h (by decide +kernel)) (not_read h (by decide +kernel))
    simp only [Xlsx.stylesLoop, if_neg this]
  | chars v => rfl
  | other => rfl

theorem styles {w : Option Bytes} {ts us : List Xlsx.Tok} (mk : Bytes → Fmt × CellType) (h : Adorned w ts us) : ∀ st,
    Xlsx.stylesLoop mk ts st = Xlsx.stylesLoop mk us st := by
  induction h with
  | nil => intro _; rfl
  | left w t ts us ht _ ih => intro st; rw [styles_skip ht, ih]
  | right w t ts us ht _ ih => intro st; rw [styles_skip ht, ih]
  | enter n as bs ts us _ hs _ ih => exact styles_start hs mk n ih
  | leave n ts us _ ih => intro st; simp only [Xlsx.stylesLoop, ih]
  | start w n as bs ts us _ hs _ ih => exact styles_start hs mk n ih
  | same w t ts us _ _ ih => intro st; cases t <;> simp only [Xlsx.stylesLoop, ih]

theorem link_start {as bs : List (Bytes × Bytes)} (h : SameRead as bs) (n : Bytes) {ts us : List Xlsx.Tok}
    (ih : ∀ m, Xlsx.linkLoop ts m = Xlsx.linkLoop us m) (m : Bytes → Bytes) :
    Xlsx.linkLoop (.start n as :: ts) m = Xlsx.linkLoop (.start n bs :: us) m := by
  simp only [Xlsx.linkLoop, attr_read h (k := lit "TargetMode") (by decide +kernel), attr_read h (k := lit "Type") (by decide +kernel),
    attr_read h (k := lit "Id") (by decide +kernel), attr_read h (k := lit "Target") (by decide +kernel), ih]

theorem link_skip {w : Option Bytes} {t : Xlsx.Tok} (h : Layout w t) (ts : List Xlsx.Tok) (m : Bytes → Bytes) :
    Xlsx.linkLoop (t :: ts) m = Xlsx.linkLoop ts m := by
  cases t with
  | start n as =>
    have : n ≠ lit "Relationship" := not_read h (by decide +kernel)
    simp only [Xlsx.linkLoop, this, false_and, if_false]
  | stop n => rfl
  | chars v => rfl
  | other => rfl

theorem link {w : Option Bytes} {ts us : List Xlsx.Tok} (h : Adorned w ts us) : ∀ m,
    Xlsx.linkLoop ts m = Xlsx.linkLoop us m := by
  induction h with
  | nil => intro _; rfl
  | left w t ts us ht _ ih => intro m; rw [link_skip ht, ih]
  | right w t ts us ht _ ih => intro m; rw [link_skip ht, ih]
  | enter n as bs ts us _ hs _ ih => exact link_start hs n ih
  | leave n ts us _ ih => intro m; simp only [Xlsx.linkLoop, ih]
  | start w n as bs ts us _ hs _ ih => exact link_start hs n ih
  | same w t ts us _ _ ih => intro m; cases t <;> simp only [Xlsx.linkLoop, ih]

/-- A token of the layout changes what is collected only outside of entries. -/
theorem strings_skip {w : Option Bytes} {t : Xlsx.Tok} (h : Layout w t) (ts : List Xlsx.Tok) (v : Bytes) (out : List Bytes) :
    ∃ v', Xlsx.stringsLoop (t :: ts) v out = Xlsx.stringsLoop ts v' out ∧ (w = some (lit "si") → v' = v) := by
  cases t with
  | start n as =>
    exact ⟨v, by simp only [Xlsx.stringsLoop, if_neg (not_read h (by decide +kernel : lit "si" ∈ readElems))], fun _ => rfl⟩
  | stop n =>
    exact ⟨v, by simp only [Xlsx.stringsLoop, if_neg (not_read h (by decide +kernel : lit "si" ∈ readElems))], fun _ => rfl⟩
  | chars x => exact ⟨v ++ x, rfl, fun e => by rw [show w = none from h] at e; cases e⟩
  | other => exact ⟨v, rfl, fun _ => rfl⟩

theorem strings {w : Option Bytes} {ts us : List Xlsx.Tok} (h : Adorned w ts us) : ∀ v v' out, (w = some (lit "si") → v = v') →
    Xlsx.stringsLoop ts v out = Xlsx.stringsLoop us v' out := by
  induction h with
  | nil => intro _ _ _ _; rfl
  | left w t ts us ht _ ih =>
    intro v v' out hv
    obtain ⟨x, e, hx⟩ := strings_skip ht ts v out
    rw [e]
    exact ih _ _ out (fun e => (hx e).trans (hv e))
  | right w t ts us ht _ ih =>
    intro v v' out hv
    obtain ⟨x, e, hx⟩ := strings_skip ht us v' out
    rw [e]
    exact ih _ _ out (fun e => (hv e).trans (hx e).symm)
  | enter n as bs ts us hn _ _ ih =>
    intro v v' out _
    simp only [Xlsx.stringsLoop]
    refine ih _ _ out (fun e => ?_)
    rw [if_pos (Option.some.inj e), if_pos (Option.some.inj e)]
  | leave n ts us _ ih =>
    intro v v' out hv
    simp only [Xlsx.stringsLoop]
    by_cases e : n = lit "si"
    · rw [if_pos e, if_pos e, hv (by rw [e])]
      exact ih _ _ _ (fun e => nomatch e)
    · rw [if_neg e, if_neg e]
      exact ih _ _ _ (fun e => nomatch e)
  | start w n as bs ts us hn _ _ ih =>
    intro v v' out hv
    have : n ≠ lit "si" := fun e => hn (.inr e)
    simp only [Xlsx.stringsLoop, if_neg this]
    exact ih _ _ out hv
  | same w t ts us ht _ ih =>
    intro v v' out hv
    cases t with
    | chars x => exact ih _ _ out (fun e => by rw [hv e])
    | other => exact ih _ _ out hv
    | start n as =>
      have : n ≠ lit "si" := fun e => ht (.inr e)
      simp only [Xlsx.stringsLoop, if_neg this]
      exact ih _ _ out hv
    | stop n =>
      have : n ≠ lit "si" := fun e => ht (.inr e)
      simp only [Xlsx.stringsLoop, if_neg this]
      exact ih _ _ out hv

theorem sheet_skip {w : Option Bytes} {t : Xlsx.Tok} (h : Layout w t) (ext : Ext) (d : Xlsx.Doc) (links : Bytes → Bytes)
    (ts : List Xlsx.Tok) (st : Xlsx.WsSt) (hc : w ≠ some (lit "c") → st.cell = []) :
    Xlsx.sheetLoop ext d links (t :: ts) st = Xlsx.sheetLoop ext d links ts st := by
  refine Xlsx.sheetLoop_step ext d links t ts st st ?_
  cases t with
  | start n as =>
    simp only [Xlsx.sheetTok, if_neg (not_read h (by decide +kernel : lit "dimension" ∈ readElems)),
      if_neg (not_read h (by decide +kernel : lit "c" ∈ readElems)),
      if_neg (not_read h (by decide +kernel : lit "mergeCell" ∈ readElems)),
      if_neg (not_read h (by decide +kernel : lit "hyperlink" ∈ readElems))]
  | stop n => simp only [Xlsx.sheetTok, if_neg (not_read h (by decide +kernel : lit "c" ∈ readElems))]
  | chars v =>
    have hw : w = none := h
    simp only [Xlsx.sheetTok, Xlsx.charsTok, if_pos (hc (by rw [hw]; exact fun e => nomatch e))]
  | other => rfl

theorem sheet {w : Option Bytes} {ts us : List Xlsx.Tok} (ext : Ext) (d : Xlsx.Doc) (links : Bytes → Bytes) (h : Adorned w ts us) :
    ∀ st, (w ≠ some (lit "c") → st.cell = []) → Xlsx.sheetLoop ext d links ts st = Xlsx.sheetLoop ext d links us st := by
  induction h with
  | nil => intro _ _; rfl
  | left w t ts us ht _ ih => intro st hc; rw [sheet_skip ht ext d links ts st hc, ih st hc]
  | right w t ts us ht _ ih => intro st hc; rw [sheet_skip ht ext d links us st hc, ih st hc]
  | enter n as bs ts us hn hs _ ih =>
    intro st hc
    have hc := hc (fun e => nomatch e)
    simp only [Xlsx.sheetLoop]
    rw [sheet_elem hs]
    by_cases e : n = lit "c"
    · cases Xlsx.sheetTok ext d links (.start n bs) st with
      | ok st' => exact ih st' (fun h => absurd (by rw [e]) h)
      | err e => rfl
      | panic => rfl
    · have hsi := hn.resolve_left e
      subst hsi
      have : Xlsx.sheetTok ext d links (.start (lit "si") bs) st = .ok st := by
        simp only [Xlsx.sheetTok]
        rw [if_neg (by decide +kernel), if_neg (by decide +kernel), if_neg (by decide +kernel), if_neg (by decide +kernel)]
      rw [this]
      exact ih st (fun _ => hc)
  | leave n ts us _ ih =>
    intro st hc
    simp only [Xlsx.sheetLoop, Xlsx.sheetTok, GoRes.ok_bind]
    by_cases e : n = lit "c"
    · rw [if_pos e]
      exact ih _ (fun _ => rfl)
    · rw [if_neg e]
      exact ih st (fun _ => hc (fun h => e (Option.some.inj h)))
  | start w n as bs ts us hn hs _ ih =>
    intro st hc
    simp only [Xlsx.sheetLoop]
    rw [sheet_elem hs]
    cases hst : Xlsx.sheetTok ext d links (.start n bs) st with
    | ok st' => exact ih st' (fun h => Indent.tok_cell (t := .start n bs) hn hst (hc h))
    | err e => rfl
    | panic => rfl
  | same w t ts us ht _ ih =>
    intro st hc
    simp only [Xlsx.sheetLoop]
    cases hs : Xlsx.sheetTok ext d links t st with
    | ok st' => exact ih st' (fun h => Indent.tok_cell ht hs (hc h))
    | err e => rfl
    | panic => rfl

theorem alike {ts us : List Xlsx.Tok} (h : Adorned none ts us) : AlikeToks ts us :=
  ⟨fun dir => rels dir h, fun r => workbook r h, fun mk => styles mk h, fun out => strings h [] [] out (fun _ => rfl), link h,
    fun ext d links st hc => sheet ext d links h st (fun _ => hc)⟩

theorem alikePart {x y : Except GoErr Xlsx.Part} (h : AdornedPart x y) : AlikePart x y := by
  cases h with
  | part ts us e h => exact .part ts us e (alike h)
  | same x => exact (SamePart.refl x).alike

theorem text_part (T : Xlsx.XmlTables) {x y : Except GoErr (Bytes × GoErr)} (h : AdornedText x y) :
    AdornedPart (x.map (fun c => Xlsx.xmlPart T c.1 c.2)) (y.map (fun c => Xlsx.xmlPart T c.1 c.2)) := by
  cases h with
  | same x => exact .same _
  | text ts us bs bs' h1 h2 h3 =>
    simp only [Except.map, Xlsx.xmlPart_text T h1, Xlsx.xmlPart_text T h2]
    exact .part ts us .eof h3

end Adorn

/-! ### C148 -/

/-- **C148 (opener).** Two archives whose parts differ only in layout and settings open alike. -/
theorem C148_opener (w : World) (ext : Ext) (fn fn' file file' : Bytes) (hf : w.files fn = .ok file)
    (hf' : w.files fn' = .ok file') (a b : Xlsx.Archive) (hz : w.zip file = .ok a) (hz' : w.zip file' = .ok b)
    (ho : ∀ l, (w.order l).Perm l) (h : List.Forall₂ (fun x y => x.1 = y.1 ∧ AdornedPart x.2 y.2) a b) :
    OpenAlike ext (xlsxOpen w fn) (xlsxOpen w fn') :=
  opener_agree w ext fn fn' file file' hf hf' a b hz hz' ho (fun n _ =>
    openXML_forall₂ (h.imp (fun _ _ hxy => ⟨hxy.1, Adorn.alikePart hxy.2⟩)) n)

/-- **C148 (Open).** In a program with all formats. -/
theorem C148_open (w : World) (ext : Ext) (fn fn' file file' : Bytes) (hf : w.files fn = .ok file)
    (hf' : w.files fn' = .ok file') (hn : NotCompound file) (hn' : NotCompound file') (a b : Xlsx.Archive)
    (hz : w.zip file = .ok a) (hz' : w.zip file' = .ok b) (ho : ∀ l, (w.order l).Perm l)
    (h : List.Forall₂ (fun x y => x.1 = y.1 ∧ AdornedPart x.2 y.2) a b)
    (d : Xlsx.Doc) (t : List (Grate.Entry Source)) (ht : Shipped w t) (hop : openSrc t fn = .ok (.xlsx a d)) :
    ∃ src', openSrc t fn' = .ok src' ∧ src'.list = (Source.xlsx a d).list ∧
      ∀ p : Client, p.run ext src' = p.run ext (.xlsx a d) :=
  open_agree w ext fn fn' file file' hf hf' hn hn' (C148_opener w ext fn fn' file file' hf hf' a b hz hz' ho h) a d t ht hop

/-- **C148 (files).** For the bytes of the parts. -/
theorem C148_file (w : World) (ext : Ext) (T : Xlsx.XmlTables) (fn fn' file file' : Bytes) (hf : w.files fn = .ok file)
    (hf' : w.files fn' = .ok file') (hn : NotCompound file) (hn' : NotCompound file') (z z' : Xlsx.Files)
    (hz : w.zip file = .ok (z.archive T)) (hz' : w.zip file' = .ok (z'.archive T)) (ho : ∀ l, (w.order l).Perm l)
    (h : List.Forall₂ (fun x y => x.1 = y.1 ∧ AdornedText x.2 y.2) z z')
    (d : Xlsx.Doc) (t : List (Grate.Entry Source)) (ht : Shipped w t) (hop : openSrc t fn = .ok (.xlsx (z.archive T) d)) :
    ∃ src', openSrc t fn' = .ok src' ∧ src'.list = (Source.xlsx (z.archive T) d).list ∧
      ∀ p : Client, p.run ext src' = p.run ext (.xlsx (z.archive T) d) := by
  refine C148_open w ext fn fn' file file' hf hf' hn hn' _ _ hz hz' ho ?_ d t ht hop
  unfold Xlsx.Files.archive
  rw [List.forall₂_map_left_iff, List.forall₂_map_right_iff]
  exact h.imp (fun x y hxy => ⟨hxy.1, Adorn.text_part T hxy.2⟩)

/-! ### Witness -/

/-- An empty extension before every token, and a setting for every element. -/
def adorn : List Xlsx.Tok → List Xlsx.Tok
  | [] => []
  | .start n as :: ts =>
    .start (lit "extLst") [] :: .stop (lit "extLst") :: .start n ((lit "customHeight", lit "1") :: as) :: adorn ts
  | t :: ts => .start (lit "extLst") [] :: .stop (lit "extLst") :: t :: adorn ts

theorem ext_layout : lit "extLst" ∉ readElems := by decide +kernel

theorem adorn_front {w : Option Bytes} {ts us : List Xlsx.Tok} (h : Adorned w ts us) :
    Adorned w ts (.start (lit "extLst") [] :: .stop (lit "extLst") :: us) :=
  .right _ _ _ _ ext_layout (.right _ _ _ _ ext_layout h)

theorem adorn_read (as : List (Bytes × Bytes)) : SameRead as ((lit "customHeight", lit "1") :: as) := by
  have : lit "customHeight" ∉ readAttrs := by decide +kernel
  unfold SameRead
  rw [List.filter_cons_of_neg (by simp [this])]

theorem adorn_tidy : ∀ (ts : List Xlsx.Tok) (w : Option Bytes), tidy w ts = true → Adorned w ts (adorn ts) := by
  intro ts
  induction ts with
  | nil => intro w _; exact .nil _
  | cons t ts ih =>
    intro w h
    cases w with
    | none =>
      cases t with
      | start n as =>
        by_cases hn : n = lit "c" ∨ n = lit "si"
        · simp only [tidy, if_pos hn] at h
          exact adorn_front (.enter n as _ _ _ hn (adorn_read as) (ih _ h))
        · simp only [tidy, if_neg hn] at h
          exact adorn_front (.start _ n as _ _ _ hn (adorn_read as) (ih _ h))
      | stop n =>
        simp only [tidy, Bool.and_eq_true, decide_eq_true_eq] at h
        exact adorn_front (.same _ _ _ _ h.1 (ih _ h.2))
      | chars v => exact adorn_front (.same _ _ _ _ id (ih _ h))
      | other => exact adorn_front (.same _ _ _ _ id (ih _ h))
    | some m =>
      cases t with
      | start n as =>
        simp only [tidy, Bool.and_eq_true, decide_eq_true_eq] at h
        exact adorn_front (.start _ n as _ _ _ h.1 (adorn_read as) (ih _ h.2))
      | stop n =>
        by_cases e : n = m
        · subst e
          simp only [tidy] at h
          exact adorn_front (.leave _ _ _ (ih _ h))
        · simp only [tidy, if_neg e, Bool.and_eq_true, decide_eq_true_eq] at h
          exact adorn_front (.same _ _ _ _ h.1 (ih _ h.2))
      | chars v => exact adorn_front (.same _ _ _ _ id (ih _ h))
      | other => exact adorn_front (.same _ _ _ _ id (ih _ h))

/-- The archive of C61 with extensions and settings. -/
def exAdorned : Xlsx.Archive := exZip.map (fun e => (e.1, e.2.map (fun p => ⟨adorn p.toks, p.fin⟩)))

/-- The hypotheses of C148 are met by the archive of C61 and the one with extensions and settings everywhere. -/
theorem C148_witness (p : Crypto.Prims) (t : List (Grate.Entry Source)) (ht : Shipped (otherWorld p exAdorned) t) :
    List.Forall₂ (fun x y => x.1 = y.1 ∧ AdornedPart x.2 y.2) exZip exAdorned ∧
    Xlsx.openXML exAdorned (lit "xl/worksheets/sheet1.xml") ≠ Xlsx.openXML exZip (lit "xl/worksheets/sheet1.xml") ∧
    ∃ d, openSrc t (lit "a.xlsx") = .ok (.xlsx exZip d) ∧ d.list = [lit "one", lit "two"] := by
  refine ⟨?_, ?_, otherWorld_open p _ t ht⟩
  · unfold exAdorned
    rw [List.forall₂_map_right_iff, List.forall₂_same]
    intro e he
    refine ⟨rfl, ?_⟩
    have key : exZip.all (fun e => match e.2 with
        | .ok p => tidy none p.toks
        | .error _ => true) = true := by decide +kernel
    have hk := List.all_eq_true.1 key e he
    obtain ⟨n, x⟩ := e
    cases x with
    | error e => exact .same _
    | ok p => exact .part _ _ _ (adorn_tidy _ _ hk)
  · have e1 : Xlsx.openXML exAdorned (lit "xl/worksheets/sheet1.xml") =
        .ok ⟨adorn (exSheetCells.flatMap ACell.toks), .eof⟩ := rfl
    have e2 : Xlsx.openXML exZip (lit "xl/worksheets/sheet1.xml") = .ok ⟨exSheetCells.flatMap ACell.toks, .eof⟩ := rfl
    rw [e1, e2]
    intro h
    simp only [Except.ok.injEq, Xlsx.Part.mk.injEq, and_true] at h
    have := congrArg List.length h
    revert this
    decide +kernel

end Grate.Props
