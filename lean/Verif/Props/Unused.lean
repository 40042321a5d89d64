import Verif.Props.PartOrder
import Verif.Props.Xml

/-! # C114 and C115: what of an xlsx file does not matter

C114: parts that are not the workbook, one of its sheets, styles or shared strings, or the relationships of these. C115: comments,
instructions and the order of attributes. -/

namespace Grate.Props

open Grate Grate.Spec Grate.Api

/-! ### Specification -/

/-- The relationships that `xlsx.Open` looks at, by the directory of the part they belong to, their type and their target: those
of the package and those of the workbook part. -/
inductive Related (a : Xlsx.Archive) : Bytes → Bytes → Bytes → Prop where
  | package (p : Xlsx.Part) (attrs : List (Bytes × Bytes)) : Xlsx.openXML a (lit "_rels/.rels") = .ok p →
    Xlsx.Tok.start (lit "Relationship") attrs ∈ p.toks →
    Related a [] (Xlsx.attr attrs (lit "Type")) (Xlsx.attr attrs (lit "Target"))
  | workbook (doc : Bytes) (p : Xlsx.Part) (attrs : List (Bytes × Bytes)) : Related a [] (relType "officeDocument") doc →
    Xlsx.openXML a (Xlsx.relsOf doc) = .ok p → Xlsx.Tok.start (lit "Relationship") attrs ∈ p.toks →
    Related a (Xlsx.dirOf doc) (Xlsx.attr attrs (lit "Type")) (Xlsx.attr attrs (lit "Target"))

/-- The names of the parts that matter. Of all the others (themes, images, drawings, properties, macros, ...) nothing is said. -/
inductive Matters (a : Xlsx.Archive) : Bytes → Prop where
  | package : Matters a (lit "_rels/.rels")
  | workbook (dir doc : Bytes) : Related a dir (relType "officeDocument") doc → Matters a doc
  | workbookRels (doc : Bytes) : Related a [] (relType "officeDocument") doc → Matters a (Xlsx.relsOf doc)
  | sheet (dir t : Bytes) : Related a dir (relType "worksheet") t → Matters a (Xlsx.relTarget dir t)
  | sheetRels (dir t : Bytes) : Related a dir (relType "worksheet") t → Matters a (Xlsx.relsOf (Xlsx.relTarget dir t))
  | styles (dir t : Bytes) : Related a dir (relType "styles") t → Matters a (Xlsx.relTarget dir t)
  | strings (dir t : Bytes) : Related a dir (relType "sharedStrings") t → Matters a (Xlsx.relTarget dir t)
  /-- The name of the part of a sheet that has none. -/
  | unnamed : Matters a []
  | unnamedRels : Matters a (Xlsx.relsOf [])

/-- The names of the parts that matter for opening the file, before any sheet is read. -/
inductive Core (a : Xlsx.Archive) : Bytes → Prop where
  | package : Core a (lit "_rels/.rels")
  | workbook (dir doc : Bytes) : Related a dir (relType "officeDocument") doc → Core a doc
  | workbookRels (doc : Bytes) : Related a [] (relType "officeDocument") doc → Core a (Xlsx.relsOf doc)
  | styles (dir t : Bytes) : Related a dir (relType "styles") t → Core a (Xlsx.relTarget dir t)
  | strings (dir t : Bytes) : Related a dir (relType "sharedStrings") t → Core a (Xlsx.relTarget dir t)

theorem Core.matters {a : Xlsx.Archive} {n : Bytes} (h : Core a n) : Matters a n := by
  cases h with
  | package => exact .package
  | workbook dir doc h => exact .workbook dir _ h
  | workbookRels doc h => exact .workbookRels doc h
  | styles dir t h => exact .styles dir t h
  | strings dir t h => exact .strings dir t h

/-- The same tokens up to comments, instructions and directives, and up to the order of the attributes of an element. -/
inductive SameToks : List Xlsx.Tok → List Xlsx.Tok → Prop where
  | nil : SameToks [] []
  | left (ts us : List Xlsx.Tok) : SameToks ts us → SameToks (.other :: ts) us
  | right (ts us : List Xlsx.Tok) : SameToks ts us → SameToks ts (.other :: us)
  | start (name : Bytes) (as bs : List (Bytes × Bytes)) (ts us : List Xlsx.Tok) : as.Perm bs → (as.map Prod.fst).Nodup →
    SameToks ts us → SameToks (.start name as :: ts) (.start name bs :: us)
  | same (t : Xlsx.Tok) (ts us : List Xlsx.Tok) : SameToks ts us → SameToks (t :: ts) (t :: us)

theorem SameToks.refl : ∀ ts, SameToks ts ts
  | [] => .nil
  | t :: ts => .same t ts ts (SameToks.refl ts)

/-- The same part up to comments, instructions and the order of attributes, or the same error. -/
inductive SamePart : Except GoErr Xlsx.Part → Except GoErr Xlsx.Part → Prop where
  | part (ts us : List Xlsx.Tok) (e : GoErr) : SameToks ts us → SamePart (.ok ⟨ts, e⟩) (.ok ⟨us, e⟩)
  | error (e : GoErr) : SamePart (.error e) (.error e)

theorem SamePart.refl : ∀ x, SamePart x x
  | .ok ⟨ts, e⟩ => .part ts ts e (SameToks.refl ts)
  | .error e => .error e

/-! ### Attributes and tokens -/

theorem foldl_attr {β : Type} (f : Bytes → β) (key : Bytes) {as bs : List (Bytes × Bytes)} (h : as.Perm bs) :
    (as.map Prod.fst).Nodup → ∀ z : β, as.foldl (fun res a => if a.1 = key then f a.2 else res) z =
      bs.foldl (fun res a => if a.1 = key then f a.2 else res) z := by
  induction h with
  | nil => intro _ _; rfl
  | cons x _ ih =>
    intro hn z
    rw [List.map_cons, List.nodup_cons] at hn
    simp only [List.foldl_cons]
    exact ih hn.2 _
  | swap x y l =>
    intro hn z
    simp only [List.map_cons, List.nodup_cons, List.mem_cons, not_or] at hn
    simp only [List.foldl_cons]
    congr 1
    by_cases e : x.1 = key
    · rw [if_pos e, if_neg (fun e' => hn.1.1 (e'.trans e.symm)), if_pos e]
    · simp only [if_neg e]
  | trans h1 _ ih1 ih2 =>
    intro hn z
    exact (ih1 hn z).trans (ih2 ((h1.map Prod.fst).nodup_iff.1 hn) z)

theorem attr_perm {as bs : List (Bytes × Bytes)} (h : as.Perm bs) (hn : (as.map Prod.fst).Nodup) : Xlsx.attr as = Xlsx.attr bs := by
  funext k
  exact foldl_attr id k h hn []

theorem attr?_perm {as bs : List (Bytes × Bytes)} (h : as.Perm bs) (hn : (as.map Prod.fst).Nodup) :
    Xlsx.attr? as = Xlsx.attr? bs := by
  funext k
  exact foldl_attr some k h hn none

theorem relsLoop_same {dir : Bytes} {ts us : List Xlsx.Tok} (h : SameToks ts us) : ∀ st,
    Xlsx.relsLoop dir ts st = Xlsx.relsLoop dir us st := by
  induction h with
  | nil => intro st; rfl
  | left ts us _ ih => intro st; exact ih st
  | right ts us _ ih => intro st; exact ih st
  | start n as bs ts us hp hn _ ih => intro st; simp only [Xlsx.relsLoop, Xlsx.relElem, attr_perm hp hn, ih]
  | same t ts us _ ih => intro st; cases t <;> simp only [Xlsx.relsLoop, ih]

theorem workbookLoop_same {rels : Xlsx.Rels} {ts us : List Xlsx.Tok} (h : SameToks ts us) :
    Xlsx.workbookLoop rels ts = Xlsx.workbookLoop rels us := by
  induction h with
  | nil => rfl
  | left ts us _ ih => exact ih
  | right ts us _ ih => exact ih
  | start n as bs ts us hp hn _ ih => simp only [Xlsx.workbookLoop, attr?_perm hp hn, ih]
  | same t ts us _ ih => cases t <;> simp only [Xlsx.workbookLoop, ih]

theorem stylesLoop_same {mk : Bytes → Fmt × CellType} {ts us : List Xlsx.Tok} (h : SameToks ts us) : ∀ st,
    Xlsx.stylesLoop mk ts st = Xlsx.stylesLoop mk us st := by
  induction h with
  | nil => intro st; rfl
  | left ts us _ ih => intro st; exact ih st
  | right ts us _ ih => intro st; exact ih st
  | start n as bs ts us hp hn _ ih =>
    intro st
    simp only [Xlsx.stylesLoop, Xlsx.styleElem, Xlsx.xfElem, attr_perm hp hn, ih]
  | same t ts us _ ih => intro st; cases t <;> simp only [Xlsx.stylesLoop, ih]

theorem stringsLoop_same {ts us : List Xlsx.Tok} (h : SameToks ts us) : ∀ v out,
    Xlsx.stringsLoop ts v out = Xlsx.stringsLoop us v out := by
  induction h with
  | nil => intro _ _; rfl
  | left ts us _ ih => intro v out; exact ih v out
  | right ts us _ ih => intro v out; exact ih v out
  | start n as bs ts us hp hn _ ih => intro v out; simp only [Xlsx.stringsLoop, ih]
  | same t ts us _ ih => intro v out; cases t <;> simp only [Xlsx.stringsLoop, ih]

theorem linkLoop_same {ts us : List Xlsx.Tok} (h : SameToks ts us) : ∀ m, Xlsx.linkLoop ts m = Xlsx.linkLoop us m := by
  induction h with
  | nil => intro m; rfl
  | left ts us _ ih => intro m; exact ih m
  | right ts us _ ih => intro m; exact ih m
  | start n as bs ts us hp hn _ ih => intro m; simp only [Xlsx.linkLoop, attr_perm hp hn, ih]
  | same t ts us _ ih => intro m; cases t <;> simp only [Xlsx.linkLoop, ih]

theorem sheetLoop_same {ext : Ext} {d : Xlsx.Doc} {links : Bytes → Bytes} {ts us : List Xlsx.Tok} (h : SameToks ts us) : ∀ st,
    Xlsx.sheetLoop ext d links ts st = Xlsx.sheetLoop ext d links us st := by
  induction h with
  | nil => intro st; rfl
  | left ts us _ ih => intro st; exact ih st
  | right ts us _ ih => intro st; exact ih st
  | start n as bs ts us hp hn _ ih =>
    intro st
    simp only [Xlsx.sheetLoop, Xlsx.sheetTok, Xlsx.dimElem, Xlsx.cElem, Xlsx.mergeElem, Xlsx.linkElem, attr_perm hp hn, ih]
  | same t ts us _ ih => intro st; simp only [Xlsx.sheetLoop, ih]

/-- Tokens that every reader of a part reads alike. -/
structure AlikeToks (ts us : List Xlsx.Tok) : Prop where
  rels : ∀ dir st, Xlsx.relsLoop dir ts st = Xlsx.relsLoop dir us st
  workbook : ∀ rels, Xlsx.workbookLoop rels ts = Xlsx.workbookLoop rels us
  styles : ∀ mk st, Xlsx.stylesLoop mk ts st = Xlsx.stylesLoop mk us st
  strings : ∀ out, Xlsx.stringsLoop ts [] out = Xlsx.stringsLoop us [] out
  link : ∀ m, Xlsx.linkLoop ts m = Xlsx.linkLoop us m
  sheet : ∀ ext d links st, st.cell = [] → Xlsx.sheetLoop ext d links ts st = Xlsx.sheetLoop ext d links us st

theorem SameToks.alike {ts us : List Xlsx.Tok} (h : SameToks ts us) : AlikeToks ts us :=
  ⟨fun _ => relsLoop_same h, fun _ => workbookLoop_same h, fun _ => stylesLoop_same h, stringsLoop_same h [], linkLoop_same h,
    fun _ _ _ st _ => sheetLoop_same h st⟩

/-- Parts that every reader reads alike, or the same error. -/
inductive AlikePart : Except GoErr Xlsx.Part → Except GoErr Xlsx.Part → Prop where
  | part (ts us : List Xlsx.Tok) (e : GoErr) : AlikeToks ts us → AlikePart (.ok ⟨ts, e⟩) (.ok ⟨us, e⟩)
  | error (e : GoErr) : AlikePart (.error e) (.error e)

theorem SamePart.alike {x y : Except GoErr Xlsx.Part} (h : SamePart x y) : AlikePart x y := by
  cases h with
  | part ts us e h => exact .part ts us e h.alike
  | error e => exact .error e

/-! ### Relationships -/

theorem set_mem {t i n : Bytes} {x : Bytes × Bytes × Bytes} : ∀ {r : Xlsx.Rels}, x ∈ Xlsx.Rels.set t i n r →
    x ∈ r ∨ x = (t, i, n) := by
  intro r
  induction r with
  | nil => intro h; exact .inr (List.mem_singleton.1 h)
  | cons y r ih =>
    obtain ⟨t', i', n'⟩ := y
    intro h
    unfold Xlsx.Rels.set at h
    split at h
    · rename_i e
      rcases List.mem_cons.1 h with h | h
      · rw [h, e.1, e.2]
        exact .inr rfl
      · exact .inl (List.mem_cons_of_mem _ h)
    · rcases List.mem_cons.1 h with h | h
      · exact .inl (by rw [h]; exact List.mem_cons_self)
      · exact (ih h).imp (List.mem_cons_of_mem _) id

theorem get_mem {t i : Bytes} : ∀ (r : Xlsx.Rels), Xlsx.Rels.get t i r = [] ∨ (t, i, Xlsx.Rels.get t i r) ∈ r := by
  intro r
  induction r with
  | nil => exact .inl rfl
  | cons y r ih =>
    obtain ⟨t', i', n'⟩ := y
    unfold Xlsx.Rels.get
    split
    · rename_i e
      exact .inr (by rw [e.1, e.2]; exact List.mem_cons_self)
    · exact ih.imp id (List.mem_cons_of_mem _)

/-- What reading a relationship part adds. -/
theorem relsLoop_from {dir : Bytes} : ∀ (ts : List Xlsx.Tok) (st : Xlsx.RelSt),
    (∀ x ∈ (Xlsx.relsLoop dir ts st).rels, x ∈ st.rels ∨ ∃ attrs, Xlsx.Tok.start (lit "Relationship") attrs ∈ ts ∧
      x.1 = Xlsx.attr attrs (lit "Type") ∧ x.2.2 = Xlsx.relTarget dir (Xlsx.attr attrs (lit "Target")) ∧
      x.2.1 = Xlsx.attr attrs (lit "Id")) ∧
    ((Xlsx.relsLoop dir ts st).primaryDoc = st.primaryDoc ∨ ∃ attrs, Xlsx.Tok.start (lit "Relationship") attrs ∈ ts ∧
      Xlsx.attr attrs (lit "Type") = Xlsx.tOfficeDocument ∧
      (Xlsx.relsLoop dir ts st).primaryDoc = Xlsx.attr attrs (lit "Target")) := by
  intro ts
  induction ts with
  | nil => intro st; exact ⟨fun x h => .inl h, .inl rfl⟩
  | cons t ts ih =>
    intro st
    have skip : ∀ st', Xlsx.relsLoop dir (t :: ts) st = Xlsx.relsLoop dir ts st' → st' = st →
        (∀ x ∈ (Xlsx.relsLoop dir (t :: ts) st).rels, x ∈ st.rels ∨ ∃ attrs,
          Xlsx.Tok.start (lit "Relationship") attrs ∈ t :: ts ∧
          x.1 = Xlsx.attr attrs (lit "Type") ∧ x.2.2 = Xlsx.relTarget dir (Xlsx.attr attrs (lit "Target")) ∧
          x.2.1 = Xlsx.attr attrs (lit "Id")) ∧
        ((Xlsx.relsLoop dir (t :: ts) st).primaryDoc = st.primaryDoc ∨ ∃ attrs,
          Xlsx.Tok.start (lit "Relationship") attrs ∈ t :: ts ∧ Xlsx.attr attrs (lit "Type") = Xlsx.tOfficeDocument ∧
          (Xlsx.relsLoop dir (t :: ts) st).primaryDoc = Xlsx.attr attrs (lit "Target")) := by
      rintro st' e rfl
      rw [e]
      obtain ⟨h1, h2⟩ := ih st'
      exact ⟨fun x hx => (h1 x hx).imp id (fun ⟨as, hm, h⟩ => ⟨as, List.mem_cons_of_mem _ hm, h⟩),
        h2.imp id (fun ⟨as, hm, h⟩ => ⟨as, List.mem_cons_of_mem _ hm, h⟩)⟩
    cases t with
    | chars v => exact skip st rfl rfl
    | stop n => exact skip st rfl rfl
    | other => exact skip st rfl rfl
    | start n attrs =>
      by_cases hn : n = lit "Relationship"
      · subst hn
        have e : Xlsx.relsLoop dir (.start (lit "Relationship") attrs :: ts) st =
            Xlsx.relsLoop dir ts (Xlsx.relElem dir attrs st) := by
          simp only [Xlsx.relsLoop, if_true]
        rw [e]
        obtain ⟨h1, h2⟩ := ih (Xlsx.relElem dir attrs st)
        refine ⟨fun x hx => ?_, ?_⟩
        · rcases h1 x hx with h | ⟨as, hm, h⟩
          · rcases set_mem h with h | rfl
            · exact .inl h
            · exact .inr ⟨attrs, List.mem_cons_self, rfl, rfl, rfl⟩
          · exact .inr ⟨as, List.mem_cons_of_mem _ hm, h⟩
        · rcases h2 with h | ⟨as, hm, h⟩
          · rw [h]
            simp only [Xlsx.relElem]
            split
            · rename_i ht
              exact .inr ⟨attrs, List.mem_cons_self, ht, rfl⟩
            · exact .inl rfl
          · exact .inr ⟨as, List.mem_cons_of_mem _ hm, h⟩
      · exact skip st (by simp only [Xlsx.relsLoop, if_neg hn]) rfl

theorem workbookLoop_from {rels : Xlsx.Rels} : ∀ (ts : List Xlsx.Tok) (ss : List Xlsx.XSheet),
    Xlsx.workbookLoop rels ts = .ok ss → ∀ s ∈ ss, ∃ attrs id,
      Xlsx.Tok.start (lit "sheet") attrs ∈ ts ∧ Xlsx.attr? attrs (lit "id") = some id ∧
      Xlsx.attr? attrs (lit "name") = some s.name ∧ s.docname = rels.get Xlsx.tWorksheet id := by
  intro ts
  induction ts with
  | nil => intro ss h; cases h; intro s hs; cases hs
  | cons t ts ih =>
    intro ss h
    have skip : Xlsx.workbookLoop rels ts = .ok ss → ∀ s ∈ ss, ∃ attrs id,
        Xlsx.Tok.start (lit "sheet") attrs ∈ t :: ts ∧ Xlsx.attr? attrs (lit "id") = some id ∧
        Xlsx.attr? attrs (lit "name") = some s.name ∧ s.docname = rels.get Xlsx.tWorksheet id := by
      intro h s hs
      obtain ⟨as, id, hm, h⟩ := ih ss h s hs
      exact ⟨as, id, List.mem_cons_of_mem _ hm, h⟩
    cases t with
    | chars v => exact skip h
    | stop n => exact skip h
    | other => exact skip h
    | start n attrs =>
      unfold Xlsx.workbookLoop at h
      split at h
      · rename_i hn
        split at h
        · rename_i id nm h1 h2
          obtain ⟨ss', g1, g2⟩ := GoRes.bind_eq_ok.1 h
          cases g2
          intro s hs
          rcases List.mem_cons.1 hs with rfl | hs
          · exact ⟨attrs, id, by rw [hn]; exact List.mem_cons_self, h1, h2, rfl⟩
          · obtain ⟨as, id, hm, h⟩ := ih ss' g1 s hs
            exact ⟨as, id, List.mem_cons_of_mem _ hm, h⟩
        · cases h
      · exact skip h

/-! ### Opening -/

theorem openPart_ok {a : Xlsx.Archive} {n : Bytes} {p : Xlsx.Part} (h : Xlsx.openPart a n = .ok p) : Xlsx.openXML a n = .ok p := by
  unfold Xlsx.openPart at h
  split at h
  · rename_i q e
    cases h
    exact e
  · cases h

/-- Going on with a part: it is enough to look at the tokens. -/
theorem openPart_bind {α : Type} {a b : Xlsx.Archive} {n : Bytes} (h : AlikePart (Xlsx.openXML a n) (Xlsx.openXML b n))
    (f g : Xlsx.Part → GoRes α) (hfg : ∀ ts us e, Xlsx.openXML a n = .ok ⟨ts, e⟩ → AlikeToks ts us → f ⟨ts, e⟩ = g ⟨us, e⟩) :
    (Xlsx.openPart a n >>= f) = (Xlsx.openPart b n >>= g) := by
  unfold Xlsx.openPart
  generalize hx : Xlsx.openXML a n = x at h hfg
  generalize Xlsx.openXML b n = y at h
  cases h with
  | error e => rfl
  | part ts us e hs => exact hfg ts us e rfl hs

theorem notXlsx_bind {α : Type} {a b : Xlsx.Archive} {n : Bytes} (h : AlikePart (Xlsx.openXML a n) (Xlsx.openXML b n))
    (f g : Xlsx.Part → GoRes α) (hfg : ∀ ts us e, Xlsx.openXML a n = .ok ⟨ts, e⟩ → AlikeToks ts us → f ⟨ts, e⟩ = g ⟨us, e⟩) :
    (Xlsx.notXlsx (Xlsx.openPart a n) >>= f) = (Xlsx.notXlsx (Xlsx.openPart b n) >>= g) := by
  unfold Xlsx.openPart
  generalize hx : Xlsx.openXML a n = x at h hfg
  generalize Xlsx.openXML b n = y at h
  cases h with
  | error e => rfl
  | part ts us e hs => exact hfg ts us e rfl hs

theorem stylesParts_same {mk : Bytes → Fmt × CellType} {a b : Xlsx.Archive} : ∀ (ns : List Bytes),
    (∀ n ∈ ns, AlikePart (Xlsx.openXML a n) (Xlsx.openXML b n)) → ∀ st,
    Xlsx.stylesParts mk a ns st = Xlsx.stylesParts mk b ns st := by
  intro ns
  induction ns with
  | nil => intro _ st; rfl
  | cons n ns ih =>
    intro h st
    unfold Xlsx.stylesParts
    refine openPart_bind (h n List.mem_cons_self) _ _ ?_
    intro ts us e _ hs
    simp only [Xlsx.parseStyles, hs.styles]
    congr 1
    funext st'
    exact ih (fun m hm => h m (List.mem_cons_of_mem _ hm)) st'

theorem stringsParts_same {a b : Xlsx.Archive} : ∀ (ns : List Bytes),
    (∀ n ∈ ns, AlikePart (Xlsx.openXML a n) (Xlsx.openXML b n)) → ∀ st,
    Xlsx.stringsParts a ns st = Xlsx.stringsParts b ns st := by
  intro ns
  induction ns with
  | nil => intro _ st; rfl
  | cons n ns ih =>
    intro h st
    unfold Xlsx.stringsParts
    refine openPart_bind (h n List.mem_cons_self) _ _ ?_
    intro ts us e _ hs
    simp only [Xlsx.parseSharedStrings, hs.strings]
    congr 1
    funext st'
    exact ih (fun m hm => h m (List.mem_cons_of_mem _ hm)) st'

theorem finish_ok {α : Type} {x y : α} {e : GoErr} (h : Xlsx.finish x e = .ok y) : x = y := by
  unfold Xlsx.finish at h
  split at h
  · cases h; rfl
  · cases h

theorem notXlsx_ok {α : Type} {x : GoRes α} {y : α} (h : Xlsx.notXlsx x = .ok y) : x = .ok y := by
  cases x with
  | ok z => exact h
  | err e => cases h
  | panic => cases h

theorem relTypes : relType "officeDocument" = Xlsx.tOfficeDocument ∧ relType "worksheet" = Xlsx.tWorksheet ∧
    relType "styles" = Xlsx.tStyles ∧ relType "sharedStrings" = Xlsx.tSharedStrings := by decide +kernel

/-- The relationships after the package part has been read. -/
theorem package_from {a : Xlsx.Archive} {p : Xlsx.Part} {st : Xlsx.RelSt} (hp : Xlsx.openXML a (lit "_rels/.rels") = .ok p)
    (h : Xlsx.parseRels [] p ⟨[], []⟩ = .ok st) :
    (∀ x ∈ st.rels, ∃ dir t, Related a dir x.1 t ∧ x.2.2 = Xlsx.relTarget dir t) ∧
    (st.primaryDoc = [] ∨ Related a [] (relType "officeDocument") st.primaryDoc) := by
  have e := finish_ok h
  subst e
  obtain ⟨h1, h2⟩ := relsLoop_from (dir := []) p.toks ⟨[], []⟩
  refine ⟨fun x hx => ?_, ?_⟩
  · rcases h1 x hx with h | ⟨as, hm, e1, e2, _⟩
    · cases h
    · exact ⟨_, _, e1 ▸ .package p as hp hm, e2⟩
  · rcases h2 with h | ⟨as, hm, e1, e2⟩
    · exact .inl h
    · right
      rw [e2, relTypes.1, ← e1]
      exact .package p as hp hm

/-- The relationships after that of the workbook has been read. -/
theorem workbook_from {a : Xlsx.Archive} {p : Xlsx.Part} {st st' : Xlsx.RelSt}
    (h1 : ∀ x ∈ st.rels, ∃ dir t, Related a dir x.1 t ∧ x.2.2 = Xlsx.relTarget dir t)
    (h2 : Related a [] (relType "officeDocument") st.primaryDoc) (hp : Xlsx.openXML a (Xlsx.relsOf st.primaryDoc) = .ok p)
    (h : Xlsx.parseRels (Xlsx.dirOf st.primaryDoc) p st = .ok st') :
    (∀ x ∈ st'.rels, ∃ dir t, Related a dir x.1 t ∧ x.2.2 = Xlsx.relTarget dir t) ∧
    ∃ dir, Related a dir (relType "officeDocument") st'.primaryDoc := by
  have e := finish_ok h
  subst e
  obtain ⟨g1, g2⟩ := relsLoop_from (dir := Xlsx.dirOf st.primaryDoc) p.toks st
  refine ⟨fun x hx => ?_, ?_⟩
  · rcases g1 x hx with h | ⟨as, hm, e1, e2, _⟩
    · exact h1 x h
    · exact ⟨_, _, e1 ▸ .workbook _ p as h2 hp hm, e2⟩
  · rcases g2 with h | ⟨as, hm, e1, e2⟩
    · exact ⟨[], by rw [h]; exact h2⟩
    · refine ⟨Xlsx.dirOf st.primaryDoc, ?_⟩
      rw [e2, relTypes.1, ← e1]
      exact .workbook _ p as h2 hp hm

theorem values_from {a : Xlsx.Archive} {r : Xlsx.Rels} {typ n : Bytes}
    (h : ∀ x ∈ r, ∃ dir t, Related a dir x.1 t ∧ x.2.2 = Xlsx.relTarget dir t) (hn : n ∈ r.values typ) :
    ∃ dir t, Related a dir typ t ∧ n = Xlsx.relTarget dir t := by
  unfold Xlsx.Rels.values at hn
  obtain ⟨x, hx, rfl⟩ := List.mem_map.1 hn
  obtain ⟨hx, ht⟩ := List.mem_filter.1 hx
  obtain ⟨dir, t, h1, h2⟩ := h x hx
  exact ⟨dir, t, (of_decide_eq_true ht) ▸ h1, h2⟩

/-- The parts of the sheets are among those that matter. -/
def SheetsOf (a : Xlsx.Archive) (d : Xlsx.Doc) : Prop :=
  ∀ s ∈ d.sheets, Matters a s.docname ∧ Matters a (Xlsx.relsOf s.docname)

/-- The archives have parts that are read alike as far as they matter for the first. -/
def AlikeMatter (a b : Xlsx.Archive) : Prop := ∀ n, Matters a n → AlikePart (Xlsx.openXML a n) (Xlsx.openXML b n)

theorem openFile_agree {mk : Bytes → Fmt × CellType} {order : List Bytes → List Bytes} {a b : Xlsx.Archive}
    (ho : ∀ l, (order l).Perm l) (h : ∀ n, Core a n → AlikePart (Xlsx.openXML a n) (Xlsx.openXML b n)) :
    Xlsx.openFile mk order (.ok a) = Xlsx.openFile mk order (.ok b) := by
  unfold Xlsx.openFile
  refine notXlsx_bind (h _ .package) _ _ ?_
  intro ts us e hp hs
  have e1 : Xlsx.parseRels [] ⟨us, e⟩ ⟨[], []⟩ = Xlsx.parseRels [] ⟨ts, e⟩ ⟨[], []⟩ := by
    simp only [Xlsx.parseRels, hs.rels]
  simp only [e1]
  cases hst : Xlsx.notXlsx (Xlsx.parseRels [] ⟨ts, e⟩ ⟨[], []⟩) with
  | err e => rfl
  | panic => rfl
  | ok st =>
    simp only [GoRes.ok_bind]
    obtain ⟨f1, f2⟩ := package_from hp (notXlsx_ok hst)
    split
    · rfl
    · rename_i hne
      have f2 := f2.resolve_left hne
      refine openPart_bind (h _ (.workbookRels _ f2)) _ _ ?_
      intro ts us e hp hs
      have e2 : Xlsx.parseRels (Xlsx.dirOf st.primaryDoc) ⟨us, e⟩ st = Xlsx.parseRels (Xlsx.dirOf st.primaryDoc) ⟨ts, e⟩ st := by
        simp only [Xlsx.parseRels, hs.rels]
      simp only [e2]
      cases hst' : Xlsx.parseRels (Xlsx.dirOf st.primaryDoc) ⟨ts, e⟩ st with
      | err e => rfl
      | panic => rfl
      | ok st' =>
        simp only [GoRes.ok_bind]
        obtain ⟨g1, dir, g2⟩ := workbook_from f1 f2 hp hst'
        refine openPart_bind (h _ (.workbook _ _ g2)) _ _ ?_
        intro ts us e hp hs
        have e3 : Xlsx.parseWorkbook st'.rels ⟨us, e⟩ = Xlsx.parseWorkbook st'.rels ⟨ts, e⟩ := by
          simp only [Xlsx.parseWorkbook, hs.workbook]
        have e4 := stylesParts_same (mk := mk) (a := a) (b := b) (order (st'.rels.values Xlsx.tStyles)) (by
          intro n hn
          obtain ⟨dir, t, r1, rfl⟩ := values_from g1 ((ho _).mem_iff.1 hn)
          exact h _ (.styles _ _ (relTypes.2.2.1 ▸ r1)))
        have e5 := stringsParts_same (a := a) (b := b) (order (st'.rels.values Xlsx.tSharedStrings)) (by
          intro n hn
          obtain ⟨dir, t, r1, rfl⟩ := values_from g1 ((ho _).mem_iff.1 hn)
          exact h _ (.strings _ _ (relTypes.2.2.2 ▸ r1)))
        simp only [e3, e4, e5]

theorem openFile_sheets {mk : Bytes → Fmt × CellType} {order : List Bytes → List Bytes} {a : Xlsx.Archive} {d : Xlsx.Doc}
    (h : Xlsx.openFile mk order (.ok a) = .ok d) : SheetsOf a d := by
  unfold Xlsx.openFile at h
  obtain ⟨p, hp, h⟩ := GoRes.bind_eq_ok.1 h
  obtain ⟨st, hst, h⟩ := GoRes.bind_eq_ok.1 h
  obtain ⟨f1, f2⟩ := package_from (openPart_ok (notXlsx_ok hp)) (notXlsx_ok hst)
  split at h
  · cases h
  · rename_i hne
    have f2 := f2.resolve_left hne
    obtain ⟨p, hp, h⟩ := GoRes.bind_eq_ok.1 h
    obtain ⟨st', hst', h⟩ := GoRes.bind_eq_ok.1 h
    obtain ⟨g1, _, _⟩ := workbook_from f1 f2 (openPart_ok hp) hst'
    obtain ⟨p, hp, h⟩ := GoRes.bind_eq_ok.1 h
    obtain ⟨ss, hss, h⟩ := GoRes.bind_eq_ok.1 h
    obtain ⟨_, _, h⟩ := GoRes.bind_eq_ok.1 h
    obtain ⟨_, _, h⟩ := GoRes.bind_eq_ok.1 h
    cases h
    unfold Xlsx.parseWorkbook at hss
    obtain ⟨ss', hl, hf⟩ := GoRes.bind_eq_ok.1 hss
    have e := finish_ok hf
    subst e
    intro s hs
    obtain ⟨_, id, _, _, _, e⟩ := workbookLoop_from _ _ hl s hs
    rw [e]
    rcases get_mem (t := Xlsx.tWorksheet) (i := id) st'.rels with e0 | hm
    · rw [e0]
      exact ⟨.unnamed, .unnamedRels⟩
    · obtain ⟨dir, t, r1, r2⟩ := g1 _ hm
      simp only at r1 r2
      rw [r2]
      rw [← relTypes.2.1] at r1
      exact ⟨.sheet _ _ r1, .sheetRels _ _ r1⟩

/-! ### Using a document -/

theorem SheetsOf.set {a : Xlsx.Archive} {d : Xlsx.Doc} (h : SheetsOf a d) (i : Nat) (x : Xlsx.XSheet) (hx : d.sheets[i]? = some x)
    (st : Option (Sheet × Option GoErr)) : SheetsOf a { d with sheets := d.sheets.set i { x with state := st } } := by
  intro s hs
  rcases List.mem_or_eq_of_mem_set hs with hs | rfl
  · exact h s hs
  · exact h x (List.mem_of_getElem? hx)

theorem parseSheet_agree {ext : Ext} {a b : Xlsx.Archive} {n : Bytes} (d : Xlsx.Doc)
    (h1 : AlikePart (Xlsx.openXML a n) (Xlsx.openXML b n))
    (h2 : AlikePart (Xlsx.openXML a (Xlsx.relsOf n)) (Xlsx.openXML b (Xlsx.relsOf n))) :
    Xlsx.parseSheet ext a d n = Xlsx.parseSheet ext b d n := by
  have hl : Xlsx.linkMap a n = Xlsx.linkMap b n := by
    unfold Xlsx.linkMap
    generalize Xlsx.openXML a (Xlsx.relsOf n) = x at h2
    generalize Xlsx.openXML b (Xlsx.relsOf n) = y at h2
    cases h2 with
    | error e => rfl
    | part ts us e hs => exact hs.link _
  unfold Xlsx.parseSheet
  rw [hl]
  generalize Xlsx.openXML a n = x at h1
  generalize Xlsx.openXML b n = y at h1
  cases h1 with
  | error e => rfl
  | part ts us e hs => simp only [hs.sheet ext d _ ⟨[], [], 0, 0, 0, Sheet.new d.fmt⟩ rfl]

theorem docGet_agree {ext : Ext} {a b : Xlsx.Archive} (h : AlikeMatter a b) {d : Xlsx.Doc} (hd : SheetsOf a d) (n : Bytes) :
    d.get ext a n = d.get ext b n ∧ ∀ d' i e, d.get ext a n = .ok (d', i, e) → SheetsOf a d' := by
  unfold Xlsx.Doc.get
  split
  · exact ⟨rfl, fun _ _ _ h => by cases h⟩
  · split
    · exact ⟨rfl, fun _ _ _ h => by cases h⟩
    · rename_i i _ _ s hi
      have hs := hd s (List.mem_of_getElem? hi)
      split
      · exact ⟨rfl, fun _ _ _ h => by cases h; exact hd⟩
      · refine ⟨by rw [parseSheet_agree d (h _ hs.1) (h _ hs.2)], fun d' j e hg => ?_⟩
        obtain ⟨r, _, hr⟩ := GoRes.bind_eq_ok.1 hg
        cases hr
        exact hd.set i s hi _

theorem get_agree {ext : Ext} {a b : Xlsx.Archive} (h : AlikeMatter a b) {d : Xlsx.Doc} (hd : SheetsOf a d) (n : Bytes) :
    ((Source.xlsx a d).get ext n = .panic ∧ (Source.xlsx b d).get ext n = .panic) ∨
    ∃ d' r, SheetsOf a d' ∧ (Source.xlsx a d).get ext n = .ok (.xlsx a d', r) ∧
      (Source.xlsx b d).get ext n = .ok (.xlsx b d', r) := by
  obtain ⟨h1, h2⟩ := docGet_agree (ext := ext) h hd n
  simp only [Source.get, ← h1]
  cases hg : d.get ext a n with
  | panic => exact .inl ⟨rfl, rfl⟩
  | err e => exact .inr ⟨d, _, hd, rfl, rfl⟩
  | ok x =>
    obtain ⟨d', i, e⟩ := x
    have hd' := h2 _ _ _ hg
    cases e with
    | some e => exact .inr ⟨d', _, hd', rfl, rfl⟩
    | none =>
      simp only
      split
      · exact .inr ⟨d', _, hd', rfl, rfl⟩
      · exact .inl ⟨rfl, rfl⟩

theorem used_agree {a : Xlsx.Archive} (b : Xlsx.Archive) {d : Xlsx.Doc} (hd : SheetsOf a d) (n : Bytes) (c : Coll) :
    ∃ d', SheetsOf a d' ∧ (Source.xlsx a d).used n c = .xlsx a d' ∧ (Source.xlsx b d).used n c = .xlsx b d' := by
  cases c with
  | sheet s =>
    simp only [Source.used]
    split
    · split
      · rename_i i _ _ x hx
        exact ⟨_, hd.set i x hx _, rfl, rfl⟩
      · exact ⟨_, hd, rfl, rfl⟩
    · exact ⟨_, hd, rfl, rfl⟩
  | noSheet => exact ⟨d, hd, rfl, rfl⟩
  | text f => exact ⟨d, hd, rfl, rfl⟩

theorem run_agree {ext : Ext} {a b : Xlsx.Archive} (h : AlikeMatter a b) : ∀ (p : Client) (d : Xlsx.Doc), SheetsOf a d →
    p.run ext (.xlsx b d) = p.run ext (.xlsx a d) := by
  intro p
  induction p with
  | done => intro d _; rfl
  | get n use next ih =>
    intro d hd
    rcases get_agree (ext := ext) h hd n with ⟨e1, e2⟩ | ⟨d', r, hd', e1, e2⟩
    · simp only [Client.run, e1, e2]
    · simp only [Client.run, e1, e2, GoRes.ok_bind]
      cases r with
      | error e => simp only [ih _ d' hd']
      | ok c =>
        obtain ⟨d'', hd'', u1, u2⟩ := used_agree b hd' n (use c)
        simp only [u1, u2, ih _ d'' hd'']

/-- What two openings have in common: both give documents that list the same sheets and answer every program alike, or the same
error, or both crash. -/
def OpenAlike (ext : Ext) (x y : GoRes Source) : Prop :=
  (∃ src src', x = .ok src ∧ y = .ok src' ∧ src'.list = src.list ∧ ∀ p : Client, p.run ext src' = p.run ext src) ∨
  (∃ e, x = .err e ∧ y = .err e) ∨ (x = .panic ∧ y = .panic)

theorem opener_agree (w : World) (ext : Ext) (fn fn' file file' : Bytes) (hf : w.files fn = .ok file)
    (hf' : w.files fn' = .ok file') (a b : Xlsx.Archive) (hz : w.zip file = .ok a) (hz' : w.zip file' = .ok b)
    (ho : ∀ l, (w.order l).Perm l) (h : AlikeMatter a b) : OpenAlike ext (xlsxOpen w fn) (xlsxOpen w fn') := by
  unfold OpenAlike
  simp only [xlsxOpen, hf, hf', hz, hz', ← openFile_agree ho (fun n hn => h n hn.matters)]
  cases hd : Xlsx.openFile makeFormatter w.order (.ok a) with
  | ok d => exact .inl ⟨_, _, rfl, rfl, rfl, fun p => run_agree h p d (openFile_sheets hd)⟩
  | err e => exact .inr (.inl ⟨e, rfl, rfl⟩)
  | panic => exact .inr (.inr ⟨rfl, rfl⟩)

/-- In a program with all formats, a file that opens as an xlsx document is opened by the opener of xlsx files. -/
theorem open_is_xlsx (w : World) (fn file : Bytes) (hf : w.files fn = .ok file) (hn : NotCompound file) (a : Xlsx.Archive)
    (d : Xlsx.Doc) (t : List (Grate.Entry Source)) (ht : Shipped w t) (ho : openSrc t fn = .ok (.xlsx a d)) :
    xlsxOpen w fn = .ok (.xlsx a d) := by
  have text : ∀ fn, (∃ f, tsvOpen w fn = .ok f ∧ f = .xlsx a d) ∨ (∃ f, csvOpen w fn = .ok f ∧ f = .xlsx a d) → False := by
    rintro fn (⟨f, h1, rfl⟩ | ⟨f, h1, rfl⟩)
    · unfold tsvOpen at h1
      split at h1
      · cases h1
      · obtain ⟨g, _, h2⟩ := GoRes.bind_eq_ok.1 h1
        cases h2
    · unfold csvOpen at h1
      split at h1
      · cases h1
      · obtain ⟨g, _, h2⟩ := GoRes.bind_eq_ok.1 h1
        cases h2
  rw [shipped_open ht] at ho
  obtain ⟨o, hm, hop⟩ := opened_by _ ho
  simp only [formats, List.mem_cons, List.not_mem_nil, or_false] at hm
  rcases hm with rfl | rfl | rfl | rfl
  · change xlsOpen w fn = _ at hop
    rw [xls_declines w fn file hf hn] at hop
    cases hop
  · exact hop
  · exact absurd (.inl ⟨_, hop, rfl⟩) (text fn)
  · exact absurd (.inr ⟨_, hop, rfl⟩) (text fn)

theorem xlsx_is_open (w : World) (fn file : Bytes) (hf : w.files fn = .ok file) (hn : NotCompound file) (src : Source)
    (t : List (Grate.Entry Source)) (ht : Shipped w t) (hx : xlsxOpen w fn = .ok src) : openSrc t fn = .ok src := by
  rw [shipped_open ht]
  simp [openSrc, openTrace, formats, xls_declines w fn file hf hn, hx, GoErr.isNotInFormat]

/-- From the opener of xlsx files to `Open` of a program with all formats. -/
theorem open_agree (w : World) (ext : Ext) (fn fn' file file' : Bytes) (hf : w.files fn = .ok file) (hf' : w.files fn' = .ok file')
    (hn : NotCompound file) (hn' : NotCompound file') (h : OpenAlike ext (xlsxOpen w fn) (xlsxOpen w fn'))
    (a : Xlsx.Archive) (d : Xlsx.Doc) (t : List (Grate.Entry Source)) (ht : Shipped w t) (ho : openSrc t fn = .ok (.xlsx a d)) :
    ∃ src', openSrc t fn' = .ok src' ∧ src'.list = (Source.xlsx a d).list ∧
      ∀ p : Client, p.run ext src' = p.run ext (.xlsx a d) := by
  have hx := open_is_xlsx w fn file hf hn a d t ht ho
  rcases h with ⟨src, src', e1, e2, e3, e4⟩ | ⟨e, e1, _⟩ | ⟨e1, _⟩
  · rw [hx] at e1
    cases e1
    exact ⟨src', xlsx_is_open w fn' file' hf' hn' src' t ht e2, e3, e4⟩
  · rw [hx] at e1; cases e1
  · rw [hx] at e1; cases e1

theorem openXML_entries (n : Bytes) : ∀ a : Xlsx.Archive,
    Xlsx.openXML a n = Xlsx.openXML (a.filter (fun e => decide (e.1 = n))) n := by
  intro a
  induction a with
  | nil => rfl
  | cons x a ih =>
    obtain ⟨m, p⟩ := x
    by_cases e : m = n
    · simp [Xlsx.openXML, e]
    · simp [Xlsx.openXML, e, ih]

theorem openXML_forall₂ {a b : Xlsx.Archive} (h : List.Forall₂ (fun x y => x.1 = y.1 ∧ AlikePart x.2 y.2) a b) (n : Bytes) :
    AlikePart (Xlsx.openXML a n) (Xlsx.openXML b n) := by
  induction h with
  | nil => exact .error _
  | @cons x y xs ys hxy _ ih =>
    obtain ⟨m, p⟩ := x
    obtain ⟨m', q⟩ := y
    obtain ⟨rfl, hp⟩ := hxy
    simp only [Xlsx.openXML]
    split
    · exact hp
    · exact ih

/-! ### C114 -/

/-- **C114 (opener).** Two archives that have the same entries for every name that matters open alike, whatever other entries they
have and wherever those stand. (`ho` is what Go guarantees of ranging over a map; the order is the same for both files here.) -/
theorem C114_opener (w : World) (ext : Ext) (fn fn' file file' : Bytes) (hf : w.files fn = .ok file)
    (hf' : w.files fn' = .ok file') (a b : Xlsx.Archive) (hz : w.zip file = .ok a) (hz' : w.zip file' = .ok b)
    (ho : ∀ l, (w.order l).Perm l)
    (h : ∀ n, Matters a n → a.filter (fun e => decide (e.1 = n)) = b.filter (fun e => decide (e.1 = n))) :
    OpenAlike ext (xlsxOpen w fn) (xlsxOpen w fn') := by
  refine opener_agree w ext fn fn' file file' hf hf' a b hz hz' ho ?_
  intro n hn
  rw [openXML_entries n a, openXML_entries n b, h n hn]
  exact (SamePart.refl _).alike

/-- **C114 (Open).** In a program with all formats. -/
theorem C114_open (w : World) (ext : Ext) (fn fn' file file' : Bytes) (hf : w.files fn = .ok file) (hf' : w.files fn' = .ok file')
    (hn : NotCompound file) (hn' : NotCompound file') (a b : Xlsx.Archive) (hz : w.zip file = .ok a) (hz' : w.zip file' = .ok b)
    (ho : ∀ l, (w.order l).Perm l)
    (h : ∀ n, Matters a n → a.filter (fun e => decide (e.1 = n)) = b.filter (fun e => decide (e.1 = n)))
    (d : Xlsx.Doc) (t : List (Grate.Entry Source)) (ht : Shipped w t) (hop : openSrc t fn = .ok (.xlsx a d)) :
    ∃ src', openSrc t fn' = .ok src' ∧ src'.list = (Source.xlsx a d).list ∧
      ∀ p : Client, p.run ext src' = p.run ext (.xlsx a d) :=
  open_agree w ext fn fn' file file' hf hf' hn hn' (C114_opener w ext fn fn' file file' hf hf' a b hz hz' ho h) a d t ht hop

/-! ### C115 -/

/-- **C115 (opener).** Two archives whose parts differ only in comments, instructions, directives and the order of attributes open
alike. -/
theorem C115_opener (w : World) (ext : Ext) (fn fn' file file' : Bytes) (hf : w.files fn = .ok file)
    (hf' : w.files fn' = .ok file') (a b : Xlsx.Archive) (hz : w.zip file = .ok a) (hz' : w.zip file' = .ok b)
    (ho : ∀ l, (w.order l).Perm l) (h : List.Forall₂ (fun x y => x.1 = y.1 ∧ SamePart x.2 y.2) a b) :
    OpenAlike ext (xlsxOpen w fn) (xlsxOpen w fn') :=
  opener_agree w ext fn fn' file file' hf hf' a b hz hz' ho (fun n _ =>
    openXML_forall₂ (h.imp (fun _ _ hxy => ⟨hxy.1, hxy.2.alike⟩)) n)

/-- **C115 (Open).** In a program with all formats. -/
theorem C115_open (w : World) (ext : Ext) (fn fn' file file' : Bytes) (hf : w.files fn = .ok file) (hf' : w.files fn' = .ok file')
    (hn : NotCompound file) (hn' : NotCompound file') (a b : Xlsx.Archive) (hz : w.zip file = .ok a) (hz' : w.zip file' = .ok b)
    (ho : ∀ l, (w.order l).Perm l) (h : List.Forall₂ (fun x y => x.1 = y.1 ∧ SamePart x.2 y.2) a b)
    (d : Xlsx.Doc) (t : List (Grate.Entry Source)) (ht : Shipped w t) (hop : openSrc t fn = .ok (.xlsx a d)) :
    ∃ src', openSrc t fn' = .ok src' ∧ src'.list = (Source.xlsx a d).list ∧
      ∀ p : Client, p.run ext src' = p.run ext (.xlsx a d) :=
  open_agree w ext fn fn' file file' hf hf' hn hn' (C115_opener w ext fn fn' file file' hf hf' a b hz hz' ho h) a d t ht hop

/-- The same texts of parts up to comments, instructions and the order of attributes. -/
inductive SameText : Except GoErr (Bytes × GoErr) → Except GoErr (Bytes × GoErr) → Prop where
  | text (ts us : List Xlsx.Tok) (bs bs' : Bytes) : XmlText ts bs → XmlText us bs' → SameToks ts us →
    SameText (.ok (bs, .eof)) (.ok (bs', .eof))
  | same (x : Except GoErr (Bytes × GoErr)) : SameText x x

theorem sameText_part (T : Xlsx.XmlTables) {x y : Except GoErr (Bytes × GoErr)} (h : SameText x y) :
    SamePart (x.map (fun c => Xlsx.xmlPart T c.1 c.2)) (y.map (fun c => Xlsx.xmlPart T c.1 c.2)) := by
  cases h with
  | same x => exact SamePart.refl _
  | text ts us bs bs' h1 h2 h3 =>
    simp only [Except.map, Xlsx.xmlPart_text T h1, Xlsx.xmlPart_text T h2]
    exact .part ts us .eof h3

/-- **C115 (files).** For the bytes of the parts: two archives whose parts are written differently open alike, provided that the
texts have the same elements with the same attributes, in any order, and the same character data, with comments, instructions and
the declaration anywhere between them. (A comment inside a text divides it, which is not the same: see C58.) -/
theorem C115_file (w : World) (ext : Ext) (T : Xlsx.XmlTables) (fn fn' file file' : Bytes) (hf : w.files fn = .ok file)
    (hf' : w.files fn' = .ok file') (hn : NotCompound file) (hn' : NotCompound file') (z z' : Xlsx.Files)
    (hz : w.zip file = .ok (z.archive T)) (hz' : w.zip file' = .ok (z'.archive T)) (ho : ∀ l, (w.order l).Perm l)
    (h : List.Forall₂ (fun x y => x.1 = y.1 ∧ SameText x.2 y.2) z z')
    (d : Xlsx.Doc) (t : List (Grate.Entry Source)) (ht : Shipped w t) (hop : openSrc t fn = .ok (.xlsx (z.archive T) d)) :
    ∃ src', openSrc t fn' = .ok src' ∧ src'.list = (Source.xlsx (z.archive T) d).list ∧
      ∀ p : Client, p.run ext src' = p.run ext (.xlsx (z.archive T) d) := by
  refine C115_open w ext fn fn' file file' hf hf' hn hn' _ _ hz hz' ho ?_ d t ht hop
  unfold Xlsx.Files.archive
  rw [List.forall₂_map_left_iff, List.forall₂_map_right_iff]
  exact h.imp (fun x y hxy => ⟨hxy.1, sameText_part T hxy.2⟩)

/-! ### Witnesses -/

/-- A system with the archive of C61 and another. -/
def otherWorld (p : Crypto.Prims) (b : Xlsx.Archive) : World :=
  { orderWorld p with zip := fun c => .ok (if c = [] then exZip else b) }

theorem otherWorld_open (p : Crypto.Prims) (b : Xlsx.Archive) (t : List (Grate.Entry Source)) (ht : Shipped (otherWorld p b) t) :
    ∃ d, openSrc t (lit "a.xlsx") = .ok (.xlsx exZip d) ∧ d.list = [lit "one", lit "two"] := by
  obtain ⟨d, hd, hl⟩ : ∃ d, xlsxOpen (otherWorld p b) (lit "a.xlsx") = .ok (.xlsx exZip d) ∧ d.list = [lit "one", lit "two"] :=
    ⟨_, rfl, rfl⟩
  refine ⟨d, ?_, hl⟩
  rw [shipped_open ht]
  simp [openSrc, openTrace, formats, xls_declines (otherWorld p b) (lit "a.xlsx") [] rfl (.inr (by decide)), hd,
    GoErr.isNotInFormat]

/-- The archive of C61 with a picture in front and a theme that cannot be read at the end. -/
def exMoreZip : Xlsx.Archive :=
  (lit "docProps/thumbnail.jpeg", .ok ⟨[], .msg "XML syntax error"⟩) :: exZip ++ [(lit "xl/theme/theme1.xml", .error .notInFormat)]

theorem exZip_related {dir typ t : Bytes} (h : Related exZip dir typ t) :
    (dir = [] ∧ typ = relType "officeDocument" ∧ t = lit "xl/workbook.xml") ∨
    (dir = lit "xl/" ∧ ((typ = relType "worksheet" ∧ (t = lit "worksheets/sheet1.xml" ∨ t = lit "/xl/worksheets/sheet2.xml")) ∨
      (typ = relType "sharedStrings" ∧ t = lit "../strings.xml"))) := by
  induction h with
  | package p as hp hm =>
    have e : Xlsx.openXML exZip (lit "_rels/.rels") =
        .ok ⟨[exRelation (relType "officeDocument") (lit "rId1") (lit "xl/workbook.xml")], .eof⟩ := rfl
    rw [e] at hp
    cases hp
    simp only [exRelation, List.mem_singleton, Xlsx.Tok.start.injEq] at hm
    rw [hm.2]
    exact .inl ⟨rfl, by decide +kernel, by decide +kernel⟩
  | workbook doc p as hr hp hm ih =>
    rcases ih with ⟨_, _, rfl⟩ | ⟨h, _⟩
    · have e : Xlsx.openXML exZip (Xlsx.relsOf (lit "xl/workbook.xml")) =
          .ok ⟨[exRelation (relType "worksheet") (lit "rId1") (lit "worksheets/sheet1.xml"),
            exRelation (relType "worksheet") (lit "rId2") (lit "/xl/worksheets/sheet2.xml"),
            exRelation (relType "sharedStrings") (lit "rId3") (lit "../strings.xml")], .eof⟩ := rfl
      rw [e] at hp
      cases hp
      simp only [exRelation, List.mem_cons, List.not_mem_nil, or_false, Xlsx.Tok.start.injEq] at hm
      rcases hm with ⟨_, rfl⟩ | ⟨_, rfl⟩ | ⟨_, rfl⟩
      · exact .inr ⟨by decide +kernel, .inl ⟨by decide +kernel, .inl (by decide +kernel)⟩⟩
      · exact .inr ⟨by decide +kernel, .inl ⟨by decide +kernel, .inr (by decide +kernel)⟩⟩
      · exact .inr ⟨by decide +kernel, .inr ⟨by decide +kernel, by decide +kernel⟩⟩
    · exact absurd h (by decide +kernel)

theorem exZip_matters {n : Bytes} (h : Matters exZip n) :
    n ≠ lit "docProps/thumbnail.jpeg" ∧ n ≠ lit "xl/theme/theme1.xml" := by
  cases h with
  | package => exact ⟨by decide +kernel, by decide +kernel⟩
  | unnamed => exact ⟨by decide +kernel, by decide +kernel⟩
  | unnamedRels => exact ⟨by decide +kernel, by decide +kernel⟩
  | workbook dir doc h =>
    rcases exZip_related h with ⟨rfl, _, rfl⟩ | ⟨rfl, ⟨h1, rfl | rfl⟩ | ⟨h1, rfl⟩⟩ <;>
      exact ⟨by decide +kernel, by decide +kernel⟩
  | workbookRels doc h =>
    rcases exZip_related h with ⟨_, _, rfl⟩ | ⟨h1, _⟩
    · exact ⟨by decide +kernel, by decide +kernel⟩
    · exact absurd h1 (by decide +kernel)
  | sheet dir t h =>
    rcases exZip_related h with ⟨rfl, h1, rfl⟩ | ⟨rfl, ⟨h1, rfl | rfl⟩ | ⟨h1, rfl⟩⟩ <;>
      exact ⟨by decide +kernel, by decide +kernel⟩
  | sheetRels dir t h =>
    rcases exZip_related h with ⟨rfl, h1, rfl⟩ | ⟨rfl, ⟨h1, rfl | rfl⟩ | ⟨h1, rfl⟩⟩ <;>
      exact ⟨by decide +kernel, by decide +kernel⟩
  | styles dir t h =>
    rcases exZip_related h with ⟨rfl, h1, rfl⟩ | ⟨rfl, ⟨h1, rfl | rfl⟩ | ⟨h1, rfl⟩⟩ <;>
      exact ⟨by decide +kernel, by decide +kernel⟩
  | strings dir t h =>
    rcases exZip_related h with ⟨rfl, h1, rfl⟩ | ⟨rfl, ⟨h1, rfl | rfl⟩ | ⟨h1, rfl⟩⟩ <;>
      exact ⟨by decide +kernel, by decide +kernel⟩

/-- The hypotheses of C114 are met by the archive of C61 and the one with two more entries, neither of which is readable. -/
theorem C114_witness (p : Crypto.Prims) (t : List (Grate.Entry Source)) (ht : Shipped (otherWorld p exMoreZip) t) :
    exMoreZip.length = exZip.length + 2 ∧
    (∀ n, Matters exZip n → exZip.filter (fun e => decide (e.1 = n)) = exMoreZip.filter (fun e => decide (e.1 = n))) ∧
    Matters exZip (lit "xl/worksheets/sheet1.xml") ∧
    ∃ d, openSrc t (lit "a.xlsx") = .ok (.xlsx exZip d) ∧ d.list = [lit "one", lit "two"] := by
  refine ⟨rfl, fun n hn => ?_, ?_, otherWorld_open p _ t ht⟩
  · obtain ⟨h1, h2⟩ := exZip_matters hn
    simp only [exMoreZip, List.cons_append, List.filter_cons, List.filter_append, List.filter_nil, decide_eq_true_eq,
      if_neg h1.symm, if_neg h2.symm, List.append_nil]
  · have r : Related exZip [] (relType "officeDocument") (lit "xl/workbook.xml") := by
      have := Related.package (a := exZip) _ _ rfl (List.mem_singleton.2 rfl)
      exact this
    have r' : Related exZip (lit "xl/") (relType "worksheet") (lit "worksheets/sheet1.xml") := by
      have := Related.workbook (a := exZip) (lit "xl/workbook.xml") _ _ r rfl List.mem_cons_self
      exact this
    have := Matters.sheet _ _ r'
    have e : Xlsx.relTarget (lit "xl/") (lit "worksheets/sheet1.xml") = lit "xl/worksheets/sheet1.xml" := by decide +kernel
    rw [e] at this
    exact this

/-- The attributes the other way round, and a comment before each element. -/
def reworded : List Xlsx.Tok → List Xlsx.Tok
  | [] => []
  | .start n as :: ts => .other :: .start n as.reverse :: reworded ts
  | t :: ts => t :: reworded ts

theorem reworded_same : ∀ ts : List Xlsx.Tok, (∀ n as, Xlsx.Tok.start n as ∈ ts → (as.map Prod.fst).Nodup) →
    SameToks ts (reworded ts) := by
  intro ts
  induction ts with
  | nil => intro _; exact .nil
  | cons t ts ih =>
    intro h
    have h' := ih (fun n as hm => h n as (List.mem_cons_of_mem _ hm))
    cases t with
    | start n as => exact .right _ _ (.start n as _ _ _ (List.reverse_perm as).symm (h n as List.mem_cons_self) h')
    | chars v => exact .same _ _ _ h'
    | stop n => exact .same _ _ _ h'
    | other => exact .same _ _ _ h'

/-- The archive of C61 with its parts reworded. -/
def exReworded : Xlsx.Archive := exZip.map (fun e => (e.1, e.2.map (fun p => ⟨reworded p.toks, p.fin⟩)))

/-- Whether the attributes of an element have distinct names. -/
def nodupTok : Xlsx.Tok → Bool
  | .start _ as => decide ((as.map Prod.fst).Nodup)
  | _ => true

/-- The hypotheses of C115 are met by the archive of C61 and the one with its parts reworded. -/
theorem C115_witness (p : Crypto.Prims) (t : List (Grate.Entry Source)) (ht : Shipped (otherWorld p exReworded) t) :
    List.Forall₂ (fun x y => x.1 = y.1 ∧ SamePart x.2 y.2) exZip exReworded ∧
    Xlsx.openXML exReworded (lit "_rels/.rels") ≠ Xlsx.openXML exZip (lit "_rels/.rels") ∧
    ∃ d, openSrc t (lit "a.xlsx") = .ok (.xlsx exZip d) ∧ d.list = [lit "one", lit "two"] := by
  refine ⟨?_, ?_, otherWorld_open p _ t ht⟩
  · unfold exReworded
    rw [List.forall₂_map_right_iff, List.forall₂_same]
    intro e he
    refine ⟨rfl, ?_⟩
    have key : ∀ e ∈ exZip, (match e.2 with
        | .ok p => p.toks.all nodupTok
        | .error _ => true) = true := by
      have : exZip.all (fun e => match e.2 with
        | .ok p => p.toks.all nodupTok
        | .error _ => true) = true := by decide +kernel
      exact List.all_eq_true.1 this
    have hk := key e he
    obtain ⟨n, x⟩ := e
    cases x with
    | error e => exact .error e
    | ok p =>
      refine .part p.toks (reworded p.toks) p.fin (reworded_same _ fun n as hm => ?_)
      have := List.all_eq_true.1 hk _ hm
      exact of_decide_eq_true this
  · have e1 : Xlsx.openXML exReworded (lit "_rels/.rels") =
        .ok ⟨reworded [exRelation (relType "officeDocument") (lit "rId1") (lit "xl/workbook.xml")], .eof⟩ := rfl
    have e2 : Xlsx.openXML exZip (lit "_rels/.rels") =
        .ok ⟨[exRelation (relType "officeDocument") (lit "rId1") (lit "xl/workbook.xml")], .eof⟩ := rfl
    rw [e1, e2]
    intro h
    simp [reworded, exRelation] at h

end Grate.Props
