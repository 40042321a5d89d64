import Verif.Props.Xlsx
import Verif.Props.XlsSheet
import Verif.Spec.Links

/-! # C130: links leave the cells of a sheet as they are -/

namespace Grate.Props

open Spec
open Xlsx (Tok)

namespace Links

/-! ### Cells -/

theorem builds_unique {ext : Ext} {f : Formatter} {v : GoVal} {n : Nat} {x y : Cell} (h : Builds ext f v n x)
    (h' : Builds ext f v n y) : x = y := by
  rw [builds_iff] at h h'
  rw [h] at h'
  cases h'
  rfl

theorem url_none {x : Cell} (h : x.type = .string) : x.url = none := by
  cases x with
  | empty => rfl
  | full v t o u =>
    have : t = .string := h
    subst this
    rfl

theorem shows_same {ext : Ext} {f : Formatter} {w : What} {x y : Cell} (h : Shows ext f w x) (h' : Shows ext f w y) :
    SameCell (some x) (some y) := by
  refine .inr ⟨x, y, rfl, rfl, ?_⟩
  cases w with
  | value v n => cases builds_unique h h'; exact ⟨rfl, rfl, rfl, rfl⟩
  | text t n =>
    obtain ⟨h1, h2, h3⟩ := h
    obtain ⟨g1, g2, g3⟩ := h'
    exact ⟨by rw [h1, g1], by rw [h2, g2], by rw [h3, g3], by rw [url_none h2, url_none g2]⟩
  | link l =>
    obtain ⟨h1, h2, h3, h4⟩ := h
    obtain ⟨g1, g2, g3, g4⟩ := h'
    exact ⟨by rw [h1, g1], by rw [h2, g2], by rw [h3, g3], by rw [h4, g4]⟩

theorem holds_same {ext : Ext} {f : Formatter} {ws vs : List Write} {s t : Sheet} (h : Holds ext f ws s)
    (h' : Holds ext f vs t) (r c : Nat) (e : lastAt r c ws = lastAt r c vs) : SameCell (s.cell? r c) (t.cell? r c) := by
  cases hl : lastAt r c ws with
  | none => exact .inl ⟨h.blank r c hl, h'.blank r c (by rw [← e]; exact hl)⟩
  | some w =>
    obtain ⟨x, h1, h2⟩ := h.written r c w hl
    obtain ⟨y, g1, g2⟩ := h'.written r c w (by rw [← e]; exact hl)
    rw [h2, g2]
    exact shows_same h1 g1

theorem lastAt_skip {r c : Nat} {ws vs : List Write} (h : lastAt r c vs = none) : lastAt r c (ws ++ vs) = lastAt r c ws := by
  rw [Xls.lastAt_append, h]; cases lastAt r c ws <;> rfl

theorem lastAt_take {r c : Nat} {ws vs : List Write} {x : What} (h : lastAt r c vs = some x) :
    lastAt r c (ws ++ vs) = some x := by
  rw [Xls.lastAt_append, h]; rfl

/-! ### OOXML workbooks -/

theorem links_toks {ext : Ext} {strings : List Bytes} {styles : List Nat} {links : Bytes → Bytes} {mr mc : Nat} :
    ∀ ks : List XmlLink, (∀ k ∈ ks, k.Ok links) →
      WsToks ext strings styles links mr mc (ks.flatMap XmlLink.toks) (ks.map (fun k => ⟨k.row, k.col, .link k.target⟩)) := by
  intro ks
  induction ks with
  | nil => intro _; exact .nil
  | cons k ks ih =>
    intro h
    obtain ⟨h1, ⟨s, h2, h3⟩, ⟨h4, h5⟩, h6, h7⟩ := h k (by simp)
    rw [List.flatMap_cons, List.map_cons]
    exact .link k.attrs k.row k.col s k.target _ _ h1 h2 h3 h4 h5 h6 h7
      (.other _ _ _ (by simp [Starts]) (ih (fun y hy => h y (by simp [hy]))))

theorem wsPart_append {ext : Ext} {strings : List Bytes} {styles : List Nat} {links : Bytes → Bytes} {ts us : List Tok}
    {m : Nat × Nat} {ws vs : List Write} (h : WsPart ext strings styles links ts m ws)
    (h' : WsToks ext strings styles links m.1 m.2 us vs) : WsPart ext strings styles links (ts ++ us) m (ws ++ vs) := by
  cases h with
  | plain _ _ h => exact .plain _ _ (wsToks_append h h')
  | dimension head attrs ref r c ts ws h1 h2 h3 h4 h5 =>
    rw [List.append_assoc, List.cons_append]
    exact .dimension head attrs ref r c _ _ h1 h2 h3 h4 (wsToks_append h5 h')

/-! ### Binary workbooks -/

/-- The writes of the links. -/
inductive LinkWrites (mr mc : Nat) : List BinLink → List Write → Prop
  | nil : LinkWrites mr mc [] []
  | cons (k : BinLink) (ks : List BinLink) (vs ws : List Write) :
      RegionWrites (k.region.clip mr mc) (some k.shown) vs → LinkWrites mr mc ks ws → LinkWrites mr mc (k :: ks) (vs ++ ws)

theorem linkWrites_exists (mr mc : Nat) : ∀ ks : List BinLink, ∃ ws, LinkWrites mr mc ks ws
  | [] => ⟨[], .nil⟩
  | k :: ks => by
    obtain ⟨ws, h⟩ := linkWrites_exists mr mc ks
    exact ⟨_, .cons k ks _ ws (Xls.region_exists _ _) h⟩

theorem linkWrites_outside {mr mc : Nat} {ks : List BinLink} {ws : List Write} (h : LinkWrites mr mc ks ws) (r c : Nat)
    (hn : ∀ k ∈ ks, ¬ k.Covers mr mc r c) : lastAt r c ws = none := by
  induction h with
  | nil => rfl
  | cons k ks vs ws hv _ ih =>
    rw [lastAt_skip (ih (fun k' hk => hn k' (by simp [hk])))]
    exact hv.other r c (hn k (by simp))

theorem linkWrites_first {mr mc : Nat} {ks : List BinLink} {ws : List Write} (h : LinkWrites mr mc ks ws)
    (hp : ks.Pairwise (fun k k' => ¬ k'.Covers mr mc k.region.r0 k.region.c0)) (k : BinLink) (hk : k ∈ ks)
    (hc : k.Covers mr mc k.region.r0 k.region.c0) :
    lastAt k.region.r0 k.region.c0 ws = some (.value (.str k.shown) 0) := by
  induction h with
  | nil => cases hk
  | cons k' ks vs ws hv hw ih =>
    rw [List.pairwise_cons] at hp
    rcases List.mem_cons.1 hk with rfl | hk
    · rw [lastAt_skip (linkWrites_outside hw _ _ hp.1)]
      exact hv.first (Nat.le_trans hc.1 hc.2.1) (Nat.le_trans hc.2.2.1 hc.2.2.2)
    · exact lastAt_take (ih hp.2 hk)

theorem linkWrites_marked {mr mc : Nat} {ks : List BinLink} {ws : List Write} (h : LinkWrites mr mc ks ws)
    (k : BinLink) (r c : Nat) (m : Bytes) (hm : Marked (k.region.clip mr mc) r c m) (as bs : List BinLink)
    (hks : ks = as ++ k :: bs) (hb : ∀ k' ∈ bs, ¬ k'.Covers mr mc r c) : lastAt r c ws = some (.value (.str m) 0) := by
  induction h generalizing as with
  | nil => simp at hks
  | cons k' ks vs ws hv hw ih =>
    cases as with
    | nil =>
      simp only [List.nil_append, List.cons.injEq] at hks
      obtain ⟨rfl, rfl⟩ := hks
      rw [lastAt_skip (linkWrites_outside hw _ _ hb)]
      exact hv.marked r c m hm
    | cons a as =>
      simp only [List.cons_append, List.cons.injEq] at hks
      exact lastAt_take (ih as hks.2)

theorem recs_others {strings : List (List Nat)} {styles : List Nat} {mr mc : Nat} : ∀ {rs : List Record},
    (∀ r ∈ rs, ¬ cellType r.type) → SheetRecs strings styles mr mc rs []
  | [], _ => .nil
  | r :: rs, h => .other r rs [] (h r (by simp)) (recs_others (fun x hx => h x (by simp [hx])))

theorem recs_links {strings : List (List Nat)} {styles : List Nat} {mr mc : Nat} {post : List Record}
    (hpost : ∀ r ∈ post, ¬ cellType r.type) {ks : List BinLink} {ws : List Write} (h : LinkWrites mr mc ks ws)
    (hk : ∀ k ∈ ks, k.Ok mr mc) : SheetRecs strings styles mr mc (ks.map BinLink.record ++ post) ws := by
  induction h with
  | nil => exact recs_others hpost
  | cons k ks vs ws hv _ ih =>
    have o := hk k (by simp)
    exact .hlink k.region k.hyper k.cls k.tail k.display k.target vs _ ws o.fits o.clips o.rows o.cols o.hyper o.cls
      o.display o.target hv (ih (fun k' h' => hk k' (by simp [h'])))

theorem recs_append {strings : List (List Nat)} {styles : List Nat} {mr mc : Nat} {xs ys : List Record}
    {ws vs : List Write} (h : SheetRecs strings styles mr mc xs ws) (h' : SheetRecs strings styles mr mc ys vs)
    (hh : ∀ r, ys.head? = some r → r.type ≠ 0x3C) : SheetRecs strings styles mr mc (xs ++ ys) (ws ++ vs) := by
  induction h with
  | nil => exact h'
  | other r rs ws h1 _ ih => exact .other r _ _ h1 ih
  | block b e inner rs ws h1 h2 h3 _ ih =>
    have := SheetRecs.block b e inner _ _ h1 h2 h3 ih
    simpa using this
  | number row col xf bits tail rs ws h1 h2 _ ih => exact .number row col xf bits tail _ _ h1 h2 ih
  | rk row col xf r tail rs ws h1 h2 h3 _ ih => exact .rk row col xf r tail _ _ h1 h2 h3 ih
  | mulRk row col last us rs ws h1 h2 h3 h4 _ ih =>
    have := SheetRecs.mulRk row col last us _ _ h1 h2 h3 h4 ih
    simpa using this
  | bool row col xf v tail rs ws h1 _ ih => exact .bool row col xf v tail _ _ h1 ih
  | error row col xf v k tail rs ws h1 h2 _ ih => exact .error row col xf v k tail _ _ h1 h2 ih
  | label row col xf i t tail rs ws h1 h2 h3 _ ih =>
    have := SheetRecs.label row col xf i t tail _ _ h1 h2 h3 ih
    simpa using this
  | formula row col xf bits tail rs ws h1 h2 h3 _ ih => exact .formula row col xf bits tail _ _ h1 h2 h3 ih
  | formulaBool row col xf u v x y z tail rs ws h1 _ ih => exact .formulaBool row col xf u v x y z tail _ _ h1 ih
  | formulaError row col xf u v x y z tail rs ws h1 _ ih => exact .formulaError row col xf u v x y z tail _ _ h1 ih
  | formulaBlank row col xf u v x y z tail rs ws h1 _ ih => exact .formulaBlank row col xf u v x y z tail _ _ h1 ih
  | formulaText row col xf count u v x y z tail mid p ps rs ws h1 h2 h3 h4 h5 h6 h7 h8 _ ih =>
    have := SheetRecs.formulaText row col xf count u v x y z tail mid p ps _ _ h1 h2 h3 h4 h5 h6 h7 (by
      intro r hr
      cases rs with
      | nil => exact hh r hr
      | cons a rs => exact h8 r hr) ih
    simpa using this
  | merge gs tail us rs ws h1 h2 _ ih =>
    have := SheetRecs.merge gs tail us _ _ h1 h2 ih
    simpa using this
  | hlink g h cls tail d l us rs ws h1 h2 h3 h4 h5 h6 h7 h8 h9 _ ih =>
    have := SheetRecs.hlink g h cls tail d l us _ _ h1 h2 h3 h4 h5 h6 h7 h8 h9 ih
    simpa using this

theorem declares_append {m m' : Nat × Nat} {xs ys : List Record} (h : Declares m xs m')
    (h' : ∀ r ∈ ys, r.type ≠ 0x809 ∧ r.type ≠ 129 ∧ r.type ≠ 512) : Declares m (xs ++ ys) m' := by
  induction h with
  | nil m =>
    induction ys with
    | nil => exact .nil m
    | cons y ys ih =>
      obtain ⟨h1, h2, h3⟩ := h' y (by simp)
      exact .other _ _ y _ h1 h2 h3 (ih (fun r hr => h' r (by simp [hr])))
  | other m m' r rs h1 h2 h3 _ ih => exact .other _ _ r _ h1 h2 h3 ih
  | block m m' b e inner rs h1 h2 h3 _ ih =>
    have := Declares.block _ _ b e inner _ h1 h2 h3 ih
    simpa using this
  | wsBool m m' x y tail rs h1 _ ih => exact .wsBool _ _ x y tail _ h1 ih
  | dims m m' r0 r1 c0 c1 tail rs h1 h2 _ ih => exact .dims _ _ r0 r1 c0 c1 tail _ h1 h2 ih

theorem shown_plain (k : BinLink) : isMarker k.shown = false ∧ k.shown ≠ [] := by
  have h1 : k.shown ≠ [] := by
    unfold BinLink.shown
    rw [show lit ">" = [62] from by decide +kernel]
    simp
  refine ⟨?_, h1⟩
  cases hm : isMarker k.shown with
  | false => rfl
  | true =>
    exfalso
    have hmk := (marker_iff k.shown).mp hm
    have hl : k.shown.getLast? = some 62 := by
      unfold BinLink.shown
      rw [show lit ">" = [62] from by decide +kernel, List.getLast?_concat]
    rcases hmk with e | e | e | e <;> rw [e] at hl <;> revert hl <;> decide +kernel

theorem plain_builds {ext : Ext} {f : Formatter} {t : Bytes} {x : Cell} (hm : isMarker t = false) (h0 : t ≠ [])
    (h : Builds ext f (.str t) 0 x) : x = .full (.str t) .string none [] := by
  rw [builds_iff] at h
  unfold putCell at h
  have hm' : (GoVal.str t).marker = false := hm
  have ht : typedCell ext f (.str t) 0 = .ok (textCell t) := by
    unfold typedCell
    cases f.getCellType 0 with
    | none => rfl
    | some ct => simp only [if_true]; rfl
  rw [hm'] at h
  simp only [cond_false, ht, GoRes.ok_bind] at h
  unfold textCell at h
  rw [if_neg h0] at h
  cases h
  rfl

end Links

open Links

/-- C130 for OOXML workbooks: a worksheet with any content and after it links of cells. URL gives the target of each
link, and all cells without a link are as in the worksheet without links. Missing: the values of the cells with a link,
which are lost (`C130_xlsx_counterexample`): their value is the target of the link; links of several cells, which panic
(`C62_counterexample`). -/
theorem C130_xlsx_partial (ext : Ext) (a a' : Xlsx.Archive) (d : Xlsx.Doc) (dir : List Bytes) (base : Bytes)
    (hdir : ∀ s ∈ dir, RealName s) (hbase : PathName base) (ts : List Tok) (ls : List (Bytes × Bytes))
    (us : List Tok) (hu : LinkToks us ls) (hl : HasPart a (relsPart dir base) us) (hl' : HasPart a' (relsPart dir base) us)
    (m : Nat × Nat) (ws : List Write) (h : WsPart ext d.strings d.xfs (targetOf ls) ts m ws)
    (hp : HasPart a (pathOf (dir ++ [base])) ts) (ks : List XmlLink) (hk : ∀ k ∈ ks, k.Ok (targetOf ls))
    (hn : (ks.map (fun k => (k.row, k.col))).Nodup)
    (hp' : HasPart a' (pathOf (dir ++ [base])) (ts ++ ks.flatMap XmlLink.toks)) :
    ∃ s s', Xlsx.parseSheet ext a d (pathOf (dir ++ [base])) = .ok (s, none) ∧
      Xlsx.parseSheet ext a' d (pathOf (dir ++ [base])) = .ok (s', none) ∧
      (∀ k ∈ ks, ∃ x, s'.cell? k.row k.col = some x ∧ x.type = .hyperlink ∧ x.url = some k.target ∧
        x.value = (if k.target = [] then .nil else .str k.target) ∧ x.formatNo = 0) ∧
      (∀ r c : Nat, (∀ k ∈ ks, ¬ (k.row = r ∧ k.col = c)) → SameCell (s.cell? r c) (s'.cell? r c)) := by
  obtain ⟨s, e, hh, _⟩ := C58_sheet_partial ext a d dir base hdir hbase ts hp ls (.inr ⟨us, hl, hu⟩) m ws h
  obtain ⟨s', e', hh', _⟩ := C58_sheet_partial ext a' d dir base hdir hbase _ hp' ls (.inr ⟨us, hl', hu⟩) m _
    (wsPart_append h (links_toks ks hk))
  have hmap : (ks.map (fun k : XmlLink => (⟨k.row, k.col, .link k.target⟩ : Write))).map (fun w => (w.row, w.col)) =
      ks.map (fun k => (k.row, k.col)) := by
    rw [List.map_map]; rfl
  refine ⟨s, s', e, e', ?_, ?_⟩
  · intro k hkm
    have hla := lastAt_distinct _ (by rw [hmap]; exact hn) _ (List.mem_map_of_mem (f := fun k : XmlLink =>
      (⟨k.row, k.col, .link k.target⟩ : Write)) hkm)
    obtain ⟨x, ⟨h1, h2, h3, h4⟩, hx⟩ := hh'.written _ _ _ (lastAt_take (ws := ws) hla)
    exact ⟨x, hx, h2, h4, h1, h3⟩
  · intro r c hne
    refine holds_same hh hh' r c (lastAt_skip ?_).symm
    refine lastAt_absent r c _ ?_
    rw [hmap]
    intro hm
    obtain ⟨k, h1, h2⟩ := List.mem_map.1 hm
    cases h2
    exact hne k h1 ⟨rfl, rfl⟩

/-- C130 for binary workbooks: a sheet with any content and after it links. The first cell of a link has its display text
and its target as a text; all cells without a link are as in the sheet without links. Missing: the values of the cells
with a link, which are lost, and URL, which never gives the target; the other cells of a link get the markers of merged
cells. -/
theorem C130_xls_partial (ext : Ext) (b b' : Xls.Book) (i : Nat) (recs recs' : List Xls.Rec) (hi : b.subs[i]? = some recs)
    (hi' : b'.subs[i]? = some recs') (hz : Xls.Sized recs) (hz' : Xls.Sized recs') (strings : List (List Nat))
    (styles : List Nat) (hs : b.strings = strings.map utf8) (hs' : b'.strings = strings.map utf8) (hx : b.xfs = styles)
    (hx' : b'.xfs = styles) (hf : b'.nfmt = b.nfmt) (bof : Record) (hb : bof.type = 0x809) (pre post : List Record)
    (ks : List BinLink) (hv : recs.map Xls.Rec.view = bof :: (pre ++ post))
    (hv' : recs'.map Xls.Rec.view = bof :: (pre ++ (ks.map BinLink.record ++ post))) (mr mc : Nat)
    (hd : Declares (0, 0) pre (mr, mc)) (ws : List Write) (h : SheetRecs strings styles mr mc pre ws)
    (hpost : ∀ r ∈ post, ¬ cellType r.type ∧ r.type ≠ 129 ∧ r.type ≠ 512) (hc : ∀ r, post.head? = some r → r.type ≠ 0x3C)
    (hk : ∀ k ∈ ks, k.Ok mr mc) (hn : ks.Pairwise (fun k k' => ¬ k'.Covers mr mc k.region.r0 k.region.c0)) :
    ∃ s s', Xls.parseSheet ext b i = .ok (some s) ∧ Xls.parseSheet ext b' i = .ok (some s') ∧
      (∀ k ∈ ks, ∃ x, s'.cell? k.region.r0 k.region.c0 = some x ∧ x.type = .string ∧ x.value = .str k.shown ∧
        x.formatNo = 0 ∧ x.url = none) ∧
      (∀ (as bs : List BinLink) (k : BinLink) (r c : Nat) (t : Bytes), ks = as ++ k :: bs →
        (∀ k' ∈ bs, ¬ k'.Covers mr mc r c) → Marked (k.region.clip mr mc) r c t →
        s'.cell? r c = some (.full (.str t) .static none [])) ∧
      (∀ r c : Nat, (∀ k ∈ ks, ¬ k.Covers mr mc r c) → SameCell (s.cell? r c) (s'.cell? r c)) := by
  have hbof : ∀ r ∈ post, r.type ≠ 0x809 ∧ r.type ≠ 129 ∧ r.type ≠ 512 := by
    intro r hr
    obtain ⟨h1, h2, h3⟩ := hpost r hr
    exact ⟨fun e => h1 (.inl e), h2, h3⟩
  obtain ⟨vs, hw⟩ := linkWrites_exists mr mc ks
  obtain ⟨s, e, hh, _⟩ := C49_sheet_partial ext b i recs hi hz strings styles hs hx bof _ hv hb mr mc
    (declares_append hd hbof) _ (recs_append h (recs_others (fun r hr => (hpost r hr).1)) hc)
  obtain ⟨s', e', hh', _⟩ := C49_sheet_partial ext b' i recs' hi' hz' strings styles hs' hx' bof _ hv' hb mr mc
    (declares_append hd (by
      intro r hr
      rcases List.mem_append.1 hr with hr | hr
      · obtain ⟨k, _, rfl⟩ := List.mem_map.1 hr
        exact ⟨by simp [BinLink.record], by simp [BinLink.record], by simp [BinLink.record]⟩
      · exact hbof r hr)) _ (recs_append h (recs_links (fun r hr => (hpost r hr).1) hw hk) (by
      intro r hr
      cases ks with
      | nil => exact hc r hr
      | cons k ks => cases hr; simp [BinLink.record]))
  rw [List.append_nil] at hh
  rw [hf] at hh'
  refine ⟨s, s', e, e', ?_, ?_, ?_⟩
  · intro k hkm
    obtain ⟨x, h1, h2⟩ := hh'.written _ _ _ (lastAt_take (ws := ws) (linkWrites_first hw hn k hkm (hk k hkm).first))
    cases plain_builds (shown_plain k).1 (shown_plain k).2 h1
    exact ⟨_, h2, rfl, rfl, rfl, rfl⟩
  · intro as bs k r c t hks hbs hm
    obtain ⟨x, h1, h2⟩ := hh'.written _ _ _ (lastAt_take (ws := ws) (linkWrites_marked hw k r c t hm as bs hks hbs))
    rw [h2, marker_builds ext _ t (marker_of_marked hm) x h1]
  · intro r c hne
    exact holds_same hh hh' r c (lastAt_skip (linkWrites_outside hw r c hne)).symm

/-- The rows of a sheet as Strings gives them. -/
def firstRow (ext : Ext) (s : Sheet) : GoRes (List Bytes) := ({ s with curRow := 1 } : Sheet).strings ext

/-- A worksheet with the text "b" in A1, and what is after it. -/
def exLinkPart (more : List Tok) : List Tok :=
  [.start (lit "c") [(lit "r", lit "A1"), (lit "t", lit "s")], .start (lit "v") [], .chars (lit "1"), .stop (lit "v"),
    .stop (lit "c")] ++ more

/-- Its relationships: a link. -/
def exLinkRels : List Tok :=
  [.start (lit "Relationship") [(lit "Id", lit "R"), (lit "Type", relType "hyperlink"), (lit "Target", lit "h:x"),
    (lit "TargetMode", lit "External")]]

/-- The archive. -/
def exLinkArchive (more : List Tok) : Xlsx.Archive :=
  [(lit "s", .ok ⟨exLinkPart more, .eof⟩), (lit "_rels/s.rels", .ok ⟨exLinkRels, .eof⟩)]

/-- C130 is false for the cells with a link of an OOXML workbook: without a link the text of the cell is "b"; with a
link to h:x it is "h:x"; with a link inside the workbook it is lost. -/
theorem C130_xlsx_counterexample (ext : Ext) :
    (∃ s, Xlsx.parseSheet ext (exLinkArchive []) exXlsxDoc (lit "s") = .ok (s, none) ∧
      s.cell? 0 0 = some (.full (.str (lit "b")) .string none [])) ∧
    (∃ s, Xlsx.parseSheet ext (exLinkArchive [.start (lit "hyperlink") [(lit "ref", lit "A1"), (lit "id", lit "R")]])
        exXlsxDoc (lit "s") = .ok (s, none) ∧
      s.cell? 0 0 = some (.full (.str (lit "h:x")) .hyperlink (some 0) [lit "h:x"])) ∧
    (∃ s, Xlsx.parseSheet ext (exLinkArchive [.start (lit "hyperlink") [(lit "ref", lit "A1"), (lit "location", lit "T!A1")]])
        exXlsxDoc (lit "s") = .ok (s, none) ∧
      s.cell? 0 0 = some (.full .nil .hyperlink (some 0) [[]]) ∧ firstRow ext s = .ok [lit "<nil>"]) := by
  refine ⟨⟨_, rfl, rfl⟩, ⟨_, rfl, rfl⟩, ⟨_, rfl, rfl, ?_⟩⟩
  rfl

/-! ### An example of a binary workbook -/

/-- The size of the sheet, and the numbers with the bits `x` in A1 and `y` in B1. -/
def exLinkRecs (x y : Nat) : List Record :=
  [⟨512, leBytes 4 0 ++ (leBytes 4 1 ++ (leBytes 2 0 ++ (leBytes 2 2 ++ [0, 0])))⟩,
    ⟨515, cellHead 0 0 0 (leBytes 8 x ++ [])⟩, ⟨515, cellHead 0 1 0 (leBytes 8 y ++ [])⟩]

/-- A link of both cells. -/
def exBinLink : BinLink := ⟨⟨0, 0, 0, 1⟩, exHyper [104, 58], List.replicate 16 0, [], lit "Hi", lit "#a"⟩

/-- A book with the records as its only substream. -/
def exLinkBook (rs : List Record) : Xls.Book :=
  ⟨[], 0, [], [rs.map (fun r => Xls.recOf r [])], [], Formatter.new, []⟩

theorem exLinkRecs_ok (x y : Nat) (hx : x < 2 ^ 64) (hy : y < 2 ^ 64) : Declares (0, 0) (exLinkRecs x y) (1, 2) ∧
    SheetRecs [] [] 1 2 (exLinkRecs x y) [⟨0, 0, .value (.f64 (Float.ofBits (UInt64.ofNat x))) 0⟩,
      ⟨0, 1, .value (.f64 (Float.ofBits (UInt64.ofNat y))) 0⟩] := by
  constructor
  · exact .dims _ _ 0 1 0 2 [0, 0] _ (by decide) (by decide) (.other _ _ _ _ (by simp) (by simp) (by simp)
      (.other _ _ _ _ (by simp) (by simp) (by simp) (.nil _)))
  · exact .other _ _ _ (by unfold cellType; decide) (.number 0 0 0 x [] _ _ (by unfold HeadFits; decide) hx
      (.number 0 1 0 y [] _ _ (by unfold HeadFits; decide) hy .nil))

theorem exBinLink_ok : exBinLink.Ok 1 2 := by
  refine ⟨by unfold Region.Fits; decide, by unfold Region.Clips; decide, by decide, by decide, exHyper_ok.1, by decide, ?_, ?_,
    by unfold BinLink.Covers; decide⟩
  · refine ⟨[], [32], by decide +kernel, by simp, by simp [Blank], ?_, ?_⟩
    · intro b hb; rw [show b = 72 from (Option.some.inj (hb.symm.trans (by decide +kernel)))]; unfold Blank; decide
    · intro b hb; rw [show b = 105 from (Option.some.inj (hb.symm.trans (by decide +kernel)))]; unfold Blank; decide
  · refine ⟨[], [], by decide +kernel, by simp, by simp, ?_, ?_⟩
    · intro b hb; rw [show b = 35 from (Option.some.inj (hb.symm.trans (by decide +kernel)))]; unfold Blank; decide
    · intro b hb; rw [show b = 97 from (Option.some.inj (hb.symm.trans (by decide +kernel)))]; unfold Blank; decide

/-- C130 is false for the cells with a link of a binary workbook, whatever their numbers: in place of the number of the
first cell there is the text "Hi <#a>", URL gives nothing, and the number of the second cell is lost. The example meets
the hypotheses of `C130_xls_partial`. -/
theorem C130_xls_counterexample (ext : Ext) (x y : Nat) (hx : x < 2 ^ 64) (hy : y < 2 ^ 64) :
    ∃ s s', Xls.parseSheet ext (exLinkBook (⟨0x809, []⟩ :: (exLinkRecs x y ++ [⟨0x0A, []⟩]))) 0 = .ok (some s) ∧
      Xls.parseSheet ext (exLinkBook (⟨0x809, []⟩ :: (exLinkRecs x y ++ ([exBinLink.record] ++ [⟨0x0A, []⟩])))) 0 =
        .ok (some s') ∧
      (∃ c, s'.cell? 0 0 = some c ∧ c.type = .string ∧ c.value = .str (lit "Hi <#a>") ∧ c.url = none) ∧
      s'.cell? 0 1 = some (.full (.str (lit "⇥")) .static none []) := by
  have sized : ∀ rs : List Record, Xls.Sized (rs.map (fun r => Xls.recOf r [])) := by
    intro rs r hr
    obtain ⟨q, _, rfl⟩ := List.mem_map.1 hr
    rfl
  have view : ∀ rs : List Record, (rs.map (fun r => Xls.recOf r [])).map Xls.Rec.view = rs := by
    intro rs
    rw [List.map_map]
    exact List.map_id _
  obtain ⟨s, s', e, e', h1, h2, _⟩ := C130_xls_partial ext
    (exLinkBook (⟨0x809, []⟩ :: (exLinkRecs x y ++ [⟨0x0A, []⟩])))
    (exLinkBook (⟨0x809, []⟩ :: (exLinkRecs x y ++ ([exBinLink].map BinLink.record ++ [⟨0x0A, []⟩])))) 0 _ _ rfl rfl
    (sized _) (sized _) [] [] rfl rfl rfl rfl rfl ⟨0x809, []⟩ rfl (exLinkRecs x y) [⟨0x0A, []⟩] [exBinLink] (view _) (view _)
    1 2 (exLinkRecs_ok x y hx hy).1 _ (exLinkRecs_ok x y hx hy).2 (by simp [cellType]) (by simp)
    (by simp [exBinLink_ok]) (by simp)
  obtain ⟨c, g1, g2, g3, _, g5⟩ := h1 exBinLink (by simp)
  refine ⟨s, s', e, e', ⟨c, g1, g2, ?_, g5⟩, ?_⟩
  · rw [g3, show exBinLink.shown = lit "Hi <#a>" from by decide +kernel]
  · exact h2 [] [] exBinLink 0 1 _ rfl (by simp) (.endCol 0 (by decide) (by decide) (by decide))

/-- The link of AB12 in the example. -/
def exXmlLink : XmlLink := ⟨[(lit "ref", lit "AB12"), (lit "id", lit "R")], 11, 27, lit "h:x"⟩

/-- The hypotheses of `C130_xlsx_partial` hold for the example: a cell with a link, and a cell without. -/
theorem C130_xlsx_witness (ext : Ext) : ∃ s s', Xlsx.parseSheet ext (exLinkArchive []) exXlsxDoc (lit "s") = .ok (s, none) ∧
    Xlsx.parseSheet ext (exLinkArchive exXmlLink.toks) exXlsxDoc (lit "s") = .ok (s', none) ∧
    (∃ x, s'.cell? 11 27 = some x ∧ x.url = some (lit "h:x")) ∧ SameCell (s.cell? 0 0) (s'.cell? 0 0) := by
  have hname : pathOf ([] ++ [lit "s"]) = lit "s" := by decide +kernel
  have hrels : relsPart [] (lit "s") = lit "_rels/s.rels" := by decide +kernel
  have hbody : WsPart ext exXlsxDoc.strings exXlsxDoc.xfs (targetOf [(lit "R", lit "h:x")]) (exLinkPart []) (0, 0)
      [⟨0, 0, .value (.str (lit "b")) 0⟩] := by
    refine .plain _ _ ?_
    have := WsToks.cell (ext := ext) (strings := exXlsxDoc.strings) (styles := exXlsxDoc.xfs)
      (links := targetOf [(lit "R", lit "h:x")]) (maxRow := 0) (maxCol := 0) [(lit "r", lit "A1"), (lit "t", lit "s")] 0 0 0
      (lit "A1") (some (lit "s")) [.start (lit "v") [], .chars (lit "1"), .stop (lit "v")] (some (.str (lit "b"))) [] []
      (by unfold Distinct; decide +kernel) (by unfold Has; decide +kernel) exA1 (by unfold maxIndex; decide)
      (by unfold maxIndex; decide)
      (.inl ⟨by
        intro v hv
        simp only [List.mem_cons, Prod.mk.injEq, List.not_mem_nil, or_false] at hv
        rcases hv with ⟨h, _⟩ | ⟨h, _⟩ <;> exact absurd h (by decide +kernel), rfl⟩) (by decide)
      (.inr ⟨_, by unfold Has; decide +kernel, rfl⟩)
      (.value [] [] (lit "v") (lit "1") [] _ (by simp) (by simp) (.inl rfl)
        (.shared (lit "1") (lit "b") (isDigits_of (by decide +kernel)) (by decide +kernel) (by decide +kernel))) .nil
    exact this
  have hlinks : LinkToks exLinkRels [(lit "R", lit "h:x")] :=
    .link _ _ _ _ _ (by unfold Distinct; decide +kernel) (by unfold Has; decide +kernel) (by unfold Has; decide +kernel)
      (by unfold Has; decide +kernel) (by unfold Has; decide +kernel) .nil
  have hk : exXmlLink.Ok (targetOf [(lit "R", lit "h:x")]) :=
    ⟨by unfold Distinct; decide +kernel, ⟨_, by unfold Has; decide +kernel, exAB12⟩, by unfold maxIndex; decide,
      .inr ⟨lit "R", by unfold Has; decide +kernel, by decide +kernel⟩, by decide +kernel⟩
  have hrp : ∀ more, HasPart (exLinkArchive more) (relsPart [] (lit "s")) exLinkRels := by
    intro more
    refine ⟨[(lit "s", .ok ⟨exLinkPart more, .eof⟩)], [], by rw [hrels]; rfl, ?_⟩
    intro e he
    rw [List.mem_singleton] at he
    subst he
    show lit "s" ≠ _
    rw [hrels]
    decide +kernel
  have hpart : ∀ more, HasPart (exLinkArchive more) (pathOf ([] ++ [lit "s"])) (exLinkPart more) := by
    intro more
    exact ⟨[], [(lit "_rels/s.rels", .ok ⟨exLinkRels, .eof⟩)], by rw [hname]; rfl, by simp⟩
  obtain ⟨s, s', e, e', h1, h2⟩ := C130_xlsx_partial ext (exLinkArchive []) (exLinkArchive exXmlLink.toks) exXlsxDoc []
    (lit "s") (by simp) ⟨by decide +kernel, by decide +kernel⟩ (exLinkPart []) _ _ hlinks (hrp _) (hrp _) (0, 0) _ hbody
    (hpart _) [exXmlLink] (by simp [hk]) (by simp) (hpart exXmlLink.toks)
  rw [hname] at e e'
  obtain ⟨x, g1, _, g2, _⟩ := h1 exXmlLink (by simp)
  exact ⟨s, s', e, e', ⟨x, g1, g2⟩, h2 0 0 (by simp [exXmlLink])⟩

end Grate.Props
