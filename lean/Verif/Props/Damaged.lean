import Verif.Props.XlsxDoc
import Verif.Props.Unused
import Verif.Props.Independent
import Verif.Props.Xml
import Verif.Lemmas.GoXmlCut

/-! # Damaged parts of xlsx files (C125) -/

namespace Grate.Spec

open Grate Grate.Xlsx

/-- The archive has no such part, or it cannot be opened, or reading it ends with an error: the error (`io.EOF` if there is no such
part, as in `/repo/xlsx/xlsx.go:149`). -/
inductive BrokenPart (a : List (Bytes × Except GoErr Part)) (n : Bytes) : GoErr → Prop where
  | missing : LacksPart a n → BrokenPart a n .eof
  | unreadable (before after : List (Bytes × Except GoErr Part)) (e : GoErr) : a = before ++ (n, .error e) :: after →
    (∀ x ∈ before, x.1 ≠ n) → BrokenPart a n e
  | cut (before after : List (Bytes × Except GoErr Part)) (ts : List Tok) (e : GoErr) : a = before ++ (n, .ok ⟨ts, e⟩) :: after →
    (∀ x ∈ before, x.1 ≠ n) → e ≠ .eof → BrokenPart a n e

/-- The same entries, except for those of one name. -/
def SameBut (n : Bytes) (a a' : List (Bytes × Except GoErr Part)) : Prop :=
  a.filter (fun e => decide (e.1 ≠ n)) = a'.filter (fun e => decide (e.1 ≠ n))

/-- The parts that are read when a document is opened, after the relationships of the package. -/
def CorePart (dir : List Bytes) (base : Bytes) (b : Spec.Book) (n : Bytes) : Prop :=
  n = relsPart dir base ∨ n = pathOf (dir ++ [base]) ∨ n ∈ partsOf b.rels (relType "styles") ∨
    n ∈ partsOf b.rels (relType "sharedStrings")

end Grate.Spec

namespace Grate.Props

open Grate.Spec Grate.Xlsx Grate.Api

theorem openXML_but (n m : Bytes) (hm : m ≠ n) : ∀ a : Archive,
    openXML a m = openXML (a.filter (fun e => decide (e.1 ≠ n))) m := by
  intro a
  induction a with
  | nil => rfl
  | cons x a ih =>
    obtain ⟨k, p⟩ := x
    by_cases e : k = n
    · subst e
      simp [openXML, ih, Ne.symm hm]
    · simp only [ne_eq, e, not_false_eq_true, decide_true, List.filter_cons_of_pos, openXML]
      rw [ih]

theorem openXML_same {n : Bytes} {a a' : Archive} (h : SameBut n a a') {m : Bytes} (hm : m ≠ n) :
    openXML a' m = openXML a m := by
  rw [openXML_but n m hm a, openXML_but n m hm a', h]

theorem openXML_at {before after : Archive} {n : Bytes} {x : Except GoErr Part} (h : ∀ e ∈ before, e.1 ≠ n) :
    openXML (before ++ (n, x) :: after) n = x := by
  induction before with
  | nil => simp [openXML]
  | cons e before ih =>
    obtain ⟨k, p⟩ := e
    rw [List.cons_append, openXML, if_neg (h (k, p) (by simp)), ih (fun x hx => h x (by simp [hx]))]

theorem broken_open {a : Archive} {n : Bytes} {e : GoErr} (h : BrokenPart a n e) :
    openXML a n = .error e ∨ ∃ ts, openXML a n = .ok ⟨ts, e⟩ ∧ e ≠ .eof := by
  cases h with
  | missing h => exact .inl (openXML_lacks h)
  | unreadable x y e h1 h2 => subst h1; exact .inl (openXML_at h2)
  | cut x y ts e h1 h2 h3 => subst h1; exact .inr ⟨ts, openXML_at h2, h3⟩

theorem finish_err {α : Type} (x : α) {e : GoErr} (h : e ≠ .eof) : finish x e = .err e := by
  unfold finish finErr
  cases e <;> first | rfl | exact absurd rfl h

/-- What opening a document reads. -/
theorem xlsx_opens_by (order : List Bytes → List Bytes) (ho : ∀ l, (order l).Perm l)
    {a : Archive} {dir : List Bytes} {base : Bytes} {b : Spec.Book} (h : XlsxFile a dir base b) :
    ∃ st0 st1 : RelSt, ∃ ts0 ts1 ts2 : List Tok, ∃ sheets, openXML a (lit "_rels/.rels") = .ok ⟨ts0, .eof⟩ ∧
      parseRels [] ⟨ts0, .eof⟩ ⟨[], []⟩ = .ok st0 ∧ st0.primaryDoc = pathOf (dir ++ [base]) ∧ pathOf (dir ++ [base]) ≠ [] ∧
      relsOf (pathOf (dir ++ [base])) = relsPart dir base ∧ openXML a (relsPart dir base) = .ok ⟨ts1, .eof⟩ ∧
      parseRels (dirOf (pathOf (dir ++ [base]))) ⟨ts1, .eof⟩ st0 = .ok st1 ∧ st1.primaryDoc = pathOf (dir ++ [base]) ∧
      openXML a (pathOf (dir ++ [base])) = .ok ⟨ts2, .eof⟩ ∧ parseWorkbook st1.rels ⟨ts2, .eof⟩ = .ok sheets ∧
      order (st1.rels.values tStyles) = partsOf b.rels (relType "styles") ∧
      order (st1.rels.values tSharedStrings) = partsOf b.rels (relType "sharedStrings") ∧
      (partsOf b.rels (relType "styles") = [] ∨ ∃ p ts, partsOf b.rels (relType "styles") = [p] ∧ openXML a p = .ok ⟨ts, .eof⟩ ∧
        ∀ mk, ∃ x, parseStyles mk ⟨ts, .eof⟩ Formatter.new = .ok x) ∧
      (partsOf b.rels (relType "sharedStrings") = [] ∨ ∃ p, partsOf b.rels (relType "sharedStrings") = [p]) := by
  obtain ⟨hdn, hbn, ⟨ts0, before, after, r0, hp0, hr0, ht0, htg0, hlast, hno⟩, ⟨ts1, hp1, hr1⟩, hother, hids, ⟨ts2, hp2, hb2⟩, hsty, hstr⟩ := h
  obtain ⟨a1, a2, a3⟩ := relsLoop_spec (dir := []) (by simp) hr0 ⟨[], []⟩
  generalize hst0 : relsLoop (dirText []) ts0 ⟨[], []⟩ = st0 at a1 a2 a3
  have hprim : st0.primaryDoc = pathOf (dir ++ [base]) := by rw [a2 before after r0 rfl ht0 hlast, htg0]
  obtain ⟨b1, _, b3⟩ := relsLoop_spec hdn hr1 st0
  generalize hst1 : relsLoop (dirText dir) ts1 st0 = st1 at b1 b3
  have hprim1 : st1.primaryDoc = pathOf (dir ++ [base]) := by rw [b3 hother, hprim]
  have hempty : ∀ t ∈ [relType "worksheet", relType "styles", relType "sharedStrings"], t ∈ partTypes →
      ofType t st0.rels = [] := by
    intro t ht hm
    have hf : ((before ++ r0 :: after).filter (fun r => decide (r.type = t))) = [] := by
      rw [List.filter_eq_nil_iff]
      intro x hx he
      exact hno x hx (by rw [of_decide_eq_true he]; exact ht)
    have := a1 t hm (by rw [hf]; simp [ofType])
    rw [hf] at this
    rw [this]
    simp [ofType]
  have hrels : ∀ t ∈ [relType "worksheet", relType "styles", relType "sharedStrings"], t ∈ partTypes →
      ofType t st1.rels = (b.rels.filter (fun r => r.type = t)).map (fun r => (r.id, r.part)) := by
    intro t ht hm
    have := b1 t hm (by
      rw [hempty t ht hm]
      simp only [List.map_nil, List.nil_append]
      exact hids.sublist (List.filter_sublist.map _))
    rw [this, hempty t ht hm, List.nil_append]
  have hval : ∀ t ∈ [relType "worksheet", relType "styles", relType "sharedStrings"], t ∈ partTypes →
      st1.rels.values t = partsOf b.rels t := by
    intro t ht hm
    rw [values_spec, hrels t ht hm, List.map_map]
    rfl
  have hne : pathOf (dir ++ [base]) ≠ [] := by
    refine path_ne_nil ?_ (by simp)
    intro s hs
    rcases List.mem_append.1 hs with hs | hs
    · exact (hdn s hs).1
    · simp only [List.mem_singleton] at hs; subst hs; exact hbn.1
  have hord : ∀ l, l = [] ∨ (∃ p, l = [p]) → order l = l := by
    rintro l (rfl | ⟨p, rfl⟩)
    · exact (order_single ho).1
    · exact (order_single ho).2 p
  refine ⟨st0, st1, ts0, ts1, ts2, b.sheets.map (fun s => ⟨s.2, st1.rels.get tWorksheet s.1, none⟩), openXML_has hp0, ?_, hprim, hne,
    relsOf_spec dir base hdn hbn.1, openXML_has hp1, ?_, hprim1, openXML_has hp2, ?_, ?_, ?_, ?_, ?_⟩
  · unfold parseRels
    rw [show ([] : Bytes) = dirText [] from rfl, show (⟨[], dirText []⟩ : RelSt) = ⟨[], []⟩ from rfl]
    simp only
    rw [hst0]
    rfl
  · unfold parseRels
    rw [dirOf_spec dir base hbn.1]
    simp only
    rw [hst1]
    rfl
  · unfold parseWorkbook
    rw [workbookLoop_spec st1.rels hb2]
    rfl
  · rw [relType_eqs.2.1, hval _ (by simp) relType_mem.2.1]
    refine hord _ ?_
    rcases hsty with ⟨e, _⟩ | ⟨p, _, _, e, _⟩
    · exact .inl e
    · exact .inr ⟨p, e⟩
  · rw [relType_eqs.2.2, hval _ (by simp) relType_mem.2.2]
    refine hord _ ?_
    rcases hstr with ⟨e, _⟩ | ⟨p, _, e, _⟩
    · exact .inl e
    · exact .inr ⟨p, e⟩
  · rcases hsty with ⟨e, _⟩ | ⟨p, ts, xfs, e, hp, hsp, _⟩
    · exact .inl e
    · exact .inr ⟨p, ts, e, openXML_has hp, fun mk => ⟨_, C57_styles_partial mk ts _ _ hsp _⟩⟩
  · rcases hstr with ⟨e, _⟩ | ⟨p, _, e, _⟩
    · exact .inl e
    · exact .inr ⟨p, e⟩

theorem workbookLoop_result (rels : Rels) (ts : List Tok) :
    (∃ ss, workbookLoop rels ts = .ok ss) ∨ ∃ m, workbookLoop rels ts = .err (.msg m) := by
  induction ts with
  | nil => exact .inl ⟨_, rfl⟩
  | cons t ts ih =>
    unfold workbookLoop
    split
    · exact .inl ⟨_, rfl⟩
    · rename_i h
      cases h
      split
      · split
        · rcases ih with ⟨ss, h⟩ | ⟨m, h⟩
          · rw [h]; exact .inl ⟨_, rfl⟩
          · rw [h]; exact .inr ⟨_, rfl⟩
        · exact .inr ⟨_, rfl⟩
      · exact ih
    · rename_i h
      cases h
      exact ih

theorem stylesLoop_no_err (mk : Bytes → Fmt × CellType) (ts : List Tok) (st : StyleSt) (e : GoErr) : stylesLoop mk ts st ≠ .err e := by
  induction ts generalizing st with
  | nil => intro h; cases h
  | cons t ts ih =>
    have hidx : ∀ (s : List Bytes) (i : Int) (e : GoErr), index s i ≠ .err e := by
      intro s i e h
      unfold index at h
      split at h
      · split at h <;> cases h
      · cases h
    have helem : ∀ name attrs st e, styleElem mk name attrs st ≠ .err e := by
      intro name attrs st e h
      unfold styleElem at h
      split at h
      · cases h
      split at h
      · cases h
      split at h
      · unfold makeCap at h
        split at h <;> cases h
      split at h
      · unfold xfElem at h
        simp only at h
        split at h
        · cases h
        split at h
        · split at h
          · cases hi : index st.base (parseInt 64 (attr attrs (lit "xfId"))).1 with
            | ok _ => rw [hi] at h; cases h
            | panic => rw [hi] at h; cases h
            | err e' => exact hidx _ _ _ hi
          · cases h
        · cases h
      · cases h
    cases t with
    | start name attrs =>
      unfold stylesLoop
      cases hx : styleElem mk name attrs st with
      | ok s => exact ih s
      | err e' => exact absurd hx (helem _ _ _ _)
      | panic => intro h; cases h
    | stop name => unfold stylesLoop; exact ih _
    | chars v => unfold stylesLoop; exact ih _
    | other => unfold stylesLoop; exact ih _

/-- **C125 (opener).** In an archive of a document one of the parts that `Open` reads is lost or damaged: `Open` reports it. The error
is that of the part, or that of an element of the workbook part before the damage, or else reading the styles before the damage ends
the program (see C76). -/
theorem C125_opener (mk : Bytes → Fmt × CellType) (order : List Bytes → List Bytes) (ho : ∀ l, (order l).Perm l)
    (a a' : List (Bytes × Except GoErr Part)) (dir : List Bytes) (base : Bytes) (b : Spec.Book) (h : XlsxFile a dir base b)
    (n : Bytes) (hs : SameBut n a a') (e : GoErr) (hb : BrokenPart a' n e) :
    (n = lit "_rels/.rels" → openFile mk order (.ok a') = .err (.errx [e, .notInFormat])) ∧
    (n ≠ lit "_rels/.rels" → CorePart dir base b n →
      openFile mk order (.ok a') = .err e ∨
      (n = pathOf (dir ++ [base]) ∧ ∃ m, openFile mk order (.ok a') = .err (.msg m)) ∨
      (n ∈ partsOf b.rels (relType "styles") ∧ openFile mk order (.ok a') = .panic)) := by
  obtain ⟨st0, st1, ts0, ts1, ts2, sheets, p0, r0, d0, hne, hro, p1, r1, d1, p2, r2, hsty, hstr, hs1, hs2⟩ := xlsx_opens_by order ho h
  have hopen := broken_open hb
  constructor
  · rintro rfl
    unfold openFile openPart
    rcases hopen with ho | ⟨ts, ho, he⟩
    · simp only [ho]; rfl
    · simp only [ho, notXlsx, GoRes.ok_bind, parseRels, finish_err _ he]; rfl
  · intro hn0 hc
    have hp0 : openXML a' (lit "_rels/.rels") = .ok ⟨ts0, .eof⟩ := by rw [openXML_same hs (Ne.symm hn0), p0]
    unfold openFile openPart
    simp only [hp0, notXlsx, GoRes.ok_bind, r0]
    rw [if_neg (by rw [d0]; exact hne)]
    simp only [d0, hro]
    by_cases hn1 : n = relsPart dir base
    · subst hn1
      left
      rcases hopen with ho | ⟨ts, ho, he⟩
      · simp only [ho]; rfl
      · simp only [ho, GoRes.ok_bind, parseRels, finish_err _ he]; rfl
    have hp1 : openXML a' (relsPart dir base) = .ok ⟨ts1, .eof⟩ := by rw [openXML_same hs (Ne.symm hn1), p1]
    simp only [hp1, GoRes.ok_bind, r1, d1]
    by_cases hn2 : n = pathOf (dir ++ [base])
    · subst hn2
      rcases hopen with ho | ⟨ts, ho, he⟩
      · left; simp only [ho]; rfl
      · simp only [ho, GoRes.ok_bind, parseWorkbook]
        rcases workbookLoop_result st1.rels ts with ⟨ss, h⟩ | ⟨m, h⟩
        · left; simp only [h, GoRes.ok_bind, finish_err _ he]; rfl
        · right; left; exact ⟨trivial, m, by simp only [h]; rfl⟩
    have hp2 : openXML a' (pathOf (dir ++ [base])) = .ok ⟨ts2, .eof⟩ := by rw [openXML_same hs (Ne.symm hn2), p2]
    simp only [hp2, GoRes.ok_bind, r2, hsty, hstr]
    by_cases hn3 : n ∈ partsOf b.rels (relType "styles")
    · rcases hs1 with h1 | ⟨p, ts, h1, _⟩
      · rw [h1] at hn3; cases hn3
      rw [h1, List.mem_singleton] at hn3
      subst hn3
      rw [h1]
      unfold stylesParts openPart
      rcases hopen with ho | ⟨ts, ho, he⟩
      · left; simp only [ho]; rfl
      · simp only [ho, GoRes.ok_bind, parseStyles]
        cases hl : stylesLoop mk ts ⟨Formatter.new, [], [], 0⟩ with
        | ok s => left; simp only [GoRes.ok_bind, finish_err _ he]; rfl
        | err e' => exact absurd hl (stylesLoop_no_err mk ts _ e')
        | panic => right; right; exact ⟨by simp, rfl⟩
    have hst : ∃ y, stylesParts mk a' (partsOf b.rels (relType "styles")) (Formatter.new, []) = .ok y := by
      rcases hs1 with h1 | ⟨p, ts, h1, hp, hx⟩
      · rw [h1]; exact ⟨_, rfl⟩
      · rw [h1, List.mem_singleton] at hn3
        rw [h1]
        unfold stylesParts openPart
        rw [openXML_same hs (Ne.symm hn3), hp]
        obtain ⟨x, hx⟩ := hx mk
        simp only [GoRes.ok_bind, hx]
        exact ⟨_, rfl⟩
    obtain ⟨y, hy⟩ := hst
    rw [hy]
    simp only [GoRes.ok_bind]
    rcases hc with hc | hc | hc | hc
    · exact absurd hc hn1
    · exact absurd hc hn2
    · exact absurd hc hn3
    · left
      rcases hs2 with h2 | ⟨p, h2⟩
      · rw [h2] at hc; cases hc
      rw [h2, List.mem_singleton] at hc
      subst hc
      rw [h2]
      unfold stringsParts openPart
      rcases hopen with ho | ⟨ts, ho, he⟩
      · simp only [ho]; rfl
      · simp only [ho, GoRes.ok_bind, parseSharedStrings, finish_err _ he]; rfl

/-- **C125 (Open).** In a program with all formats: if a part that `Open` reads is lost or damaged, it never opens as an xlsx file; and
unless it is the relationships of the package (without which it is no xlsx file, and other formats are tried) `Open` reports an error
(or reading damaged styles ends the program). -/
theorem C125_open_partial (w : World) (ho : ∀ l, (w.order l).Perm l) (fn file : Bytes) (hf : w.files fn = .ok file)
    (hn : NotCompound file) (a a' : List (Bytes × Except GoErr Part)) (hz : w.zip file = .ok a') (dir : List Bytes) (base : Bytes)
    (b : Spec.Book) (h : XlsxFile a dir base b) (n : Bytes) (hs : SameBut n a a') (e : GoErr) (hb : BrokenPart a' n e)
    (t : List (Grate.Entry Source)) (ht : Shipped w t) :
    (n = lit "_rels/.rels" ∨ CorePart dir base b n → ∀ x d, openSrc t fn ≠ .ok (.xlsx x d)) ∧
    (n ≠ lit "_rels/.rels" → CorePart dir base b n → ¬ e.isNotInFormat →
      (∃ e', openSrc t fn = .err e') ∨ (n ∈ partsOf b.rels (relType "styles") ∧ openSrc t fn = .panic)) := by
  obtain ⟨h1, h2⟩ := C125_opener makeFormatter w.order ho a a' dir base b h n hs e hb
  have hx : xlsxOpen w fn = (do pure (.xlsx a' (← openFile makeFormatter w.order (.ok a')))) := by
    unfold xlsxOpen
    simp only [hf, hz]
  constructor
  · intro hc x d hop
    have := open_is_xlsx w fn file hf hn x d t ht hop
    rw [hx] at this
    by_cases hn0 : n = lit "_rels/.rels"
    · rw [h1 hn0] at this; cases this
    · rcases h2 hn0 (hc.resolve_left hn0) with h | ⟨_, m, h⟩ | ⟨_, h⟩ <;> (rw [h] at this; cases this)
  · intro hn0 hc he
    rw [shipped_open ht]
    rcases h2 hn0 hc with h | ⟨_, m, h⟩ | ⟨hm, h⟩
    · left
      rw [h] at hx
      exact ⟨e, by simp [openSrc, openTrace, formats, xls_declines w fn file hf hn, hx, GoErr.isNotInFormat, he]⟩
    · left
      rw [h] at hx
      exact ⟨.msg m, by simp [openSrc, openTrace, formats, xls_declines w fn file hf hn, hx, GoErr.isNotInFormat, GoErr.unwrap]⟩
    · right
      rw [h] at hx
      exact ⟨hm, by simp [openSrc, openTrace, formats, xls_declines w fn file hf hn, hx, GoErr.isNotInFormat]⟩

/-! ### Sheets -/

theorem hasPart_of_open {n : Bytes} {ts : List Tok} : ∀ {a : Archive}, openXML a n = .ok ⟨ts, .eof⟩ → HasPart a n ts := by
  intro a
  induction a with
  | nil => intro h; cases h
  | cons x a ih =>
    obtain ⟨m, p⟩ := x
    intro h
    rw [openXML] at h
    split at h
    · rename_i e
      subst e
      exact ⟨[], a, by rw [h]; rfl, by simp⟩
    · rename_i e
      obtain ⟨x, y, rfl, hx⟩ := ih h
      refine ⟨(m, p) :: x, y, rfl, ?_⟩
      intro z hz
      rcases List.mem_cons.1 hz with rfl | hz
      · exact e
      · exact hx z hz

theorem hasPart_same {n : Bytes} {a a' : Archive} (h : SameBut n a a') {m : Bytes} {ts : List Tok} (hm : m ≠ n)
    (hp : HasPart a m ts) : HasPart a' m ts :=
  hasPart_of_open (by rw [openXML_same h hm, openXML_has hp])

theorem xlsxFile_same {a a' : Archive} {dir : List Bytes} {base : Bytes} {b : Spec.Book} (h : XlsxFile a dir base b) {n : Bytes}
    (hs : SameBut n a a') (h0 : n ≠ lit "_rels/.rels") (hc : ¬ CorePart dir base b n) : XlsxFile a' dir base b where
  dirNames := h.dirNames
  baseName := h.baseName
  root := by
    obtain ⟨us, x, y, r, hp, hr⟩ := h.root
    exact ⟨us, x, y, r, hasPart_same hs (Ne.symm h0) hp, hr⟩
  rels := by
    obtain ⟨us, hp, hr⟩ := h.rels
    exact ⟨us, hasPart_same hs (fun e => hc (.inl e.symm)) hp, hr⟩
  noOther := h.noOther
  ids := h.ids
  workbook := by
    obtain ⟨us, hp, hr⟩ := h.workbook
    exact ⟨us, hasPart_same hs (fun e => hc (.inr (.inl e.symm))) hp, hr⟩
  styles := by
    rcases h.styles with h | ⟨p, us, xfs, e, hp, hr⟩
    · exact .inl h
    · exact .inr ⟨p, us, xfs, e, hasPart_same hs (fun x => hc (.inr (.inr (.inl (by rw [e, ← x]; simp))))) hp, hr⟩
  strings := by
    rcases h.strings with h | ⟨p, us, e, hp, hr⟩
    · exact .inl h
    · exact .inr ⟨p, us, e, hasPart_same hs (fun x => hc (.inr (.inr (.inr (by rw [e, ← x]; simp))))) hp, hr⟩

/-- The sheets in a broken part have not been loaded without an error. -/
def NotLoaded (n : Bytes) (L : List (Bytes × Bytes)) : Source → Prop
  | .xlsx a d => (∃ e, BrokenPart a n e) ∧ d.sheets.map (fun x => (x.name, x.docname)) = L ∧
    ∀ x ∈ d.sheets, x.docname = n → ∀ s, x.state ≠ some (s, none)
  | _ => False

theorem parseSheet_broken {ext : Ext} {a : Archive} {d : Doc} {n : Bytes} {e : GoErr} (hb : BrokenPart a n e) {s : Sheet}
    {o : Option GoErr} (h : parseSheet ext a d n = .ok (s, o)) : o ≠ none := by
  unfold parseSheet at h
  rcases broken_open hb with ho | ⟨ts, ho, he⟩
  · simp only [ho] at h
    cases h
    exact Option.some_ne_none _
  · simp only [ho] at h
    obtain ⟨st, _, h⟩ := GoRes.bind_eq_ok.1 h
    cases h
    unfold finErr
    cases e <;> first | exact Option.some_ne_none _ | exact absurd rfl he

theorem set_sheets {d : List XSheet} {i : Nat} {x : XSheet} (hx : d[i]? = some x) (st : Option (Sheet × Option GoErr)) :
    (d.set i { x with state := st }).map (fun x => (x.name, x.docname)) = d.map (fun x => (x.name, x.docname)) := by
  rw [List.map_set]
  obtain ⟨hi, hx⟩ := List.getElem?_eq_some_iff.1 hx
  subst hx
  exact (List.set_getElem_self (as := d.map (fun x => (x.name, x.docname))) (i := i) (by simpa using hi)) ▸ by simp

theorem get_notLoaded {ext : Ext} {n m : Bytes} {L : List (Bytes × Bytes)} {src src' : Source} {r : Except GoErr Coll}
    (h : NotLoaded n L src) (hg : src.get ext m = .ok (src', r)) : NotLoaded n L src' := by
  cases src with
  | xls b => exact h.elim
  | text f => exact h.elim
  | xlsx a d =>
    obtain ⟨⟨e, hb⟩, hL, hst⟩ := h
    have hd : ∀ d' i o, d.get ext a m = .ok (d', i, o) → NotLoaded n L (.xlsx a d') := by
      intro d' i o hg
      unfold Doc.get at hg
      split at hg
      · cases hg
      split at hg
      · cases hg
      rename_i i' hfi x hx
      split at hg
      · cases hg
        exact ⟨⟨e, hb⟩, hL, hst⟩
      · obtain ⟨⟨s, o'⟩, hp, hg⟩ := GoRes.bind_eq_ok.1 hg
        cases hg
        refine ⟨⟨e, hb⟩, by rw [← hL]; exact set_sheets hx _, ?_⟩
        intro y hy hyn s' hys
        rcases List.mem_or_eq_of_mem_set hy with hy | rfl
        · exact hst y hy hyn s' hys
        · simp only at hyn hys
          rw [hyn] at hp
          cases hys
          exact parseSheet_broken hb hp rfl
    unfold Source.get at hg
    simp only at hg
    split at hg
    · cases hg
    · cases hg; exact ⟨⟨e, hb⟩, hL, hst⟩
    · rename_i hq; cases hg; exact hd _ _ _ hq
    · rename_i hq
      split at hg
      · cases hg; exact hd _ _ _ hq
      · cases hg

theorem used_notLoaded {n m : Bytes} {L : List (Bytes × Bytes)} {src : Source} (c : Coll) (h : NotLoaded n L src) :
    NotLoaded n L (src.used m c) := by
  cases src with
  | xls b => exact h.elim
  | text f => exact h.elim
  | xlsx a d =>
    obtain ⟨⟨e, hb⟩, hL, hst⟩ := h
    unfold Source.used
    cases c with
    | noSheet => exact ⟨⟨e, hb⟩, hL, hst⟩
    | text f => exact ⟨⟨e, hb⟩, hL, hst⟩
    | sheet s =>
      simp only
      split
      · split
        · rename_i i _ x hx
          refine ⟨⟨e, hb⟩, by rw [← hL]; exact set_sheets hx _, ?_⟩
          intro y hy hyn s' hys
          rcases List.mem_or_eq_of_mem_set hy with hy | rfl
          · exact hst y hy hyn s' hys
          · simp only at hyn hys
            cases hq : x.state with
            | none => rw [hq] at hys; cases hys
            | some q =>
              obtain ⟨q1, q2⟩ := q
              rw [hq] at hys
              simp only [Option.map_some, Option.some.injEq, Prod.mk.injEq] at hys
              refine hst x (List.mem_of_getElem? hx) hyn q1 ?_
              rw [hq, hys.2]
        · exact ⟨⟨e, hb⟩, hL, hst⟩
      · exact ⟨⟨e, hb⟩, hL, hst⟩

theorem leaves_notLoaded {ext : Ext} {n : Bytes} {L : List (Bytes × Bytes)} (p : Client) : ∀ {src src' : Source},
    NotLoaded n L src → p.leaves ext src = .ok src' → NotLoaded n L src' := by
  induction p with
  | done => intro src src' h hl; cases hl; exact h
  | get m use next ih =>
    intro src src' h hl
    unfold Client.leaves at hl
    obtain ⟨⟨s1, r⟩, h1, hl⟩ := GoRes.bind_eq_ok.1 hl
    have h2 := get_notLoaded h h1
    simp only at hl
    cases r with
    | ok c => exact ih _ (used_notLoaded _ h2) hl
    | error e => exact ih _ h2 hl

theorem notLoaded_get {ext : Ext} {n m : Bytes} {L : List (Bytes × Bytes)} {src src' : Source} {c : Coll} (h : NotLoaded n L src)
    (i : Nat) (hi : L[i]? = some (m, n)) (hf : ∀ (j : Nat) (x : Bytes × Bytes), j < i → L[j]? = some x → x.1 ≠ m) :
    src.get ext m ≠ .ok (src', .ok c) := by
  intro hg
  cases src with
  | xls b => exact h.elim
  | text f => exact h.elim
  | xlsx a d =>
    obtain ⟨⟨e, hb⟩, hL, hst⟩ := h
    subst hL
    rw [List.getElem?_map, Option.map_eq_some_iff] at hi
    obtain ⟨x, hx, hxe⟩ := hi
    simp only [Prod.mk.injEq] at hxe
    have hfind : d.find m = some i := by
      refine find_of hx hxe.1 ?_
      intro j hj y hy
      exact hf j (y.name, y.docname) hj (by rw [List.getElem?_map, hy]; rfl)
    have hd : ∀ d', d.get ext a m ≠ .ok (d', i, none) := by
      intro d' hg
      unfold Doc.get at hg
      simp only [hfind, hx] at hg
      split at hg
      · rename_i s o hs
        cases hg
        exact hst x (List.mem_of_getElem? hx) hxe.2 s hs
      · obtain ⟨⟨s, o⟩, hp, hg⟩ := GoRes.bind_eq_ok.1 hg
        cases hg
        rw [hxe.2] at hp
        exact parseSheet_broken hb hp rfl
    have hi : ∀ d' k, d.get ext a m = .ok (d', k, none) → k = i := by
      intro d' k hg
      unfold Doc.get at hg
      simp only [hfind, hx] at hg
      split at hg
      · cases hg; rfl
      · obtain ⟨⟨s, o⟩, hp, hg⟩ := GoRes.bind_eq_ok.1 hg
        cases hg; rfl
    unfold Source.get at hg
    simp only at hg
    split at hg
    · cases hg
    · cases hg
    · cases hg
    · rename_i d' k hq
      have := hi _ _ hq
      subst this
      exact hd _ hq

/-- **C125 (sheets).** The part of a sheet is lost or damaged, and no other: the document opens, the sheet is listed, and `Get` never
gives a collection for it without an error, whatever the program did with the document before. -/
theorem C125_sheet (w : World) (ext : Ext) (ho : ∀ l, (w.order l).Perm l) (fn file : Bytes) (hf : w.files fn = .ok file)
    (hn : NotCompound file) (a a' : List (Bytes × Except GoErr Part)) (hz : w.zip file = .ok a') (dir : List Bytes) (base : Bytes)
    (b : Spec.Book) (h : XlsxFile a dir base b) (n : Bytes) (hs : SameBut n a a') (e : GoErr) (hb : BrokenPart a' n e)
    (h0 : n ≠ lit "_rels/.rels") (hc : ¬ CorePart dir base b n) (t : List (Grate.Entry Source)) (ht : Shipped w t) :
    ∃ src, openSrc t fn = .ok src ∧ src.list = b.sheets.map Prod.snd ∧
      ∀ (p : Client) (src' : Source), p.leaves ext src = .ok src' →
        ∀ (i : Nat) (id name : Bytes), b.sheets[i]? = some (id, name) →
          (∀ (j : Nat) (s : Bytes × Bytes), j < i → b.sheets[j]? = some s → s.2 ≠ name) →
          (∃ r ∈ b.rels, r.type = relType "worksheet" ∧ r.id = id ∧ r.part = n) →
          ∀ x c, src'.get ext name ≠ .ok (x, .ok c) := by
  obtain ⟨d, e1, hlist, hsheets, _⟩ := C61_open_partial makeFormatter w.order ho a' dir base b (xlsxFile_same h hs h0 hc)
  refine ⟨.xlsx a' d, xlsx_is_open w fn file hf hn _ t ht (by unfold xlsxOpen; simp only [hf, hz, e1]; rfl), hlist, ?_⟩
  intro p src' hp i id name hi hfirst hr x c
  obtain ⟨r, hr, hrt, hrid, hrn⟩ := hr
  have hlen : d.sheets.length = b.sheets.length := by
    have := congrArg List.length hlist
    simpa [Doc.list] using this
  have hnl : NotLoaded n (d.sheets.map (fun x => (x.name, x.docname))) (.xlsx a' d) := by
    refine ⟨⟨e, hb⟩, rfl, ?_⟩
    intro y hy _ s hys
    obtain ⟨j, hj, rfl⟩ := List.mem_iff_getElem.1 hy
    obtain ⟨y, hy1, _, hy3, _⟩ := hsheets j (b.sheets[j]'(hlen ▸ hj)).1 (b.sheets[j]'(hlen ▸ hj)).2 (by simp)
    rw [List.getElem?_eq_getElem hj] at hy1
    cases hy1
    rw [hy3] at hys
    cases hys
  refine notLoaded_get (leaves_notLoaded p hnl hp) i ?_ ?_
  · obtain ⟨y, hy1, hy2, _, hy4⟩ := hsheets i id name hi
    rw [List.getElem?_map, hy1, Option.map_some, hy2, hy4 r hr hrt hrid, hrn]
  · intro j z hj hz
    rw [List.getElem?_map, Option.map_eq_some_iff] at hz
    obtain ⟨y, hy, rfl⟩ := hz
    have hjl : j < b.sheets.length := by
      rw [← hlen]
      exact (List.getElem?_eq_some_iff.1 hy).1
    obtain ⟨y', hy1, hy2, _⟩ := hsheets j (b.sheets[j]).1 (b.sheets[j]).2 (by simp [hjl])
    rw [hy] at hy1
    cases hy1
    rw [hy2]
    exact hfirst j _ hj (List.getElem?_eq_getElem hjl)

/-! ### Bytes -/

/-- A part is damaged if the archive has no such entry, or it cannot be opened, or reading its bytes ends with an error (of the file,
the compression or the checksum), or they end inside markup: there is a `<` with no `>` after it. -/
inductive BrokenBytes (z : List (Bytes × Except GoErr (Bytes × GoErr))) (n : Bytes) : Prop where
  | missing : (∀ e ∈ z, e.1 ≠ n) → BrokenBytes z n
  | unreadable (before after : List (Bytes × Except GoErr (Bytes × GoErr))) (e : GoErr) : z = before ++ (n, .error e) :: after →
    (∀ x ∈ before, x.1 ≠ n) → BrokenBytes z n
  | failing (before after : List (Bytes × Except GoErr (Bytes × GoErr))) (bs : Bytes) (e : GoErr) :
    z = before ++ (n, .ok (bs, e)) :: after → (∀ x ∈ before, x.1 ≠ n) → e ≠ .eof → BrokenBytes z n
  | inMarkup (before after : List (Bytes × Except GoErr (Bytes × GoErr))) (pre rest : Bytes) (e : GoErr) :
    z = before ++ (n, .ok (pre ++ 60 :: rest, e)) :: after → (∀ x ∈ before, x.1 ≠ n) → (62 : UInt8) ∉ rest → BrokenBytes z n

/-- **C125 (bytes).** Damaged bytes are a damaged part, so that `C125_open_partial` and `C125_sheet` apply. -/
theorem C125_bytes (T : XmlTables) (z : List (Bytes × Except GoErr (Bytes × GoErr))) (n : Bytes) (h : BrokenBytes z n) :
    ∃ e, BrokenPart (Xlsx.Files.archive T z) n e := by
  have hb : ∀ (before : List (Bytes × Except GoErr (Bytes × GoErr))), (∀ x ∈ before, x.1 ≠ n) →
      ∀ x ∈ Xlsx.Files.archive T before, x.1 ≠ n := by
    intro before h x hx
    obtain ⟨y, hy, rfl⟩ := List.mem_map.1 hx
    exact h y hy
  have ha : ∀ (before after : List (Bytes × Except GoErr (Bytes × GoErr))) x, Xlsx.Files.archive T (before ++ (n, x) :: after) =
      Xlsx.Files.archive T before ++ (n, x.map (fun c => xmlPart T c.1 c.2)) :: Xlsx.Files.archive T after := by
    intro before after x
    simp [Xlsx.Files.archive]
  cases h with
  | missing h => exact ⟨_, .missing (hb z h)⟩
  | unreadable x y e h1 h2 =>
    subst h1
    exact ⟨e, .unreadable _ _ e (ha _ _ _) (hb x h2)⟩
  | failing x y bs e h1 h2 h3 =>
    subst h1
    exact ⟨_, .cut _ _ _ _ (ha _ _ _) (hb x h2) (xmlTokens_err h3 _ _)⟩
  | inMarkup x y pre rest e h1 h2 h3 =>
    subst h1
    exact ⟨_, .cut _ _ _ _ (ha _ _ _) (hb x h2) (xmlTokens_open _ _ _ h3)⟩

/-! ### What is not reported -/

/-- C125 is false of a part that ends elsewhere: the end of the text is taken for the end of the part. Of this sheet the last bytes
are missing; 123 becomes 12. -/
theorem C125_text_counterexample (T : XmlTables) (ext : Ext) :
    (∃ s, parseSheet ext (Xlsx.Files.archive T [(lit "s", .ok (lit "<c r=\"A1\" t=\"str\"><v>123</v></c>", .eof))]) exXlsxDoc (lit "s") =
      .ok (s, none) ∧ s.cell? 0 0 = some (.full (.str (lit "123")) .string none [])) ∧
    lit "<c r=\"A1\" t=\"str\"><v>12" <+: lit "<c r=\"A1\" t=\"str\"><v>123</v></c>" ∧
    (∃ s, parseSheet ext (Xlsx.Files.archive T [(lit "s", .ok (lit "<c r=\"A1\" t=\"str\"><v>12", .eof))]) exXlsxDoc (lit "s") =
      .ok (s, none) ∧ s.cell? 0 0 = some (.full (.str (lit "12")) .string none [])) :=
  ⟨⟨_, rfl, rfl⟩, by decide +kernel, ⟨_, rfl, rfl⟩⟩

/-- A sheet with a link, and its relationships. -/
def exLinks (rels : Bytes) : List (Bytes × Except GoErr (Bytes × GoErr)) :=
  [(lit "x/s", .ok (lit "<hyperlink ref=\"A1\" r:id=\"L\"/>", .eof)), (lit "x/_rels/s.rels", .ok (rels, .eof))]

/-- Its relationship. -/
def exLink : Bytes := lit "<Relationship Id=\"L\" TargetMode=\"External\" Type=\"" ++ relType "hyperlink" ++ lit "\" Target=\"T\"/>"

set_option maxRecDepth 20000 in
/-- C125 is false of the relationships of a sheet: if they are damaged, the links of the sheet are lost, without an error. -/
theorem C125_links_counterexample (T : XmlTables) (ext : Ext) :
    (∃ s, parseSheet ext (Xlsx.Files.archive T (exLinks exLink)) exXlsxDoc (lit "x/s") = .ok (s, none) ∧
      (s.cell? 0 0).map Cell.url = some (some (lit "T"))) ∧
    BrokenBytes (exLinks (exLink.take 20)) (lit "x/_rels/s.rels") ∧
    (∃ s, parseSheet ext (Xlsx.Files.archive T (exLinks (exLink.take 20))) exXlsxDoc (lit "x/s") = .ok (s, none) ∧
      (s.cell? 0 0).map Cell.url = some (some [])) := by
  refine ⟨⟨_, rfl, rfl⟩, .inMarkup [_] [] [] ((exLink.take 20).tail) .eof rfl ?_ (by decide +kernel), _, rfl, rfl⟩
  intro x hx
  rw [List.mem_singleton] at hx
  subst hx
  decide +kernel

/-- The archive of C61 without the relationships of the package. -/
def exHeadless (p : Crypto.Prims) : World :=
  { orderWorld p with zip := fun _ => .ok exZip.tail }

/-- C125 is false of the relationships of the package: without them a document may be taken for a text. -/
theorem C125_package_counterexample (p : Crypto.Prims) (t : List (Grate.Entry Source)) (ht : Shipped (exHeadless p) t) :
    XlsxFile exZip [lit "xl"] (lit "workbook.xml") exXlsxBook ∧ SameBut (lit "_rels/.rels") exZip exZip.tail ∧
    BrokenPart exZip.tail (lit "_rels/.rels") .eof ∧ ∃ f, openSrc t (lit "b.xlsx") = .ok (.text f) := by
  refine ⟨C61_witness, ?_, .missing ?_, ?_⟩
  · unfold SameBut
    rfl
  · intro e he
    simp only [exZip, List.tail_cons, List.mem_cons, List.not_mem_nil, or_false] at he
    rcases he with rfl | rfl | rfl | rfl | rfl <;> decide +kernel
  · rw [shipped_open ht]
    have h1 := xls_declines (exHeadless p) (lit "b.xlsx") [0] rfl (.inr (by decide))
    have h2 : xlsxOpen (exHeadless p) (lit "b.xlsx") = .err (.errx [.eof, .notInFormat]) := rfl
    obtain ⟨f, h3⟩ : ∃ f, tsvOpen (exHeadless p) (lit "b.xlsx") = .ok (.text f) := ⟨_, rfl⟩
    exact ⟨f, by simp [openSrc, openTrace, formats, h1, h2, h3, GoErr.isNotInFormat, GoErr.unwrap]⟩

/-- The archive of C61 with a part replaced. -/
def exDamagedZip (n : Bytes) (x : Except GoErr Part) : Archive := exZip.map (fun e => if e.1 = n then (n, x) else e)

/-- The hypotheses of C125 hold for damaged strings and for a damaged sheet. -/
theorem C125_witness : XlsxFile exZip [lit "xl"] (lit "workbook.xml") exXlsxBook ∧
    (SameBut (lit "strings.xml") exZip (exDamagedZip (lit "strings.xml") (.error (.msg "checksum"))) ∧
      BrokenPart (exDamagedZip (lit "strings.xml") (.error (.msg "checksum"))) (lit "strings.xml") (.msg "checksum") ∧
      lit "strings.xml" ≠ lit "_rels/.rels" ∧ CorePart [lit "xl"] (lit "workbook.xml") exXlsxBook (lit "strings.xml") ∧
      ¬ (GoErr.msg "checksum").isNotInFormat) ∧
    (SameBut (lit "xl/worksheets/sheet1.xml") exZip (exDamagedZip (lit "xl/worksheets/sheet1.xml") (.ok ⟨[.other], xmlSyntax⟩)) ∧
      BrokenPart (exDamagedZip (lit "xl/worksheets/sheet1.xml") (.ok ⟨[.other], xmlSyntax⟩)) (lit "xl/worksheets/sheet1.xml") xmlSyntax ∧
      ¬ CorePart [lit "xl"] (lit "workbook.xml") exXlsxBook (lit "xl/worksheets/sheet1.xml") ∧
      exXlsxBook.sheets[1]? = some (lit "rId1", lit "two") ∧
      ∃ r ∈ exXlsxBook.rels, r.type = relType "worksheet" ∧ r.id = lit "rId1" ∧ r.part = lit "xl/worksheets/sheet1.xml") ∧
    BrokenBytes [(lit "s", .ok (lit "<a><b c=\"1", .eof))] (lit "s") := by
  refine ⟨C61_witness, ⟨rfl, ?_, by decide +kernel, .inr (.inr (.inr (by decide +kernel))), ?_⟩, ⟨rfl, ?_, ?_, rfl, ?_⟩, ?_⟩
  · refine .unreadable (exZip.take 3) (exZip.drop 4) _ rfl ?_
    intro e he
    simp only [exZip, List.take_succ_cons, List.take_zero, List.mem_cons, List.not_mem_nil, or_false] at he
    rcases he with rfl | rfl | rfl <;> decide +kernel
  · simp [GoErr.isNotInFormat, GoErr.unwrap]
  · refine .cut (exZip.take 4) (exZip.drop 5) _ _ rfl ?_ syntax_ne
    intro e he
    simp only [exZip, List.take_succ_cons, List.take_zero, List.mem_cons, List.not_mem_nil, or_false] at he
    rcases he with rfl | rfl | rfl | rfl <;> decide +kernel
  · unfold CorePart
    decide +kernel
  · exact ⟨_, List.mem_cons_self, rfl, rfl, rfl⟩
  · exact .inMarkup [] [] (lit "<a>") (lit "b c=\"1") .eof rfl (by simp) (by decide +kernel)

end Grate.Props
