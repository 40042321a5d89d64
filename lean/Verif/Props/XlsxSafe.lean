import Verif.Lemmas.XlsxSafe
import Verif.Props.XlsxDoc

/-! # Property C62: worksheets that are wrong -/

namespace Grate.Props

open Grate Grate.Spec Grate.Xlsx
open Grate.Xls (Safe)

/-- C62 for references: exactly these can be decoded without a panic. -/
theorem C62_reference (s : Bytes) : refToIndexes s ≠ .panic ↔ PlainRef s := ref_safe_iff s

/-- C62 for worksheets: a part without the causes of `SafeWs`, whatever else is in it and wherever it ends, is read or refused, and
what was read is a sheet that can be gone through. -/
theorem C62_sheet_partial (ext : Ext) (a : Archive) (d : Doc) (docname : Bytes)
    (h : ∀ p, (docname, Except.ok p) ∈ a → SafeWs d.strings.length true none p.toks) :
    parseSheet ext a d docname ≠ .panic ∧
      ∀ s e, parseSheet ext a d docname = .ok (s, e) → ∀ i : Nat, (i : Int) < s.numRows →
        ∃ row, s.rows[i]? = some row ∧ s.numCols ≤ row.length := by
  have key : Safe (parseSheet ext a d docname) (fun r => SheetInv r.1) := by
    unfold parseSheet
    cases ho : openXML a docname with
    | error e => exact inv_new _
    | ok p =>
      exact (sheetLoop_safe ext d _ (h p (openXML_mem ho)) _
        ⟨inv_new _, fun _ => rfl, fun _ => rfl, fun b e => (by cases e), fun b e => (by cases e), fun b e => (by cases e)⟩).bind
          fun st hst => hst
  refine ⟨key.no_panic, ?_⟩
  intro s e hs i hi
  rw [hs] at key
  exact key.wide i hi

/-- The documents that come of a document by calls of `Get`. -/
inductive Gets (ext : Ext) (a : Archive) (d : Doc) : Doc → Prop
  | start : Gets ext a d d
  | get (d1 d2 : Doc) (name : Bytes) (i : Nat) (e : Option GoErr) : Gets ext a d d1 → Doc.get ext a d1 name = .ok (d2, i, e) →
      Gets ext a d d2

/-- The worksheets of the document have none of the causes. -/
def SafeDoc (a : Archive) (d : Doc) : Prop :=
  ∀ s ∈ d.sheets, ∀ p, (s.docname, Except.ok p) ∈ a → SafeWs d.strings.length true none p.toks

theorem safeDoc_gets {ext : Ext} {a : Archive} {d d' : Doc} (h : SafeDoc a d) (hg : Gets ext a d d') : SafeDoc a d' := by
  induction hg with
  | start => exact h
  | get d1 d2 name i e _ hget ih =>
    unfold Doc.get at hget
    split at hget
    · cases hget
    · split at hget
      · cases hget
      · rename_i j _ _ s hs
        split at hget
        · cases hget; exact ih
        · obtain ⟨r, _, h2⟩ := GoRes.bind_eq_ok.1 hget
          cases h2
          intro t ht
          rcases List.mem_or_eq_of_mem_set ht with ht | rfl
          · exact ih t ht
          · exact ih s (List.mem_of_getElem? hs)

/-- C62 for `Get`, after any calls: none of them panics. -/
theorem C62_get_partial (ext : Ext) (a : Archive) (d d' : Doc) (h : SafeDoc a d) (hg : Gets ext a d d') (name : Bytes) :
    Doc.get ext a d' name ≠ .panic := by
  have h' := safeDoc_gets h hg
  unfold Doc.get
  cases hf : d'.find name with
  | none => simp
  | some i =>
    have hi : i < d'.sheets.length := by
      unfold Doc.find at hf
      rw [List.findIdx?_eq_some_iff_getElem] at hf
      exact hf.1
    simp only [List.getElem?_eq_getElem hi]
    cases hs : d'.sheets[i].state with
    | some x => simp
    | none =>
      simp only
      refine bind_ne_panic (C62_sheet_partial ext a d' _ (fun p hp => h' _ (List.getElem_mem hi) p hp)).1 (fun r _ => ?_)
      simp [GoRes.pure_eq]

/-- A worksheet with little that is right: text outside of cells, a dimension that is none, cells that are not ended, without a column
or a row, of an unknown type, with a style that does not exist, with an unknown string, a reference of the other style, the end of
a row that was not started, a region without an end, and a link before its cell. -/
def exWrongSheet : List Tok :=
  [.chars (lit "junk"), .start (lit "dimension") [(lit "ref", lit "?:*1")], .start (lit "c") [(lit "r", lit "Q"), (lit "s", lit "99999")],
    .chars (lit "1"), .start (lit "c") [(lit "r", lit "AB12"), (lit "t", lit "zz")], .chars (lit "x"),
    .start (lit "c") [(lit "r", lit "R1C1"), (lit "t", lit "s")], .chars (lit "none"), .stop (lit "row"), .stop (lit "c"),
    .start (lit "dimension") [(lit "ref", lit "A1")], .start (lit "mergeCell") [(lit "ref", lit "A1:")],
    .start (lit "hyperlink") [(lit "ref", lit "AB12")], .chars (lit "tail")]

theorem ex_plain {s : Bytes} {x : Int × Int} (h : refToIndexes s = .ok x) : PlainRef s :=
  (C62_reference s).1 (by rw [h]; simp)

/-- The hypotheses of `C62_sheet_partial` and `C62_get_partial` hold of it, cut anywhere, also in the middle of the text. -/
theorem C62_sheet_witness (e : GoErr) :
    SafeDoc [(lit "s", .ok ⟨exWrongSheet, e⟩)] { exXlsxDoc with sheets := [⟨lit "One", lit "s", none⟩] } := by
  intro s hs p hp
  simp only [List.mem_singleton] at hs
  subst hs
  simp only [List.mem_singleton, Prod.mk.injEq, Except.ok.injEq] at hp
  obtain ⟨_, rfl⟩ := hp
  have has1 : ∀ (k : String) (a b : Bytes), Has [(lit k, a)] k b → b = a := by
    intro k a b h
    simp only [Has, List.mem_singleton, Prod.mk.injEq] at h
    exact h.2
  have has2 : ∀ (k l : String) (a b c : Bytes), lit k ≠ lit l → Has [(lit k, a), (lit l, b)] k c → c = a := by
    intro k l a b c hkl h
    simp only [Has, List.mem_cons, List.not_mem_nil, or_false, Prod.mk.injEq] at h
    rcases h with h | h
    · exact h.2
    · exact absurd h.1 hkl
  have has3 : ∀ (k l : String) (a b c : Bytes), lit k ≠ lit l → Has [(lit k, a), (lit l, b)] l c → c = b := by
    intro k l a b c hkl h
    simp only [Has, List.mem_cons, List.not_mem_nil, or_false, Prod.mk.injEq] at h
    rcases h with h | h
    · exact absurd h.1.symm hkl
    · exact h.2
  have lack : ∀ (k l m : String) (a b : Bytes), lit m ≠ lit k → lit m ≠ lit l → Lacks [(lit k, a), (lit l, b)] m := by
    intro k l m a b h1 h2 v hv
    simp only [List.mem_cons, List.not_mem_nil, or_false, Prod.mk.injEq] at hv
    rcases hv with h | h
    · exact h1 h.1
    · exact h2 h.1
  refine .outside _ _ _ (.dimensionFirst _ _ _ (by unfold Distinct; decide +kernel) ?_ ?_)
  · intro ref hr
    rw [has1 _ _ _ hr]
    exact ⟨lit "*1", ⟨by decide +kernel, .inr ⟨lit "?", by decide +kernel, by decide +kernel⟩⟩, ex_plain rfl⟩
  refine .cell _ _ _ 99999 _ (by unfold Distinct; decide +kernel)
    (numAttr_has (lit "99999") (by unfold Has; decide +kernel) (isDigits_of (by decide +kernel)) (by decide +kernel)) ?_ ?_
  · intro ref hr
    rw [has2 _ _ _ _ _ (by decide +kernel) hr]
    exact ex_plain rfl
  refine .text _ _ _ _ ⟨fun _ => by decide +kernel, fun h => absurd h (by unfold Has; decide +kernel)⟩ ?_
  refine .cell _ _ _ 0 _ (by unfold Distinct; decide +kernel) (.inl ⟨lack _ _ _ _ _ (by decide +kernel) (by decide +kernel), rfl⟩) ?_ ?_
  · intro ref hr
    rw [has2 _ _ _ _ _ (by decide +kernel) hr]
    exact ex_plain rfl
  refine .text _ _ _ _ ⟨fun _ => by decide +kernel, fun h => absurd h (by unfold Has; decide +kernel)⟩ ?_
  refine .cell _ _ _ 0 _ (by unfold Distinct; decide +kernel) (.inl ⟨lack _ _ _ _ _ (by decide +kernel) (by decide +kernel), rfl⟩) ?_ ?_
  · intro ref hr
    rw [has2 _ _ _ _ _ (by decide +kernel) hr]
    exact ex_plain rfl
  refine .text _ _ _ _ ⟨fun _ => by decide +kernel, fun _ => .inr ⟨by decide, .inr ⟨110, lit "one", by decide +kernel,
    by unfold IsDig; decide, by decide, by decide⟩⟩⟩ ?_
  refine .other _ _ _ _ (by simp [Starts]) (by unfold Stops; decide +kernel) (by simp) (.cellEnd _ _ _ ?_)
  refine .dimension _ _ _ (lit "A1") (lit "A1") 0 0 _ (by unfold Distinct; decide +kernel) (by unfold Has; decide +kernel)
    ⟨by decide +kernel, .inl rfl⟩ exA1 (by decide) (by decide) ?_
  refine .merge _ _ _ (lit "A1:") (lit "A1") 0 0 _ (by unfold Distinct; decide +kernel) (by unfold Has; decide +kernel)
    exA1 (by decide) (by decide) (.inr ⟨[], by simp, ex_plain rfl, by decide +kernel⟩) ?_
  refine .link _ _ _ (lit "AB12") 27 11 _ (by unfold Distinct; decide +kernel) (by unfold Has; decide +kernel) exAB12
    (by decide) (by decide) ?_
  exact .outside _ _ _ (.nil _ _)

/-- Why dimensions after cells must end with a cell: one that ends with row 0 makes the rows fewer than the sheet says. -/
theorem C62_dimension_counterexample (ext : Ext) :
    sheetOf ext [.start (lit "dimension") [(lit "ref", lit "A1:B2")], .start (lit "dimension") [(lit "ref", lit "A1:E0")],
      .start (lit "c") [(lit "r", lit "C1"), (lit "t", lit "str")], .chars (lit "x")] = .panic := rfl

end Grate.Props
