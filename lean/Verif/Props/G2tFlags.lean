import Verif.Spec.G2tFlags
import Verif.Props.Grate2tsv

/-! # C138: the flags of `grate2tsv` -/

namespace Grate.Props

open Grate Spec G2t

namespace G2tFlags

/-- What the loop makes of a cell. -/
def seen (fl : Flags) (v : Bytes) : Bytes :=
  let x := if fl.removeNewlines then collapse blankClass [32] false v else v
  if fl.trimSpaces then trimSpace x else x

theorem seen_spec (fl : Flags) (v : Bytes) : CellText fl.removeNewlines fl.trimSpaces v (seen fl v) := by
  refine ⟨if fl.removeNewlines then collapse blankClass [32] false v else v, ?_, ?_⟩
  · by_cases hr : fl.removeNewlines = true
    · rw [if_pos hr, if_pos hr]
      exact squeezed_collapse blankClass_iff 32 v
    · rw [if_neg hr, if_neg hr]
  · unfold seen
    simp only
    generalize (if fl.removeNewlines then collapse blankClass [32] false v else v) = x
    by_cases hw : fl.trimSpaces = true
    · rw [if_pos hw, if_pos hw]
      exact trimSpace_spec x
    · rw [if_neg hw, if_neg hw]

theorem cellText_unique {r w : Bool} {c t t' : Bytes} (h : CellText r w c t) (h' : CellText r w c t') : t = t' := by
  obtain ⟨d, h1, h2⟩ := h
  obtain ⟨d', h1', h2'⟩ := h'
  have e : d = d' := by
    cases r with
    | true =>
      simp only [if_true] at h1 h1'
      rw [← collapse_of_squeezed blankClass_iff h1, ← collapse_of_squeezed blankClass_iff h1']
    | false => exact (show d = c from h1).trans (show d' = c from h1').symm
  subst e
  cases w with
  | true =>
    simp only [if_true] at h2 h2'
    exact stripped_unique h2 h2'
  | false => exact (show t = d from h2).trans (show t' = d from h2').symm

theorem rowLoop_seen (fl : Flags) (row : List Bytes) : ∀ (i nc : Nat),
    (rowLoop fl i nc row).1 = row.map (fun v => if fl.trimSpaces then seen fl v else v) ∧
    (rowLoop fl i nc row).2.1 = decide (HasText (row.map (seen fl))) := by
  induction row with
  | nil => intro i nc; exact ⟨rfl, by simp [rowLoop, HasText]⟩
  | cons v vs ih =>
    intro i nc
    have e : (if fl.trimSpaces then trimSpace (if fl.removeNewlines then collapse blankClass [32] false v else v)
        else (if fl.removeNewlines then collapse blankClass [32] false v else v)) = seen fl v := rfl
    simp only [rowLoop, e]
    obtain ⟨a, b⟩ := ih (i + 1) (if seen fl v ≠ [] then (if nc < i then i else nc) else nc)
    refine ⟨?_, ?_⟩
    · rw [a]
      rfl
    · rw [b]
      simp only [HasText, List.map_cons, List.mem_cons, exists_eq_or_imp, Bool.decide_or]

/-- The rows that are written. -/
def keptWith (fl : Flags) (rows : List (List Bytes)) : List (List Bytes) :=
  if fl.skipBlanks then (rows.map (·.map (seen fl))).filter (fun r => decide (HasText r)) else rows.map (·.map (seen fl))

theorem sheetLoop_seen (fl : Flags) (hf : fl.trimSpaces = true ∨ fl.removeNewlines = false) : ∀ (rows : List (List Bytes)) (ps : Counts),
    (sheetLoop fl ps rows).1 = tsvText (keptWith fl rows) ∧ (sheetLoop fl ps rows).2.numRows = ps.numRows + (keptWith fl rows).length
  | [], ps => by
    unfold sheetLoop keptWith
    split <;> exact ⟨rfl, rfl⟩
  | row :: rows, ps => by
    have hw : row.map (fun v => if fl.trimSpaces then seen fl v else v) = row.map (seen fl) := by
      refine List.map_congr_left (fun v _ => ?_)
      by_cases ht : fl.trimSpaces = true
      · rw [if_pos ht]
      · rw [if_neg ht]
        unfold seen
        have hr : ¬ fl.removeNewlines = true := by
          rcases hf with h | h
          · exact absurd h ht
          · rw [h]; decide
        simp only [if_neg ht, if_neg hr]
    obtain ⟨a, b⟩ := rowLoop_seen fl row 0 ps.numCols
    rw [hw] at a
    unfold sheetLoop
    simp only [a, b, cellWrites_eq]
    by_cases hk : (decide (HasText (row.map (seen fl))) || !fl.skipBlanks) = true
    · rw [if_pos hk]
      obtain ⟨c, d⟩ := sheetLoop_seen fl hf rows ⟨ps.numRows + 1, (rowLoop fl 0 ps.numCols row).2.2⟩
      have e : keptWith fl (row :: rows) = row.map (seen fl) :: keptWith fl rows := by
        unfold keptWith
        by_cases hs : fl.skipBlanks = true
        · rw [hs] at hk
          simp only [Bool.not_true, Bool.or_false] at hk
          rw [if_pos hs, if_pos hs, List.map_cons, List.filter_cons, if_pos hk]
        · rw [if_neg hs, if_neg hs]
          rfl
      rw [e]
      refine ⟨?_, ?_⟩
      · simp only [c]
        simp [tsvText]
      · simp only [d, List.length_cons]
        omega
    · rw [if_neg hk]
      simp only [Bool.or_eq_true, not_or, Bool.not_eq_true, Bool.not_eq_false'] at hk
      have e : keptWith fl (row :: rows) = keptWith fl rows := by
        unfold keptWith
        rw [if_pos hk.2, if_pos hk.2, List.map_cons, List.filter_cons, if_neg (by rw [hk.1]; decide)]
      rw [e]
      exact sheetLoop_seen fl hf rows _

theorem keptWith_text (fl : Flags) (rows : List (List Bytes)) :
    FlagText fl.removeNewlines fl.trimSpaces fl.skipBlanks rows (keptWith fl rows) (tsvText (keptWith fl rows)) :=
  ⟨_, all2_map (fun r => all2_map (seen_spec fl) r) rows, rfl, rfl⟩

theorem collapse_nil (v : Bytes) : collapse blankClass [32] false v = [] ↔ v = [] := by
  cases v with
  | nil => exact ⟨fun _ => rfl, fun _ => rfl⟩
  | cons b s =>
    unfold collapse
    by_cases h : blankClass b = true
    · rw [if_pos h]; simp
    · rw [if_neg h]; simp

/-- Without `-w` the loop does not depend on `-r`. -/
theorem rowLoop_ignores (fl : Flags) (hw : fl.trimSpaces = false) (row : List Bytes) : ∀ (i nc : Nat),
    rowLoop { fl with removeNewlines := true } i nc row = rowLoop { fl with removeNewlines := false } i nc row := by
  induction row with
  | nil => intro i nc; rfl
  | cons v vs ih =>
    intro i nc
    obtain ⟨p, r, w, b⟩ := fl
    cases hw
    simp only at ih
    simp only [rowLoop, if_true, if_false, Bool.false_eq_true, ih, ne_eq, collapse_nil]

theorem sheetLoop_ignores (fl : Flags) (hw : fl.trimSpaces = false) : ∀ (rows : List (List Bytes)) (ps : Counts),
    sheetLoop { fl with removeNewlines := true } ps rows = sheetLoop { fl with removeNewlines := false } ps rows
  | [], _ => rfl
  | row :: rows, ps => by
    unfold sheetLoop
    simp only [rowLoop_ignores fl hw, sheetLoop_ignores fl hw rows]

end G2tFlags

open G2tFlags

/-- C138: the description of the flags determines what is written. -/
theorem C138_unique {r w b : Bool} {rows kept kept' : List (List Bytes)} {content content' : Bytes}
    (h : FlagText r w b rows kept content) (h' : FlagText r w b rows kept' content') : kept = kept' ∧ content = content' := by
  obtain ⟨t, h1, rfl, rfl⟩ := h
  obtain ⟨t', h1', rfl, rfl⟩ := h'
  have row : ∀ (a b b' : List Bytes), All2 (CellText r w) a b → All2 (CellText r w) a b' → b = b' :=
    fun _ _ _ a a' => all2_unique (R := CellText r w) (fun _ _ _ c c' => cellText_unique c c') a a'
  have : t = t' := all2_unique row h1 h1'
  subst this
  exact ⟨rfl, rfl⟩

/-- C138: with the default flags it is the description of C65. -/
theorem C138_default (rows kept : List (List Bytes)) (content : Bytes) : FlagText true true true rows kept content ↔ SheetText rows kept content :=
  Iff.rfl

/-- **C138, the texts** (partial). For every sheet and every setting of the flags but `-r` without `-w`: what is written is the text that
the descriptions of the flags say, and as many rows are reported as it has lines. Missing: `-w=false` with `-r`, where it is false
(`C138_counterexample`). -/
theorem C138_flags_partial (fl : Flags) (hf : fl.trimSpaces = true ∨ fl.removeNewlines = false) (rows : List (List Bytes)) :
    ∃ kept, FlagText fl.removeNewlines fl.trimSpaces fl.skipBlanks rows kept (sheetLoop fl ⟨0, 0⟩ rows).1 ∧
      (sheetLoop fl ⟨0, 0⟩ rows).2.numRows = kept.length := by
  obtain ⟨a, b⟩ := sheetLoop_seen fl hf rows ⟨0, 0⟩
  refine ⟨keptWith fl rows, ?_, ?_⟩
  · rw [a]
    exact keptWith_text fl rows
  · rw [b, Nat.zero_add]

/-- C138: without `-w`, the flag `-r` has no effect on any sheet: what is written is the text of the cells as they are. -/
theorem C138_ignored (fl : Flags) (hw : fl.trimSpaces = false) (rows : List (List Bytes)) :
    sheetLoop { fl with removeNewlines := true } ⟨0, 0⟩ rows = sheetLoop { fl with removeNewlines := false } ⟨0, 0⟩ rows ∧
    ∃ kept, FlagText false false fl.skipBlanks rows kept (sheetLoop fl ⟨0, 0⟩ rows).1 := by
  refine ⟨sheetLoop_ignores fl hw rows ⟨0, 0⟩, ?_⟩
  obtain ⟨kept, h, _⟩ := C138_flags_partial { fl with removeNewlines := false } (.inr rfl) rows
  refine ⟨kept, ?_⟩
  rw [← sheetLoop_ignores fl hw rows ⟨0, 0⟩] at h
  have e : sheetLoop fl ⟨0, 0⟩ rows = sheetLoop { fl with removeNewlines := true } ⟨0, 0⟩ rows := by
    obtain ⟨p, r, w, b⟩ := fl
    cases r with
    | true => rfl
    | false => exact (sheetLoop_ignores ⟨p, false, w, b⟩ hw rows ⟨0, 0⟩).symm
  rw [e]
  simp only [hw] at h ⊢
  exact h

/-- C138 is false for `-w=false`: a cell with a tab becomes two cells, and one with a line break two lines, although `-r` is set. -/
theorem C138_counterexample :
    FlagText true false true [[lit "a\tb"], [lit "c\nd"]] [[lit "a b"], [lit "c d"]] (lit "a b\nc d\n") ∧
    (sheetLoop { trimSpaces := false } ⟨0, 0⟩ [[lit "a\tb"], [lit "c\nd"]]) = (lit "a\tb\nc\nd\n", ⟨2, 0⟩) := by
  refine ⟨?_, by decide +kernel⟩
  have h := keptWith_text { trimSpaces := false } [[lit "a\tb"], [lit "c\nd"]]
  have e1 : keptWith { trimSpaces := false } [[lit "a\tb"], [lit "c\nd"]] = [[lit "a b"], [lit "c d"]] := by decide +kernel
  have e2 : tsvText [[lit "a b"], [lit "c d"]] = lit "a b\nc d\n" := by decide +kernel
  rw [e1, e2] at h
  exact h

/-- **C138, `-p`.** With `-p` nothing is written, and the report is the one without it on a disk that takes everything. -/
theorem C138_pretend (fl : Flags) (hex : Bytes → Bytes) (create : Bytes → Option GoErr) (fn : Bytes) (wb : GoRes Book)
    (res : List Out × (List Stats ⊕ GoErr)) (hp : fl.pretend = true) (h : processFile fl hex create fn wb = .ok res) :
    res.1 = [] ∧ ∃ outs, processFile { fl with pretend := false } hex (fun _ => none) fn wb = .ok (outs, res.2) := by
  have sl : ∀ ps rows, sheetLoop { fl with pretend := false } ps rows = sheetLoop fl ps rows := by
    have rl : ∀ row i nc, rowLoop { fl with pretend := false } i nc row = rowLoop fl i nc row := by
      intro row
      induction row with
      | nil => intros; rfl
      | cons v vs ih => intro i nc; simp only [rowLoop, ih]
    intro ps rows
    induction rows generalizing ps with
    | nil => rfl
    | cons row rows ih => unfold sheetLoop; simp only [rl, ih]
  have loop : ∀ (get : Bytes → GoRes Coll) (ss : List Bytes) (res : List Out × (List Stats ⊕ GoErr)),
      sheetsLoop fl hex create fn get ss = .ok res →
      res.1 = [] ∧ ∃ outs, sheetsLoop { fl with pretend := false } hex (fun _ => none) fn get ss = .ok (outs, res.2) := by
    intro get ss
    induction ss with
    | nil =>
      intro res h
      cases h
      exact ⟨rfl, [], rfl⟩
    | cons s ss ih =>
      intro res h
      unfold sheetsLoop at h ⊢
      cases hg : get s with
      | panic => rw [hg] at h; cases h
      | err e =>
        rw [hg] at h
        cases hr : sheetsLoop fl hex create fn get ss with
        | panic => rw [hr] at h; cases h
        | err e => rw [hr] at h; cases h
        | ok r =>
          rw [hr] at h
          cases h
          obtain ⟨a, outs, b⟩ := ih r hr
          refine ⟨a, outs, ?_⟩
          simp only [b]
          rfl
      | ok sheet =>
        rw [hg] at h
        by_cases he : sheet.isEmpty = true
        · simp only [if_pos he] at h ⊢
          cases hr : sheetsLoop fl hex create fn get ss with
          | panic => rw [hr] at h; cases h
          | err e => rw [hr] at h; cases h
          | ok r =>
            rw [hr] at h
            cases h
            obtain ⟨a, outs, b⟩ := ih r hr
            refine ⟨a, outs, ?_⟩
            rw [b]
            rfl
        · simp only [if_neg he, if_pos hp] at h ⊢
          cases hr : sheetsLoop fl hex create fn get ss with
          | panic => rw [hr] at h; cases h
          | err e => rw [hr] at h; cases h
          | ok r =>
            rw [hr] at h
            cases h
            obtain ⟨a, outs, b⟩ := ih r hr
            refine ⟨a, ⟨outPath hex fn s, (sheetLoop fl ⟨0, 0⟩ sheet.rows).1⟩ :: outs, ?_⟩
            rw [b, sl]
            rfl
  unfold processFile at h ⊢
  cases wb with
  | panic => cases h
  | err e => cases h; exact ⟨rfl, [], rfl⟩
  | ok b =>
    simp only at h ⊢
    cases hl : b.list with
    | panic => rw [hl] at h; cases h
    | err e => rw [hl] at h; cases h; exact ⟨rfl, [], rfl⟩
    | ok ss =>
      rw [hl] at h
      exact loop b.get ss res h

/-- C138: with all flags off, blanks and blank rows are kept; with `-b=false` only, the blank row is an empty line. -/
theorem C138_witness :
    sheetLoop ⟨false, false, false, false⟩ ⟨0, 0⟩ [[lit " a", lit "b "], [[], lit " "], [[], []]] =
      (lit " a\tb \n\t \n\t\n", ⟨3, 1⟩) ∧
    sheetLoop ⟨false, true, true, false⟩ ⟨0, 0⟩ [[lit " a", lit "b "], [[], lit " "], [[], []]] = (lit "a\tb\n\t\n\t\n", ⟨3, 1⟩) := by
  decide +kernel

end Grate.Props
