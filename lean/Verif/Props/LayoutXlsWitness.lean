import Verif.Props.LayoutXls
import Verif.Props.XlsLayoutWitness
import Verif.Props.Links

/-! # Examples for C149 -/

namespace Grate.Props

open Grate Grate.Spec Grate.Api

/-- The entries of the sheets of the second file; sheet `B` is farther back. (For C150 sheet `A` is hidden and named `C`.) -/
def exDressEntries (k : Bool) : List SheetEntry :=
  [⟨50, if k then 1 else 0, 0, 0, [if k then 0x43 else 0x41]⟩, ⟨160, 0, 0, 0, [0x42]⟩]

/-- Sheet `A` of `exTwo 0` with a column width and a chart, which has a number of its own. -/
def exDressSheet : List Record :=
  [exBof 0x10, ⟨125, List.replicate 12 7⟩, ⟨512, leBytes 4 0 ++ (leBytes 4 1 ++ (leBytes 2 0 ++ (leBytes 2 1 ++ [0, 0])))⟩,
   exBof 0x20, ⟨638, cellHead 0 0 0 (leBytes 4 42 ++ [])⟩, ⟨0x0A, []⟩, ⟨638, cellHead 0 0 0 (leBytes 4 22 ++ [])⟩, ⟨0x0A, []⟩]

/-- The workbook; sheet `B` has another record that is not read. -/
def exDress (k : Bool) : List (List Record) :=
  [[exBof 5] ++ (exDressEntries k).map (fun e => ⟨0x85, e.data⟩) ++ [⟨0x0A, []⟩], exDressSheet,
   [exBof 0x10, ⟨1, List.replicate 73 0⟩, ⟨0x0A, []⟩]]

/-- What it says. -/
def exDressContent (k : Bool) : Content := ⟨exDressEntries k, 0, [], [], []⟩

/-- The file. -/
def exDressFile (k : Bool) : Bytes := wbFileOf (stream (exDress k).flatten) 0xFFFFFFFE wbSlots

theorem exDress_grouped (k : Bool) : Grouped (exDress k) ∧ ∀ r ∈ (exDress k).flatten, r.type ≠ 0x2F := by
  have pl : ∀ (r : Record) (rs : List Record), (r.type ≠ 0x809 ∧ r.type ≠ 0x0A) → Balanced rs → Balanced (r :: rs) :=
    fun r rs h hb => .plain r rs h.1 h.2 hb
  refine ⟨⟨by unfold Record.Fits; revert k; decide +kernel, ?_⟩, by revert k; decide +kernel⟩
  intro g hg
  simp only [exDress, List.mem_cons, List.not_mem_nil, or_false] at hg
  rcases hg with rfl | rfl | rfl
  · exact ⟨_, [_, _], _, rfl, rfl, rfl, pl _ _ ⟨by show (133 : Nat) ≠ _; decide, by show (133 : Nat) ≠ _; decide⟩
      (pl _ _ ⟨by show (133 : Nat) ≠ _; decide, by show (133 : Nat) ≠ _; decide⟩ .nil)⟩
  · exact ⟨_, [_, _, _, _, _, _], _, rfl, rfl, rfl, pl _ _ (by decide) (pl _ _ (by decide)
      (.block (exBof 0x20) ⟨0x0A, []⟩ [_] [_] rfl rfl (pl _ _ (by decide) .nil) (pl _ _ (by decide) .nil)))⟩
  · exact ⟨_, [_], _, rfl, rfl, rfl, pl _ _ (by decide) .nil⟩

theorem exDress_content (k : Bool) : AllGlobals .empty (exDress k) (exDressContent k) := by
  have hs : ∀ e ∈ exDressEntries k, e.position < 2 ^ 32 ∧ (e.name = [0x41] ∨ e.name = [0x42] ∨ e.name = [0x43]) ∧ e.flags = 0 := by revert k; decide
  have ok : ∀ e ∈ exDressEntries k, e.Ok := by
    intro e he
    obtain ⟨h1, h2, h3⟩ := hs e he
    refine ⟨h1, ?_, ?_, ?_⟩
    · rcases h2 with h2 | h2 | h2 <;> rw [h2] <;> intro r hr <;> simp only [List.mem_singleton] at hr <;> subst hr <;> unfold Scalar <;> decide
    · rcases h2 with h2 | h2 | h2 <;> rw [h2, h3] <;> unfold Fits <;> decide +kernel
    · rcases h2 with h2 | h2 | h2 <;> rw [h2] <;> decide
  have sk : ∀ (c c' : Content) (r : Record) (rs : List Record), ¬ telling r.type → Globals c rs c' →
      Globals c (r :: rs) c' := fun c c' r rs h => .skip c c' r rs (Or.inr h)
  refine .cons _ (exDressContent k) _ _ _ ?_ (.cons _ (exDressContent k) _ _ _ ?_ (.cons _ (exDressContent k) _ _ _ ?_ (.nil _)))
  · refine .bof _ _ _ _ _ _ _ (by decide) (by decide) ?_
    refine .sheet _ _ _ _ (ok _ (by simp [exDressEntries])) ?_
    refine .sheet _ _ _ _ (ok _ (by simp [exDressEntries])) ?_
    exact .skip _ _ _ _ (Or.inl rfl) (.nil _)
  · refine .bof _ _ _ _ _ _ _ (by decide) (by decide) ?_
    iterate 2 refine sk _ _ _ _ (by unfold telling; decide) ?_
    refine .bof _ _ _ _ _ _ _ (by decide) (by decide) ?_
    refine sk _ _ _ _ (by unfold telling; decide) ?_
    refine .skip _ _ _ _ (Or.inl rfl) ?_
    refine sk _ _ _ _ (by unfold telling; decide) ?_
    exact .skip _ _ _ _ (Or.inl rfl) (.nil _)
  · refine .bof _ _ _ _ _ _ _ (by decide) (by decide) ?_
    refine sk _ _ _ _ (by unfold telling; decide) ?_
    exact .skip _ _ _ _ (Or.inl rfl) (.nil _)

theorem exDressDoc (k : Bool) : Spec.Doc (exDressFile k) exHead (table (exDressFile k) 9 [0]) wbSlots where
  header := ⟨_, rfl⟩
  numFAT := by decide
  firstDir := by decide
  firstMiniFAT := by decide
  numMiniFAT := by decide
  firstDIFAT := by decide
  numDIFAT := by decide
  headFAT := by decide
  table := ⟨[], Or.inr ⟨rfl, rfl⟩, by
    intro i hi
    have : i = 0 := by simpa [exHead] using hi
    subst this
    exact ⟨by unfold Regular; decide, by unfold HasSector; revert k; decide +kernel⟩, rfl⟩
  dir := ⟨[1], .cons 1 0xFFFFFFFE [] (by revert k; decide +kernel) .done, by
    intro i hi
    have : i = 1 := by simpa using hi
    subst this
    exact ⟨by unfold Regular; decide, by unfold HasSector; revert k; decide +kernel⟩, by revert k; decide +kernel⟩
  slotsOk := wbDoc.slotsOk
  root := ⟨wbRoot, exMid, _, rfl, rfl, by decide⟩

theorem exDressStream (k : Bool) : StreamIn (exDressFile k) (lit "Workbook") (stream (exDress k).flatten) := by
  have e : ((([0, 1, 2, 3, 4] : List Nat).map (miniSector (sector (exDressFile k) 9 3))).flatten).take wbEntry.size =
      stream (exDress k).flatten := by revert k; decide +kernel
  have h := StreamIn.small (file := (exDressFile k)) (name := lit "Workbook") exHead _ wbRoot exMid [] [exFree, exFree] wbEntry exMid
    [3] [0, 1, 2, 3, 4] (sector (exDressFile k) 9 3) (exDressDoc k) (by unfold Regular; decide)
    (by unfold HasSector; revert k; decide +kernel) (by decide) (by simp) (by decide) (by simp [entries]) (by revert k; decide +kernel) rfl (by decide)
    (.cons _ 0xFFFFFFFE _ (by revert k; decide +kernel) .done)
    (by
      intro i hi
      have : i = 3 := by simpa using hi
      subst this
      exact ⟨by unfold Regular; decide, by unfold HasSector; revert k; decide +kernel⟩) (by decide) (by simp)
    (.cons _ 1 _ (by revert k; decide +kernel) (.cons _ 2 _ (by revert k; decide +kernel) (.cons _ 3 _ (by revert k; decide +kernel)
      (.cons _ 4 _ (by revert k; decide +kernel) (.cons _ 0xFFFFFFFE _ (by revert k; decide +kernel) .done))))) (by decide)
    (by
      have hl : (sector (exDressFile k) 9 3).length = 512 := by revert k; decide +kernel
      intro i hi
      have : i ≤ 4 := by revert i; decide
      refine ⟨by unfold Regular; omega, by omega⟩)
  rw [e] at h
  exact h

theorem exDress_file (k : Bool) (w : World) (hb : w.bufs = List.replicate 512 512) : XlsFile w (exDressFile k) (exDressContent k) (exDress k) :=
  .plain _ (exDress_grouped k).1 (exDress_grouped k).2 (exDress_content k) (exDressStream k) (by rw [hb]; revert k; decide +kernel)

theorem exDress_A (k : Bool) : StoredAs (exDressContent k) (exDress k) (lit (if k then "C" else "A")) exDressSheet :=
  ⟨[], _, _, 1, rfl, by simp, by revert k; decide +kernel, rfl, by revert k; decide +kernel⟩

theorem exDress_B (k : Bool) : StoredAs (exDressContent k) (exDress k) (lit "B") [exBof 0x10, ⟨1, List.replicate 73 0⟩, ⟨0x0A, []⟩] := by
  refine ⟨[_], [], _, 2, rfl, ?_, ?_, rfl, by revert k; decide +kernel⟩
  · intro x hx
    simp only [List.mem_singleton] at hx
    subst hx
    revert k; decide +kernel
  · show utf8 [0x42] = lit "B"
    revert k; decide +kernel

/-- The sheets `A` are the same but for the column width and the chart. -/
theorem exDress_same : SameSheet Record.type exTwoSheet exDressSheet := by
  refine ⟨_, _, _, _, rfl, rfl, rfl, rfl, ?_⟩
  refine .right [(⟨125, List.replicate 12 7⟩ : Record)] _ _ (.layout _ [] (by decide) (by simp)) ?_ ?_
  · intro r hr; cases hr; decide
  refine .same _ _ _ (by decide) ?_
  refine .right [exBof 0x20, ⟨638, cellHead 0 0 0 (leBytes 4 42 ++ [])⟩, ⟨0x0A, []⟩] _ _
    (.object (exBof 0x20) ⟨0x0A, []⟩ [⟨638, cellHead 0 0 0 (leBytes 4 42 ++ [])⟩] rfl rfl (by simp)) ?_ ?_
  · intro r hr; cases hr; decide
  exact .same _ _ _ (by decide) (.same _ _ _ (by decide) .nil)

/-- The sheets `B` are the same but for records that are not read. -/
theorem exDress_sameB : SameSheet Record.type [exBof 0x10, exTwoFill 0, ⟨0x0A, []⟩]
    [exBof 0x10, ⟨1, List.replicate 73 0⟩, ⟨0x0A, []⟩] := by
  refine ⟨_, _, _, _, rfl, rfl, rfl, rfl, ?_⟩
  refine .left [exTwoFill 0] _ _ (.layout _ [] (by decide) (by simp)) ?_ ?_
  · intro r hr; cases hr; decide
  refine .right [(⟨1, List.replicate 73 0⟩ : Record)] _ _ (.layout _ [] (by decide) (by simp)) ?_ ?_
  · intro r hr; cases hr; decide
  exact .same _ _ _ (by decide) .nil

/-- C149: two files, the second with a column width and a chart in sheet `A` and other settings in `B`. No program can tell them
apart, and both sheets can be read. -/
theorem C149_witness (w : World) (ext : Ext) (fn fn' : Bytes) (hf : w.files fn = .ok (exTwoFile 0))
    (hf' : w.files fn' = .ok (exDressFile false)) (hb : w.bufs = List.replicate 512 512) :
    exTwoFile 0 ≠ exDressFile false ∧
    ∃ k, ∀ fuel, k ≤ fuel → ∀ t, Shipped { w with fuel := fuel } t → ∃ src src', openSrc t fn = .ok src ∧
      openSrc t fn' = .ok src' ∧ src'.list = src.list ∧ ∀ p : Client, p.Only (fun _ => True) → p.run ext src' = p.run ext src := by
  have hb0 : ∀ k ∈ w.bufs, 0 < k := by rw [hb]; intro k hk; rw [(List.mem_replicate.1 hk).2]; decide
  refine ⟨by decide +kernel, ?_⟩
  refine C149_file_partial w ext _ fn fn' _ _ hf hf' hb0 (exTwo_file w hb 0) (exDress_file false w hb) ⟨rfl, rfl, rfl, rfl⟩ ?_
  intro n _
  by_cases hA : n = lit "A"
  · subst hA
    exact .inr ⟨_, _, exTwo_A 0 exTwoSheet rfl, exDress_A false, exDress_same, .inl (exTwoSheet_good 0)⟩
  by_cases hB : n = lit "B"
  · subst hB
    exact .inr ⟨_, _, exTwo_B 0 _ rfl, exDress_B false, exDress_sameB, .inl exTwoB_good⟩
  · refine .inl (fun e he hn => ?_)
    have : utf8 e.name ∈ (exTwoContent 0).sheets.map (fun e => utf8 e.name) := List.mem_map_of_mem he
    rw [exTwo_names 0, hn] at this
    simp only [List.mem_cons, List.not_mem_nil, or_false] at this
    exact this.elim hA hB

/-- A formula with the text `ab` in two records. -/
def exCutText (mid : List Record) : List Record :=
  [⟨0x809, []⟩, ⟨512, leBytes 4 0 ++ (leBytes 4 1 ++ (leBytes 2 0 ++ (leBytes 2 1 ++ [0, 0])))⟩,
   ⟨6, cellHead 0 0 0 ([0, 0, 0, 0, 0, 0, 0xFF, 0xFF] ++ List.replicate 8 0)⟩, ⟨519, [2, 0, 0, 0x61]⟩] ++ mid ++
   [⟨0x3C, [0, 0x62]⟩, ⟨0x0A, []⟩]

/-- Where such a record may not be: between a String record and the Continue record that belongs to it, the rest of the text is
lost. (A file with this is not valid, as the Continue record belongs to the record before it.) -/
theorem C149_between_counterexample (ext : Ext) :
    (∃ s f g t, Xls.parseSheet ext (exLinkBook (exCutText [])) 0 = .ok (some s) ∧
      s.cell? 0 0 = some (.full (.str (lit "ab")) f g t)) ∧
    ∃ s f g t, Xls.parseSheet ext (exLinkBook (exCutText [⟨125, []⟩])) 0 = .ok (some s) ∧
      s.cell? 0 0 = some (.full (.str (lit "a")) f g t) :=
  ⟨⟨_, _, _, _, rfl, rfl⟩, ⟨_, _, _, _, rfl, rfl⟩⟩

end Grate.Props
