import Verif.Props.Rows
import Verif.Lemmas.Simple

/-! # Property C105: what a sheet takes in memory is in proportion to its file -/

namespace Grate.Props

open Grate Grate.Spec

/-- A workbook whose only sheet has no cells and declares that it uses `R` rows and `C` columns. -/
def wideBook (R C : Nat) : List (List Record) :=
  [exBook.headD [],
   [exBof 0x10, ⟨512, leBytes 4 0 ++ (leBytes 4 R ++ (leBytes 2 0 ++ (leBytes 2 C ++ [0, 0])))⟩, ⟨0x0A, []⟩]]

theorem wideBook_mem (R C : Nat) (r : Record) (h : r ∈ (wideBook R C).flatten) : r ∈ exBook.headD [] ++ [exBof 0x10] ∨
    r = ⟨512, leBytes 4 0 ++ (leBytes 4 R ++ (leBytes 2 0 ++ (leBytes 2 C ++ [0, 0])))⟩ ∨ r = ⟨0x0A, []⟩ := by
  simp only [wideBook, List.flatten_cons, List.flatten_nil, List.append_nil, List.mem_append, List.mem_cons,
    List.not_mem_nil, or_false] at h ⊢
  rcases h with h | h | h | h
  · exact .inl (.inl h)
  · exact .inl (.inr h)
  · exact .inr (.inl h)
  · exact .inr (.inr h)

theorem wideBook_grouped (R C : Nat) : Grouped (wideBook R C) ∧ ∀ r ∈ (wideBook R C).flatten, r.type ≠ 0x2F := by
  have pl : ∀ (r : Record) (rs : List Record), (r.type ≠ 0x809 ∧ r.type ≠ 0x0A) → Balanced rs → Balanced (r :: rs) :=
    fun r rs h hb => .plain r rs h.1 h.2 hb
  refine ⟨⟨?_, ?_⟩, ?_⟩
  · intro r hr
    rcases wideBook_mem R C r hr with h | h | h
    · have : ∀ r ∈ (exBook.headD []) ++ [exBof 0x10], r.type < 65536 ∧ r.data.length < 65532 := by decide +kernel
      exact this r h
    · subst h
      unfold Record.Fits
      simp [leBytes]
    · subst h
      unfold Record.Fits
      simp
  · intro g hg
    simp only [wideBook, List.mem_cons, List.not_mem_nil, or_false] at hg
    rcases hg with rfl | rfl
    · refine ⟨_, [_, _, _, _, _], _, rfl, rfl, rfl, ?_⟩
      iterate 5 refine pl _ _ (by decide) ?_
      exact .nil
    · refine ⟨_, [_], _, rfl, rfl, rfl, ?_⟩
      refine pl _ _ ⟨by simp, by simp⟩ ?_
      exact .nil
  · intro r hr
    rcases wideBook_mem R C r hr with h | h | h
    · have : ∀ r ∈ (exBook.headD []) ++ [exBof 0x10], r.type ≠ 0x2F := by decide +kernel
      exact this r h
    · subst h; simp
    · subst h; simp

theorem wideBook_content (R C : Nat) : AllGlobals .empty (wideBook R C) exBookContent := by
  have sk : ∀ (c c' : Content) (r : Record) (rs : List Record), ¬ telling r.type → Globals c rs c' →
      Globals c (r :: rs) c' := fun c c' r rs h => .skip c c' r rs (Or.inr h)
  refine .cons _ exBookContent _ _ _ exBook_globals (.cons _ exBookContent _ _ _ ?_ (.nil _))
  refine .bof _ _ _ _ _ _ _ (by decide) (by decide) ?_
  refine sk _ _ _ _ (by unfold telling; simp) ?_
  exact .skip _ _ _ _ (Or.inl rfl) (.nil _)

/-- C105 is false: for all numbers of rows and columns there is a stream of 118 bytes with a sheet that holds so many cells. -/
theorem C105_counterexample (p : Crypto.Prims) (mk : Bytes → Fmt × CellType) (ext : Ext) (R C : Nat) (h0 : 0 < R) (h1 : 0 < C)
    (hR : R < 2 ^ 32) (hC : C < 65536) : (stream (wideBook R C).flatten).length = 118 ∧
    ∃ b s, Xls.loadStream p mk [] ⟨stream (wideBook R C).flatten, []⟩ = .ok b ∧ b.get ext (lit "S") = .ok (some s) ∧
      s.rows.length = R + 1 ∧ ∀ row ∈ s.rows, row.length = C := by
  constructor
  · have : ∀ d : Bytes, (Record.bytes ⟨512, d⟩).length = 4 + d.length := fun d => by
      simp [Record.bytes, leBytes]; omega
    have h2 : (stream (exBook.headD [])).length = 76 := by decide +kernel
    have h3 : (exBof 0x10).bytes.length = 20 := by decide +kernel
    have h4 : (Record.bytes ⟨0x0A, []⟩).length = 4 := by decide +kernel
    unfold stream at h2 ⊢
    simp only [wideBook, List.flatten_cons, List.flatten_nil, List.append_nil, List.flatMap_append, List.flatMap_cons,
      List.flatMap_nil, List.length_append, h2, h3, h4, this, leBytes, List.length_cons, List.length_nil]
  obtain ⟨hg, hp⟩ := wideBook_grouped R C
  obtain ⟨b, s, e1, e2, h3⟩ := C49_file_partial p mk ext hg hp (wideBook_content R C) [] [] []
    exEntry rfl (by simp) 1 (exBof 0x10) _ rfl (show exEntry.position = (stream [exBook.headD []].flatten).length by decide +kernel) R C
    (.dims _ _ 0 R 0 C [0, 0] _ hR hC (.other _ _ _ _ (by decide) (by decide) (by decide) (.nil _))) []
    (.other _ _ _ (by unfold cellType; simp) (.other _ _ _ (by unfold cellType; decide) .nil))
  refine ⟨b, s, e1, e2, ?_⟩
  obtain ⟨hh, hs, hq⟩ := h3
  have hq := hq (by simp [dimsCount])
  obtain ⟨n1, n2⟩ := size_extent hh hs (R := R) (C := C) (by unfold Extent; simp [h0]) (by unfold Extent; simp [h1])
  refine ⟨?_, fun row hr => ?_⟩
  · rcases hq.count with ⟨_, h, _⟩ | ⟨h, _⟩ <;> omega
  · have := hq.width row hr
    omega

/-- The largest: more than 281 trillion cells. -/
theorem C105_largest (p : Crypto.Prims) (mk : Bytes → Fmt × CellType) (ext : Ext) : ∃ b s,
    Xls.loadStream p mk [] ⟨stream (wideBook (2 ^ 32 - 1) 65535).flatten, []⟩ = .ok b ∧ b.get ext (lit "S") = .ok (some s) ∧
    (s.rows.map List.length).sum = 281470681677825 + 65535 := by
  obtain ⟨_, b, s, h1, h2, h3, h4⟩ := C105_counterexample p mk ext (2 ^ 32 - 1) 65535 (by decide) (by decide) (by decide)
    (by decide)
  refine ⟨b, s, h1, h2, ?_⟩
  have : s.rows.map List.length = List.replicate (2 ^ 32 - 1 + 1) 65535 := by
    refine List.eq_replicate_iff.2 ⟨by rw [List.length_map, h3], ?_⟩
    intro x hx
    obtain ⟨row, hr, rfl⟩ := List.mem_map.1 hx
    exact h4 row hr
  rw [this, List.sum_replicate]
  rfl

/-! ### Text files -/

theorem split_size (sep : UInt8) (l : Bytes) : ((splitByte sep l).map (fun x => x.length + 1)).sum = l.length + 1 := by
  induction l with
  | nil => rfl
  | cons c cs ih =>
    unfold splitByte
    split
    · simp only [List.map_cons, List.sum_cons, List.length_nil, List.length_cons]; omega
    · cases h : splitByte sep cs with
      | nil => exact absurd h (Simple.splitByte_ne_nil sep cs)
      | cons p ps =>
        rw [h] at ih
        simp only [List.map_cons, List.sum_cons, List.length_cons] at ih ⊢
        omega

theorem raw_size (s : Bytes) : ((Simple.rawLines s).map (fun l => l.length + 1)).sum ≤ s.length + 1 := by
  induction s with
  | nil => decide
  | cons c cs ih =>
    unfold Simple.rawLines
    split
    · simp only [List.map_cons, List.sum_cons, List.length_nil, List.length_cons]; omega
    · cases h : Simple.rawLines cs with
      | nil => simp
      | cons l ls =>
        rw [h] at ih
        simp only [List.map_cons, List.sum_cons, List.length_cons] at ih ⊢
        omega

/-- C105 for text files: the fields, with one more for each of them, take no more bytes than the file has, and one more.
Missing: the other formats (`C105_counterexample`). -/
theorem C105_text_partial (iter : List (Nat × Nat) → List (Nat × Nat)) (fn content : Bytes) (f : Simple.File)
    (h : Simple.openTSV iter fn (some content) = .ok f) :
    (f.rows.map (fun r => (r.map (fun x => x.length + 1)).sum)).sum ≤ content.length + 1 := by
  unfold Simple.openTSV at h
  simp only [GoRes.bind_eq_ok] at h
  obtain ⟨lines, hl, h⟩ := h
  split at h
  · cases h
  cases h
  unfold Simple.scanLines at hl
  dsimp only at hl
  split at hl
  · cases hl
  cases hl
  simp only [List.map_map]
  refine Nat.le_trans ?_ (raw_size content)
  generalize Simple.rawLines content = ls
  induction ls with
  | nil => simp
  | cons l ls ih =>
    simp only [List.map_cons, List.sum_cons, Function.comp] at ih ⊢
    rw [split_size]
    have : (Simple.dropCR l).length ≤ l.length := by
      unfold Simple.dropCR
      split <;> simp
    omega

/-- There is such a file. -/
theorem C105_text_witness : ∃ f, Simple.openTSV id [] (some (lit "a\tb\nc\td")) = .ok f ∧
    f.rows = [[lit "a", lit "b"], [lit "c", lit "d"]] := by
  refine ⟨⟨[], [[lit "a", lit "b"], [lit "c", lit "d"]], -1⟩, ?_, rfl⟩
  have h1 : Simple.scanLines (lit "a\tb\nc\td") = .ok [lit "a\tb", lit "c\td"] := by
    unfold Simple.scanLines; rfl
  simp only [Simple.openTSV, h1, GoRes.ok_bind]
  rw [if_neg (by decide +kernel)]
  rfl

end Grate.Props
