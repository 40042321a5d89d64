import Verif.Model.BufWriter
import Verif.Props.Grate2tsv

/-! # C136: outputs that cannot be written -/

namespace Grate.Props

open Grate Grate.Spec Grate.G2t

namespace FullDisk

/-- Of the bytes `all`, `p` is still to be taken. What was taken is on the disk and in the buffer, unless a write failed; what is on the
disk is a first part. -/
structure Inv (w : Writer) (p all : Bytes) : Prop where
  whole : w.err = none → w.disk ++ w.buf ++ p = all
  first : w.disk <+: all

theorem fileWrite_parts (p : Bytes) (fs : List Fault) : (fileWrite p fs).1 <+: p ∧ ((fileWrite p fs).2.1 = none → (fileWrite p fs).1 = p) := by
  unfold fileWrite
  split
  · exact ⟨List.prefix_refl _, fun _ => rfl⟩
  · exact ⟨List.prefix_refl _, fun _ => rfl⟩
  · exact ⟨List.take_prefix _ _, fun h => by cases h⟩

theorem flush_inv {w : Writer} {p all : Bytes} (h : Inv w p all) : Inv w.flush p all ∧ (w.flush.err = none → w.flush.buf = []) := by
  unfold Writer.flush
  by_cases h1 : w.err ≠ none
  · rw [if_pos h1]
    exact ⟨h, fun e => absurd e h1⟩
  · rw [if_neg h1]
    by_cases h2 : w.buf = []
    · rw [if_pos h2]
      exact ⟨h, fun _ => h2⟩
    · rw [if_neg h2]
      obtain ⟨a, b⟩ := fileWrite_parts w.buf w.faults
      have hw := h.whole (by simpa using h1)
      refine ⟨⟨fun e => ?_, ?_⟩, fun e => ?_⟩
      · simp only at e ⊢
        rw [b e, List.drop_length, List.append_nil]
        exact hw
      · simp only
        rw [← hw, List.append_assoc, List.prefix_append_right_inj]
        exact a.trans (List.prefix_append _ _)
      · simp only at e ⊢
        rw [b e, List.drop_length]

theorem loop_inv (size : Nat) : ∀ (fuel : Nat) (p : Bytes) (w : Writer) (all : Bytes), Inv w p all →
    Inv (Writer.writeLoop size fuel p w).2 (Writer.writeLoop size fuel p w).1 all
  | 0, _, _, _, h => h
  | fuel + 1, p, w, all, h => by
    unfold Writer.writeLoop
    by_cases h1 : size - w.buf.length < p.length ∧ w.err = none
    · rw [if_pos h1]
      have hw := h.whole h1.2
      by_cases h2 : w.buf = []
      · rw [if_pos h2]
        obtain ⟨a, b⟩ := fileWrite_parts p w.faults
        rw [h2, List.append_nil] at hw
        refine loop_inv size fuel _ _ all ⟨fun e => ?_, ?_⟩
        · show w.disk ++ (fileWrite p w.faults).1 ++ [] ++ p.drop (fileWrite p w.faults).1.length = all
          rw [b e, List.drop_length, List.append_nil, List.append_nil]
          exact hw
        · show w.disk ++ (fileWrite p w.faults).1 <+: all
          rw [← hw, List.prefix_append_right_inj]
          exact a
      · rw [if_neg h2]
        have hn : Inv { w with buf := w.buf ++ p.take (size - w.buf.length) } (p.drop (size - w.buf.length)) all := by
          refine ⟨fun _ => ?_, h.first⟩
          simp only [List.append_assoc, List.take_append_drop]
          rw [← List.append_assoc]
          exact hw
        exact loop_inv size fuel _ _ all (flush_inv hn).1
    · rw [if_neg h1]
      exact h

/-- After two rounds the loop has ended. -/
theorem loop_ends (size : Nat) (p : Bytes) (w : Writer) :
    ¬ (size - (Writer.writeLoop size 2 p w).2.buf.length < (Writer.writeLoop size 2 p w).1.length ∧
      (Writer.writeLoop size 2 p w).2.err = none) := by
  have direct : ∀ (fuel : Nat) (p : Bytes) (w : Writer), w.buf = [] →
      ¬ (size - (Writer.writeLoop size (fuel + 1) p w).2.buf.length < (Writer.writeLoop size (fuel + 1) p w).1.length ∧
        (Writer.writeLoop size (fuel + 1) p w).2.err = none) := by
    intro fuel p w hb
    unfold Writer.writeLoop
    by_cases h1 : size - w.buf.length < p.length ∧ w.err = none
    · rw [if_pos h1, if_pos hb]
      obtain ⟨a, b⟩ := fileWrite_parts p w.faults
      have stop : ∀ (f : Nat) (p' : Bytes) (w' : Writer), ¬ (size - w'.buf.length < p'.length ∧ w'.err = none) →
          Writer.writeLoop size f p' w' = (p', w') := by
        intro f p' w' hh
        cases f with
        | zero => rfl
        | succ f => unfold Writer.writeLoop; rw [if_neg hh]
      have hh : ¬ (size - (⟨w.disk ++ (fileWrite p w.faults).1, [], (fileWrite p w.faults).2.1, (fileWrite p w.faults).2.2⟩ : Writer).buf.length <
          (p.drop (fileWrite p w.faults).1.length).length ∧ (fileWrite p w.faults).2.1 = none) := by
        rintro ⟨hl, he⟩
        rw [b he, List.drop_length] at hl
        simp at hl
      simp only
      rw [stop fuel _ _ hh]
      exact hh
    · rw [if_neg h1]
      exact h1
  by_cases hb : w.buf = []
  · exact direct 1 p w hb
  · rw [Writer.writeLoop]
    by_cases h1 : size - w.buf.length < p.length ∧ w.err = none
    · rw [if_pos h1, if_neg hb]
      simp only
      generalize hx : Writer.flush _ = x
      by_cases he : x.err = none
      · refine direct 0 _ x ?_
        subst hx
        exact (flush_inv (all := w.disk ++ (w.buf ++ p.take (size - w.buf.length)) ++ [])
          ⟨fun _ => rfl, by rw [List.append_nil]; exact List.prefix_append _ _⟩).2 he
      · unfold Writer.writeLoop
        rw [if_neg (fun hh => he hh.2)]
        exact fun hh => he hh.2
    · rw [if_neg h1]
      exact h1

theorem write_inv (size : Nat) {w : Writer} {all : Bytes} (p : Bytes) (h : Inv w [] all) : Inv (w.write size p) [] (all ++ p) := by
  have hi : Inv w p (all ++ p) :=
    ⟨fun e => by rw [← h.whole e, List.append_nil], h.first.trans (List.prefix_append _ _)⟩
  have hl := loop_inv size 2 p w (all ++ p) hi
  unfold Writer.write
  simp only
  by_cases h1 : (Writer.writeLoop size 2 p w).2.err ≠ none
  · rw [if_pos h1]
    exact ⟨fun e => absurd e h1, hl.first⟩
  · rw [if_neg h1]
    refine ⟨fun e => ?_, hl.first⟩
    simp only [List.append_nil]
    rw [← List.append_assoc]
    exact hl.whole (by simpa using h1)

theorem writes_inv (size : Nat) : ∀ (calls : List Bytes) (w : Writer) (all : Bytes), Inv w [] all →
    Inv (calls.foldl (Writer.write size) w) [] (all ++ calls.flatten)
  | [], w, all, h => by simpa using h
  | p :: calls, w, all, h => by
    have := writes_inv size calls (w.write size p) (all ++ p) (write_inv size p h)
    simpa [List.append_assoc] using this

theorem new_inv (faults : List Fault) : Inv (Writer.new faults) [] [] := ⟨fun _ => rfl, List.prefix_refl _⟩

/-! ### A disk that takes everything -/

/-- No write failed, and none will. -/
def Calm (w : Writer) : Prop := w.err = none ∧ ∀ f ∈ w.faults, f = none

theorem fileWrite_calm {fs : List Fault} (h : ∀ f ∈ fs, f = none) (p : Bytes) :
    (fileWrite p fs).2.1 = none ∧ ∀ f ∈ (fileWrite p fs).2.2, f = none := by
  unfold fileWrite
  split
  · exact ⟨rfl, h⟩
  · exact ⟨rfl, fun f hf => h f (List.mem_cons_of_mem _ hf)⟩
  · rename_i k e fs
    exact absurd (h _ List.mem_cons_self) (by simp)

theorem flush_calm {w : Writer} (h : Calm w) : Calm w.flush := by
  unfold Writer.flush
  split
  · exact h
  · split
    · exact h
    · exact fileWrite_calm h.2 w.buf

theorem loop_calm (size : Nat) : ∀ (fuel : Nat) (p : Bytes) (w : Writer), Calm w → Calm (Writer.writeLoop size fuel p w).2
  | 0, _, _, h => h
  | fuel + 1, p, w, h => by
    unfold Writer.writeLoop
    split
    · split
      · exact loop_calm size fuel _ _ (fileWrite_calm h.2 p)
      · exact loop_calm size fuel _ _ (flush_calm h)
    · exact h

theorem writes_calm (size : Nat) : ∀ (calls : List Bytes) (w : Writer), Calm w → Calm (calls.foldl (Writer.write size) w)
  | [], _, h => h
  | p :: calls, w, h => by
    refine writes_calm size calls _ ?_
    unfold Writer.write
    simp only
    split
    · exact loop_calm size 2 p w h
    · exact loop_calm size 2 p w h

/-! ### The calls of a sheet -/

theorem rowCalls_flatten : ∀ (row : List Bytes) (i : Nat), (rowCalls i row).flatten = cellWrites i row ++ [10]
  | [], _ => rfl
  | v :: vs, i => by
    unfold rowCalls cellWrites
    by_cases h : i ≠ 0
    · rw [if_pos h, if_pos h]
      simp [rowCalls_flatten vs (i + 1)]
    · rw [if_neg h, if_neg h]
      simp [rowCalls_flatten vs (i + 1)]

theorem sheetCalls_loop (fl : Flags) : ∀ (rows : List (List Bytes)) (ps : Counts),
    (sheetCalls fl ps rows).1.flatten = (sheetLoop fl ps rows).1 ∧ (sheetCalls fl ps rows).2 = (sheetLoop fl ps rows).2
  | [], _ => ⟨rfl, rfl⟩
  | row :: rows, ps => by
    unfold sheetCalls sheetLoop
    simp only
    split
    · obtain ⟨a, b⟩ := sheetCalls_loop fl rows ⟨ps.numRows + 1, (rowLoop fl 0 ps.numCols row).2.2⟩
      refine ⟨?_, b⟩
      simp [rowCalls_flatten, a]
    · exact sheetCalls_loop fl rows _

end FullDisk

open FullDisk

/-- **C136**, the file: whatever writes fail, and however many bytes of them were written, the file that `grate2tsv` leaves for a sheet
holds a first part of the text of the sheet (C65); also at any moment before, after any number of the calls of `Write`. -/
theorem C136_first_part (size : Nat) (faults : List Fault) (fn s : Bytes) (rows kept : List (List Bytes)) (content : Bytes)
    (h : SheetText rows kept content) :
    (exportSheet {} size faults fn s rows).1.disk <+: content ∧
    ∀ calls, calls <+: (sheetCalls {} ⟨0, 0⟩ rows).1 → (calls.foldl (Writer.write size) (Writer.new faults)).disk <+: content := by
  have e : content = (sheetCalls {} ⟨0, 0⟩ rows).1.flatten := by
    rw [(sheetCalls_loop {} rows ⟨0, 0⟩).1]
    exact (C65_unique h (sheetText_loop rows ⟨0, 0⟩)).2
  constructor
  · rw [e]
    have := (flush_inv (writes_inv size (sheetCalls {} ⟨0, 0⟩ rows).1 _ _ (new_inv faults))).1.first
    rwa [List.nil_append] at this
  · rintro calls ⟨t, ht⟩
    rw [e, ← ht, List.flatten_append]
    have := (writes_inv size calls _ _ (new_inv faults)).first
    rw [List.nil_append] at this
    exact this.trans (List.prefix_append _ _)

/-- **C136**, the report: if no write fails, the file holds the text of the sheet, and the report gives the number of its lines. Missing:
reports of failed writes, `C136_unreported`. -/
theorem C136_report_partial (size : Nat) (faults : List Fault) (hf : ∀ f ∈ faults, f = none) (fn s : Bytes)
    (rows kept : List (List Bytes)) (content : Bytes) (h : SheetText rows kept content) :
    (exportSheet {} size faults fn s rows).1.disk = content ∧ (exportSheet {} size faults fn s rows).2.counts.numRows = kept.length ∧
      (exportSheet {} size faults fn s rows).2.err = none := by
  have e : content = (sheetCalls {} ⟨0, 0⟩ rows).1.flatten := by
    rw [(sheetCalls_loop {} rows ⟨0, 0⟩).1]
    exact (C65_unique h (sheetText_loop rows ⟨0, 0⟩)).2
  refine ⟨?_, ?_, rfl⟩
  · have hc := flush_calm (writes_calm size (sheetCalls {} ⟨0, 0⟩ rows).1 (Writer.new faults) ⟨rfl, hf⟩)
    obtain ⟨a, b⟩ := flush_inv (writes_inv size (sheetCalls {} ⟨0, 0⟩ rows).1 _ _ (new_inv faults))
    have hw := a.whole hc.1
    rw [b hc.1, List.append_nil, List.append_nil, List.nil_append] at hw
    exact hw.trans e.symm
  · show (sheetCalls {} ⟨0, 0⟩ rows).2.numRows = _
    rw [(sheetCalls_loop {} rows ⟨0, 0⟩).2]
    rw [sheetLoop_default, (C65_unique h (sheetText_loop rows ⟨0, 0⟩)).1]
    simp

/-- C136: the program could know. Whenever the file does not hold the whole text, `Flush` returned an error (which is dropped). -/
theorem C136_known (size : Nat) (faults : List Fault) (fn s : Bytes) (rows kept : List (List Bytes)) (content : Bytes)
    (h : SheetText rows kept content) (hd : (exportSheet {} size faults fn s rows).1.disk ≠ content) :
    (exportSheet {} size faults fn s rows).1.err ≠ none := by
  intro hc
  apply hd
  have e : content = (sheetCalls {} ⟨0, 0⟩ rows).1.flatten := by
    rw [(sheetCalls_loop {} rows ⟨0, 0⟩).1]
    exact (C65_unique h (sheetText_loop rows ⟨0, 0⟩)).2
  obtain ⟨a, b⟩ := flush_inv (writes_inv size (sheetCalls {} ⟨0, 0⟩ rows).1 _ _ (new_inv faults))
  have hw := a.whole hc
  rw [b hc, List.append_nil, List.append_nil, List.nil_append] at hw
  exact hw.trans e.symm

/-- C136 is false of every failed write: the report is the one of a disk that takes everything. -/
theorem C136_unreported (fl : Flags) (size size' : Nat) (faults faults' : List Fault) (fn s : Bytes) (rows : List (List Bytes)) :
    (exportSheet fl size faults fn s rows).2 = (exportSheet fl size' faults' fn s rows).2 ∧
    (exportSheet fl size faults fn s rows).2.err = none := ⟨rfl, rfl⟩

/-- C136: a disk without room. Two rows are reported as written, without an error, and the file is empty; with room for three bytes it
holds these. -/
theorem C136_counterexample (fn s : Bytes) :
    SheetText [[lit "a", lit "b"], [lit "c", []]] [[lit "a", lit "b"], [lit "c", []]] (lit "a\tb\nc\t\n") ∧
    (exportSheet {} 4096 [some (0, .msg "no space left on device")] fn s [[lit "a", lit "b"], [lit "c", []]]).1.disk = [] ∧
    (exportSheet {} 4096 [some (3, .msg "no space left on device")] fn s [[lit "a", lit "b"], [lit "c", []]]).1.disk = lit "a\tb" ∧
    (exportSheet {} 4 [none, some (2, .msg "no space left on device")] fn s [[lit "a", lit "b"], [lit "c", []]]).1.disk = lit "a\tb\nc\t" ∧
    (exportSheet {} 4096 [some (0, .msg "no space left on device")] fn s [[lit "a", lit "b"], [lit "c", []]]).2 =
      ⟨fn, s, ⟨2, 1⟩, none⟩ := by
  refine ⟨?_, rfl, rfl, rfl, rfl⟩
  have := sheetText_loop [[lit "a", lit "b"], [lit "c", []]] ⟨0, 0⟩
  have e1 : keptRows [[lit "a", lit "b"], [lit "c", []]] = [[lit "a", lit "b"], [lit "c", []]] := by decide +kernel
  have e2 : (sheetLoop {} ⟨0, 0⟩ [[lit "a", lit "b"], [lit "c", []]]).1 = lit "a\tb\nc\t\n" := by decide +kernel
  rwa [e1, e2] at this

end Grate.Props
