import Verif.Model.Report
import Verif.Spec.Report
import Verif.Props.Reexport
import Verif.Props.Workers
import Verif.Lemmas.GoShortText
import Mathlib.Tactic.Tauto

/-! # C137: the report of `grate2tsv` is a table -/

namespace Grate.Props

open Grate Spec G2t Work Api

namespace Report

theorem tsvText_append (a b : List (List Bytes)) : tsvText (a ++ b) = tsvText a ++ tsvText b := by
  unfold tsvText
  rw [List.flatMap_append]

theorem header_text : reportHeader = tsvText [reportColumns] := by decide +kernel

theorem inter6 (a b c d e f : Bytes) : tsvText [[a, b, c, d, e, f]] =
    a ++ [9] ++ b ++ [9] ++ c ++ [9] ++ d ++ [9] ++ e ++ [9] ++ f ++ [10] := by
  simp [tsvText, List.intercalate, List.intersperse]

theorem line_row (msg : GoErr → Bytes) (l : Bytes × LogLine) : ∃ row, ReportRow msg l row ∧ lineBytes msg l.1 l.2 = tsvText [row] := by
  obtain ⟨t, l⟩ := l
  cases l with
  | fatal fn e =>
    refine ⟨_, .fatal t fn e, ?_⟩
    rw [inter6]
    have : lit "\t-\t-\t-\t" = [9] ++ lit "-" ++ [9] ++ lit "-" ++ [9] ++ lit "-" ++ [9] := by decide +kernel
    simp only [lineBytes, this, List.append_assoc]
  | sheet s =>
    obtain ⟨fn, sh, counts, er⟩ := s
    cases er with
    | none =>
      refine ⟨_, .good (decNat_numeral _) (decNat_numeral _), ?_⟩
      rw [inter6]
      rfl
    | some e =>
      refine ⟨_, .bad e (decNat_numeral _) (decNat_numeral _), ?_⟩
      rw [inter6]
      rfl

theorem run_rows (msg : GoErr → Bytes) : ∀ (lines : List (Bytes × LogLine)), ∃ rows, All2 (ReportRow msg) lines rows ∧
    ∀ f, lines.foldl (fun f l => f ++ lineBytes msg l.1 l.2) f = f ++ tsvText rows
  | [] => ⟨[], .nil, fun f => by simp [tsvText]⟩
  | l :: ls => by
    obtain ⟨row, h1, h2⟩ := line_row msg l
    obtain ⟨rows, h3, h4⟩ := run_rows msg ls
    refine ⟨row :: rows, .cons h1 h3, fun f => ?_⟩
    rw [List.foldl_cons, h4, h2, List.append_assoc, ← tsvText_append]
    rfl

theorem all2_append {α β : Type} {R : α → β → Prop} {a a' : List α} {b b' : List β} (h : All2 R a b) (h' : All2 R a' b') :
    All2 R (a ++ a') (b ++ b') := by
  induction h with
  | nil => exact h'
  | cons h _ ih => exact .cons h ih

theorem runs_old (msg : GoErr → Bytes) : ∀ (runs : List (List (Bytes × LogLine))) (old : Bytes), old ≠ [] →
    ∃ rows, All2 (ReportRow msg) runs.flatten rows ∧ runs.foldl (runReport msg) old = old ++ tsvText rows
  | [], old, _ => ⟨[], .nil, by simp [tsvText]⟩
  | r :: runs, old, h => by
    obtain ⟨rows, h1, h2⟩ := run_rows msg r
    have e : runReport msg old r = old ++ tsvText rows := by
      unfold runReport startReport
      rw [if_neg (fun e => h (List.length_eq_zero_iff.1 e)), h2]
    obtain ⟨rows', h3, h4⟩ := runs_old msg runs (old ++ tsvText rows) (fun e => h (List.append_eq_nil_iff.1 e).1)
    refine ⟨rows ++ rows', ?_, ?_⟩
    · rw [List.flatten_cons]
      exact all2_append h1 h3
    · rw [List.foldl_cons, e, h4, tsvText_append, List.append_assoc]

theorem row_length {msg : GoErr → Bytes} {l : Bytes × LogLine} {row : List Bytes} (h : ReportRow msg l row) : row.length = 6 := by
  cases h <;> rfl

theorem numeral_cell {d : Bytes} {n : Nat} (h : Numeral d n) : OneCell d := by
  refine ⟨fun hh => ?_, fun hh => ?_, fun hh => ?_⟩ <;>
  · have := h.1.2 _ hh
    revert this
    decide

theorem row_cells {msg : GoErr → Bytes} {l : Bytes × LogLine} {row : List Bytes} (h : ReportRow msg l row)
    (hc : ∀ t ∈ lineTexts msg l, OneCell t) : ∀ c ∈ row, OneCell c := by
  have dash : OneCell (lit "-") := by unfold OneCell; decide +kernel
  cases h with
  | fatal time fn e =>
    simp only [lineTexts, List.mem_cons, List.not_mem_nil, or_false, forall_eq_or_imp, forall_eq] at hc ⊢
    exact ⟨hc.1, hc.2.1, dash, dash, dash, hc.2.2⟩
  | good hr hcn =>
    simp only [lineTexts, Option.map_none, Option.toList_none, List.append_nil, List.mem_cons, List.not_mem_nil, or_false,
      forall_eq_or_imp, forall_eq] at hc ⊢
    exact ⟨hc.1, hc.2.1, hc.2.2, numeral_cell hr, numeral_cell hcn, dash⟩
  | bad e hr hcn =>
    simp only [lineTexts, Option.map_some, Option.toList_some, List.cons_append, List.nil_append, List.mem_cons, List.not_mem_nil,
      or_false, forall_eq_or_imp, forall_eq] at hc ⊢
    exact ⟨hc.1, hc.2.1, hc.2.2.1, numeral_cell hr, numeral_cell hcn, hc.2.2.2⟩

theorem all2_mem_right {α β : Type} {R : α → β → Prop} {a : List α} {b : List β} (h : All2 R a b) :
    ∀ y ∈ b, ∃ x ∈ a, R x y := by
  induction h with
  | nil => intro y hy; cases hy
  | cons h _ ih =>
    intro y hy
    rcases List.mem_cons.1 hy with rfl | hy
    · exact ⟨_, List.mem_cons_self, h⟩
    · obtain ⟨x, hx, hr⟩ := ih y hy
      exact ⟨x, List.mem_cons_of_mem _ hx, hr⟩

theorem fields_of (rows : List (List Bytes)) (h1 : ∀ r ∈ rows, r ≠ []) (h2 : ∀ r ∈ rows, ∀ c ∈ r, OneCell c) :
    All2 FieldsOf (rows.map ([(9 : UInt8)].intercalate ·)) rows := by
  induction rows with
  | nil => exact .nil
  | cons r rs ih =>
    exact .cons ⟨h1 r List.mem_cons_self, fun f hf => (h2 r List.mem_cons_self f hf).1, rfl⟩
      (ih (fun r' hr' => h1 r' (List.mem_cons_of_mem _ hr')) (fun r' hr' => h2 r' (List.mem_cons_of_mem _ hr')))

theorem not_long (rows : List (List Bytes)) (h1 : ∀ r ∈ rows, r ≠ []) (h2 : ∀ r ∈ rows, ∀ c ∈ r, OneCell c)
    (h3 : ∀ r ∈ rows, ([(9 : UInt8)].intercalate r).length < 65536) : ¬ HasLongLine (tsvText rows) := by
  intro hl
  obtain ⟨e, he, hne⟩ := (C05_tsv_lossless id [] _).1 hl
  rcases C04_tsv_roundtrip id [] rows h1 h2 h3 with ⟨_, h2, _⟩ | h2
  · rw [he] at h2; cases h2
  · rw [he] at h2
    cases h2
    exact absurd hne (by simp [GoErr.isNotInFormat])

theorem columns_cells : ∀ c ∈ reportColumns, OneCell c := by
  unfold OneCell
  decide +kernel

end Report

open Report

/-- **C137, the bytes.** After any number of runs of the program with the same report, whatever is exported: if there was no report (or
an empty one) before, it is the tab-separated text of one row with the names of the columns and of the rows of all lines logged, in the
order of the runs; if there was one, it is kept, and the rows follow. -/
theorem C137_content (msg : GoErr → Bytes) (old : Bytes) (runs : List (List (Bytes × LogLine))) (hr : runs ≠ []) :
    ∃ rows, All2 (ReportRow msg) runs.flatten rows ∧
      runs.foldl (runReport msg) old = (if old = [] then tsvText (reportColumns :: rows) else old ++ tsvText rows) := by
  by_cases ho : old = []
  · simp only [if_pos ho]
    obtain ⟨r, runs, rfl⟩ := List.exists_cons_of_ne_nil hr
    obtain ⟨rows, h1, h2⟩ := run_rows msg r
    have e : runReport msg old r = tsvText (reportColumns :: rows) := by
      unfold runReport startReport
      rw [ho, if_pos List.length_nil, List.nil_append, h2, header_text, ← tsvText_append]
      rfl
    obtain ⟨rows', h3, h4⟩ := runs_old msg runs (tsvText (reportColumns :: rows)) (fun e => by
      rw [show reportColumns :: rows = [reportColumns] ++ rows from rfl, tsvText_append] at e
      exact absurd (List.append_eq_nil_iff.1 e).1 (by decide +kernel))
    refine ⟨rows ++ rows', ?_, ?_⟩
    · rw [List.flatten_cons]
      exact all2_append h1 h3
    · rw [List.foldl_cons, e, h4, ← tsvText_append]
      rfl
  · simp only [if_neg ho]
    exact runs_old msg runs old ho

/-- **C137, one run.** In every execution with any number of workers and any files, when the program has exited: the new rows of the
report are those of the lines of all files, the files in some order, each once. -/
theorem C137_run {F : Type} (msg : GoErr → Bytes) (old : Bytes) (n : Nat) (jobs : List (Job F (Bytes × LogLine)))
    (s : St F (Bytes × LogLine)) (h : Steps (init n jobs) s) (hx : s.main = .exited) :
    ∃ (order : List (Job F (Bytes × LogLine))) (rows : List (List Bytes)), order.Perm jobs ∧ All2 (ReportRow msg) (order.flatMap Job.lines) rows ∧
      runReport msg old s.log = (if old = [] then tsvText (reportColumns :: rows) else old ++ tsvText rows) := by
  obtain ⟨_, order, hp, hl⟩ := C63_log n jobs s h hx
  obtain ⟨rows, h1, h2⟩ := C137_content msg old [s.log] (by simp)
  rw [List.flatten_singleton, hl] at h1
  exact ⟨order, rows, hp, h1, h2⟩

/-- **C137, read again** (partial). A report begun by the program opens as a table in every program with all formats: the names of the
columns, then one row of six cells for each line. Missing: names and messages with tabs or line breaks, where it is false
(`C137_counterexample`), and lines of 64 KiB. -/
theorem C137_open_partial (w : World) (ext : Ext) (fn : Bytes) (msg : GoErr → Bytes) (runs : List (List (Bytes × LogLine)))
    (hr : runs ≠ []) (rows : List (List Bytes)) (hrows : All2 (ReportRow msg) runs.flatten rows)
    (hc : ∀ l ∈ runs.flatten, ∀ t ∈ lineTexts msg l, OneCell t)
    (hshort : ∀ r ∈ rows, ([(9 : UInt8)].intercalate r).length < 65536) (hsize : rows.length < 2 ^ 49)
    (hf : w.files fn = .ok (runs.foldl (runReport msg) [])) (ez : GoErr)
    (hz : w.zip (runs.foldl (runReport msg) []) = .error ez)
    (hi : ∀ m, (w.iter m).Perm m) (t : List (Grate.Entry Source)) (ht : Shipped w t) :
    ∃ f, openSrc t fn = .ok (.text f) ∧ (∀ name, (Source.text f).get ext name = .ok (.text f, .ok (.text f))) ∧
      drain Simple.File.next Simple.File.strings (rows.length + 2) f = some (.ok (reportColumns :: rows)) ∧
      ∀ r ∈ rows, r.length = 6 := by
  obtain ⟨rows', h1, h2⟩ := C137_content msg [] runs hr
  rw [if_pos rfl] at h2
  have uniq : rows' = rows := by
    refine all2_unique (fun a b b' h h' => ?_) h1 hrows
    have num : ∀ {d d' : Bytes} {n : Nat}, Numeral d n → Numeral d' n → d = d' := fun h h' => numeral_unique' h h'
    cases h with
    | fatal => cases h'; rfl
    | good a b => cases h' with | good a' b' => rw [num a a', num b b']
    | bad e a b => cases h' with | bad _ a' b' => rw [num a a', num b b']
  subst uniq
  have six : ∀ r ∈ reportColumns :: rows', r.length = 6 := fun r hr => by
    rcases List.mem_cons.1 hr with rfl | hr
    · rfl
    · obtain ⟨l, _, hl⟩ := all2_mem_right h1 r hr
      exact row_length hl
  have ne : ∀ r ∈ reportColumns :: rows', r ≠ [] := fun r hr e => by
    have := six r hr
    rw [e] at this
    cases this
  have cells : ∀ r ∈ reportColumns :: rows', ∀ c ∈ r, OneCell c := fun r hr => by
    rcases List.mem_cons.1 hr with rfl | hr
    · exact columns_cells
    · obtain ⟨l, hm, hl⟩ := all2_mem_right h1 r hr
      exact row_cells hl (hc l hm)
  have short : ∀ r ∈ reportColumns :: rows', ([(9 : UInt8)].intercalate r).length < 65536 := fun r hr => by
    rcases List.mem_cons.1 hr with rfl | hr
    · decide +kernel
    · exact hshort r hr
  have hnc : NotCompound (tsvText (reportColumns :: rows')) := by
    refine .inl ?_
    rintro ⟨u, hu⟩
    have hh := congrArg List.head? hu
    rw [show reportColumns :: rows' = [reportColumns] ++ rows' from rfl, tsvText_append, ← header_text] at hh
    have e : reportHeader = 116 :: reportHeader.tail := by decide +kernel
    rw [e, List.cons_append, List.head?_cons] at hh
    exact absurd hh (by unfold signature; simp)
  rw [h2] at hf hz
  have ho := (C06_rule w.iter hi fn _ _ (reportColumns :: rows') (not_long _ ne cells short)
    (linesOf_tsvText _ (fun r hr c hc => (cells r hr c hc).2)) (fields_of _ ne cells)
    (by rw [List.length_cons]; omega)).2 (same_width six)
  exact ⟨_, (open_text w _ _ hf hnc ez hz t ht).1 _ ho, fun _ => rfl, C08_drain _ rfl, fun r hr => six r (List.mem_cons_of_mem _ hr)⟩

/-- C137: a row tells whether the file could be processed, and the time, the names and the counts. -/
theorem C137_row {msg : GoErr → Bytes} {t t' : Bytes} {s s' : Stats} {row : List Bytes} (h : ReportRow msg (t, .sheet s) row) :
    (ReportRow msg (t', .sheet s') row → t = t' ∧ s.filename = s'.filename ∧ s.sheet = s'.sheet ∧ s.counts = s'.counts) ∧
    ∀ fn e, ¬ ReportRow msg (t', .fatal fn e) row := by
  have num : ∀ {d : Bytes} {n n' : Nat}, Numeral d n → Numeral d n' → n = n' := fun h h' => h.2.1.symm.trans h'.2.1
  have dash : ∀ {n : Nat}, ¬ Numeral (lit "-") n := fun h => by
    have := h.1.2 45 (by decide +kernel)
    revert this
    decide
  have eqc : ∀ {c c' : Counts}, c.numRows = c'.numRows → c.numCols = c'.numCols → c = c' := by
    rintro ⟨⟩ ⟨⟩ rfl rfl
    rfl
  have inv : ∀ {t : Bytes} {s : Stats}, ReportRow msg (t, .sheet s) row → ∃ r c z, row = [t, s.filename, s.sheet, r, c, z] ∧
      Numeral r s.counts.numRows ∧ Numeral c s.counts.numCols := by
    intro t s h
    cases h with
    | good a b => exact ⟨_, _, _, rfl, a, b⟩
    | bad e a b => exact ⟨_, _, _, rfl, a, b⟩
  obtain ⟨r, c, z, hrow, a, b⟩ := inv h
  constructor
  · intro h'
    obtain ⟨r', c', z', hrow', a', b'⟩ := inv h'
    rw [hrow] at hrow'
    simp only [List.cons.injEq, and_true] at hrow'
    obtain ⟨e1, e2, e3, rfl, rfl, _⟩ := hrow'
    exact ⟨e1, e2, e3, eqc (num a a') (num b b')⟩
  · intro fn e h'
    have hrow' : row = [t', fn, lit "-", lit "-", lit "-", msg e] := by
      generalize hl : (t', LogLine.fatal fn e) = l at h'
      cases h' with
      | fatal => cases hl; rfl
      | good => cases hl
      | bad => cases hl
    rw [hrow] at hrow'
    simp only [List.cons.injEq, and_true] at hrow'
    obtain ⟨_, _, _, rfl, _, _⟩ := hrow'
    exact dash a

/-- C137 is false for file names with tabs and line breaks: one unreadable file gives the report of two others. -/
theorem C137_counterexample (msg : GoErr → Bytes) (e : GoErr) (t : Bytes) (hex : Bytes → Bytes) (create : Bytes → Option GoErr) :
    ∃ forged la lb lf, forged ≠ lit "a.xls" ∧ forged ≠ lit "b.xls" ∧
      (processFile {} hex create (lit "a.xls") (.err e)) = .ok ([], .inr e) ∧ la = logLines (lit "a.xls") (.inr e) ∧
      (processFile {} hex create (lit "b.xls") (.err e)) = .ok ([], .inr e) ∧ lb = logLines (lit "b.xls") (.inr e) ∧
      (processFile {} hex create forged (.err e)) = .ok ([], .inr e) ∧ lf = logLines forged (.inr e) ∧
      ∀ old, runReport msg old (lf.map (fun l => (t, l))) = runReport msg old ((la ++ lb).map (fun l => (t, l))) := by
  refine ⟨lit "a.xls" ++ lit "\t-\t-\t-\t" ++ msg e ++ [10] ++ t ++ [9] ++ lit "b.xls", _, _, _, ?_, ?_, rfl, rfl, rfl, rfl, rfl, rfl, ?_⟩
  · intro h
    have := congrArg List.length h
    simp only [List.length_append] at this
    have e : (lit "b.xls").length = 5 := by decide +kernel
    omega
  · intro h
    have := congrArg List.length h
    simp only [List.length_append] at this
    have e : (lit "a.xls").length = 5 := by decide +kernel
    omega
  · intro old
    simp [logLines, runReport, lineBytes]

/-- C137: two runs, one with a sheet that was exported and an unreadable file, the other with an unreadable sheet. -/
theorem C137_witness (msg : GoErr → Bytes) (e : GoErr) (hm : msg e = lit "bad") :
    (∀ l ∈ [[(lit "now", LogLine.sheet ⟨lit "a.xls", lit "s", ⟨12, 3⟩, none⟩), (lit "now", .fatal (lit "b.xls") e)],
        [(lit "later", .sheet ⟨lit "c.xls", lit "t", ⟨0, 0⟩, some e⟩)]].flatten, ∀ t ∈ lineTexts msg l, OneCell t) ∧
    [[(lit "now", LogLine.sheet ⟨lit "a.xls", lit "s", ⟨12, 3⟩, none⟩), (lit "now", .fatal (lit "b.xls") e)],
        [(lit "later", .sheet ⟨lit "c.xls", lit "t", ⟨0, 0⟩, some e⟩)]].foldl (runReport msg) [] =
      lit "time\tfilename\tsheet\trows\tcolumns\terrors\nnow\ta.xls\ts\t12\t3\t-\nnow\tb.xls\t-\t-\t-\tbad\nlater\tc.xls\tt\t0\t0\tbad\n" := by
  constructor
  · simp only [List.flatten_cons, List.flatten_nil, List.append_nil, List.cons_append, List.nil_append, List.mem_cons, List.not_mem_nil,
      or_false, forall_eq_or_imp, forall_eq, lineTexts, Option.map_none, Option.toList_none, Option.map_some, Option.toList_some, hm]
    have cell : ∀ s ∈ [lit "now", lit "later", lit "a.xls", lit "b.xls", lit "c.xls", lit "s", lit "t", lit "bad"], OneCell s := by
      unfold OneCell
      decide +kernel
    simp only [List.mem_cons, List.not_mem_nil, or_false, forall_eq_or_imp, forall_eq] at cell
    tauto
  · simp only [List.foldl_cons, List.foldl_nil, runReport, lineBytes, hm]
    decide +kernel

end Grate.Props
