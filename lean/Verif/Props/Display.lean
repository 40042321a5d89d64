import Verif.Lemmas.Display
import Verif.Props.Xlsx
import Verif.Props.XlsSheet

/-! # Displayed text (C74 to C76) -/

namespace Grate.Props

open Grate Grate.Spec Grate.Display

/-! ## C74: text under a number format -/

/-- The cell of a text that is not empty and not a marker, under a format of a given type. -/
theorem text_cell (ext : Ext) (f : Formatter) {t : Bytes} (ht : t ≠ []) (hm : ¬ Marker t) {n : Nat} (hn : n ≠ 0)
    {ct : CellType} (hc : f.getCellType n = some ct) (hs : ct ≠ .string) :
    Builds ext f (.str t) n (.full (coerce ext f.mode1904 ct (.str t) .string).1
      (coerce ext f.mode1904 ct (.str t) .string).2 (some n) []) := by
  rw [builds_iff]
  have h1 : (GoVal.str t).marker = false := by
    cases h : isMarker t with
    | false => exact h
    | true => exact absurd ((marker_iff t).mp h) hm
  have h2 : newCell (.str t) = .ok (.full (.str t) .string none []) := by simp [newCell, textCell, ht]
  have h3 : typedCell ext f (.str t) n = .ok (.full (coerce ext f.mode1904 ct (.str t) .string).1
      (coerce ext f.mode1904 ct (.str t) .string).2 none []) := by
    unfold typedCell
    rw [hc]
    simp only
    rw [if_neg hn]
    unfold newCellWithType
    rw [h2]
    simp only [GoRes.ok_bind, GoRes.pure_eq]
    rw [if_neg (Ne.symm hs)]
  simp only [putCell, h1, cond_false, h3, GoRes.ok_bind, Cell.setFormatNumber]
  rw [if_neg hn]

/-- C74, as far as it holds: under the General format (0) and the text format (49) every text is shown as it
is. Missing: all other formats, for which it is false, see below. -/
theorem C74_text_partial (ext : Ext) (f : Formatter) (t : Bytes) (ht : t ≠ []) (hm : ¬ Marker t) (n : Nat)
    (hn : n = 0 ∨ n = 49) :
    ∃ c, Builds ext f (.str t) n c ∧ cellString ext f c = .ok t ∧ c.type = .string := by
  have h1 : (GoVal.str t).marker = false := by
    cases h : isMarker t with
    | false => exact h
    | true => exact absurd ((marker_iff t).mp h) hm
  have h2 : newCell (.str t) = .ok (.full (.str t) .string none []) := by simp [newCell, textCell, ht]
  rcases hn with rfl | rfl
  · have h3 : typedCell ext f (.str t) 0 = newCell (.str t) := by
      unfold typedCell; cases f.getCellType 0 <;> rfl
    refine ⟨.full (.str t) .string none [], ?_, rfl, rfl⟩
    rw [builds_iff]
    simp only [putCell, h1, cond_false, h3, h2]
    rfl
  · refine ⟨.full (.str t) .string (some 49) [], ?_, rfl, rfl⟩
    rw [builds_iff]
    have h3 : typedCell ext f (.str t) 49 = .ok (.full (.str t) .string none []) := by
      unfold typedCell
      simp only [Formatter.getCellType, builtInFormatTypes, newCellWithType, h2]
      rfl
    simp only [putCell, h1, cond_false, h3]
    rfl

theorem C74_witness : lit "Total" ≠ [] ∧ ¬ Marker (lit "Total") := by
  constructor
  · decide +kernel
  · unfold Marker; decide +kernel

theorem parseInt_text (t : Bytes) (b : UInt8) (hb : t.head? = some b) (hd : ¬ (48 ≤ b ∧ b ≤ 57)) (h1 : b ≠ 43) (h2 : b ≠ 45) :
    (parseInt 64 t).1 = 0 := by
  cases t with
  | nil => cases hb
  | cons c cs =>
    cases hb
    have hdig : isDigit b = false := by
      unfold isDigit
      simpa using hd
    simp [parseInt, parseUint, parseUintLoop, h1, h2, hdig]

/-- C74 is false. A text that does not begin like a number, written under a format whose cells are integers, is
stored and shown exactly as the number 0: the text is lost. -/
theorem C74_integer_counterexample (ext : Ext) (f : Formatter) (t : Bytes) (b : UInt8) (hb : t.head? = some b)
    (hd : ¬ (48 ≤ b ∧ b ≤ 57)) (h1 : b ≠ 43) (h2 : b ≠ 45) (hm : ¬ Marker t) (n : Nat) (hn : n ≠ 0)
    (hc : f.getCellType n = some .integer) (c : Cell) :
    Builds ext f (.str t) n c ↔ Builds ext f (.sint 0) n c := by
  have ht : t ≠ [] := by rintro rfl; cases hb
  have e1 := text_cell ext f ht hm hn hc (by simp)
  have e2 : Builds ext f (.sint 0) n (.full (.int 0) .integer (some n) []) := by
    rw [builds_iff]
    unfold putCell typedCell
    rw [hc]
    simp only [GoVal.marker, cond_false]
    rw [if_neg hn]
    simp only [newCellWithType, newCell, GoRes.ok_bind, GoRes.pure_eq, if_true, Cell.setFormatNumber]
    rw [if_neg hn]
  have e3 : coerce ext f.mode1904 .integer (.str t) .string = (.int 0, .integer) := by
    have := parseInt_text t b hb hd h1 h2
    simp only [coerce, coerceBool, coerceFloat, coerceInt, coerceStr, coerceLast, this]
  rw [e3] at e1
  rw [builds_iff] at e1 e2
  rw [builds_iff, builds_iff, e1, e2]

/-- The same for formats whose cells are floats, when `ParseFloat` returns 0 with its error. -/
theorem C74_float_counterexample (ext : Ext) (f : Formatter) (t : Bytes) (ht : t ≠ []) (e : NumErr)
    (hp : ext.parseFloat t = (0, some e)) (hm : ¬ Marker t) (n : Nat) (hn : n ≠ 0)
    (hc : f.getCellType n = some .float) (c : Cell) :
    Builds ext f (.str t) n c ↔ Builds ext f (.f64 0) n c := by
  have e1 := text_cell ext f ht hm hn hc (by simp)
  have e2 : Builds ext f (.f64 0) n (.full (.float 0) .float (some n) []) := by
    rw [builds_iff]
    unfold putCell typedCell
    rw [hc]
    simp only [GoVal.marker, cond_false]
    rw [if_neg hn]
    simp only [newCellWithType, newCell, GoRes.ok_bind, GoRes.pure_eq, if_true, Cell.setFormatNumber]
    rw [if_neg hn]
  have e3 : coerce ext f.mode1904 .float (.str t) .string = (.float 0, .float) := by
    simp only [coerce, coerceBool, coerceFloat, coerceInt, coerceStr, coerceLast, hp]
  rw [e3] at e1
  rw [builds_iff] at e1 e2
  rw [builds_iff, builds_iff, e1, e2]

/-- A heading in a column formatted `#,##0` (format 3) is shown as 0. -/
theorem C74_total_counterexample (ext : Ext) (f : Formatter) :
    ∃ c, Builds ext f (.str (lit "Total")) 3 c ∧ cellString ext f c = .ok (lit "0") := by
  refine ⟨.full (.int 0) .integer (some 3) [], ?_, ?_⟩
  · rw [builds_iff]; rfl
  · rfl

/-- A text under a built-in date format is shown as an error message. -/
theorem C74_date_counterexample (ext : Ext) (f : Formatter) (e : NumErr)
    (hp : ext.parseFloat (lit "n/a") = (0, some e)) :
    ∃ c, Builds ext f (.str (lit "n/a")) 14 c ∧
      cellString ext f c = .ok (lit "MUST BE time.Time OR numeric TO FORMAT CORRECTLY") := by
  refine ⟨.full (.str (lit "n/a")) .date (some 14) [], ?_, ?_⟩
  · rw [builds_iff]; rfl
  · have : f.apply ext 14 (.str (lit "n/a")) = .ok (dateMsg, true) := by
      simp only [Formatter.apply, goFormatters, Fmt.eval, convertToFloat64, hp]
      rfl
    simp only [cellString, Cell.type, Cell.formatNo, Cell.value, this]
    rfl

/-- The empty text is shown as `<nil>` under the text format, and as an error message under a date format. -/
theorem C74_empty_counterexample (ext : Ext) (f : Formatter) :
    (∃ c, Builds ext f (.str []) 49 c ∧ cellString ext f c = .ok (lit "<nil>")) ∧
    (∃ c, Builds ext f (.str []) 14 c ∧
      cellString ext f c = .ok (lit "MUST BE time.Time OR numeric TO FORMAT CORRECTLY")) := by
  refine ⟨⟨.full (.str (lit "<nil>")) .string (some 49) [], ?_, rfl⟩, ⟨.full .nil .date (some 14) [], ?_, rfl⟩⟩
  · rw [builds_iff]; rfl
  · rw [builds_iff]; rfl

/-! ## C75: text results of formulas -/

/-- The sheet after writing an empty text. -/
theorem formula_put (ext : Ext) (f : Formatter) (n : Nat) :
    ∃ v ty, (Sheet.new f).put ext 0 0 (.str []) n =
      .ok ⟨f, 1, 1, [[.full v ty (if n = 0 then none else some n) []], [.empty]], 0⟩ := by
  have hp : ∃ v ty, putCell ext f (.str []) n = .ok (.full v ty (if n = 0 then none else some n) []) := by
    have hm : (GoVal.str []).marker = false := by decide +kernel
    have ht : ∃ v ty, typedCell ext f (.str []) n = .ok (.full v ty none []) := by
      unfold typedCell
      split
      · exact ⟨_, _, rfl⟩
      · split
        · exact ⟨_, _, rfl⟩
        · exact newCellWithType_ok ext _ (v := .str []) trivial _
    obtain ⟨v, ty, ht⟩ := ht
    refine ⟨v, ty, ?_⟩
    simp only [putCell, hm, cond_false, ht, GoRes.ok_bind, Cell.setFormatNumber]
    split <;> rfl
  obtain ⟨v, ty, hp⟩ := hp
  have hg : (Sheet.new f).grow 0 0 = ⟨f, 1, 1, [[.empty], [.empty]], 0⟩ := rfl
  refine ⟨v, ty, ?_⟩
  unfold Sheet.put
  simp only [hg, hp]
  rfl

/-- The cell of a formula with a text result. -/
theorem formula_cell (ext : Ext) (f : Formatter) (n : Nat) (t : Bytes) (c : Cell) :
    FormulaText ext f n t c ↔ c = .full (.str t) .string (if n = 0 then none else some n) [] := by
  obtain ⟨v, ty, e1⟩ := formula_put ext f n
  unfold FormulaText
  constructor
  · rintro ⟨s, s', h1, h2, h3⟩
    rw [e1] at h1
    cases h1
    cases h2
    cases h3
    rfl
  · rintro rfl
    exact ⟨_, _, e1, rfl, rfl⟩

theorem formula_shown (ext : Ext) (f : Formatter) {n : Nat} {t : Bytes} {c : Cell} (h : FormulaText ext f n t c) :
    cellString ext f c = (f.apply ext n (.str t) >>= fun r => pure (if r.2 then r.1 else t)) := by
  rw [formula_cell] at h
  subst h
  have hn : (Cell.full (.str t) .string (if n = 0 then none else some n) []).formatNo = n := by
    by_cases h0 : n = 0
    · subst h0; rfl
    · rw [if_neg h0]; rfl
  simp only [cellString, Cell.type, hn, Cell.value]
  rfl

/-- C75, as far as it holds: the text result of a formula is shown as it is under the General, text, plain number,
percent and scientific formats. Missing: the other formats, see the next theorems and the counterexamples. -/
theorem C75_plain_partial (ext : Ext) (f : Formatter) (n : Nat) (hn : n ∈ [0, 1, 2, 9, 10, 11, 48, 49, 59, 60, 67, 68])
    (t : Bytes) (c : Cell) (h : FormulaText ext f n t c) : cellString ext f c = .ok t := by
  rw [formula_shown ext f h]
  simp only [List.mem_cons, List.not_mem_nil, or_false] at hn
  rcases hn with rfl | rfl | rfl | rfl | rfl | rfl | rfl | rfl | rfl | rfl | rfl | rfl <;> rfl

/-- Under the accounting formats, if the text is not a number. -/
theorem C75_accounting_partial (ext : Ext) (f : Formatter) (n : Nat) (hn : n ∈ [41, 42, 43, 44]) (t : Bytes) (x : Float)
    (e : NumErr) (hp : ext.parseFloat t = (x, some e)) (c : Cell) (h : FormulaText ext f n t c) :
    cellString ext f c = .ok t := by
  rw [formula_shown ext f h]
  simp only [List.mem_cons, List.not_mem_nil, or_false] at hn
  rcases hn with rfl | rfl | rfl | rfl <;>
    simp only [Formatter.apply, goFormatters, switchFmt, Fmt.eval, convertToFloat64, hp] <;> rfl

theorem addCommas_short (t : Bytes) (ht : t ≠ []) (hm : t.head? ≠ some 45) (hs : numEnd t ≤ 3) : addCommas t = .ok t := by
  cases t with
  | nil => exact absurd rfl ht
  | cons c cs =>
    have hc : (c == 45) = false := by
      rw [beq_eq_false_iff_ne]
      rintro rfl
      exact hm rfl
    unfold addCommas
    simp only [hc, Bool.false_eq_true, if_false]
    generalize numEnd (c :: cs) = k at hs
    cases k with
    | zero => rfl
    | succ k =>
      unfold commaLoop
      rw [if_neg (by omega)]

/-- Under the formats with thousands separators, texts of at most three bytes before any of the bytes `.eE` and not
beginning with a minus sign. -/
theorem C75_short_partial (ext : Ext) (f : Formatter) (n : Nat) (hn : n ∈ [3, 4, 37, 38, 39, 40, 61, 62]) (t : Bytes)
    (ht : t ≠ []) (hm : t.head? ≠ some 45) (hs : (t.takeWhile (fun b => b ∉ [(46 : UInt8), 101, 69])).length ≤ 3)
    (c : Cell) (h : FormulaText ext f n t c) : cellString ext f c = .ok t := by
  have hs' : numEnd t ≤ 3 := by
    unfold numEnd
    refine Nat.le_trans (Nat.le_of_eq ?_) hs
    congr 2
    funext b
    simp only [List.mem_cons, List.not_mem_nil, or_false, decide_not, Bool.decide_or, beq_eq_decide, Bool.or_assoc]
  have hc := addCommas_short t ht hm hs'
  have hneg : addNegParens t = .ok t := by
    cases t with
    | nil => exact absurd rfl ht
    | cons c cs =>
      have hc : (c == 45) = false := by
        rw [beq_eq_false_iff_ne]
        rintro rfl
        exact hm rfl
      unfold addNegParens
      simp only [hc, Bool.false_eq_true, if_false]
  rw [formula_shown ext f h]
  simp only [List.mem_cons, List.not_mem_nil, or_false] at hn
  rcases hn with rfl | rfl | rfl | rfl | rfl | rfl | rfl | rfl <;>
    simp only [Formatter.apply, goFormatters, Fmt.eval, sprintfFmt, sprint, GoRes.ok_bind, hc, hneg] <;> rfl

theorem C75_witness (ext : Ext) (f : Formatter) : ∃ c, FormulaText ext f 3 (lit "n/a") c := by
  refine ⟨_, (formula_cell ext f 3 (lit "n/a") _).2 rfl⟩

/-- C75 is false: under the format `#,##0` a formula's text gets separators, and the empty text crashes the
program; under a fraction format (12) text becomes a message. -/
theorem C75_counterexample (ext : Ext) (f : Formatter) (e : NumErr) (hp : ext.parseFloat (lit "n/a") = (0, some e)) :
    (∃ c, FormulaText ext f 3 (lit "Total") c ∧ cellString ext f c = .ok (lit "To,tal")) ∧
    (∃ c, FormulaText ext f 3 [] c ∧ cellString ext f c = .panic) ∧
    (∃ c, FormulaText ext f 12 (lit "n/a") c ∧ cellString ext f c = .ok (lit "MUST BE numeric TO FORMAT CORRECTLY")) := by
  refine ⟨⟨_, (formula_cell ext f 3 _ _).2 rfl, ?_⟩, ⟨_, (formula_cell ext f 3 _ _).2 rfl, rfl⟩,
    ⟨_, (formula_cell ext f 12 _ _).2 rfl, ?_⟩⟩
  · have : addCommas (lit "Total") = .ok (lit "To,tal") := by rfl
    rw [formula_shown ext f ((formula_cell ext f 3 _ _).2 rfl)]
    simp only [Formatter.apply, goFormatters, Fmt.eval, sprintfFmt, sprint, GoRes.ok_bind, this]
    rfl
  · rw [formula_shown ext f ((formula_cell ext f 12 _ _).2 rfl)]
    simp only [Formatter.apply, goFormatters, Fmt.eval, fracFmt, convertToFloat64, hp]
    rfl

/-! ## C76: showing a row never crashes -/

/-- C76 (Apply). Applying any format that is built in or was added, to any value but the empty text, gives a text. -/
theorem C76_apply (ext : Ext) (hp : Prints ext) (f : Formatter) (hf : Made f) (n : Nat) (hn : Known f n) (v : Val)
    (hv : v ≠ .str []) : ∃ s, f.apply ext n v = .ok (s, true) := by
  obtain ⟨x, hx, ha⟩ := known_format hf hn
  obtain ⟨s, e⟩ := safe_eval hp f.mode1904 hv x hx
  exact ⟨s, by rw [ha, e]; rfl⟩

theorem known_zero (f : Formatter) : Known f 0 := rfl

theorem seqRes_total {α : Type} : ∀ (l : List (GoRes α)), (∀ x ∈ l, ∃ a, x = .ok a) →
    ∃ as, seqRes l = .ok as ∧ as.length = l.length
  | [], _ => ⟨[], rfl, rfl⟩
  | x :: l, h => by
    obtain ⟨a, rfl⟩ := h x (List.mem_cons_self ..)
    obtain ⟨as, e, hl⟩ := seqRes_total l (fun y hy => h y (List.mem_cons_of_mem _ hy))
    exact ⟨a :: as, by simp only [seqRes, GoRes.ok_bind, e]; rfl, by simp [hl]⟩

theorem lastWrite_mem {r c : Int} {v : GoVal} {n : Nat} : ∀ {ops : List Op}, lastWrite r c ops = some (v, n) →
    Op.put r c v n ∈ ops
  | [], h => by cases h
  | op :: ops, h => by
    unfold lastWrite at h
    cases hl : lastWrite r c ops with
    | some w =>
      rw [hl] at h
      cases h
      exact List.mem_cons_of_mem _ (lastWrite_mem hl)
    | none =>
      rw [hl] at h
      cases op with
      | put r' c' v' n' =>
        dsimp only at h
        split at h
        · rename_i hrc
          obtain ⟨rfl, rfl⟩ := hrc
          cases h
          exact List.mem_cons_self ..
        · cases h
      | _ => cases h

theorem lastAt_in {r c : Nat} {x : What} : ∀ {ws : List Write}, lastAt r c ws = some x → ∃ w ∈ ws, w.what = x
  | [], h => by cases h
  | w :: ws, h => by
    rw [lastAt] at h
    cases hl : lastAt r c ws with
    | some y =>
      rw [hl] at h
      cases h
      obtain ⟨v, hv, e⟩ := lastAt_in hl
      exact ⟨v, List.mem_cons_of_mem _ hv, e⟩
    | none =>
      rw [hl] at h
      dsimp only at h
      split at h
      · cases h
        exact ⟨w, List.mem_cons_self .., rfl⟩
      · cases h

theorem run_fmtr {ext : Ext} : ∀ (ops : List Op) {s s' : Sheet}, run ext s ops = .ok s' → s'.fmtr = s.fmtr
  | [], s, s', h => by cases h; rfl
  | op :: ops, s, s', h => by
    rw [run, GoRes.bind_eq_ok] at h
    obtain ⟨s1, h1, h2⟩ := h
    rw [run_fmtr ops h2, op_fmtr h1]

theorem strings_ok {ext : Ext} {s : Sheet} {row : List Cell} (hr : s.row = .ok row) (hl : (row.length : Int) ≤ s.numCols)
    (h : ∀ c ∈ row, ∃ t, cellString ext s.fmtr c = .ok t) : ∃ strs, s.strings ext = .ok strs := by
  obtain ⟨as, e, hlen⟩ := seqRes_total (row.map (cellString ext s.fmtr)) (by
    intro x hx
    obtain ⟨c, hc, rfl⟩ := List.mem_map.1 hx
    exact h c hc)
  rw [List.length_map] at hlen
  simp only [Sheet.strings, hr, GoRes.ok_bind, e, fillRow]
  rw [if_pos (by omega)]
  exact ⟨_, rfl⟩

/-- C76 (Strings). On a sheet made by writes under known formats and non-shrinking resizes, with the cursor on any
row, Strings completes. -/
theorem C76_strings (ext : Ext) (hp : Prints ext) (f : Formatter) (hf : Made f) (ops : List Op) (s : Sheet)
    (hg : Growing ext (Sheet.new f) ops) (h : run ext (Sheet.new f) ops = .ok s)
    (hk : ∀ r c v n, Op.put r c v n ∈ ops → Known f n) (hcur : 1 ≤ s.curRow) : ∃ strs, s.strings ext = .ok strs := by
  obtain ⟨row, hlen, hcell, _, _, _, hstr⟩ := C12_rectangular ext f ops s hg h hcur
  have hfm : s.fmtr = f := run_fmtr ops h
  obtain ⟨as, e, _⟩ := seqRes_total (row.map (cellString ext s.fmtr)) (by
    intro x hx
    obtain ⟨c, hc, rfl⟩ := List.mem_map.1 hx
    rw [hfm]
    obtain ⟨i, hi, rfl⟩ := List.mem_iff_getElem.1 hc
    have hci := hcell i
    rw [List.getElem?_eq_getElem hi] at hci
    have hc10 := C10_last_write_wins ext f ops s h (s.curRow - 1).toNat i
    rw [Int.toNat_of_nonneg (by omega), hci] at hc10
    cases hl : lastWrite ((s.curRow - 1).toNat : Nat) (i : Nat) ops with
    | some w =>
      rw [Int.toNat_of_nonneg (by omega)] at hl
      rw [hl] at hc10
      obtain ⟨x, hb, hx⟩ := hc10
      cases hx
      exact builds_ok hp hf (hk _ _ _ _ (lastWrite_mem hl)) hb
    | none =>
      rw [Int.toNat_of_nonneg (by omega)] at hl
      rw [hl] at hc10
      rcases hc10 with hx | hx
      · cases hx
      · injection hx with hx
        rw [hx]
        exact ⟨[], rfl⟩)
  refine ⟨as, (hstr as).2 ?_⟩
  exact (seqRes_ok _ _).1 e

/-- Every cell of a sheet as in C76 has a displayed text. -/
theorem holds_cells (ext : Ext) (hp : Prints ext) (f : Formatter) (hf : Made f) (ws : List Write) (s : Sheet)
    (h : Holds ext f ws s) (hw : ∀ w ∈ ws, w.what.Fit f) (r c : Nat) (x : Cell) (hx : s.cell? r c = some x) :
    ∃ t, cellString ext f x = .ok t := by
  cases hl : lastAt r c ws with
  | none =>
    rcases h.blank r c hl with e | e
    · rw [hx] at e; cases e
    · rw [hx] at e
      injection e with e
      rw [e]
      exact ⟨[], rfl⟩
  | some w =>
    obtain ⟨y, hy, e⟩ := h.written r c w hl
    rw [hx] at e
    cases e
    obtain ⟨w', hw', rfl⟩ := lastAt_in hl
    have hfit := hw w' hw'
    revert hy hfit
    cases w'.what with
    | value v n =>
      intro hy hfit
      exact builds_ok hp hf hfit hy
    | text t n =>
      rintro ⟨h1, h2, h3⟩ ⟨k1, k2⟩
      exact cellString_ok hp hf (by rw [h3]; exact k1) (by rw [h1]; simpa using k2) (by rw [h2]; simp)
    | link l =>
      rintro ⟨h1, h2, h3, _⟩ _
      refine cellString_ok hp hf (by rw [h3]; exact known_zero f) ?_ (by rw [h2]; simp)
      rw [h1]
      split
      · simp
      · simpa using ‹_›

/-- C76 (workbooks). On a sheet that holds what was written (C49 for xls, C58 for xlsx), where every write has a known
format and every text result of a formula is not empty: after any number of Next calls that put the cursor on a row,
Strings completes. -/
theorem C76_workbook (ext : Ext) (hp : Prints ext) (f : Formatter) (hf : Made f) (ws : List Write) (s : Sheet)
    (h : Holds ext f ws s) (hw : ∀ w ∈ ws, w.what.Fit f) (hr : ∀ row ∈ s.rows, (row.length : Int) = s.numCols) (s' : Sheet)
    (hs : After s s') (hcur : 1 ≤ s'.curRow) : ∃ strs, s'.strings ext = .ok strs := by
  have hcells := holds_cells ext hp f hf ws s h hw
  have hinv : s'.rows = s.rows ∧ s'.fmtr = s.fmtr ∧ s'.numCols = s.numCols ∧ s'.curRow ≤ s.rows.length := by
    clear hcur
    induction hs with
    | here => exact ⟨rfl, rfl, rfl, by rw [h.start]; omega⟩
    | @next s' _ ih =>
      obtain ⟨i1, i2, i3, i4⟩ := ih
      unfold Sheet.next
      split
      · exact ⟨i1, i2, i3, i4⟩
      · rename_i hn
        rw [i1] at hn
        exact ⟨i1, i2, i3, by dsimp only; omega⟩
  obtain ⟨i1, i2, i3, i4⟩ := hinv
  have hlt : (s'.curRow - 1).toNat < s.rows.length := by omega
  have hrow : s'.row = .ok s.rows[(s'.curRow - 1).toNat] := by
    unfold Sheet.row
    rw [if_pos hcur, i1, List.getElem?_eq_getElem hlt]
  refine strings_ok hrow ?_ ?_
  · rw [i3, hr _ (List.getElem_mem _)]
  · intro c hc
    rw [i2, h.fmtr]
    obtain ⟨i, hi, rfl⟩ := List.mem_iff_getElem.1 hc
    refine hcells (s'.curRow - 1).toNat i _ ?_
    rw [cell?_nat]
    simp only [Sheet.at?]
    rw [List.getElem?_eq_getElem hlt]
    exact List.getElem?_eq_getElem hi

/-- C76 is false of the empty text: applying the built-in format 3 to it crashes, and so does Strings on a row with a
formula whose result is the empty text under that format. -/
theorem C76_counterexample (ext : Ext) (f : Formatter) :
    f.apply ext 3 (.str []) = .panic ∧
    ∃ s s', (Sheet.new f).put ext 0 0 (.str []) 3 = .ok s ∧ s.set 0 0 (.str []) = .ok s' ∧
      s'.next.1.strings ext = .panic := by
  obtain ⟨v, ty, e1⟩ := formula_put ext f 3
  exact ⟨rfl, _, _, e1, rfl, rfl⟩

/-- Concrete printing functions that meet the hypothesis of C76. -/
def displayExt : Ext where
  parseFloat := fun _ => (0, some .syntax)
  floatF := fun _ => lit "0"
  floatG6 := fun _ => lit "0"
  floatV := fun _ => lit "0"
  sprintfFloat := fun fs _ => fs
  sprintfInt := fun fs _ => fs
  timeFormat := fun fs _ => fs
  timeString := fun _ => lit "t"
  scanG := fun _ => none
  scanD := fun _ => none

theorem C76_witness : Prints displayExt ∧ Made (Formatter.new.add makeFormatter 164 (lit "0.0")).1 ∧
    Known (Formatter.new.add makeFormatter 164 (lit "0.0")).1 164 := by
  refine ⟨⟨fun _ => ?_, fun _ => ?_, fun fs _ h => h, fun fs _ h => h⟩, Made.add _ _ Made.new, ?_⟩
  · exact show lit "0" ≠ [] by decide +kernel
  · exact show lit "t" ≠ [] by decide +kernel
  · unfold Known
    decide +kernel

/-- The history of `C12_witness` meets the hypotheses of C76 (Strings), on any formatter. -/
theorem C76_strings_witness (f : Formatter) (r c : Int) (v : GoVal) (n : Nat)
    (h : Op.put r c v n ∈ [Op.resize 1 2, .put 2 4 (.bool true) 0, .next, .next, .next]) : Known f n := by
  simp at h
  rw [h.2.2.2]
  exact known_zero f

/-- A sheet of one cell meets the hypotheses of C76 (workbooks). -/
theorem C76_workbook_witness (ext : Ext) (f : Formatter) (hf : Known f 49) (c : Cell) (h : Builds ext f (.str (lit "x")) 49 c) :
    ∃ s s', Holds ext f [⟨0, 0, .value (.str (lit "x")) 49⟩] s ∧ (What.value (.str (lit "x")) 49).Fit f ∧
      (∀ row ∈ s.rows, (row.length : Int) = s.numCols) ∧ After s s' ∧ 1 ≤ s'.curRow := by
  refine ⟨⟨f, 1, 1, [[c]], 0⟩, ⟨f, 1, 1, [[c]], 1⟩, ⟨rfl, ?_, ?_, rfl, ?_⟩, hf, ?_, After.next (After.here _), Int.le_refl _⟩
  · intro r k w hw
    simp only [lastAt] at hw
    split at hw
    · rename_i hrc
      obtain ⟨rfl, rfl⟩ := hrc
      cases hw
      exact ⟨c, h, rfl⟩
    · cases hw
  · intro r k hw
    simp only [lastAt] at hw
    split at hw
    · cases hw
    · rename_i hrc
      left
      rw [cell?_nat]
      match r, k with
      | 0, 0 => exact absurd ⟨rfl, rfl⟩ hrc
      | 0, k + 1 => rfl
      | r + 1, k => rfl
  · intro w hw
    simp at hw
    subst hw
    constructor <;> simp
  · intro row hrow
    simp at hrow
    subst hrow
    rfl

end Grate.Props
