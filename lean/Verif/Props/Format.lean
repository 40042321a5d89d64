import Verif.Lemmas.Format

/-! # Properties C23–C30: number formats -/

namespace Grate.Props

open Grate Grate.Spec

/-! ## C29 -/

/-- Is the renderer a date renderer? -/
def isDateFmt : Fmt → Bool
  | .time _ => true
  | .cnTime _ => true
  | _ => false

/-- C29. For every format number: codes and renderers are defined for the same numbers, types for the
same numbers except 0, and the date-typed numbers are exactly those with a date renderer. -/
theorem C29_tables_agree (id : Nat) :
    ((builtInFormats id).isSome ↔ (goFormatters id).isSome) ∧
    ((builtInFormatTypes id).isSome ↔ ((goFormatters id).isSome ∧ id ≠ 0)) ∧
    (builtInFormatTypes id = some .date ↔ ∃ f, goFormatters id = some f ∧ isDateFmt f = true) := by
  have small : ∀ i : Fin 82,
      ((builtInFormats i.val).isSome ↔ (goFormatters i.val).isSome) ∧
      ((builtInFormatTypes i.val).isSome ↔ ((goFormatters i.val).isSome ∧ i.val ≠ 0)) ∧
      (builtInFormatTypes i.val = some .date ↔ (goFormatters i.val).any isDateFmt = true) := by
    decide +kernel
  by_cases h : id < 82
  · obtain ⟨h1, h2, h3⟩ := small ⟨id, h⟩
    refine ⟨h1, h2, ?_⟩
    simp only [] at h3
    rw [h3]
    cases goFormatters id <;> simp
  · have e1 : builtInFormats id = none := by
      unfold builtInFormats; split <;> first | omega | rfl
    have e2 : goFormatters id = none := by
      unfold goFormatters; split <;> first | omega | rfl
    have e3 : builtInFormatTypes id = none := by
      unfold builtInFormatTypes; split <;> first | omega | rfl
    simp [e1, e2, e3]

/-! ## C23, C24, C25 -/

/-- A sequence of `Add` calls. -/
def addAll (mk : Bytes → Fmt × CellType) : Formatter → List (Nat × Bytes) → Formatter
  | x, [] => x
  | x, (id, code) :: rest => addAll mk (x.add mk id code).1 rest

theorem add_mode (mk : Bytes → Fmt × CellType) (x : Formatter) (id : Nat) (code : Bytes) :
    (x.add mk id code).1.mode1904 = x.mode1904 := by
  unfold Formatter.add
  split
  · rfl
  · split
    · rfl
    · split <;> rfl

theorem addAll_mode (mk : Bytes → Fmt × CellType) : ∀ (l : List (Nat × Bytes)) (x : Formatter),
    (addAll mk x l).mode1904 = x.mode1904
  | [], _ => rfl
  | (id, code) :: rest, x => by rw [addAll, addAll_mode mk rest, add_mode]

/-- C23. Whatever was added, and however custom codes are compiled, a built-in number renders the
same. -/
theorem C23_builtin_unalterable (ext : Ext) (mk : Bytes → Fmt × CellType) (x : Formatter)
    (l : List (Nat × Bytes)) (id : Nat) (hb : (builtInFormats id).isSome) (v : Val) :
    (addAll mk x l).apply ext id v = x.apply ext id v := by
  have hagree := (C29_tables_agree id).1.mp hb
  unfold Formatter.apply
  cases h : goFormatters id with
  | none => rw [h] at hagree; cases hagree
  | some f => simp only [addAll_mode]

/-- `Add` changes nothing about other format numbers. -/
theorem C24_add_other (mk : Bytes → Fmt × CellType) (x : Formatter) (id : Nat) (code : Bytes)
    (j : Nat) (h : j ≠ id) :
    (x.add mk id code).1.codes j = x.codes j ∧ (x.add mk id code).1.types j = x.types j := by
  unfold Formatter.add
  split
  · simp [upd, h]
  · split
    · exact ⟨rfl, rfl⟩
    · split
      · exact ⟨rfl, rfl⟩
      · simp [upd, h]

/-- C24. Once a format number is defined, adding any code other than "general" for it is an error
and changes nothing at all. -/
theorem C24_first_wins (mk : Bytes → Fmt × CellType) (x : Formatter) (id : Nat) (code : Bytes)
    (h : (x.codes id).isSome) (hg : asciiLower code ≠ lit "general") :
    (x.add mk id code).1 = x ∧ (x.add mk id code).2 ≠ none := by
  unfold Formatter.add
  rw [if_neg hg]
  split
  · exact ⟨rfl, by simp⟩
  · first
      | exact ⟨rfl, by simp⟩
      | (rw [if_pos h]; exact ⟨rfl, by simp⟩)

/-- C24 over histories: rendering and cell type of a defined number never change, as long as it is
not re-added as "general". -/
theorem C24_history (ext : Ext) (mk : Bytes → Fmt × CellType) (id : Nat) :
    ∀ (l : List (Nat × Bytes)) (x : Formatter), (x.codes id).isSome →
    (∀ p ∈ l, p.1 = id → asciiLower p.2 ≠ lit "general") →
    (∀ v, (addAll mk x l).apply ext id v = x.apply ext id v) ∧
    (addAll mk x l).getCellType id = x.getCellType id := by
  have key : ∀ (l : List (Nat × Bytes)) (x : Formatter), (x.codes id).isSome →
      (∀ p ∈ l, p.1 = id → asciiLower p.2 ≠ lit "general") →
      (addAll mk x l).codes id = x.codes id ∧ (addAll mk x l).types id = x.types id := by
    intro l
    induction l with
    | nil => intro x _ _; exact ⟨rfl, rfl⟩
    | cons p rest ih =>
      intro x hx hl
      obtain ⟨j, code⟩ := p
      have hstep : (x.add mk j code).1.codes id = x.codes id ∧
          (x.add mk j code).1.types id = x.types id := by
        by_cases hj : id = j
        · subst hj
          rw [(C24_first_wins mk x id code hx (hl (id, code) (by simp) rfl)).1]
          exact ⟨rfl, rfl⟩
        · exact C24_add_other mk x j code id hj
      have := ih (x.add mk j code).1 (by rw [hstep.1]; exact hx)
        (fun p hp => hl p (by simp [hp]))
      simp only [addAll]
      rw [this.1, this.2]
      exact hstep
  intro l x hx hl
  obtain ⟨h1, h2⟩ := key l x hx hl
  constructor
  · intro v; simp only [Formatter.apply, h1, addAll_mode]
  · simp only [Formatter.getCellType, h2]

/-- The exception is real: re-adding a defined number as "General" silently replaces its rendering. -/
theorem C24_general_replaces (mk : Bytes → Fmt × CellType) (x : Formatter) (id : Nat) :
    (x.add mk id (lit "General")).2 = none ∧
    (x.add mk id (lit "General")).1.codes id = some .ident := by
  have h : asciiLower (lit "General") = lit "general" := by decide +kernel
  unfold Formatter.add
  rw [if_pos h]
  exact ⟨rfl, by simp [upd]⟩

/-- Concrete history for C24. -/
theorem C24_witness (mk : Bytes → Fmt × CellType) :
    ((Formatter.new.add mk 164 (lit "0.0")).1.codes 164).isSome ∧
    asciiLower (lit "0.000") ≠ lit "general" := by
  refine ⟨?_, by decide +kernel⟩
  have h : asciiLower (lit "0.0") ≠ lit "general" := by decide +kernel
  have h2 : (goFormatters 164).isSome = false := rfl
  unfold Formatter.add
  rw [if_neg h]
  simp [h2, Formatter.new, upd]

/-- C25 for Get: an undefined number is reported and falls back to the plain rendering. Missing from
the full statement: Apply, which panics (counterexample). -/
theorem C25_get_partial (x : Formatter) (id : Nat) (h1 : goFormatters id = none)
    (h2 : x.codes id = none) : x.get id = (.ident, false) := by
  simp only [Formatter.get, h1, h2]

/-- C25 is false for Apply: every undefined number panics. -/
theorem C25_apply_counterexample (ext : Ext) (x : Formatter) (id : Nat) (v : Val)
    (h1 : goFormatters id = none) (h2 : x.codes id = none) : x.apply ext id v = .panic := by
  simp only [Formatter.apply, h1, h2]

/-- The case occurs: format 5 of an empty formatter. -/
theorem C25_witness : goFormatters 5 = none ∧ Formatter.new.codes 5 = none := ⟨rfl, rfl⟩

/-! ## C26, C27 -/

/-- Rendering of an integer by a built-in format. -/
def renderInt (ext : Ext) (id : Nat) (n : Int) : GoRes (Bytes × Bool) :=
  Formatter.new.apply ext id (.int n)

theorem padLeft_zero (s : Bytes) : padLeft 0 s = s := by simp [padLeft]

theorem commas_int (n : Int) : ∃ g, Grouped (decNat n.natAbs) g ∧
    addCommas (decInt n) = .ok (if n < 0 then 45 :: g else g) := by
  have hd := decNat_isDigits n.natAbs
  obtain ⟨g, hg, hG⟩ := commas_digits hd
  refine ⟨g, hG, ?_⟩
  unfold decInt
  by_cases hn : n < 0
  · rw [if_pos hn, if_pos hn]
    simp [addCommas, hg]
  · rw [if_neg hn, if_neg hn]
    have : n.toNat = n.natAbs := by omega
    rw [this]
    obtain ⟨c, cs, hc, hne⟩ := digits_head_ne_minus hd
    rw [hc] at hg ⊢
    simp [addCommas, hne, hg]

/-- C26. For every integer, formats 3 and 61 give the decimal numeral of its absolute value in groups
of three from the right (first group 1 to 3 digits), with a leading minus sign iff it is negative. -/
theorem C26_commas (ext : Ext) (n : Int) (id : Nat) (hid : id = 3 ∨ id = 61) :
    ∃ d g, Numeral d n.natAbs ∧ Grouped d g ∧
      renderInt ext id n = .ok (if n < 0 then 45 :: g else g, true) := by
  obtain ⟨g, hG, hg⟩ := commas_int n
  refine ⟨_, g, decNat_numeral _, hG, ?_⟩
  have : renderInt ext id n = (addCommas (padLeft 0 (decInt n) ++ [])) >>= fun s => pure (s, true) := by
    rcases hid with rfl | rfl <;> rfl
  rw [this, padLeft_zero, List.append_nil, hg]
  rfl

/-- Deleting the commas of a grouped numeral gives back the digits. -/
theorem C26_delete_commas {d g : Bytes} (h : Grouped d g) (hd : ∀ b ∈ d, b ≠ 44) :
    g.filter (· ≠ 44) = d := by
  induction h with
  | base g _ _ => exact List.filter_eq_self.mpr (by simpa using hd)
  | more g hg hl ih =>
    rw [List.filter_append, ih (fun b hb => hd b (by simp [hb]))]
    congr 1
    simp only [ne_eq, not_true_eq_false, decide_false, Bool.false_eq_true, not_false_eq_true,
      List.filter_cons_of_neg]
    exact List.filter_eq_self.mpr (fun b hb => by simpa using hd b (by simp [hb]))

/-- Groups: split at the commas, the first has 1 to 3 characters and every other exactly 3. -/
theorem C26_groups {d g : Bytes} (h : Grouped d g) :
    ∃ (first : Bytes) (rest : List Bytes), g = first ++ rest.flatMap (fun r => 44 :: r) ∧ d = first ++ rest.flatten ∧
      1 ≤ first.length ∧ first.length ≤ 3 ∧ ∀ r ∈ rest, r.length = 3 := by
  induction h with
  | base g h1 h2 => exact ⟨g, [], by simp, by simp, h1, h2, by simp⟩
  | more g hg hl ih =>
    obtain ⟨first, rest, h1, h2, h3, h4, h5⟩ := ih
    refine ⟨first, rest ++ [g], by simp [h1], by simp [h2], h3, h4, ?_⟩
    intro r hr
    simp only [List.mem_append, List.mem_singleton] at hr
    rcases hr with hr | rfl
    · exact h5 r hr
    · exact hl

/-- C26 on a literal. -/
theorem C26_witness (ext : Ext) : renderInt ext 3 (-1234567) = .ok (lit "-1,234,567", true) := by
  show (addCommas (padLeft 0 (decInt (-1234567)) ++ []) >>= fun s => pure (s, true)) = _
  have : addCommas (padLeft 0 (decInt (-1234567)) ++ []) = .ok (lit "-1,234,567") := by rfl
  rw [this]; rfl

/-- C27. Formats 37 and 38: a negative integer is the grouped absolute value in parentheses, any
other integer is as in format 3. -/
theorem C27_neg_parens (ext : Ext) (n : Int) (id : Nat) (hid : id = 37 ∨ id = 38) :
    ∃ d g, Numeral d n.natAbs ∧ Grouped d g ∧
      renderInt ext id n = .ok (if n < 0 then 40 :: g ++ [41] else g, true) ∧
      (0 ≤ n → renderInt ext id n = renderInt ext 3 n) := by
  obtain ⟨g, hG, hg⟩ := commas_int n
  have h37 : renderInt ext id n = (addCommas (padLeft 0 (decInt n) ++ []) >>= addNegParens) >>=
      fun s => pure (s, true) := by
    rcases hid with rfl | rfl <;> rfl
  have h3 : renderInt ext 3 n = (addCommas (padLeft 0 (decInt n) ++ [])) >>=
      fun s => pure (s, true) := rfl
  rw [h37, h3, padLeft_zero, List.append_nil, hg]
  refine ⟨_, g, decNat_numeral _, hG, ?_⟩
  by_cases hn : n < 0
  · refine ⟨?_, fun h => absurd hn (by omega)⟩
    rw [if_pos hn, if_pos hn]
    simp [addNegParens]
  · rw [if_neg hn, if_neg hn]
    have hne : ∃ c cs, g = c :: cs ∧ (c == 45) = false := by
      obtain ⟨first, rest, h1, h2, h3, _, _⟩ := C26_groups hG
      obtain ⟨c, cs, hc, hm⟩ := digits_head_ne_minus (decNat_isDigits n.natAbs)
      cases first with
      | nil => simp at h3
      | cons f fs =>
        rw [hc] at h2
        simp only [List.cons_append, List.cons.injEq] at h2
        refine ⟨c, fs ++ rest.flatMap (fun r => 44 :: r), ?_, hm⟩
        rw [h1, h2.1]; rfl
    obtain ⟨c, cs, hc, hm⟩ := hne
    rw [hc]
    simp [addNegParens, hm]

/-! ## C28 -/

/-- The section that should be used for a value: `sections = pos :: others`. -/
def sectionFor (pos : Fmt) (others : List Fmt) (x : Option Float) : Fmt :=
  match x with
  | none => others.getD 2 .ident
  | some x => if x == 0 then others.getD 1 pos else if x < 0 then others.getD 0 pos else pos

/-- C28. For every list of sections and every value, exactly the section for its sign is applied. -/
theorem C28_sections (ext : Ext) (m : Bool) (pos : Fmt) (others : List Fmt) (v : Val) :
    (switchFmt pos others).eval ext m v =
      (sectionFor pos others (convertToFloat64 ext v)).eval ext m v := by
  unfold switchFmt
  rw [Fmt.eval]
  cases h : convertToFloat64 ext v with
  | none => rcases others with _ | ⟨a, _ | ⟨b, _ | ⟨c, d⟩⟩⟩ <;> rfl
  | some x =>
    simp only [sectionFor]
    by_cases h0 : (x == 0) = true
    · rw [if_pos h0, if_pos h0]
      rcases others with _ | ⟨a, _ | ⟨b, d⟩⟩ <;> rfl
    · rw [if_neg h0, if_neg h0]
      by_cases h1 : x < 0
      · rw [if_pos h1, if_pos h1]
        rcases others with _ | ⟨a, d⟩ <;> rfl
      · rw [if_neg h1, if_neg h1]

/-- Two different signs select two different sections of built-in format 42. -/
theorem C28_witness (ext : Ext) :
    renderInt ext 42 0 = .ok (lit "$-", true) ∧ renderInt ext 42 1200 = .ok (lit "$1,200", true) := by
  have hc : ∀ n, convertToFloat64 ext (.int n) = some (f64OfInt n) := fun _ => rfl
  have e0 : (f64OfInt 0 == 0) = true := by decide +kernel
  have e1 : (f64OfInt 1200 == 0) = false := by decide +kernel
  have e2 : ¬ (f64OfInt 1200 < 0) := by decide +kernel
  constructor
  · show (Fmt.eval ext false (switchFmt _ _) (.int 0) >>= fun s => pure (s, true)) = _
    rw [C28_sections, hc]
    simp only [sectionFor, e0, if_true]
    rfl
  · show (Fmt.eval ext false (switchFmt _ _) (.int 1200) >>= fun s => pure (s, true)) = _
    rw [C28_sections, hc]
    simp only [sectionFor, e1, e2, if_false, Bool.false_eq_true]
    rfl

/-! ## C30 -/

/-- C30 is false: the same number renders differently as an integer and as a float, and the integer
is not multiplied by 100. -/
theorem C30_counterexample (ext : Ext) :
    Formatter.new.apply ext 9 (.int 5) = .ok (lit "5%", true) ∧
    Formatter.new.apply ext 9 (.float 5) = .ok (lit "500%", true) := by
  have h : f64ToInt (5 * f64OfNat 100) = 500 := by decide +kernel
  refine ⟨rfl, ?_⟩
  show GoRes.ok (decInt (f64ToInt (5 * f64OfNat 100)) ++ [37], true) = _
  rw [h]
  rfl

/-- C30 is false also for floats alone: 0.29 is shown as 28%. -/
theorem C30_truncation_counterexample (ext : Ext) :
    Formatter.new.apply ext 9 (.float 0.29) = .ok (lit "28%", true) := by
  have h : f64ToInt (0.29 * f64OfNat 100) = 28 := by decide +kernel
  show GoRes.ok (decInt (f64ToInt (0.29 * f64OfNat 100)) ++ [37], true) = _
  rw [h]
  rfl

/-- What the code does for integers: the value itself followed by '%', never multiplied. -/
theorem C30_int_actual (ext : Ext) (n : Int) (id : Nat) (h : id = 9 ∨ id = 67) :
    renderInt ext id n = .ok (decInt n ++ [37], true) := by
  have : renderInt ext id n = .ok (padLeft 0 (decInt n) ++ [37], true) := by
    rcases h with rfl | rfl <;> rfl
  rw [this, padLeft_zero]

end Grate.Props
