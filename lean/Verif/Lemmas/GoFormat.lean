import Verif.Lemmas.GoTime

/-! # Lemmas about the elements of layouts -/

namespace Grate.Props

open Grate Grate.Spec

/-- The table with the bytes written out. -/
def stdBytes : List (Bytes × Std) :=
  [([74, 97, 110, 117, 97, 114, 121], .longMonth), ([74, 97, 110], .month), ([77, 111, 110, 100, 97, 121], .longWeekDay),
   ([77, 111, 110], .weekDay), ([77, 83, 84], .tz),
   ([48, 49], .zeroMonth), ([48, 50], .zeroDay), ([48, 51], .zeroHour12), ([48, 52], .zeroMinute), ([48, 53], .zeroSecond),
   ([48, 54], .year), ([48, 48, 50], .zeroYearDay), ([49, 53], .hour), ([49], .numMonth), ([50, 48, 48, 54], .longYear),
   ([50], .day), ([95, 95, 50], .underYearDay), ([95, 50], .underDay), ([51], .hour12), ([52], .minute),
   ([53], .second), ([80, 77], .pmUpper), ([112, 109], .pmLower),
   ([45, 48, 55, 48, 48, 48, 48], .zone false false 3), ([45, 48, 55, 58, 48, 48, 58, 48, 48], .zone false true 3),
   ([45, 48, 55, 48, 48], .zone false false 2), ([45, 48, 55, 58, 48, 48], .zone false true 2), ([45, 48, 55], .zone false false 1),
   ([90, 48, 55, 48, 48, 48, 48], .zone true false 3), ([90, 48, 55, 58, 48, 48, 58, 48, 48], .zone true true 3),
   ([90, 48, 55, 48, 48], .zone true false 2), ([90, 48, 55, 58, 48, 48], .zone true true 2), ([90, 48, 55], .zone true false 1)]

theorem stdTable_eq : stdTable = stdBytes := by decide +kernel

/-- A rest of a layout that cannot complete an element begun before it: it does not begin with a nine, and after a zero
comes one of the digits 1 to 6. -/
def Quiet (L : Bytes) : Prop :=
  ∀ b L', L = b :: L' → b ≠ 57 ∧ (b = 48 → ∃ x L'', L' = x :: L'' ∧ 49 ≤ x ∧ x ≤ 54)

/-- A byte that begins no element, except perhaps with what follows. -/
def SafeByte (b : UInt8) : Prop :=
  ¬ (48 ≤ b ∧ b ≤ 57) ∧ b ≠ 74 ∧ b ≠ 77 ∧ b ≠ 80 ∧ b ≠ 112 ∧ b ≠ 90 ∧ b ≠ 95

instance (b : UInt8) : Decidable (SafeByte b) := by unfold SafeByte; infer_instance

theorem find_none_of_heads (b : UInt8) (L : Bytes) (h : ∀ e ∈ stdBytes, e.1.head? ≠ some b) :
    stdBytes.find? (stdMatches (b :: L)) = none := by
  rw [List.find?_eq_none]
  intro e he hm
  have := h e he
  have hne : e.1 ≠ [] := by
    have : ∀ e ∈ stdBytes, e.1 ≠ [] := by decide
    exact this e he
  unfold stdMatches at hm
  rw [Bool.and_eq_true] at hm
  cases hx : e.1 with
  | nil => exact hne hx
  | cons x xs =>
    rw [hx] at hm this
    simp only [List.isPrefixOf, Bool.and_eq_true, beq_iff_eq] at hm
    simp only [List.head?_cons, ne_eq, Option.some.injEq] at this
    exact this hm.1.1

theorem stdAt_safe (b : UInt8) (L : Bytes) (hb : SafeByte b) (hL : Quiet L) : stdAt (b :: L) = none := by
  have hfind : stdBytes.find? (stdMatches (b :: L)) = none := by
    by_cases h45 : b = 45
    · subst h45
      rw [List.find?_eq_none]
      intro e he hm
      unfold stdMatches at hm
      rw [Bool.and_eq_true] at hm
      have hm := hm.1
      have key : ∀ e ∈ stdBytes, e.1.head? ≠ some 45 ∨ [45, 48, 55].isPrefixOf e.1 := by decide
      have hne : ∀ e ∈ stdBytes, e.1 ≠ [] := by decide
      rcases key e he with h | h
      · cases hx : e.1 with
        | nil => exact hne e he hx
        | cons x xs =>
          rw [hx] at hm h
          simp only [List.isPrefixOf, Bool.and_eq_true, beq_iff_eq] at hm
          simp only [List.head?_cons, ne_eq, Option.some.injEq] at h
          exact h hm.1
      · rw [List.isPrefixOf_iff_prefix] at h hm
        obtain ⟨r, hr⟩ := h.trans hm
        simp only [List.cons_append, List.nil_append, List.cons.injEq, true_and] at hr
        obtain ⟨-, h2⟩ := hL 48 _ hr.symm
        obtain ⟨x, L'', h3, -, h4⟩ := h2 rfl
        rw [List.cons.injEq] at h3
        rw [← h3.1] at h4
        exact absurd h4 (by decide)
    · refine find_none_of_heads b L ?_
      obtain ⟨h1, h2, h3, h4, h5, h6, h7⟩ := hb
      have key : ∀ e ∈ stdBytes, e.1.head? = some 45 ∨ e.1.head? = some 74 ∨ e.1.head? = some 77 ∨ e.1.head? = some 80 ∨
        e.1.head? = some 112 ∨ e.1.head? = some 90 ∨ e.1.head? = some 95 ∨ e.1.head? = some 48 ∨ e.1.head? = some 49 ∨
        e.1.head? = some 50 ∨ e.1.head? = some 51 ∨ e.1.head? = some 52 ∨ e.1.head? = some 53 := by decide
      intro e he heq
      have := key e he
      rw [heq] at this
      simp only [Option.some.injEq] at this
      rcases this with h | h | h | h | h | h | h | h | h | h | h | h | h
      · exact h45 h
      · exact h2 h
      · exact h3 h
      · exact h4 h
      · exact h5 h
      · exact h6 h
      · exact h7 h
      all_goals (rw [h] at h1; exact h1 (by decide))
  unfold stdAt
  rw [stdTable_eq, hfind]
  simp only
  unfold fracAt
  split
  · rename_i s d rest heq
    rw [List.cons.injEq] at heq
    obtain ⟨rfl, rfl⟩ := heq
    obtain ⟨h1, h2⟩ := hL d rest rfl
    split
    · rename_i hc
      rw [Bool.and_eq_true, Bool.or_eq_true, Bool.or_eq_true] at hc
      simp only [beq_iff_eq] at hc
      have hd : d = 48 := by
        rcases hc.2 with h | h
        · exact h
        · exact absurd h h1
      obtain ⟨x, L'', rfl, h3, h4⟩ := h2 hd
      have hx : (x == d) = false := by
        rw [hd]
        exact beq_eq_false_iff_ne.2 (by rintro rfl; exact absurd h3 (by decide))
      have hdig : isDigit x = true := by
        unfold isDigit
        rw [Bool.and_eq_true, decide_eq_true_eq, decide_eq_true_eq]
        exact ⟨UInt8.le_trans (show (48 : UInt8) ≤ 49 by decide) h3, UInt8.le_trans h4 (show (54 : UInt8) ≤ 57 by decide)⟩
      simp [List.takeWhile, hx, hdig]
    · rfl
  · rfl

/-- The element of a field. -/
def DateField.std : DateField → Std
  | .year four => if four then .longYear else .year
  | .month 1 => .numMonth
  | .month 2 => .zeroMonth
  | .month 3 => .month
  | .month 4 => .longMonth
  | .month _ => .month
  | .day 1 => .day
  | .day 2 => .zeroDay
  | .day 3 => .weekDay
  | .day _ => .longWeekDay
  | .hour _ => .hour
  | .minute two => if two then .zeroMinute else .minute
  | .second two => if two then .zeroSecond else .second

/-- What may follow a field in a layout. -/
def MayFollow (f : DateField) (R : Bytes) : Prop :=
  Quiet R ∧ (f = .month 1 → R.head? ≠ some 53) ∧ (f.layout.length = 3 → lowerFirst R = false)

theorem stdAt_of_find (l : Bytes) (e : Bytes × Std) (h : stdBytes.find? (stdMatches l) = some e) :
    stdAt l = some (e.2, e.1.length) := by
  unfold stdAt
  rw [stdTable_eq, h]

theorem lits : lit "2006" = [50, 48, 48, 54] ∧ lit "06" = [48, 54] ∧ lit "1" = [49] ∧ lit "01" = [48, 49] ∧
    lit "Jan" = [74, 97, 110] ∧ lit "January" = [74, 97, 110, 117, 97, 114, 121] ∧ lit "2" = [50] ∧ lit "02" = [48, 50] ∧
    lit "Mon" = [77, 111, 110] ∧ lit "Monday" = [77, 111, 110, 100, 97, 121] ∧ lit "15" = [49, 53] ∧ lit "04" = [48, 52] ∧
    lit "4" = [52] ∧ lit "05" = [48, 53] ∧ lit "5" = [53] := by decide +kernel

theorem stdAt_jan (R : Bytes) (h : lowerFirst R = false) : stdAt ([74, 97, 110] ++ R) = some (.month, 3) := by
  refine stdAt_of_find _ ([74, 97, 110], .month) ?_
  cases R with
  | nil => decide
  | cons r R =>
    have hr : (117 == r) = false := by
      simp only [lowerFirst] at h
      rw [beq_eq_false_iff_ne]
      rintro rfl
      exact absurd h (by decide)
    simp only [List.cons_append, List.nil_append]
    simp [stdBytes, List.find?, stdMatches, List.isPrefixOf, hr, h]

theorem stdAt_mon (R : Bytes) (h : lowerFirst R = false) : stdAt ([77, 111, 110] ++ R) = some (.weekDay, 3) := by
  refine stdAt_of_find _ ([77, 111, 110], .weekDay) ?_
  cases R with
  | nil => decide
  | cons r R =>
    have hr : (100 == r) = false := by
      simp only [lowerFirst] at h
      rw [beq_eq_false_iff_ne]
      rintro rfl
      exact absurd h (by decide)
    simp only [List.cons_append, List.nil_append]
    simp [stdBytes, List.find?, stdMatches, List.isPrefixOf, hr, h]

theorem stdAt_month1 (R : Bytes) (h : R.head? ≠ some 53) : stdAt ([49] ++ R) = some (.numMonth, 1) := by
  refine stdAt_of_find _ ([49], .numMonth) ?_
  cases R with
  | nil => decide
  | cons r R =>
    have hr : (53 == r) = false := by
      rw [beq_eq_false_iff_ne]
      rintro rfl
      exact h rfl
    simp only [List.cons_append, List.nil_append]
    simp [stdBytes, List.find?, stdMatches, List.isPrefixOf, hr]

theorem stdAt_day1 (R : Bytes) (h : Quiet R) : stdAt ([50] ++ R) = some (.day, 1) := by
  refine stdAt_of_find _ ([50], .day) ?_
  have hp : List.isPrefixOf [48, 48, 54] R = false := by
    rw [Bool.eq_false_iff]
    intro hp
    rw [List.isPrefixOf_iff_prefix] at hp
    obtain ⟨r, hr⟩ := hp
    simp only [List.cons_append, List.nil_append] at hr
    obtain ⟨x, L, h1, h2, -⟩ := (h 48 _ hr.symm).2 rfl
    rw [List.cons.injEq] at h1
    rw [← h1.1] at h2
    exact absurd h2 (by decide)
  simp only [List.cons_append, List.nil_append]
  simp [stdBytes, List.find?, stdMatches, List.isPrefixOf, hp]

theorem stdAt_field (f : DateField) (R : Bytes) (h : MayFollow f R) :
    stdAt (f.layout ++ R) = some (DateField.std f, f.layout.length) := by
  obtain ⟨hq, h1, h3⟩ := h
  have simple : ∀ (l : Bytes) (s : Std), (l, s) ∈ stdBytes → (∀ R, stdBytes.find? (stdMatches (l ++ R)) = some (l, s)) →
      stdAt (l ++ R) = some (s, l.length) := fun l s _ h => stdAt_of_find _ (l, s) (h R)
  obtain ⟨l1, l2, l3, l4, l5, l6, l7, l8, l9, l10, l11, l12, l13, l14, l15⟩ := lits
  match f with
  | .year true => simp only [DateField.layout, DateField.std, l1, if_true]; exact stdAt_of_find _ (_, .longYear) (by simp [stdBytes, List.find?, stdMatches, List.isPrefixOf])
  | .year false => simp only [DateField.layout, DateField.std, l2, Bool.false_eq_true, if_false]; exact stdAt_of_find _ (_, .year) (by simp [stdBytes, List.find?, stdMatches, List.isPrefixOf])
  | .month 0 => simp only [DateField.layout, DateField.std, l5] at h3 ⊢; exact stdAt_jan R (h3 rfl)
  | .month 1 => simp only [DateField.layout, DateField.std, l3]; exact stdAt_month1 R (h1 rfl)
  | .month 2 => simp only [DateField.layout, DateField.std, l4]; exact stdAt_of_find _ (_, .zeroMonth) (by simp [stdBytes, List.find?, stdMatches, List.isPrefixOf])
  | .month 3 => simp only [DateField.layout, DateField.std, l5] at h3 ⊢; exact stdAt_jan R (h3 rfl)
  | .month 4 => simp only [DateField.layout, DateField.std, l6]; exact stdAt_of_find _ (_, .longMonth) (by simp [stdBytes, List.find?, stdMatches, List.isPrefixOf])
  | .month (n + 5) => simp only [DateField.layout, DateField.std, l5] at h3 ⊢; exact stdAt_jan R (h3 rfl)
  | .day 0 => simp only [DateField.layout, DateField.std, l10]; exact stdAt_of_find _ (_, .longWeekDay) (by simp [stdBytes, List.find?, stdMatches, List.isPrefixOf])
  | .day 1 => simp only [DateField.layout, DateField.std, l7]; exact stdAt_day1 R hq
  | .day 2 => simp only [DateField.layout, DateField.std, l8]; exact stdAt_of_find _ (_, .zeroDay) (by simp [stdBytes, List.find?, stdMatches, List.isPrefixOf])
  | .day 3 => simp only [DateField.layout, DateField.std, l9] at h3 ⊢; exact stdAt_mon R (h3 rfl)
  | .day (n + 4) => simp only [DateField.layout, DateField.std, l10]; exact stdAt_of_find _ (_, .longWeekDay) (by simp [stdBytes, List.find?, stdMatches, List.isPrefixOf])
  | .hour b => simp only [DateField.layout, DateField.std, l11]; exact stdAt_of_find _ (_, .hour) (by simp [stdBytes, List.find?, stdMatches, List.isPrefixOf])
  | .minute true => simp only [DateField.layout, DateField.std, l12, if_true]; exact stdAt_of_find _ (_, .zeroMinute) (by simp [stdBytes, List.find?, stdMatches, List.isPrefixOf])
  | .minute false => simp only [DateField.layout, DateField.std, l13, Bool.false_eq_true, if_false]; exact stdAt_of_find _ (_, .minute) (by simp [stdBytes, List.find?, stdMatches, List.isPrefixOf])
  | .second true => simp only [DateField.layout, DateField.std, l14, if_true]; exact stdAt_of_find _ (_, .zeroSecond) (by simp [stdBytes, List.find?, stdMatches, List.isPrefixOf])
  | .second false => simp only [DateField.layout, DateField.std, l15, Bool.false_eq_true, if_false]; exact stdAt_of_find _ (_, .second) (by simp [stdBytes, List.find?, stdMatches, List.isPrefixOf])

theorem goFormatFrom_drop (t : Time) (l R : Bytes) : goFormatFrom t l.length (l ++ R) = goFormatFrom t 0 R := by
  induction l with
  | nil => rfl
  | cons b l ih => simp only [List.length_cons, List.cons_append, goFormatFrom]; exact ih

theorem layout_ne (f : DateField) : f.layout ≠ [] := by
  obtain ⟨l1, l2, l3, l4, l5, l6, l7, l8, l9, l10, l11, l12, l13, l14, l15⟩ := lits
  unfold DateField.layout
  split <;> try split
  all_goals simp only [l1, l2, l3, l4, l5, l6, l7, l8, l9, l10, l11, l12, l13, l14, l15]
  all_goals exact List.cons_ne_nil _ _

theorem goFormat_field (t : Time) (f : DateField) (R : Bytes) (h : MayFollow f R) :
    goFormatFrom t 0 (f.layout ++ R) = stdShow t (DateField.std f) ++ goFormatFrom t 0 R := by
  have hs := stdAt_field f R h
  have hd := goFormatFrom_drop t
  cases hl : f.layout with
  | nil => exact absurd hl (layout_ne f)
  | cons b l =>
    rw [hl, List.cons_append] at hs
    rw [List.cons_append, goFormatFrom, hs]
    simp only [List.length_cons, Nat.add_sub_cancel]
    rw [hd]

theorem quiet_nil : Quiet [] := fun _ _ h => nomatch h

theorem quiet_safe {b : UInt8} (L : Bytes) (hb : SafeByte b) : Quiet (b :: L) := by
  intro c L' h
  rw [List.cons.injEq] at h
  rw [← h.1]
  refine ⟨?_, ?_⟩
  · rintro rfl; exact absurd hb (by decide)
  · rintro rfl; exact absurd hb (by decide)

theorem quiet_layout (f : DateField) (L : Bytes) : Quiet (f.layout ++ L) := by
  obtain ⟨l1, l2, l3, l4, l5, l6, l7, l8, l9, l10, l11, l12, l13, l14, l15⟩ := lits
  have key : ∀ l : Bytes, l ≠ [] → l.head? ≠ some 57 → (l.head? = some 48 → ∃ x L', l.tail = x :: L' ∧ 49 ≤ x ∧ x ≤ 54) → Quiet (l ++ L) := by
    intro l h1 h2 h3 b L' heq
    cases l with
    | nil => exact absurd rfl h1
    | cons c l =>
      rw [List.cons_append, List.cons.injEq] at heq
      obtain ⟨rfl, rfl⟩ := heq
      refine ⟨fun h => h2 (by rw [h]; rfl), fun h => ?_⟩
      obtain ⟨x, L', h4, h5⟩ := h3 (by rw [h]; rfl)
      simp only [List.tail_cons] at h4
      exact ⟨x, L' ++ L, by rw [h4]; rfl, h5⟩
  unfold DateField.layout
  split <;> try split
  all_goals simp only [l1, l2, l3, l4, l5, l6, l7, l8, l9, l10, l11, l12, l13, l14, l15]
  all_goals refine key _ (List.cons_ne_nil _ _) (by decide) ?_
  all_goals intro h
  all_goals first | exact ⟨_, _, rfl, by decide, by decide⟩ | exact absurd h (by decide)

theorem goFormat_sep (t : Time) (s R : Bytes) (hs : ∀ b ∈ s, SafeByte b) (hR : Quiet R) :
    goFormatFrom t 0 (s ++ R) = s ++ goFormatFrom t 0 R := by
  induction s with
  | nil => rfl
  | cons b s ih =>
    have hq : Quiet (s ++ R) := by
      cases s with
      | nil => exact hR
      | cons c s => exact quiet_safe _ (hs c (by simp))
    rw [List.cons_append, goFormatFrom, stdAt_safe b _ (hs b (by simp)) hq]
    simp only
    rw [ih (fun c hc => hs c (by simp [hc])), List.cons_append]

end Grate.Props
