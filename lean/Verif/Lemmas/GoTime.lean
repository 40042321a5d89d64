import Verif.Model.GoTime
import Verif.Spec.DateText
import Verif.Lemmas.Decimal
import Verif.Props.Dates

/-! # Lemmas about the model of `time.Format` -/

namespace Grate.Props

open Grate Grate.Spec

/-! ### The calendar -/

set_option maxHeartbeats 1000000 in
/-- The month from the day of the year `e`, the leap day left out; `lp` is one after the leap day. -/
theorem goCivil_month (y e lp base days : Int) (h0 : 0 ≤ e) (h1 : e ≤ 364)
    (fact : (Leap y ∧ (59 ≤ e ∧ lp = 1 ∨ e < 59 ∧ lp = 0)) ∨ (¬ Leap y ∧ lp = 0))
    (hb : base = daysToYear y) (hsum : base + e + lp = days) :
    (⟨y, if e ≥ daysBefore13 (e / 31 + 1) then e / 31 + 2 else e / 31 + 1,
      if e ≥ daysBefore13 (e / 31 + 1) then e - daysBefore13 (e / 31 + 1) + 1 else e - daysBefore (e / 31) + 1⟩ : Date).Valid ∧
    goDate y (if e ≥ daysBefore13 (e / 31 + 1) then e / 31 + 2 else e / 31 + 1)
      (if e ≥ daysBefore13 (e / 31 + 1) then e - daysBefore13 (e / 31 + 1) + 1 else e - daysBefore (e / 31) + 1) = days := by
  -- the month `M` and the day `D`, by the table of the months
  suffices H : ∃ M D : Int, (if e ≥ daysBefore13 (e / 31 + 1) then e / 31 + 2 else e / 31 + 1) = M ∧
      (if e ≥ daysBefore13 (e / 31 + 1) then e - daysBefore13 (e / 31 + 1) + 1 else e - daysBefore (e / 31) + 1) = D ∧
      1 ≤ M ∧ M ≤ 12 ∧ 1 ≤ D ∧ D = e - daysBefore (M - 1) + 1 ∧
      (e < daysBefore13 M) by
    obtain ⟨M, D, h1, h2, m1, m12, d1, hD, hlt⟩ := H
    rw [h1, h2]
    have hM : M = 1 ∨ M = 2 ∨ M = 3 ∨ M = 4 ∨ M = 5 ∨ M = 6 ∨ M = 7 ∨ M = 8 ∨ M = 9 ∨ M = 10 ∨ M = 11 ∨ M = 12 := by omega
    clear h1 h2
    refine ⟨⟨m1, m12, d1, ?_⟩, ?_⟩
    · clear hsum hb
      rcases fact with ⟨hL, fact⟩ | ⟨hL, fact⟩ <;>
      rcases hM with rfl | rfl | rfl | rfl | rfl | rfl | rfl | rfl | rfl | rfl | rfl | rfl <;>
        simp [daysBefore13, daysBefore, monthLen, hL] at hD hlt ⊢ <;> omega
    · rw [goDate_valid _ _ _ m1 m12, ← hb]
      rcases fact with ⟨hL, fact⟩ | ⟨hL, fact⟩ <;>
      rcases hM with rfl | rfl | rfl | rfl | rfl | rfl | rfl | rfl | rfl | rfl | rfl | rfl <;>
        simp [daysBefore13, daysBefore, hL] at hD hlt ⊢ <;> omega
  clear fact hb hsum
  generalize hk : e / 31 = k
  have hkc : k = 0 ∨ k = 1 ∨ k = 2 ∨ k = 3 ∨ k = 4 ∨ k = 5 ∨ k = 6 ∨ k = 7 ∨ k = 8 ∨ k = 9 ∨ k = 10 ∨ k = 11 := by omega
  obtain ⟨B0, B1, hB0, hB1, hb0, hb1⟩ : ∃ B0 B1 : Int, daysBefore k = B0 ∧ daysBefore13 (k + 1) = B1 ∧
      (B0 ≤ e) ∧ (e < B1 ∨ (B1 ≤ e ∧ k ≤ 10 ∧ e < daysBefore13 (k + 2))) := by
    refine ⟨_, _, rfl, rfl, ?_⟩
    rcases hkc with rfl | rfl | rfl | rfl | rfl | rfl | rfl | rfl | rfl | rfl | rfl | rfl <;>
      simp only [daysBefore13, daysBefore] <;> norm_num <;> omega
  rw [hB0, hB1]
  by_cases hge : e ≥ B1
  · rw [if_pos hge, if_pos hge]
    have hk10 : k ≤ 10 ∧ e < daysBefore13 (k + 2) := by
      rcases hb1 with h | ⟨-, h⟩
      · exact absurd h (by omega)
      · exact h
    refine ⟨_, _, rfl, rfl, by omega, by omega, by omega, ?_, hk10.2⟩
    have : daysBefore13 (k + 1) = daysBefore (k + 2 - 1) := by
      unfold daysBefore13
      rw [if_neg (by omega), show k + 2 - 1 = k + 1 by ring]
    rw [← this, hB1]
  · rw [if_neg hge, if_neg hge]
    refine ⟨_, _, rfl, rfl, by omega, by omega, by omega, ?_, by rw [hB1]; omega⟩
    rw [show k + 1 - 1 = k by ring, hB0]

theorem goCivil_spec (days : Int) :
    (⟨(goCivil days).1, (goCivil days).2.1, (goCivil days).2.2.1⟩ : Date).Valid ∧
    goDate (goCivil days).1 (goCivil days).2.1 (goCivil days).2.2.1 = days := by
  unfold goCivil
  simp only
  generalize hd : days + 719162 = d
  generalize hn : d / 146097 = n
  generalize hd1 : d - 146097 * n = d1
  have b1 : 0 ≤ d1 ∧ d1 < 146097 := by omega
  generalize hn1 : d1 / 36524 - d1 / 36524 / 4 = n1
  have c1 : n1 = 0 ∨ n1 = 1 ∨ n1 = 2 ∨ n1 = 3 := by omega
  generalize hd2 : d1 - 36524 * n1 = d2
  have b2 : 0 ≤ d2 ∧ d2 < 36525 ∧ (d2 = 36524 → n1 = 3) := by omega
  generalize hn2 : d2 / 1461 = n2
  generalize hd3 : d2 - 1461 * n2 = d3
  have b3 : 0 ≤ d3 ∧ d3 < 1461 ∧ 0 ≤ n2 ∧ n2 ≤ 24 := by omega
  have b3' : n2 = 24 → d3 ≤ 1460 ∧ (d3 = 1460 → n1 = 3) := by omega
  generalize hn3 : d3 / 365 - d3 / 365 / 4 = n3
  have c3 : n3 = 0 ∨ n3 = 1 ∨ n3 = 2 ∨ n3 = 3 := by omega
  generalize hd4 : d3 - 365 * n3 = d4
  have b4 : 0 ≤ d4 ∧ d4 ≤ 365 ∧ (d4 = 365 → n3 = 3) := by omega
  generalize hy : 400 * n + 100 * n1 + 4 * n2 + n3 + 1 = y
  have hleap : Leap y ↔ n3 = 3 ∧ (n2 = 24 → n1 = 3) := by
    unfold Leap
    omega
  have hyear : daysToYear y + d4 = days := by
    unfold daysToYear
    have e1 : (y - 1) / 4 = 100 * n + 25 * n1 + n2 := by omega
    have e2 : (y - 1) / 100 = 4 * n + n1 := by omega
    have e3 : (y - 1) / 400 = n := by omega
    rw [e1, e2, e3]
    omega
  have hlast : d4 = 365 → Leap y := by
    intro h
    rw [hleap]
    refine ⟨b4.2.2 h, fun h24 => ?_⟩
    exact (b3' h24).2 (by omega)
  clear hn1 hd1 hn hd hd2 hn2 hd3 hn3 hd4 hy hleap b1 b2 b3 b3' c1 c3
  have hil : isLeap y = decide (Leap y) := by
    rw [Bool.eq_iff_iff, isLeap_iff, decide_eq_true_eq]
  rw [hil]
  -- the day of the year `e`, without the leap day
  have month : ∀ e lp : Int, 0 ≤ e → e ≤ 364 →
      ((Leap y ∧ (59 ≤ e ∧ lp = 1 ∨ e < 59 ∧ lp = 0)) ∨ (¬ Leap y ∧ lp = 0)) → daysToYear y + e + lp = days → _ :=
    fun e lp h0 h1 hf hs => goCivil_month y e lp _ days h0 h1 hf rfl hs
  by_cases hl : Leap y
  · by_cases h59 : d4 = 59
    · simp only [hl, h59, decide_true, Bool.and_true, if_true]
      refine ⟨⟨by norm_num, by norm_num, by norm_num, by simp [monthLen, hl]⟩, ?_⟩
      rw [goDate_valid _ _ _ (by norm_num) (by norm_num)]
      norm_num [daysBefore]
      omega
    · by_cases hgt : d4 > 59
      · have := month (d4 - 1) 1 (by omega) (by omega) (.inl ⟨hl, by omega⟩) (by omega)
        simp only [hl, h59, hgt, decide_true, decide_false, Bool.and_true, Bool.and_false, Bool.true_and, Bool.false_eq_true, if_true, if_false]
        split <;> simp_all
      · have := month d4 0 (by omega) (by omega) (.inl ⟨hl, by omega⟩) (by omega)
        simp only [hl, h59, hgt, decide_true, decide_false, Bool.and_true, Bool.and_false, Bool.true_and, Bool.false_eq_true, if_true, if_false]
        split <;> simp_all
  · have hne : d4 ≠ 365 := fun h => hl (hlast h)
    have := month d4 0 (by omega) (by omega) (.inr ⟨hl, rfl⟩) (by omega)
    simp only [hl, decide_false, Bool.false_and, Bool.false_eq_true, if_false]
    split <;> simp_all

theorem monthStart_le (y m m' : Int) (h1 : 1 ≤ m) (h2 : m < m') (h3 : m' ≤ 12) :
    daysBefore (m - 1) + (if Leap y ∧ 3 ≤ m then 1 else 0) + monthLen y m ≤
      daysBefore (m' - 1) + (if Leap y ∧ 3 ≤ m' then 1 else 0) := by
  obtain ⟨k, rfl⟩ : ∃ k : Nat, m' = m + 1 + k := ⟨(m' - (m + 1)).toNat, by omega⟩
  clear h2
  induction k with
  | zero =>
    have hm : m = 1 ∨ m = 2 ∨ m = 3 ∨ m = 4 ∨ m = 5 ∨ m = 6 ∨ m = 7 ∨ m = 8 ∨ m = 9 ∨ m = 10 ∨ m = 11 := by omega
    rcases hm with rfl | rfl | rfl | rfl | rfl | rfl | rfl | rfl | rfl | rfl | rfl <;>
      by_cases hl : Leap y <;> simp [daysBefore, monthLen, hl]
  | succ k ih =>
    refine le_trans (ih (by omega)) ?_
    have hm : m + 1 + k = 1 ∨ m + 1 + k = 2 ∨ m + 1 + k = 3 ∨ m + 1 + k = 4 ∨ m + 1 + k = 5 ∨ m + 1 + k = 6 ∨
      m + 1 + k = 7 ∨ m + 1 + k = 8 ∨ m + 1 + k = 9 ∨ m + 1 + k = 10 ∨ m + 1 + k = 11 := by omega
    have e : m + 1 + ((k + 1 : Nat) : Int) = m + 1 + k + 1 := by push_cast; ring
    rw [e]
    rcases hm with h | h | h | h | h | h | h | h | h | h | h <;> rw [h] <;>
      by_cases hl : Leap y <;> simp [daysBefore, hl]

theorem yearEnd (y m : Int) (h1 : 1 ≤ m) (h2 : m ≤ 12) :
    0 ≤ daysBefore (m - 1) + (if Leap y ∧ 3 ≤ m then 1 else 0) ∧
    daysToYear y + daysBefore (m - 1) + (if Leap y ∧ 3 ≤ m then 1 else 0) + monthLen y m ≤ daysToYear (y + 1) := by
  rw [daysToYear_succ]
  generalize daysToYear y = b
  have hm : m = 1 ∨ m = 2 ∨ m = 3 ∨ m = 4 ∨ m = 5 ∨ m = 6 ∨ m = 7 ∨ m = 8 ∨ m = 9 ∨ m = 10 ∨ m = 11 ∨ m = 12 := by omega
  rcases hm with rfl | rfl | rfl | rfl | rfl | rfl | rfl | rfl | rfl | rfl | rfl | rfl <;>
    by_cases hl : Leap y <;> simp [daysBefore, monthLen, hl] <;> omega

theorem daysToYear_mono {y y' : Int} (h : y ≤ y') : daysToYear y ≤ daysToYear y' := by
  unfold daysToYear
  omega

theorem goDate_lt_year (a b : Date) (ha : a.Valid) (hb : b.Valid) (h : a.y < b.y) :
    goDate a.y a.m a.d < goDate b.y b.m b.d := by
  rw [goDate_valid _ _ _ ha.1 ha.2.1, goDate_valid _ _ _ hb.1 hb.2.1]
  have e1 := (yearEnd a.y a.m ha.1 ha.2.1).2
  have e2 := (yearEnd b.y b.m hb.1 hb.2.1).1
  have e3 := daysToYear_mono (show a.y + 1 ≤ b.y by omega)
  have := ha.2.2.2
  have := hb.2.2.1
  generalize (if Leap a.y ∧ 3 ≤ a.m then (1 : Int) else 0) = l1 at *
  generalize (if Leap b.y ∧ 3 ≤ b.m then (1 : Int) else 0) = l2 at *
  omega

theorem goDate_lt_month (a b : Date) (ha : a.Valid) (hb : b.Valid) (h : a.y = b.y) (h' : a.m < b.m) :
    goDate a.y a.m a.d < goDate b.y b.m b.d := by
  rw [goDate_valid _ _ _ ha.1 ha.2.1, goDate_valid _ _ _ hb.1 hb.2.1]
  have e1 := monthStart_le a.y a.m b.m ha.1 h' hb.2.1
  have := ha.2.2.2
  have := hb.2.2.1
  rw [← h]
  generalize (if Leap a.y ∧ 3 ≤ a.m then (1 : Int) else 0) = l1 at *
  generalize (if Leap a.y ∧ 3 ≤ b.m then (1 : Int) else 0) = l2 at *
  omega

/-- Different dates have different numbers. -/
theorem goDate_inj (a b : Date) (ha : a.Valid) (hb : b.Valid)
    (h : goDate a.y a.m a.d = goDate b.y b.m b.d) : a = b := by
  rcases lt_trichotomy a.y b.y with hy | hy | hy
  · exact absurd h (ne_of_lt (goDate_lt_year a b ha hb hy))
  · rcases lt_trichotomy a.m b.m with hm | hm | hm
    · exact absurd h (ne_of_lt (goDate_lt_month a b ha hb hy hm))
    · obtain ⟨y, m, d⟩ := a
      obtain ⟨y', m', d'⟩ := b
      simp only at hy hm
      subst hy hm
      rw [goDate_valid _ _ _ ha.1 ha.2.1, goDate_valid _ _ _ hb.1 hb.2.1] at h
      simp only at h
      have : d = d' := by omega
      rw [this]
    · exact absurd h (ne_of_gt (goDate_lt_month b a hb ha hy.symm hm))
  · exact absurd h (ne_of_gt (goDate_lt_year b a hb ha hy))

/-- The date of a day number. -/
theorem goCivil_goDate (t : Date) (h : t.Valid) :
    (⟨(goCivil (goDate t.y t.m t.d)).1, (goCivil (goDate t.y t.m t.d)).2.1, (goCivil (goDate t.y t.m t.d)).2.2.1⟩ : Date) = t := by
  have := goCivil_spec (goDate t.y t.m t.d)
  exact goDate_inj _ _ this.1 h this.2

end Grate.Props
