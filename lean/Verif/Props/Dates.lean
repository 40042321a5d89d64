import Verif.Lemmas.FloatOrd
import Verif.Props.Detect
import Verif.Model.Dates
import Verif.Spec.Calendar

/-! # Property C31: date serials -/

namespace Grate.Props

open Grate Grate.Spec Grate.F64

/-! ## The calendar of the model is the civil calendar -/

theorem isLeap_iff (y : Int) : isLeap y = true ↔ Leap y := by
  unfold isLeap Leap
  simp only [Bool.and_eq_true, Bool.or_eq_true, decide_eq_true_eq]
  omega

/-- Days before a month in a given year. -/
theorem goDate_valid (y m d : Int) (h1 : 1 ≤ m) (h2 : m ≤ 12) :
    goDate y m d = daysToYear y + daysBefore (m - 1) +
      (if Leap y ∧ 3 ≤ m then 1 else 0) + d - 1 := by
  unfold goDate
  have e1 : (m - 1) / 12 = 0 := by omega
  have e2 : (m - 1) % 12 = m - 1 := by omega
  simp only [e1, e2, add_zero]
  have : (isLeap y && decide (m - 1 ≥ 2)) = true ↔ (Leap y ∧ 3 ≤ m) := by
    rw [Bool.and_eq_true, isLeap_iff, decide_eq_true_eq]
    constructor <;> rintro ⟨a, b⟩ <;> exact ⟨a, by omega⟩
  by_cases hc : Leap y ∧ 3 ≤ m
  · rw [if_pos hc, if_pos (this.2 hc)]
  · rw [if_neg hc, if_neg (fun hh => hc (this.1 hh))]

theorem daysToYear_succ (y : Int) : daysToYear (y + 1) = daysToYear y + 365 + (if Leap y then 1 else 0) := by
  unfold daysToYear
  by_cases h : Leap y
  · rw [if_pos h]; unfold Leap at h; omega
  · rw [if_neg h]; unfold Leap at h; omega

theorem valid_next (t : Date) (h : t.Valid) : t.next.Valid := by
  obtain ⟨y, m, d⟩ := t
  obtain ⟨h1, h2, h3, h4⟩ := h
  unfold Date.next
  simp only at *
  split
  · exact ⟨h1, h2, by simp only; omega, by simp only; omega⟩
  · split
    · refine ⟨by simp only; omega, by simp only; omega, le_rfl, ?_⟩
      simp only [monthLen]; split
      · split <;> omega
      · split <;> omega
    · exact ⟨le_rfl, by norm_num, le_rfl, by simp [monthLen]⟩

/-- The model's day number of the next date is one larger: the model counts civil days. -/
theorem C31_calendar (t : Date) (h : t.Valid) :
    goDate t.next.y t.next.m t.next.d = goDate t.y t.m t.d + 1 := by
  have hv := valid_next t h
  rw [goDate_valid _ _ _ hv.1 hv.2.1, goDate_valid _ _ _ h.1 h.2.1]
  obtain ⟨y, m, d⟩ := t
  obtain ⟨h1, h2, h3, h4⟩ := h
  simp only at h1 h2 h3 h4
  unfold Date.next
  simp only
  by_cases hd : d < monthLen y m
  · simp only [if_pos hd]; omega
  · simp only [if_neg hd]
    have hd' : d = monthLen y m := by omega
    by_cases hm : m < 12
    · simp only [if_pos hm]
      subst hd'
      have : m = 1 ∨ m = 2 ∨ m = 3 ∨ m = 4 ∨ m = 5 ∨ m = 6 ∨ m = 7 ∨ m = 8 ∨ m = 9 ∨ m = 10 ∨ m = 11 := by
        omega
      rcases this with rfl | rfl | rfl | rfl | rfl | rfl | rfl | rfl | rfl | rfl | rfl <;>
        by_cases hl : Leap y <;> simp [monthLen, daysBefore, hl] <;> omega
    · have hm' : m = 12 := by omega
      subst hm'
      simp only [if_neg hm]
      rw [daysToYear_succ]
      subst hd'
      by_cases hl : Leap y <;> simp [monthLen, daysBefore, hl] <;> omega

theorem C31_epoch : goDate 1970 1 1 = 0 := by decide

theorem goDate_after (t : Date) (h : t.Valid) (n : Nat) :
    (t.after n).Valid ∧ goDate (t.after n).y (t.after n).m (t.after n).d = goDate t.y t.m t.d + n := by
  induction n with
  | zero => exact ⟨h, by simp [Date.after]⟩
  | succ n ih =>
    refine ⟨valid_next _ ih.1, ?_⟩
    have := C31_calendar _ ih.1
    simp only [Date.after]
    rw [this, ih.2]
    push_cast
    ring

/-! ## The Julian-day formula -/

theorem leapDays (y : Int) : (y - 1) / 4 - (y - 1) / 100 + (y - 1) / 400 + (if Leap y then 1 else 0) =
    y / 4 - y / 100 + y / 400 := by
  by_cases h : Leap y
  · rw [if_pos h]; unfold Leap at h; omega
  · rw [if_neg h]; unfold Leap at h; omega

/-- The formula of `ConvertToDate` gives the civil date with the right day number. -/
theorem civilFromJD_spec (J : Int) (hJ : -68569 ≤ J) :
    goDate (civilFromJD J).1 (civilFromJD J).2.1 (civilFromJD J).2.2 = J - 2440588 := by
  unfold civilFromJD
  simp only
  have hL : 0 ≤ J + 68569 := by omega
  generalize hLd : J + 68569 = L at hL
  rw [Int.tdiv_eq_ediv_of_nonneg (show 0 ≤ 4 * L by omega)]
  generalize hN : 4 * L / 146097 = N
  have hN0 : 0 ≤ N := by omega
  rw [Int.tdiv_eq_ediv_of_nonneg (show 0 ≤ 146097 * N + 3 by omega)]
  have hL' : 0 ≤ L - (146097 * N + 3) / 4 ∧ L - (146097 * N + 3) / 4 ≤ 36524 := by omega
  generalize hL1 : L - (146097 * N + 3) / 4 = L1 at hL'
  rw [Int.tdiv_eq_ediv_of_nonneg (show 0 ≤ 4000 * (L1 + 1) by omega)]
  generalize hI : 4000 * (L1 + 1) / 1461001 = I
  have hI0 : 0 ≤ I ∧ I ≤ 99 := by omega
  rw [Int.tdiv_eq_ediv_of_nonneg (show 0 ≤ 1461 * I by omega)]
  have hD : 0 ≤ L1 - 1461 * I / 4 ∧ L1 - 1461 * I / 4 ≤ 365 := by omega
  generalize hD1 : L1 - 1461 * I / 4 = D at hD
  rw [Int.tdiv_eq_ediv_of_nonneg (show 0 ≤ 80 * (D + 31) by omega)]
  generalize hM : 80 * (D + 31) / 2447 = M
  have hM0 : 1 ≤ M ∧ M ≤ 12 := by omega
  rw [Int.tdiv_eq_ediv_of_nonneg (show 0 ≤ M by omega)]
  rw [Int.tdiv_eq_ediv_of_nonneg (show 0 ≤ 2447 * M by omega)]
  -- day number of March 1st of the (March-based) year
  have hyear : ∀ y : Int, y = 100 * (N - 49) + I →
      daysToYear y + 59 + (if Leap y then 1 else 0) + D = J - 2440588 := by
    intro y hy
    have := leapDays y
    unfold daysToYear
    have e1 : y / 100 = N - 49 := by omega
    have e2 : y / 4 = 25 * (N - 49) + I / 4 := by omega
    have e3 : y / 400 = (N - 49) / 4 := by omega
    have e4 : (146097 * N + 3) / 4 = 36524 * N + (N - 49) / 4 + 13 := by omega
    have e5 : 1461 * I / 4 = 365 * I + I / 4 := by omega
    rw [e1, e2, e3] at this
    rw [e4] at hL1
    rw [e5] at hD1
    generalize (if Leap y then (1 : Int) else 0) = lp at this ⊢
    omega
  have hs := daysToYear_succ (100 * (N - 49) + I)
  have hy := hyear _ rfl
  have hcase : M = 1 ∨ M = 2 ∨ M = 3 ∨ M = 4 ∨ M = 5 ∨ M = 6 ∨ M = 7 ∨ M = 8 ∨ M = 9 ∨ M = 10 ∨
      M = 11 ∨ M = 12 := by omega
  rcases hcase with h | h | h | h | h | h | h | h | h | h | h | h <;> rw [h] at hM ⊢
  all_goals rw [goDate_valid _ _ _ (by norm_num) (by norm_num)]
  all_goals norm_num [daysBefore]
  all_goals clear hyear hM
  all_goals generalize daysToYear (100 * (N - 49) + I + 1) = y1 at *
  all_goals generalize daysToYear (100 * (N - 49) + I) = y0 at *
  all_goals generalize (if Leap (100 * (N - 49) + I) then (1 : Int) else 0) = lp at *
  all_goals omega

/-! ## Serials -/

theorem val_half : FFin 0.5 ∧ fval 0.5 = 1 / 2 := by
  obtain ⟨h1, h2⟩ := lit_val 0.5 .positive (2 ^ 52) (-53) (by norm_num)
    ⟨by norm_num, by norm_num, by norm_num, Or.inl (by norm_num)⟩ (by decide +kernel)
  refine ⟨h1, ?_⟩
  rw [h2]
  norm_num [sgn]

theorem val_1900 : FFin 2415018.5 ∧ fval 2415018.5 = 4830037 / 2 := by
  obtain ⟨h1, h2⟩ := lit_val 2415018.5 .positive (4830037 * 2 ^ 30) (-31) (by norm_num)
    ⟨by norm_num, by norm_num, by norm_num, Or.inl (by norm_num)⟩ (by decide +kernel)
  refine ⟨h1, ?_⟩
  rw [h2]
  norm_num [sgn]

theorem val_1904 : FFin 2416480.5 ∧ fval 2416480.5 = 4832961 / 2 := by
  obtain ⟨h1, h2⟩ := lit_val 2416480.5 .positive (4832961 * 2 ^ 30) (-31) (by norm_num)
    ⟨by norm_num, by norm_num, by norm_num, Or.inl (by norm_num)⟩ (by decide +kernel)
  refine ⟨h1, ?_⟩
  rw [h2]
  norm_num [sgn]

theorem big_ok {q : ℚ} (h : |q| ≤ 2 ^ 100) : |q| ≤ 2 ^ 1023 :=
  le_trans h (pow_le_pow_right₀ (by norm_num) (by norm_num))

theorem fval_zero_of {x : Float} (hx : FFin x) (h : fval x = 0) :
    f64ToInt (f64OfInt dayNs * x) = 0 := by
  obtain ⟨f1, _⟩ := ofInt_exact dayNs (by decide)
  obtain ⟨f2, v2⟩ := mul_spec f1 hx (by rw [h, mul_zero, abs_zero]; positivity)
  rw [h, mul_zero] at v2
  exact toInt_of_val f2 (n := 0) (by rw [v2.exact rep_zero]; norm_num) (by norm_num) (by norm_num)

/-- The day serial 0 stands for. -/
def serialZero (mode1904 : Bool) : Date := if mode1904 then ⟨1904, 1, 1⟩ else ⟨1899, 12, 30⟩

/-- C31. An integral serial `n` gives midnight of the day whose number is `n` more than that of
1899-12-30 (or 1904-01-01). The limits are those of the Julian-day formula below (year -4900) and of
Go's 64-bit seconds above. -/
theorem C31_day (mode : Bool) (x : Float) (n : Int) (hx : FFin x) (hv : fval x = n)
    (h1 : -2483588 ≤ n) (h2 : n < 2 ^ 46) :
    convertToDate mode x =
      (goDate (serialZero mode).y (serialZero mode).m (serialZero mode).d + n) * dayNs := by
  have hto : f64ToInt x = n := toInt_of_val hx hv (by omega) (by omega)
  unfold convertToDate
  simp only [hto]
  by_cases hlt : n < 61
  · rw [if_pos hlt]
    -- x + 0.5
    have hnq1 : (-2483588 : ℚ) ≤ n := by exact_mod_cast h1
    have hnq2 : (n : ℚ) ≤ 61 := by exact_mod_cast hlt.le
    obtain ⟨f1, v1⟩ := add_spec hx val_half.1 (by
      rw [hv, val_half.2]; apply big_ok; rw [abs_le]; constructor <;> norm_num <;> linarith)
    rw [hv, val_half.2] at v1
    have v1' := v1.exact (by
      refine ⟨(2 * n + 1).natAbs, -1, by omega, by norm_num, ?_⟩
      have : (n : ℚ) + 1 / 2 = ((2 * n + 1 : ℤ) : ℚ) * 2 ^ (-1 : ℤ) := by
        push_cast; norm_num; ring
      rw [this, abs_mul, Nat.cast_natAbs]
      push_cast
      norm_num)
    -- + offset
    have hoff : ∃ (c : Float) (k : Int), c = (if mode then 2416480.5 else 2415018.5) ∧ FFin c ∧
        fval c = k - 1 / 2 ∧ k = goDate (serialZero mode).y (serialZero mode).m (serialZero mode).d + 2440588 ∧
        0 ≤ k ∧ k ≤ 3000000 ∧ 2483588 - 68569 ≤ k := by
      cases mode with
      | true => exact ⟨_, 2416481, rfl, val_1904.1, by rw [if_pos rfl, val_1904.2]; norm_num, by decide, by norm_num, by norm_num, by norm_num⟩
      | false => exact ⟨_, 2415019, rfl, val_1900.1, by rw [if_neg (by decide), val_1900.2]; norm_num, by decide, by norm_num, by norm_num, by norm_num⟩
    obtain ⟨c, k, hc, fc, vc, hk, hk0, hk1, hk2⟩ := hoff
    rw [← hc]
    have hkq0 : (0 : ℚ) ≤ k := by exact_mod_cast hk0
    have hkq1 : (k : ℚ) ≤ 3000000 := by exact_mod_cast hk1
    obtain ⟨f2, v2⟩ := add_spec f1 fc (by
      rw [v1', vc]; apply big_ok; rw [abs_le]; constructor <;> norm_num <;> linarith)
    have hsum : fval (x + 0.5) + fval c = ((n + k : ℤ) : ℚ) := by
      rw [v1', vc]; push_cast; ring
    rw [hsum] at v2
    have v2' := v2.exact (rep_int (by omega))
    have hJD : f64ToInt (x + 0.5 + c) = n + k := toInt_of_val f2 v2' (by omega) (by omega)
    rw [hJD]
    obtain ⟨f3, v3⟩ := ofInt_exact (n + k) (by omega)
    obtain ⟨f4, v4⟩ := sub_spec f2 f3 (by rw [v2', v3]; simp)
    rw [v2', v3, sub_self] at v4
    have v4' := v4.exact rep_zero
    rw [fval_zero_of f4 v4']
    have := civilFromJD_spec (n + k) (by omega)
    rw [this, hk]
    ring
  · rw [if_neg hlt]
    have hrep : Rep (n : ℚ) := hv ▸ rep_fval x
    obtain ⟨f3, v3⟩ := ofInt_spec n (by
      have : (2 : ℕ) ^ 46 ≤ 2 ^ 1023 := Nat.pow_le_pow_right (by norm_num) (by norm_num)
      exact le_trans (by omega) this)
    have v3' := v3.exact hrep
    obtain ⟨f4, v4⟩ := sub_spec hx f3 (by rw [hv, v3']; simp)
    rw [hv, v3', sub_self] at v4
    have v4' := v4.exact rep_zero
    rw [fval_zero_of f4 v4', add_zero]
    cases mode <;> rfl

/-- C31 with the civil calendar: a serial `n ≥ 0` is the date reached by going `n` days forward, one
day at a time, from 1899-12-30 (or 1904-01-01). -/
theorem C31_civil (mode : Bool) (x : Float) (n : Nat) (hx : FFin x) (hv : fval x = n) (h2 : n < 2 ^ 46) :
    convertToDate mode x =
      goDate ((serialZero mode).after n).y ((serialZero mode).after n).m ((serialZero mode).after n).d
        * dayNs := by
  have hval : (serialZero mode).Valid := by
    cases mode
    · exact ⟨by decide, by decide, by decide, by decide⟩
    · exact ⟨by decide, by decide, by decide, by decide⟩
  rw [(goDate_after _ hval n).2]
  exact C31_day mode x n hx (by rw [hv]; norm_cast) (by omega) (by omega)

/-- Consecutive serials are consecutive days, also between 60 and 61 where the method changes. -/
theorem C31_consecutive (mode : Bool) (x y : Float) (n : Int) (hx : FFin x) (hy : FFin y)
    (hvx : fval x = n) (hvy : fval y = (n + 1 : Int)) (h1 : -2483588 ≤ n) (h2 : n + 1 < 2 ^ 46) :
    convertToDate mode y = convertToDate mode x + dayNs := by
  rw [C31_day mode y (n + 1) hy hvy (by omega) h2, C31_day mode x n hx hvx h1 (by omega)]
  ring

/-- Serial 61 is 1900-03-01 and serial 60 is 1900-02-28: the dates themselves. -/
theorem C31_witness : (serialZero false).after 61 = ⟨1900, 3, 1⟩ ∧
    (serialZero false).after 60 = ⟨1900, 2, 28⟩ ∧ (serialZero true).after 60 = ⟨1904, 3, 1⟩ ∧
    FFin (f64OfNat 61) ∧ fval (f64OfNat 61) = 61 :=
  ⟨by decide +kernel, by decide +kernel, by decide +kernel, (ofNat_exact 61 (by norm_num)).1,
    by simpa using (ofNat_exact 61 (by norm_num)).2⟩

end Grate.Props
