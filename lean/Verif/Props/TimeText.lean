import Verif.Props.DateText

/-! # Property C87: times of the day -/

namespace Grate.Props

open Grate Grate.Spec Grate.F64

/-- The exact moment of a serial in nanoseconds since 1970-01-01, which is day 25569. -/
def serialTime (mode : Bool) (q : ℚ) : ℚ := (q + zeroOffset mode - 25569) * 86400000000000

theorem serialTime_eq (mode : Bool) (q : ℚ) : exactTime mode q = serialTime mode q := by
  unfold exactTime serialTime
  rw [zeroDay_eq, show (dayNs : ℚ) = 86400000000000 by norm_num [dayNs]]
  push_cast
  ring

/-- C87, the moment of a serial: right to two nanoseconds from serial 61 on, and to 50 microseconds before. -/
theorem C87_near_partial (mode : Bool) (x : Float) (hx : FFin x) (h0 : 0 ≤ fval x) (h1 : fval x < 2 ^ 46) :
    |(convertToDate mode x : ℚ) - serialTime mode (fval x)| < 50000 ∧
    (61 ≤ fval x → |(convertToDate mode x : ℚ) - serialTime mode (fval x)| < 2) := by
  rw [← serialTime_eq]
  have late : 61 ≤ fval x → |(convertToDate mode x : ℚ) - exactTime mode (fval x)| < 2 := by
    intro h
    obtain ⟨a, b⟩ := late_time mode x hx h h1
    rw [abs_lt]
    constructor <;> linarith
  refine ⟨?_, late⟩
  by_cases h : 61 ≤ fval x
  · exact lt_trans (late h) (by norm_num)
  · exact early_time mode x hx h0 (by linarith)

theorem moment_of (T : Int) (h0 : 0 ≤ T + 25569 * dayNs) (h1 : T + 25569 * dayNs < 2958466 * dayNs) :
    ∃ m : Moment, m.Valid ∧ m.time = T ∧ (m.seconds : Int) = (T + 25569 * dayNs) / 1000000000 := by
  obtain ⟨u, hu⟩ := Int.eq_ofNat_of_zero_le h0
  unfold dayNs at *
  refine ⟨⟨u / 86400000000000, u / 3600000000000 % 24, u / 60000000000 % 60, u / 1000000000 % 60, u % 1000000000⟩, ⟨?_, ?_, ?_, ?_, ?_⟩, ?_, ?_⟩
  · simp only; omega
  · simp only; omega
  · simp only; omega
  · simp only; omega
  · exact year_bound _ (by simp only; omega)
  · unfold Moment.time; simp only; omega
  · unfold Moment.seconds; simp only; omega

/-- C87, times in whole seconds: the serial of day `n` and second `s`, as near as half a millisecond, is shown as the
moment `m`, and this is second `s` or the second before. It is second `s` if the serial is larger than the exact
number by at least two nanoseconds. -/
theorem C87_second_partial (ext : Ext) (hext : ext.timeFormat = goFormat) (f : Formatter) (x : Float) (hx : FFin x) (n s : Nat)
    (hs : s < 86400) (hn : 62 ≤ n) (hday : n + zeroOffset f.mode1904 ≤ 2958465)
    (hnear : |fval x - (n + (s : ℚ) / 86400)| ≤ 1 / 172800000) :
    ∃ m : Moment, m.Valid ∧ convertToDate f.mode1904 x = m.time ∧
      (m.seconds = (n + zeroOffset f.mode1904) * 86400 + s ∨ m.seconds + 1 = (n + zeroOffset f.mode1904) * 86400 + s) ∧
      (n + (s : ℚ) / 86400 + 1 / 43200000000000 ≤ fval x → m.seconds = (n + zeroOffset f.mode1904) * 86400 + s) ∧
      ∀ p ∈ builtinDates, p.2.HoursOk m → f.apply ext p.1 (.float x) = .ok (p.2.shows m, true) := by
  have hsq : (s : ℚ) < 86400 := by exact_mod_cast hs
  have hs0 : (0 : ℚ) ≤ s := by positivity
  have hnq : (62 : ℚ) ≤ n := by exact_mod_cast hn
  have hnu : (n : ℚ) ≤ 2958465 := by
    have : n ≤ 2958465 := by omega
    exact_mod_cast this
  rw [abs_le] at hnear
  have hsd : (s : ℚ) / 86400 < 1 := by rw [div_lt_one (by norm_num)]; exact hsq
  have hsd0 : 0 ≤ (s : ℚ) / 86400 := by positivity
  obtain ⟨a, b⟩ := late_time f.mode1904 x hx (by norm_num at hnear; linarith) (by norm_num at hnear ⊢; linarith)
  rw [serialTime_eq] at a b
  unfold serialTime at a b
  obtain ⟨T, hT⟩ : ∃ T : Int, convertToDate f.mode1904 x = T := ⟨_, rfl⟩
  rw [hT] at a b
  obtain ⟨S, hS⟩ : ∃ S : Nat, (n + zeroOffset f.mode1904) * 86400 + s = S := ⟨_, rfl⟩
  rw [hS]
  have hSq : (S : ℚ) = (n + zeroOffset f.mode1904) * 86400 + s := by rw [← hS]; push_cast; ring
  obtain ⟨z, hz⟩ : ∃ z : ℚ, (zeroOffset f.mode1904 : ℚ) = z := ⟨_, rfl⟩
  rw [hz] at a b hSq
  -- the moment, counted from 1899-12-30, against the second `S`
  have lo : (S : ℚ) * 1000000000 < T + 2209161600000500002 := by
    rw [hSq]; norm_num at hnear; linarith
  have hi : (T : ℚ) + 2209161600000000000 < S * 1000000000 + 500001 := by
    rw [hSq]; norm_num at hnear; linarith
  have lo' : (S : ℤ) * 1000000000 < T + 2209161600000500002 := by exact_mod_cast lo
  have hi' : T + 2209161600000000000 < (S : ℤ) * 1000000000 + 500001 := by exact_mod_cast hi
  have hexact : n + (s : ℚ) / 86400 + 1 / 43200000000000 ≤ fval x → (S : ℤ) * 1000000000 ≤ T + 2209161600000000000 := by
    intro h
    have : (S : ℚ) * 1000000000 < T + 2209161600000000000 + 1 := by
      rw [hSq]; norm_num at h; linarith
    have : (S : ℤ) * 1000000000 < T + 2209161600000000000 + 1 := by exact_mod_cast this
    omega
  obtain ⟨m, hm, ht, hsec⟩ := moment_of T (by unfold dayNs; omega) (by unfold dayNs; omega)
  unfold dayNs at hsec
  refine ⟨m, hm, by rw [hT, ht], by omega, fun h => ?_, fun p hp hh => ?_⟩
  · have := hexact h
    omega
  · exact (C86_builtin_partial ext hext f p hp m hm hh).2.2 x (by rw [hT, ht])

/-- C87, times that a float holds exactly, in steps of 675 seconds: they are shown exactly. -/
theorem C87_exact_partial (ext : Ext) (hext : ext.timeFormat = goFormat) (f : Formatter) (x : Float) (hx : FFin x) (n j : Nat)
    (hj : j < 128) (hday : n + zeroOffset f.mode1904 ≤ 2958465) (hv : fval x = n + (j : ℚ) / 128) :
    ∃ m : Moment, m.Valid ∧ convertToDate f.mode1904 x = m.time ∧ m.nano = 0 ∧
      m.seconds = (n + zeroOffset f.mode1904) * 86400 + j * 675 ∧
      ∀ p ∈ builtinDates, p.2.HoursOk m → f.apply ext p.1 (.float x) = .ok (p.2.shows m, true) := by
  have ht := exact_time f.mode1904 x hx n j hj (by omega) hv
  rw [zeroDay_eq] at ht
  generalize hz : zeroOffset f.mode1904 = z at *
  have hm : (⟨n + z, j * 675 / 3600, j * 675 / 60 % 60, j * 675 % 60, 0⟩ : Moment).Valid :=
    ⟨by simp only; omega, by simp only; omega, by simp only; omega, by simp only; omega, year_bound _ hday⟩
  have e : convertToDate f.mode1904 x = (⟨n + z, j * 675 / 3600, j * 675 / 60 % 60, j * 675 % 60, 0⟩ : Moment).time := by
    rw [ht]
    show (_ : Int) = _
    unfold Moment.time dayNs
    simp only
    omega
  exact ⟨_, hm, e, rfl, by unfold Moment.seconds; simp only; omega,
    fun p hp hh => (C86_builtin_partial ext hext f p hp _ hm hh).2.2 x e⟩

/-- Ten o'clock on 2023-03-15: the float nearest to `45000 + 10 / 24`. -/
def tenOClock : Float := f64OfInt 1080010 / f64OfInt 24

/-- C87 is false: ten o'clock is shown as `09:59` and `09:59:59`. -/
theorem C87_counterexample (ext : Ext) (hext : ext.timeFormat = goFormat) (f : Formatter) (hf : f.mode1904 = false) :
    FFin tenOClock ∧ Rounds (45000 + 10 / 24) (fval tenOClock) ∧
    f.apply ext 20 (.float tenOClock) = .ok (lit "09:59", true) ∧
    f.apply ext 21 (.float tenOClock) = .ok (lit "09:59:59", true) ∧
    f.apply ext 22 (.float tenOClock) = .ok (lit "3/15/23 09:59", true) := by
  obtain ⟨f1, v1⟩ := ofInt_exact 1080010 (by decide)
  obtain ⟨f2, v2⟩ := ofInt_exact 24 (by decide)
  obtain ⟨f3, v3⟩ := div_spec f1 f2 (by rw [v2]; norm_num) (by
    rw [v1, v2]; apply big_ok; norm_num)
  rw [v1, v2] at v3
  have ht : convertToDate false tenOClock = 1678874399999999790 := by decide +kernel
  have go : ∀ id layout out, goFormatters id = some (.time layout) → goFormat layout 1678874399999999790 = out →
      f.apply ext id (.float tenOClock) = .ok (out, true) := by
    intro id layout out h1 h2
    unfold Formatter.apply
    rw [h1]
    show GoRes.ok (ext.timeFormat layout (convertToDate f.mode1904 tenOClock), true) = _
    rw [hext, hf, ht, h2]
  refine ⟨f3, ?_, go _ _ _ rfl (by decide +kernel), go _ _ _ rfl (by decide +kernel), go _ _ _ rfl (by decide +kernel)⟩
  have e : (45000 + 10 / 24 : ℚ) = ((1080010 : ℤ) : ℚ) / ((24 : ℤ) : ℚ) := by norm_num
  rw [e]
  exact v3

/-- A case of the exact times: 2023-03-15, nine o'clock, is shown as `3/15/23 09:00`. -/
theorem C87_witness : FFin 45000.375 ∧ fval 45000.375 = (45000 : ℕ) + ((48 : ℕ) : ℚ) / 128 ∧
    convertToDate false 45000.375 = (⟨45000, 9, 0, 0, 0⟩ : Moment).time ∧
    |fval 45000.375 - ((45000 : ℕ) + ((32400 : ℕ) : ℚ) / 86400)| ≤ 1 / 172800000 := by
  obtain ⟨h1, h2⟩ := lit_val 45000.375 .positive (360003 * 2 ^ 34) (-37) (by norm_num)
    ⟨by norm_num, by norm_num, by norm_num, Or.inl (by norm_num)⟩ (by decide +kernel)
  have h3 : fval 45000.375 = 360003 / 8 := by rw [h2]; norm_num [sgn]
  refine ⟨h1, ?_, by decide +kernel, ?_⟩
  · rw [h3]; norm_num
  · rw [h3]; norm_num

end Grate.Props
