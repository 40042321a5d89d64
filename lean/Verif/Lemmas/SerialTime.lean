import Verif.Lemmas.Fraction
import Verif.Props.Dates

/-! # Lemmas about `ConvertToDate` of serials with a time of the day -/

namespace Grate.Props

open Grate Grate.Spec Grate.F64

/-- Rounding to a float moves a number below `2^53 / 2^j` by at most `2^-j`. -/
theorem rounds_close {x r : ℚ} (h : Rounds x r) (j : ℕ) (hj : j ≤ 1000) (h0 : 0 ≤ x) (h1 : x * 2 ^ j < 2 ^ 53) :
    x - 1 / 2 ^ j < r ∧ r < x + 1 / 2 ^ j ∧ 0 ≤ r := by
  have hp : (0 : ℚ) < 2 ^ j := by positivity
  obtain ⟨k, hk⟩ : ∃ k : ℕ, ⌊x * 2 ^ j⌋ = k := Int.eq_ofNat_of_zero_le (Int.floor_nonneg.2 (by positivity))
  have f1 : (k : ℚ) ≤ x * 2 ^ j := by
    have := Int.floor_le (x * 2 ^ j)
    rw [hk] at this
    exact_mod_cast this
  have f2 : x * 2 ^ j < k + 1 := by
    have := Int.lt_floor_add_one (x * 2 ^ j)
    rw [hk] at this
    exact_mod_cast this
  have hk53 : k < 2 ^ 53 := by
    have : (k : ℚ) < 2 ^ 53 := lt_of_le_of_lt f1 h1
    exact_mod_cast this
  have rep : ∀ n : ℕ, n ≤ 2 ^ 53 → Rep ((n : ℚ) / 2 ^ j) := by
    intro n hn
    refine ⟨n, -(j : ℤ), hn, by omega, ?_⟩
    rw [abs_of_nonneg (by positivity), zpow_neg, zpow_natCast]
    rfl
  have a := (h _ (rep k (by omega))).2 (by rw [div_le_iff₀ hp]; exact f1)
  have b := (h _ (rep (k + 1) (by omega))).1 (by rw [le_div_iff₀ hp]; push_cast; exact f2.le)
  have c : x < ((k : ℚ) + 1) / 2 ^ j := by rw [lt_div_iff₀ hp]; exact f2
  have d : (k : ℚ) / 2 ^ j ≤ x := by rw [div_le_iff₀ hp]; exact f1
  have e : ((k : ℚ) + 1) / 2 ^ j = k / 2 ^ j + 1 / 2 ^ j := by ring
  have pos : (0 : ℚ) < 1 / 2 ^ j := by positivity
  push_cast at b
  rw [e] at b c
  refine ⟨by linarith, ?_, le_trans (by positivity) a⟩
  rcases eq_or_lt_of_le d with hd | hd
  · -- a representable number stays
    have : r = x := h.exact (hd ▸ rep k (by omega))
    rw [this]; linarith
  · linarith

/-- The nanoseconds of a fraction of a day: truncated, and rounded by less than one sixty-fourth before that. -/
theorem frac_ns {f : Float} (hf : FFin f) (h0 : 0 ≤ fval f) (h1 : fval f < 1) :
    (dayNs : ℚ) * fval f - 1 - 1 / 64 < (f64ToInt (f64OfInt dayNs * f) : ℚ) ∧
    (f64ToInt (f64OfInt dayNs * f) : ℚ) < dayNs * fval f + 1 / 64 ∧ 0 ≤ f64ToInt (f64OfInt dayNs * f) := by
  obtain ⟨f1, v1⟩ := ofInt_exact dayNs (by decide)
  have hday : (dayNs : ℚ) = 86400000000000 := by norm_num [dayNs]
  have hlt : (dayNs : ℚ) * fval f < 86400000000000 := by rw [hday]; linarith
  have hnn : 0 ≤ (dayNs : ℚ) * fval f := by rw [hday]; positivity
  obtain ⟨f2, v2⟩ := mul_spec f1 hf (by
    rw [v1]; apply big_ok; rw [abs_of_nonneg hnn]; exact le_trans hlt.le (by norm_num))
  rw [v1] at v2
  obtain ⟨a, b, c⟩ := rounds_close v2 6 (by norm_num) hnn (by
    have : (dayNs : ℚ) * fval f * 2 ^ 6 < 86400000000000 * 2 ^ 6 := by linarith
    exact lt_trans this (by norm_num))
  obtain ⟨t1, t2⟩ := (trunc_spec f2).1 c
  have hb : f64TruncInt (f64OfInt dayNs * f) < 2 ^ 63 := by
    have : (f64TruncInt (f64OfInt dayNs * f) : ℚ) < 2 ^ 63 := lt_of_le_of_lt t1 (lt_trans b (by norm_num at hlt ⊢; linarith))
    exact_mod_cast this
  have hb0 : -1 < f64TruncInt (f64OfInt dayNs * f) := by
    have : (-1 : ℚ) < (f64TruncInt (f64OfInt dayNs * f) : ℚ) := by linarith
    exact_mod_cast this
  have heq : f64ToInt (f64OfInt dayNs * f) = f64TruncInt (f64OfInt dayNs * f) :=
    toInt_of_trunc f2 (trunc_spec f2) (by omega) hb
  rw [heq]
  norm_num at a b ⊢
  exact ⟨by linarith, by linarith, by omega⟩

/-- A float, its integer part and the exact difference. -/
theorem float_split {x : Float} (hx : FFin x) (h0 : 0 ≤ fval x) (h1 : fval x < 2 ^ 46) :
    ∃ n : ℕ, f64ToInt x = n ∧ (n : ℚ) ≤ fval x ∧ fval x < n + 1 ∧ FFin (x - f64OfInt n) ∧
      fval (x - f64OfInt n) = fval x - n := by
  obtain ⟨t1, t2⟩ := (trunc_spec hx).1 h0
  have hn0 : -1 < f64TruncInt x := by
    have : (-1 : ℚ) < (f64TruncInt x : ℚ) := by linarith
    exact_mod_cast this
  have hn1 : f64TruncInt x < 2 ^ 46 := by
    have : (f64TruncInt x : ℚ) < 2 ^ 46 := lt_of_le_of_lt t1 h1
    exact_mod_cast this
  obtain ⟨n, hn⟩ := Int.eq_ofNat_of_zero_le (show 0 ≤ f64TruncInt x by omega)
  rw [hn] at t1 t2
  have t1 : (n : ℚ) ≤ fval x := by exact_mod_cast t1
  have t2 : fval x < (n : ℚ) + 1 := by exact_mod_cast t2
  obtain ⟨f1, v1⟩ := ofInt_exact (n : ℤ) (by omega)
  have v1 : fval (f64OfInt n) = (n : ℚ) := by rw [v1]; norm_cast
  obtain ⟨f2, v2⟩ := sub_spec hx f1 (by
    rw [v1]; apply big_ok; rw [abs_le]; constructor <;> norm_num <;> linarith)
  rw [v1] at v2
  refine ⟨n, ?_, t1, t2, f2, v2.exact (rep_frac (rep_fval x) n t1 t2)⟩
  rw [← hn]
  exact toInt_of_trunc hx (trunc_spec hx) (by omega) (by omega)

/-- The day number of serial 0. -/
def zeroDay (mode : Bool) : Int := goDate (serialZero mode).y (serialZero mode).m (serialZero mode).d

/-- The exact moment of a serial, in nanoseconds since 1970. -/
def exactTime (mode : Bool) (q : ℚ) : ℚ := (zeroDay mode + q) * dayNs

theorem late_time (mode : Bool) (x : Float) (hx : FFin x) (h0 : 61 ≤ fval x) (h1 : fval x < 2 ^ 46) :
    exactTime mode (fval x) - 2 < (convertToDate mode x : ℚ) ∧ (convertToDate mode x : ℚ) < exactTime mode (fval x) + 1 := by
  obtain ⟨n, hn, t1, t2, f2, v2⟩ := float_split hx (by linarith) h1
  have hn61 : ¬ ((n : ℤ) < 61) := by
    have : (60 : ℚ) < n := by linarith
    have : 60 < n := by exact_mod_cast this
    omega
  unfold convertToDate
  simp only [hn]
  rw [if_neg hn61]
  obtain ⟨a, b, -⟩ := frac_ns f2 (by rw [v2]; linarith) (by rw [v2]; linarith)
  rw [v2] at a b
  have hz : (if mode = true then goDate 1904 1 1 else goDate 1899 12 30) = zeroDay mode := by cases mode <;> rfl
  rw [hz]
  unfold exactTime
  push_cast
  have e : ((zeroDay mode : ℚ) + fval x) * dayNs = (zeroDay mode + n) * dayNs + dayNs * (fval x - n) := by ring
  rw [e]
  constructor <;> linarith

theorem early_time (mode : Bool) (x : Float) (hx : FFin x) (h0 : 0 ≤ fval x) (h1 : fval x < 61) :
    |(convertToDate mode x : ℚ) - exactTime mode (fval x)| < 50000 := by
  obtain ⟨n, hn, t1, t2, -, -⟩ := float_split hx h0 (by linarith)
  have hn61 : (n : ℤ) < 61 := by
    have : (n : ℚ) < 61 := by linarith
    exact_mod_cast this
  unfold convertToDate
  simp only [hn]
  rw [if_pos hn61]
  -- x + 0.5
  obtain ⟨f1, v1⟩ := add_spec hx val_half.1 (by
    rw [val_half.2]; apply big_ok; rw [abs_le]; constructor <;> norm_num <;> linarith)
  rw [val_half.2] at v1
  obtain ⟨a1, b1, c1⟩ := rounds_close v1 40 (by norm_num) (by linarith) (by norm_num; linarith)
  -- + offset
  have hoff : ∃ (c : Float) (k : Int), c = (if mode then 2416480.5 else 2415018.5) ∧ FFin c ∧
      fval c = k - 1 / 2 ∧ k = zeroDay mode + 2440588 ∧ 2415019 ≤ k ∧ k ≤ 2416481 := by
    cases mode with
    | true => exact ⟨_, 2416481, rfl, val_1904.1, by rw [if_pos rfl, val_1904.2]; norm_num, by decide, by norm_num, by norm_num⟩
    | false => exact ⟨_, 2415019, rfl, val_1900.1, by rw [if_neg (by decide), val_1900.2]; norm_num, by decide, by norm_num, by norm_num⟩
  obtain ⟨c, k, hc, fc, vc, hk, hk0, hk1⟩ := hoff
  rw [← hc]
  have hkq0 : (2415019 : ℚ) ≤ k := by exact_mod_cast hk0
  have hkq1 : (k : ℚ) ≤ 2416481 := by exact_mod_cast hk1
  norm_num at a1 b1
  obtain ⟨f2, v2⟩ := add_spec f1 fc (by
    rw [vc]; apply big_ok; rw [abs_le]; constructor <;> norm_num <;> linarith)
  rw [vc] at v2
  obtain ⟨a2, b2, c2⟩ := rounds_close v2 31 (by norm_num) (by linarith) (by norm_num; linarith)
  norm_num at a2 b2
  obtain ⟨J, hJ, s1, s2, f3, v3⟩ := float_split f2 c2 (by norm_num; linarith)
  rw [hJ]
  obtain ⟨a3, b3, -⟩ := frac_ns f3 (by rw [v3]; linarith) (by rw [v3]; linarith)
  rw [v3] at a3 b3
  rw [civilFromJD_spec J (by omega)]
  unfold exactTime
  have hz : (zeroDay mode : ℚ) = k - 2440588 := by rw [hk]; push_cast; ring
  rw [hz]
  have hday : (dayNs : ℚ) = 86400000000000 := by norm_num [dayNs]
  push_cast
  rw [hday] at a3 b3 ⊢
  rw [abs_lt]
  constructor <;> linarith

/-- Fractions of a day in steps of one hundred and twenty-eighth (675 seconds) are exact. -/
theorem exact_time (mode : Bool) (x : Float) (hx : FFin x) (n j : ℕ) (hj : j < 128) (hn : n < 2 ^ 40)
    (hv : fval x = n + (j : ℚ) / 128) :
    convertToDate mode x = (zeroDay mode + n) * dayNs + j * 675000000000 := by
  have hjq : (j : ℚ) < 128 := by exact_mod_cast hj
  have hj0 : (0 : ℚ) ≤ j := by positivity
  have hn0 : (0 : ℚ) ≤ n := by positivity
  have hnq : (n : ℚ) < 2 ^ 40 := by exact_mod_cast hn
  -- the nanoseconds of the fraction
  have ns : ∀ f : Float, FFin f → fval f = (j : ℚ) / 128 → f64ToInt (f64OfInt dayNs * f) = j * 675000000000 := by
    intro f hf vf
    obtain ⟨f1, v1⟩ := ofInt_exact dayNs (by decide)
    have hday : (dayNs : ℚ) = 86400000000000 := by norm_num [dayNs]
    have hm : (dayNs : ℚ) * fval f = ((j * 675000000000 : ℕ) : ℚ) := by rw [vf, hday]; push_cast; ring
    obtain ⟨f2, v2⟩ := mul_spec f1 hf (by
      rw [v1, hm]; apply big_ok; rw [abs_of_nonneg (by positivity)]; push_cast; norm_num; linarith)
    rw [v1, hm] at v2
    have := v2.exact (rep_nat (by omega))
    exact toInt_of_val f2 (by rw [this]; push_cast; ring) (by omega) (by omega)
  have hto : f64ToInt x = n := by
    refine toInt_of_trunc hx ⟨fun _ => ?_, fun h => ?_⟩ (by omega) (by omega)
    · rw [hv]; push_cast; constructor <;> linarith
    · rw [hv] at h ⊢; push_cast; constructor <;> linarith
  unfold convertToDate
  simp only [hto]
  by_cases hlt : (n : ℤ) < 61
  · rw [if_pos hlt]
    have hn61 : (n : ℚ) ≤ 60 := by
      have : n ≤ 60 := by omega
      exact_mod_cast this
    have rep128 : ∀ k : ℕ, k ≤ 2 ^ 53 → Rep ((k : ℚ) / 128) := by
      intro k hk
      refine ⟨k, -7, hk, by norm_num, ?_⟩
      rw [abs_of_nonneg (by positivity)]
      norm_num
      ring
    obtain ⟨f1, v1⟩ := add_spec hx val_half.1 (by
      rw [hv, val_half.2]; apply big_ok; rw [abs_le]; constructor <;> norm_num <;> linarith)
    rw [hv, val_half.2] at v1
    have v1' := v1.exact (by
      have := rep128 (n * 128 + j + 64) (by omega)
      have e : (n : ℚ) + j / 128 + 1 / 2 = ((n * 128 + j + 64 : ℕ) : ℚ) / 128 := by push_cast; ring
      rw [e]; exact this)
    have hoff : ∃ (c : Float) (k : ℕ), c = (if mode then 2416480.5 else 2415018.5) ∧ FFin c ∧
        fval c = k - 1 / 2 ∧ (k : ℤ) = zeroDay mode + 2440588 ∧ 2415019 ≤ k ∧ k ≤ 2416481 := by
      cases mode with
      | true => exact ⟨_, 2416481, rfl, val_1904.1, by rw [if_pos rfl, val_1904.2]; norm_num, by decide, by norm_num, by norm_num⟩
      | false => exact ⟨_, 2415019, rfl, val_1900.1, by rw [if_neg (by decide), val_1900.2]; norm_num, by decide, by norm_num, by norm_num⟩
    obtain ⟨c, k, hc, fc, vc, hk, hk0, hk1⟩ := hoff
    rw [← hc]
    have hkq0 : (2415019 : ℚ) ≤ k := by exact_mod_cast hk0
    have hkq1 : (k : ℚ) ≤ 2416481 := by exact_mod_cast hk1
    obtain ⟨f2, v2⟩ := add_spec f1 fc (by
      rw [v1', vc]; apply big_ok; rw [abs_le]; constructor <;> norm_num <;> linarith)
    have hsum : fval (x + 0.5) + fval c = (n + k : ℕ) + (j : ℚ) / 128 := by
      rw [v1', vc]; push_cast; ring
    rw [hsum] at v2
    have v2' := v2.exact (by
      have := rep128 ((n + k) * 128 + j) (by omega)
      have e : ((n + k : ℕ) : ℚ) + j / 128 = (((n + k) * 128 + j : ℕ) : ℚ) / 128 := by push_cast; ring
      rw [e]; exact this)
    obtain ⟨J, hJ, s1, s2, f3, v3⟩ := float_split f2 (by rw [v2']; positivity) (by rw [v2']; push_cast; norm_num; linarith)
    have hJn : J = n + k := by
      rw [v2'] at s1 s2
      have a : (J : ℚ) < ((n + k : ℕ) : ℚ) + 1 := by linarith
      have b : ((n + k : ℕ) : ℚ) < (J : ℚ) + 1 := by
        have : (0 : ℚ) ≤ (j : ℚ) / 128 := by positivity
        linarith
      have a : J < n + k + 1 := by exact_mod_cast a
      have b : n + k < J + 1 := by exact_mod_cast b
      omega
    rw [hJ, civilFromJD_spec J (by omega), ns _ f3 (by rw [v3, v2', hJn]; ring), hJn]
    have : ((n + k : ℕ) : ℤ) - 2440588 = zeroDay mode + n := by push_cast; rw [hk]; ring
    rw [this]
  · rw [if_neg hlt]
    have hbig : (n : ℚ) + j / 128 < 2 ^ 46 := by
      have e : (2 : ℚ) ^ 40 + 1 < 2 ^ 46 := by norm_num
      linarith
    obtain ⟨m, hm, s1, s2, f2, v2⟩ := float_split hx (by rw [hv]; positivity) (by rw [hv]; exact hbig)
    rw [hto] at hm
    have hm : n = m := by exact_mod_cast hm
    subst hm
    rw [ns _ f2 (by rw [v2, hv]; ring)]
    have hz : (if mode = true then goDate 1904 1 1 else goDate 1899 12 30) = zeroDay mode := by cases mode <;> rfl
    rw [hz]

end Grate.Props
