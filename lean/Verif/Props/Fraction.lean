import Verif.Lemmas.Fraction
import Verif.Lemmas.FloatSpecial
import Verif.Model.Format

/-! # Property C32: fractions

`fval v` is the exact rational value of the float `v` and `FFin v` says that it is finite
(`Lemmas/FloatVal.lean`). The fuel of the model's loop is the number of passes; "for every fuel from
some bound on" says that the loop ends and what it returns. -/

namespace Grate.Props

open Grate Grate.F64

theorem tiny_val : FFin (1e-9 : Float) ∧ 1 / 2 ^ 30 ≤ fval (1e-9 : Float) ∧ fval (1e-9 : Float) < 1 := by
  have hf : FFin (1e-9 : Float) := (ffin_iff _).2 (by decide +kernel)
  obtain ⟨o1, o2⟩ := one_val
  refine ⟨hf, ?_, ?_⟩
  · obtain ⟨a1, a2⟩ := ofInt_exact (2 ^ 30) (by norm_num)
    obtain ⟨d1, d2⟩ := div_spec o1 a1 (by rw [a2]; norm_num) (by
      rw [o2, a2, abs_of_nonneg (by positivity)]
      exact le_big (by norm_num))
    rw [o2, a2] at d2
    have e := d2.exact ⟨1, -30, by norm_num, by norm_num, by
      rw [abs_of_nonneg (by positivity)]; norm_num⟩
    have hle : 1 / f64OfInt (2 ^ 30) ≤ (1e-9 : Float) := by decide +kernel
    have := (le_iff d1 hf).1 hle
    rw [e] at this
    push_cast at this
    exact this
  · have hlt : (1e-9 : Float) < 1 := by decide +kernel
    have := (lt_iff hf o1).1 hlt
    rwa [o2] at this

theorem huge_val : FFin (1e9 : Float) ∧ 1 ≤ fval (1e9 : Float) := by
  have hf : FFin (1e9 : Float) := (ffin_iff _).2 (by decide +kernel)
  obtain ⟨o1, o2⟩ := one_val
  have hlt : (1 : Float) ≤ 1e9 := by decide +kernel
  have := (le_iff o1 hf).1 hlt
  rw [o2] at this
  exact ⟨hf, this⟩

theorem pow10_le {n : ℕ} (h : n ≤ 15) : 10 ^ n ≤ 10 ^ 15 := Nat.pow_le_pow_right (by norm_num) h

theorem pow10_ge {n : ℕ} (h : 1 ≤ n) : 10 ≤ 10 ^ n := by
  simpa using Nat.pow_le_pow_right (n := 10) (by norm_num) h

theorem part_of_small {v : Float} (fv : FFin v) (v0 : 0 < fval v) (v1 : fval v < 1) :
    FFin (f64Modf v).2 ∧ fval (f64Modf v).2 = fval v := by
  obtain ⟨k, hk, _, _, p1, p2⟩ := modf_spec fv
  have : k = 0 := truncOf_unique hk ⟨fun _ => ⟨by push_cast; linarith, by push_cast; linarith⟩,
    fun h => by linarith⟩
  rw [this] at p2
  exact ⟨p1, by rw [p2]; push_cast; ring⟩

/-- The loop of `DecimalToFraction` for numbers between 1e-9 and 1. -/
theorem fraction_main {v : Float} (fv : FFin v) (v0 : 0 < fval v) (v1 : fval v < 1) (hs : ¬ v < 1e-9)
    {nn nd : ℕ} (hn1 : 1 ≤ nn) (hn : nn ≤ 15) (hd1 : 1 ≤ nd) (hd : nd ≤ 15) {fuel : ℕ}
    (hf : 10 ^ nd + 1 ≤ fuel) :
    ∃ n d : ℕ, decimalToFraction fuel v nn nd = some ((n : ℤ), (d : ℤ)) ∧ n < 10 ^ nn ∧ 1 ≤ d ∧
      d < 10 ^ nd ∧ n ≤ d ∧ |fval v * d - n| ≤ 1 / 2 + d / 2 ^ 52 := by
  obtain ⟨o1, o2⟩ := one_val
  obtain ⟨z1, z2⟩ := zero_val
  obtain ⟨t1, t2, t3⟩ := tiny_val
  obtain ⟨g1, g2⟩ := huge_val
  obtain ⟨p1, p2⟩ := part_of_small fv v0 v1
  have hn15 := pow10_le hn
  have hd15 := pow10_le hd
  have hn10 := pow10_ge hn1
  have hd10 := pow10_ge hd1
  obtain ⟨mn1, mn2⟩ := ofNat_exact (10 ^ nn) (by omega)
  obtain ⟨md1, md2⟩ := ofNat_exact (10 ^ nd) (by omega)
  have hneg : ¬ v < 0 := by
    rw [lt_iff fv z1, z2]
    linarith
  have hs' : fval (1e-9 : Float) ≤ fval v := by
    rw [lt_iff fv t1] at hs
    exact not_lt.1 hs
  unfold decimalToFraction
  simp only [if_neg hneg, if_neg (show nn ≠ 0 by omega), if_neg (show nd ≠ 0 by omega)]
  rw [if_neg (by rw [beq_iff p1 z1, p2, z2]; exact v0.ne'),
    if_neg (by rw [lt_iff p1 t1, p2]; exact not_lt.2 hs'),
    if_neg (by rw [gt_iff_lt, lt_iff g1 p1, p2]; linarith)]
  obtain ⟨n, d, e, r⟩ := fracLoop_spec 1 fv v0 v1 mn1 mn2 md1 md2 (by omega) (by omega) (by omega) fuel
    ⟨v, 1, 1, 0, 0, 0⟩ 0 1 0 {
      fz := fv, zlo := t2.trans hs'
      zhi := by
        have : (1 : ℚ) ≤ 2 ^ 52 := by norm_num
        linarith
      fd := o1, vd := by rw [o2]; norm_num
      fl := z1, vl := by rw [z2]; norm_num
      fn := z1, vn := by rw [z2]; norm_num
      dpos := by omega, dlt := by omega, ll := by omega, nlt := by omega, nle := by omega
      near := by
        rcases le_or_gt (fval v) (1 / 2) with h | h
        · left
          push_cast
          rw [abs_of_nonneg (by linarith)]
          have : (0 : ℚ) < 1 / 2 ^ 52 := by positivity
          linarith
        · exact .inr ⟨h, rfl, rfl, rfl, rfl, rfl⟩ } (by simp; omega)
  exact ⟨n, d, by rw [e, one_mul], r⟩

/-- C32, as far as it holds. For every number `v` between 0 and 1 and every choice of 1 to 15 digits,
`DecimalToFraction` ends and returns a proper fraction with no more digits than asked for — provided
that `v` is at least 1e-9 or ten digits are allowed below the line (see `C32_counterexample`).

Missing from C32: smaller `v` with fewer digits, where it is false; more than 15 digits, where the
denominators need not be exact in a float64. -/
theorem C32_digits_partial (v : Float) (fv : FFin v) (v0 : 0 < fval v) (v1 : fval v < 1) (nn nd : ℕ)
    (hn1 : 1 ≤ nn) (hn : nn ≤ 15) (hd1 : 1 ≤ nd) (hd : nd ≤ 15) (hs : ¬ v < 1e-9 ∨ 10 ≤ nd) (fuel : ℕ)
    (hf : 10 ^ nd + 1 ≤ fuel) :
    ∃ n d : ℕ, decimalToFraction fuel v nn nd = some ((n : ℤ), (d : ℤ)) ∧ n < 10 ^ nn ∧ 1 ≤ d ∧
      d < 10 ^ nd ∧ n ≤ d := by
  by_cases h9 : v < 1e-9
  · have hd10 : 10 ≤ nd := hs.resolve_left (fun h => h h9)
    obtain ⟨z1, z2⟩ := zero_val
    obtain ⟨t1, t2, t3⟩ := tiny_val
    obtain ⟨p1, p2⟩ := part_of_small fv v0 v1
    have hneg : ¬ v < 0 := by
      rw [lt_iff fv z1, z2]
      linarith
    refine ⟨1, 1000000000, ?_, ?_, by norm_num, ?_, by norm_num⟩
    · unfold decimalToFraction
      simp only [if_neg hneg]
      rw [if_neg (by rw [beq_iff p1 z1, p2, z2]; exact v0.ne'),
        if_pos (by rw [lt_iff p1 t1, p2]; exact (lt_iff fv t1).1 h9)]
      rfl
    · have := pow10_ge hn1
      omega
    · have := Nat.pow_le_pow_right (n := 10) (by norm_num) hd10
      omega
  · obtain ⟨n, d, e, a, b, c, f, _⟩ := fraction_main fv v0 v1 h9 hn1 hn hd1 hd hf
    exact ⟨n, d, e, a, b, c, f⟩

/-- C32: the numerator is the right one. The fraction `n / d` differs from `v` by at most half of
`1 / d`, apart from an error of at most 2^-52: no other numerator over `d` is nearer by more than the
rounding of float64 arithmetic. -/
theorem C32_nearest_partial (v : Float) (fv : FFin v) (v0 : 0 < fval v) (v1 : fval v < 1) (nn nd : ℕ)
    (hn1 : 1 ≤ nn) (hn : nn ≤ 15) (hd1 : 1 ≤ nd) (hd : nd ≤ 15) (hs : ¬ v < 1e-9) (fuel : ℕ)
    (hf : 10 ^ nd + 1 ≤ fuel) :
    ∃ n d : ℕ, decimalToFraction fuel v nn nd = some ((n : ℤ), (d : ℤ)) ∧ 1 ≤ d ∧
      |fval v - n / d| ≤ 1 / (2 * d) + 1 / 2 ^ 52 := by
  obtain ⟨n, d, e, a, b, c, f, g⟩ := fraction_main fv v0 v1 hs hn1 hn hd1 hd hf
  refine ⟨n, d, e, b, ?_⟩
  have hd0 : (0 : ℚ) < d := by exact_mod_cast b
  have e1 : fval v - n / d = (fval v * d - n) / d := by field_simp
  rw [e1, abs_div, abs_of_pos hd0, div_le_iff₀ hd0]
  refine g.trans (le_of_eq ?_)
  field_simp

/-- The cases of the property's hypotheses: one third and two digits. -/
theorem C32_witness : FFin (f64OfInt 1 / f64OfInt 3) ∧ ¬ f64OfInt 1 / f64OfInt 3 < 1e-9 ∧
    decimalToFraction 101 (f64OfInt 1 / f64OfInt 3) 2 2 = some (1, 3) := by
  refine ⟨(ffin_iff _).2 (by decide +kernel), by decide +kernel, by decide +kernel⟩

/-- C32 is false for numbers below 1e-9 and fewer than ten digits: 2^-40 with one digit (or two) gives
1/1000000000. -/
theorem C32_counterexample (fuel : ℕ) :
    decimalToFraction fuel (f64OfInt 1 / f64OfInt (2 ^ 40)) 1 1 = some (1, 1000000000) ∧
    decimalToFraction fuel (f64OfInt 1 / f64OfInt (2 ^ 40)) 2 2 = some (1, 1000000000) := by
  constructor <;>
  · unfold decimalToFraction
    rw [if_neg (by decide +kernel), if_pos (by decide +kernel)]
    decide +kernel

/-! ### Whole part and fraction -/

/-- Splitting any finite number, whatever its size. -/
theorem whole_main {v : Float} (fv : FFin v) {nn nd : ℕ} (hn1 : 1 ≤ nn) (hn : nn ≤ 15) (hd1 : 1 ≤ nd) (hd : nd ≤ 15)
    {fuel : ℕ} (hf : 10 ^ nd + 1 ≤ fuel) :
    ∃ k n d : ℤ, TruncOf (fval v) k ∧
      decimalToWholeFraction fuel v nn nd = some (f64ToInt (f64Modf v).1, n, d) ∧ 0 ≤ n ∧ 1 ≤ d ∧
      (fval v = k → n = 0) ∧
      (fval 1e-9 ≤ |fval v - k| →
        n < 10 ^ nn ∧ d < 10 ^ nd ∧ n ≤ d ∧ |(|fval v - k| - n / d)| ≤ 1 / (2 * d) + 1 / 2 ^ 52) := by
  obtain ⟨k, hk, w1, w2, p1, p2⟩ := modf_spec fv
  obtain ⟨z1, z2⟩ := zero_val
  obtain ⟨t1, t2, t3⟩ := tiny_val
  unfold decimalToWholeFraction
  simp only
  by_cases he : ((f64Modf v).2 == 0) = true
  · rw [if_pos he]
    rw [beq_iff p1 z1, p2, z2] at he
    refine ⟨k, 0, 1, hk, rfl, by norm_num, by norm_num, fun _ => rfl, fun h => ?_⟩
    rw [he, abs_zero] at h
    have : (0 : ℚ) < 1 / 2 ^ 30 := by positivity
    linarith
  · rw [if_neg he]
    rw [beq_iff p1 z1, p2, z2] at he
    -- the distance
    have hq : ∃ q : Float, q = (if (f64Modf v).2 < 0 then -(f64Modf v).2 else (f64Modf v).2) ∧ FFin q ∧
        fval q = |fval v - k| := by
      refine ⟨_, rfl, ?_⟩
      by_cases hneg : (f64Modf v).2 < 0
      · rw [if_pos hneg]
        rw [lt_iff p1 z1, p2, z2] at hneg
        obtain ⟨a, b⟩ := neg_spec p1
        exact ⟨a, by rw [b, p2, abs_of_neg hneg]⟩
      · rw [if_neg hneg]
        rw [lt_iff p1 z1, p2, z2, not_lt] at hneg
        exact ⟨p1, by rw [p2, abs_of_nonneg hneg]⟩
    obtain ⟨q, hq, fq, vq⟩ := hq
    rw [← hq]
    have q0 : 0 < fval q := by rw [vq]; exact abs_pos.2 he
    have q1 : fval q < 1 := by
      rw [vq, abs_lt]
      rcases le_total 0 (fval v) with h0 | h0
      · obtain ⟨a, b⟩ := hk.1 h0
        constructor <;> linarith
      · obtain ⟨a, b⟩ := hk.2 h0
        constructor <;> linarith
    by_cases h9 : q < 1e-9
    · obtain ⟨r1, r2⟩ := part_of_small fq q0 q1
      have hneg : ¬ q < 0 := by
        rw [lt_iff fq z1, z2]
        linarith
      refine ⟨k, 1, 1000000000, hk, ?_, by norm_num, by norm_num, fun h => ?_, fun h => ?_⟩
      · unfold decimalToFraction
        simp only [if_neg hneg]
        rw [if_neg (by rw [beq_iff r1 z1, r2, z2]; exact q0.ne'),
          if_pos (by rw [lt_iff r1 t1, r2]; exact (lt_iff fq t1).1 h9)]
        rfl
      · exact absurd (by rw [h, sub_self]) he
      · have := (lt_iff fq t1).1 h9
        rw [vq] at this
        exact absurd this (not_lt.2 h)
    · obtain ⟨n, d, e, a, b, c, f, g⟩ := fraction_main fq q0 q1 h9 hn1 hn hd1 hd hf
      refine ⟨k, n, d, hk, by rw [e]; rfl, by positivity, by exact_mod_cast b, fun h => ?_, fun _ => ⟨?_, ?_, ?_, ?_⟩⟩
      · exact absurd (by rw [h, sub_self]) he
      · exact_mod_cast a
      · exact_mod_cast c
      · exact_mod_cast f
      · have hd0 : (0 : ℚ) < d := by exact_mod_cast b
        rw [vq] at g
        have e1 : |fval v - k| - ((n : ℤ) : ℚ) / ((d : ℤ) : ℚ) = (|fval v - k| * d - n) / d := by
          push_cast
          field_simp
        rw [e1, abs_div, abs_of_pos hd0, div_le_iff₀ hd0]
        push_cast
        refine g.trans (le_of_eq ?_)
        field_simp

/-- `DecimalToWholeFraction`: for every number of either sign the whole part is the number without its
fraction, and the fraction is that of the distance to it. -/
theorem C32_whole_partial (v : Float) (fv : FFin v) (hv : |fval v| < 2 ^ 63) (nn nd : ℕ)
    (hn1 : 1 ≤ nn) (hn : nn ≤ 15) (hd1 : 1 ≤ nd) (hd : nd ≤ 15) (fuel : ℕ) (hf : 10 ^ nd + 1 ≤ fuel) :
    ∃ w n d : ℤ, decimalToWholeFraction fuel v nn nd = some (w, n, d) ∧ TruncOf (fval v) w ∧ 0 ≤ n ∧ 1 ≤ d ∧
      (fval v = w → n = 0) ∧
      (fval 1e-9 ≤ |fval v - w| →
        n < 10 ^ nn ∧ d < 10 ^ nd ∧ n ≤ d ∧ |(|fval v - w| - n / d)| ≤ 1 / (2 * d) + 1 / 2 ^ 52) := by
  obtain ⟨k, n, d, hk, e, r⟩ := whole_main fv hn1 hn hd1 hd hf
  obtain ⟨k', hk', w1, w2, _, _⟩ := modf_spec fv
  cases truncOf_unique hk hk'
  have hw : f64ToInt (f64Modf v).1 = k := by
    rw [abs_lt] at hv
    refine toInt_of_val w1 w2 ?_ ?_
    · rcases le_total 0 (fval v) with h0 | h0
      · obtain ⟨a, b⟩ := hk.1 h0
        have : (-(2 ^ 63) : ℚ) ≤ k := by
          have : (-1 : ℚ) < k := by linarith
          have : (-1 : ℤ) < k := by exact_mod_cast this
          have : (0 : ℤ) ≤ k := by omega
          have : (0 : ℚ) ≤ k := by exact_mod_cast this
          have : (-(2 ^ 63) : ℚ) ≤ 0 := by norm_num
          linarith
        exact_mod_cast this
      · obtain ⟨a, b⟩ := hk.2 h0
        have : (-(2 ^ 63) : ℚ) ≤ k := by linarith
        exact_mod_cast this
    · rcases le_total 0 (fval v) with h0 | h0
      · obtain ⟨a, b⟩ := hk.1 h0
        have : (k : ℚ) < 2 ^ 63 := by linarith
        exact_mod_cast this
      · obtain ⟨a, b⟩ := hk.2 h0
        have : (k : ℚ) < 1 := by linarith
        have : k < 1 := by exact_mod_cast this
        omega
  exact ⟨k, n, d, by rw [e, hw], hk, r⟩

theorem not_le_nan {a b : Float} (h : IsNaN a ∨ IsNaN b) : ¬ a ≤ b := by
  rw [le_def', compare_nan h]; simp

/-- NaN and the infinities: the loop of `DecimalToFraction` ends in its second pass. -/
theorem nan_fraction (nn nd fuel : ℕ) (hf : 2 ≤ fuel) :
    ∃ r, decimalToFraction fuel (0 / 0) nn nd = some r := by
  obtain ⟨g, rfl⟩ : ∃ g, fuel = g + 2 := ⟨fuel - 2, by omega⟩
  unfold decimalToFraction
  simp only
  rw [if_neg (by decide +kernel), if_neg (by decide +kernel), if_neg (by decide +kernel)]
  have hz : (if (0 / 0 : Float) < 0 then -(0 / 0 : Float) else 0 / 0) = 0 / 0 := by decide +kernel
  have hs : (if (0 / 0 : Float) < 0 then (-1 : ℤ) else 1) = 1 := by decide +kernel
  rw [hz, hs]
  generalize f64OfNat (10 ^ if nn = 0 then 2 else nn) = maxn
  generalize f64OfNat (10 ^ if nd = 0 then 2 else nd) = maxd
  have hn : IsNaN (f64Round (0 / 0 * (1 * f64Floor (1 / (0 / 0 - f64Floor (0 / 0))) + 0))) := by
    rw [isNaN_iff]; decide +kernel
  have hd : IsNaN (1 * f64Floor (1 / (0 / 0 - f64Floor (0 / 0))) + 0) := by
    rw [isNaN_iff]; decide +kernel
  have h1 : fracStep (0 / 0) maxn maxd 1 ⟨0 / 0, 1, 1, 0, 0, 0⟩ = .next ⟨0 / 0, 0 / 0, 0 / 0, 0 / 0, 1, 0⟩ := by
    unfold fracStep
    simp only
    rw [if_pos (by decide +kernel), if_neg (by
      rw [Bool.or_eq_true, decide_eq_true_eq, decide_eq_true_eq]
      exact not_or.2 ⟨not_le_nan (.inr hn), not_le_nan (.inr hd)⟩)]
    congr 2
  have h2 : fracStep (0 / 0) maxn maxd 1 ⟨0 / 0, 0 / 0, 0 / 0, 0 / 0, 1, 0⟩ =
      .done (1 * f64ToInt (0 / 0)) (f64ToInt (0 / 0)) := by
    unfold fracStep
    simp only
    rw [if_neg (by decide +kernel)]
  exact ⟨_, by rw [fracLoop, h1]; simp only; rw [fracLoop, h2]⟩

/-- `DecimalToWholeFraction` ends on every float64, also on NaN, the infinities and numbers that do not
fit an `int`. -/
theorem C32_ends (v : Float) (nn nd : ℕ) (hn1 : 1 ≤ nn) (hn : nn ≤ 15) (hd1 : 1 ≤ nd) (hd : nd ≤ 15) (fuel : ℕ)
    (hf : 10 ^ nd + 1 ≤ fuel) : ∃ r, decimalToWholeFraction fuel v nn nd = some r := by
  by_cases hv : v.isFinite = true
  · obtain ⟨k, n, d, _, e, _⟩ := whole_main ((ffin_iff v).2 hv) hn1 hn hd1 hd hf
    exact ⟨_, e⟩
  · have hv : v.isFinite = false := by simpa using hv
    have hf2 : 2 ≤ fuel := by have := pow10_ge hd1; omega
    obtain ⟨r, hr⟩ := nan_fraction nn nd fuel hf2
    have hp : (f64Modf v).2 = 0 / 0 := by
      rcases nonfinite_cases v hv with rfl | rfl | rfl <;> decide +kernel
    unfold decimalToWholeFraction
    simp only
    rw [hp, if_neg (by decide +kernel), show (if (0 / 0 : Float) < 0 then -(0 / 0 : Float) else 0 / 0) = 0 / 0 by decide +kernel, hr]
    exact ⟨_, rfl⟩

/-- The case of NaN: Go's conversion of NaN to `int` is -2^63 on amd64. -/
theorem C32_ends_witness : ¬ FFin (0 / 0) ∧ ∃ r, decimalToWholeFraction 101 (0 / 0) 2 2 = some r :=
  ⟨by rw [ffin_iff]; decide +kernel, C32_ends _ 2 2 (by norm_num) (by norm_num) (by norm_num) (by norm_num) _ (by norm_num)⟩

/-- Minus two and a quarter, with one digit: whole part -2 and fraction 1/4. -/
theorem C32_whole_witness : decimalToWholeFraction 11 (-2.25) 1 1 = some (-2, 1, 4) := by decide +kernel

/-- The fraction formats `# ?/?` and `# ??/??` (one or two digits) end on every number with an integer part
that fits an `int`, and the text shows the whole part and the fraction nearest to the rest: the whole
part alone if there is no fraction to show, the (signed) fraction alone if the whole part is 0, and
otherwise both with a blank between.

Missing: numbers of 2^63 and more, NaN and infinities, where Go leaves the conversion to int open. -/
theorem C32_render_partial (ext : Ext) (k : ℕ) (h1 : 1 ≤ k) (h2 : k ≤ 2) (f : Float) (ff : FFin f)
    (hf : |fval f| < 2 ^ 63) :
    ∃ w n d : ℤ, TruncOf (fval f) w ∧ 0 ≤ n ∧ 1 ≤ d ∧ (fval f = w → n = 0) ∧
      (fval 1e-9 ≤ |fval f - w| →
        n < 10 ^ k ∧ d < 10 ^ k ∧ n ≤ d ∧ |(|fval f - w| - n / d)| ≤ 1 / (2 * d) + 1 / 2 ^ 52) ∧
      (n = 0 → fracFmt ext k (.float f) = .ok (decInt w)) ∧
      (n ≠ 0 → w ≠ 0 → fracFmt ext k (.float f) = .ok (decInt w ++ [32] ++ decInt n ++ [47] ++ decInt d)) ∧
      (n ≠ 0 → w = 0 → 0 ≤ fval f → fracFmt ext k (.float f) = .ok (decInt n ++ [47] ++ decInt d)) ∧
      (n ≠ 0 → w = 0 → fval f < 0 → fracFmt ext k (.float f) = .ok (decInt (-n) ++ [47] ++ decInt d)) := by
  obtain ⟨z1, z2⟩ := zero_val
  obtain ⟨w, n, d, e, a, b, c, g, h⟩ := C32_whole_partial f ff hf k k h1 (by omega) h1 (by omega) fracFuel (by
    have : 10 ^ k ≤ 10 ^ 2 := Nat.pow_le_pow_right (by norm_num) h2
    unfold fracFuel
    omega)
  have hr : fracFmt ext k (.float f) = if n = 0 then .ok (decInt w)
      else if w = 0 then .ok (decInt (if f < 0 && n > 0 then -n else n) ++ 47 :: decInt d)
      else .ok (decInt w ++ 32 :: decInt n ++ 47 :: decInt d) := by
    unfold fracFmt
    simp only [convertToFloat64, e]
  rw [hr]
  refine ⟨w, n, d, a, b, c, g, h, fun h0 => if_pos h0, fun h0 hw => ?_, fun h0 hw hp => ?_, fun h0 hw hp => ?_⟩
  · rw [if_neg h0, if_neg hw]
    simp
  · rw [if_neg h0, if_pos hw, if_neg]
    · simp
    · simp only [Bool.and_eq_true, decide_eq_true_eq, not_and]
      intro hlt
      rw [lt_iff ff z1, z2] at hlt
      linarith
  · rw [if_neg h0, if_pos hw, if_pos]
    · simp
    · simp only [Bool.and_eq_true, decide_eq_true_eq]
      refine ⟨?_, by omega⟩
      rw [lt_iff ff z1, z2]
      exact hp

/-- Format 12 shows -0.25 as `-1/4`, -2.25 as `-2 1/4` and 3 as `3`. -/
theorem C32_render_witness (ext : Ext) :
    fracFmt ext 1 (.float (-0.25)) = .ok (lit "-1/4") ∧ fracFmt ext 1 (.float (-2.25)) = .ok (lit "-2 1/4") ∧
    fracFmt ext 1 (.float 3) = .ok (lit "3") := by
  refine ⟨?_, ?_, ?_⟩
  · have : decimalToWholeFraction fracFuel (-0.25) 1 1 = some (0, 1, 4) := by decide +kernel
    have hs : (-0.25 : Float) < 0 := by decide +kernel
    simp only [fracFmt, convertToFloat64, this, hs]
    rfl
  · have : decimalToWholeFraction fracFuel (-2.25) 1 1 = some (-2, 1, 4) := by decide +kernel
    simp only [fracFmt, convertToFloat64, this]
    rfl
  · have : decimalToWholeFraction fracFuel 3 1 1 = some (3, 0, 1) := by decide +kernel
    simp only [fracFmt, convertToFloat64, this]
    rfl

end Grate.Props
