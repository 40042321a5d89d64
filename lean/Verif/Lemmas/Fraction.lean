import Verif.Model.Dates
import Verif.Lemmas.FloatOrd
import Mathlib.Tactic.Linarith
import Mathlib.Tactic.Positivity
import Mathlib.Tactic.FieldSimp
import Mathlib.Algebra.Order.Floor.Ring
import Mathlib.Data.Rat.Floor
import Mathlib.Data.Nat.Log

/-! # The continued-fraction loop of `DecimalToFraction` -/

namespace Grate.F64

open Grate

/-! ### Floor and rounding -/

theorem le_big {x : ℚ} (h : x ≤ 2 ^ 200) : x ≤ 2 ^ 1023 :=
  h.trans (pow_le_pow_right₀ one_le_two (by norm_num))

/-- The integer part of a non-negative number below 2^53. -/
theorem floor_spec {x : Float} (hx : FFin x) (h0 : 0 ≤ fval x) (h1 : fval x ≤ 2 ^ 53) :
    ∃ k : ℕ, FFin (f64Floor x) ∧ fval (f64Floor x) = k ∧ (k : ℚ) ≤ fval x ∧ fval x < k + 1 ∧ k ≤ 2 ^ 53 := by
  obtain ⟨a, b⟩ := (trunc_spec hx).1 h0
  have ht0 : 0 ≤ f64TruncInt x := by
    have : (-1 : ℚ) < f64TruncInt x := by linarith
    have : (-1 : ℤ) < f64TruncInt x := by exact_mod_cast this
    omega
  obtain ⟨k, hk⟩ := Int.eq_ofNat_of_zero_le ht0
  have hk' : ((f64TruncInt x : ℤ) : ℚ) = (k : ℚ) := by rw [hk]; norm_cast
  have hk53 : k ≤ 2 ^ 53 := by
    rw [hk'] at a
    have : (k : ℚ) ≤ 2 ^ 53 := le_trans a h1
    exact_mod_cast this
  obtain ⟨e1, e2⟩ := ofInt_exact (f64TruncInt x) (by rw [hk]; simpa using hk53)
  have hneg : ¬ x < 0 := by
    obtain ⟨z1, z2⟩ := ofInt_exact 0 (by norm_num)
    have hz : (0 : Float) = f64OfInt 0 := by decide +kernel
    rw [hz, lt_iff hx z1, z2]
    simpa using h0
  refine ⟨k, ?_⟩
  rw [hk'] at a b
  unfold f64Floor
  simp only [(ffin_iff x).1 hx, Bool.not_true, Bool.false_eq_true, if_false]
  by_cases he : (f64OfInt (f64TruncInt x) == x) = true
  · rw [if_pos he]
    have := (beq_iff e1 hx).1 he
    exact ⟨hx, by rw [← this, e2, hk'], a, b, hk53⟩
  · rw [if_neg he, if_neg hneg]
    exact ⟨e1, by rw [e2, hk'], a, b, hk53⟩

theorem half_val : FFin (0.5 : Float) ∧ fval (0.5 : Float) = 1 / 2 := by
  constructor
  · exact (ffin_iff _).2 (by decide +kernel)
  · have h : (0.5 : Float) = f64OfInt 1 / f64OfInt 2 := by decide +kernel
    obtain ⟨a1, a2⟩ := ofInt_exact 1 (by norm_num)
    obtain ⟨b1, b2⟩ := ofInt_exact 2 (by norm_num)
    have := (div_spec a1 b1 (by rw [b2]; norm_num) (by rw [a2, b2]; exact le_big (by norm_num))).2
    rw [h, this.exact ?_, a2, b2]
    · norm_num
    · rw [a2, b2]
      exact ⟨1, -1, by norm_num, by norm_num, by norm_num⟩

/-- The fractional part of a float is a float. -/
theorem rep_frac {z : ℚ} (hr : Rep z) (k : ℕ) (h1 : (k : ℚ) ≤ z) (h2 : z < k + 1) : Rep (z - k) := by
  obtain ⟨Y, F, hY, hF0, hz⟩ := hr
  have hz0 : 0 ≤ z := le_trans (Nat.cast_nonneg k) h1
  rw [abs_of_nonneg hz0] at hz
  rcases le_or_gt 0 F with hF | hF
  · obtain ⟨m, rfl⟩ := Int.eq_ofNat_of_zero_le hF
    have hz' : z = ((Y * 2 ^ m : ℕ) : ℚ) := by
      rw [hz]
      push_cast
      rw [zpow_natCast]
    rw [hz'] at h1 h2
    have a : k ≤ Y * 2 ^ m := by exact_mod_cast h1
    have b : Y * 2 ^ m < k + 1 := by exact_mod_cast h2
    rw [hz', show Y * 2 ^ m = k by omega, sub_self]
    exact rep_zero
  · obtain ⟨m, hm⟩ := Int.eq_ofNat_of_zero_le (show 0 ≤ -F by omega)
    have hF' : F = -(m : ℤ) := by omega
    have h2m : (0 : ℚ) < 2 ^ m := by positivity
    have hz' : z * 2 ^ m = Y := by
      rw [hz, hF', zpow_neg, zpow_natCast, mul_assoc, inv_mul_cancel₀ h2m.ne', mul_one]
    have hle : k * 2 ^ m ≤ Y := by
      have : (k : ℚ) * 2 ^ m ≤ Y := by
        rw [← hz']
        exact mul_le_mul_of_nonneg_right h1 h2m.le
      exact_mod_cast this
    refine ⟨Y - k * 2 ^ m, F, by omega, hF0, ?_⟩
    rw [abs_of_nonneg (by linarith), Nat.cast_sub hle, hF', zpow_neg, zpow_natCast,
      eq_mul_inv_iff_mul_eq₀ h2m.ne', sub_mul, hz']
    push_cast
    rfl

/-- `math.Round` of a non-negative number: the integer part or, if there is a fraction, one more. -/
theorem round_near {x : Float} (hx : FFin x) (h0 : 0 ≤ fval x) (h1 : fval x ≤ 2 ^ 52) :
    ∃ k : ℕ, FFin (f64Round x) ∧ fval (f64Round x) = k ∧
      (((k : ℚ) ≤ fval x ∧ fval x < k + 1) ∨ (1 ≤ k ∧ (k : ℚ) - 1 < fval x ∧ fval x < k)) ∧
      |fval x - k| ≤ 1 / 2 := by
  obtain ⟨a, b⟩ := (trunc_spec hx).1 h0
  have ht0 : 0 ≤ f64TruncInt x := by
    have : (-1 : ℚ) < f64TruncInt x := by linarith
    have : (-1 : ℤ) < f64TruncInt x := by exact_mod_cast this
    omega
  obtain ⟨k, hk⟩ := Int.eq_ofNat_of_zero_le ht0
  have hk' : ((f64TruncInt x : ℤ) : ℚ) = (k : ℚ) := by rw [hk]; norm_cast
  rw [hk'] at a b
  have hk52 : k ≤ 2 ^ 52 := by
    have : (k : ℚ) ≤ 2 ^ 52 := le_trans a h1
    exact_mod_cast this
  obtain ⟨e1, e2⟩ := ofInt_exact (f64TruncInt x) (by rw [hk]; simp; omega)
  rw [hk'] at e2
  obtain ⟨d1, d2⟩ := sub_spec hx e1 (by
    rw [e2, abs_of_nonneg (by linarith)]
    exact le_big (by linarith))
  rw [e2] at d2
  have hex := d2.exact (rep_frac (rep_fval _) k a b)
  obtain ⟨h1', h2'⟩ := half_val
  unfold f64Round
  simp only [(ffin_iff x).1 hx, Bool.not_true, Bool.false_eq_true, if_false]
  by_cases hd : x - f64OfInt (f64TruncInt x) ≥ 0.5
  · rw [if_pos hd]
    have hge := (le_iff h1' d1).1 hd
    rw [h2'] at hge
    have hlt : (k : ℚ) < fval x := by
      rcases lt_or_eq_of_le a with h | h
      · exact h
      · exfalso
        have : fval (x - f64OfInt (f64TruncInt x)) ≤ 0 := (d2 0 rep_zero).1 (by linarith)
        linarith
    obtain ⟨f1, f2⟩ := ofInt_exact (f64TruncInt x + 1) (by rw [hk]; omega)
    refine ⟨k + 1, f1, ?_, .inr ⟨by omega, ?_, ?_⟩, ?_⟩
    · rw [f2]; push_cast; rw [hk']
    · push_cast; linarith
    · push_cast; exact b
    · push_cast
      rw [abs_le]
      constructor <;> linarith
  · rw [if_neg hd]
    have hneg : ¬ x - f64OfInt (f64TruncInt x) ≤ -0.5 := by
      obtain ⟨n1, n2⟩ := neg_spec h1'
      intro h
      have := (le_iff d1 n1).1 h
      rw [n2, h2'] at this
      have h0' : 0 ≤ fval (x - f64OfInt (f64TruncInt x)) := (d2 0 rep_zero).2 (by linarith)
      linarith
    rw [if_neg hneg]
    have hlt := (le_iff h1' d1).not.1 hd
    rw [h2', hex, not_le] at hlt
    refine ⟨k, e1, e2, .inl ⟨a, b⟩, ?_⟩
    rw [abs_of_nonneg (by linarith)]
    exact hlt.le

/-- Rounding error of a number between 0 and an integer `D`. -/
theorem rounds_near {x r : ℚ} (h : Rounds x r) {D : ℕ} (hD1 : 1 ≤ D) (hD : D ≤ 2 ^ 52) (h0 : 0 ≤ x)
    (hx : x < D) : |x - r| ≤ D / 2 ^ 52 := by
  obtain ⟨m, hm1, hm2⟩ : ∃ m, D * 2 ^ m ≤ 2 ^ 53 ∧ 2 ^ 53 < D * 2 ^ (m + 1) := by
    have hq : 2 ^ 53 / D ≠ 0 := (Nat.div_pos (by omega) (by omega)).ne'
    refine ⟨Nat.log 2 (2 ^ 53 / D), ?_, ?_⟩
    · have := Nat.pow_log_le_self 2 hq
      rw [mul_comm]
      exact (Nat.le_div_iff_mul_le (by omega)).1 this
    · have := Nat.lt_pow_succ_log_self (b := 2) (by norm_num) (2 ^ 53 / D)
      rw [mul_comm]
      exact (Nat.div_lt_iff_lt_mul (by omega)).1 this
  have h2m : (0 : ℚ) < 2 ^ m := by positivity
  have hm53 : m ≤ 53 := by
    by_contra hc
    have h1 : 2 ^ 54 ≤ 2 ^ m := Nat.pow_le_pow_right (by norm_num) (by omega)
    have h2 : 2 ^ m ≤ D * 2 ^ m := Nat.le_mul_of_pos_left _ hD1
    omega
  have hrep : ∀ j : ℕ, j ≤ 2 ^ 53 → Rep ((j : ℚ) / 2 ^ m) := fun j hj =>
    ⟨j, -(m : ℤ), hj, by omega, by
      rw [abs_of_nonneg (by positivity), zpow_neg, zpow_natCast, div_eq_mul_inv]⟩
  obtain ⟨j, hj1, hj2⟩ : ∃ j : ℕ, (j : ℚ) ≤ x * 2 ^ m ∧ x * 2 ^ m < j + 1 :=
    ⟨⌊x * 2 ^ m⌋₊, Nat.floor_le (by positivity), Nat.lt_floor_add_one _⟩
  have hjD : j + 1 ≤ D * 2 ^ m := by
    have h1 : (j : ℚ) < D * 2 ^ m := lt_of_le_of_lt hj1 (mul_lt_mul_of_pos_right hx h2m)
    have h2 : j < D * 2 ^ m := by exact_mod_cast h1
    omega
  have hlo : (j : ℚ) / 2 ^ m ≤ x := (div_le_iff₀ h2m).2 hj1
  have hhi : x ≤ ((j + 1 : ℕ) : ℚ) / 2 ^ m := by
    rw [le_div_iff₀ h2m]
    push_cast
    exact hj2.le
  have r1 := (h _ (hrep j (by omega))).2 hlo
  have r2 := (h _ (hrep (j + 1) (by omega))).1 hhi
  have hgap : ((j + 1 : ℕ) : ℚ) / 2 ^ m - (j : ℚ) / 2 ^ m = 1 / 2 ^ m := by
    push_cast
    ring
  have hbound : 1 / 2 ^ m ≤ (D : ℚ) / 2 ^ 52 := by
    rw [div_le_div_iff₀ h2m (by positivity)]
    have h3 : ((2 ^ 53 : ℕ) : ℚ) < ((D * 2 ^ (m + 1) : ℕ) : ℚ) := by exact_mod_cast hm2
    push_cast at h3
    rw [pow_succ] at h3
    linarith
  rw [abs_le]
  constructor <;> linarith

/-! ### One pass through the loop -/

/-- The fraction of a number in question is not tiny. -/
theorem frac_ge {z : ℚ} (hr : Rep z) {k : ℕ} (hlo : 1 / 2 ^ 30 ≤ z) (h1 : (k : ℚ) ≤ z) (h2 : z < k + 1)
    (hne : z ≠ k) : 1 / 2 ^ 52 ≤ z - k := by
  obtain ⟨Y, F, hY, _, hz⟩ := hr
  rw [abs_of_nonneg (le_trans (by positivity) hlo)] at hz
  have hint : ∀ n : ℕ, z ≠ n := by
    intro n hn
    rw [hn] at h1 h2
    have a : k ≤ n := by exact_mod_cast h1
    have b : n < k + 1 := by exact_mod_cast h2
    obtain rfl : n = k := by omega
    exact hne hn
  rcases le_or_gt 0 F with hF | hF
  · exfalso
    obtain ⟨m, rfl⟩ := Int.eq_ofNat_of_zero_le hF
    refine hint (Y * 2 ^ m) ?_
    rw [hz]
    push_cast
    rw [zpow_natCast]
  · obtain ⟨m, hm⟩ := Int.eq_ofNat_of_zero_le (show 0 ≤ -F by omega)
    have hF' : F = -(m : ℤ) := by omega
    have h2m : (0 : ℚ) < 2 ^ m := by positivity
    have hz' : z * 2 ^ m = Y := by
      rw [hz, hF', zpow_neg, zpow_natCast, mul_assoc, inv_mul_cancel₀ h2m.ne', mul_one]
    rcases le_or_gt m 52 with h52 | h52
    · have hpos : k * 2 ^ m < Y := by
        have : (k : ℚ) * 2 ^ m < Y := by
          rw [← hz']
          exact mul_lt_mul_of_pos_right (lt_of_le_of_ne h1 (Ne.symm hne)) h2m
        exact_mod_cast this
      have h3 : (1 : ℚ) ≤ (z - k) * 2 ^ m := by
        rw [sub_mul, hz']
        have : ((k * 2 ^ m + 1 : ℕ) : ℚ) ≤ Y := by exact_mod_cast hpos
        push_cast at this
        linarith
      have h4 : (2 : ℚ) ^ m ≤ 2 ^ 52 := pow_le_pow_right₀ one_le_two h52
      rw [div_le_iff₀ (by positivity)]
      calc (1 : ℚ) ≤ (z - k) * 2 ^ m := h3
        _ ≤ (z - k) * 2 ^ 52 := mul_le_mul_of_nonneg_left h4 (by linarith)
    · have h4 : (2 : ℚ) ^ 53 ≤ 2 ^ m := pow_le_pow_right₀ one_le_two h52
      have hle : z ≤ 1 := by
        by_contra hgt
        have : (2 : ℚ) ^ m < z * 2 ^ m := lt_mul_of_one_lt_left h2m (not_le.1 hgt)
        rw [hz'] at this
        have hY' : (Y : ℚ) ≤ 2 ^ 53 := by exact_mod_cast hY
        linarith
      have hlt : z < 1 := lt_of_le_of_ne hle (by simpa using hint 1)
      have hk : k = 0 := by
        have : (k : ℚ) < 1 := lt_of_le_of_lt h1 hlt
        have : k < 1 := by exact_mod_cast this
        omega
      subst hk
      have : (1 : ℚ) / 2 ^ 52 ≤ 1 / 2 ^ 30 := by norm_num
      push_cast
      linarith

/-- What holds at the loop head: the fraction so far is `N / D`, the one before has denominator `D'`. -/
structure FracInv (v : ℚ) (maxn maxd : ℕ) (s : FracState) (N D D' : ℕ) : Prop where
  fz : FFin s.z
  zlo : 1 / 2 ^ 30 ≤ fval s.z
  zhi : fval s.z ≤ 2 ^ 52
  fd : FFin s.denom
  vd : fval s.denom = D
  fl : FFin s.lastDenom
  vl : fval s.lastDenom = D'
  fn : FFin s.numer
  vn : fval s.numer = N
  dpos : 1 ≤ D
  dlt : D < maxd
  ll : D' ≤ D
  nlt : N < maxn
  nle : N ≤ D
  near : |v * D - N| ≤ 1 / 2 + D / 2 ^ 52 ∨
    (1 / 2 < v ∧ D = 1 ∧ D' = 0 ∧ N = 0 ∧ fval s.z = v ∧ s.diff = 1)

theorem one_val : FFin (1 : Float) ∧ fval (1 : Float) = 1 := by
  have h : (1 : Float) = f64OfInt 1 := by decide +kernel
  obtain ⟨a, b⟩ := ofInt_exact 1 (by norm_num)
  rw [h]
  exact ⟨a, by rw [b]; norm_num⟩

theorem zero_val : FFin (0 : Float) ∧ fval (0 : Float) = 0 := by
  have h : (0 : Float) = f64OfInt 0 := by decide +kernel
  obtain ⟨a, b⟩ := ofInt_exact 0 (by norm_num)
  rw [h]
  exact ⟨a, by rw [b]; norm_num⟩

/-- The next denominator: exact as long as it stays below 2^53, and otherwise at least 10^15. -/
theorem next_denom {d l k : Float} {D D' K : ℕ} (fd : FFin d) (vd : fval d = D) (fl : FFin l)
    (vl : fval l = D') (fk : FFin k) (vk : fval k = K) (hD : D < 10 ^ 15) (hl : D' ≤ D) (hK : K ≤ 2 ^ 53) :
    FFin (d * k + l) ∧ (fval (d * k + l) = ((D * K + D' : ℕ) : ℚ) ∧ D * K + D' ≤ 2 ^ 52 ∨
      (10 : ℚ) ^ 15 ≤ fval (d * k + l)) := by
  have hDq : (D : ℚ) ≤ 2 ^ 50 := by
    have : D ≤ 2 ^ 50 := by omega
    exact_mod_cast this
  have hlq : (D' : ℚ) ≤ 2 ^ 50 := by
    have : D' ≤ 2 ^ 50 := by omega
    exact_mod_cast this
  have hKq : (K : ℚ) ≤ 2 ^ 53 := by exact_mod_cast hK
  have hprod : (D : ℚ) * K ≤ 2 ^ 103 := by
    calc (D : ℚ) * K ≤ 2 ^ 50 * 2 ^ 53 := by gcongr
      _ = 2 ^ 103 := by rw [← pow_add]
  have hnn : (0 : ℚ) ≤ D * K := by positivity
  obtain ⟨p1, p2⟩ := mul_spec fd fk (by
    rw [vd, vk, abs_of_nonneg hnn]
    exact le_big (hprod.trans (pow_le_pow_right₀ one_le_two (by norm_num))))
  rw [vd, vk] at p2
  have hrep : Rep ((2 : ℚ) ^ 103) :=
    ⟨1, 103, by norm_num, by norm_num, by rw [abs_of_nonneg (by positivity)]; norm_num⟩
  have hp_hi : fval (d * k) ≤ 2 ^ 103 := (p2 _ hrep).1 hprod
  have hp_lo : 0 ≤ fval (d * k) := (p2 0 rep_zero).2 hnn
  have hD0 : (0 : ℚ) ≤ D' := by positivity
  obtain ⟨q1, q2⟩ := add_spec p1 fl (by
    rw [vl, abs_of_nonneg (by linarith)]
    exact le_big (by
      have : (2 : ℚ) ^ 103 + 2 ^ 50 ≤ 2 ^ 200 := by norm_num
      linarith))
  rw [vl] at q2
  refine ⟨q1, ?_⟩
  by_cases hs : D * K + D' ≤ 2 ^ 52
  · left
    refine ⟨?_, hs⟩
    have e1 : fval (d * k) = ((D * K : ℕ) : ℚ) := by
      rw [← Nat.cast_mul] at p2
      exact p2.exact (rep_nat (by omega))
    rw [e1, ← Nat.cast_add] at q2
    exact q2.exact (rep_nat (by omega))
  · right
    have h15 : (10 ^ 15 : ℕ) ≤ D * K := by omega
    have h1 : ((10 ^ 15 : ℕ) : ℚ) ≤ fval (d * k) := (p2 _ (rep_nat (by norm_num))).2 (by
      rw [← Nat.cast_mul]; exact_mod_cast h15)
    have h2 : ((10 ^ 15 : ℕ) : ℚ) ≤ fval (d * k + l) := (q2 _ (rep_nat (by norm_num))).2 (by linarith)
    exact_mod_cast h2

/-- The next numerator. -/
theorem next_numer {v d : Float} {D : ℕ} (fv : FFin v) (v0 : 0 < fval v) (v1 : fval v < 1) (fd : FFin d)
    (vd : fval d = D) (hD : D ≤ 2 ^ 52) (hD1 : 1 ≤ D) :
    ∃ N : ℕ, FFin (f64Round (v * d)) ∧ fval (f64Round (v * d)) = N ∧ N ≤ D ∧
      |fval v * D - N| ≤ 1 / 2 + D / 2 ^ 52 := by
  have hDq : (D : ℚ) ≤ 2 ^ 52 := by exact_mod_cast hD
  have hD0 : (0 : ℚ) < D := by exact_mod_cast hD1
  have hvd : fval v * D < D := by
    have := mul_lt_mul_of_pos_right v1 hD0
    linarith
  have hvd0 : 0 < fval v * D := mul_pos v0 hD0
  obtain ⟨p1, p2⟩ := mul_spec fv fd (by
    rw [vd, abs_of_nonneg hvd0.le]
    exact le_big (by have : (2 : ℚ) ^ 52 ≤ 2 ^ 200 := by norm_num
                     linarith))
  rw [vd] at p2
  have hx0 : 0 ≤ fval (v * d) := (p2 0 rep_zero).2 hvd0.le
  have hxD : fval (v * d) ≤ D := (p2 D (rep_nat (by omega))).1 hvd.le
  obtain ⟨N, r1, r2, r3, r4⟩ := round_near p1 hx0 (by linarith)
  refine ⟨N, r1, r2, ?_, ?_⟩
  · have : (N : ℚ) < D + 1 := by
      rcases r3 with ⟨a, b⟩ | ⟨h1, a, b⟩ <;> linarith
    have : N < D + 1 := by exact_mod_cast this
    omega
  · have hr := rounds_near p2 hD1 hD hvd0.le hvd
    have := abs_sub_le (fval v * D) (fval (v * d)) N
    linarith

theorem fracStep_spec {v maxn maxd : Float} {Mn Md : ℕ} (sign : Int) {s : FracState} {N D D' : ℕ}
    (fv : FFin v) (v0 : 0 < fval v) (v1 : fval v < 1) (fMn : FFin maxn) (vMn : fval maxn = Mn)
    (fMd : FFin maxd) (vMd : fval maxd = Md) (hMd : Md ≤ 10 ^ 15)
    (hMn3 : 3 ≤ Mn) (hMd3 : 3 ≤ Md) (h : FracInv (fval v) Mn Md s N D D') :
    (fracStep v maxn maxd sign s = .done (sign * N) D ∧ |fval v * D - N| ≤ 1 / 2 + D / 2 ^ 52) ∨
    ∃ s' N' K, 1 ≤ K ∧ fracStep v maxn maxd sign s = .next s' ∧
      FracInv (fval v) Mn Md s' N' (D * K + D') D := by
  have hD := h.dlt
  have hN : f64ToInt s.numer = N := toInt_of_val h.fn (by rw [h.vn]; norm_cast) (by omega) (by
    have := h.nle; omega)
  have hDi : f64ToInt s.denom = D := toInt_of_val h.fd (by rw [h.vd]; norm_cast) (by omega) (by omega)
  unfold fracStep
  split
  swap
  · next hcond =>
    rw [hN, hDi]
    refine .inl ⟨rfl, ?_⟩
    rcases h.near with hn | ⟨a1, rfl, rfl, rfl, a2, a3⟩
    · exact hn
    · exfalso
      refine hcond ?_
      obtain ⟨k, k1, k2, k3, k4, k5⟩ := floor_spec h.fz (by linarith)
        (h.zhi.trans (pow_le_pow_right₀ one_le_two (by norm_num)))
      have hk : k = 0 := by
        have : (k : ℚ) < 1 := by linarith
        have : k < 1 := by exact_mod_cast this
        omega
      have hb : (s.z == f64Floor s.z) = false := by
        rw [Bool.eq_false_iff]
        intro he
        have := (beq_iff h.fz k1).1 he
        rw [k2, hk, a2] at this
        simp at this
        linarith
      rw [bne, hb, a3]
      decide +kernel
  · next hcond =>
    simp only [Bool.and_eq_true, decide_eq_true_eq] at hcond
    have hz0 : 0 < fval s.z := lt_of_lt_of_le (by positivity) h.zlo
    obtain ⟨k, k1, k2, k3, k4, k5⟩ := floor_spec h.fz hz0.le
      (h.zhi.trans (pow_le_pow_right₀ one_le_two (by norm_num)))
    have hne : fval s.z ≠ k := by
      have hb := hcond.2
      intro he
      rw [bne, (beq_iff h.fz k1).2 (by rw [he, k2])] at hb
      cases hb
    have hδ := frac_ge (rep_fval _) h.zlo k3 k4 hne
    have hδ1 : fval s.z - k ≤ 1 := by linarith
    obtain ⟨x1, x2⟩ := sub_spec h.fz k1 (by
      rw [k2, abs_of_nonneg (by linarith)]
      exact le_big (by have : (1 : ℚ) ≤ 2 ^ 200 := by norm_num
                       linarith))
    rw [k2] at x2
    have hxlo : 1 / 2 ^ 52 ≤ fval (s.z - f64Floor s.z) := (x2 _ ⟨1, -52, by norm_num, by norm_num, by
      rw [abs_of_nonneg (by positivity), zpow_neg]; norm_num⟩).2 hδ
    have hxhi : fval (s.z - f64Floor s.z) ≤ 1 := by
      have := (x2 _ (rep_nat (n := 1) (by norm_num))).1 (by simpa using hδ1)
      simpa using this
    have hx0 : 0 < fval (s.z - f64Floor s.z) := lt_of_lt_of_le (by positivity) hxlo
    obtain ⟨o1, o2⟩ := one_val
    have hinv_hi : 1 / fval (s.z - f64Floor s.z) ≤ 2 ^ 52 := by
      rw [div_le_iff₀ hx0]
      rw [div_le_iff₀ (by positivity)] at hxlo
      linarith
    have hinv_lo : 1 ≤ 1 / fval (s.z - f64Floor s.z) := by
      rw [le_div_iff₀ hx0]
      linarith
    obtain ⟨z1, z2⟩ := div_spec o1 x1 hx0.ne' (by
      rw [o2, abs_of_nonneg (by positivity)]
      exact le_big (hinv_hi.trans (pow_le_pow_right₀ one_le_two (by norm_num))))
    rw [o2] at z2
    have hzlo : 1 ≤ fval (1 / (s.z - f64Floor s.z)) := by
      have := (z2 _ (rep_nat (n := 1) (by norm_num))).2 (by simpa using hinv_lo)
      simpa using this
    have hzhi : fval (1 / (s.z - f64Floor s.z)) ≤ 2 ^ 52 := (z2 _ ⟨1, 52, by norm_num, by norm_num, by
      rw [abs_of_nonneg (by positivity)]; norm_num⟩).1 hinv_hi
    have hfirst : 1 / 2 < fval v → fval s.z = fval v → fval (1 / (s.z - f64Floor s.z)) ≤ 2 := by
      intro a1 a2
      have hk : k = 0 := by
        have : (k : ℚ) < 1 := by linarith
        have : k < 1 := by exact_mod_cast this
        omega
      have hx : 1 / 2 ≤ fval (s.z - f64Floor s.z) := (x2 _ (by
        obtain ⟨_, b⟩ := half_val
        rw [← b]; exact rep_fval _)).2 (by rw [hk, a2]; push_cast; linarith)
      have := (z2 _ (rep_nat (n := 2) (by norm_num))).1 (by
        rw [div_le_iff₀ hx0]
        push_cast
        linarith)
      simpa using this
    generalize 1 / (s.z - f64Floor s.z) = z at z1 hfirst hzlo hzhi
    obtain ⟨K, f1, f2, f3, f4, f5⟩ := floor_spec z1 (by linarith)
      (hzhi.trans (pow_le_pow_right₀ one_le_two (by norm_num)))
    have hK : 1 ≤ K := by
      have : (0 : ℚ) < K := by linarith
      exact_mod_cast this
    obtain ⟨q1, q2⟩ := next_denom h.fd h.vd h.fl h.vl f1 f2 (by omega) h.ll f5
    dsimp only
    rw [hN, hDi]
    rcases q2 with ⟨q2, q3⟩ | q2
    · have hD1 : 1 ≤ D * K + D' := by
        have := Nat.mul_le_mul h.dpos hK
        omega
      obtain ⟨N', r1, r2, r3, r4⟩ := next_numer fv v0 v1 q1 q2 q3 hD1
      split
      · next hyes =>
        refine .inl ⟨rfl, ?_⟩
        rcases h.near with hn | ⟨a1, rfl, rfl, rfl, a2, a3⟩
        · exact hn
        · exfalso
          have hK2 : K ≤ 2 := by
            have : (K : ℚ) ≤ 2 := f3.trans (hfirst a1 a2)
            exact_mod_cast this
          simp only [Bool.or_eq_true, decide_eq_true_eq] at hyes
          rcases hyes with hy | hy
          · have := (le_iff fMn r1).1 hy
            rw [vMn, r2] at this
            have : Mn ≤ N' := by exact_mod_cast this
            omega
          · have := (le_iff fMd q1).1 hy
            rw [vMd, q2] at this
            have : Md ≤ 1 * K + 0 := by exact_mod_cast this
            omega
      · next hno =>
        refine .inr ⟨_, N', K, hK, rfl, ?_⟩
        simp only [Bool.or_eq_true, decide_eq_true_eq, not_or] at hno
        have hn1 : N' < Mn := by
          by_contra hc
          refine hno.1 ((le_iff fMn r1).2 ?_)
          rw [vMn, r2]
          exact_mod_cast not_lt.1 hc
        have hn2 : D * K + D' < Md := by
          by_contra hc
          refine hno.2 ((le_iff fMd q1).2 ?_)
          rw [vMd, q2]
          exact_mod_cast not_lt.1 hc
        exact {
          fz := z1, zlo := by
            have : (1 : ℚ) / 2 ^ 30 ≤ 1 := by norm_num
            exact this.trans hzlo
          zhi := hzhi, fd := q1, vd := q2, fl := h.fd, vl := h.vd, fn := r1, vn := r2, dpos := hD1
          dlt := hn2, nlt := hn1, nle := r3, near := .inl r4
          ll := by
            have := Nat.le_mul_of_pos_right D hK
            omega }
    · rw [if_pos]
      · refine .inl ⟨rfl, ?_⟩
        rcases h.near with hn | ⟨a1, rfl, rfl, rfl, a2, a3⟩
        · exact hn
        · exfalso
          have hK2 : K ≤ 2 := by
            have : (K : ℚ) ≤ 2 := f3.trans (hfirst a1 a2)
            exact_mod_cast this
          obtain ⟨p1, p2⟩ := mul_spec h.fd f1 (by
            rw [h.vd, f2, abs_of_nonneg (by positivity)]
            have : ((1 * K : ℕ) : ℚ) ≤ 2 := by exact_mod_cast (by omega : 1 * K ≤ 2)
            push_cast at this
            exact le_big (this.trans (by norm_num)))
          rw [h.vd, f2, ← Nat.cast_mul] at p2
          have e1 := p2.exact (rep_nat (by omega))
          obtain ⟨o1, o2⟩ := add_spec p1 h.fl (by
            rw [e1, h.vl, ← Nat.cast_add, abs_of_nonneg (by positivity)]
            have : ((1 * K + 0 : ℕ) : ℚ) ≤ 2 := by exact_mod_cast (by omega : 1 * K + 0 ≤ 2)
            exact le_big (this.trans (by norm_num)))
          rw [e1, h.vl, ← Nat.cast_add] at o2
          rw [o2.exact (rep_nat (by omega))] at q2
          have : 10 ^ 15 ≤ 1 * K + 0 := by exact_mod_cast q2
          omega
      · have : maxd ≤ s.denom * f64Floor z + s.lastDenom := by
          rw [le_iff fMd q1, vMd]
          refine le_trans ?_ q2
          exact_mod_cast hMd
        simp [this]

/-- The loop ends within the fuel, with the claimed bounds. -/
theorem fracLoop_spec {v maxn maxd : Float} {Mn Md : ℕ} (sign : Int)
    (fv : FFin v) (v0 : 0 < fval v) (v1 : fval v < 1) (fMn : FFin maxn) (vMn : fval maxn = Mn)
    (fMd : FFin maxd) (vMd : fval maxd = Md) (hMd : Md ≤ 10 ^ 15) (hMn3 : 3 ≤ Mn) (hMd3 : 3 ≤ Md)
    (fuel : Nat) :
    ∀ (s : FracState) (N D D' : ℕ), FracInv (fval v) Mn Md s N D D' →
      Md + (if D' = 0 then 1 else 0) < fuel + D → ∃ n d : ℕ,
      fracLoop v maxn maxd sign fuel s = some (sign * n, (d : ℤ)) ∧ n < Mn ∧ 1 ≤ d ∧ d < Md ∧ n ≤ d ∧
        |fval v * d - n| ≤ 1 / 2 + d / 2 ^ 52 := by
  induction fuel with
  | zero =>
    intro s N D D' h hf
    have := h.dlt
    omega
  | succ fuel ih =>
    intro s N D D' h hf
    rw [fracLoop.eq_def]
    dsimp only
    rcases fracStep_spec sign fv v0 v1 fMn vMn fMd vMd hMd hMn3 hMd3 h with ⟨e, hn⟩ | ⟨s', N', K, hK, e, h'⟩
    · rw [e]
      exact ⟨N, D, rfl, h.nlt, h.dpos, h.dlt, h.nle, hn⟩
    · rw [e]
      refine ih s' N' _ D h' ?_
      have hD0 : D ≠ 0 := by have := h.dpos; omega
      rw [if_neg hD0]
      have := Nat.le_mul_of_pos_right D hK
      split at hf <;> omega

/-! ### Whole and fractional parts -/

theorem rep_floor {z : ℚ} (hr : Rep z) (k : ℕ) (h1 : (k : ℚ) ≤ z) (h2 : z < k + 1) : Rep (k : ℚ) := by
  rcases le_or_gt k (2 ^ 53) with hk | hk
  · exact rep_nat hk
  obtain ⟨Y, F, hY, hF0, hz⟩ := id hr
  have hz0 : 0 ≤ z := le_trans (Nat.cast_nonneg k) h1
  rw [abs_of_nonneg hz0] at hz
  have hF : 0 ≤ F := by
    by_contra hc
    have h3 : (2 : ℚ) ^ F ≤ 1 := by
      have := zpow_le_zpow_right₀ (one_le_two (α := ℚ)) (show F ≤ 0 by omega)
      simpa using this
    have h4 : z ≤ Y := by
      rw [hz]
      exact mul_le_of_le_one_right (by positivity) h3
    have h5 : (Y : ℚ) ≤ 2 ^ 53 := by exact_mod_cast hY
    have h6 : (2 : ℚ) ^ 53 < k := by exact_mod_cast hk
    linarith
  obtain ⟨m, rfl⟩ := Int.eq_ofNat_of_zero_le hF
  have hz' : z = ((Y * 2 ^ m : ℕ) : ℚ) := by
    rw [hz]
    push_cast
    rw [zpow_natCast]
  rw [hz'] at h1 h2
  have a : k ≤ Y * 2 ^ m := by exact_mod_cast h1
  have b : Y * 2 ^ m < k + 1 := by exact_mod_cast h2
  have : k = Y * 2 ^ m := by omega
  rw [this, ← hz']
  exact hr

/-- Both parts of a number from 1 up. -/
theorem parts_ge_one {x : Float} (hx : FFin x) (h0 : 0 ≤ fval x) :
    ∃ k : ℕ, FFin (f64OfInt (f64TruncInt x)) ∧ fval (f64OfInt (f64TruncInt x)) = k ∧
      FFin (x - f64OfInt (f64TruncInt x)) ∧ fval (x - f64OfInt (f64TruncInt x)) = fval x - k ∧
      (k : ℚ) ≤ fval x ∧ fval x < k + 1 := by
  obtain ⟨a, b⟩ := (trunc_spec hx).1 h0
  have ht0 : 0 ≤ f64TruncInt x := by
    have : (-1 : ℚ) < f64TruncInt x := by linarith
    have : (-1 : ℤ) < f64TruncInt x := by exact_mod_cast this
    omega
  obtain ⟨k, hk⟩ := Int.eq_ofNat_of_zero_le ht0
  have hk' : ((f64TruncInt x : ℤ) : ℚ) = (k : ℚ) := by rw [hk]; exact Int.cast_natCast k
  rw [hk'] at a b
  obtain ⟨e1, e2⟩ := ofInt_spec' (f64TruncInt x) (rep_fval x) ((le_abs_self _).trans_lt (fval_lt x)) (by
    rw [hk', abs_of_nonneg (Nat.cast_nonneg k)]
    exact a)
  rw [hk'] at e2
  have e2 := e2.exact (rep_floor (rep_fval _) k a b)
  obtain ⟨d1, d2⟩ := sub_spec hx e1 (by
    rw [e2, abs_of_nonneg (by linarith)]
    exact le_big (by
      have : (1 : ℚ) ≤ 2 ^ 200 := by norm_num
      linarith))
  rw [e2] at d2
  exact ⟨k, e1, e2, d1, d2.exact (rep_frac (rep_fval _) k a b), a, b⟩

/-- `math.Modf` splits exactly. -/
theorem modf_spec {x : Float} (hx : FFin x) :
    ∃ k : ℤ, TruncOf (fval x) k ∧ FFin (f64Modf x).1 ∧ fval (f64Modf x).1 = k ∧ FFin (f64Modf x).2 ∧
      fval (f64Modf x).2 = fval x - k := by
  obtain ⟨o1, o2⟩ := one_val
  obtain ⟨z1, z2⟩ := zero_val
  unfold f64Modf
  simp only [(ffin_iff x).1 hx, Bool.not_true, Bool.false_eq_true, if_false]
  split
  · next hlt =>
    rw [lt_iff hx o1, o2] at hlt
    split
    · next hneg =>
      rw [lt_iff hx z1, z2] at hneg
      obtain ⟨n1, n2⟩ := neg_spec hx
      split
      · next hy =>
        rw [lt_iff n1 o1, o2, n2] at hy
        have hm : FFin (-0.0 : Float) ∧ fval (-0.0 : Float) = 0 := by
          have h : (-0.0 : Float) = -f64OfInt 0 := by decide +kernel
          obtain ⟨a, b⟩ := ofInt_exact 0 (by norm_num)
          obtain ⟨c, d⟩ := neg_spec a
          rw [h]
          exact ⟨c, by rw [d, b]; norm_num⟩
        refine ⟨0, ⟨fun h => ?_, fun h => ⟨?_, ?_⟩⟩, hm.1, ?_, hx, ?_⟩
        · linarith
        · push_cast; linarith
        · push_cast; linarith
        · rw [hm.2]; norm_num
        · push_cast; ring
      · obtain ⟨k, e1, e2, d1, d2, a, b⟩ := parts_ge_one n1 (by rw [n2]; linarith)
        obtain ⟨f1, f2⟩ := neg_spec e1
        obtain ⟨g1, g2⟩ := neg_spec d1
        rw [n2] at a b
        refine ⟨-(k : ℤ), ⟨fun h => ?_, fun h => ⟨?_, ?_⟩⟩, f1, ?_, g1, ?_⟩
        · linarith
        · push_cast; linarith
        · push_cast; linarith
        · rw [f2, e2]; push_cast; rfl
        · rw [g2, d2, n2]; push_cast; ring
    · next hneg =>
      rw [lt_iff hx z1, z2] at hneg
      split
      · next he =>
        rw [beq_iff hx z1, z2] at he
        refine ⟨0, ⟨fun h => ⟨?_, ?_⟩, fun h => ?_⟩, hx, ?_, hx, ?_⟩
        · rw [he]; norm_num
        · rw [he]; norm_num
        · rw [he]; norm_num
        · rw [he]; norm_num
        · push_cast; ring
      · next he =>
        rw [beq_iff hx z1, z2] at he
        refine ⟨0, ⟨fun h => ⟨?_, ?_⟩, fun h => ?_⟩, z1, ?_, hx, ?_⟩
        · push_cast; linarith
        · push_cast; linarith
        · exact absurd (le_antisymm h (not_lt.1 hneg)) he
        · rw [z2]; norm_num
        · push_cast; ring
  · next hge =>
    rw [lt_iff hx o1, o2, not_lt] at hge
    obtain ⟨k, e1, e2, d1, d2, a, b⟩ := parts_ge_one hx (by linarith)
    refine ⟨k, ⟨fun h => ⟨?_, ?_⟩, fun h => ?_⟩, e1, ?_, d1, ?_⟩
    · push_cast; exact a
    · push_cast; exact b
    · linarith
    · rw [e2]; push_cast; rfl
    · rw [d2]; push_cast; rfl

end Grate.F64
