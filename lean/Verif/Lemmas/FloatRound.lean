import Verif.Lemmas.FloatPack
import Mathlib.Algebra.Order.Field.Power
import Mathlib.Algebra.Order.Ring.Rat
import Mathlib.Algebra.Field.Rat
import Mathlib.Data.Rat.Cast.Order
import Mathlib.Tactic.Linarith
import Mathlib.Tactic.Positivity
import Mathlib.Tactic.FieldSimp
import Mathlib.Tactic.Ring

/-! # Rounding of binary64 values (core `Float.Model`) is correct rounding -/

namespace Grate.F64

open Float.Model Float.Model.UnpackedFloat

/-- Round-to-nearest-even quotient. -/
def rne (N D : Nat) : Nat :=
  if 2 * (N % D) < D then N / D
  else if D < 2 * (N % D) then N / D + 1
  else N / D + (N / D) % 2

theorem rne_le {N D Y : Nat} (hD : 0 < D) (h : N ≤ Y * D) : rne N D ≤ Y := by
  have h1 := Nat.div_add_mod N D
  have h2 := Nat.mod_lt N hD
  have hq : N / D ≤ Y := by
    rw [Nat.div_le_iff_le_mul_add_pred hD]; rw [Nat.mul_comm] at h; omega
  unfold rne
  rcases Nat.lt_or_ge (N / D) Y with hlt | hge
  · split
    · omega
    · split <;> omega
  · have he : N / D = Y := by omega
    have h0 : N % D = 0 := by
      rw [he, Nat.mul_comm] at h1; omega
    rw [if_pos (by omega)]; omega

theorem le_rne {N D Y : Nat} (hD : 0 < D) (h : Y * D ≤ N) : Y ≤ rne N D := by
  have hq : Y ≤ N / D := (Nat.le_div_iff_mul_le hD).2 h
  unfold rne
  split
  · exact hq
  · split <;> omega

/-- `em` carries the quotient `N / D` with its rounding information. -/
structure Enc (em : ExtendedMantissa) (N D : Nat) : Prop where
  mant : em.mantissa = N / D
  rnd : em.roundBit = decide (D ≤ 2 * (N % D))
  sticky : em.stickyBit = decide ((2 * (N % D)) % D ≠ 0)

theorem Enc.rounded {em : ExtendedMantissa} {N D : Nat} (h : Enc em N D) (hD : 0 < D) :
    em.roundedMantissa = rne N D := by
  obtain ⟨m, r, s⟩ := em
  have h1 := h.mant
  have h2 := h.rnd
  have h3 := h.sticky
  simp only at h1 h2 h3
  have hl := Nat.mod_lt N hD
  subst h1
  unfold ExtendedMantissa.roundedMantissa rne
  by_cases hr : D ≤ 2 * (N % D)
  · have hm : 2 * (N % D) % D = 2 * (N % D) - D := by
      rw [Nat.mod_eq_sub_mod hr, Nat.mod_eq_of_lt (by omega)]
    rw [hm] at h3
    have h2' : r = true := by rw [h2]; simpa using hr
    subst h2'
    rw [if_neg (by omega)]
    by_cases hs : 2 * (N % D) = D
    · have h3' : s = false := by rw [h3]; simp; omega
      subst h3'
      rw [if_neg (by omega)]
      rfl
    · have h3' : s = true := by rw [h3]; simp; omega
      subst h3'
      rw [if_pos (by omega)]
      rfl
  · have hm : 2 * (N % D) % D = 2 * (N % D) := Nat.mod_eq_of_lt (by omega)
    have h2' : r = false := by rw [h2]; simpa using hr
    subst h2'
    rw [if_pos (by omega)]
    cases s <;> rfl

theorem Enc.shiftOne {em : ExtendedMantissa} {N D : Nat} (h : Enc em N D) (hD : 0 < D) :
    Enc em.shiftRightOne N (D * 2) := by
  obtain ⟨m, r, s⟩ := em
  have h1 := h.mant
  have h2 := h.rnd
  have h3 := h.sticky
  simp only at h1 h2 h3
  have hl := Nat.mod_lt N hD
  have hmod : N % (D * 2) = N % D + D * (N / D % 2) := Nat.mod_mul
  refine ⟨?_, ?_, ?_⟩
  · show m / 2 = N / (D * 2)
    rw [h1, Nat.div_div_eq_div_mul]
  · show (m % 2 != 0) = _
    rw [hmod, h1]
    rcases Nat.mod_two_eq_zero_or_one (N / D) with hb | hb
    · rw [hb]; symm; simp; omega
    · rw [hb]; symm; simp; omega
  · show (r || s) = _
    rw [hmod, h2, h3]
    have key : (2 * (N % D + D * (N / D % 2))) % (D * 2) = 2 * (N % D) := by
      rw [show 2 * (N % D + D * (N / D % 2)) = 2 * (N % D) + (D * 2) * (N / D % 2) by ring,
        Nat.add_mul_mod_self_left, Nat.mod_eq_of_lt (by omega)]
    rw [key]
    by_cases h0 : N % D = 0
    · rw [h0]; simp; omega
    · by_cases hr : D ≤ 2 * (N % D)
      · simp [hr, h0]
      · have : 2 * (N % D) % D = 2 * (N % D) := Nat.mod_eq_of_lt (by omega)
        rw [this]; simp [h0]

theorem Enc.shift {em : ExtendedMantissa} {N D : Nat} (h : Enc em N D) (hD : 0 < D) (k : Nat) :
    Enc (em >>> k) N (D * 2 ^ k) := by
  show Enc (Nat.repeat ExtendedMantissa.shiftRightOne k em) N (D * 2 ^ k)
  induction k with
  | zero => simpa [Nat.repeat] using h
  | succ k ih =>
    have := ih.shiftOne (by positivity)
    rw [Nat.pow_succ, ← Nat.mul_assoc]
    exact this

theorem enc_exact (m : Nat) : Enc (ExtendedMantissa.ofMantissaAndAccuracy m .exact) m 1 :=
  ⟨by simp [ExtendedMantissa.ofMantissaAndAccuracy],
   by simp [ExtendedMantissa.ofMantissaAndAccuracy, Nat.mod_one],
   by simp [ExtendedMantissa.ofMantissaAndAccuracy, Nat.mod_one]⟩

theorem enc_frac (N D : Nat) (hD : 0 < D) :
    Enc (ExtendedMantissa.ofMantissaAndAccuracy (N / D) (accuracyOfFraction (N % D) D)) N D := by
  have hl := Nat.mod_lt N hD
  unfold accuracyOfFraction
  by_cases h0 : N % D = 0
  · rw [if_pos h0]
    exact ⟨rfl, by simp [ExtendedMantissa.ofMantissaAndAccuracy, h0]; omega,
      by simp [ExtendedMantissa.ofMantissaAndAccuracy, h0]⟩
  · rw [if_neg h0]
    rcases Nat.lt_trichotomy (2 * (N % D)) D with h | h | h
    · rw [Nat.compare_eq_lt.2 h]
      exact ⟨rfl, by simp [ExtendedMantissa.ofMantissaAndAccuracy]; omega,
        by show true = _
           symm; rw [decide_eq_true_iff, Nat.mod_eq_of_lt h]; omega⟩
    · rw [Nat.compare_eq_eq.2 h]
      exact ⟨rfl, by simp [ExtendedMantissa.ofMantissaAndAccuracy]; omega,
        by simp [ExtendedMantissa.ofMantissaAndAccuracy, h]⟩
    · rw [Nat.compare_eq_gt.2 h]
      exact ⟨rfl, by simp [ExtendedMantissa.ofMantissaAndAccuracy]; omega,
        by show true = _
           symm; rw [decide_eq_true_iff, Nat.mod_eq_sub_mod (by omega), Nat.mod_eq_of_lt (by omega)]
           omega⟩

/-- The canonical exponent of a number whose leading digit has position `tot`. -/
def target (tot : Int) : Int := max (tot - 53) (-1074)

theorem target_eq (tot : Int) : Format.binary64.targetExponent tot = target tot := rfl

/-- A finite or zero value. -/
def mkFin (s : Sign) (m : Nat) (e : Int) : UnpackedFloat :=
  if h : m = 0 then .zero s else .finite s m e (Nat.pos_of_ne_zero h)

/-- The result of rounding `N / D * 2 ^ e`, given the position of the leading digit. -/
theorem roundWithAccuracy_eq (s : Sign) (m : Nat) (e : Int) (acc : Accuracy) (N D : Nat) (hD : 0 < D)
    (h : Enc (ExtendedMantissa.ofMantissaAndAccuracy m acc) N D)
    (he : e ≤ target (m.log2 + 1 + e)) :
    ∃ T R, T = target (m.log2 + 1 + e) ∧ R = rne N (D * 2 ^ (T - e).toNat) ∧ R ≤ 2 ^ 53 ∧
      (-1074 < T → 2 ^ 52 * (D * 2 ^ (T - e).toNat) ≤ N) ∧
      roundWithAccuracy Format.binary64 s m e acc =
        if R = 2 ^ 53 then mkFin s (2 ^ 52) (T + 1) else mkFin s R T := by
  have hm : m = N / D := by
    have := h.mant
    cases acc with
    | exact => exact this
    | inexact o => cases o <;> exact this
  refine ⟨target (m.log2 + 1 + e), _, rfl, rfl, ?_, ?_, ?_⟩
  all_goals
    generalize hT : target (m.log2 + 1 + e) = T at he
    generalize hk : (T - e).toNat = k
    have hTe : T = e + k := by omega
    have hDk : 0 < D * 2 ^ k := by positivity
  case _ => 
    apply rne_le hDk
    have h1 : m < 2 ^ (m.log2 + 1) := Nat.lt_log2_self
    have h2 : m.log2 + 1 ≤ 53 + k := by
      unfold target at hT; omega
    have h3 : N / D < 2 ^ (53 + k) := by
      rw [← hm]; exact Nat.lt_of_lt_of_le h1 (Nat.pow_le_pow_right (by decide) h2)
    have h4 := (Nat.div_lt_iff_lt_mul hD).1 h3
    calc N ≤ 2 ^ (53 + k) * D := Nat.le_of_lt h4
      _ = 2 ^ 53 * (D * 2 ^ k) := by rw [Nat.pow_add]; ring
  case _ =>
    intro hTgt
    have h2 : m.log2 = 52 + k := by
      unfold target at hT; omega
    have h0 : m ≠ 0 := by
      rintro rfl
      rw [Nat.log2_zero] at h2; omega
    have h3 := Nat.log2_self_le h0
    rw [h2, hm] at h3
    have h4 := (Nat.le_div_iff_mul_le hD).1 h3
    calc 2 ^ 52 * (D * 2 ^ k) = 2 ^ (52 + k) * D := by rw [Nat.pow_add]; ring
      _ ≤ N := h4
  case _ =>
    have hR : rne N (D * 2 ^ k) ≤ 2 ^ 53 := by
      apply rne_le hDk
      have h1 : m < 2 ^ (m.log2 + 1) := Nat.lt_log2_self
      have h2 : m.log2 + 1 ≤ 53 + k := by
        unfold target at hT; omega
      have h3 : N / D < 2 ^ (53 + k) := by
        rw [← hm]; exact Nat.lt_of_lt_of_le h1 (Nat.pow_le_pow_right (by decide) h2)
      have h4 := (Nat.div_lt_iff_lt_mul hD).1 h3
      calc N ≤ 2 ^ (53 + k) * D := Nat.le_of_lt h4
        _ = 2 ^ 53 * (D * 2 ^ k) := by rw [Nat.pow_add]; ring
    have hr := (h.shift hD k).rounded hDk
    have h1 : shiftToTargetExponent Format.binary64 m e acc =
        (ExtendedMantissa.ofMantissaAndAccuracy m acc >>> k, T) := by
      unfold shiftToTargetExponent shiftToExponent totalExponent
      simp only [target_eq, hT, hk]
      rw [← hTe]
    unfold roundWithAccuracy
    simp only [h1, hr]
    change mkFin s (shiftToTargetExponent Format.binary64 (rne N (D * 2 ^ k)) T .exact).1.mantissa
      (shiftToTargetExponent Format.binary64 (rne N (D * 2 ^ k)) T .exact).2 = _
    have hge : -1074 ≤ T := by unfold target at hT; omega
    generalize rne N (D * 2 ^ k) = R at hR
    have h2 : shiftToTargetExponent Format.binary64 R T .exact =
        (ExtendedMantissa.ofMantissaAndAccuracy R .exact >>> (target (R.log2 + 1 + T) - T).toNat,
          T + (target (R.log2 + 1 + T) - T).toNat) := rfl
    by_cases hR2 : R = 2 ^ 53
    · rw [if_pos hR2]
      have hl : R.log2 = 53 := by rw [hR2]; exact Nat.log2_two_pow
      have hs : (target (R.log2 + 1 + T) - T).toNat = 1 := by
        rw [hl]; unfold target; omega
      have hmm := ((enc_exact R).shift Nat.one_pos 1).mant
      simp only [h2, hs, hmm]
      rw [hR2]
      rfl
    · rw [if_neg hR2]
      have hl : R.log2 ≤ 52 := by
        by_cases h0 : R = 0
        · rw [h0, Nat.log2_zero]; omega
        · have := (Nat.log2_lt h0).2 (show R < 2 ^ 53 by omega)
          omega
      have hs : (target (R.log2 + 1 + T) - T).toNat = 0 := by
        unfold target; omega
      have hmm := ((enc_exact R).shift Nat.one_pos 0).mant
      simp only [h2, hs, hmm]
      simp

end Grate.F64
