import Verif.Lemmas.FloatRound
import Mathlib.Data.Nat.Cast.Order.Field
import Mathlib.Algebra.Order.AbsoluteValue.Basic
import Mathlib.Tactic.NormNum

/-! # Rational values of binary64 numbers; every operation is correctly rounded -/

namespace Grate.F64

open Float.Model Float.Model.UnpackedFloat

/-- A sign as a rational factor. -/
def sgn : Sign → ℚ
  | .negative => -1
  | .positive => 1

/-- The rational value (0 for NaN and infinities). -/
def uval : UnpackedFloat → ℚ
  | .finite s m e _ => sgn s * (m * 2 ^ e)
  | _ => 0

/-- Finite (including zero). -/
def UFin : UnpackedFloat → Prop
  | .finite .. => True
  | .zero _ => True
  | _ => False

/-- Numbers with at most 53 significant bits and an exponent of at least -1074 (no upper limit). -/
def Rep (y : ℚ) : Prop := ∃ (Y : ℕ) (F : ℤ), Y ≤ 2 ^ 53 ∧ -1074 ≤ F ∧ |y| = Y * 2 ^ F

/-- `r` is a faithful rounding of `x`: it lies on the same side of every representable number. -/
def Rounds (x r : ℚ) : Prop := ∀ y, Rep y → (x ≤ y → r ≤ y) ∧ (y ≤ x → y ≤ r)

theorem Rounds.neg {x r : ℚ} (h : Rounds x r) : Rounds (-x) (-r) := by
  intro y hy
  have hy' : Rep (-y) := by
    obtain ⟨Y, F, h1, h2, h3⟩ := hy
    exact ⟨Y, F, h1, h2, by rw [abs_neg]; exact h3⟩
  obtain ⟨h1, h2⟩ := h (-y) hy'
  constructor
  · intro hx; have := h2 (by linarith); linarith
  · intro hx; have := h1 (by linarith); linarith

theorem rep_zero : Rep 0 := ⟨0, 0, by norm_num, by norm_num, by norm_num⟩

theorem rep_nat {n : ℕ} (h : n ≤ 2 ^ 53) : Rep n :=
  ⟨n, 0, h, by norm_num, by simp⟩

theorem rep_int {n : ℤ} (h : n.natAbs ≤ 2 ^ 53) : Rep n :=
  ⟨n.natAbs, 0, h, by norm_num, by simp [Nat.cast_natAbs]⟩

theorem Rounds.exact {x r : ℚ} (h : Rounds x r) (hx : Rep x) : r = x :=
  le_antisymm ((h x hx).1 le_rfl) ((h x hx).2 le_rfl)

/-- Faithful rounding of non-negative numbers extends to all sides. -/
theorem rounds_of_nonneg {x r : ℚ} (hx : 0 ≤ x)
    (h : ∀ (Y : ℕ) (F : ℤ), Y ≤ 2 ^ 53 → -1074 ≤ F →
      (x ≤ Y * 2 ^ F → r ≤ Y * 2 ^ F) ∧ (Y * 2 ^ F ≤ x → Y * 2 ^ F ≤ r)) : Rounds x r := by
  have hr : 0 ≤ r := by
    have := (h 0 0 (by norm_num) (by norm_num)).2 (by simpa using hx)
    simpa using this
  intro y hy
  obtain ⟨Y, F, h1, h2, h3⟩ := hy
  rcases le_or_gt 0 y with h0 | h0
  · rw [abs_of_nonneg h0] at h3
    rw [h3]
    exact h Y F h1 h2
  · exact ⟨fun hh => by linarith, fun _ => by linarith⟩

theorem two_zpow_pos (e : ℤ) : (0 : ℚ) < 2 ^ e := by positivity

theorem zpow_split (a b : ℤ) (h : b ≤ a) : (2 : ℚ) ^ a = ((2 ^ (a - b).toNat : ℕ) : ℚ) * 2 ^ b := by
  have : a = ((a - b).toNat : ℤ) + b := by omega
  conv_lhs => rw [this]
  rw [zpow_add₀ (by norm_num), zpow_natCast]
  push_cast
  rfl

/-- Canonical, ignoring the upper limit of the exponent. -/
def Canon' (M : ℕ) (E : ℤ) : Prop := M < 2 ^ 53 ∧ -1074 ≤ E ∧ (2 ^ 52 ≤ M ∨ E = -1074)

theorem roundWithAccuracy_spec (s : Sign) (m : Nat) (e : Int) (acc : Accuracy) (N D : Nat) (hD : 0 < D)
    (h : Enc (ExtendedMantissa.ofMantissaAndAccuracy m acc) N D)
    (he : e ≤ target (m.log2 + 1 + e)) :
    ∃ (M : ℕ) (E : ℤ), roundWithAccuracy Format.binary64 s m e acc = mkFin s M E ∧ Canon' M E ∧
      Rounds ((N : ℚ) / D * 2 ^ e) (M * 2 ^ E) := by
  obtain ⟨T, R, hT, hR, hR53, hbig, heq⟩ := roundWithAccuracy_eq s m e acc N D hD h he
  have hTge : -1074 ≤ T := by rw [hT]; unfold target; omega
  have heT : e ≤ T := by rw [hT]; exact he
  -- the exact value in units of 2^T
  set D' : ℕ := D * 2 ^ (T - e).toNat with hD'
  have hD'pos : 0 < D' := by positivity
  have hDq : (0 : ℚ) < D := by exact_mod_cast hD
  have hD'q : (0 : ℚ) < D' := by exact_mod_cast hD'pos
  have hx : (N : ℚ) / D * 2 ^ e = (N : ℚ) / D' * 2 ^ T := by
    rw [zpow_split T e heT, hD']
    push_cast
    field_simp
  have h2T := two_zpow_pos T
  have hR52 : -1074 < T → 2 ^ 52 ≤ R := fun ht => by
    rw [hR]; exact le_rne hD'pos (hbig ht)
  have key : Rounds ((N : ℚ) / D * 2 ^ e) (R * 2 ^ T) := by
    rw [hx]
    apply rounds_of_nonneg (by positivity)
    intro Y F hY hF
    rcases le_or_gt T F with hTF | hFT
    · have : (Y : ℚ) * 2 ^ F = ((Y * 2 ^ (F - T).toNat : ℕ) : ℚ) * 2 ^ T := by
        rw [zpow_split F T hTF]; push_cast; ring
      rw [this]
      constructor
      · intro hh
        have hh' := le_of_mul_le_mul_right hh h2T
        rw [div_le_iff₀ hD'q] at hh'
        have h3 : N ≤ (Y * 2 ^ (F - T).toNat) * D' := by exact_mod_cast hh'
        have h4 := rne_le hD'pos h3
        rw [← hR] at h4
        exact mul_le_mul_of_nonneg_right (by exact_mod_cast h4) h2T.le
      · intro hh
        have hh' := le_of_mul_le_mul_right hh h2T
        rw [le_div_iff₀ hD'q] at hh'
        have h3 : (Y * 2 ^ (F - T).toNat) * D' ≤ N := by exact_mod_cast hh'
        have h4 := le_rne hD'pos h3
        rw [← hR] at h4
        exact mul_le_mul_of_nonneg_right (by exact_mod_cast h4) h2T.le
    · have hTgt : -1074 < T := by omega
      have hb := hbig hTgt
      have hy : (Y : ℚ) * 2 ^ F ≤ 2 ^ 52 * 2 ^ T := by
        have h1 : (2 : ℚ) ^ F ≤ 2 ^ (T - 1) := zpow_le_zpow_right₀ (by norm_num) (by omega)
        have h2 : (Y : ℚ) ≤ 2 ^ 53 := by exact_mod_cast hY
        calc (Y : ℚ) * 2 ^ F ≤ 2 ^ 53 * 2 ^ (T - 1) := by gcongr
          _ = 2 ^ 52 * 2 ^ T := by
            rw [show T = (T - 1) + 1 by ring, zpow_add_one₀ (by norm_num)]
            ring_nf
      constructor
      · intro hh
        have h3 : (N : ℚ) / D' * 2 ^ T ≤ 2 ^ 52 * 2 ^ T := le_trans hh hy
        have h4 := le_of_mul_le_mul_right h3 h2T
        rw [div_le_iff₀ hD'q] at h4
        have h5 : N ≤ 2 ^ 52 * D' := by exact_mod_cast h4
        have h6 := rne_le hD'pos h5
        rw [← hR] at h6
        have h7 : (R : ℚ) ≤ N / D' := by
          rw [le_div_iff₀ hD'q]
          have : R * D' ≤ N := le_trans (Nat.mul_le_mul_right _ h6) hb
          exact_mod_cast this
        exact le_trans (mul_le_mul_of_nonneg_right h7 h2T.le) hh
      · intro _
        have h6 : (2 ^ 52 : ℚ) ≤ R := by exact_mod_cast hR52 hTgt
        exact le_trans hy (mul_le_mul_of_nonneg_right h6 h2T.le)
  by_cases h53 : R = 2 ^ 53
  · rw [if_pos h53] at heq
    refine ⟨2 ^ 52, T + 1, heq, ⟨by norm_num, by omega, Or.inl le_rfl⟩, ?_⟩
    have : ((2 ^ 52 : ℕ) : ℚ) * 2 ^ (T + 1) = (R : ℚ) * 2 ^ T := by
      rw [h53, zpow_add_one₀ (by norm_num)]
      push_cast
      ring
    rw [this]
    exact key
  · rw [if_neg h53] at heq
    refine ⟨R, T, heq, ⟨by omega, hTge, ?_⟩, key⟩
    rcases lt_or_eq_of_le hTge with ht | ht
    · exact Or.inl (hR52 ht)
    · exact Or.inr ht.symm

/-- Core's `round`. -/
theorem round_spec (s : Sign) (m : Nat) (e : Int) (hm : 0 < m) :
    ∃ (M : ℕ) (E : ℤ), round Format.binary64 s m e = mkFin s M E ∧ Canon' M E ∧
      Rounds ((m : ℚ) * 2 ^ e) (M * 2 ^ E) := by
  unfold UnpackedFloat.round decreaseExponent totalExponent
  simp only [target_eq]
  generalize hT : target (m.log2 + 1 + e) = T
  generalize hk : (e - T).toNat = k
  have hl : (m <<< k).log2 = m.log2 + k := by
    rw [Nat.shiftLeft_eq]
    rw [Nat.log2_eq_iff (by positivity)]
    have h1 := Nat.log2_self_le (Nat.pos_iff_ne_zero.1 hm)
    have h2 := @Nat.lt_log2_self m
    constructor
    · rw [Nat.pow_add]; exact Nat.mul_le_mul_right _ h1
    · rw [show m.log2 + k + 1 = (m.log2 + 1) + k by omega, Nat.pow_add]
      exact Nat.mul_lt_mul_of_pos_right h2 (by positivity)
  obtain ⟨M, E, h1, h2, h3⟩ := roundWithAccuracy_spec s (m <<< k) (e - k) .exact (m <<< k) 1
    Nat.one_pos (enc_exact _) (by
      rw [hl, show ((m.log2 + k : ℕ) : ℤ) + 1 + (e - k) = m.log2 + 1 + e by push_cast; ring, hT]
      omega)
  refine ⟨M, E, h1, h2, ?_⟩
  have : ((m <<< k : ℕ) : ℚ) / ((1 : ℕ) : ℚ) * 2 ^ (e - (k : ℤ)) = (m : ℚ) * 2 ^ e := by
    rw [Nat.shiftLeft_eq]
    rw [show e = (k : ℤ) + (e - k) by ring, zpow_add₀ (by norm_num), zpow_natCast]
    push_cast
    ring_nf
  rw [this] at h3
  exact h3

theorem uval_mkFin (s : Sign) (M : ℕ) (E : ℤ) : uval (mkFin s M E) = sgn s * (M * 2 ^ E) := by
  unfold mkFin
  split
  · rename_i h; subst h; simp [uval]
  · rfl

theorem ufin_mkFin (s : Sign) (M : ℕ) (E : ℤ) : UFin (mkFin s M E) := by
  unfold mkFin; split <;> trivial

/-- A correctly rounded result of the real number `x`, before packing. -/
structure URounded (x : ℚ) (u : UnpackedFloat) : Prop where
  fin : UFin u
  canon : ∀ s M E h, u = .finite s M E h → Canon' M E
  rounds : Rounds x (uval u)

theorem URounded.of_mkFin {x : ℚ} {s : Sign} {M : ℕ} {E : ℤ} (hc : Canon' M E)
    (h : Rounds x (M * 2 ^ E)) : URounded (sgn s * x) (mkFin s M E) := by
  refine ⟨ufin_mkFin _ _ _, ?_, ?_⟩
  · intro s' M' E' h' he
    unfold mkFin at he
    split at he
    · cases he
    · cases he; exact hc
  · rw [uval_mkFin]
    cases s with
    | positive => simpa [sgn] using h
    | negative => simpa [sgn] using h.neg

theorem normalize_spec (n : Int) (e : Int) (zs : Sign) :
    URounded ((n : ℚ) * 2 ^ e) (normalize Format.binary64 n e zs) := by
  unfold normalize
  rcases lt_trichotomy n 0 with h | h | h
  · rw [Int.compare_eq_lt.2 h]
    simp only []
    obtain ⟨M, E, h1, h2, h3⟩ := round_spec .negative (-n).toNat e (by omega)
    rw [h1]
    have := URounded.of_mkFin (s := .negative) h2 h3
    have e1 : (((-n).toNat : ℕ) : ℚ) = -(n : ℚ) := by
      have : (((-n).toNat : ℕ) : ℤ) = -n := by omega
      exact_mod_cast this
    rw [e1] at this
    simpa [sgn] using this
  · subst h
    rw [Int.compare_eq_eq.2 rfl]
    refine ⟨trivial, ?_, ?_⟩
    · intro _ _ _ _ hc; cases hc
    · intro y _; simp [uval]
  · rw [Int.compare_eq_gt.2 h]
    simp only []
    obtain ⟨M, E, h1, h2, h3⟩ := round_spec .positive n.toNat e (by omega)
    rw [h1]
    have := URounded.of_mkFin (s := .positive) h2 h3
    have e1 : ((n.toNat : ℕ) : ℚ) = (n : ℚ) := by
      have : ((n.toNat : ℕ) : ℤ) = n := by omega
      exact_mod_cast this
    rw [e1] at this
    simpa [sgn] using this

end Grate.F64
