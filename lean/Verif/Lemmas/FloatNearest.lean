import Verif.Lemmas.GoFloat

/-! # Rounding to binary64 is rounding to the nearest number, ties to even -/

namespace Grate.F64

open Spec Float.Model Float.Model.UnpackedFloat

theorem rne_eq (N D : Nat) : rne N D = halfEven N D := by
  unfold rne halfEven
  simp only
  split
  · rw [if_pos (Or.inl ‹_›)]
  · split
    · rw [if_neg (by omega)]
    · rcases Nat.mod_two_eq_zero_or_one (N / D) with h | h
      · rw [if_pos (by omega)]; omega
      · rw [if_neg (by omega)]; omega

/-- `v` lies where numbers are rounded to `M · 2^E`. -/
structure InCell (v : ℚ) (M : ℕ) (E : ℤ) : Prop where
  hi : v ≤ (M + 1 / 2) * 2 ^ E
  hiTie : v = (M + 1 / 2) * 2 ^ E → M % 2 = 0
  lo : (M - 1 / 2) * 2 ^ E ≤ v
  loTie : v = (M - 1 / 2) * 2 ^ E → M % 2 = 0
  edge : M = 2 ^ 52 → -1074 < E → (M - 1 / 4) * 2 ^ E ≤ v

theorem roundWithAccuracy_cell (s : Sign) (m : Nat) (e : Int) (acc : Accuracy) (N D : Nat) (hD : 0 < D)
    (h : Enc (ExtendedMantissa.ofMantissaAndAccuracy m acc) N D)
    (he : e ≤ target (m.log2 + 1 + e)) :
    ∃ (M : ℕ) (E : ℤ), roundWithAccuracy Format.binary64 s m e acc = mkFin s M E ∧ Canon' M E ∧
      InCell ((N : ℚ) / D * 2 ^ e) M E := by
  obtain ⟨T, R, hT, hR, hR53, hbig, heq⟩ := roundWithAccuracy_eq s m e acc N D hD h he
  have hTge : -1074 ≤ T := by rw [hT]; unfold target; omega
  have heT : e ≤ T := by rw [hT]; exact he
  set D' : ℕ := D * 2 ^ (T - e).toNat with hD'
  have hD'pos : 0 < D' := by positivity
  have hDq : (0 : ℚ) < D := by exact_mod_cast hD
  have hD'q : (0 : ℚ) < D' := by exact_mod_cast hD'pos
  have hx : (N : ℚ) / D * 2 ^ e = (N : ℚ) / D' * 2 ^ T := by
    rw [zpow_split T e heT, hD']
    push_cast
    field_simp
  have h2T := two_zpow_pos T
  have hR52 : -1074 < T → 2 ^ 52 ≤ R := fun ht => by
    rw [hR]; exact le_rne hD'pos (hbig ht)
  have hn := halfEven_nearest N D' hD'pos
  rw [← rne_eq, ← hR] at hn
  obtain ⟨hn1, hn2⟩ := hn
  rw [hx]
  generalize hv : (N : ℚ) / D' = v at *
  have hvb : -1074 < T → (2 ^ 52 : ℚ) ≤ v := fun ht => by
    rw [← hv, le_div_iff₀ hD'q]
    exact_mod_cast hbig ht
  rw [abs_le] at hn1
  have tie1 : v = R + 1 / 2 → R % 2 = 0 := fun hh => hn2 (by rw [hh]; norm_num)
  have tie2 : v = R - 1 / 2 → R % 2 = 0 := fun hh => hn2 (by rw [hh]; norm_num)
  have key : InCell (v * 2 ^ T) R T := by
    refine ⟨?_, ?_, ?_, ?_, ?_⟩
    · exact mul_le_mul_of_nonneg_right (by linarith) h2T.le
    · intro hh; exact tie1 (mul_right_cancel₀ h2T.ne' hh)
    · exact mul_le_mul_of_nonneg_right (by linarith) h2T.le
    · intro hh; exact tie2 (mul_right_cancel₀ h2T.ne' hh)
    · intro hM ht
      refine mul_le_mul_of_nonneg_right ?_ h2T.le
      have := hvb ht
      rw [hM]; push_cast; linarith
  by_cases h53 : R = 2 ^ 53
  · rw [if_pos h53] at heq
    refine ⟨2 ^ 52, T + 1, heq, ⟨by norm_num, by omega, Or.inl le_rfl⟩, ?_⟩
    rw [h53] at hn1
    push_cast at hn1
    have e1 : (2 : ℚ) ^ (T + 1) = 2 * 2 ^ T := by rw [zpow_add_one₀ (by norm_num)]; ring
    have e2 : ∀ c : ℚ, (((2 ^ 52 : ℕ) : ℚ) + c) * 2 ^ (T + 1) = (2 ^ 53 + 2 * c) * 2 ^ T := by
      intro c; rw [e1]; push_cast; ring
    have e3 : ∀ c : ℚ, (((2 ^ 52 : ℕ) : ℚ) - c) * 2 ^ (T + 1) = (2 ^ 53 - 2 * c) * 2 ^ T := by
      intro c; rw [e1]; push_cast; ring
    refine ⟨?_, fun _ => by norm_num, ?_, fun _ => by norm_num, fun _ _ => ?_⟩
    · rw [e2]; exact mul_le_mul_of_nonneg_right (by linarith) h2T.le
    · rw [e3]; exact mul_le_mul_of_nonneg_right (by linarith) h2T.le
    · rw [e3]; exact mul_le_mul_of_nonneg_right (by linarith) h2T.le
  · rw [if_neg h53] at heq
    refine ⟨R, T, heq, ⟨by omega, hTge, ?_⟩, key⟩
    rcases lt_or_eq_of_le hTge with ht | ht
    · exact Or.inl (hR52 ht)
    · exact Or.inr ht.symm

/-- Where the numbers with 53 bits are, seen from `M · 2^E`. -/
theorem rep_split {M : ℕ} {E : ℤ} (hc : Canon' M E) {y : ℚ} (hy : Rep y) (h0 : 0 ≤ y) :
    (∃ k : ℕ, y = k * 2 ^ E) ∨ (2 ^ 52 ≤ M ∧ -1074 < E ∧ y ≤ (2 ^ 52 - 1 / 2) * 2 ^ E ∧
      (y = (2 ^ 52 - 1 / 2) * 2 ^ E → y = ((2 ^ 53 - 1 : ℤ) : ℚ) * 2 ^ (E - 1))) := by
  obtain ⟨Y, F, h1, h2, h3⟩ := hy
  rw [abs_of_nonneg h0] at h3
  rcases le_or_gt E F with hE | hE
  · left
    refine ⟨Y * 2 ^ (F - E).toNat, ?_⟩
    rw [h3, zpow_split F E hE]; push_cast; ring
  · have hE2 : -1074 < E := by omega
    have hM : 2 ^ 52 ≤ M := by
      rcases hc.2.2 with h | h
      · exact h
      · omega
    have p := two_zpow_pos E
    have e1 : (2 : ℚ) ^ (E - 1) = 1 / 2 * 2 ^ E := by
      rw [zpow_sub_one₀ (by norm_num)]; ring
    by_cases hY : Y = 2 ^ 53 ∧ F = E - 1
    · left
      refine ⟨2 ^ 52, ?_⟩
      rw [h3, hY.1, hY.2, e1]; push_cast; ring
    · right
      refine ⟨hM, hE2, ?_, fun hh => ?_⟩
      · rw [h3]
        by_cases hF : F = E - 1
        · have : Y ≤ 2 ^ 53 - 1 := by omega
          have hq : (Y : ℚ) ≤ 2 ^ 53 - 1 := by
            have : Y + 1 ≤ 2 ^ 53 := by omega
            have : (Y : ℚ) + 1 ≤ 2 ^ 53 := by exact_mod_cast this
            linarith
          rw [hF, e1, ← mul_assoc]
          exact mul_le_mul_of_nonneg_right (by linarith) p.le
        · have h4 : (2 : ℚ) ^ F ≤ 2 ^ (E - 2) := zpow_le_zpow_right₀ (by norm_num) (by omega)
          have e2 : (2 : ℚ) ^ (E - 2) = 1 / 4 * 2 ^ E := by
            rw [show E - 2 = E - 1 - 1 by ring, zpow_sub_one₀ (by norm_num), e1]; ring
          have hq : (Y : ℚ) ≤ 2 ^ 53 := by exact_mod_cast h1
          calc (Y : ℚ) * 2 ^ F ≤ 2 ^ 53 * (1 / 4 * 2 ^ E) := by rw [← e2]; gcongr
            _ ≤ _ := by rw [← mul_assoc]; exact mul_le_mul_of_nonneg_right (by norm_num) p.le
      · rw [hh, e1]; push_cast; ring

/-- The number of the cell is the nearest. -/
theorem cell_nearest {v : ℚ} {M : ℕ} {E : ℤ} (hc : Canon' M E) (h : InCell v M E) (hv : 0 ≤ v) {y : ℚ} (hy : Rep y) :
    |(M : ℚ) * 2 ^ E - v| ≤ |y - v| ∧
    (|(M : ℚ) * 2 ^ E - v| = |y - v| → y ≠ M * 2 ^ E →
      ∃ (n m : ℤ) (e : ℤ), (M : ℚ) * 2 ^ E = n * 2 ^ e ∧ y = m * 2 ^ e ∧ n % 2 = 0 ∧ m % 2 = 1) := by
  have p := two_zpow_pos E
  obtain ⟨c1, c2, c3, c4, c5⟩ := h
  generalize hw : (2 : ℚ) ^ E = w at *
  -- distances from the number of the cell
  have hd : |(M : ℚ) * w - v| ≤ 1 / 2 * w := by
    rw [abs_le]; constructor <;> linarith
  -- non-negative numbers first
  have main : ∀ y : ℚ, Rep y → 0 ≤ y → |(M : ℚ) * w - v| ≤ |y - v| ∧
      (|(M : ℚ) * w - v| = |y - v| → y ≠ M * w →
        ∃ (n m : ℤ) (e : ℤ), (M : ℚ) * w = n * 2 ^ e ∧ y = m * 2 ^ e ∧ n % 2 = 0 ∧ m % 2 = 1) := by
    intro y hy hy0
    have hs := rep_split hc hy hy0
    rw [hw] at hs
    rcases hs with ⟨k, hk⟩ | ⟨hM, hE, hle, heq⟩
    · rcases Nat.lt_trichotomy k M with hlt | heq | hgt
      · have h1 : (k : ℚ) + 1 ≤ M := by exact_mod_cast hlt
        have h2 : y ≤ (M - 1) * w := by rw [hk]; exact mul_le_mul_of_nonneg_right (by linarith) p.le
        have h3 : |y - v| = v - y := by rw [abs_sub_comm, abs_of_nonneg]; linarith
        rw [h3]
        refine ⟨by linarith, fun hh _ => ?_⟩
        have h4 : v = (M - 1 / 2) * w := by linarith
        have h5 := c4 h4
        have h6 : (k : ℚ) * w = (M - 1) * w := by rw [← hk]; linarith
        have h7 := mul_right_cancel₀ p.ne' h6
        have h8 : k + 1 = M := by
          have : (k : ℚ) + 1 = M := by linarith
          exact_mod_cast this
        exact ⟨M, k, E, by rw [hw]; simp, by rw [hw, hk]; simp, by omega, by omega⟩
      · rw [hk, heq]; exact ⟨le_rfl, fun _ hh => absurd rfl hh⟩
      · have h1 : (M : ℚ) + 1 ≤ k := by exact_mod_cast hgt
        have h2 : (M + 1) * w ≤ y := by rw [hk]; exact mul_le_mul_of_nonneg_right (by linarith) p.le
        have h3 : |y - v| = y - v := by rw [abs_of_nonneg]; linarith
        rw [h3]
        refine ⟨by linarith, fun hh _ => ?_⟩
        have h4 : v = (M + 1 / 2) * w := by linarith
        have h5 := c2 h4
        have h6 : (k : ℚ) * w = (M + 1) * w := by rw [← hk]; linarith
        have h7 := mul_right_cancel₀ p.ne' h6
        have h8 : k = M + 1 := by exact_mod_cast h7
        exact ⟨M, k, E, by rw [hw]; simp, by rw [hw, hk]; simp, by omega, by omega⟩
    · by_cases hM2 : M = 2 ^ 52
      · have h1 := c5 hM2 hE
        have hMq : (M : ℚ) = 2 ^ 52 := by rw [hM2]; norm_num
        have h3 : |y - v| = v - y := by
          rw [abs_sub_comm, abs_of_nonneg]
          rw [hMq] at h1; linarith
        have h4 : |(M : ℚ) * w - v| ≤ v - y := by
          rw [abs_le]
          rw [hMq] at h1 ⊢
          constructor <;> linarith
        rw [h3]
        refine ⟨h4, fun hh hne => ?_⟩
        have h5 : y = (2 ^ 52 - 1 / 2) * w := by
          rcases abs_cases ((M : ℚ) * w - v) with ⟨ha, hb⟩ | ⟨ha, hb⟩
          · rw [ha] at hh; rw [hMq] at hh h1; linarith
          · rw [ha] at hh; exact absurd (by linarith) hne
        refine ⟨2 ^ 53, 2 ^ 53 - 1, E - 1, ?_, heq h5, by norm_num, by norm_num⟩
        rw [zpow_sub_one₀ (by norm_num), hw, hMq]; push_cast; ring
      · have h0 : (2 ^ 52 : ℚ) + 1 ≤ M := by
          have : 2 ^ 52 + 1 ≤ M := by omega
          exact_mod_cast this
        have h0w : (2 ^ 52 + 1) * w ≤ M * w := mul_le_mul_of_nonneg_right h0 p.le
        have h3 : |y - v| = v - y := by
          rw [abs_sub_comm, abs_of_nonneg]; linarith
        rw [h3]
        refine ⟨by linarith, fun hh _ => ?_⟩
        linarith
  rcases le_or_gt 0 y with hy0 | hy0
  · exact main y hy hy0
  · obtain ⟨m1, -⟩ := main 0 rep_zero le_rfl
    rw [zero_sub, abs_neg, abs_of_nonneg hv] at m1
    have h3 : |y - v| = v - y := by rw [abs_sub_comm, abs_of_nonneg]; linarith
    rw [h3]
    exact ⟨by linarith, fun hh _ => by linarith⟩

/-- A number lies in one cell only. -/
theorem cell_unique {v : ℚ} {M M' : ℕ} {E E' : ℤ} (hc : Canon' M E) (h : InCell v M E)
    (hc' : Canon' M' E') (h' : InCell v M' E') : M = M' ∧ E = E' := by
  have key : ∀ {M M' : ℕ} {E E' : ℤ}, Canon' M E → InCell v M E → Canon' M' E' → InCell v M' E' → ¬ E < E' := by
    intro M M' E E' hc h hc' h' hlt
    have p := two_zpow_pos E
    have hE' : -1074 < E' := by have := hc.2.1; omega
    have hM' : 2 ^ 52 ≤ M' := by
      rcases hc'.2.2 with hh | hh
      · exact hh
      · omega
    have h1 : (2 : ℚ) * 2 ^ E ≤ 2 ^ E' := by
      rw [show (2 : ℚ) * 2 ^ E = 2 ^ (E + 1) by rw [zpow_add_one₀ (by norm_num)]; ring]
      exact zpow_le_zpow_right₀ (by norm_num) (by omega)
    have hM : (M : ℚ) ≤ 2 ^ 53 - 1 := by
      have : M + 1 ≤ 2 ^ 53 := hc.1
      have : (M : ℚ) + 1 ≤ 2 ^ 53 := by exact_mod_cast this
      linarith
    have h2 : v ≤ (2 ^ 53 - 1 / 2) * 2 ^ E := le_trans h.hi (mul_le_mul_of_nonneg_right (by linarith) p.le)
    by_cases hb : M' = 2 ^ 52
    · have h3 := h'.edge hb hE'
      rw [hb] at h3
      push_cast at h3
      have h4 : (2 ^ 53 - 1 / 2) * 2 ^ E ≤ ((2 ^ 52 - 1 / 4) : ℚ) * 2 ^ E' := by
        have : ((2 ^ 52 - 1 / 4) : ℚ) * (2 * 2 ^ E) ≤ (2 ^ 52 - 1 / 4) * 2 ^ E' :=
          mul_le_mul_of_nonneg_left h1 (by norm_num)
        linarith
      have h5 : v = (M + 1 / 2) * 2 ^ E := by linarith [h.hi, mul_le_mul_of_nonneg_right (show (M : ℚ) + 1 / 2 ≤ 2 ^ 53 - 1 / 2 by linarith) p.le]
      have h6 := h.hiTie h5
      have h7 : (M + 1 / 2 : ℚ) * 2 ^ E = (2 ^ 53 - 1 / 2) * 2 ^ E := by linarith
      have h8 := mul_right_cancel₀ p.ne' h7
      have h9 : (M : ℚ) + 1 = 2 ^ 53 := by linarith
      have h10 : M + 1 = 2 ^ 53 := by exact_mod_cast h9
      omega
    · have h0 : (2 ^ 52 : ℚ) + 1 ≤ M' := by
        have : 2 ^ 52 + 1 ≤ M' := by omega
        exact_mod_cast this
      have h3 := h'.lo
      have p' := two_zpow_pos E'
      have h4 : (2 ^ 52 + 1 / 2 : ℚ) * 2 ^ E' ≤ (M' - 1 / 2) * 2 ^ E' :=
        mul_le_mul_of_nonneg_right (by linarith) p'.le
      have h5 : (2 ^ 52 + 1 / 2 : ℚ) * (2 * 2 ^ E) ≤ (2 ^ 52 + 1 / 2) * 2 ^ E' :=
        mul_le_mul_of_nonneg_left h1 (by norm_num)
      linarith
  have hE : E = E' := by
    have := key hc h hc' h'
    have := key hc' h' hc h
    omega
  subst hE
  refine ⟨?_, rfl⟩
  have key2 : ∀ {M M' : ℕ}, InCell v M E → InCell v M' E → ¬ M < M' := by
    intro M M' h h' hlt
    have p := two_zpow_pos E
    have h1 : (M : ℚ) + 1 ≤ M' := by exact_mod_cast hlt
    have h2 := mul_le_mul_of_nonneg_right h1 p.le
    have a := h.hi
    have b := h'.lo
    have e1 : v = (M + 1 / 2) * 2 ^ E := by linarith
    have e2 : v = (M' - 1 / 2) * 2 ^ E := by linarith
    have t1 := h.hiTie e1
    have t2 := h'.loTie e2
    have e3 : (M + 1 / 2 : ℚ) * 2 ^ E = (M' - 1 / 2) * 2 ^ E := by rw [← e1, ← e2]
    have e4 := mul_right_cancel₀ p.ne' e3
    have e5 : (M : ℚ) + 1 = M' := by linarith
    have e6 : M + 1 = M' := by exact_mod_cast e5
    omega
  have := key2 h h'
  have := key2 h' h
  omega

/-- The quotient of two integers, rounded. -/
theorem udiv_cell (s : Sign) {N D : Nat} (hN : 0 < N) (hD : 0 < D) :
    ∃ (M : ℕ) (E : ℤ), UnpackedFloat.div Format.binary64 (.finite s N 0 hN) (.finite .positive D 0 hD) = mkFin s M E ∧
      Canon' M E ∧ InCell ((N : ℚ) / D) M E := by
  have h1 : UnpackedFloat.div Format.binary64 (.finite s N 0 hN) (.finite .positive D 0 hD) =
    roundWithAccuracy Format.binary64 (s / .positive) (divCore Format.binary64 N 0 D 0).1
      (divCore Format.binary64 N 0 D 0).2.1 (divCore Format.binary64 N 0 D 0).2.2 := rfl
  have hs : s / .positive = s := by cases s <;> rfl
  rw [h1, hs]
  unfold divCore totalExponent
  simp only [target_eq]
  generalize hg : min ((0 : ℤ) - 0) (target (↑N.log2 + 1 + 0 - (↑D.log2 + 1 + 0))) = g
  generalize hk : ((0 : ℤ) - 0 - g).toNat = k
  have hge : g ≤ 0 := by omega
  have hN' : 0 < N <<< k := by rw [Nat.shiftLeft_eq]; positivity
  have hlog : (N <<< k).log2 = N.log2 + k := by
    rw [Nat.shiftLeft_eq]
    rw [Nat.log2_eq_iff (by positivity)]
    have h1 := Nat.log2_self_le (Nat.pos_iff_ne_zero.1 hN)
    have h2 := @Nat.lt_log2_self N
    constructor
    · rw [Nat.pow_add]; exact Nat.mul_le_mul_right _ h1
    · rw [show N.log2 + k + 1 = (N.log2 + 1) + k by omega, Nat.pow_add]
      exact Nat.mul_lt_mul_of_pos_right h2 (by positivity)
  have hexp : g ≤ target (((N <<< k / D).log2 : Nat) + 1 + g) := by
    by_cases hsmall : g ≤ -1074
    · unfold target; omega
    · have hg2 : g ≤ (N.log2 : Int) - D.log2 - 53 := by
        unfold target at hg; omega
      have hk2 : D.log2 + 53 ≤ N.log2 + k := by omega
      have hq : 2 ^ 52 ≤ N <<< k / D := by
        rw [Nat.le_div_iff_mul_le hD]
        have h3 := Nat.log2_self_le (Nat.pos_iff_ne_zero.1 hN')
        rw [hlog] at h3
        have h4 := @Nat.lt_log2_self D
        calc 2 ^ 52 * D ≤ 2 ^ 52 * 2 ^ (D.log2 + 1) := Nat.mul_le_mul_left _ h4.le
          _ = 2 ^ (D.log2 + 53) := by rw [← Nat.pow_add]; congr 1; omega
          _ ≤ 2 ^ (N.log2 + k) := Nat.pow_le_pow_right (by norm_num) hk2
          _ ≤ _ := h3
      have := (Nat.le_log2 (by omega)).2 hq
      unfold target; omega
  obtain ⟨M, E, h2, h3, h4⟩ := roundWithAccuracy_cell s (N <<< k / D) g
    (accuracyOfFraction (N <<< k % D) D) (N <<< k) D hD (enc_frac _ _ hD) hexp
  refine ⟨M, E, h2, h3, ?_⟩
  have hv : ((N <<< k : ℕ) : ℚ) / (D : ℚ) * 2 ^ g = (N : ℚ) / D := by
    rw [Nat.shiftLeft_eq]
    have he : ((2 ^ k : ℕ) : ℚ) * 2 ^ g = 1 := by
      rw [show k = (0 - g).toNat by omega, ← zpow_split 0 g hge]; simp
    calc (((N * 2 ^ k : ℕ) : ℚ)) / (D : ℚ) * 2 ^ g = (N : ℚ) / D * (((2 ^ k : ℕ) : ℚ) * 2 ^ g) := by push_cast; ring
      _ = _ := by rw [he, mul_one]
  rw [hv] at h4
  exact h4

end Grate.F64
