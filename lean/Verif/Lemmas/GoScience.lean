import Verif.Lemmas.GoFloat

/-! # Scientific notation: helper lemmas -/

namespace Grate

open Spec Grate.F64

theorem decNat_bounds {n : Nat} (hn : 0 < n) :
    10 ^ ((decNat n).length - 1) ≤ n ∧ n < 10 ^ (decNat n).length ∧ 0 < (decNat n).length := by
  have h := decNat_numeral n
  have h0 : (decNat n).head? ≠ some 48 := by
    intro h1
    have h2 := h.2.2 h1
    have h3 := h.2.1
    rw [h2] at h3
    have : digitsVal [48] = 0 := by decide +kernel
    omega
  have a := Xlsx.digitsVal_ge h.1 h0
  have b := Xlsx.digitsVal_lt _ h.1.2
  rw [decNat_val] at a b
  exact ⟨a, b, List.length_pos_of_ne_nil h.1.1⟩

theorem exponent10_spec {N D : Nat} (hN : 0 < N) (hD : 0 < D) :
    (10 : ℚ) ^ exponent10 N D ≤ (N : ℚ) / D ∧ (N : ℚ) / D < 10 ^ (exponent10 N D + 1) := by
  have hDq : (0 : ℚ) < D := by exact_mod_cast hD
  have hNq : (0 : ℚ) < N := by exact_mod_cast hN
  unfold exponent10
  split
  · next h =>
    have hq : 0 < N / D := Nat.div_pos h hD
    obtain ⟨h1, h2, h3⟩ := decNat_bounds hq
    generalize (decNat (N / D)).length = L at *
    obtain ⟨l, rfl⟩ : ∃ l, L = l + 1 := ⟨L - 1, by omega⟩
    have e1 : (((l + 1 : ℕ) : ℤ) - 1) = (l : ℤ) := by push_cast; ring
    have e2 : (l : ℤ) + 1 = ((l + 1 : ℕ) : ℤ) := by push_cast; ring
    rw [e1, e2, zpow_natCast, zpow_natCast, le_div_iff₀ hDq, div_lt_iff₀ hDq]
    have g1 : 10 ^ l * D ≤ N := (Nat.le_div_iff_mul_le hD).1 (by simpa using h1)
    have g2 : N < 10 ^ (l + 1) * D := (Nat.div_lt_iff_lt_mul hD).1 h2
    exact ⟨by exact_mod_cast g1, by exact_mod_cast g2⟩
  · next h =>
    have hq : 0 < (D - 1) / N := Nat.div_pos (by omega) hN
    obtain ⟨h1, h2, h3⟩ := decNat_bounds hq
    generalize (decNat ((D - 1) / N)).length = L at *
    obtain ⟨l, rfl⟩ : ∃ l, L = l + 1 := ⟨L - 1, by omega⟩
    have e1 : -((l + 1 : ℕ) : ℤ) + 1 = -(l : ℤ) := by push_cast; ring
    rw [e1, zpow_neg, zpow_neg, zpow_natCast, zpow_natCast, le_div_iff₀ hDq, div_lt_iff₀ hDq]
    have g1 : 10 ^ l * N ≤ D - 1 := (Nat.le_div_iff_mul_le hN).1 (by simpa using h1)
    have g2 : D - 1 < 10 ^ (l + 1) * N := (Nat.div_lt_iff_lt_mul hN).1 h2
    have g1' : 10 ^ l * N < D := by omega
    have g2' : D ≤ 10 ^ (l + 1) * N := by omega
    have p1 : (0 : ℚ) < 10 ^ l := by positivity
    have p2 : (0 : ℚ) < 10 ^ (l + 1) := by positivity
    constructor
    · rw [inv_mul_le_iff₀ p2]; exact_mod_cast g2'
    · rw [lt_inv_mul_iff₀ p1]; exact_mod_cast g1'

theorem nearest_le {k n : Nat} {v : ℚ} (h : Nearest k v) (hn : (n : ℚ) ≤ v) : n ≤ k := by
  by_contra hlt
  have h1 : (k : ℚ) + 1 ≤ n := by exact_mod_cast (by omega : k + 1 ≤ n)
  have := (abs_le.1 h.1).1
  linarith

theorem nearest_ge {k n : Nat} {v : ℚ} (h : Nearest k v) (hn : v ≤ n) : k ≤ n := by
  by_contra hlt
  have h1 : (n : ℚ) + 1 ≤ k := by exact_mod_cast (by omega : n + 1 ≤ k)
  have := (abs_le.1 h.1).2
  linarith

theorem exponentText_spec (e : Int) : ExponentText e (exponentText e) := by
  have h := decNat_numeral e.natAbs
  by_cases hs : e.natAbs < 10
  · refine ⟨48 :: decNat e.natAbs, ⟨by simp, ?_⟩, ?_, ?_, ?_, ?_⟩
    · intro b hb
      rcases List.mem_cons.1 hb with rfl | hb
      · exact ⟨by decide, by decide⟩
      · exact h.1.2 b hb
    · simp only [digitsVal]
      rw [h.2.1]
      simp
    · have := List.length_pos_of_ne_nil h.1.1
      simp; omega
    · intro h2
      have : ∀ i : Fin 10, (decNat i.val).length = 1 := by decide +kernel
      have := this ⟨e.natAbs, hs⟩
      dsimp only at this
      simp only [List.length_cons] at h2
      omega
    · unfold exponentText; rw [if_pos hs]
  · refine ⟨decNat e.natAbs, h.1, h.2.1, ?_, ?_, ?_⟩
    · obtain ⟨-, b, -⟩ := decNat_bounds (show 0 < e.natAbs by omega)
      by_contra hlt
      have : 10 ^ (decNat e.natAbs).length ≤ 10 ^ 1 := Nat.pow_le_pow_right (by norm_num) (by omega)
      omega
    · intro _ h1
      have h2 := h.2.2 h1
      have h3 := h.2.1
      rw [h2] at h3
      have : digitsVal [48] = 0 := by decide +kernel
      omega
    · unfold exponentText; rw [if_neg hs]

/-- What is printed in scientific notation shows the number rounded to `p + 1` significant digits. -/
theorem goScience_shows {x : Float} (hx : FFin x) (h0 : fval x ≠ 0) (p : Nat) :
    ShowsScience p (fval x) (goScience p x) := by
  obtain ⟨neg, N, D, hp, hD, hv⟩ := floatParts_spec hx
  have hDq : (0 : ℚ) < D := by exact_mod_cast hD
  have hN : 0 < N := by
    rcases Nat.eq_zero_or_pos N with rfl | h
    · exact absurd (by rw [hv]; simp) h0
    · exact h
  have hNq : (0 : ℚ) < N := by exact_mod_cast hN
  have hq : (0 : ℚ) < (N : ℚ) / D := by positivity
  have habs : |fval x| = (N : ℚ) / D := by
    rw [hv, abs_mul, abs_of_pos hq]
    cases neg <;> simp
  have hneg : (if neg then [45] else [] : Bytes) = if fval x < 0 then [45] else [] := by
    cases neg
    · rw [if_neg (by simp), if_neg]
      rw [hv]; simp; linarith
    · rw [if_pos rfl, if_pos]
      rw [hv]; simp; linarith
  obtain ⟨e1, e2⟩ := exponent10_spec hN hD
  have hscale : ((N * 10 ^ ((p : ℤ) - exponent10 N D).toNat : ℕ) : ℚ) / ((D * 10 ^ (exponent10 N D - p).toNat : ℕ) : ℚ)
      = |fval x| * 10 ^ ((p : ℤ) - exponent10 N D) := by
    rw [habs]
    generalize exponent10 N D = e
    rcases le_total e (p : ℤ) with h | h
    · obtain ⟨n, hn⟩ := Int.eq_ofNat_of_zero_le (show 0 ≤ (p : ℤ) - e by omega)
      rw [show (e - p).toNat = 0 by omega, hn]
      simp
      ring
    · obtain ⟨n, hn⟩ := Int.eq_ofNat_of_zero_le (show 0 ≤ e - (p : ℤ) by omega)
      rw [show ((p : ℤ) - e).toNat = 0 by omega, hn, show (p : ℤ) - e = -(n : ℤ) by omega]
      simp
      field_simp
  have hnear := halfEven_nearest (N * 10 ^ ((p : ℤ) - exponent10 N D).toNat) (D * 10 ^ (exponent10 N D - p).toNat)
    (Nat.mul_pos hD (Nat.pow_pos (by norm_num)))
  rw [hscale] at hnear
  have pz : (0 : ℚ) < 10 ^ ((p : ℤ) - exponent10 N D) := by positivity
  have hlo : ((10 ^ p : ℕ) : ℚ) ≤ |fval x| * 10 ^ ((p : ℤ) - exponent10 N D) := by
    have : (10 : ℚ) ^ exponent10 N D * 10 ^ ((p : ℤ) - exponent10 N D) = ((10 ^ p : ℕ) : ℚ) := by
      rw [← zpow_add₀ (by norm_num)]; push_cast; rw [← zpow_natCast]; congr 1; ring
    rw [← this, habs]
    gcongr
  have hhi : |fval x| * 10 ^ ((p : ℤ) - exponent10 N D) ≤ ((10 ^ (p + 1) : ℕ) : ℚ) := by
    have : (10 : ℚ) ^ (exponent10 N D + 1) * 10 ^ ((p : ℤ) - exponent10 N D) = ((10 ^ (p + 1) : ℕ) : ℚ) := by
      rw [← zpow_add₀ (by norm_num)]; push_cast; rw [← zpow_natCast]; congr 1; push_cast; ring
    rw [← this, habs]
    gcongr
  have k1 := nearest_le hnear hlo
  have k2 := nearest_ge hnear hhi
  unfold goScience
  rw [hp]
  simp only [if_neg (show ¬ N = 0 by omega)]
  rw [hneg]
  by_cases hk : halfEven (N * 10 ^ ((p : ℤ) - exponent10 N D).toNat) (D * 10 ^ (exponent10 N D - p).toNat) = 10 ^ (p + 1)
  · rw [if_pos hk]
    obtain ⟨whole, frac, hd, ht⟩ := pointed_decimals p (10 ^ p)
    refine ⟨_, whole, frac, _, exponent10 N D + 1, 10 ^ p, rfl, hd, le_refl _,
      Nat.pow_lt_pow_right (by norm_num) (by omega), exponentText_spec _, by rw [ht]; simp, .inr ⟨?_, ?_, rfl, ?_⟩⟩
    · rw [habs, add_sub_cancel_right]; exact e1
    · rw [habs]; exact e2
    · rw [hk] at hnear
      rw [add_sub_cancel_right]; exact hnear
  · rw [if_neg hk]
    obtain ⟨whole, frac, hd, ht⟩ := pointed_decimals p
      (halfEven (N * 10 ^ ((p : ℤ) - exponent10 N D).toNat) (D * 10 ^ (exponent10 N D - p).toNat))
    refine ⟨_, whole, frac, _, exponent10 N D, _, rfl, hd, k1, lt_of_le_of_ne k2 hk, exponentText_spec _,
      by rw [ht]; simp, .inl ⟨?_, ?_, hnear⟩⟩
    · rw [habs]; exact e1
    · rw [habs]; exact e2

end Grate
