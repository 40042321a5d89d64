import Verif.Lemmas.GoShortText

/-! # Shortest printing: reading back, six digits, and the lengths of the texts -/

namespace Grate

open Spec Grate.F64 Float.Model Float.Model.UnpackedFloat

/-- The sign of what is printed. -/
theorem sign_text (s : Sign) {v : ℚ} (hv : 0 < v) :
    (if isNegative s = true then [45] else [] : Bytes) = if sgn s * v < 0 then [45] else [] := by
  have h := (sgn_neg_iff s hv).1
  by_cases hn : isNegative s = true
  · rw [if_pos hn, if_pos (h.2 hn)]
  · rw [if_neg hn, if_neg (fun g => hn (h.1 g))]

theorem decNat_length_le {k n : ℕ} (hn : 0 < n) (hk : k < 10 ^ n) : (decNat k).length ≤ n := by
  rcases Nat.eq_zero_or_pos k with rfl | h0
  · have : (decNat 0).length = 1 := by decide +kernel
    omega
  · obtain ⟨b1, b2, b3⟩ := decNat_bounds h0
    by_contra h
    have := Nat.pow_le_pow_right (show 0 < 10 by norm_num) (show n ≤ (decNat k).length - 1 by omega)
    omega

/-- Where the numbers of a cell are. -/
theorem cell_range {m : ℕ} {e : ℤ} (hm : 0 < m) (hc : Canon' m e) (he : e ≤ 971) {v : ℚ} (h : InCell v m e) :
    v < floatLimit ∧ (2 : ℚ) ^ (-1075 : ℤ) ≤ v := by
  obtain ⟨c1, c2, c3⟩ := hc
  constructor
  · have hle : (2 : ℚ) ^ e ≤ 2 ^ (971 : ℤ) := zpow_le_zpow_right₀ (by norm_num) he
    have p := two_zpow_pos e
    have hlim : floatLimit = (2 ^ 53 - 1 / 2) * (2 : ℚ) ^ (971 : ℤ) := by
      unfold floatLimit
      have e1 : (2 : ℚ) ^ (971 : ℤ) = 2 * 2 ^ 970 := by
        rw [two_pow_lit 971 971 rfl, pow_succ]; ring
      have e2 : (2 : ℚ) ^ 1024 = 2 ^ 54 * 2 ^ 970 := by rw [← pow_add]
      rw [e1, e2]
      generalize (2 : ℚ) ^ 970 = y
      ring
    rw [hlim]
    have hhi := h.hi
    have htie := h.hiTie
    generalize (2 : ℚ) ^ (971 : ℤ) = y at *
    generalize (2 : ℚ) ^ e = z at *
    have hm1 : m ≤ 2 ^ 53 - 1 := by omega
    have hmq : (m : ℚ) ≤ 2 ^ 53 - 1 := by
      have : ((m : ℕ) : ℚ) ≤ ((2 ^ 53 - 1 : ℕ) : ℚ) := by exact_mod_cast hm1
      refine le_trans this (le_of_eq ?_)
      norm_num
    have a1 : ((m : ℚ) + 1 / 2) * z ≤ (2 ^ 53 - 1 / 2) * z := mul_le_mul_of_nonneg_right (by linarith) p.le
    have a2 : ((2 : ℚ) ^ 53 - 1 / 2) * z ≤ (2 ^ 53 - 1 / 2) * y := mul_le_mul_of_nonneg_left hle (by norm_num)
    refine lt_of_le_of_ne (le_trans hhi (le_trans a1 a2)) fun hv => ?_
    have b1 : v = (m + 1 / 2) * z := le_antisymm hhi (by linarith)
    have b2 := htie b1
    have b3 : ((m : ℚ) + 1 / 2) * z = (2 ^ 53 - 1 / 2) * z := le_antisymm a1 (by linarith)
    have b4 := mul_right_cancel₀ p.ne' b3
    have b5 : (m : ℚ) = ((2 ^ 53 - 1 : ℕ) : ℚ) := by
      have : ((2 ^ 53 - 1 : ℕ) : ℚ) = 2 ^ 53 - 1 := by norm_num
      rw [this]; linarith
    have b6 : m = 2 ^ 53 - 1 := by exact_mod_cast b5
    rw [b6] at b2
    revert b2; decide
  · have p := two_zpow_pos e
    have hle : (2 : ℚ) ^ (-1074 : ℤ) ≤ 2 ^ e := zpow_le_zpow_right₀ (by norm_num) c2
    have e1 : (2 : ℚ) ^ (-1074 : ℤ) = 2 * 2 ^ (-1075 : ℤ) := by
      rw [show (-1074 : ℤ) = -1075 + 1 by norm_num, zpow_add_one₀ (by norm_num)]; ring
    have hmq : (1 : ℚ) ≤ m := by exact_mod_cast hm
    have := mul_le_mul_of_nonneg_right hmq p.le
    have h1 := h.lo
    linarith

theorem two_le_ten (n : ℕ) : (2 : ℚ) ^ n ≤ 10 ^ n := pow_le_pow_left₀ (by norm_num) (by norm_num) n

/-- The exponents that are printed are small. -/
theorem exponent_small {k : ℕ} {j : ℤ} (hk : 0 < k) (hk' : k < 10 ^ 17) (h1 : (k : ℚ) * 10 ^ j < 2 * floatLimit)
    (h2 : (2 : ℚ) ^ (-1076 : ℤ) ≤ k * 10 ^ j) : (((decNat k).length : ℤ) + j - 1).natAbs < 100000 := by
  obtain ⟨b1, b2, b3⟩ := decNat_bounds hk
  have hL := decNat_length_le (by norm_num) hk'
  have hkq : (1 : ℚ) ≤ k := by exact_mod_cast hk
  have hkq' : (k : ℚ) ≤ 10 ^ 17 := by exact_mod_cast hk'.le
  have pj : (0 : ℚ) < 10 ^ j := by positivity
  have j1 : j < 1025 := by
    have hlim : 2 * floatLimit ≤ (2 : ℚ) ^ 1025 := by
      unfold floatLimit
      have e1 : (2 : ℚ) ^ 1025 = 2 * 2 ^ 1024 := by rw [pow_succ]; ring
      have : (0 : ℚ) < 2 ^ 970 := by positivity
      rw [e1]
      generalize (2 : ℚ) ^ 970 = y at *
      generalize (2 : ℚ) ^ 1024 = z at *
      linarith
    have a1 : (10 : ℚ) ^ j < 10 ^ (1025 : ℤ) := by
      calc (10 : ℚ) ^ j ≤ k * 10 ^ j := le_mul_of_one_le_left pj.le hkq
        _ < 2 * floatLimit := h1
        _ ≤ 2 ^ 1025 := hlim
        _ ≤ 10 ^ 1025 := two_le_ten _
        _ = 10 ^ (1025 : ℤ) := by rw [← zpow_natCast]; rfl
    exact (zpow_lt_zpow_iff_right₀ (by norm_num : (1 : ℚ) < 10)).1 a1
  have j2 : -1076 ≤ 17 + j := by
    have a1 : (10 : ℚ) ^ (-1076 : ℤ) ≤ 10 ^ (17 + j) := by
      calc (10 : ℚ) ^ (-1076 : ℤ) ≤ 2 ^ (-1076 : ℤ) := by
            rw [zpow_neg, zpow_neg]
            apply inv_anti₀ (by positivity)
            have := two_le_ten 1076
            rw [← zpow_natCast, ← zpow_natCast] at this
            exact this
        _ ≤ k * 10 ^ j := h2
        _ ≤ 10 ^ 17 * 10 ^ j := mul_le_mul_of_nonneg_right hkq' pj.le
        _ = 10 ^ (17 + j) := by rw [zpow_add₀ (by norm_num)]; rfl
    exact (zpow_le_zpow_iff_right₀ (by norm_num : (1 : ℚ) < 10)).1 a1
  omega

/-- All the digits, without exponent: a number that is read as the float. -/
theorem goShortF_reads {x : Float} (hx : FFin x) (h0 : fval x ≠ 0) : ∃ q, PlainDecimal q (goShortF x) ∧
    NearestFloat q x ∧ |q| < floatLimit := by
  obtain ⟨s, m, e, h, k, j, hu, hc, he, hp, hk, hk10, -, hcell, hnear⟩ := shortParts_spec hx h0
  have hv := cell_pos h hcell
  have hab := (sgn_neg_iff s hv).2
  refine ⟨_, ?_, hnear, by rw [hab]; exact (cell_range h hc he hcell).1⟩
  unfold goShortF
  rw [hp]
  simp only
  rw [sign_text s hv]
  exact plainText_plain j hk hk10 hab

theorem generalText_decimal (ep : ℕ) {k : ℕ} {j : ℤ} (hk : 0 < k) (hk10 : k % 10 ≠ 0) {q : ℚ} (hq : |q| = k * 10 ^ j)
    (hs : (((decNat k).length : ℤ) + j - 1).natAbs < 100000) :
    ∃ e, DecimalText ((if q < 0 then [45] else []) ++ generalText ep k j) e q ∧ e.natAbs < 100000 := by
  unfold generalText
  simp only
  by_cases hc : ((decNat k).length : ℤ) + j - 1 < -4 ∨ (ep : ℤ) ≤ (decNat k).length + j - 1
  · rw [if_pos hc]
    exact ⟨_, sciText_decimal j hk hq, hs⟩
  · rw [if_neg hc]
    exact ⟨0, plain_decimal (plainText_plain j hk hk10 hq), by norm_num⟩

/-- All the digits, with or without exponent. -/
theorem goShortG_reads {x : Float} (hx : FFin x) (h0 : fval x ≠ 0) : ∃ e q, DecimalText (goShortG x) e q ∧
    e.natAbs < 100000 ∧ NearestFloat q x ∧ |q| < floatLimit := by
  obtain ⟨s, m, e, h, k, j, hu, hc, he, hp, hk, hk10, hk17, hcell, hnear⟩ := shortParts_spec hx h0
  have hv := cell_pos h hcell
  have hab := (sgn_neg_iff s hv).2
  obtain ⟨r1, r2⟩ := cell_range h hc he hcell
  have hs : (((decNat k).length : ℤ) + j - 1).natAbs < 100000 := by
    refine exponent_small hk hk17 (by linarith) (le_trans ?_ r2)
    exact zpow_le_zpow_right₀ (by norm_num) (by norm_num)
  obtain ⟨e', g1, g2⟩ := generalText_decimal 6 hk hk10 hab hs
  refine ⟨e', _, ?_, g2, hnear, by rw [hab]; exact r1⟩
  unfold goShortG
  rw [hp]
  simp only
  rw [sign_text s hv]
  exact g1

/-! ### Six digits -/

theorem sixDigits_spec {m : ℕ} {e : ℤ} (hm : 0 < m) : ∃ (k : ℕ) (j : ℤ), sixDigits m e = (k, j) ∧ 10 ^ 5 ≤ k ∧ k ≤ 10 ^ 6 ∧
    |(k : ℚ) * 10 ^ j - m * 2 ^ e| ≤ 5 / 10 ^ 6 * (m * 2 ^ e) ∧ (10 : ℚ) ^ (j + 5) ≤ m * 2 ^ e ∧ (m : ℚ) * 2 ^ e < 10 ^ (j + 6) := by
  unfold sixDigits
  simp only
  have hN : 0 < m * 2 ^ e.toNat := by positivity
  have hD : 0 < 2 ^ (-e).toNat := by positivity
  obtain ⟨x1, x2⟩ := exponent10_spec hN hD
  have hval : ((m * 2 ^ e.toNat : ℕ) : ℚ) / ((2 ^ (-e).toNat : ℕ) : ℚ) = m * 2 ^ e := by
    rcases le_total 0 e with he | he
    · obtain ⟨n, rfl⟩ := Int.eq_ofNat_of_zero_le he
      simp
    · obtain ⟨n, hn⟩ := Int.eq_ofNat_of_zero_le (show 0 ≤ -e by omega)
      rw [show e = -(n : ℤ) by omega]
      simp [div_eq_mul_inv]
  have hsc := scaled_val (m * 2 ^ e.toNat) (2 ^ (-e).toNat) (exponent10 (m * 2 ^ e.toNat) (2 ^ (-e).toNat) - 5)
  rw [hval] at x1 x2 hsc
  generalize exponent10 (m * 2 ^ e.toNat) (2 ^ (-e).toNat) = E at *
  obtain ⟨j, rfl⟩ : ∃ j, E = j + 5 := ⟨E - 5, by ring⟩
  rw [show j + 5 - 5 = j by ring] at *
  rw [show j + 5 + 1 = j + 6 by ring] at *
  generalize m * 2 ^ e.toNat * 10 ^ (-j).toNat = A at *
  have hB : 0 < 2 ^ (-e).toNat * 10 ^ j.toNat := by positivity
  generalize 2 ^ (-e).toNat * 10 ^ j.toNat = B at *
  have hnear := (halfEven_nearest A B hB).1
  rw [hsc] at hnear
  have pj : (0 : ℚ) < 10 ^ j := by positivity
  have q1 : (10 : ℚ) ^ (j + 5) = 10 ^ 5 * 10 ^ j := by rw [zpow_add₀ (by norm_num), mul_comm]; rfl
  have q2 : (10 : ℚ) ^ (j + 6) = 10 ^ 6 * 10 ^ j := by rw [zpow_add₀ (by norm_num), mul_comm]; rfl
  refine ⟨_, _, rfl, ?_, ?_, ?_, x1, x2⟩
  · by_contra hk
    have : ((halfEven A B : ℕ) : ℚ) + 1 ≤ 10 ^ 5 := by exact_mod_cast (show halfEven A B + 1 ≤ 10 ^ 5 by omega)
    rw [q1] at x1
    have h5 : (10 : ℚ) ^ 5 ≤ (m : ℚ) * 2 ^ e / 10 ^ j := by rw [le_div_iff₀ pj]; exact x1
    rw [abs_le] at hnear
    linarith [hnear.1]
  · by_contra hk
    have : (10 : ℚ) ^ 6 + 1 ≤ ((halfEven A B : ℕ) : ℚ) := by exact_mod_cast (show 10 ^ 6 + 1 ≤ halfEven A B by omega)
    rw [q2] at x2
    have h5 : (m : ℚ) * 2 ^ e / 10 ^ j < 10 ^ 6 := by rw [div_lt_iff₀ pj]; exact x2
    rw [abs_le] at hnear
    linarith [hnear.2]
  · generalize (m : ℚ) * 2 ^ e = v at *
    have e1 : ((halfEven A B : ℕ) : ℚ) * 10 ^ j - v = (((halfEven A B : ℕ) : ℚ) - v / 10 ^ j) * 10 ^ j := by
      field_simp
    rw [e1, abs_mul, abs_of_pos pj]
    have := mul_le_mul_of_nonneg_right hnear pj.le
    rw [q1] at x1
    linarith

/-- The digits of `%.6g`. -/
theorem shortParts_six {x : Float} (hx : FFin x) (h0 : fval x ≠ 0) : ∃ s k j, shortParts sixDigits x = .inl (isNegative s, k, j) ∧
    0 < k ∧ k % 10 ≠ 0 ∧ k < 10 ^ 6 ∧ |sgn s * ((k : ℚ) * 10 ^ j) - fval x| ≤ 5 / 10 ^ 6 * |fval x| ∧
    (((decNat k).length : ℤ) + j - 1).natAbs < 100000 ∧
    ((10 : ℚ) ^ (-99 : ℤ) ≤ |fval x| → |fval x| < 10 ^ (99 : ℤ) → (((decNat k).length : ℤ) + j - 1).natAbs < 100) ∧
    (0 < fval x → isNegative s = false) := by
  obtain ⟨s, m, e, h, hu, hc, he, hv⟩ := finite_unpack hx h0
  have pv : (0 : ℚ) < m * 2 ^ e := mul_pos (by exact_mod_cast h) (two_zpow_pos e)
  obtain ⟨sg, hab⟩ := sgn_neg_iff s pv
  obtain ⟨k, j, hk, b1, b2, hnear, x1, x2⟩ := sixDigits_spec (m := m) (e := e) h
  have hk0 : 0 < k := lt_of_lt_of_le (by norm_num) b1
  obtain ⟨s1, s2, s3, s4⟩ := stripZeros_spec 20 k j hk0 (lt_of_le_of_lt b2 (by norm_num))
  have hlt : (stripZeros 20 k j).1 < 10 ^ 6 := by
    rcases Nat.lt_or_ge (stripZeros 20 k j).1 (10 ^ 6) with g | g
    · exact g
    · exfalso
      apply s2
      rw [show (stripZeros 20 k j).1 = 10 ^ 6 by omega]
      norm_num
  have hparts : shortParts sixDigits x = .inl (isNegative s, stripZeros 20 k j) := by
    unfold shortParts
    rw [hu]
    simp only [hk]
  generalize stripZeros 20 k j = r at *
  obtain ⟨k', j'⟩ := r
  simp only at s1 s2 s3 s4 hlt
  have hcell := self_cell m e
  obtain ⟨r1, r2⟩ := cell_range h hc he hcell
  rw [abs_le] at hnear
  have hexp : ∀ a b : ℤ, (10 : ℚ) ^ a ≤ m * 2 ^ e → (m : ℚ) * 2 ^ e < 10 ^ b → a ≤ ((decNat k').length : ℤ) + j' - 1 ∧
      ((decNat k').length : ℤ) + j' - 1 ≤ b := by
    intro a b ha hb
    have ha' : a < j + 6 := (zpow_lt_zpow_iff_right₀ (by norm_num : (1 : ℚ) < 10)).1 (lt_of_le_of_lt ha x2)
    have hb' : j + 5 < b := (zpow_lt_zpow_iff_right₀ (by norm_num : (1 : ℚ) < 10)).1 (lt_of_le_of_lt x1 hb)
    obtain ⟨c1, c2, c3⟩ := decNat_bounds s3
    generalize (decNat k').length = L at *
    have pj : (0 : ℚ) < 10 ^ j := by positivity
    have pj' : (0 : ℚ) < 10 ^ j' := by positivity
    have d1 : (10 : ℚ) ^ (L - 1 : ℕ) ≤ k' := by exact_mod_cast c1
    have d2 : (k' : ℚ) < 10 ^ L := by exact_mod_cast c2
    have d3 : (10 ^ 5 : ℚ) ≤ k := by exact_mod_cast b1
    have d4 : (k : ℚ) ≤ 10 ^ 6 := by exact_mod_cast b2
    have f1 : (10 : ℚ) ^ ((L : ℤ) + j' - 1) ≤ k * 10 ^ j := by
      rw [← s1]
      calc (10 : ℚ) ^ ((L : ℤ) + j' - 1) = 10 ^ (L - 1 : ℕ) * 10 ^ j' := by
            rw [← zpow_natCast, ← zpow_add₀ (by norm_num)]; congr 1; omega
        _ ≤ _ := mul_le_mul_of_nonneg_right d1 pj'.le
    have f2 : (k : ℚ) * 10 ^ j < 10 ^ ((L : ℤ) + j') := by
      rw [← s1, zpow_add₀ (by norm_num), zpow_natCast]
      exact mul_lt_mul_of_pos_right d2 pj'
    have f3 : (10 : ℚ) ^ (j + 5) ≤ k * 10 ^ j := by
      rw [zpow_add₀ (by norm_num), mul_comm]
      exact mul_le_mul_of_nonneg_right d3 pj.le
    have f4 : (k : ℚ) * 10 ^ j ≤ 10 ^ (j + 6) := by
      rw [zpow_add₀ (by norm_num), mul_comm ((10 : ℚ) ^ j)]
      exact mul_le_mul_of_nonneg_right d4 pj.le
    have i1 := (zpow_le_zpow_iff_right₀ (by norm_num : (1 : ℚ) < 10)).1 (le_trans f1 f4)
    have i2 := (zpow_lt_zpow_iff_right₀ (by norm_num : (1 : ℚ) < 10)).1 (lt_of_le_of_lt f3 f2)
    omega
  refine ⟨s, k', j', hparts, s3, s2, hlt, ?_, ?_, ?_, ?_⟩
  · rw [hv, hab, s1]
    have : sgn s * ((k : ℚ) * 10 ^ j) - sgn s * (m * 2 ^ e) = sgn s * (k * 10 ^ j - m * 2 ^ e) := by ring
    rw [this, abs_mul]
    have hs1 : |sgn s| = 1 := by cases s <;> simp [sgn]
    rw [hs1, one_mul, abs_le]
    exact hnear
  · refine exponent_small s3 (lt_trans hlt (by norm_num)) ?_ ?_
    · rw [s1]; linarith [hnear.2]
    · rw [s1]
      have : (2 : ℚ) ^ (-1075 : ℤ) = 2 * 2 ^ (-1076 : ℤ) := by
        rw [show (-1075 : ℤ) = -1076 + 1 by norm_num, zpow_add_one₀ (by norm_num)]; ring
      rw [this] at r2
      linarith [hnear.1]
  · intro g1 g2
    rw [hv, hab] at g1 g2
    have := hexp (-99) 99 g1 g2
    omega
  · intro g
    rw [hv] at g
    rw [← Bool.not_eq_true]
    intro hn
    have := sg.2 hn
    linarith

/-- Six digits: a number close to the float. -/
theorem goSix_close {x : Float} (hx : FFin x) (h0 : fval x ≠ 0) : ∃ e q, DecimalText (goSix x) e q ∧
    e.natAbs < 100000 ∧ |q - fval x| ≤ 5 / 10 ^ 6 * |fval x| := by
  obtain ⟨s, k, j, hp, hk, hk10, -, hnear, hs, -, -⟩ := shortParts_six hx h0
  have hv : (0 : ℚ) < k * 10 ^ j := by positivity
  have hab := (sgn_neg_iff s hv).2
  obtain ⟨e', g1, g2⟩ := generalText_decimal (if (decNat k).length < 6 ∧ j ≤ 0 then (decNat k).length else 6) hk hk10 hab hs
  refine ⟨e', _, ?_, g2, hnear⟩
  unfold goSix
  rw [hp]
  simp only
  rw [sign_text s hv]
  exact g1

theorem exponentText_length {e : ℤ} (h : e.natAbs < 100) : (exponentText e).length = 3 := by
  have key : ∀ n : ℕ, n < 100 → (exponentText (n : ℤ)).length = 3 ∧ (exponentText (-(n : ℤ))).length = 3 := by decide +kernel
  obtain ⟨k1, k2⟩ := key e.natAbs h
  rcases le_total 0 e with he | he
  · rw [show ((e.natAbs : ℕ) : ℤ) = e by omega] at k1; exact k1
  · rw [show -((e.natAbs : ℕ) : ℤ) = e by omega] at k2; exact k2

/-- Six digits take at most eleven bytes, if the exponent has two digits. -/
theorem generalText_length {ep : ℕ} (hep : ep ≤ 6) {k : ℕ} {j : ℤ} (hk : 0 < k) (hk6 : k < 10 ^ 6)
    (hs : (((decNat k).length : ℤ) + j - 1).natAbs < 100) : (generalText ep k j).length ≤ 11 := by
  obtain ⟨b1, b2, b3⟩ := decNat_bounds hk
  have hL := decNat_length_le (by norm_num) hk6
  unfold generalText sciText plainText
  simp only
  generalize hnd : (decNat k).length = nd at *
  split
  · simp only [List.length_append, List.length_cons, exponentText_length hs]
    have h1 : (decNat (k / 10 ^ (nd - 1))).length ≤ 1 := by
      refine decNat_length_le (by norm_num) ?_
      rw [Nat.div_lt_iff_lt_mul (by positivity), ← Nat.pow_add, show 1 + (nd - 1) = nd by omega]
      exact b2
    have h2 := (lowDigits_spec (nd - 1) k).1
    unfold pointed
    split
    · simp only [List.length_append, List.length_nil]; omega
    · simp only [List.length_append, List.length_cons, h2]; omega
  · rename_i hr
    split
    · simp only [List.length_append, List.length_replicate, hnd]; omega
    · have h2 := (lowDigits_spec (-j).toNat k).1
      unfold pointed
      rw [if_neg (by omega)]
      simp only [List.length_append, List.length_cons, h2]
      rcases Nat.lt_or_ge (-j).toNat nd with hj | hj
      · have h1 : (decNat (k / 10 ^ (-j).toNat)).length ≤ nd - (-j).toNat := by
          refine decNat_length_le (by omega) ?_
          rw [Nat.div_lt_iff_lt_mul (by positivity), ← Nat.pow_add, show nd - (-j).toNat + (-j).toNat = nd by omega]
          exact b2
        omega
      · have h1 : (decNat (k / 10 ^ (-j).toNat)).length ≤ 1 := by
          refine decNat_length_le (by norm_num) ?_
          rw [Nat.div_lt_iff_lt_mul (by positivity), ← Nat.pow_add]
          exact lt_of_lt_of_le b2 (Nat.pow_le_pow_right (by norm_num) (by omega))
        omega

theorem goSix_length {x : Float} (hx : FFin x) (h1 : (10 : ℚ) ^ (-99 : ℤ) ≤ fval x) (h2 : fval x < 10 ^ (99 : ℤ)) :
    (goSix x).length ≤ 11 := by
  have pos : 0 < fval x := lt_of_lt_of_le (by positivity) h1
  obtain ⟨s, k, j, hp, hk, hk10, hk6, -, -, hs, hneg⟩ := shortParts_six hx pos.ne'
  rw [abs_of_pos pos] at hs
  unfold goSix
  rw [hp]
  simp only [hneg pos, Bool.false_eq_true, if_false, List.nil_append]
  refine generalText_length ?_ hk hk6 (hs h1 h2)
  split <;> omega

/-! ### The float nearest to a short decimal -/

theorem nearest_unpack {x : Float} {neg : Bool} {n : ℕ} {e : ℤ} (hlt : (n : ℚ) * 10 ^ e < floatLimit)
    (hx : NearestFloat ((if neg then -1 else 1) * ((n : ℚ) * 10 ^ e)) x) (h0 : fval x ≠ 0) :
    ∃ m E h, x.toModel.unpack = .finite (signOf neg) m E h ∧ InCell ((n : ℚ) * 10 ^ e) m E := by
  obtain ⟨M, E, hc, hv, hf, -⟩ := decFloat_cell neg n e
  have hu := hf hlt
  have hval := nearestFloat_unique hx (decFloat_nearest neg n e hlt)
  obtain ⟨s, m, e', h, hu', hc', he', hv'⟩ := finite_unpack hx.1 h0
  have hM : 0 < M := by
    rcases Nat.eq_zero_or_pos M with rfl | h
    · exfalso
      apply h0
      rw [hval]
      unfold fval
      rw [hu, uval_mkFin]; simp
    · exact h
  have e1 : UnpackedFloat.finite s m e' h = .finite (signOf neg) M E hM := by
    rw [mkFin_pos hM] at hu
    have c1 := model_canon x.toModel
    have c2 := model_canon (decFloat neg n e).toModel
    rw [hu'] at c1
    rw [hu] at c2
    refine canon_unique c1 c2 ?_
    have a1 : uval x.toModel.unpack = uval (decFloat neg n e).toModel.unpack := hval
    rw [hu', hu] at a1
    exact a1
  rw [e1] at hu'
  exact ⟨M, E, hM, hu', hv⟩

/-- Decimals of normal size: the mantissa is full. -/
theorem cell_normal {v : ℚ} {m : ℕ} {e : ℤ} (hc : Canon' m e) (hv : InCell v m e) (h : (2 : ℚ) ^ (-1000 : ℤ) ≤ v) : 2 ^ 52 ≤ m := by
  rcases hc.2.2 with h1 | h1
  · exact h1
  · exfalso
    have h2 := hv.hi
    rw [h1] at h2
    have h3 : (m : ℚ) ≤ 2 ^ 53 := by exact_mod_cast hc.1.le
    have e1 : (2 : ℚ) ^ (-1000 : ℤ) = 2 ^ (74 : ℕ) * 2 ^ (-1074 : ℤ) := by
      rw [← zpow_natCast, ← zpow_add₀ (by norm_num)]; norm_num
    rw [e1] at h
    have p := two_zpow_pos (-1074)
    generalize (2 : ℚ) ^ (-1074 : ℤ) = y at *
    have h4 := mul_le_mul_of_nonneg_right h3 p.le
    have h5 := le_trans h h2
    have h6 : (2 : ℚ) ^ 74 ≤ m + 1 / 2 := le_of_mul_le_mul_right h5 p
    have h7 : (2 : ℚ) ^ 74 ≤ 2 ^ 53 + 1 / 2 := by linarith
    norm_num at h7

/-- A plain decimal as digits and a power of ten. -/
theorem plain_parts {q : ℚ} {s : Bytes} (h : PlainDecimal q s) : ∃ (n d : ℕ), |q| = n * 10 ^ (-(d : ℤ)) ∧
    n < 10 ^ s.length ∧ d ≤ s.length ∧ (q < 0 → n < 10 ^ (s.length - 1)) := by
  obtain ⟨whole, frac, n, hw, hf, -, rfl, hq⟩ := h
  have hlt : digitsVal (whole ++ frac) < 10 ^ (whole ++ frac).length := by
    apply Xlsx.digitsVal_lt
    intro b hb
    rcases List.mem_append.1 hb with hb | hb
    · exact hw.1.2 b hb
    · exact hf b hb
  have hlen : (whole ++ frac).length ≤ (whole ++ if frac = [] then [] else 46 :: frac).length := by
    split
    · rename_i h; rw [h]
    · simp
  have hlen2 : ((if q < 0 then [45] else []) ++ whole ++ if frac = [] then [] else 46 :: frac).length =
      (if q < 0 then 1 else 0) + (whole ++ if frac = [] then [] else 46 :: frac).length := by
    rw [List.append_assoc, List.length_append]
    split <;> rfl
  rw [hlen2]
  refine ⟨digitsVal (whole ++ frac), frac.length, ?_, ?_, ?_, ?_⟩
  · rw [← hq, zpow_neg, zpow_natCast, mul_assoc, mul_inv_cancel₀ (by positivity), mul_one]
  · exact lt_of_lt_of_le hlt (Nat.pow_le_pow_right (by norm_num) (by omega))
  · rw [List.length_append] at hlen; omega
  · intro hn
    rw [if_pos hn]
    exact lt_of_lt_of_le hlt (Nat.pow_le_pow_right (by norm_num) (by omega))

theorem small_power : (2 : ℚ) ^ (-1000 : ℤ) ≤ 10 ^ (-16 : ℤ) := by
  calc (2 : ℚ) ^ (-1000 : ℤ) ≤ 2 ^ (-64 : ℤ) := zpow_le_zpow_right₀ (by norm_num) (by norm_num)
    _ ≤ 10 ^ (-16 : ℤ) := by norm_num

/-- A plain decimal of at most fifteen characters (and a sign) is what its nearest float is printed as. -/
theorem goShortF_plain {q : ℚ} {s : Bytes} {x : Float} (h : PlainDecimal q s) (hlen : s.length ≤ 15 ∨ (s.length = 16 ∧ q < 0))
    (h0 : q ≠ 0) (hx : NearestFloat q x) : goShortF x = s ∧ fval x ≠ 0 ∧ (fval x < 0 ↔ q < 0) ∧
    ∃ neg k j, shortParts shortestDigits x = .inl (neg, k, j) ∧ 0 < k ∧ (k : ℚ) * 10 ^ j = |q| := by
  obtain ⟨n, d, hab, hn, hd, hnneg⟩ := plain_parts h
  have hn15 : n < 10 ^ 15 := by
    rcases hlen with hl | ⟨hl, hq⟩
    · exact lt_of_lt_of_le hn (Nat.pow_le_pow_right (by norm_num) hl)
    · have := hnneg hq
      rwa [hl] at this
  have hd16 : d ≤ 16 := by omega
  have hpos : 0 < |q| := abs_pos.2 h0
  have hn0 : 0 < n := by
    rcases Nat.eq_zero_or_pos n with rfl | h1
    · rw [hab] at hpos; simp at hpos
    · exact h1
  have hnq : (1 : ℚ) ≤ n := by exact_mod_cast hn0
  have hnq' : (n : ℚ) ≤ 10 ^ 15 := by exact_mod_cast hn15.le
  have hd1 : (10 : ℚ) ^ (-16 : ℤ) ≤ 10 ^ (-(d : ℤ)) := zpow_le_zpow_right₀ (by norm_num) (by omega)
  have hd2 : (10 : ℚ) ^ (-(d : ℤ)) ≤ 1 := zpow_le_one_of_nonpos₀ (by norm_num) (by omega)
  have pd : (0 : ℚ) < 10 ^ (-(d : ℤ)) := by positivity
  have hlow : (10 : ℚ) ^ (-16 : ℤ) ≤ |q| := by
    rw [hab]
    exact le_trans hd1 (le_mul_of_one_le_left pd.le hnq)
  have hhigh : |q| ≤ 10 ^ 15 := by
    rw [hab]
    calc (n : ℚ) * 10 ^ (-(d : ℤ)) ≤ 10 ^ 15 * 1 := mul_le_mul hnq' hd2 pd.le (by norm_num)
      _ = 10 ^ 15 := by ring
  have hlim : (10 : ℚ) ^ 15 < floatLimit := by
    unfold floatLimit
    have e1 : (2 : ℚ) ^ 1024 = 2 ^ 54 * 2 ^ 970 := by rw [← pow_add]
    have e2 : (1 : ℚ) ≤ 2 ^ 970 := one_le_pow₀ (by norm_num)
    rw [e1]
    generalize (2 : ℚ) ^ 970 = y at *
    have e3 : ((2 : ℚ) ^ 54 - 1) * 1 ≤ (2 ^ 54 - 1) * y := mul_le_mul_of_nonneg_left e2 (by norm_num)
    have e4 : (10 : ℚ) ^ 15 < (2 ^ 54 - 1) * 1 := by norm_num
    have e5 : ((2 : ℚ) ^ 54 - 1) * y = 2 ^ 54 * y - y := by ring
    rw [← e5]
    exact lt_of_lt_of_le e4 e3
  have hq : q = (if decide (q < 0) = true then -1 else 1) * ((n : ℚ) * 10 ^ (-(d : ℤ))) := by
    rw [← hab]
    by_cases hneg : q < 0
    · rw [if_pos (decide_eq_true hneg), abs_of_neg hneg]; ring
    · rw [if_neg (by simpa using hneg), abs_of_nonneg (not_lt.1 hneg)]; ring
  have hlt : (n : ℚ) * 10 ^ (-(d : ℤ)) < floatLimit := by rw [← hab]; exact lt_of_le_of_lt hhigh hlim
  -- the float is not zero
  have hx0 : fval x ≠ 0 := by
    intro hz
    obtain ⟨M, E, hc, hv, hf, -⟩ := decFloat_cell (decide (q < 0)) n (-(d : ℤ))
    have hval := nearestFloat_unique hx (by rw [hq]; exact decFloat_nearest _ n (-(d : ℤ)) hlt)
    rw [← hab] at hv
    have hM := cell_normal hc hv (le_trans small_power hlow)
    rw [hz] at hval
    unfold fval at hval
    rw [hf hlt, uval_mkFin] at hval
    have hMq : (0 : ℚ) < M := by
      have : 0 < M := lt_of_lt_of_le (by norm_num) hM
      exact_mod_cast this
    have := mul_pos hMq (two_zpow_pos E)
    rw [sgn_signOf] at hval
    split at hval <;> linarith
  obtain ⟨m, E, hm, hu, hcell⟩ := nearest_unpack hlt (by rw [← hq]; exact hx) hx0
  have hc : Canon' m E := canon_to' (by rw [← hu]; exact model_canon x.toModel)
  have hm52 := cell_normal hc (v := |q|) (by rw [hab]; exact hcell) (le_trans small_power hlow)
  obtain ⟨k', j', hp, hk', hk10, hkv⟩ := shortParts_fifteen hn0 hn15 hu hm52 hcell
  have hneg : isNegative (signOf (decide (q < 0))) = decide (q < 0) := by
    cases decide (q < 0) <;> rfl
  have pv : (0 : ℚ) < m * 2 ^ E := mul_pos (by exact_mod_cast hm) (two_zpow_pos E)
  have hfv : fval x = (if decide (q < 0) = true then -1 else 1) * (m * 2 ^ E) := by
    unfold fval; rw [hu]; simp only [uval]; rw [sgn_signOf]
  refine ⟨?_, hx0, ?_, _, k', j', hp, hk', by rw [hkv, hab]⟩
  · refine plain_unique ?_ h
    unfold goShortF
    rw [hp]
    simp only [hneg, decide_eq_true_eq]
    exact plainText_plain j' hk' hk10 (by rw [hkv, hab])
  · rw [hfv]
    by_cases hneg : q < 0
    · rw [if_pos (decide_eq_true hneg)]
      exact ⟨fun _ => hneg, fun _ => by linarith⟩
    · rw [if_neg (by simpa using hneg), one_mul]
      exact ⟨fun h => by linarith, fun h => absurd h hneg⟩

/-- Between 0.0001 and a million `%g` has no exponent. -/
theorem goShortG_plain {x : Float} {neg : Bool} {k : ℕ} {j : ℤ} (hp : shortParts shortestDigits x = .inl (neg, k, j)) (hk : 0 < k)
    (h1 : (10 : ℚ) ^ (-4 : ℤ) ≤ k * 10 ^ j) (h2 : (k : ℚ) * 10 ^ j < 10 ^ (6 : ℤ)) : goShortG x = goShortF x := by
  unfold goShortG goShortF
  rw [hp]
  simp only
  unfold generalText
  obtain ⟨b1, b2, b3⟩ := decNat_bounds hk
  generalize hL : (decNat k).length = L at *
  have pj : (0 : ℚ) < 10 ^ j := by positivity
  have d1 : (10 : ℚ) ^ (L - 1 : ℕ) ≤ k := by exact_mod_cast b1
  have d2 : (k : ℚ) < 10 ^ L := by exact_mod_cast b2
  have f1 : (10 : ℚ) ^ ((L : ℤ) + j - 1) ≤ k * 10 ^ j := by
    calc (10 : ℚ) ^ ((L : ℤ) + j - 1) = 10 ^ (L - 1 : ℕ) * 10 ^ j := by
          rw [← zpow_natCast, ← zpow_add₀ (by norm_num)]; congr 1; omega
      _ ≤ _ := mul_le_mul_of_nonneg_right d1 pj.le
  have f2 : (k : ℚ) * 10 ^ j < 10 ^ ((L : ℤ) + j) := by
    rw [zpow_add₀ (by norm_num), zpow_natCast]
    exact mul_lt_mul_of_pos_right d2 pj
  have i1 := (zpow_lt_zpow_iff_right₀ (by norm_num : (1 : ℚ) < 10)).1 (lt_of_le_of_lt f1 h2)
  have i2 := (zpow_lt_zpow_iff_right₀ (by norm_num : (1 : ℚ) < 10)).1 (lt_of_le_of_lt h1 f2)
  simp only
  have hc : ¬ ((L : ℤ) + j - 1 < -4 ∨ ((6 : ℕ) : ℤ) ≤ (L : ℤ) + j - 1) := by push_cast; omega
  rw [if_neg hc]

end Grate
