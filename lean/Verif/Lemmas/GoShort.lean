import Verif.Model.GoShort
import Verif.Lemmas.GoParse
import Verif.Lemmas.GoScience

/-! # Shortest printing: helper lemmas -/

namespace Grate

open Spec Grate.F64 Float.Model Float.Model.UnpackedFloat

theorem quarter_units (c : ℕ) (e : ℤ) :
    ((c * 2 ^ (e - 2).toNat : ℕ) : ℚ) / ((2 ^ (2 - e).toNat : ℕ) : ℚ) = (c : ℚ) / 4 * 2 ^ e := by
  have h : (c : ℚ) / 4 * 2 ^ e = c * 2 ^ (e - 2) := by
    rw [zpow_sub₀ (by norm_num)]; norm_num; ring
  rw [h]
  rcases le_total 2 e with he | he
  · have : (2 - e).toNat = 0 := by omega
    rw [this]
    obtain ⟨n, hn⟩ := Int.eq_ofNat_of_zero_le (show 0 ≤ e - 2 by omega)
    rw [hn]
    simp
  · have : (e - 2).toNat = 0 := by omega
    rw [this]
    obtain ⟨n, hn⟩ := Int.eq_ofNat_of_zero_le (show 0 ≤ 2 - e by omega)
    have h2 : e - 2 = -(n : ℤ) := by omega
    rw [h2, hn]
    simp [div_eq_mul_inv]

theorem le_scaled (a k : ℕ) (j : ℤ) {D : ℕ} (hD : 0 < D) :
    (a * 10 ^ (-j).toNat ≤ k * 10 ^ j.toNat * D ↔ (a : ℚ) / D ≤ k * 10 ^ j) ∧
    (k * 10 ^ j.toNat * D ≤ a * 10 ^ (-j).toNat ↔ k * 10 ^ j ≤ (a : ℚ) / D) := by
  have hDq : (0 : ℚ) < D := by exact_mod_cast hD
  have hp : (0 : ℚ) < ((10 ^ (-j).toNat : ℕ) : ℚ) := by positivity
  rw [ten_zpow]
  rw [div_le_div_iff₀ hDq hp, div_le_div_iff₀ hp hDq]
  constructor
  · exact_mod_cast Iff.rfl
  · exact_mod_cast Iff.rfl

/-- The lower end of the numbers that are read as `m · 2^e`. -/
def cellLo (m : ℕ) (e : ℤ) : ℚ := if m = 2 ^ 52 ∧ -1074 < e then m - 1 / 4 else m - 1 / 2

theorem has_iff {m : ℕ} {e : ℤ} (hm : 0 < m) (k : ℕ) (j : ℤ) :
    (shortIn m e).has k j = true ↔ InCell (k * 10 ^ j) m e := by
  have hD : 0 < 2 ^ (2 - e).toNat := by positivity
  have p := two_zpow_pos e
  have hlo : (((shortIn m e).Lo : ℕ) : ℚ) / ((shortIn m e).D : ℕ) = cellLo m e * 2 ^ e := by
    unfold shortIn cellLo
    simp only
    split
    · rw [quarter_units]
      rw [Nat.cast_sub (by omega)]; push_cast; ring
    · rw [quarter_units]
      rw [Nat.cast_sub (by omega)]; push_cast; ring
  have hhi : (((shortIn m e).Hi : ℕ) : ℚ) / ((shortIn m e).D : ℕ) = (m + 1 / 2) * 2 ^ e := by
    unfold shortIn
    simp only
    rw [quarter_units]; push_cast; ring
  obtain ⟨a1, -⟩ := le_scaled (shortIn m e).Lo k j (D := (shortIn m e).D) hD
  obtain ⟨-, a2⟩ := le_scaled (shortIn m e).Hi k j (D := (shortIn m e).D) hD
  obtain ⟨-, b1⟩ := le_scaled (shortIn m e).Lo k j (D := (shortIn m e).D) hD
  obtain ⟨b2, -⟩ := le_scaled (shortIn m e).Hi k j (D := (shortIn m e).D) hD
  rw [hlo] at a1 b1
  rw [hhi] at a2 b2
  have b1' := not_congr b1
  have b2' := not_congr b2
  rw [not_le, not_le] at b1' b2'
  have hincl : (shortIn m e).incl = (m % 2 == 0) := rfl
  unfold ShortIn.has
  simp only
  rw [hincl]
  generalize (k : ℚ) * 10 ^ j = v at *
  by_cases he : m % 2 = 0
  · have he' : (m % 2 == 0) = true := by simp [he]
    rw [if_pos he', Bool.and_eq_true, decide_eq_true_eq, decide_eq_true_eq, a1, a2]
    constructor
    · rintro ⟨h1, h2⟩
      refine ⟨h2, fun _ => he, ?_, fun _ => he, ?_⟩
      · refine le_trans (mul_le_mul_of_nonneg_right ?_ p.le) h1
        unfold cellLo; split <;> linarith
      · intro g1 g2
        unfold cellLo at h1
        rw [if_pos ⟨g1, g2⟩] at h1
        exact h1
    · intro h
      refine ⟨?_, h.hi⟩
      unfold cellLo
      split
      · rename_i hc; exact h.edge hc.1 hc.2
      · exact h.lo
  · have he' : (m % 2 == 0) = false := by simp [he]
    have hne : m ≠ 2 ^ 52 := by rintro rfl; exact he (by norm_num)
    have hcl : cellLo m e = m - 1 / 2 := by unfold cellLo; rw [if_neg (fun hc => hne hc.1)]
    rw [hcl] at b1'
    rw [if_neg (by rw [he']; simp), Bool.and_eq_true, decide_eq_true_eq, decide_eq_true_eq, b1', b2']
    constructor
    · rintro ⟨h1, h2⟩
      exact ⟨h2.le, fun hh => absurd hh h2.ne, h1.le, fun hh => absurd hh h1.ne', fun hh => absurd hh hne⟩
    · intro h
      exact ⟨lt_of_le_of_ne h.lo (fun hh => he (h.loTie hh.symm)), lt_of_le_of_ne h.hi (fun hh => he (h.hiTie hh))⟩

theorem shortIn_val (m : ℕ) (e : ℤ) : (((shortIn m e).N : ℕ) : ℚ) / ((shortIn m e).D : ℕ) = m * 2 ^ e := by
  unfold shortIn
  simp only
  rw [quarter_units]; push_cast; ring

theorem halfEven_or (A B : ℕ) : halfEven A B = A / B ∨ halfEven A B = A / B + 1 := by
  unfold halfEven
  simp only
  split
  · exact .inl rfl
  · exact .inr rfl

/-- The number in units of the last of `n` digits. -/
theorem scaled_val (N D : ℕ) (j : ℤ) :
    ((N * 10 ^ (-j).toNat : ℕ) : ℚ) / ((D * 10 ^ j.toNat : ℕ) : ℚ) = (N : ℚ) / D / 10 ^ j := by
  have h := ten_zpow 1 j
  rw [Nat.cast_one, one_mul, one_mul] at h
  rw [h]
  push_cast
  rw [div_div_div_eq]

/-- What `pick` finds. -/
theorem pick_spec {m : ℕ} {e : ℤ} (hm : 0 < m) {n k : ℕ} {j : ℤ} (h : (shortIn m e).pick n = some (k, j)) :
    InCell (k * 10 ^ j) m e ∧ j = exponent10 (shortIn m e).N (shortIn m e).D + 1 - n := by
  unfold ShortIn.pick at h
  simp only at h
  generalize hj : exponent10 (shortIn m e).N (shortIn m e).D + 1 - (n : ℤ) = j' at *
  generalize (shortIn m e).N * 10 ^ (-j').toNat = A at *
  generalize (shortIn m e).D * 10 ^ j'.toNat = B at *
  split at h
  · rename_i h1 h2
    cases h
    refine ⟨?_, rfl⟩
    rcases halfEven_or A B with hh | hh
    · rw [hh]; exact (has_iff hm _ _).1 h1
    · rw [hh]; exact (has_iff hm _ _).1 h2
  · rename_i h1 h2
    cases h
    exact ⟨(has_iff hm _ _).1 h1, rfl⟩
  · rename_i h1 h2
    cases h
    exact ⟨(has_iff hm _ _).1 h2, rfl⟩
  · cases h

/-- If one of the two neighbours is read as the number, `pick` finds digits. -/
theorem pick_some {m : ℕ} {e : ℤ} (n : ℕ) (hs : ∃ k, ((shortIn m e).has k (exponent10 (shortIn m e).N (shortIn m e).D + 1 - n) = true) ∧
    (k = (shortIn m e).N * 10 ^ (-(exponent10 (shortIn m e).N (shortIn m e).D + 1 - n)).toNat / ((shortIn m e).D * 10 ^ (exponent10 (shortIn m e).N (shortIn m e).D + 1 - n).toNat) ∨
     k = (shortIn m e).N * 10 ^ (-(exponent10 (shortIn m e).N (shortIn m e).D + 1 - n)).toNat / ((shortIn m e).D * 10 ^ (exponent10 (shortIn m e).N (shortIn m e).D + 1 - n).toNat) + 1)) :
    ∃ r, (shortIn m e).pick n = some r := by
  unfold ShortIn.pick
  simp only
  obtain ⟨k, h1, h2⟩ := hs
  split
  · exact ⟨_, rfl⟩
  · exact ⟨_, rfl⟩
  · exact ⟨_, rfl⟩
  · rename_i g1 g2
    rcases h2 with rfl | rfl
    · rw [h1] at g1; cases g1
    · rw [h1] at g2; cases g2

theorem inCell_interval {m : ℕ} {e : ℤ} {a b v : ℚ} (ha : InCell a m e) (hav : a ≤ v) (hvb : v ≤ b) (hb : InCell b m e) :
    InCell v m e := by
  refine ⟨le_trans hvb hb.hi, fun h => hb.hiTie (le_antisymm hb.hi (by linarith)), le_trans ha.lo hav,
    fun h => ha.loTie (le_antisymm (by linarith) ha.lo), fun h1 h2 => le_trans (ha.edge h1 h2) hav⟩

theorem self_cell (m : ℕ) (e : ℤ) : InCell (m * 2 ^ e) m e := by
  have p := two_zpow_pos e
  refine ⟨by linarith, fun h => by linarith, by linarith, fun h => by linarith, fun _ _ => by linarith⟩

/-- If some `n` digits (in the power of ten of the number) are read as the number, `pick` finds some. -/
theorem pick_of_cell {m : ℕ} {e : ℤ} (hm : 0 < m) (n : ℕ) {k : ℕ}
    (h : InCell (k * 10 ^ (exponent10 (shortIn m e).N (shortIn m e).D + 1 - (n : ℤ))) m e) : ∃ r, (shortIn m e).pick n = some r := by
  apply pick_some
  generalize exponent10 (shortIn m e).N (shortIn m e).D + 1 - (n : ℤ) = j at *
  have hv := scaled_val (shortIn m e).N (shortIn m e).D j
  rw [shortIn_val] at hv
  have hD : 0 < (shortIn m e).D := by show 0 < 2 ^ (2 - e).toNat; positivity
  have hB : 0 < (shortIn m e).D * 10 ^ j.toNat := by positivity
  generalize (shortIn m e).N * 10 ^ (-j).toNat = A at *
  generalize (shortIn m e).D * 10 ^ j.toNat = B at *
  have hBq : (0 : ℚ) < B := by exact_mod_cast hB
  have pj : (0 : ℚ) < 10 ^ j := by positivity
  have hx : (m : ℚ) * 2 ^ e = (A : ℚ) / B * 10 ^ j := by rw [hv]; field_simp
  have h1 : ((A / B : ℕ) : ℚ) ≤ (A : ℚ) / B := Nat.cast_div_le
  have h2 : (A : ℚ) / B ≤ ((A / B + 1 : ℕ) : ℚ) := by
    rw [div_le_iff₀ hBq]
    have := Nat.lt_mul_div_succ A hB
    have : A ≤ (A / B + 1) * B := by rw [Nat.mul_comm]; omega
    exact_mod_cast this
  rcases Nat.lt_or_ge (A / B) k with hk | hk
  · refine ⟨A / B + 1, (has_iff hm _ _).2 ?_, .inr rfl⟩
    refine inCell_interval (self_cell m e) ?_ ?_ h
    · rw [hx]; exact mul_le_mul_of_nonneg_right h2 pj.le
    · exact mul_le_mul_of_nonneg_right (by exact_mod_cast hk) pj.le
  · refine ⟨A / B, (has_iff hm _ _).2 ?_, .inl rfl⟩
    refine inCell_interval h ?_ ?_ (self_cell m e)
    · exact mul_le_mul_of_nonneg_right (by exact_mod_cast hk) pj.le
    · rw [hx]; exact mul_le_mul_of_nonneg_right h1 pj.le

/-- Seventeen digits suffice. -/
theorem pick_17 {m : ℕ} {e : ℤ} (hm : 0 < m) (hc : Canon' m e) : ∃ r, (shortIn m e).pick 17 = some r := by
  have hD : 0 < (shortIn m e).D := by show 0 < 2 ^ (2 - e).toNat; positivity
  have hN : 0 < (shortIn m e).N := by show 0 < 4 * m * 2 ^ (e - 2).toNat; positivity
  obtain ⟨h1, h2⟩ := exponent10_spec hN hD
  rw [shortIn_val] at h1 h2
  generalize hE : exponent10 (shortIn m e).N (shortIn m e).D = E at *
  have hv := scaled_val (shortIn m e).N (shortIn m e).D (E + 1 - (17 : ℕ))
  rw [shortIn_val] at hv
  have hB : 0 < (shortIn m e).D * 10 ^ (E + 1 - (17 : ℕ)).toNat := by positivity
  have hn := halfEven_nearest ((shortIn m e).N * 10 ^ (-(E + 1 - (17 : ℕ))).toNat) _ hB
  rw [hv] at hn
  generalize halfEven _ _ = k at hn
  apply pick_of_cell hm 17 (k := k)
  rw [hE]
  have p := two_zpow_pos e
  generalize hj : E + 1 - ((17 : ℕ) : ℤ) = j at *
  have pj : (0 : ℚ) < 10 ^ j := by positivity
  have hu : (10 : ℚ) ^ E = 10 ^ 16 * 10 ^ j := by
    rw [← hj, ← zpow_natCast (10 : ℚ) 16, ← zpow_add₀ (by norm_num)]
    congr 1
    push_cast
    ring
  -- half a unit is less than a quarter of the distance of the numbers
  have hmq : (m : ℚ) ≤ 2 ^ 53 - 1 := by
    have : m + 1 ≤ 2 ^ 53 := hc.1
    have : (m : ℚ) + 1 ≤ 2 ^ 53 := by exact_mod_cast this
    linarith
  have hd : |(k : ℚ) * 10 ^ j - m * 2 ^ e| ≤ 1 / 2 * 10 ^ j := by
    have : (k : ℚ) * 10 ^ j - m * 2 ^ e = (k - m * 2 ^ e / 10 ^ j) * 10 ^ j := by field_simp
    rw [this, abs_mul, abs_of_pos pj]
    exact mul_le_mul_of_nonneg_right hn.1 pj.le
  have hw : 1 / 2 * (10 : ℚ) ^ j ≤ m * 2 ^ e * (1 / 20000000000000000) := by
    rw [hu] at h1; linarith
  rw [abs_le] at hd
  have hm2 := mul_le_mul_of_nonneg_right hmq p.le
  refine ⟨by linarith, fun h => by linarith, by linarith, fun h => by linarith, fun h3 _ => ?_⟩
  have : (m : ℚ) = 2 ^ 52 := by rw [h3]; norm_num
  rw [this] at hw hd ⊢
  linarith

/-- The shortest digits. -/
theorem digits_spec {m : ℕ} {e : ℤ} (hm : 0 < m) (hc : Canon' m e) : ∃ n k j, 1 ≤ n ∧ n ≤ 17 ∧
    shortestDigits m e = (k, j) ∧ (shortIn m e).pick n = some (k, j) ∧
    ∀ n', 1 ≤ n' → n' < n → (shortIn m e).pick n' = none := by
  obtain ⟨r, hr⟩ := pick_17 hm hc
  unfold shortestDigits ShortIn.digits
  have key : ∀ N : ℕ, (∃ n, 1 ≤ n ∧ n ≤ N ∧ ∃ r, (shortIn m e).pick n = some r ∧
      (List.range N).findSome? (fun i => (shortIn m e).pick (i + 1)) = some r ∧
      ∀ n', 1 ≤ n' → n' < n → (shortIn m e).pick n' = none) ∨
      ((List.range N).findSome? (fun i => (shortIn m e).pick (i + 1)) = none ∧
        ∀ n', 1 ≤ n' → n' ≤ N → (shortIn m e).pick n' = none) := by
    intro N
    induction N with
    | zero => right; exact ⟨rfl, fun n' h1 h2 => by omega⟩
    | succ N ih =>
      rw [List.range_succ, List.findSome?_append]
      rcases ih with ⟨n, h1, h2, r, h3, h4, h5⟩ | ⟨h1, h2⟩
      · left; exact ⟨n, h1, by omega, r, h3, by rw [h4]; rfl, h5⟩
      · rw [h1]
        cases hp : (shortIn m e).pick (N + 1) with
        | some r =>
          left
          refine ⟨N + 1, by omega, le_rfl, r, hp, by simp [hp], fun n' g1 g2 => h2 n' g1 (by omega)⟩
        | none =>
          right
          refine ⟨by simp [hp], fun n' g1 g2 => ?_⟩
          rcases Nat.lt_or_ge n' (N + 1) with g | g
          · exact h2 n' g1 (by omega)
          · rw [show n' = N + 1 by omega, hp]
  rcases key 17 with ⟨n, h1, h2, ⟨k, j⟩, h3, h4, h5⟩ | ⟨-, h⟩
  · exact ⟨n, k, j, h1, h2, by rw [h4]; rfl, h3, h5⟩
  · rw [h 17 (by norm_num) le_rfl] at hr; cases hr

end Grate
