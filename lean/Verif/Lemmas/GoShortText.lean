import Verif.Lemmas.GoShort

/-! # Shortest printing: the texts -/

namespace Grate

open Spec Grate.F64 Float.Model Float.Model.UnpackedFloat

/-- The digits found are a number of `n` digits, or the next power of ten. -/
theorem pick_bounds {m : ℕ} {e : ℤ} (hm : 0 < m) {n k : ℕ} {j : ℤ} (hn : 1 ≤ n) (h : (shortIn m e).pick n = some (k, j)) :
    10 ^ (n - 1) ≤ k ∧ k ≤ 10 ^ n := by
  have hD : 0 < (shortIn m e).D := by show 0 < 2 ^ (2 - e).toNat; positivity
  have hN : 0 < (shortIn m e).N := by show 0 < 4 * m * 2 ^ (e - 2).toNat; positivity
  obtain ⟨h1, h2⟩ := exponent10_spec hN hD
  have hj := (pick_spec hm h).2
  have hv := scaled_val (shortIn m e).N (shortIn m e).D j
  have hB : 0 < (shortIn m e).D * 10 ^ j.toNat := by positivity
  unfold ShortIn.pick at h
  simp only at h
  rw [← hj] at h
  generalize exponent10 (shortIn m e).N (shortIn m e).D = E at *
  generalize ((shortIn m e).N : ℚ) / ((shortIn m e).D : ℚ) = x at *
  generalize (shortIn m e).N * 10 ^ (-j).toNat = A at *
  generalize (shortIn m e).D * 10 ^ j.toNat = B at *
  have pj : (0 : ℚ) < 10 ^ j := by positivity
  have hBq : (0 : ℚ) < B := by exact_mod_cast hB
  have g1 : 10 ^ (n - 1) ≤ A / B := by
    rw [Nat.le_div_iff_mul_le hB]
    have : ((10 ^ (n - 1) : ℕ) : ℚ) ≤ (A : ℚ) / B := by
      rw [hv, le_div_iff₀ pj]
      refine le_trans (le_of_eq ?_) h1
      push_cast
      rw [← zpow_natCast, ← zpow_add₀ (by norm_num)]
      congr 1; omega
    rw [le_div_iff₀ hBq] at this
    exact_mod_cast this
  have g2 : A / B < 10 ^ n := by
    rw [Nat.div_lt_iff_lt_mul hB]
    have : (A : ℚ) / B < ((10 ^ n : ℕ) : ℚ) := by
      rw [hv, div_lt_iff₀ pj]
      refine lt_of_lt_of_le h2 (le_of_eq ?_)
      push_cast
      rw [← zpow_natCast, ← zpow_add₀ (by norm_num)]
      congr 1; omega
    rw [div_lt_iff₀ hBq] at this
    exact_mod_cast this
  have hh := halfEven_or A B
  split at h <;> cases h
  · rcases hh with hh | hh <;> rw [hh] <;> constructor <;> omega
  · constructor <;> omega
  · constructor <;> omega

theorem stripZeros_spec (fuel k : ℕ) (j : ℤ) (hk : 0 < k) (hf : k < 10 ^ fuel) :
    ((stripZeros fuel k j).1 : ℚ) * 10 ^ (stripZeros fuel k j).2 = k * 10 ^ j ∧ (stripZeros fuel k j).1 % 10 ≠ 0 ∧
      0 < (stripZeros fuel k j).1 ∧ (stripZeros fuel k j).1 ≤ k := by
  induction fuel generalizing k j with
  | zero => simp at hf; omega
  | succ fuel ih =>
    unfold stripZeros
    split
    · rename_i h
      have h10 : k = 10 * (k / 10) := by omega
      obtain ⟨a, b, c, d⟩ := ih (k / 10) (j + 1) (by omega) (by rw [Nat.pow_succ] at hf; omega)
      refine ⟨?_, b, c, by omega⟩
      rw [a, zpow_add_one₀ (by norm_num)]
      have : (k : ℚ) = 10 * ((k / 10 : ℕ) : ℚ) := by exact_mod_cast h10
      rw [this]; ring
    · exact ⟨rfl, by omega, hk, le_rfl⟩

theorem digitsVal_zeros (n : ℕ) : digitsVal (List.replicate n 48) = 0 := by
  induction n with
  | zero => rfl
  | succ n ih => rw [List.replicate_succ, digitsVal, ih]; simp

theorem lowDigits_last (p k : ℕ) (hp : 0 < p) (hk : k % 10 ≠ 0) : (lowDigits p k).getLast? ≠ some 48 := by
  obtain ⟨p, rfl⟩ : ∃ q, p = q + 1 := ⟨p - 1, by omega⟩
  rw [lowDigits, List.getLast?_append]
  simp only [List.getLast?_singleton, Option.some_or, ne_eq, Option.some.injEq]
  intro h
  have := digitByte_val k
  rw [h] at this
  simp at this
  omega

/-- Numbers without zeros at the end are printed in plain decimal notation. -/
theorem plainText_plain {k : ℕ} (j : ℤ) (hk : 0 < k) (hk10 : k % 10 ≠ 0) {q : ℚ} (hq : |q| = k * 10 ^ j) :
    PlainDecimal q ((if q < 0 then [45] else []) ++ plainText k j) := by
  unfold plainText
  by_cases hj : 0 ≤ j
  · rw [if_pos hj]
    obtain ⟨n, rfl⟩ := Int.eq_ofNat_of_zero_le hj
    have hd := decNat_numeral k
    refine ⟨decNat k ++ List.replicate n 48, [], k * 10 ^ n, ⟨⟨?_, ?_⟩, ?_, ?_⟩, by simp, by simp, by simp, ?_⟩
    · simp [hd.1.1]
    · intro b hb
      rcases List.mem_append.1 hb with hb | hb
      · exact hd.1.2 b hb
      · rw [List.eq_of_mem_replicate hb]; decide
    · rw [digitsVal_append, hd.2.1, digitsVal_zeros]; simp
    · intro h
      exfalso
      have hne := hd.1.1
      have hh : (decNat k).head? = some 48 := by
        cases hc : decNat k with
        | nil => exact absurd hc hne
        | cons a l => rw [hc] at h; simpa using h
      have h2 := hd.2.2 hh
      have h3 := hd.2.1
      rw [h2] at h3
      have : digitsVal [48] = 0 := by decide +kernel
      omega
    · rw [hq]
      simp only [List.length_nil, pow_zero, mul_one, List.append_nil]
      rw [digitsVal_append, hd.2.1, digitsVal_zeros]
      simp
  · rw [if_neg hj]
    obtain ⟨n, hn⟩ := Int.eq_ofNat_of_zero_le (show 0 ≤ -j by omega)
    have hn0 : 0 < n := by omega
    have hj' : j = -(n : ℤ) := by omega
    rw [hn, Int.toNat_natCast]
    obtain ⟨l1, l2, l3⟩ := lowDigits_spec n k
    have hne : lowDigits n k ≠ [] := by intro h; rw [h] at l1; simp at l1; omega
    refine ⟨decNat (k / 10 ^ n), lowDigits n k, _, decNat_numeral _, l2, lowDigits_last n k hn0 hk10, ?_, ?_⟩
    · unfold pointed
      rw [if_neg (by omega : ¬ n = 0), if_neg hne]
      simp
    · rw [l1, digitsVal_append, decNat_val, l3, l1, Nat.div_add_mod' k (10 ^ n), hq, hj', zpow_neg, zpow_natCast]
      field_simp

theorem plain_decimal {q : ℚ} {s : Bytes} (h : PlainDecimal q s) : DecimalText s 0 q := by
  obtain ⟨whole, frac, n, hw, hf, -, rfl, hq⟩ := h
  refine ⟨if q < 0 then [45] else [], whole, frac, if frac = [] then [] else 46 :: frac, [], ?_, ?_, ?_, ?_, .none, by simp, ?_⟩
  · split
    · exact .inr (.inr rfl)
    · exact .inl rfl
  · intro c hc
    rcases List.mem_append.1 hc with hc | hc
    · exact hw.1.2 c hc
    · exact hf c hc
  · simp [hw.1.1]
  · split
    · exact .inr ⟨rfl, ‹_›⟩
    · exact .inl rfl
  · rw [← hq, zero_sub, zpow_neg, zpow_natCast]
    have p : (0 : ℚ) < 10 ^ frac.length := by positivity
    split
    · rename_i h0
      rw [abs_of_neg h0]
      simp
    · rename_i h0
      rw [abs_of_nonneg (not_lt.1 h0)]
      simp

theorem digitsVal_inj {a b : Bytes} (ha : ∀ c ∈ a, 48 ≤ c.toNat ∧ c.toNat ≤ 57) (hb : ∀ c ∈ b, 48 ≤ c.toNat ∧ c.toNat ≤ 57)
    (hl : a.length = b.length) (hv : digitsVal a = digitsVal b) : a = b := by
  induction a generalizing b with
  | nil => cases b with
    | nil => rfl
    | cons => simp at hl
  | cons x a ih =>
    cases b with
    | nil => simp at hl
    | cons y b =>
      have hl' : a.length = b.length := by simpa using hl
      have ha' : ∀ c ∈ a, 48 ≤ c.toNat ∧ c.toNat ≤ 57 := fun c hc => ha c (by simp [hc])
      have hb' : ∀ c ∈ b, 48 ≤ c.toNat ∧ c.toNat ≤ 57 := fun c hc => hb c (by simp [hc])
      have b1 := Xlsx.digitsVal_lt _ ha'
      have b2 := Xlsx.digitsVal_lt _ hb'
      rw [hl'] at b1
      rw [digitsVal, digitsVal, hl'] at hv
      have hx := ha x (by simp)
      have hy := hb y (by simp)
      have e1 := congrArg (· % 10 ^ b.length) hv
      simp only [Nat.mul_add_mod_self_right, Nat.mod_eq_of_lt b1, Nat.mod_eq_of_lt b2] at e1
      rw [e1] at hv
      have e2 := Nat.eq_of_mul_eq_mul_right (Nat.pow_pos (by norm_num)) (Nat.add_right_cancel hv)
      have e3 : x = y := UInt8.toNat_inj.1 (by omega)
      rw [e3, ih ha' hb' hl' e1]

theorem numeral_unique' {s t : Bytes} {n : Nat} (hs : Numeral s n) (ht : Numeral t n) : s = t := by
  cases n with
  | succ n => exact Xlsx.numeral_unique hs ht
  | zero =>
    have key : ∀ {s : Bytes}, Numeral s 0 → s = [48] := by
      intro s hs
      apply hs.2.2
      cases s with
      | nil => exact absurd rfl hs.1.1
      | cons x s =>
        have h1 := hs.2.1
        rw [digitsVal] at h1
        have p : 0 < 10 ^ s.length := by positivity
        have h2 : x.toNat - 48 = 0 := by
          rcases Nat.eq_zero_or_pos (x.toNat - 48) with h | h
          · exact h
          · have := Nat.mul_pos h p; omega
        have h3 := hs.1.2 x (by simp)
        have : x = 48 := UInt8.toNat_inj.1 (by show x.toNat = 48; omega)
        rw [this]; rfl
    rw [key hs, key ht]

/-- Plain decimal notation is determined by the number. -/
theorem plain_unique {q : ℚ} {s s' : Bytes} (h : PlainDecimal q s) (h' : PlainDecimal q s') : s = s' := by
  obtain ⟨whole, frac, n, hw, hf, hl, rfl, hq⟩ := h
  obtain ⟨whole', frac', n', hw', hf', hl', rfl, hq'⟩ := h'
  -- the numbers of digits after the point agree
  have key : ∀ {a b c d : Bytes}, (∀ x ∈ b, 48 ≤ x.toNat ∧ x.toNat ≤ 57) → (∀ x ∈ d, 48 ≤ x.toNat ∧ x.toNat ≤ 57) →
      d.getLast? ≠ some 48 → |q| * 10 ^ b.length = digitsVal (a ++ b) → |q| * 10 ^ d.length = digitsVal (c ++ d) →
      ¬ b.length < d.length := by
    intro a b c d hb hd hlast h1 h2 hlt
    obtain ⟨t, ht⟩ : ∃ t, d.length = b.length + (t + 1) := ⟨d.length - b.length - 1, by omega⟩
    rw [ht, pow_add, ← mul_assoc, h1] at h2
    have h3 : digitsVal (a ++ b) * 10 ^ (t + 1) = digitsVal (c ++ d) := by exact_mod_cast h2
    have hne : d ≠ [] := by intro h; rw [h] at ht; simp at ht
    obtain ⟨l, z, rfl⟩ : ∃ l z, d = l ++ [z] := ⟨d.dropLast, d.getLast hne, (List.dropLast_append_getLast hne).symm⟩
    rw [← List.append_assoc, digitsVal_append (c ++ l) [z]] at h3
    simp only [List.length_singleton, digitsVal, List.length_nil] at h3
    have hz := hd z (by simp)
    have h4 : z.toNat - 48 = 0 := by
      have : digitsVal (a ++ b) * 10 ^ (t + 1) = 10 * (digitsVal (a ++ b) * 10 ^ t) := by rw [Nat.pow_succ]; ring
      omega
    apply hlast
    rw [List.getLast?_append]
    simp only [List.getLast?_singleton, Option.some_or, Option.some.injEq]
    apply UInt8.toNat_inj.1
    show z.toNat = 48
    omega
  have hlen : frac.length = frac'.length := by
    have := key hf hf' hl' hq hq'
    have := key hf' hf hl hq' hq
    omega
  rw [hlen, hq'] at hq
  have hval : digitsVal (whole' ++ frac') = digitsVal (whole ++ frac) := by exact_mod_cast hq
  rw [digitsVal_append, digitsVal_append, hlen] at hval
  have b1 := Xlsx.digitsVal_lt _ hf
  have b2 := Xlsx.digitsVal_lt _ hf'
  rw [hlen] at b1
  have hfr : digitsVal frac = digitsVal frac' := by
    have e1 := congrArg (· % 10 ^ frac'.length) hval
    simp only [Nat.mul_add_mod_self_right, Nat.mod_eq_of_lt b1, Nat.mod_eq_of_lt b2] at e1
    exact e1.symm
  have hwh : digitsVal whole = digitsVal whole' := by
    have p : 0 < 10 ^ frac'.length := by positivity
    rw [hfr] at hval
    have := Nat.eq_of_mul_eq_mul_right p (Nat.add_right_cancel hval)
    exact this.symm
  have e1 : frac = frac' := digitsVal_inj hf hf' hlen hfr
  have e2 : whole = whole' := by
    have n1 : Numeral whole (digitsVal whole) := ⟨hw.1, rfl, hw.2.2⟩
    have n2 : Numeral whole' (digitsVal whole) := ⟨hw'.1, hwh.symm, hw'.2.2⟩
    exact numeral_unique' n1 n2
  rw [e1, e2]

/-- Scientific notation is a numeral with an exponent. -/
theorem sciText_decimal {k : ℕ} (j : ℤ) (hk : 0 < k) {q : ℚ} (hq : |q| = k * 10 ^ j) :
    DecimalText ((if q < 0 then [45] else []) ++ sciText k j) ((decNat k).length + j - 1) q := by
  obtain ⟨b1, b2, b3⟩ := decNat_bounds hk
  unfold sciText
  simp only
  generalize hnd : (decNat k).length = nd at *
  obtain ⟨d, hd, hdv, -, -, het⟩ := exponentText_spec ((nd : ℤ) + j - 1)
  obtain ⟨l1, l2, l3⟩ := lowDigits_spec (nd - 1) k
  have hex : ExpPart (101 :: exponentText ((nd : ℤ) + j - 1)) ((nd : ℤ) + j - 1) := by
    refine .some _ _ _ (.inl rfl) ?_
    rw [het]
    by_cases hneg : (nd : ℤ) + j - 1 < 0
    · rw [if_pos hneg]
      have := DecValue.minus d hd
      rw [hdv] at this
      rw [show (nd : ℤ) + j - 1 = -(((nd : ℤ) + j - 1).natAbs : ℤ) by omega]
      exact this
    · rw [if_neg hneg]
      have := DecValue.plus d hd
      rw [hdv] at this
      rw [show (nd : ℤ) + j - 1 = (((nd : ℤ) + j - 1).natAbs : ℤ) by omega]
      exact this
  refine ⟨if q < 0 then [45] else [], decNat (k / 10 ^ (nd - 1)), lowDigits (nd - 1) k,
    if nd - 1 = 0 then [] else 46 :: lowDigits (nd - 1) k, _, ?_, ?_, ?_, ?_, hex, ?_, ?_⟩
  · split
    · exact .inr (.inr rfl)
    · exact .inl rfl
  · intro c hc
    rcases List.mem_append.1 hc with hc | hc
    · exact (decNat_isDigits _).2 c hc
    · exact l2 c hc
  · simp [(decNat_isDigits _).1]
  · split
    · rename_i h; rw [h]; exact .inr ⟨rfl, rfl⟩
    · exact .inl rfl
  · unfold pointed; simp
  · rw [digitsVal_append, decNat_val, l3, l1, Nat.div_add_mod' k (10 ^ (nd - 1))]
    have e1 : (nd : ℤ) + j - 1 - ((nd - 1 : ℕ) : ℤ) = j := by omega
    rw [e1, mul_assoc, ← hq]
    split
    · rename_i h0; rw [abs_of_neg h0]; simp
    · rename_i h0; rw [abs_of_nonneg (not_lt.1 h0)]; simp

/-! ### Nearest floats -/

theorem odd_even_powers {a d : ℤ} {e f : ℤ} (h1 : (a : ℚ) * 2 ^ e = d * 2 ^ f) (ha : a % 2 = 0) (hd : d % 2 = 1) : e < f := by
  by_contra hlt
  obtain ⟨n, hn⟩ := Int.eq_ofNat_of_zero_le (show 0 ≤ e - f by omega)
  have he : e = n + f := by omega
  rw [he, zpow_add₀ (by norm_num), zpow_natCast, ← mul_assoc] at h1
  have h2 := mul_right_cancel₀ (two_zpow_pos f).ne' h1
  have h3 : a * 2 ^ n = d := by exact_mod_cast h2
  have h4 : d % 2 = 0 := by
    rw [← h3, Int.mul_emod, ha]; simp
  omega

/-- There is only one nearest float. -/
theorem nearestFloat_unique {q : ℚ} {x y : Float} (hx : NearestFloat q x) (hy : NearestFloat q y) : fval x = fval y := by
  by_contra hne
  obtain ⟨a1, a2⟩ := hx.2 y hy.1
  obtain ⟨b1, b2⟩ := hy.2 x hx.1
  obtain ⟨m, n, e, c1, c2, c3, c4⟩ := a2 (le_antisymm a1 b1) (fun h => hne h.symm)
  obtain ⟨m', n', e', d1, d2, d3, d4⟩ := b2 (le_antisymm b1 a1) hne
  have h1 := odd_even_powers (a := m) (d := n') (by rw [← c1, ← d2]) c3 d4
  have h2 := odd_even_powers (a := m') (d := n) (by rw [← d1, ← c2]) d3 c4
  omega

/-- Numbers of the cell of a float have it as the nearest. -/
theorem nearest_of_cell {x : Float} {s : Sign} {M : ℕ} {E : ℤ} (hu : x.toModel.unpack = mkFin s M E) (hc : Canon' M E)
    {v : ℚ} (hv : InCell v M E) (h0 : 0 ≤ v) : NearestFloat (sgn s * v) x := by
  refine ⟨ffin_mkFin hu, fun y _ => ?_⟩
  have hx : fval x = sgn s * (M * 2 ^ E) := by unfold fval; rw [hu, uval_mkFin]
  rw [hx]
  cases s with
  | positive =>
    have := cell_nearest hc hv h0 (rep_fval y)
    simpa [sgn] using this
  | negative =>
    obtain ⟨h1, h2⟩ := cell_nearest hc hv h0 (rep_fval y).neg
    have e1 : |-fval y - v| = |fval y - -v| := by rw [← abs_neg]; congr 1; ring
    have e2 : |(M : ℚ) * 2 ^ E - v| = |-1 * ((M : ℚ) * 2 ^ E) - -v| := by rw [← abs_neg]; congr 1; ring
    rw [e1, e2] at h1 h2
    simp only [sgn, neg_one_mul] at *
    refine ⟨h1, fun g1 g2 => ?_⟩
    obtain ⟨a, b, c, g3, g4, g5, g6⟩ := h2 g1 (fun hh => g2 (by rw [← hh]; ring))
    exact ⟨-a, -b, c, by rw [g3]; push_cast; ring, by push_cast; linarith, by omega, by omega⟩

/-- A finite number other than zero. -/
theorem finite_unpack {x : Float} (hx : FFin x) (h0 : fval x ≠ 0) : ∃ s m e h, x.toModel.unpack = .finite s m e h ∧
    Canon' m e ∧ e ≤ 971 ∧ fval x = sgn s * (m * 2 ^ e) := by
  have hc := model_canon x.toModel
  unfold FFin at hx
  unfold fval at h0 ⊢
  cases hu : x.toModel.unpack with
  | infinity => rw [hu] at hx; exact absurd hx id
  | notANumber => rw [hu] at hx; exact absurd hx id
  | zero s => rw [hu] at h0; exact absurd rfl h0
  | finite s m e h =>
    rw [hu] at hc
    exact ⟨s, m, e, h, rfl, canon_to' hc, hc.2.2.1, rfl⟩

theorem mkFin_pos {s : Sign} {m : ℕ} {e : ℤ} (h : 0 < m) : mkFin s m e = .finite s m e h := by
  unfold mkFin; rw [dif_neg h.ne']

theorem sgn_neg_iff (s : Sign) {v : ℚ} (hv : 0 < v) : (sgn s * v < 0 ↔ isNegative s = true) ∧ |sgn s * v| = v := by
  cases s with
  | positive => simp only [sgn, isNegative, one_mul]; exact ⟨by constructor <;> intro h <;> [linarith; cases h], abs_of_pos hv⟩
  | negative =>
    simp only [sgn, isNegative, neg_one_mul]
    exact ⟨by constructor <;> intro h <;> [trivial; linarith], by rw [abs_neg]; exact abs_of_pos hv⟩

theorem cell_pos {m : ℕ} {e : ℤ} (hm : 0 < m) {v : ℚ} (h : InCell v m e) : 0 < v := by
  have p := two_zpow_pos e
  have h1 := h.lo
  have : (1 : ℚ) ≤ m := by exact_mod_cast hm
  have := mul_le_mul_of_nonneg_right this p.le
  linarith

/-- The shortest digits of a finite number, without zeros at the end. -/
theorem shortParts_spec {x : Float} (hx : FFin x) (h0 : fval x ≠ 0) : ∃ s m e h k j, x.toModel.unpack = .finite s m e h ∧
    Canon' m e ∧ e ≤ 971 ∧ shortParts shortestDigits x = .inl (isNegative s, k, j) ∧ 0 < k ∧ k % 10 ≠ 0 ∧ k < 10 ^ 17 ∧
    InCell (k * 10 ^ j) m e ∧ NearestFloat (sgn s * (k * 10 ^ j)) x := by
  obtain ⟨s, m, e, h, hu, hc, he, hv⟩ := finite_unpack hx h0
  obtain ⟨n, k, j, n1, n2, hk, hp, -⟩ := digits_spec h hc
  obtain ⟨c1, c2⟩ := pick_spec h hp
  obtain ⟨b1, b2⟩ := pick_bounds h n1 hp
  have hk0 : 0 < k := lt_of_lt_of_le (by positivity) b1
  have hk17 : k ≤ 10 ^ 17 := le_trans b2 (Nat.pow_le_pow_right (by norm_num) n2)
  obtain ⟨s1, s2, s3, s4⟩ := stripZeros_spec 20 k j hk0 (lt_of_le_of_lt hk17 (by norm_num))
  refine ⟨s, m, e, h, (stripZeros 20 k j).1, (stripZeros 20 k j).2, hu, hc, he, ?_, s3, s2, ?_, by rw [s1]; exact c1, ?_⟩
  · unfold shortParts
    rw [hu]
    simp only [hk]
  · rcases Nat.lt_or_ge (stripZeros 20 k j).1 (10 ^ 17) with g | g
    · exact g
    · exfalso
      apply s2
      rw [show (stripZeros 20 k j).1 = 10 ^ 17 by omega]
      norm_num
  · rw [s1]
    exact nearest_of_cell (by rw [hu, mkFin_pos h]) hc c1 (cell_pos h c1).le

/-! ### Numbers of few digits -/

theorem fifteen {k : ℕ} (hk : 0 < k) (hk15 : k < 10 ^ 15) (j : ℤ) : ∃ (K : ℕ) (J : ℤ), 10 ^ 14 ≤ K ∧ K < 10 ^ 15 ∧
    (k : ℚ) * 10 ^ j = K * 10 ^ J := by
  obtain ⟨b1, b2, b3⟩ := decNat_bounds hk
  generalize (decNat k).length = L at *
  have hL : L ≤ 15 := by
    by_contra hL
    have : 10 ^ 15 ≤ 10 ^ (L - 1) := Nat.pow_le_pow_right (by norm_num) (by omega)
    omega
  refine ⟨k * 10 ^ (15 - L), j - (15 - L : ℕ), ?_, ?_, ?_⟩
  · calc 10 ^ 14 = 10 ^ (L - 1) * 10 ^ (15 - L) := by rw [← Nat.pow_add]; congr 1; omega
      _ ≤ _ := Nat.mul_le_mul_right _ b1
  · calc k * 10 ^ (15 - L) < 10 ^ L * 10 ^ (15 - L) := Nat.mul_lt_mul_of_pos_right b2 (by positivity)
      _ = 10 ^ 15 := by rw [← Nat.pow_add]; congr 1; omega
  · push_cast
    rw [mul_assoc, ← zpow_natCast, ← zpow_add₀ (by norm_num)]
    congr 2
    ring

/-- Two numbers of at most fifteen digits are not read as the same normal float. -/
theorem fifteen_unique {m : ℕ} {e : ℤ} (hm : 2 ^ 52 ≤ m) {k k' : ℕ} {j j' : ℤ} (hk : 0 < k) (hk15 : k < 10 ^ 15)
    (hk' : 0 < k') (hk15' : k' < 10 ^ 15) (h : InCell (k * 10 ^ j) m e) (h' : InCell (k' * 10 ^ j') m e) :
    (k : ℚ) * 10 ^ j = k' * 10 ^ j' := by
  have key : ∀ {k k' : ℕ} {j j' : ℤ}, 0 < k → k < 10 ^ 15 → 0 < k' → k' < 10 ^ 15 → InCell (k * 10 ^ j) m e →
      InCell (k' * 10 ^ j') m e → ¬ (k : ℚ) * 10 ^ j < k' * 10 ^ j' := by
    intro k k' j j' hk hk15 hk' hk15' h h' hlt
    obtain ⟨K, J, g1, g2, g3⟩ := fifteen hk hk15 j
    obtain ⟨K', J', g1', g2', g3'⟩ := fifteen hk' hk15' j'
    rw [g3] at hlt h
    rw [g3'] at hlt h'
    have p := two_zpow_pos e
    have pJ : (0 : ℚ) < 10 ^ J := by positivity
    have pJ' : (0 : ℚ) < 10 ^ J' := by positivity
    have q1 : (10 ^ 14 : ℚ) ≤ K := by exact_mod_cast g1
    have q2 : (K : ℚ) ≤ 10 ^ 15 := by exact_mod_cast g2.le
    have q2' : (K' : ℚ) ≤ 10 ^ 15 := by exact_mod_cast g2'.le
    have hJ : J ≤ J' := by
      by_contra hJ
      have h1 : (10 : ℚ) ^ (J' + 1) ≤ 10 ^ J := zpow_le_zpow_right₀ (by norm_num) (by omega)
      rw [zpow_add_one₀ (by norm_num)] at h1
      have h2 := mul_le_mul_of_nonneg_right q2' pJ'.le
      have h3 := mul_le_mul_of_nonneg_right q1 pJ.le
      linarith
    obtain ⟨t, ht⟩ := Int.eq_ofNat_of_zero_le (show 0 ≤ J' - J by omega)
    have e1 : (K' : ℚ) * 10 ^ J' = ((K' * 10 ^ t : ℕ) : ℚ) * 10 ^ J := by
      rw [show J' = (t : ℤ) + J by omega, zpow_add₀ (by norm_num), zpow_natCast]; push_cast; ring
    rw [e1] at hlt h'
    have h1 := lt_of_mul_lt_mul_right hlt pJ.le
    have h2 : K + 1 ≤ K' * 10 ^ t := by exact_mod_cast h1
    have h3 : (K : ℚ) + 1 ≤ ((K' * 10 ^ t : ℕ) : ℚ) := by exact_mod_cast h2
    have h4 := mul_le_mul_of_nonneg_right h3 pJ.le
    have h5 := h.lo
    have h6 := h'.hi
    have h7 := mul_le_mul_of_nonneg_right q2 pJ.le
    have hmq : (2 ^ 52 : ℚ) ≤ m := by exact_mod_cast hm
    have h8 := mul_le_mul_of_nonneg_right hmq p.le
    linarith
  have := key hk hk15 hk' hk15' h h'
  have := key hk' hk15' hk hk15 h' h
  exact le_antisymm (not_lt.1 ‹_›) (not_lt.1 ‹_›)

/-- If a number of at most fifteen digits is read as a normal float, it is the one printed. -/
theorem shortParts_fifteen {x : Float} {k : ℕ} {j : ℤ} (hk : 0 < k) (hk15 : k < 10 ^ 15) {s : Sign} {m : ℕ} {e : ℤ} {h}
    (hu : x.toModel.unpack = .finite s m e h) (hm : 2 ^ 52 ≤ m) (hcell : InCell (k * 10 ^ j) m e) :
    ∃ k' j', shortParts shortestDigits x = .inl (isNegative s, k', j') ∧ 0 < k' ∧ k' % 10 ≠ 0 ∧
      (k' : ℚ) * 10 ^ j' = k * 10 ^ j := by
  have hc : Canon' m e := canon_to' (by rw [← hu]; exact model_canon x.toModel)
  obtain ⟨n, k1, j1, n1, n2, hk1, hp, hmin⟩ := digits_spec h hc
  have hD : 0 < (shortIn m e).D := by show 0 < 2 ^ (2 - e).toNat; positivity
  have hN : 0 < (shortIn m e).N := by show 0 < 4 * m * 2 ^ (e - 2).toNat; positivity
  obtain ⟨x1, x2⟩ := exponent10_spec hN hD
  rw [shortIn_val] at x1 x2
  have hn15 : n ≤ 15 := by
    by_contra hn
    have no1 := hmin 1 le_rfl (by omega)
    have no15 := hmin 15 (by norm_num) (by omega)
    generalize hE : exponent10 (shortIn m e).N (shortIn m e).D = E at *
    have f1 : ∀ c : ℕ, ¬ InCell (c * 10 ^ (E + 1 - ((1 : ℕ) : ℤ))) m e := by
      intro c hcc
      obtain ⟨r, hr⟩ := pick_of_cell h 1 (k := c) (by rw [hE]; exact hcc)
      rw [no1] at hr; cases hr
    have f15 : ∀ c : ℕ, ¬ InCell (c * 10 ^ (E + 1 - ((15 : ℕ) : ℤ))) m e := by
      intro c hcc
      obtain ⟨r, hr⟩ := pick_of_cell h 15 (k := c) (by rw [hE]; exact hcc)
      rw [no15] at hr; cases hr
    have e1 : (10 : ℚ) ^ (E + 1 - ((1 : ℕ) : ℤ)) = 10 ^ E := by congr 1; push_cast; ring
    rw [e1] at f1
    rcases lt_or_ge ((k : ℚ) * 10 ^ j) (10 ^ E) with hlt | hge
    · apply f1 1
      exact inCell_interval hcell (by simpa using hlt.le) (by simpa using x1) (self_cell m e)
    · rcases lt_or_ge ((k : ℚ) * 10 ^ j) (10 ^ (E + 1)) with hlt2 | hge2
      · obtain ⟨K, J, g1, g2, g3⟩ := fifteen hk hk15 j
        rw [g3] at hge hlt2 hcell
        have q1 : (10 ^ 14 : ℚ) ≤ K := by exact_mod_cast g1
        have q2 : (K : ℚ) < 10 ^ 15 := by exact_mod_cast g2
        have pJ : (0 : ℚ) < 10 ^ J := by positivity
        have hJ : J = E + 1 - ((15 : ℕ) : ℤ) := by
          have a1 : (10 : ℚ) ^ E < 10 ^ (J + 15) := by
            refine lt_of_le_of_lt hge ?_
            rw [zpow_add₀ (by norm_num)]
            calc (K : ℚ) * 10 ^ J < 10 ^ 15 * 10 ^ J := mul_lt_mul_of_pos_right q2 pJ
              _ = 10 ^ J * 10 ^ (15 : ℤ) := by rw [mul_comm]; norm_num
          have a2 : (10 : ℚ) ^ (J + 14) < 10 ^ (E + 1) := by
            refine lt_of_le_of_lt ?_ hlt2
            rw [zpow_add₀ (by norm_num)]
            calc (10 : ℚ) ^ J * 10 ^ (14 : ℤ) = 10 ^ 14 * 10 ^ J := by rw [mul_comm]; norm_num
              _ ≤ _ := mul_le_mul_of_nonneg_right q1 pJ.le
          have b1 := (zpow_lt_zpow_iff_right₀ (by norm_num : (1 : ℚ) < 10)).1 a1
          have b2 := (zpow_lt_zpow_iff_right₀ (by norm_num : (1 : ℚ) < 10)).1 a2
          push_cast
          omega
        rw [hJ] at hcell
        exact f15 K hcell
      · apply f1 10
        have e2 : ((10 : ℕ) : ℚ) * 10 ^ E = 10 ^ (E + 1) := by
          rw [zpow_add_one₀ (by norm_num)]; push_cast; ring
        rw [e2]
        exact inCell_interval (self_cell m e) x2.le hge2 hcell
  obtain ⟨c1, c2⟩ := pick_spec h hp
  obtain ⟨b1, b2⟩ := pick_bounds h n1 hp
  have hk0 : 0 < k1 := lt_of_lt_of_le (by positivity) b1
  have hk17 : k1 ≤ 10 ^ 15 := le_trans b2 (Nat.pow_le_pow_right (by norm_num) hn15)
  obtain ⟨s1, s2, s3, s4⟩ := stripZeros_spec 20 k1 j1 hk0 (lt_of_le_of_lt hk17 (by norm_num))
  refine ⟨(stripZeros 20 k1 j1).1, (stripZeros 20 k1 j1).2, ?_, s3, s2, ?_⟩
  · unfold shortParts
    rw [hu]
    simp only [hk1]
  · have hlt : (stripZeros 20 k1 j1).1 < 10 ^ 15 := by
      rcases Nat.lt_or_ge (stripZeros 20 k1 j1).1 (10 ^ 15) with g | g
      · exact g
      · exfalso
        apply s2
        rw [show (stripZeros 20 k1 j1).1 = 10 ^ 15 by omega]
        norm_num
    exact fifteen_unique hm s3 hlt hk hk15 (by rw [s1]; exact c1) hcell

end Grate
