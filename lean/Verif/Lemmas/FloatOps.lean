import Verif.Lemmas.FloatVal
import Verif.Model.Value

/-! # binary64 operations on the level of `Float` -/

namespace Grate.F64

open Float.Model Float.Model.UnpackedFloat

/-- The rational value of a float (0 for NaN and infinities). -/
def fval (x : Float) : ℚ := uval x.toModel.unpack

/-- A finite float. -/
def FFin (x : Float) : Prop := UFin x.toModel.unpack

theorem ffin_iff (x : Float) : FFin x ↔ x.isFinite = true := by
  unfold FFin Float.isFinite Float.Model.isFinite UFin UnpackedFloat.isFinite
  cases x.toModel.unpack <;> simp

theorem rounds_refl (x : ℚ) : Rounds x x := fun _ _ => ⟨id, id⟩

theorem canon_to' {s M E h} (hc : Canon (.finite s M E h)) : Canon' M E :=
  ⟨hc.1, hc.2.1, hc.2.2.2⟩

/-- A canonical finite value is its own rounding. -/
theorem urounded_self {u : UnpackedFloat} (hc : Canon u) (hf : UFin u) : URounded (uval u) u := by
  refine ⟨hf, ?_, rounds_refl _⟩
  intro s M E h he
  subst he
  exact canon_to' hc

theorem Rep.neg {y : ℚ} (h : Rep y) : Rep (-y) := by
  obtain ⟨Y, F, h1, h2, h3⟩ := h
  exact ⟨Y, F, h1, h2, by rw [abs_neg]; exact h3⟩

/-- A packed correctly rounded result within the range of the format is finite and rounds the number. -/
theorem pack_rounded' {x b : ℚ} {u : UnpackedFloat} (h : URounded x u) (hb : Rep b) (hlt : b < 2 ^ 1024) (hx : |x| ≤ b) :
    UFin (Float.Model.pack u).unpack ∧ Rounds x (uval (Float.Model.pack u).unpack) := by
  have hc : Canon u := by
    cases u with
    | infinity => trivial
    | notANumber => trivial
    | zero => trivial
    | finite s M E hM =>
      have hc' := h.canon s M E hM rfl
      refine ⟨hc'.1, hc'.2.1, ?_, hc'.2.2⟩
      rcases hc'.2.2 with hM52 | hE
      · obtain ⟨hl, hu⟩ := abs_le.1 hx
        have h1 := (h.rounds _ hb).1 hu
        have h2 := (h.rounds _ hb.neg).2 hl
        have h3 : (M : ℚ) * 2 ^ E ≤ b := by
          cases s with
          | positive => simpa [uval, sgn] using h1
          | negative =>
            simp only [uval, sgn, neg_mul, one_mul] at h2
            linarith
        by_contra hgt
        have h4 : (2 : ℚ) ^ (972 : ℤ) ≤ 2 ^ E := zpow_le_zpow_right₀ (by norm_num) (by omega)
        have h5 : (2 ^ 52 : ℚ) ≤ M := by exact_mod_cast hM52
        have h6 : (2 : ℚ) ^ 52 * 2 ^ (972 : ℤ) ≤ M * 2 ^ E := by gcongr
        have h7 : (2 : ℚ) ^ 52 * 2 ^ (972 : ℤ) = 2 ^ 1024 := by
          rw [show (972 : ℤ) = ((972 : ℕ) : ℤ) by norm_num, zpow_natCast, ← pow_add]
        rw [h7] at h6
        exact absurd (h6.trans h3) (not_le.2 hlt)
      · omega
  rw [model_unpack_pack u hc]
  exact ⟨h.fin, h.rounds⟩

/-- A packed correctly rounded result that is not too large is finite and rounds the number. -/
theorem pack_rounded {x : ℚ} {u : UnpackedFloat} (h : URounded x u) (hx : |x| ≤ 2 ^ 1023) :
    UFin (Float.Model.pack u).unpack ∧ Rounds x (uval (Float.Model.pack u).unpack) :=
  pack_rounded' h (b := 2 ^ 1023) ⟨1, 1023, by norm_num, by norm_num, by
    rw [abs_of_pos (by positivity)]; norm_num⟩ (pow_lt_pow_right₀ one_lt_two (by norm_num)) hx

theorem rep_val_of_canon {u : UnpackedFloat} (hc : Canon u) : Rep (uval u) := by
  cases u with
  | infinity => exact rep_zero
  | notANumber => exact rep_zero
  | zero => exact rep_zero
  | finite s M E hM =>
    refine ⟨M, E, Nat.le_of_lt hc.1, hc.2.1, ?_⟩
    have := two_zpow_pos E
    cases s <;> simp [uval, sgn, abs_mul, abs_of_pos this]

theorem rep_fval (x : Float) : Rep (fval x) := rep_val_of_canon (model_canon _)

/-- Finite values lie below 2^1024. -/
theorem fval_lt (x : Float) : |fval x| < 2 ^ 1024 := by
  have hc := model_canon x.toModel
  unfold fval
  cases hu : x.toModel.unpack with
  | infinity => simp [uval]
  | notANumber => simp [uval]
  | zero => simp [uval]
  | finite s M E hM =>
    rw [hu] at hc
    have hp := two_zpow_pos E
    have e : |uval (.finite s M E hM)| = M * 2 ^ E := by
      cases s <;> simp [uval, sgn, abs_mul, abs_of_pos hp]
    rw [e]
    have h1 : (M : ℚ) < 2 ^ 53 := by exact_mod_cast hc.1
    have h2 : (2 : ℚ) ^ E ≤ 2 ^ (971 : ℤ) := zpow_le_zpow_right₀ (by norm_num) hc.2.2.1
    have h3 : (2 : ℚ) ^ 53 * 2 ^ (971 : ℤ) = 2 ^ 1024 := by
      rw [show (971 : ℤ) = ((971 : ℕ) : ℤ) by norm_num, zpow_natCast, ← pow_add]
    rw [← h3]
    exact (mul_lt_mul_of_pos_right h1 hp).trans_le (mul_le_mul_of_nonneg_left h2 (by positivity))

/-! ## Conversion from integers -/

theorem ofInt_spec' (n : Int) {b : ℚ} (hb : Rep b) (hlt : b < 2 ^ 1024) (h : |(n : ℚ)| ≤ b) :
    FFin (f64OfInt n) ∧ Rounds n (fval (f64OfInt n)) := by
  have h1 := normalize_spec n 0 .positive
  rw [zpow_zero, mul_one] at h1
  exact pack_rounded' h1 hb hlt h

theorem ofInt_spec (n : Int) (h : n.natAbs ≤ 2 ^ 1023) :
    FFin (f64OfInt n) ∧ Rounds n (fval (f64OfInt n)) := by
  have h1 := normalize_spec n 0 .positive
  rw [zpow_zero, mul_one] at h1
  refine pack_rounded h1 ?_
  have : |(n : ℚ)| = ((n.natAbs : ℕ) : ℚ) := by simp [Nat.cast_natAbs]
  rw [this]
  exact_mod_cast h

theorem ofInt_exact (n : Int) (h : n.natAbs ≤ 2 ^ 53) :
    FFin (f64OfInt n) ∧ fval (f64OfInt n) = n := by
  have hle : (2 : ℕ) ^ 53 ≤ 2 ^ 1023 := Nat.pow_le_pow_right (by norm_num) (by norm_num)
  obtain ⟨h1, h2⟩ := ofInt_spec n (le_trans h hle)
  exact ⟨h1, h2.exact (rep_int h)⟩

theorem ofNat_eq_ofInt (n : Nat) : f64OfNat n = f64OfInt n := rfl

theorem ofNat_exact (n : Nat) (h : n ≤ 2 ^ 53) : FFin (f64OfNat n) ∧ fval (f64OfNat n) = n := by
  have := ofInt_exact n (by simpa using h)
  rw [ofNat_eq_ofInt]
  simpa using this

/-! ## Arithmetic -/

theorem decrease_val (m : Nat) (e t : Int) (h : t ≤ e) :
    ((decreaseExponent m e t).1 : ℚ) * 2 ^ t = m * 2 ^ e := by
  unfold decreaseExponent
  simp only [Nat.shiftLeft_eq]
  rw [zpow_split e t h]
  push_cast
  ring

theorem sgn_apply (s : Sign) (n : Nat) : ((s.apply n : Int) : ℚ) = sgn s * n := by
  cases s <;> simp [Sign.apply, sgn]

theorem uadd_spec {a b : UnpackedFloat} (ha : UFin a) (hb : UFin b) (ca : Canon a) (cb : Canon b) :
    URounded (uval a + uval b) (UnpackedFloat.add Format.binary64 a b) := by
  cases a with
  | infinity => exact absurd ha id
  | notANumber => exact absurd ha id
  | zero s =>
    cases b with
    | infinity => exact absurd hb id
    | notANumber => exact absurd hb id
    | zero t =>
      unfold UnpackedFloat.add
      simp only [uval]
      split <;> exact ⟨trivial, fun _ _ _ _ hc => (nomatch hc), by simpa [uval] using rounds_refl 0⟩
    | finite t m e hm =>
      simp only [uval, zero_add]
      exact urounded_self cb hb
  | finite s m e hm =>
    cases b with
    | infinity => exact absurd hb id
    | notANumber => exact absurd hb id
    | zero t =>
      simp only [uval, add_zero]
      exact urounded_self ca ha
    | finite t m' e' hm' =>
      have := normalize_spec (s.apply ((decreaseExponent m e (min e e')).1 : Nat)
        + t.apply ((decreaseExponent m' e' (min e e')).1 : Nat)) (min e e') .positive
      have hv : (((s.apply ((decreaseExponent m e (min e e')).1 : Nat)
        + t.apply ((decreaseExponent m' e' (min e e')).1 : Nat) : Int)) : ℚ) * 2 ^ (min e e') =
          uval (.finite s m e hm) + uval (.finite t m' e' hm') := by
        rw [Int.cast_add, sgn_apply, sgn_apply, add_mul, mul_assoc, mul_assoc,
          decrease_val _ _ _ (min_le_left _ _), decrease_val _ _ _ (min_le_right _ _)]
        rfl
      rw [hv] at this
      exact this

theorem usub_spec {a b : UnpackedFloat} (ha : UFin a) (hb : UFin b) (ca : Canon a) (cb : Canon b) :
    URounded (uval a - uval b) (UnpackedFloat.sub Format.binary64 a b) := by
  cases a with
  | infinity => exact absurd ha id
  | notANumber => exact absurd ha id
  | zero s =>
    cases b with
    | infinity => exact absurd hb id
    | notANumber => exact absurd hb id
    | zero t =>
      unfold UnpackedFloat.sub
      simp only [uval]
      split <;> exact ⟨trivial, fun _ _ _ _ hc => (nomatch hc), by simpa [uval] using rounds_refl 0⟩
    | finite t m e hm =>
      have h1 : UnpackedFloat.sub Format.binary64 (.zero s) (.finite t m e hm) = .finite (-t) m e hm := rfl
      have h2 : uval (.zero s) - uval (.finite t m e hm) = uval (.finite (-t) m e hm) := by
        cases t
        · show (0 : ℚ) - -1 * _ = 1 * _; ring
        · show (0 : ℚ) - 1 * _ = -1 * _; ring
      rw [h1, h2]
      exact urounded_self (u := .finite (-t) m e hm) cb trivial
  | finite s m e hm =>
    cases b with
    | infinity => exact absurd hb id
    | notANumber => exact absurd hb id
    | zero t =>
      simp only [uval, sub_zero]
      exact urounded_self ca ha
    | finite t m' e' hm' =>
      have := normalize_spec (s.apply ((decreaseExponent m e (min e e')).1 : Nat)
        - t.apply ((decreaseExponent m' e' (min e e')).1 : Nat)) (min e e') .positive
      have hv : (((s.apply ((decreaseExponent m e (min e e')).1 : Nat)
        - t.apply ((decreaseExponent m' e' (min e e')).1 : Nat) : Int)) : ℚ) * 2 ^ (min e e') =
          uval (.finite s m e hm) - uval (.finite t m' e' hm') := by
        rw [Int.cast_sub, sgn_apply, sgn_apply, sub_mul, mul_assoc, mul_assoc,
          decrease_val _ _ _ (min_le_left _ _), decrease_val _ _ _ (min_le_right _ _)]
        rfl
      rw [hv] at this
      exact this

theorem sgn_mul (s t : Sign) : sgn (s * t) = sgn s * sgn t := by
  cases s <;> cases t
  · show (1 : ℚ) = -1 * -1; norm_num
  · show (-1 : ℚ) = -1 * 1; norm_num
  · show (-1 : ℚ) = 1 * -1; norm_num
  · show (1 : ℚ) = 1 * 1; norm_num

theorem sgn_div (s t : Sign) : sgn (s / t) = sgn s / sgn t := by
  cases s <;> cases t
  · show (1 : ℚ) = -1 / -1; norm_num
  · show (-1 : ℚ) = -1 / 1; norm_num
  · show (-1 : ℚ) = 1 / -1; norm_num
  · show (1 : ℚ) = 1 / 1; norm_num

theorem log2_mul_ge {a b : Nat} (ha : 0 < a) (hb : 0 < b) : a.log2 + b.log2 ≤ (a * b).log2 := by
  have h1 := Nat.log2_self_le (Nat.pos_iff_ne_zero.1 ha)
  have h2 := Nat.log2_self_le (Nat.pos_iff_ne_zero.1 hb)
  rw [Nat.le_log2 (by positivity)]
  rw [Nat.pow_add]
  exact Nat.mul_le_mul h1 h2

theorem log2_of_canon' {M : Nat} {E : Int} (h : Canon' M E) (hE : -1074 < E) : M.log2 = 52 := by
  rcases h.2.2 with h1 | h1
  · exact log2_of_canon h1 h.1
  · omega

theorem umul_spec {a b : UnpackedFloat} (ha : UFin a) (hb : UFin b) (ca : Canon a) (cb : Canon b) :
    URounded (uval a * uval b) (UnpackedFloat.mul Format.binary64 a b) := by
  have hz : ∀ s, URounded 0 (.zero s) := fun s =>
    ⟨trivial, fun _ _ _ _ hc => (nomatch hc), rounds_refl 0⟩
  cases a with
  | infinity => exact absurd ha id
  | notANumber => exact absurd ha id
  | zero s =>
    cases b with
    | infinity => exact absurd hb id
    | notANumber => exact absurd hb id
    | zero t => simp only [uval, zero_mul]; exact hz _
    | finite t m e hm => simp only [uval, zero_mul]; exact hz _
  | finite s m e hm =>
    cases b with
    | infinity => exact absurd hb id
    | notANumber => exact absurd hb id
    | zero t => simp only [uval, mul_zero]; exact hz _
    | finite t m' e' hm' =>
      have h1 : UnpackedFloat.mul Format.binary64 (.finite s m e hm) (.finite t m' e' hm') =
        roundWithAccuracy Format.binary64 (s * t) (m * m') (e + e') .exact := rfl
      have hc1 := canon_to' ca
      have hc2 := canon_to' cb
      have hl := log2_mul_ge hm hm'
      have hexp : e + e' ≤ target (((m * m').log2 : Nat) + 1 + (e + e')) := by
        unfold target
        by_cases hE : -1074 < e
        · have := log2_of_canon' hc1 hE; omega
        · by_cases hE' : -1074 < e'
          · have := log2_of_canon' hc2 hE'; omega
          · omega
      obtain ⟨M, E, h2, h3, h4⟩ := roundWithAccuracy_spec (s * t) (m * m') (e + e') .exact (m * m') 1
        Nat.one_pos (enc_exact _) hexp
      rw [h1, h2]
      have := URounded.of_mkFin (s := s * t) h3 h4
      have hv : sgn (s * t) * (((m * m' : ℕ) : ℚ) / ((1 : ℕ) : ℚ) * 2 ^ (e + e')) =
          uval (.finite s m e hm) * uval (.finite t m' e' hm') := by
        rw [sgn_mul, zpow_add₀ (by norm_num)]
        simp only [uval]
        push_cast
        ring
      rw [hv] at this
      exact this

theorem udiv_spec {a b : UnpackedFloat} (ha : UFin a) (hb : UFin b) (hb0 : uval b ≠ 0) :
    URounded (uval a / uval b) (UnpackedFloat.div Format.binary64 a b) := by
  have hz : ∀ s, URounded 0 (.zero s) := fun s =>
    ⟨trivial, fun _ _ _ _ hc => (nomatch hc), rounds_refl 0⟩
  cases b with
  | infinity => exact absurd hb id
  | notANumber => exact absurd hb id
  | zero t => exact absurd rfl hb0
  | finite t m' e' hm' =>
    cases a with
    | infinity => exact absurd ha id
    | notANumber => exact absurd ha id
    | zero s => simp only [uval, zero_div]; exact hz _
    | finite s m e hm =>
      have h1 : UnpackedFloat.div Format.binary64 (.finite s m e hm) (.finite t m' e' hm') =
        roundWithAccuracy Format.binary64 (s / t) (divCore Format.binary64 m e m' e').1
          (divCore Format.binary64 m e m' e').2.1 (divCore Format.binary64 m e m' e').2.2 := rfl
      rw [h1]
      unfold divCore totalExponent
      simp only [target_eq]
      generalize hg : min (e - e') (target (↑m.log2 + 1 + e - (↑m'.log2 + 1 + e'))) = g
      generalize hk : (e - e' - g).toNat = k
      have hge : g ≤ e - e' := by omega
      have hN : 0 < m <<< k := by rw [Nat.shiftLeft_eq]; positivity
      have hlog : (m <<< k).log2 = m.log2 + k := by
        rw [Nat.shiftLeft_eq]
        rw [Nat.log2_eq_iff (by positivity)]
        have h1 := Nat.log2_self_le (Nat.pos_iff_ne_zero.1 hm)
        have h2 := @Nat.lt_log2_self m
        constructor
        · rw [Nat.pow_add]; exact Nat.mul_le_mul_right _ h1
        · rw [show m.log2 + k + 1 = (m.log2 + 1) + k by omega, Nat.pow_add]
          exact Nat.mul_lt_mul_of_pos_right h2 (by positivity)
      have hexp : g ≤ target (((m <<< k / m').log2 : Nat) + 1 + g) := by
        by_cases hsmall : g ≤ -1074
        · unfold target; omega
        · -- enough bits in the quotient
          have hg2 : g ≤ (m.log2 : Int) - m'.log2 + (e - e') - 53 := by
            unfold target at hg; omega
          have hk2 : m'.log2 + 53 ≤ m.log2 + k := by omega
          have hq : 2 ^ 52 ≤ m <<< k / m' := by
            rw [Nat.le_div_iff_mul_le hm']
            have h3 := Nat.log2_self_le (Nat.pos_iff_ne_zero.1 hN)
            rw [hlog] at h3
            have h4 := @Nat.lt_log2_self m'
            calc 2 ^ 52 * m' ≤ 2 ^ 52 * 2 ^ (m'.log2 + 1) := Nat.mul_le_mul_left _ h4.le
              _ = 2 ^ (m'.log2 + 53) := by rw [← Nat.pow_add]; congr 1; omega
              _ ≤ 2 ^ (m.log2 + k) := Nat.pow_le_pow_right (by norm_num) hk2
              _ ≤ _ := h3
          have := (Nat.le_log2 (by omega)).2 hq
          unfold target; omega
      obtain ⟨M, E, h2, h3, h4⟩ := roundWithAccuracy_spec (s / t) (m <<< k / m') g
        (accuracyOfFraction (m <<< k % m') m') (m <<< k) m' hm' (enc_frac _ _ hm') hexp
      rw [h2]
      have := URounded.of_mkFin (s := s / t) h3 h4
      have hm'q : (0 : ℚ) < m' := by exact_mod_cast hm'
      have hv : sgn (s / t) * (((m <<< k : ℕ) : ℚ) / (m' : ℚ) * 2 ^ g) =
          uval (.finite s m e hm) / uval (.finite t m' e' hm') := by
        rw [sgn_div, Nat.shiftLeft_eq]
        simp only [uval]
        have he : (2 : ℚ) ^ e = ((2 ^ k : ℕ) : ℚ) * 2 ^ g * 2 ^ e' := by
          rw [mul_assoc, ← zpow_add₀ (by norm_num), zpow_split e (g + e') (by omega)]
          congr 4
          omega
        rw [he]
        have := two_zpow_pos e'
        have ht : sgn t ≠ 0 := by cases t <;> norm_num [sgn]
        push_cast
        field_simp
      rw [hv] at this
      exact this

/-- Float addition is correctly rounded. -/
theorem add_spec {a b : Float} (ha : FFin a) (hb : FFin b) (h : |fval a + fval b| ≤ 2 ^ 1023) :
    FFin (a + b) ∧ Rounds (fval a + fval b) (fval (a + b)) :=
  pack_rounded (uadd_spec ha hb (model_canon _) (model_canon _)) h

theorem sub_spec {a b : Float} (ha : FFin a) (hb : FFin b) (h : |fval a - fval b| ≤ 2 ^ 1023) :
    FFin (a - b) ∧ Rounds (fval a - fval b) (fval (a - b)) :=
  pack_rounded (usub_spec ha hb (model_canon _) (model_canon _)) h

theorem mul_spec {a b : Float} (ha : FFin a) (hb : FFin b) (h : |fval a * fval b| ≤ 2 ^ 1023) :
    FFin (a * b) ∧ Rounds (fval a * fval b) (fval (a * b)) :=
  pack_rounded (umul_spec ha hb (model_canon _) (model_canon _)) h

theorem div_spec {a b : Float} (ha : FFin a) (hb : FFin b) (hb0 : fval b ≠ 0)
    (h : |fval a / fval b| ≤ 2 ^ 1023) :
    FFin (a / b) ∧ Rounds (fval a / fval b) (fval (a / b)) :=
  pack_rounded (udiv_spec ha hb hb0) h

theorem neg_spec {a : Float} (ha : FFin a) : FFin (-a) ∧ fval (-a) = - fval a := by
  have h1 : (-a).toModel = Float.Model.pack a.toModel.unpack.neg := rfl
  have hc := model_canon a.toModel
  unfold FFin fval at *
  rw [h1]
  cases hu : a.toModel.unpack with
  | infinity => rw [hu] at ha; exact absurd ha id
  | notANumber => rw [hu] at ha; exact absurd ha id
  | zero s =>
    rw [model_unpack_pack _ (show Canon (UnpackedFloat.neg (.zero s)) from trivial)]
    exact ⟨trivial, by simp [uval, UnpackedFloat.neg]⟩
  | finite s m e hm =>
    rw [hu] at hc
    rw [model_unpack_pack _ (show Canon (UnpackedFloat.neg (.finite s m e hm)) from hc)]
    refine ⟨trivial, ?_⟩
    show sgn (-s) * _ = - (sgn s * _)
    cases s
    · show (1 : ℚ) * _ = -(-1 * _); ring
    · show (-1 : ℚ) * _ = -(1 * _); ring

end Grate.F64
