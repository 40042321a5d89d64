import Verif.Lemmas.FloatOps

/-! # Comparison and truncation of binary64 values -/

namespace Grate.F64

open Float.Model Float.Model.UnpackedFloat

theorem mag_lt {m m' : ℕ} {e e' : ℤ} (h : Canon' m e) (h' : Canon' m' e') (he : e < e') :
    (m : ℚ) * 2 ^ e < m' * 2 ^ e' := by
  have h52 : 2 ^ 52 ≤ m' := by
    rcases h'.2.2 with h1 | h1
    · exact h1
    · have := h.2.1; omega
  have a1 : (m : ℚ) < 2 ^ 53 := by exact_mod_cast h.1
  have a2 : (2 ^ 52 : ℚ) ≤ m' := by exact_mod_cast h52
  have a3 : (2 : ℚ) ^ e ≤ 2 ^ (e' - 1) := zpow_le_zpow_right₀ (by norm_num) (by omega)
  have a4 : (2 : ℚ) ^ e' = 2 ^ (e' - 1) * 2 := by
    conv_lhs => rw [show e' = (e' - 1) + 1 by ring]
    rw [zpow_add_one₀ (by norm_num)]
  have p1 := two_zpow_pos e
  have p2 := two_zpow_pos (e' - 1)
  calc (m : ℚ) * 2 ^ e < 2 ^ 53 * 2 ^ e := by gcongr
    _ ≤ 2 ^ 53 * 2 ^ (e' - 1) := by gcongr
    _ = 2 ^ 52 * 2 ^ e' := by rw [a4]; ring
    _ ≤ m' * 2 ^ e' := by gcongr

/-- The outcome `o` of comparing `x` with `y`. -/
def CmpIs (o : Ordering) (x y : ℚ) : Prop :=
  match o with
  | .lt => x < y
  | .eq => x = y
  | .gt => y < x

theorem cmp_mag {m m' : ℕ} {e e' : ℤ} (h : Canon' m e) (h' : Canon' m' e') :
    CmpIs ((compare e e').then (compare m m')) (m * 2 ^ e) (m' * 2 ^ e') := by
  rcases lt_trichotomy e e' with he | he | he
  · rw [Int.compare_eq_lt.2 he]; exact mag_lt h h' he
  · subst he
    have p := two_zpow_pos e
    rw [Int.compare_eq_eq.2 rfl]
    rcases lt_trichotomy m m' with hm | hm | hm
    · rw [Nat.compare_eq_lt.2 hm]
      exact mul_lt_mul_of_pos_right (by exact_mod_cast hm) p
    · subst hm; rw [Nat.compare_eq_eq.2 rfl]; exact rfl
    · rw [Nat.compare_eq_gt.2 hm]
      exact mul_lt_mul_of_pos_right (by exact_mod_cast hm) p
  · rw [Int.compare_eq_gt.2 he]; exact mag_lt h' h he

theorem CmpIs.swap_neg {o : Ordering} {x y : ℚ} (h : CmpIs o x y) : CmpIs o.swap (-x) (-y) := by
  cases o with
  | lt => exact neg_lt_neg h
  | eq => exact congrArg _ h
  | gt => exact neg_lt_neg h

/-- On finite canonical values `compare` is the comparison of the rational values. -/
theorem ucompare_spec {a b : UnpackedFloat} (ha : UFin a) (hb : UFin b) (ca : Canon a) (cb : Canon b) :
    ∃ o, UnpackedFloat.compare a b = some o ∧ CmpIs o (uval a) (uval b) := by
  cases a with
  | infinity => exact absurd ha id
  | notANumber => exact absurd ha id
  | zero s =>
    cases b with
    | infinity => exact absurd hb id
    | notANumber => exact absurd hb id
    | zero t => exact ⟨.eq, rfl, rfl⟩
    | finite t m e hm =>
      have p := two_zpow_pos e
      have q : (0 : ℚ) < m := by exact_mod_cast hm
      cases t with
      | positive => exact ⟨.lt, rfl, by simp only [CmpIs, uval, sgn]; positivity⟩
      | negative =>
        exact ⟨.gt, rfl, by
          have := mul_pos q p
          simp only [CmpIs, uval, sgn]; linarith⟩
  | finite s m e hm =>
    have p := two_zpow_pos e
    have q : (0 : ℚ) < m := by exact_mod_cast hm
    have r := mul_pos q p
    cases b with
    | infinity => exact absurd hb id
    | notANumber => exact absurd hb id
    | zero t =>
      cases s with
      | positive => exact ⟨.gt, rfl, by simp only [CmpIs, uval, sgn]; linarith⟩
      | negative => exact ⟨.lt, rfl, by simp only [CmpIs, uval, sgn]; linarith⟩
    | finite t m' e' hm' =>
      have p' := two_zpow_pos e'
      have q' : (0 : ℚ) < m' := by exact_mod_cast hm'
      have r' := mul_pos q' p'
      have hc := cmp_mag (canon_to' ca) (canon_to' cb)
      cases s with
      | positive =>
        cases t with
        | positive => exact ⟨_, rfl, by simpa only [uval, sgn, one_mul] using hc⟩
        | negative => exact ⟨.gt, rfl, by simp only [CmpIs, uval, sgn]; linarith⟩
      | negative =>
        cases t with
        | positive => exact ⟨.lt, rfl, by simp only [CmpIs, uval, sgn]; linarith⟩
        | negative =>
          exact ⟨_, rfl, by simpa only [uval, sgn, neg_mul, one_mul] using hc.swap_neg⟩

theorem lt_def' (a b : Float) : a < b ↔ UnpackedFloat.compare a.toModel.unpack b.toModel.unpack = some .lt := by
  show (decide (a.toModel < b.toModel)) = true ↔ _
  rw [decide_eq_true_iff]
  show (UnpackedFloat.compare a.toModel.unpack b.toModel.unpack == some .lt) = true ↔ _
  exact beq_iff_eq

theorem le_def' (a b : Float) :
    a ≤ b ↔ (UnpackedFloat.compare a.toModel.unpack b.toModel.unpack).any (·.isLE) = true := by
  show (decide (a.toModel ≤ b.toModel)) = true ↔ _
  rw [decide_eq_true_iff]
  rfl

theorem beq_def' (a b : Float) :
    (a == b) = true ↔ UnpackedFloat.compare a.toModel.unpack b.toModel.unpack = some .eq := by
  show (UnpackedFloat.compare a.toModel.unpack b.toModel.unpack == some .eq) = true ↔ _
  exact beq_iff_eq

theorem lt_iff {a b : Float} (ha : FFin a) (hb : FFin b) : a < b ↔ fval a < fval b := by
  obtain ⟨o, h1, h2⟩ := ucompare_spec ha hb (model_canon _) (model_canon _)
  rw [lt_def', h1]
  unfold fval
  cases o with
  | lt => simpa using (show uval _ < uval _ from h2)
  | eq => simp only [Option.some.injEq, reduceCtorEq, false_iff]; exact fun h => absurd h2 h.ne
  | gt => simp only [Option.some.injEq, reduceCtorEq, false_iff]; exact fun h => absurd h2 h.asymm

theorem le_iff {a b : Float} (ha : FFin a) (hb : FFin b) : a ≤ b ↔ fval a ≤ fval b := by
  obtain ⟨o, h1, h2⟩ := ucompare_spec ha hb (model_canon _) (model_canon _)
  rw [le_def', h1]
  unfold fval
  cases o with
  | lt => simpa [Ordering.isLE] using (show uval _ < uval _ from h2).le
  | eq => simpa [Ordering.isLE] using (show uval _ = uval _ from h2).le
  | gt => simpa [Ordering.isLE] using (show uval _ < uval _ from h2)

theorem beq_iff {a b : Float} (ha : FFin a) (hb : FFin b) : (a == b) = true ↔ fval a = fval b := by
  obtain ⟨o, h1, h2⟩ := ucompare_spec ha hb (model_canon _) (model_canon _)
  rw [beq_def', h1]
  unfold fval
  cases o with
  | lt => simp only [Option.some.injEq, reduceCtorEq, false_iff]; exact (show uval _ < uval _ from h2).ne
  | eq => simpa using (show uval _ = uval _ from h2)
  | gt => simp only [Option.some.injEq, reduceCtorEq, false_iff]; exact (show uval _ < uval _ from h2).ne'

/-! ## The order of all floats, including infinities -/

/-- Class of a value: -1, 0, 1 for negative infinity, finite, positive infinity. -/
def ucls : UnpackedFloat → ℤ
  | .infinity .negative => -1
  | .infinity .positive => 1
  | _ => 0

theorem ucompare_full {a b : UnpackedFloat} (ha : a ≠ .notANumber) (hb : b ≠ .notANumber)
    (ca : Canon a) (cb : Canon b) :
    ∃ o, UnpackedFloat.compare a b = some o ∧
      (match o with
       | .lt => ucls a < ucls b ∨ ucls a = ucls b ∧ uval a < uval b
       | .eq => ucls a = ucls b ∧ uval a = uval b
       | .gt => ucls b < ucls a ∨ ucls a = ucls b ∧ uval b < uval a) := by
  by_cases fa : UFin a
  · by_cases fb : UFin b
    · obtain ⟨o, h1, h2⟩ := ucompare_spec fa fb ca cb
      refine ⟨o, h1, ?_⟩
      have e1 : ucls a = 0 := by cases a <;> first | rfl | exact absurd fa id
      have e2 : ucls b = 0 := by cases b <;> first | rfl | exact absurd fb id
      rw [e1, e2]
      cases o with
      | lt => exact Or.inr ⟨rfl, h2⟩
      | eq => exact ⟨rfl, h2⟩
      | gt => exact Or.inr ⟨rfl, h2⟩
    · cases b with
      | notANumber => exact absurd rfl hb
      | zero => exact absurd trivial fb
      | finite => exact absurd trivial fb
      | infinity t =>
        cases a with
        | notANumber => exact absurd rfl ha
        | infinity => exact absurd fa id
        | zero s => cases t <;> exact ⟨_, rfl, by simp [ucls]⟩
        | finite s => cases t <;> cases s <;> exact ⟨_, rfl, by simp [ucls]⟩
  · cases a with
    | notANumber => exact absurd rfl ha
    | zero => exact absurd trivial fa
    | finite => exact absurd trivial fa
    | infinity s =>
      cases b with
      | notANumber => exact absurd rfl hb
      | infinity t =>
        cases s <;> cases t
        · exact ⟨.eq, rfl, by simp [uval]⟩
        · exact ⟨.lt, rfl, by simp [ucls]⟩
        · exact ⟨.gt, rfl, by simp [ucls]⟩
        · exact ⟨.eq, rfl, by simp [uval]⟩
      | zero t => cases s <;> exact ⟨_, rfl, by simp [ucls]⟩
      | finite t => cases s <;> cases t <;> exact ⟨_, rfl, by simp [ucls]⟩

/-- NaN. -/
def IsNaN (x : Float) : Prop := x.toModel.unpack = .notANumber

theorem isNaN_iff (x : Float) : IsNaN x ↔ x.isNaN = true := by
  unfold IsNaN Float.isNaN Float.Model.isNaN UnpackedFloat.isNaN
  cases x.toModel.unpack <;> simp

theorem compare_nan {a b : Float} (h : IsNaN a ∨ IsNaN b) :
    UnpackedFloat.compare a.toModel.unpack b.toModel.unpack = none := by
  rcases h with h | h
  · rw [h]; rfl
  · rw [h]; cases a.toModel.unpack <;> rfl

/-- Key by which non-NaN floats are ordered. -/
def Below (a b : Float) : Prop :=
  ucls a.toModel.unpack < ucls b.toModel.unpack ∨
    ucls a.toModel.unpack = ucls b.toModel.unpack ∧ fval a < fval b

/-- Same key. -/
def SameKey (a b : Float) : Prop :=
  ucls a.toModel.unpack = ucls b.toModel.unpack ∧ fval a = fval b

theorem lt_iff_below {a b : Float} (ha : ¬ IsNaN a) (hb : ¬ IsNaN b) : a < b ↔ Below a b := by
  obtain ⟨o, h1, h2⟩ := ucompare_full ha hb (model_canon _) (model_canon _)
  rw [lt_def', h1]
  unfold Below fval
  cases o with
  | lt => simpa using h2
  | eq =>
    simp only [Option.some.injEq, reduceCtorEq, false_iff]
    rintro (h | ⟨_, h⟩)
    · exact absurd h2.1 h.ne
    · exact absurd h2.2 h.ne
  | gt =>
    simp only [Option.some.injEq, reduceCtorEq, false_iff]
    rintro (h | ⟨h0, h⟩)
    · rcases h2 with h3 | ⟨h3, _⟩ <;> omega
    · rcases h2 with h3 | ⟨_, h3⟩
      · omega
      · exact absurd h3 h.asymm

theorem beq_iff_same {a b : Float} (ha : ¬ IsNaN a) (hb : ¬ IsNaN b) :
    (a == b) = true ↔ SameKey a b := by
  obtain ⟨o, h1, h2⟩ := ucompare_full ha hb (model_canon _) (model_canon _)
  rw [beq_def', h1]
  unfold SameKey fval
  cases o with
  | lt =>
    simp only [Option.some.injEq, reduceCtorEq, false_iff]
    rintro ⟨h3, h4⟩
    rcases h2 with h | ⟨_, h⟩
    · omega
    · exact absurd h4 h.ne
  | eq => simpa using h2
  | gt =>
    simp only [Option.some.injEq, reduceCtorEq, false_iff]
    rintro ⟨h3, h4⟩
    rcases h2 with h | ⟨_, h⟩
    · omega
    · exact absurd h4 h.ne'

theorem not_lt_nan {a b : Float} (h : IsNaN a ∨ IsNaN b) : ¬ a < b := by
  rw [lt_def', compare_nan h]; simp

theorem not_beq_nan {a b : Float} (h : IsNaN a ∨ IsNaN b) : ¬ (a == b) = true := by
  rw [beq_def', compare_nan h]; simp

/-! ## Truncation -/

theorem shift_exact_mant (m k : Nat) :
    ((ExtendedMantissa.ofMantissaAndAccuracy m .exact) >>> k).mantissa = m / 2 ^ k := by
  have := ((enc_exact m).shift Nat.one_pos k).mant
  simpa using this

/-- `t` is `q` truncated towards zero. -/
def TruncOf (q : ℚ) (t : ℤ) : Prop :=
  (0 ≤ q → (t : ℚ) ≤ q ∧ q < t + 1) ∧ (q ≤ 0 → (t : ℚ) - 1 < q ∧ q ≤ t)

theorem truncOf_unique {q : ℚ} {t t' : ℤ} (h : TruncOf q t) (h' : TruncOf q t') : t = t' := by
  rcases le_total 0 q with h0 | h0
  · obtain ⟨a, b⟩ := h.1 h0
    obtain ⟨a', b'⟩ := h'.1 h0
    have h1 : t < t' + 1 := by exact_mod_cast lt_of_le_of_lt a b'
    have h2 : t' < t + 1 := by exact_mod_cast lt_of_le_of_lt a' b
    omega
  · obtain ⟨a, b⟩ := h.2 h0
    obtain ⟨a', b'⟩ := h'.2 h0
    have h1 : t - 1 < t' := by exact_mod_cast lt_of_lt_of_le a b'
    have h2 : t' - 1 < t := by exact_mod_cast lt_of_lt_of_le a' b
    omega

theorem truncOf_int (n : ℤ) : TruncOf n n := by
  constructor
  · intro _; exact ⟨le_rfl, by linarith⟩
  · intro _; exact ⟨by linarith, le_rfl⟩

theorem roundToInt_spec (s : Sign) (m : ℕ) (e : ℤ) :
    TruncOf (sgn s * (m * 2 ^ e)) (roundToInt s m e) := by
  unfold roundToInt decreaseExponent shiftToExponent
  simp only [shift_exact_mant]
  have key : ∃ k : ℕ, ((m <<< (e - 0).toNat / 2 ^ (0 - (e - ((e - 0).toNat : ℤ))).toNat : ℕ)) = k ∧
      (k : ℚ) ≤ m * 2 ^ e ∧ (m : ℚ) * 2 ^ e < k + 1 := by
    refine ⟨_, rfl, ?_⟩
    rw [Nat.shiftLeft_eq]
    rcases le_or_gt 0 e with h | h
    · have h1 : (0 - (e - ((e - 0).toNat : ℤ))).toNat = 0 := by omega
      rw [h1, pow_zero, Nat.div_one]
      have h2 : (m : ℚ) * 2 ^ e = ((m * 2 ^ (e - 0).toNat : ℕ) : ℚ) := by
        rw [zpow_split e 0 h]; push_cast; rw [mul_one]
      rw [h2]
      exact ⟨le_rfl, by linarith⟩
    · have h1 : (e - 0).toNat = 0 := by omega
      rw [h1, pow_zero, Nat.mul_one]
      generalize hk : (0 - (e - ((0 : ℕ) : ℤ))).toNat = k
      have hp : (0 : ℚ) < 2 ^ k := by positivity
      have h2 : (m : ℚ) * 2 ^ e = m / 2 ^ k := by
        have : e = -(k : ℤ) := by omega
        rw [this, zpow_neg, zpow_natCast]; rfl
      rw [h2, le_div_iff₀ hp, div_lt_iff₀ hp]
      have h3 := Nat.div_add_mod m (2 ^ k)
      have h4 := Nat.mod_lt m (show 0 < 2 ^ k by positivity)
      constructor
      · have : m / 2 ^ k * 2 ^ k ≤ m := Nat.div_mul_le_self _ _
        exact_mod_cast this
      · have : m < (m / 2 ^ k + 1) * 2 ^ k := by
          rw [Nat.add_mul, Nat.one_mul, Nat.mul_comm]; omega
        exact_mod_cast this
  obtain ⟨k, hk, h1, h2⟩ := key
  rw [hk]
  have hnn : (0 : ℚ) ≤ m * 2 ^ e := by positivity
  have hkn : (0 : ℚ) ≤ k := by positivity
  cases s with
  | positive =>
    simp only [sgn, one_mul, Sign.apply]
    refine ⟨fun _ => ⟨by exact_mod_cast h1, by exact_mod_cast h2⟩, fun h => ?_⟩
    have : (m : ℚ) * 2 ^ e = 0 := le_antisymm h hnn
    push_cast
    constructor <;> linarith
  | negative =>
    simp only [sgn, neg_mul, one_mul, Sign.apply]
    have ec : ((-(k : ℤ) : ℤ) : ℚ) = -(k : ℚ) := by push_cast; rfl
    unfold TruncOf
    rw [ec]
    refine ⟨fun h => ?_, fun _ => ⟨by linarith, by linarith⟩⟩
    have : (m : ℚ) * 2 ^ e = 0 := by linarith
    constructor <;> linarith

theorem trunc_spec {x : Float} (hx : FFin x) : TruncOf (fval x) (f64TruncInt x) := by
  unfold fval f64TruncInt
  unfold FFin at hx
  cases hu : x.toModel.unpack with
  | infinity => rw [hu] at hx; exact absurd hx id
  | notANumber => rw [hu] at hx; exact absurd hx id
  | zero s => exact_mod_cast truncOf_int 0
  | finite s m e hm => exact roundToInt_spec s m e

theorem trunc_of_val {x : Float} (hx : FFin x) {n : ℤ} (h : fval x = n) : f64TruncInt x = n :=
  truncOf_unique (h ▸ trunc_spec hx) (truncOf_int n)

theorem toInt_of_trunc {x : Float} (hx : FFin x) {n : ℤ} (h : TruncOf (fval x) n)
    (h1 : -(2 ^ 63) ≤ n) (h2 : n < 2 ^ 63) : f64ToInt x = n := by
  have ht := truncOf_unique (trunc_spec hx) h
  unfold f64ToInt
  rw [if_pos ((ffin_iff x).1 hx)]
  simp only [ht]
  rw [if_pos ⟨h1, h2⟩]

theorem toInt_of_val {x : Float} (hx : FFin x) {n : ℤ} (h : fval x = n)
    (h1 : -(2 ^ 63) ≤ n) (h2 : n < 2 ^ 63) : f64ToInt x = n :=
  toInt_of_trunc hx (h ▸ truncOf_int n) h1 h2

end Grate.F64
