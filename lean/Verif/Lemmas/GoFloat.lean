import Verif.Model.GoFloat
import Verif.Spec.NumText
import Verif.Lemmas.Fraction
import Verif.Lemmas.FloatOrd
import Verif.Lemmas.Decimal
import Verif.Lemmas.XlsxRefs

/-! # Printing of floats: helper lemmas -/

namespace Grate

open Spec Grate.F64 Float.Model Float.Model.UnpackedFloat

/-- Rounding of a quotient is rounding to the nearest integer. -/
theorem halfEven_nearest (N D : Nat) (hD : 0 < D) : Nearest (halfEven N D) ((N : ℚ) / D) := by
  have h1 := Nat.div_add_mod N D
  have h2 := Nat.mod_lt N hD
  have hDq : (0 : ℚ) < D := by exact_mod_cast hD
  generalize hq : N / D = q at *
  generalize hr : N % D = r at *
  have hN : (N : ℚ) / D = q + (r : ℚ) / D := by
    rw [← h1]; push_cast; field_simp
  have hr0 : (0 : ℚ) ≤ (r : ℚ) / D := by positivity
  unfold halfEven
  simp only [hq, hr]
  rw [hN]
  by_cases hc : 2 * r < D ∨ (2 * r = D ∧ q % 2 = 0)
  · rw [if_pos hc]
    have hle : (r : ℚ) / D ≤ 1 / 2 := by
      rw [div_le_div_iff₀ hDq (by norm_num)]
      have : r * 2 ≤ 1 * D := by omega
      exact_mod_cast this
    have ha : |(q : ℚ) - (q + (r : ℚ) / D)| = (r : ℚ) / D := by
      rw [show (q : ℚ) - (q + (r : ℚ) / D) = -((r : ℚ) / D) by ring, abs_neg, abs_of_nonneg hr0]
    rw [Nearest, ha]
    refine ⟨hle, fun he => ?_⟩
    rw [div_eq_div_iff (by positivity) (by norm_num)] at he
    have : r * 2 = 1 * D := by exact_mod_cast he
    omega
  · rw [if_neg hc]
    have hge : 1 / 2 ≤ (r : ℚ) / D := by
      rw [div_le_div_iff₀ (by norm_num) hDq]
      have : 1 * D ≤ r * 2 := by omega
      exact_mod_cast this
    have hlt : (r : ℚ) / D < 1 := by
      rw [div_lt_one hDq]; exact_mod_cast h2
    have ha : |((q + 1 : ℕ) : ℚ) - (q + (r : ℚ) / D)| = 1 - (r : ℚ) / D := by
      rw [show ((q + 1 : ℕ) : ℚ) - (q + (r : ℚ) / D) = 1 - (r : ℚ) / D by push_cast; ring,
        abs_of_nonneg (by linarith)]
    rw [Nearest, ha]
    refine ⟨by linarith, fun he => ?_⟩
    have he' : (r : ℚ) / D = 1 / 2 := by linarith
    rw [div_eq_div_iff (by positivity) (by norm_num)] at he'
    have : r * 2 = 1 * D := by exact_mod_cast he'
    omega

/-- There is only one nearest integer. -/
theorem nearest_unique {a b : Nat} {v : ℚ} (ha : Nearest a v) (hb : Nearest b v) : a = b := by
  obtain ⟨a1, a2⟩ := ha
  obtain ⟨b1, b2⟩ := hb
  have key : ∀ c d : Nat, |(c : ℚ) - v| ≤ 1 / 2 → (|(c : ℚ) - v| = 1 / 2 → c % 2 = 0) →
      |(d : ℚ) - v| ≤ 1 / 2 → (|(d : ℚ) - v| = 1 / 2 → d % 2 = 0) → ¬ c < d := by
    intro c d c1 c2 d1 d2 hlt
    have h1 : (c : ℚ) + 1 ≤ d := by exact_mod_cast hlt
    rw [abs_le] at c1 d1
    have e1 : (c : ℚ) - v = -(1 / 2) := by linarith [c1.1, d1.2]
    have e2 : (d : ℚ) - v = 1 / 2 := by linarith [c1.1, d1.2]
    have e3 : (d : ℚ) = c + 1 := by linarith
    have e4 : d = c + 1 := by exact_mod_cast e3
    have f1 := c2 (by rw [e1]; norm_num)
    have f2 := d2 (by rw [e2]; norm_num)
    omega
  have := key a b a1 a2 b1 b2
  have := key b a b1 b2 a1 a2
  omega

theorem digitByte_range (n : Nat) : 48 ≤ (digitByte (n % 10)).toNat ∧ (digitByte (n % 10)).toNat ≤ 57 := by
  have h : ∀ i : Fin 10, 48 ≤ (digitByte i.val).toNat ∧ (digitByte i.val).toNat ≤ 57 := by decide +kernel
  exact h ⟨n % 10, Nat.mod_lt _ (by omega)⟩

theorem digitByte_val (n : Nat) : (digitByte (n % 10)).toNat - 48 = n % 10 := by
  have h : ∀ i : Fin 10, (digitByte i.val).toNat - 48 = i.val := by decide +kernel
  exact h ⟨n % 10, Nat.mod_lt _ (by omega)⟩

theorem lowDigits_spec (p n : Nat) : (lowDigits p n).length = p ∧
    (∀ b ∈ lowDigits p n, 48 ≤ b.toNat ∧ b.toNat ≤ 57) ∧ digitsVal (lowDigits p n) = n % 10 ^ p := by
  induction p generalizing n with
  | zero => simp [lowDigits, digitsVal, Nat.mod_one]
  | succ p ih =>
    obtain ⟨h1, h2, h3⟩ := ih (n / 10)
    refine ⟨by simp [lowDigits, h1], ?_, ?_⟩
    · intro b hb
      rw [lowDigits, List.mem_append, List.mem_singleton] at hb
      rcases hb with hb | rfl
      · exact h2 b hb
      · exact digitByte_range n
    · rw [lowDigits, digitsVal_append, h3]
      simp only [digitsVal, List.length_nil, List.length_singleton, digitByte_val]
      have : n % 10 ^ (p + 1) = n % 10 + 10 * (n / 10 % 10 ^ p) := by
        rw [Nat.pow_succ', Nat.mod_mul]
      rw [this]
      omega

theorem pointed_decimals (p k : Nat) : ∃ whole frac, Decimals p k whole frac ∧
    pointed p k = whole ++ (if p = 0 then [] else 46 :: frac) := by
  obtain ⟨h1, h2, h3⟩ := lowDigits_spec p k
  refine ⟨decNat (k / 10 ^ p), lowDigits p k, ⟨decNat_numeral _, h1, h2, ?_⟩, rfl⟩
  rw [digitsVal_append, decNat_val, h3, h1]
  exact Nat.div_add_mod' k (10 ^ p)

/-- The parts of a finite number. -/
theorem floatParts_spec {x : Float} (hx : FFin x) : ∃ neg N D, floatParts x = .inl (neg, N, D) ∧ 0 < D ∧
    fval x = (if neg then -1 else 1) * ((N : ℚ) / D) := by
  unfold FFin at hx
  unfold floatParts fval
  cases hu : x.toModel.unpack with
  | infinity => rw [hu] at hx; exact absurd hx id
  | notANumber => rw [hu] at hx; exact absurd hx id
  | zero s => exact ⟨_, _, _, rfl, by norm_num, by simp [uval]⟩
  | finite s m e h =>
    refine ⟨_, _, _, rfl, Nat.pow_pos (by norm_num), ?_⟩
    have h1 : sgn s = (if isNegative s = true then -1 else 1) := by cases s <;> simp [sgn, isNegative]
    rw [uval, h1]
    congr 1
    rcases le_total 0 e with he | he
    · have : (-e).toNat = 0 := by omega
      rw [this]
      obtain ⟨n, rfl⟩ := Int.eq_ofNat_of_zero_le he
      simp
    · have : e.toNat = 0 := by omega
      rw [this]
      obtain ⟨n, hn⟩ := Int.eq_ofNat_of_zero_le (show 0 ≤ -e by omega)
      have : e = -(n : ℤ) := by omega
      subst this
      simp [div_eq_mul_inv]

/-- What is printed with `p` decimals shows the number rounded to `p` decimals. -/
theorem goFixed_shows {x : Float} (hx : FFin x) (p : Nat) : ∃ sgn whole frac, ShowsFixed p (fval x) sgn whole frac ∧
    goFixed p x = sgn ++ whole ++ (if p = 0 then [] else 46 :: frac) := by
  obtain ⟨neg, N, D, hp, hD, hv⟩ := floatParts_spec hx
  obtain ⟨whole, frac, hd, ht⟩ := pointed_decimals p (halfEven (N * 10 ^ p) D)
  have hq : (0 : ℚ) ≤ (N : ℚ) / D := by positivity
  refine ⟨if neg then [45] else [], whole, frac, ⟨?_, ?_, by cases neg <;> simp, _, ?_, hd⟩, ?_⟩
  · intro h
    cases neg
    · rfl
    · rw [hv] at h; simp at h; linarith
  · intro h
    cases neg
    · rw [hv] at h; simp at h; linarith
    · rfl
  · have : |fval x| * 10 ^ p = ((N * 10 ^ p : ℕ) : ℚ) / D := by
      have : |fval x| = (N : ℚ) / D := by
        rw [hv, abs_mul, abs_of_nonneg hq]
        cases neg <;> simp
      rw [this]; push_cast; ring
    rw [this]
    exact halfEven_nearest _ _ hD
  · unfold goFixed
    rw [hp]
    simp only [ht, List.append_assoc]

/-- A number other than zero has one canonical form. -/
theorem canon_unique {s s' : Sign} {m m' : Nat} {e e' : Int} {h h'} (hc : Canon (.finite s m e h))
    (hc' : Canon (.finite s' m' e' h')) (hv : uval (.finite s m e h) = uval (.finite s' m' e' h')) :
    UnpackedFloat.finite s m e h = .finite s' m' e' h' := by
  have c := canon_to' hc
  have c' := canon_to' hc'
  have p1 : (0 : ℚ) < m * 2 ^ e := mul_pos (by exact_mod_cast h) (two_zpow_pos e)
  have p2 : (0 : ℚ) < m' * 2 ^ e' := mul_pos (by exact_mod_cast h') (two_zpow_pos e')
  simp only [uval] at hv
  have hs : s = s' ∧ (m : ℚ) * 2 ^ e = m' * 2 ^ e' := by
    cases s <;> cases s' <;> simp only [sgn] at hv
    · exact ⟨rfl, by linarith⟩
    · linarith
    · linarith
    · exact ⟨rfl, by linarith⟩
  obtain ⟨rfl, hm⟩ := hs
  have he : e = e' := by
    rcases lt_trichotomy e e' with h1 | h1 | h1
    · have := mag_lt c c' h1; linarith
    · exact h1
    · have := mag_lt c' c h1; linarith
  subst he
  have : (m : ℚ) = m' := mul_right_cancel₀ (two_zpow_pos e).ne' hm
  have : m = m' := by exact_mod_cast this
  subst this
  rfl

/-- Multiplication by one. -/
theorem unpack_mul_one {x : Float} (hx : FFin x) : (x * f64OfNat 1).toModel.unpack = x.toModel.unpack := by
  obtain ⟨f1, v1⟩ := ofNat_exact 1 (by norm_num)
  have hc := model_canon x.toModel
  have hm : (x * f64OfNat 1).toModel = Float.Model.pack (UnpackedFloat.mul .binary64 x.toModel.unpack (f64OfNat 1).toModel.unpack) := rfl
  have hr := pack_rounded' (umul_spec hx f1 hc (model_canon _)) (b := |fval x|)
    (by obtain ⟨Y, F, a1, a2, a3⟩ := rep_fval x
        exact ⟨Y, F, a1, a2, by rw [abs_abs]; exact a3⟩) (fval_lt x)
    (by
      show |fval x * fval (f64OfNat 1)| ≤ _
      rw [v1]; simp)
  rw [← hm] at hr
  have hv : uval (x * f64OfNat 1).toModel.unpack = uval x.toModel.unpack := by
    have := hr.2
    rw [show uval x.toModel.unpack * uval (f64OfNat 1).toModel.unpack = fval x by
      show fval x * fval (f64OfNat 1) = _
      rw [v1]; simp] at this
    exact this.exact (rep_fval x)
  cases hu : x.toModel.unpack with
  | infinity => unfold FFin at hx; rw [hu] at hx; exact absurd hx id
  | notANumber => unfold FFin at hx; rw [hu] at hx; exact absurd hx id
  | zero s =>
    have h1 : (f64OfNat 1).toModel.unpack = .finite .positive (2 ^ 52) (-52) (by norm_num) := by
      rw [show f64OfNat 1 = Float.ofModel (Float.Model.pack (.finite .positive (2 ^ 52) (-52) (by norm_num))) by
        decide +kernel]
      exact model_unpack_pack _ ⟨by norm_num, by norm_num, by norm_num, Or.inl (by norm_num)⟩
    rw [hm, hu, h1]
    have : UnpackedFloat.mul .binary64 (.zero s) (.finite .positive (2 ^ 52) (-52) (by norm_num)) = .zero s := by
      cases s <;> rfl
    rw [this, model_unpack_pack _ (show Canon (.zero s) from trivial)]
  | finite s m e h =>
    have hc' := model_canon (x * f64OfNat 1).toModel
    have p1 : (0 : ℚ) < m * 2 ^ e := mul_pos (by exact_mod_cast h) (two_zpow_pos e)
    rw [hu] at hv hc
    have hf := hr.1
    cases hu' : (x * f64OfNat 1).toModel.unpack with
    | infinity => rw [hu'] at hf; exact absurd hf id
    | notANumber => rw [hu'] at hf; exact absurd hf id
    | zero s' =>
      rw [hu'] at hv
      simp only [uval] at hv
      cases s <;> simp only [sgn] at hv <;> linarith
    | finite s' m' e' h' =>
      rw [hu'] at hv hc'
      exact canon_unique hc' hc hv

/-- Formats without percent print the number itself. -/
theorem goFixed_mul_one {x : Float} (hx : FFin x) (p : Nat) : goFixed p (x * f64OfNat 1) = goFixed p x := by
  unfold goFixed floatParts
  rw [unpack_mul_one hx]

theorem goScience_mul_one {x : Float} (hx : FFin x) (p : Nat) : goScience p (x * f64OfNat 1) = goScience p x := by
  unfold goScience floatParts
  rw [unpack_mul_one hx]

theorem takeWhile_digits {d rest : Bytes} (h : IsDigits d) {c : UInt8} (hc : isDigit c = false) :
    (d ++ c :: rest).takeWhile isDigit = d := by
  rw [List.takeWhile_append_of_pos (fun b hb => (isDigit_iff b).2 (h.2 b hb))]
  simp [List.takeWhile, hc]

/-- Printing with a width and a precision, given as numerals. -/
theorem goSprintf_verb (w p : Nat) (v : UInt8) (tail : Bytes) (hv : isDigit v = false) (hw : 0 < w) (hw' : w ≤ 1000000) (hp : p ≤ 1000000) (x : Float) :
    goSprintf (37 :: decNat w ++ 46 :: decNat p ++ v :: tail) x =
      (match v :: tail with
        | 102 :: [] => some (padLeft w (goFixed p x))
        | 102 :: [37, 37] => some (padLeft w (goFixed p x) ++ [37])
        | 69 :: [] => some (padLeft w (goScience p x))
        | 69 :: [37, 37] => some (padLeft w (goScience p x) ++ [37])
        | _ => none) := by
  have nw := decNat_numeral w
  have np := decNat_numeral p
  have a1 : (decNat w ++ 46 :: decNat p ++ v :: tail).takeWhile isDigit = decNat w := by
    rw [List.append_assoc, List.cons_append]
    exact takeWhile_digits nw.1 (by decide)
  have a2 : (decNat w ++ 46 :: decNat p ++ v :: tail).drop (decNat w).length = 46 :: (decNat p ++ v :: tail) := by
    rw [List.append_assoc, List.cons_append]; simp
  have a3 : (decNat p ++ v :: tail).takeWhile isDigit = decNat p := takeWhile_digits np.1 hv
  have a4 : (decNat p ++ v :: tail).drop (decNat p).length = v :: tail := by simp
  have b1 : parseUintLoop 1000000 0 (decNat w) = (w, none) := by
    rw [parseUintLoop_ok _ _ _ nw.1.2 (by rw [decNat_val]; omega), decNat_val]; simp
  have b2 : parseUintLoop 1000000 0 (decNat p) = (p, none) := by
    rw [parseUintLoop_ok _ _ _ np.1.2 (by rw [decNat_val]; omega), decNat_val]; simp
  have c1 : ¬ (decNat w).head? = some 48 := by
    intro h
    have := nw.2.2 h
    have h2 := nw.2.1
    rw [this] at h2
    have : digitsVal [48] = 0 := by decide +kernel
    omega
  have e : goSprintf (37 :: decNat w ++ 46 :: decNat p ++ v :: tail) x = goSprintf (37 :: (decNat w ++ 46 :: decNat p ++ v :: tail)) x := by
    simp
  rw [e]
  unfold goSprintf
  simp only [a1, a2, a3, a4, b1, b2]
  rw [if_neg]
  · rfl
  · simp [c1, nw.1.1, np.1.1]

theorem goSprintf_fixed (w p : Nat) (hw : 0 < w) (hw' : w ≤ 1000000) (hp : p ≤ 1000000) (x : Float) :
    goSprintf (37 :: decNat w ++ 46 :: decNat p ++ [102]) x = some (padLeft w (goFixed p x)) :=
  goSprintf_verb w p 102 [] (by decide) hw hw' hp x

theorem goSprintf_percent (w p : Nat) (hw : 0 < w) (hw' : w ≤ 1000000) (hp : p ≤ 1000000) (x : Float) :
    goSprintf (37 :: decNat w ++ 46 :: decNat p ++ [102, 37, 37]) x = some (padLeft w (goFixed p x) ++ [37]) :=
  goSprintf_verb w p 102 [37, 37] (by decide) hw hw' hp x

theorem goSprintf_science (w p : Nat) (hw : 0 < w) (hw' : w ≤ 1000000) (hp : p ≤ 1000000) (x : Float) :
    goSprintf (37 :: decNat w ++ 46 :: decNat p ++ [69]) x = some (padLeft w (goScience p x)) :=
  goSprintf_verb w p 69 [] (by decide) hw hw' hp x

theorem pointed_length (p k : Nat) (hp : p ≠ 0) : p + 2 ≤ (pointed p k).length := by
  have h1 : 0 < (decNat (k / 10 ^ p)).length := List.length_pos_of_ne_nil (decNat_isDigits _).1
  have h2 := (lowDigits_spec p k).1
  simp [pointed, hp, h2]
  omega

/-- No padding for widths that make room for one digit and the decimals. -/
theorem goFixed_nopad {x : Float} (hx : FFin x) (w p : Nat) (hp : p ≠ 0) (hw : w ≤ p + 2) :
    padLeft w (goFixed p x) = goFixed p x := by
  obtain ⟨neg, N, D, hq, -⟩ := floatParts_spec hx
  have : w ≤ (goFixed p x).length := by
    unfold goFixed
    rw [hq]
    have := pointed_length p (halfEven (N * 10 ^ p) D) hp
    simp only [List.length_append]
    omega
  unfold padLeft
  rw [Nat.sub_eq_zero_of_le this]
  rfl

end Grate
