import Verif.Model.GoParse
import Verif.Spec.NumRead
import Verif.Lemmas.FloatNearest

/-! # Reading of decimal numerals: helper lemmas -/

namespace Grate

open Spec Grate.F64 Float.Model Float.Model.UnpackedFloat

/-- Numbers from here on are rounded to infinity. -/
def floatLimit : ℚ := 2 ^ 1024 - 2 ^ 970

theorem ten_zpow (n : ℕ) (e : ℤ) : (n : ℚ) * 10 ^ e = ((n * 10 ^ e.toNat : ℕ) : ℚ) / ((10 ^ (-e).toNat : ℕ) : ℚ) := by
  rcases le_total 0 e with he | he
  · have : (-e).toNat = 0 := by omega
    rw [this]
    obtain ⟨n, rfl⟩ := Int.eq_ofNat_of_zero_le he
    simp
  · have : e.toNat = 0 := by omega
    rw [this]
    obtain ⟨n, hn⟩ := Int.eq_ofNat_of_zero_le (show 0 ≤ -e by omega)
    have : e = -(n : ℤ) := by omega
    subst this
    simp [div_eq_mul_inv]

/-- A sign. -/
def signOf (neg : Bool) : Sign := if neg then .negative else .positive

theorem sgn_signOf (neg : Bool) : sgn (signOf neg) = if neg then -1 else 1 := by cases neg <;> rfl

theorem zero_cell : InCell 0 0 (-1074) := by
  refine ⟨by positivity, fun _ => rfl, ?_, fun _ => rfl, fun h => by norm_num at h⟩
  have := two_zpow_pos (-1074)
  simp only [Nat.cast_zero]
  linarith

theorem two_pow_lit (n : ℕ) (e : ℤ) (h : e = n) : (2 : ℚ) ^ e = 2 ^ n := by rw [h, zpow_natCast]

/-- What `decFloat` gives. -/
theorem decFloat_cell (neg : Bool) (n : Nat) (e : Int) : ∃ (M : ℕ) (E : ℤ), Canon' M E ∧
    InCell ((n : ℚ) * 10 ^ e) M E ∧
    ((n : ℚ) * 10 ^ e < floatLimit → (decFloat neg n e).toModel.unpack = mkFin (signOf neg) M E) ∧
    (floatLimit ≤ (n : ℚ) * 10 ^ e → (decFloat neg n e).toModel.unpack = .infinity (signOf neg)) := by
  by_cases hn : 0 < n
  · rw [ten_zpow]
    have hN : 0 < n * 10 ^ e.toNat := by positivity
    have hD : 0 < 10 ^ (-e).toNat := by positivity
    obtain ⟨M, E, h1, h2, h3⟩ := udiv_cell (signOf neg) hN hD
    have hu : (decFloat neg n e).toModel = Float.Model.pack (mkFin (signOf neg) M E) := by
      unfold decFloat
      simp only [dif_pos hn]
      rw [← h1]
      rfl
    generalize ((n * 10 ^ e.toNat : ℕ) : ℚ) / ((10 ^ (-e).toNat : ℕ) : ℚ) = v at h3
    refine ⟨M, E, h2, h3, fun hv => ?_, fun hv => ?_⟩
    · rw [hu]
      apply model_unpack_pack
      unfold mkFin
      split
      · trivial
      · refine ⟨h2.1, h2.2.1, ?_, h2.2.2⟩
        by_contra hE
        have hM : 2 ^ 52 ≤ M := by
          rcases h2.2.2 with h | h
          · exact h
          · omega
        have h4 : (2 : ℚ) ^ (972 : ℤ) ≤ 2 ^ E := zpow_le_zpow_right₀ (by norm_num) (by omega)
        have h5 : (2 ^ 52 - 1 / 4 : ℚ) * 2 ^ E ≤ v := by
          by_cases hb : M = 2 ^ 52
          · have := h3.edge hb (by omega)
            rw [hb] at this; push_cast at this; exact this
          · have h0 : (2 ^ 52 : ℚ) + 1 ≤ M := by
              have : 2 ^ 52 + 1 ≤ M := by omega
              exact_mod_cast this
            exact le_trans (mul_le_mul_of_nonneg_right (by linarith) (two_zpow_pos E).le) h3.lo
        have h6 : (2 ^ 52 - 1 / 4 : ℚ) * 2 ^ (972 : ℤ) ≤ (2 ^ 52 - 1 / 4) * 2 ^ E :=
          mul_le_mul_of_nonneg_left h4 (by norm_num)
        have h7 : (2 ^ 52 - 1 / 4 : ℚ) * 2 ^ (972 : ℤ) = floatLimit := by
          rw [two_pow_lit 972 972 rfl, floatLimit, sub_mul, ← pow_add,
            show (2 : ℚ) ^ 972 = 2 ^ 970 * 4 by rw [show (972 : ℕ) = 970 + 2 by rfl, pow_add]; norm_num]
          ring
        rw [h7] at h6
        linarith
    · rw [hu]
      have hE : 972 ≤ E := by
        by_contra hE
        have h4 : (2 : ℚ) ^ E ≤ 2 ^ (971 : ℤ) := zpow_le_zpow_right₀ (by norm_num) (by omega)
        have hM : (M : ℚ) ≤ 2 ^ 53 - 1 := by
          have : M + 1 ≤ 2 ^ 53 := h2.1
          have : (M : ℚ) + 1 ≤ 2 ^ 53 := by exact_mod_cast this
          linarith
        have p := two_zpow_pos E
        have h5 : (M + 1 / 2 : ℚ) * 2 ^ E ≤ (2 ^ 53 - 1 / 2) * 2 ^ (971 : ℤ) := by
          have h6 := mul_le_mul_of_nonneg_right (show (M + 1 / 2 : ℚ) ≤ 2 ^ 53 - 1 / 2 by linarith) p.le
          have h7 : ((2 ^ 53 - 1 / 2) : ℚ) * 2 ^ E ≤ (2 ^ 53 - 1 / 2) * 2 ^ (971 : ℤ) :=
            mul_le_mul_of_nonneg_left h4 (by norm_num)
          linarith
        have h7 : (2 ^ 53 - 1 / 2 : ℚ) * 2 ^ (971 : ℤ) = floatLimit := by
          rw [two_pow_lit 971 971 rfl, floatLimit, sub_mul, ← pow_add,
            show (2 : ℚ) ^ 971 = 2 ^ 970 * 2 by rw [show (971 : ℕ) = 970 + 1 by rfl, pow_add]; norm_num]
          ring
        have h8 := h3.hi
        have h9 : v = (M + 1 / 2) * 2 ^ E := by linarith
        have h10 := h3.hiTie h9
        have h11 : M ≠ 2 ^ 53 - 1 := by omega
        have h12 : (M : ℚ) ≤ 2 ^ 53 - 2 := by
          have : M + 2 ≤ 2 ^ 53 := by have := h2.1; omega
          have : (M : ℚ) + 2 ≤ 2 ^ 53 := by exact_mod_cast this
          linarith
        have h13 := mul_le_mul_of_nonneg_right (show (M + 1 / 2 : ℚ) ≤ 2 ^ 53 - 3 / 2 by linarith) p.le
        have h14 : ((2 ^ 53 - 3 / 2) : ℚ) * 2 ^ E ≤ (2 ^ 53 - 3 / 2) * 2 ^ (971 : ℤ) :=
          mul_le_mul_of_nonneg_left h4 (by norm_num)
        have p1 := two_zpow_pos (971 : ℤ)
        generalize (2 : ℚ) ^ (971 : ℤ) = w at h7 h14 p1
        linarith
      have hM : 0 < M := by
        rcases h2.2.2 with h | h
        · exact lt_of_lt_of_le (by norm_num) h
        · omega
      unfold mkFin
      rw [dif_neg hM.ne']
      exact unpack_pack_overflow (signOf neg) M E hM hE
  · have hn0 : n = 0 := by omega
    subst hn0
    refine ⟨0, -1074, ⟨by norm_num, by norm_num, Or.inr rfl⟩, by simpa using zero_cell, fun _ => ?_, fun hv => ?_⟩
    · unfold decFloat
      simp only [Nat.lt_irrefl, dif_neg, not_false_eq_true]
      exact model_unpack_pack _ (show Canon (.zero _) from trivial)
    · exfalso
      have : (0 : ℚ) < floatLimit := by
        unfold floatLimit
        rw [show (1024 : ℕ) = 970 + 54 by rfl, pow_add]
        have : (0 : ℚ) < 2 ^ 970 := by positivity
        generalize (2 : ℚ) ^ 970 = w at this
        norm_num
        linarith
      simp at hv
      linarith

theorem ffin_mkFin {x : Float} {s : Sign} {M : ℕ} {E : ℤ} (h : x.toModel.unpack = mkFin s M E) : FFin x := by
  unfold FFin; rw [h]; exact ufin_mkFin _ _ _

/-- Numbers within the range are read as the nearest float. -/
theorem decFloat_nearest (neg : Bool) (n : Nat) (e : Int) (h : (n : ℚ) * 10 ^ e < floatLimit) :
    NearestFloat ((if neg then -1 else 1) * ((n : ℚ) * 10 ^ e)) (decFloat neg n e) := by
  obtain ⟨M, E, hc, hv, hf, -⟩ := decFloat_cell neg n e
  have hu := hf h
  refine ⟨ffin_mkFin hu, fun y _ => ?_⟩
  have hx : fval (decFloat neg n e) = (if neg then -1 else 1) * (M * 2 ^ E) := by
    unfold fval; rw [hu, uval_mkFin, sgn_signOf]
  rw [hx]
  have h0 : (0 : ℚ) ≤ (n : ℚ) * 10 ^ e := by positivity
  generalize (n : ℚ) * 10 ^ e = v at *
  cases neg with
  | false =>
    have := cell_nearest hc hv h0 (rep_fval y)
    simpa using this
  | true =>
    obtain ⟨h1, h2⟩ := cell_nearest hc hv h0 (rep_fval y).neg
    have e1 : |-fval y - v| = |fval y - -v| := by rw [← abs_neg]; congr 1; ring
    have e2 : |(M : ℚ) * 2 ^ E - v| = |-1 * ((M : ℚ) * 2 ^ E) - -v| := by rw [← abs_neg]; congr 1; ring
    rw [e1, e2] at h1 h2
    simp only [if_true, neg_one_mul] at *
    refine ⟨h1, fun g1 g2 => ?_⟩
    obtain ⟨a, b, c, g3, g4, g5, g6⟩ := h2 g1 (fun hh => g2 (by rw [← hh]; ring))
    exact ⟨-a, -b, c, by rw [g3]; push_cast; ring, by push_cast; linarith, by omega, by omega⟩

theorem decFloat_finite (neg : Bool) (n : Nat) (e : Int) :
    (decFloat neg n e).isFinite = true ↔ (n : ℚ) * 10 ^ e < floatLimit := by
  obtain ⟨M, E, hc, hv, hf, hg⟩ := decFloat_cell neg n e
  rw [← ffin_iff]
  constructor
  · intro h
    by_contra hh
    have := hg (le_of_not_gt hh)
    unfold FFin at h
    rw [this] at h
    exact h
  · intro h; exact ffin_mkFin (hf h)

/-! ### The syntax -/

theorem digitsNat_go (ds : Bytes) (n : Nat) :
    ds.foldl (fun n b => n * 10 + (b.toNat - 48)) n = n * 10 ^ ds.length + digitsVal ds := by
  induction ds generalizing n with
  | nil => simp [digitsVal]
  | cons b ds ih =>
    rw [List.foldl_cons, ih, digitsVal, List.length_cons, Nat.pow_succ]
    ring

theorem digitsNat_eq (ds : Bytes) : digitsNat ds = digitsVal ds := by
  unfold digitsNat; rw [digitsNat_go]; simp

theorem expDigits_go (ds : Bytes) (n : Nat) (h : n * 10 ^ ds.length + digitsVal ds < 100000) :
    ds.foldl (fun e b => if e < 10000 then e * 10 + (b.toNat - 48) else e) n = n * 10 ^ ds.length + digitsVal ds := by
  induction ds generalizing n with
  | nil => simp [digitsVal]
  | cons b ds ih =>
    rw [digitsVal, List.length_cons, Nat.pow_succ] at h
    have hp : 1 ≤ 10 ^ ds.length := Nat.one_le_pow _ _ (by norm_num)
    have h1 : n * 10 ≤ n * (10 ^ ds.length * 10) := by
      have := Nat.mul_le_mul_left (n * 10) hp
      nlinarith
    rw [List.foldl_cons, if_pos (by omega), ih, digitsVal, List.length_cons, Nat.pow_succ]
    · ring
    · refine lt_of_le_of_lt (le_of_eq ?_) h
      ring

theorem expDigits_eq {ds : Bytes} (h : digitsVal ds < 100000) : expDigits ds = digitsVal ds := by
  unfold expDigits; rw [expDigits_go _ _ (by simpa using h)]; simp

theorem takeWhile_before {p : UInt8 → Bool} {a r : Bytes} (ha : ∀ b ∈ a, p b = true) (hr : ∀ c, r.head? = some c → p c = false) :
    (a ++ r).takeWhile p = a := by
  rw [List.takeWhile_append_of_pos ha]
  cases r with
  | nil => simp
  | cons c r => simp [List.takeWhile, hr c rfl]

theorem splitSign_digit {r : Bytes} (h : ∀ c, r.head? = some c → c ≠ 43 ∧ c ≠ 45) : splitSign r = (false, r) := by
  unfold splitSign
  split
  · exact absurd rfl (h _ rfl).1
  · exact absurd rfl (h _ rfl).2
  · rfl

theorem isDigit_ne {b : UInt8} (h : 48 ≤ b.toNat ∧ b.toNat ≤ 57) : b ≠ 43 ∧ b ≠ 45 ∧ b ≠ 46 ∧ b ≠ 101 ∧ b ≠ 69 := by
  refine ⟨?_, ?_, ?_, ?_, ?_⟩ <;> (rintro rfl; revert h; decide)

theorem readExponent_spec {t : Bytes} {e : Int} (h : ExpPart t e) (he : e.natAbs < 100000) : readExponent t = some e := by
  cases h with
  | none => rfl
  | some c t v hc hd =>
    have key : ∀ ds : Bytes, IsDigits ds → ¬ (ds = [] ∨ ds.all isDigit = false) := by
      intro ds hds hh
      rcases hh with hh | hh
      · exact hds.1 hh
      · rw [List.all_eq_true.2 (fun b hb => (isDigit_iff b).2 (hds.2 b hb))] at hh; cases hh
    cases hd with
    | plain ds hds =>
      have hs : splitSign t = (false, t) := splitSign_digit (fun c hc => by
        have := isDigit_ne (hds.2 c (List.mem_of_mem_head? hc))
        exact ⟨this.1, this.2.1⟩)
      unfold readExponent
      simp only [hs, if_pos hc, if_neg (key _ hds)]
      rw [expDigits_eq (by simpa using he)]
      simp
    | plus ds hds =>
      have hs : splitSign (43 :: ds) = (false, ds) := rfl
      unfold readExponent
      simp only [hs, if_pos hc, if_neg (key _ hds)]
      rw [expDigits_eq (by simpa using he)]
      simp
    | minus ds hds =>
      have hs : splitSign (45 :: ds) = (true, ds) := rfl
      unfold readExponent
      simp only [hs, if_pos hc, if_neg (key _ hds)]
      rw [expDigits_eq (by simpa using he)]
      simp

theorem expPart_head {t : Bytes} {e : Int} (h : ExpPart t e) {c : UInt8} (hc : t.head? = some c) : c = 101 ∨ c = 69 := by
  cases h with
  | none => simp at hc
  | some c' t v hc' _ => simp only [List.head?_cons, Option.some.injEq] at hc; subst hc; exact hc'

theorem expPart_bytes {t : Bytes} {e : Int} (h : ExpPart t e) : ∀ b ∈ t, numeralByte b = true := by
  have hd : ∀ b : UInt8, 48 ≤ b.toNat ∧ b.toNat ≤ 57 → numeralByte b = true := by
    intro b hb; unfold numeralByte; rw [(isDigit_iff b).2 hb]; simp
  cases h with
  | none => simp
  | some c t v hc hv =>
    intro b hb
    rcases List.mem_cons.1 hb with rfl | hb
    · rcases hc with rfl | rfl <;> decide
    · cases hv with
      | plain ds hds => exact hd b (hds.2 b hb)
      | plus ds hds =>
        rcases List.mem_cons.1 hb with rfl | hb
        · decide
        · exact hd b (hds.2 b hb)
      | minus ds hds =>
        rcases List.mem_cons.1 hb with rfl | hb
        · decide
        · exact hd b (hds.2 b hb)

/-- Numerals are read. -/
theorem readDecimal_spec {s : Bytes} {e : Int} {q : ℚ} (h : DecimalText s e q) (he : e.natAbs < 100000) :
    s.all numeralByte = true ∧ ∃ neg n k, readDecimal s = some (neg, n, k) ∧
      q = (if neg then -1 else 1) * ((n : ℚ) * 10 ^ k) := by
  obtain ⟨sgn, a, b, pt, ex, hsgn, hdig, hne, hpt, hex, rfl, rfl⟩ := h
  have ha : ∀ c ∈ a, 48 ≤ c.toNat ∧ c.toNat ≤ 57 := fun c hc => hdig c (by simp [hc])
  have hb : ∀ c ∈ b, 48 ≤ c.toNat ∧ c.toNat ≤ 57 := fun c hc => hdig c (by simp [hc])
  have hd : ∀ b : UInt8, 48 ≤ b.toNat ∧ b.toNat ≤ 57 → numeralByte b = true := by
    intro b hb; unfold numeralByte; rw [(isDigit_iff b).2 hb]; simp
  have hexd : ∀ c, ex.head? = some c → isDigit c = false := by
    intro c hc; rcases expPart_head hex hc with rfl | rfl <;> decide
  constructor
  · rw [List.all_eq_true]
    intro c hc
    simp only [List.mem_append] at hc
    rcases hc with ((hc | hc) | hc) | hc
    · rcases hsgn with rfl | rfl | rfl
      · cases hc
      · simp at hc; subst hc; decide
      · simp at hc; subst hc; decide
    · exact hd c (ha c hc)
    · rcases hpt with rfl | ⟨rfl, -⟩
      · rcases List.mem_cons.1 hc with rfl | hc
        · decide
        · exact hd c (hb c hc)
      · cases hc
    · exact expPart_bytes hex c hc
  · -- the head of what follows the sign
    have hbody : splitSign (sgn ++ a ++ pt ++ ex) = (decide (sgn = [45]), a ++ (pt ++ ex)) := by
      rcases hsgn with rfl | rfl | rfl
      · have : splitSign (a ++ (pt ++ ex)) = (false, a ++ (pt ++ ex)) := splitSign_digit (by
          intro c hc
          cases a with
          | cons x a =>
            simp only [List.cons_append, List.head?_cons, Option.some.injEq] at hc
            subst hc
            have := isDigit_ne (ha x (by simp))
            exact ⟨this.1, this.2.1⟩
          | nil =>
            rcases hpt with rfl | ⟨rfl, rfl⟩
            · simp at hc; subst hc; decide
            · simp at hne)
        simp only [List.nil_append, List.append_assoc] at this ⊢
        rw [this]; rfl
      · simp [splitSign]
      · simp [splitSign]
    have htw : (a ++ (pt ++ ex)).takeWhile isDigit = a := by
      apply takeWhile_before (fun c hc => (isDigit_iff c).2 (ha c hc))
      intro c hc
      rcases hpt with rfl | ⟨rfl, rfl⟩
      · simp at hc; subst hc; decide
      · exact hexd c (by simpa using hc)
    have hfr : readFraction (pt ++ ex) = (b, ex) := by
      rcases hpt with rfl | ⟨rfl, rfl⟩
      · have : (b ++ ex).takeWhile isDigit = b :=
          takeWhile_before (fun c hc => (isDigit_iff c).2 (hb c hc)) hexd
        unfold readFraction
        simp [this]
      · rw [List.nil_append]
        unfold readFraction
        split
        · rename_i r
          rcases expPart_head hex (c := 46) rfl with h | h <;> exact absurd h (by decide)
        · rfl
    refine ⟨decide (sgn = [45]), digitsNat (a ++ b), e - b.length, ?_, ?_⟩
    · unfold readDecimal
      simp only [hbody, htw, List.drop_left, hfr, if_neg hne, readExponent_spec hex he]
    · rw [digitsNat_eq]
      simp only [decide_eq_true_eq]
      ring

theorem takeWhile_digit_all (r : Bytes) : ∀ c ∈ r.takeWhile isDigit, 48 ≤ c.toNat ∧ c.toNat ≤ 57 := by
  induction r with
  | nil => intro c hc; cases hc
  | cons x r ih =>
    intro c hc
    rw [List.takeWhile_cons] at hc
    split at hc
    · rcases List.mem_cons.1 hc with rfl | hc
      · exact (isDigit_iff _).1 ‹_›
      · exact ih c hc
    · cases hc

theorem takeWhile_drop (p : UInt8 → Bool) (r : Bytes) : r = r.takeWhile p ++ r.drop (r.takeWhile p).length := by
  induction r with
  | nil => rfl
  | cons x r ih =>
    rw [List.takeWhile_cons]
    split
    · simp only [List.length_cons, List.drop_succ_cons, List.cons_append]; rw [← ih]
    · rfl

theorem splitSign_eq (s : Bytes) : ∃ sgn, (sgn = [] ∨ sgn = [43] ∨ sgn = [45]) ∧ s = sgn ++ (splitSign s).2 := by
  unfold splitSign
  split
  · exact ⟨[43], by simp, rfl⟩
  · exact ⟨[45], by simp, rfl⟩
  · exact ⟨[], by simp, rfl⟩

theorem readExponent_only {t : Bytes} {e : Int} (h : readExponent t = some e) : ∃ v, ExpPart t v := by
  cases t with
  | nil => exact ⟨0, .none⟩
  | cons c r =>
    simp only [readExponent] at h
    split at h
    · rename_i hc
      split at h
      · cases h
      · rename_i hd
        obtain ⟨h1, h2⟩ := not_or.1 hd
        rw [Bool.not_eq_false, List.all_eq_true] at h2
        have hdig : IsDigits (splitSign r).2 := ⟨h1, fun b hb => (isDigit_iff b).1 (h2 b hb)⟩
        obtain ⟨sgn, hs, he⟩ := splitSign_eq r
        rw [he]
        rcases hs with rfl | rfl | rfl
        · exact ⟨_, .some c _ _ hc (.plain _ hdig)⟩
        · exact ⟨_, .some c _ _ hc (.plus _ hdig)⟩
        · exact ⟨_, .some c _ _ hc (.minus _ hdig)⟩
    · cases h

theorem readFraction_eq (t : Bytes) : ∃ pt, (pt = 46 :: (readFraction t).1 ∨ (pt = [] ∧ (readFraction t).1 = [])) ∧
    t = pt ++ (readFraction t).2 ∧ ∀ c ∈ (readFraction t).1, 48 ≤ c.toNat ∧ c.toNat ≤ 57 := by
  unfold readFraction
  split
  · rename_i r
    refine ⟨_, .inl rfl, ?_, takeWhile_digit_all r⟩
    rw [List.cons_append, ← takeWhile_drop]
  · exact ⟨[], .inr ⟨rfl, rfl⟩, rfl, by simp⟩

/-- Only numerals are read. -/
theorem readDecimal_only {s : Bytes} {r : Bool × Nat × Int} (h : readDecimal s = some r) : ∃ e q, DecimalText s e q := by
  unfold readDecimal at h
  simp only at h
  obtain ⟨sgn, hsgn, hs⟩ := splitSign_eq s
  generalize (splitSign s).2 = r1 at *
  have hd := takeWhile_drop isDigit r1
  have ha := takeWhile_digit_all r1
  generalize r1.takeWhile isDigit = a at *
  generalize r1.drop a.length = r2 at *
  obtain ⟨pt, hpt, hr2, hb⟩ := readFraction_eq r2
  generalize readFraction r2 = f at *
  obtain ⟨b, ex⟩ := f
  simp only at *
  split at h
  · cases h
  · rename_i hne
    split at h
    · cases h
    · rename_i e hex
      obtain ⟨v, hv⟩ := readExponent_only hex
      refine ⟨v, _, sgn, a, b, pt, ex, hsgn, ?_, hne, hpt, hv, ?_, rfl⟩
      · intro c hc
        rcases List.mem_append.1 hc with hc | hc
        · exact ha c hc
        · exact hb c hc
      · rw [hs, hd, hr2]; simp

/-- Reading of a numeral within the range. -/
theorem goParseFloat_ok {s : Bytes} {e : Int} {q : ℚ} (h : DecimalText s e q) (he : e.natAbs < 100000)
    (hq : |q| < floatLimit) : ∃ x, goParseFloat s = some (x, none) ∧ NearestFloat q x := by
  obtain ⟨h1, neg, n, k, h2, h3⟩ := readDecimal_spec h he
  have hab : |q| = (n : ℚ) * 10 ^ k := by
    rw [h3, abs_mul, abs_of_nonneg (show (0 : ℚ) ≤ n * 10 ^ k by positivity)]
    cases neg <;> simp
  rw [hab] at hq
  refine ⟨decFloat neg n k, ?_, by rw [h3]; exact decFloat_nearest neg n k hq⟩
  unfold goParseFloat
  simp only [h1, if_true, h2, (decFloat_finite neg n k).2 hq]

/-- Reading of a numeral beyond the range. -/
theorem goParseFloat_range {s : Bytes} {e : Int} {q : ℚ} (h : DecimalText s e q) (he : e.natAbs < 100000)
    (hq : floatLimit ≤ |q|) : ∃ x, goParseFloat s = some (x, some .range) := by
  obtain ⟨h1, neg, n, k, h2, h3⟩ := readDecimal_spec h he
  have hab : |q| = (n : ℚ) * 10 ^ k := by
    rw [h3, abs_mul, abs_of_nonneg (show (0 : ℚ) ≤ n * 10 ^ k by positivity)]
    cases neg <;> simp
  rw [hab] at hq
  have hf : (decFloat neg n k).isFinite = false := by
    rw [← Bool.not_eq_true, decFloat_finite]; exact not_lt.2 hq
  refine ⟨decFloat neg n k, ?_⟩
  unfold goParseFloat
  simp only [h1, if_true, h2, hf]
  rfl

/-- Reading of what is not a numeral. -/
theorem goParseFloat_syntax {s : Bytes} (hs : s.all numeralByte = true) (h : ¬ ∃ e q, DecimalText s e q) :
    goParseFloat s = some (0, some .syntax) := by
  unfold goParseFloat
  rw [if_pos hs]
  cases hr : readDecimal s with
  | none => rfl
  | some r => exact absurd (readDecimal_only hr) h

/-- The float read is determined by the place of the number. -/
theorem decFloat_unique (neg : Bool) (n : Nat) (e : Int) (h : (n : ℚ) * 10 ^ e < floatLimit) {M : ℕ} {E : ℤ}
    (hc : Canon' M E) (hv : InCell ((n : ℚ) * 10 ^ e) M E) : (decFloat neg n e).toModel.unpack = mkFin (signOf neg) M E := by
  obtain ⟨M', E', hc', hv', hf, -⟩ := decFloat_cell neg n e
  obtain ⟨rfl, rfl⟩ := cell_unique hc hv hc' hv'
  exact hf h

end Grate
