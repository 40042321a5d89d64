import Verif.Lemmas.FloatOrd
import Verif.Props.Cell
import Verif.Props.Format

/-! # Properties C21, C22, C30 on float values -/

namespace Grate.Props

open Grate Grate.Spec Grate.F64

/-- A cell holding a float. -/
def floatCell (x : Float) : Cell := .full (.float x) .float none []

/-- C21 for floats, NaN and infinities included: Less is a strict order; on finite values it is the
order of the rational values. -/
theorem C21_float_less (ext : Ext) : StrictOrder (fun a b => (floatCell a).less ext (floatCell b)) ∧
    ∀ a b, FFin a → FFin b →
      ((floatCell a).less ext (floatCell b) = .ok true ↔ fval a < fval b) := by
  have hl : ∀ a b, (floatCell a).less ext (floatCell b) = .ok (decide (a < b)) := fun _ _ => rfl
  refine ⟨⟨fun a b => ⟨_, rfl⟩, ?_, ?_, ?_⟩, ?_⟩
  · intro a
    simp only [hl, GoRes.ok.injEq, decide_eq_false_iff_not]
    by_cases hn : IsNaN a
    · exact not_lt_nan (Or.inl hn)
    · rw [lt_iff_below hn hn]
      rintro (h | ⟨_, h⟩)
      · exact lt_irrefl _ h
      · exact lt_irrefl _ h
  · intro a b h
    simp only [hl, GoRes.ok.injEq, decide_eq_true_eq, decide_eq_false_iff_not] at *
    by_cases hn : IsNaN a ∨ IsNaN b
    · exact absurd h (not_lt_nan hn)
    · push Not at hn
      rw [lt_iff_below hn.1 hn.2] at h
      rw [lt_iff_below hn.2 hn.1]
      rcases h with h | ⟨h0, h⟩
      · rintro (h' | ⟨h', _⟩) <;> omega
      · rintro (h' | ⟨_, h'⟩)
        · omega
        · exact absurd h' h.asymm
  · intro a b c h1 h2
    simp only [hl, GoRes.ok.injEq, decide_eq_true_eq] at *
    by_cases hn : IsNaN a ∨ IsNaN b
    · exact absurd h1 (not_lt_nan hn)
    by_cases hn' : IsNaN b ∨ IsNaN c
    · exact absurd h2 (not_lt_nan hn')
    push Not at hn hn'
    rw [lt_iff_below hn.1 hn.2] at h1
    rw [lt_iff_below hn'.1 hn'.2] at h2
    rw [lt_iff_below hn.1 hn'.2]
    rcases h1 with h1 | ⟨e1, h1⟩ <;> rcases h2 with h2 | ⟨e2, h2⟩
    · exact Or.inl (by omega)
    · exact Or.inl (by omega)
    · exact Or.inl (by omega)
    · exact Or.inr ⟨by omega, h1.trans h2⟩
  · intro a b ha hb
    rw [hl]
    simp only [GoRes.ok.injEq, decide_eq_true_eq]
    exact lt_iff ha hb

/-- C21 for floats: Equal is equality of the values of finite floats. -/
theorem C21_float_equal (ext : Ext) (a b : Float) (ha : FFin a) (hb : FFin b) :
    (floatCell a).equal ext (floatCell b) = .ok (decide (fval a = fval b)) := by
  show GoRes.ok (a == b) = _
  congr 1
  have := beq_iff ha hb
  by_cases h : fval a = fval b
  · rw [decide_eq_true h]; exact this.2 h
  · rw [decide_eq_false h]
    exact Bool.eq_false_iff.2 (fun hh => h (this.1 hh))

/-- C21, Equal on integers, up to 2^53 in absolute value. Missing: larger integers, for which it is
false (`C21_int_equal_counterexample`). -/
theorem C21_int_equal_partial (ext : Ext) (a b : Int) (ha : a.natAbs ≤ 2 ^ 53) (hb : b.natAbs ≤ 2 ^ 53) :
    (intCell a).equal ext (intCell b) = .ok (decide (a = b)) := by
  show GoRes.ok (f64OfInt a == f64OfInt b) = _
  congr 1
  obtain ⟨f1, v1⟩ := ofInt_exact a ha
  obtain ⟨f2, v2⟩ := ofInt_exact b hb
  have := beq_iff f1 f2
  rw [v1, v2, Int.cast_inj] at this
  by_cases h : a = b
  · rw [decide_eq_true h]; exact this.2 h
  · rw [decide_eq_false h]
    exact Bool.eq_false_iff.2 (fun hh => h (this.1 hh))

/-- Distinct neighbours at the limit are told apart. -/
example (ext : Ext) : (intCell 9007199254740991).equal ext (intCell 9007199254740992) = .ok false :=
  C21_int_equal_partial ext _ _ (by decide) (by decide)

/-- A finite float: 1.5 and 2 are finite. -/
example : FFin 1.5 ∧ FFin 2 := by
  constructor <;> rw [ffin_iff] <;> decide +kernel

/-- The number held by a cell holding an integer or a float. -/
inductive HoldsNum : Cell → Float → Prop
  | int (n : Int) : HoldsNum (intCell n) (f64OfInt n)
  | float (x : Float) : HoldsNum (floatCell x) x

theorem beq_symm (a b : Float) : (a == b) = (b == a) := by
  by_cases hn : IsNaN a ∨ IsNaN b
  · rw [Bool.eq_false_iff.2 (not_beq_nan hn), Bool.eq_false_iff.2 (not_beq_nan (Or.symm hn))]
  · push Not at hn
    have h1 := beq_iff_same hn.1 hn.2
    have h2 := beq_iff_same hn.2 hn.1
    apply Bool.eq_iff_iff.2
    rw [h1, h2]
    exact ⟨fun h => ⟨h.1.symm, h.2.symm⟩, fun h => ⟨h.1.symm, h.2.symm⟩⟩

/-- C22 on cells holding numbers (integers and floats, mixed): Equal does not fail, is symmetric, and
reflexive unless the value is NaN. Missing: numbers against text, where it is false. -/
theorem C22_numeric_partial (ext : Ext) (c d : Cell) (x y : Float) (hc : HoldsNum c x)
    (hd : HoldsNum d y) :
    (∃ r, c.equal ext d = .ok r ∧ d.equal ext c = .ok r) ∧
    (x.isNaN = false → c.equal ext c = .ok true) := by
  have key : ∀ {c d : Cell} {x y : Float}, HoldsNum c x → HoldsNum d y →
      c.equal ext d = .ok (x == y) := by
    intro c d x y h1 h2
    cases h1 <;> cases h2 <;> rfl
  refine ⟨⟨x == y, key hc hd, ?_⟩, ?_⟩
  · rw [key hd hc, beq_symm]
  · intro hn
    rw [key hc hc]
    have hn' : ¬ IsNaN x := fun h => by
      rw [isNaN_iff] at h; rw [h] at hn; cases hn
    rw [(beq_iff_same hn' hn').2 ⟨rfl, rfl⟩]

/-- C30 for integral floats: formats 9 and 67 show the hundredfold value. Missing: integers held as
integers and non-integral floats, for which the claim is false. -/
theorem C30_float_partial (ext : Ext) (x : Float) (n : Int) (hx : FFin x) (hv : fval x = n)
    (hn : (n * 100).natAbs ≤ 2 ^ 53) (id : Nat) (h : id = 9 ∨ id = 67) :
    Formatter.new.apply ext id (.float x) = .ok (decInt (n * 100) ++ [37], true) := by
  have h100 := ofNat_exact 100 (by norm_num)
  have hprod : fval x * fval (f64OfNat 100) = ((n * 100 : ℤ) : ℚ) := by
    rw [hv, h100.2]; push_cast; ring
  have hrep := rep_int hn
  obtain ⟨f1, v1⟩ := mul_spec hx h100.1 (by
    rw [hprod]
    have : |((n * 100 : ℤ) : ℚ)| = (((n * 100).natAbs : ℕ) : ℚ) := by rw [Nat.cast_natAbs]; push_cast; rfl
    rw [this]
    have h2 : (((n * 100).natAbs : ℕ) : ℚ) ≤ 2 ^ 53 := by exact_mod_cast hn
    exact le_trans h2 (pow_le_pow_right₀ (by norm_num) (by norm_num)))
  rw [hprod] at v1
  have v2 := v1.exact hrep
  have h3 : f64ToInt (x * f64OfNat 100) = n * 100 := toInt_of_val f1 v2 (by omega) (by omega)
  rcases h with rfl | rfl
  · show GoRes.ok (decInt (f64ToInt (x * f64OfNat 100)) ++ [37], true) = _
    rw [h3]
  · show GoRes.ok (decInt (f64ToInt (x * f64OfNat 100)) ++ [37], true) = _
    rw [h3]

/-- Non-vacuity: 3 renders as 300%. -/
example (ext : Ext) : Formatter.new.apply ext 9 (.float (f64OfInt 3)) = .ok (lit "300%", true) := by
  have h := ofInt_exact 3 (by norm_num)
  exact C30_float_partial ext _ 3 h.1 h.2 (by norm_num) 9 (Or.inl rfl)

end Grate.Props
