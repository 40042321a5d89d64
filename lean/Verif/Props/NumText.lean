import Verif.Lemmas.GoScience
import Verif.Lemmas.SerialTime
import Verif.Props.MakeFormat
import Verif.Props.Detect

/-! # Properties C88 to C90: numbers as displayed text -/

namespace Grate.Props

open Grate Grate.Spec Grate.F64

/-! ### Printing with two decimals -/

theorem verb_two (ext : Ext) (he : GoPrints ext) {x : Float} (hx : FFin x) :
    ext.sprintfFloat (lit "%4.2f") (x * f64OfNat 1) = goFixed 2 x := by
  have h : lit "%4.2f" = 37 :: decNat 4 ++ 46 :: decNat 2 ++ [102] := by decide +kernel
  have hp := goSprintf_fixed 4 2 (by norm_num) (by norm_num) (by norm_num) (x * f64OfNat 1)
  rw [h, he _ _ _ hp, goFixed_mul_one hx, goFixed_nopad hx _ _ (by norm_num) (by norm_num)]

theorem two_shows (ext : Ext) (he : GoPrints ext) {x : Float} (hx : FFin x) :
    ∃ sgn whole frac, ShowsFixed 2 (fval x) sgn whole frac ∧
      ext.sprintfFloat (lit "%4.2f") (x * f64OfNat 1) = sgn ++ whole ++ 46 :: frac := by
  obtain ⟨sgn, whole, frac, h, ht⟩ := goFixed_shows hx 2
  exact ⟨sgn, whole, frac, h, by rw [verb_two ext he hx, ht, if_neg (by norm_num)]⟩

theorem fixed_parts {p : Nat} {v : ℚ} {sgn whole frac : Bytes} (h : ShowsFixed p v sgn whole frac) :
    (sgn = [] ∨ sgn = [45]) ∧ IsDigits whole := by
  obtain ⟨-, -, h3, k, -, h5⟩ := h
  exact ⟨h3, h5.1.1⟩

/-! ## C88: rounding to the decimals of the format -/

/-- C88 for the format `0.00` (2 and 60): the number is shown rounded to two decimals, ties to even. -/
theorem C88_fixed_partial (ext : Ext) (he : GoPrints ext) (f : Formatter) (id : Nat) (hid : id = 2 ∨ id = 60)
    (x : Float) (hx : FFin x) :
    ∃ sgn whole frac, ShowsFixed 2 (fval x) sgn whole frac ∧
      f.apply ext id (.float x) = .ok (sgn ++ whole ++ 46 :: frac, true) := by
  obtain ⟨sgn, whole, frac, h, ht⟩ := two_shows ext he hx
  refine ⟨sgn, whole, frac, h, ?_⟩
  rw [← ht]
  rcases hid with rfl | rfl <;> rfl

/-- C88 for the format `#,##0.00` (4 and 62): the same with thousands separators. -/
theorem C88_grouped_partial (ext : Ext) (he : GoPrints ext) (f : Formatter) (id : Nat) (hid : id = 4 ∨ id = 62)
    (x : Float) (hx : FFin x) :
    ∃ sgn whole frac g, ShowsFixed 2 (fval x) sgn whole frac ∧ Grouped whole g ∧
      f.apply ext id (.float x) = .ok (sgn ++ g ++ 46 :: frac, true) := by
  obtain ⟨sgn, whole, frac, h, ht⟩ := two_shows ext he hx
  obtain ⟨h1, h2⟩ := fixed_parts h
  obtain ⟨g, hg, hc⟩ := commas_text sgn whole (46 :: frac) h1 h2 (.inr ⟨_, rfl⟩)
  refine ⟨sgn, whole, frac, g, h, hg, ?_⟩
  have : f.apply ext id (.float x) =
      (addCommas (ext.sprintfFloat (lit "%4.2f") (x * f64OfNat 1)) >>= fun s => pure (s, true)) := by
    rcases hid with rfl | rfl <;> rfl
  rw [this, ht, hc]
  rfl

theorem grouped_head {d g : Bytes} (h : Grouped d g) (hd : IsDigits d) : ∃ c cs, g = c :: cs ∧ (c == 45) = false := by
  induction h with
  | base g h1 h2 =>
    cases g with
    | nil => simp at h1
    | cons c cs =>
      have := hd.2 c (by simp)
      refine ⟨c, cs, rfl, ?_⟩
      rw [beq_eq_false_iff_ne]
      rintro rfl
      simp at this
  | @more d s g hg hl ih =>
    have hne : d ≠ [] := by
      intro h0
      cases hg with
      | base _ h1 _ => rw [h0] at h1; simp at h1
      | more g' h' hl' =>
        have := congrArg List.length h0
        simp only [List.length_append, List.length_nil] at this
        omega
    obtain ⟨c, cs, rfl, hc⟩ := ih ⟨hne, fun b hb => hd.2 b (by simp [hb])⟩
    exact ⟨c, cs ++ 44 :: g, rfl, hc⟩

/-- C88 for the formats `#,##0.00;(#,##0.00)` (39 and 40): a minus sign becomes parentheses. -/
theorem C88_parens_partial (ext : Ext) (he : GoPrints ext) (f : Formatter) (id : Nat) (hid : id = 39 ∨ id = 40)
    (x : Float) (hx : FFin x) :
    ∃ sgn whole frac g, ShowsFixed 2 (fval x) sgn whole frac ∧ Grouped whole g ∧
      f.apply ext id (.float x) = .ok (if sgn = [45] then 40 :: g ++ 46 :: frac ++ [41] else g ++ 46 :: frac, true) := by
  obtain ⟨sgn, whole, frac, h, ht⟩ := two_shows ext he hx
  obtain ⟨h1, h2⟩ := fixed_parts h
  obtain ⟨g, hg, hc⟩ := commas_text sgn whole (46 :: frac) h1 h2 (.inr ⟨_, rfl⟩)
  refine ⟨sgn, whole, frac, g, h, hg, ?_⟩
  have : f.apply ext id (.float x) =
      (addCommas (ext.sprintfFloat (lit "%4.2f") (x * f64OfNat 1)) >>= addNegParens >>= fun s => pure (s, true)) := by
    rcases hid with rfl | rfl <;> rfl
  rw [this, ht, hc]
  obtain ⟨c, cs, rfl, hc45⟩ := grouped_head hg h2
  rcases h1 with rfl | rfl
  · rw [if_neg (by simp)]
    show (addNegParens (c :: cs ++ 46 :: frac) >>= fun s => pure (s, true)) = _
    unfold addNegParens
    simp only [List.cons_append, hc45]
    rfl
  · rw [if_pos rfl]
    rfl

theorem decimalVerb_eq (k : Nat) : decimalVerb k = 37 :: decNat (k + 1) ++ 46 :: decNat k ++ [102] := by
  unfold decimalVerb
  have b1 : lit "%" = [37] := by decide +kernel
  have b2 : lit "." = [46] := by decide +kernel
  have b3 : lit "f" = [102] := by decide +kernel
  rw [b1, b2, b3]; simp

/-- C88 for formats defined by the workbook (`0.0`, `"about "#,##0.000`, …): the number is shown rounded to the
decimals of the code. Missing: percents, and the limits of `C70_decimals_partial`. -/
theorem C88_custom_partial (ext : Ext) (he : GoPrints ext) (f : Formatter) (id : Nat) (hid : 164 ≤ id)
    (hfree : f.codes id = none) (c : NumCode) (hpre : PlainText c.pre) (hpost : PlainText c.post)
    (hk : c.decimals ≠ 0) (hk' : c.decimals < 1000000) (hp : c.percent = false) (x : Float) (hx : FFin x) :
    ∃ sgn whole frac out, ShowsFixed c.decimals (fval x) sgn whole frac ∧
      renderCustom ext f id c.text (.float x) = .ok (out, true) ∧ c.Shows sgn whole (46 :: frac) out := by
  obtain ⟨sgn, whole, frac, h, ht⟩ := goFixed_shows hx c.decimals
  obtain ⟨h1, h2⟩ := fixed_parts h
  have hprint : ext.sprintfFloat (decimalVerb c.decimals) (x * f64OfNat c.factor) = sgn ++ whole ++ 46 :: frac := by
    have e1 : c.factor = 1 := by unfold NumCode.factor; rw [hp]; rfl
    have hp := goSprintf_fixed (c.decimals + 1) c.decimals (by omega) (by omega) (by omega) (x * f64OfNat 1)
    rw [e1, decimalVerb_eq, he _ _ _ hp, goFixed_mul_one hx, goFixed_nopad hx _ _ hk (by omega), ht, if_neg hk]
  obtain ⟨-, out, o1, o2⟩ := C70_decimals_partial ext f id hid hfree c hpre hpost hk x sgn whole frac h1 h2 hprint
  exact ⟨sgn, whole, frac, out, h, o1, o2⟩

/-- What is shown for a number rounded to `p` decimals is determined by the number, but for the sign of zero. -/
theorem C88_determined {p : Nat} {v : ℚ} {sgn whole frac sgn' whole' frac' : Bytes}
    (h : ShowsFixed p v sgn whole frac) (h' : ShowsFixed p v sgn' whole' frac') (h0 : v ≠ 0) :
    sgn = sgn' ∧ digitsVal (whole ++ frac) = digitsVal (whole' ++ frac') ∧ frac.length = frac'.length := by
  obtain ⟨a1, a2, -, k, a3, a4⟩ := h
  obtain ⟨b1, b2, -, k', b3, b4⟩ := h'
  have hk := nearest_unique a3 b3
  refine ⟨?_, by rw [a4.2.2.2, b4.2.2.2, hk], by rw [a4.2.1, b4.2.1]⟩
  rcases lt_or_gt_of_ne h0 with hn | hn
  · rw [a2 hn, b2 hn]
  · rw [a1 hn, b1 hn]

theorem fval_neg_2675 : FFin (-2.675) ∧ fval (-2.675) = -(6023564501608038 / 2251799813685248) := by
  obtain ⟨h1, h2⟩ := lit_val (-2.675) .negative 6023564501608038 (-51) (by norm_num)
    ⟨by norm_num, by norm_num, by norm_num, Or.inl (by norm_num)⟩ (by decide +kernel)
  refine ⟨h1, ?_⟩
  rw [h2]
  norm_num [sgn]

theorem apply_goSprintf (ext : Ext) (he : GoPrints ext) {fs out : Bytes} {x : Float}
    (h : goSprintf fs x = some out) : ext.sprintfFloat fs x = out := he _ _ _ h

/-- Values for which the hypotheses hold and what is shown: -2.675 is a little nearer to -2.67 than to -2.68 as a
float; 0.125 lies between 0.12 and 0.13; a million is shown with separators; a small negative number is shown as
`-0.00` and `(0.00)`. -/
theorem C88_witness (ext : Ext) (he : GoPrints ext) (f : Formatter) :
    FFin (-2.675) ∧ f.apply ext 2 (.float (-2.675)) = .ok (lit "-2.67", true) ∧
    f.apply ext 2 (.float 0.125) = .ok (lit "0.12", true) ∧
    f.apply ext 4 (.float 1234567.891) = .ok (lit "1,234,567.89", true) ∧
    f.apply ext 39 (.float (-1234.5)) = .ok (lit "(1,234.50)", true) ∧
    f.apply ext 2 (.float (-0.001)) = .ok (lit "-0.00", true) ∧
    f.apply ext 39 (.float (-0.001)) = .ok (lit "(0.00)", true) := by
  refine ⟨fval_neg_2675.1, ?_, ?_, ?_, ?_, ?_, ?_⟩
  · show GoRes.ok (ext.sprintfFloat (lit "%4.2f") (-2.675 * f64OfNat 1), true) = _
    rw [apply_goSprintf ext he (out := lit "-2.67") (by decide +kernel)]
  · show GoRes.ok (ext.sprintfFloat (lit "%4.2f") (0.125 * f64OfNat 1), true) = _
    rw [apply_goSprintf ext he (out := lit "0.12") (by decide +kernel)]
  · show (addCommas (ext.sprintfFloat (lit "%4.2f") (1234567.891 * f64OfNat 1)) >>= fun s => pure (s, true)) = _
    rw [apply_goSprintf ext he (out := lit "1234567.89") (by decide +kernel)]
    rfl
  · show (addCommas (ext.sprintfFloat (lit "%4.2f") (-1234.5 * f64OfNat 1)) >>= addNegParens >>= fun s => pure (s, true)) = _
    rw [apply_goSprintf ext he (out := lit "-1234.50") (by decide +kernel)]
    rfl
  · show GoRes.ok (ext.sprintfFloat (lit "%4.2f") (-0.001 * f64OfNat 1), true) = _
    rw [apply_goSprintf ext he (out := lit "-0.00") (by decide +kernel)]
  · show (addCommas (ext.sprintfFloat (lit "%4.2f") (-0.001 * f64OfNat 1)) >>= addNegParens >>= fun s => pure (s, true)) = _
    rw [apply_goSprintf ext he (out := lit "-0.00") (by decide +kernel)]
    rfl

/-- Rounding a product with 100 to a float moves it only a little. -/
theorem percent_close {x : Float} (hx : FFin x) (j : Nat) (hj : j ≤ 1000) (hb : |fval x| * 100 * 2 ^ j < 2 ^ 53) :
    FFin (x * f64OfNat 100) ∧ |fval (x * f64OfNat 100) - fval x * 100| < 1 / 2 ^ j := by
  obtain ⟨f1, v1⟩ := ofNat_exact 100 (by norm_num)
  have p1 : (1 : ℚ) ≤ 2 ^ j := one_le_pow₀ (by norm_num)
  have hb' : |fval x| * 100 < 2 ^ 53 := by
    have : |fval x| * 100 * 1 ≤ |fval x| * 100 * 2 ^ j := by gcongr
    linarith
  have hm := mul_spec hx f1 (by
    rw [v1, abs_mul, show |((100 : ℕ) : ℚ)| = 100 by norm_num]
    exact le_trans hb'.le (pow_le_pow_right₀ (by norm_num) (by norm_num)))
  rw [v1] at hm
  refine ⟨hm.1, ?_⟩
  have hr := hm.2
  push_cast at hr
  rcases le_total 0 (fval x) with h0 | h0
  · rw [abs_of_nonneg h0] at hb
    obtain ⟨a, b, -⟩ := rounds_close hr j hj (by positivity) hb
    rw [abs_lt]
    constructor <;> linarith
  · rw [abs_of_nonpos h0] at hb
    have hr' := hr.neg
    rw [show -(fval x * 100) = -fval x * 100 by ring] at hr'
    obtain ⟨a, b, -⟩ := rounds_close hr' j hj (by nlinarith) hb
    rw [abs_lt]
    constructor <;> linarith

/-- C88 for the format `0.00%` (10 and 68): what is rounded to two decimals is not a hundred times the number but a
float near it, the nearer the smaller the number is. -/
theorem C88_percent_partial (ext : Ext) (he : GoPrints ext) (f : Formatter) (id : Nat) (hid : id = 10 ∨ id = 68)
    (x : Float) (hx : FFin x) (j : Nat) (hj : j ≤ 1000) (hb : |fval x| * 100 * 2 ^ j < 2 ^ 53) :
    ∃ (r : ℚ) (sgn whole frac : Bytes), |r - fval x * 100| < 1 / 2 ^ j ∧ ShowsFixed 2 r sgn whole frac ∧
      f.apply ext id (.float x) = .ok (sgn ++ whole ++ 46 :: frac ++ [37], true) := by
  obtain ⟨h1, h2⟩ := percent_close hx j hj hb
  obtain ⟨sgn, whole, frac, h, ht⟩ := goFixed_shows h1 2
  refine ⟨_, sgn, whole, frac, h2, h, ?_⟩
  have e : lit "%4.2f%%" = 37 :: decNat 4 ++ 46 :: decNat 2 ++ [102, 37, 37] := by decide +kernel
  have hp := goSprintf_percent 4 2 (by norm_num) (by norm_num) (by norm_num) (x * f64OfNat 100)
  have : f.apply ext id (.float x) = .ok (ext.sprintfFloat (lit "%4.2f%%") (x * f64OfNat 100), true) := by
    rcases hid with rfl | rfl <;> rfl
  rw [this, e, he _ _ _ hp, goFixed_nopad h1 _ _ (by norm_num) (by norm_num), ht, if_neg (by norm_num)]

/-- C88 for percents in formats defined by the workbook (`0.0%`, …). -/
theorem C88_custom_percent_partial (ext : Ext) (he : GoPrints ext) (f : Formatter) (id : Nat) (hid : 164 ≤ id)
    (hfree : f.codes id = none) (c : NumCode) (hpre : PlainText c.pre) (hpost : PlainText c.post)
    (hk : c.decimals ≠ 0) (hk' : c.decimals < 1000000) (hp : c.percent = true) (x : Float) (hx : FFin x)
    (j : Nat) (hj : j ≤ 1000) (hb : |fval x| * 100 * 2 ^ j < 2 ^ 53) :
    ∃ (r : ℚ) (sgn whole frac out : Bytes), |r - fval x * 100| < 1 / 2 ^ j ∧ ShowsFixed c.decimals r sgn whole frac ∧
      renderCustom ext f id c.text (.float x) = .ok (out, true) ∧ c.Shows sgn whole (46 :: frac) out := by
  obtain ⟨hf, hr⟩ := percent_close hx j hj hb
  obtain ⟨sgn, whole, frac, h, ht⟩ := goFixed_shows hf c.decimals
  obtain ⟨h1, h2⟩ := fixed_parts h
  have hprint : ext.sprintfFloat (decimalVerb c.decimals) (x * f64OfNat c.factor) = sgn ++ whole ++ 46 :: frac := by
    have e1 : c.factor = 100 := by unfold NumCode.factor; rw [hp]; rfl
    have hp := goSprintf_fixed (c.decimals + 1) c.decimals (by omega) (by omega) (by omega) (x * f64OfNat 100)
    rw [e1, decimalVerb_eq, he _ _ _ hp, goFixed_nopad hf _ _ hk (by omega), ht, if_neg hk]
  obtain ⟨-, out, o1, o2⟩ := C70_decimals_partial ext f id hid hfree c hpre hpost hk x sgn whole frac h1 h2 hprint
  exact ⟨_, sgn, whole, frac, out, hr, h, o1, o2⟩

theorem fval_percent : FFin 0.00125 ∧ fval 0.00125 = 5764607523034235 / 4611686018427387904 := by
  obtain ⟨h1, h2⟩ := lit_val 0.00125 .positive 5764607523034235 (-62) (by norm_num)
    ⟨by norm_num, by norm_num, by norm_num, Or.inl (by norm_num)⟩ (by decide +kernel)
  refine ⟨h1, ?_⟩
  rw [h2]
  norm_num [sgn]

theorem fval_275 : FFin 2.75 ∧ fval 2.75 = 11 / 4 := by
  obtain ⟨h1, h2⟩ := lit_val 2.75 .positive 6192449487634432 (-51) (by norm_num)
    ⟨by norm_num, by norm_num, by norm_num, Or.inl (by norm_num)⟩ (by decide +kernel)
  refine ⟨h1, ?_⟩
  rw [h2]
  norm_num [sgn]

/-- C88 is false for percents: the float 0.00125 is a little more than an eighth of a percent, so that 0.13% is
nearest, but its product with 100 is rounded to an eighth, and that is shown as 0.12%. -/
theorem C88_percent_counterexample (ext : Ext) (he : GoPrints ext) (f : Formatter) :
    f.apply ext 10 (.float 0.00125) = .ok (lit "0.12%", true) ∧ Nearest 13 (|fval 0.00125 * 100| * 10 ^ 2) := by
  refine ⟨?_, ?_⟩
  · show GoRes.ok (ext.sprintfFloat (lit "%4.2f%%") (0.00125 * f64OfNat 100), true) = _
    rw [apply_goSprintf ext he (out := lit "0.12%") (by decide +kernel)]
  · rw [fval_percent.2]
    unfold Nearest
    norm_num [abs_of_neg, abs_of_pos]

/-- C88 is false for formats without decimals: they cut off. 2.75 shows 2 under `0` (1) and `#,##0` (3), and
0.999 shows 99% under `0%` (9). -/
theorem C88_whole_counterexample (ext : Ext) (f : Formatter) :
    f.apply ext 1 (.float 2.75) = .ok (lit "2", true) ∧ f.apply ext 3 (.float 2.75) = .ok (lit "2", true) ∧
    Nearest 3 (|fval 2.75| * 10 ^ 0) ∧ f.apply ext 9 (.float 0.999) = .ok (lit "99%", true) := by
  have e : f64ToInt (2.75 * f64OfNat 1) = 2 := by decide +kernel
  have e' : f64ToInt (0.999 * f64OfNat 100) = 99 := by decide +kernel
  refine ⟨?_, ?_, ?_, ?_⟩
  · show GoRes.ok (decInt (f64ToInt (2.75 * f64OfNat 1)) ++ [], true) = _
    rw [e]; rfl
  · show (addCommas (decInt (f64ToInt (2.75 * f64OfNat 1)) ++ []) >>= fun s => pure (s, true)) = _
    rw [e]; rfl
  · rw [fval_275.2]
    unfold Nearest
    norm_num [abs_of_neg, abs_of_pos]
  · show GoRes.ok (decInt (f64ToInt (0.999 * f64OfNat 100)) ++ [37], true) = _
    rw [e']; rfl

/-- Values that are no numbers: an infinity gets a comma after its sign. -/
theorem C88_infinite (ext : Ext) (he : GoPrints ext) (f : Formatter) :
    f.apply ext 4 (.float (1 / 0)) = .ok (lit "+,Inf", true) ∧ f.apply ext 4 (.float (0 / 0)) = .ok (lit " ,NaN", true) := by
  refine ⟨?_, ?_⟩
  · show (addCommas (ext.sprintfFloat (lit "%4.2f") (1 / 0 * f64OfNat 1)) >>= fun s => pure (s, true)) = _
    rw [apply_goSprintf ext he (out := lit "+Inf") (by decide +kernel)]
    rfl
  · show (addCommas (ext.sprintfFloat (lit "%4.2f") (0 / 0 * f64OfNat 1)) >>= fun s => pure (s, true)) = _
    rw [apply_goSprintf ext he (out := lit " NaN") (by decide +kernel)]
    rfl

/-! ## C89: accounting formats -/

/-- The sign of an integer as a float. -/
theorem ofInt_sign (n : Int) (hn : n.natAbs ≤ 2 ^ 63) (h0 : n ≠ 0) :
    (f64OfInt n == 0) = false ∧ (f64OfInt n < 0 ↔ n < 0) := by
  obtain ⟨hf, hr⟩ := ofInt_spec n (le_trans hn (Nat.pow_le_pow_right (by norm_num) (by norm_num)))
  have key : (1 ≤ n → 1 ≤ fval (f64OfInt n)) ∧ (n ≤ -1 → fval (f64OfInt n) ≤ -1) := by
    constructor
    · intro h
      have h1 : Rep 1 := by
        have := rep_nat (n := 1) (by norm_num)
        simpa using this
      exact (hr 1 h1).2 (by exact_mod_cast h)
    · intro h
      have h1 : Rep (-1) := by
        have := (rep_nat (n := 1) (by norm_num)).neg
        simpa using this
      exact (hr (-1) h1).1 (by exact_mod_cast h)
  have hz := beq_iff hf zero_val.1
  have hl := lt_iff hf zero_val.1
  rw [zero_val.2] at hz hl
  rcases lt_or_gt_of_ne h0 with h | h
  · have := key.2 (by omega)
    refine ⟨?_, ⟨fun _ => h, fun _ => hl.2 (by linarith)⟩⟩
    rw [Bool.eq_false_iff]
    intro hb
    have := hz.1 hb
    linarith
  · have := key.1 (by omega)
    refine ⟨?_, ⟨fun h' => ?_, fun h' => by omega⟩⟩
    · rw [Bool.eq_false_iff]
      intro hb
      have := hz.1 hb
      linarith
    · have := hl.1 h'
      linarith

/-- C89 for amounts with cents (43 and 44): zero is a dash, a positive amount has separators and two decimals, the
dollar sign before it. Missing: negative amounts. -/
theorem C89_cents_partial (ext : Ext) (he : GoPrints ext) (f : Formatter) (x : Float) (hx : FFin x) :
    (fval x = 0 → f.apply ext 43 (.float x) = .ok (lit "-", true) ∧ f.apply ext 44 (.float x) = .ok (lit "$-", true)) ∧
    (0 < fval x → ∃ whole frac g, ShowsFixed 2 (fval x) [] whole frac ∧ Grouped whole g ∧
      f.apply ext 43 (.float x) = .ok (g ++ 46 :: frac, true) ∧
      f.apply ext 44 (.float x) = .ok (lit "$" ++ (g ++ 46 :: frac), true)) := by
  have hz := beq_iff hx zero_val.1
  have hl := lt_iff hx zero_val.1
  rw [zero_val.2] at hz hl
  have e43 : f.apply ext 43 (.float x) = ((if x == 0 then .ok [45] else
      addCommas (ext.sprintfFloat (lit "%4.2f") (x * f64OfNat 1))) >>= fun s => pure (s, true)) := rfl
  have e44 : f.apply ext 44 (.float x) = ((if x == 0 then .ok (lit "$-") else if x < 0 then
      (addCommas (ext.sprintfFloat (lit "%4.2f") (x * f64OfNat 1)) >>= fun s => pure (lit "$(" ++ s ++ lit ")")) else
      (addCommas (ext.sprintfFloat (lit "%4.2f") (x * f64OfNat 1)) >>= fun s => pure (lit "$" ++ s ++ []))) >>=
      fun s => pure (s, true)) := rfl
  constructor
  · intro h0
    rw [e43, e44, if_pos (hz.2 h0), if_pos (hz.2 h0)]
    exact ⟨rfl, rfl⟩
  · intro h0
    obtain ⟨sgn, whole, frac, h, ht⟩ := two_shows ext he hx
    obtain ⟨h1, h2⟩ := fixed_parts h
    have hs : sgn = [] := h.1 h0
    subst hs
    obtain ⟨g, hg, hc⟩ := commas_text [] whole (46 :: frac) h1 h2 (.inr ⟨_, rfl⟩)
    have n0 : ¬ (x == 0) = true := fun hb => by have := hz.1 hb; linarith
    have n1 : ¬ x < 0 := fun hb => by have := hl.1 hb; linarith
    refine ⟨whole, frac, g, h, hg, ?_, ?_⟩
    · rw [e43, if_neg n0, ht, hc]; rfl
    · rw [e44, if_neg n0, if_neg n1, ht, hc]
      show GoRes.ok (lit "$" ++ ([] ++ g ++ 46 :: frac) ++ [], true) = _
      simp

/-- C89 for whole amounts (41 and 42). Missing: negative amounts; amounts with cents are cut off, as in
`C88_whole_counterexample`. -/
theorem C89_whole_partial (ext : Ext) (f : Formatter) (n : Int) (hn : n.natAbs ≤ 2 ^ 63) :
    (n = 0 → f.apply ext 41 (.int n) = .ok (lit "-", true) ∧ f.apply ext 42 (.int n) = .ok (lit "$-", true)) ∧
    (0 < n → ∃ d g, Numeral d n.natAbs ∧ Grouped d g ∧
      f.apply ext 41 (.int n) = .ok (g, true) ∧ f.apply ext 42 (.int n) = .ok (lit "$" ++ g, true)) := by
  have e41 : f.apply ext 41 (.int n) = ((if f64OfInt n == 0 then .ok [45] else
      addCommas (padLeft 0 (decInt n) ++ [])) >>= fun s => pure (s, true)) := rfl
  have e42 : f.apply ext 42 (.int n) = ((if f64OfInt n == 0 then .ok (lit "$-") else if f64OfInt n < 0 then
      (addCommas (padLeft 0 (decInt n) ++ []) >>= fun s => pure (lit "$(" ++ s ++ lit ")")) else
      (addCommas (padLeft 0 (decInt n) ++ []) >>= fun s => pure (lit "$" ++ s ++ []))) >>=
      fun s => pure (s, true)) := rfl
  constructor
  · rintro rfl
    have hz : (f64OfInt 0 == 0) = true := by decide +kernel
    rw [e41, e42, if_pos hz, if_pos hz]
    exact ⟨rfl, rfl⟩
  · intro h0
    obtain ⟨s1, s2⟩ := ofInt_sign n hn (by omega)
    obtain ⟨g, hG, hg⟩ := commas_int n
    have n1 : ¬ f64OfInt n < 0 := fun hb => by have := s2.1 hb; omega
    rw [if_neg (by omega)] at hg
    refine ⟨_, g, decNat_numeral _, hG, ?_, ?_⟩
    · rw [e41, if_neg (by simp [s1]), padLeft_zero, List.append_nil, hg]; rfl
    · rw [e42, if_neg (by simp [s1]), if_neg n1, padLeft_zero, List.append_nil, hg]
      show GoRes.ok (lit "$" ++ g ++ [], true) = _
      simp

/-- C89 is false for negative amounts: without dollar sign there are no parentheses, and with it there are a minus
sign and parentheses. -/
theorem C89_negative_counterexample (ext : Ext) (he : GoPrints ext) (f : Formatter) :
    f.apply ext 41 (.int (-1234)) = .ok (lit "-1,234", true) ∧
    f.apply ext 42 (.int (-1234)) = .ok (lit "$(-1,234)", true) ∧
    f.apply ext 43 (.float (-1234.5)) = .ok (lit "-1,234.50", true) ∧
    f.apply ext 44 (.float (-1234.5)) = .ok (lit "$(-1,234.50)", true) := by
  have z1 : (f64OfInt (-1234) == 0) = false := by decide +kernel
  have z2 : f64OfInt (-1234) < 0 := by decide +kernel
  have z3 : ((-1234.5 : Float) == 0) = false := by decide +kernel
  have z4 : (-1234.5 : Float) < 0 := by decide +kernel
  refine ⟨?_, ?_, ?_, ?_⟩
  · show ((if f64OfInt (-1234) == 0 then .ok [45] else
      addCommas (padLeft 0 (decInt (-1234)) ++ [])) >>= fun s => pure (s, true)) = _
    rw [z1]; rfl
  · show ((if f64OfInt (-1234) == 0 then .ok (lit "$-") else if f64OfInt (-1234) < 0 then
      (addCommas (padLeft 0 (decInt (-1234)) ++ []) >>= fun s => pure (lit "$(" ++ s ++ lit ")")) else
      (addCommas (padLeft 0 (decInt (-1234)) ++ []) >>= fun s => pure (lit "$" ++ s ++ []))) >>=
      fun s => pure (s, true)) = _
    rw [z1, if_neg (by simp), if_pos z2]; rfl
  · show ((if (-1234.5 : Float) == 0 then .ok [45] else
      addCommas (ext.sprintfFloat (lit "%4.2f") (-1234.5 * f64OfNat 1))) >>= fun s => pure (s, true)) = _
    rw [z3, apply_goSprintf ext he (out := lit "-1234.50") (by decide +kernel)]; rfl
  · show ((if (-1234.5 : Float) == 0 then .ok (lit "$-") else if (-1234.5 : Float) < 0 then
      (addCommas (ext.sprintfFloat (lit "%4.2f") (-1234.5 * f64OfNat 1)) >>= fun s => pure (lit "$(" ++ s ++ lit ")")) else
      (addCommas (ext.sprintfFloat (lit "%4.2f") (-1234.5 * f64OfNat 1)) >>= fun s => pure (lit "$" ++ s ++ []))) >>=
      fun s => pure (s, true)) = _
    rw [z3, if_neg (by simp), if_pos z4, apply_goSprintf ext he (out := lit "-1234.50") (by decide +kernel)]; rfl

/-- A positive amount, a whole one and zero. -/
theorem C89_witness (ext : Ext) (he : GoPrints ext) (f : Formatter) :
    FFin 2.75 ∧ 0 < fval 2.75 ∧ f.apply ext 44 (.float 2.75) = .ok (lit "$2.75", true) ∧
    f.apply ext 42 (.int 1234567) = .ok (lit "$1,234,567", true) := by
  refine ⟨fval_275.1, by rw [fval_275.2]; norm_num, ?_, ?_⟩
  · have z3 : ((2.75 : Float) == 0) = false := by decide +kernel
    have z4 : ¬ (2.75 : Float) < 0 := by decide +kernel
    show ((if (2.75 : Float) == 0 then .ok (lit "$-") else if (2.75 : Float) < 0 then
      (addCommas (ext.sprintfFloat (lit "%4.2f") (2.75 * f64OfNat 1)) >>= fun s => pure (lit "$(" ++ s ++ lit ")")) else
      (addCommas (ext.sprintfFloat (lit "%4.2f") (2.75 * f64OfNat 1)) >>= fun s => pure (lit "$" ++ s ++ []))) >>=
      fun s => pure (s, true)) = _
    rw [z3, if_neg (by simp), if_neg z4, apply_goSprintf ext he (out := lit "2.75") (by decide +kernel)]; rfl
  · have z1 : (f64OfInt 1234567 == 0) = false := by decide +kernel
    have z2 : ¬ f64OfInt 1234567 < 0 := by decide +kernel
    show ((if f64OfInt 1234567 == 0 then .ok (lit "$-") else if f64OfInt 1234567 < 0 then
      (addCommas (padLeft 0 (decInt 1234567) ++ []) >>= fun s => pure (lit "$(" ++ s ++ lit ")")) else
      (addCommas (padLeft 0 (decInt 1234567) ++ []) >>= fun s => pure (lit "$" ++ s ++ []))) >>=
      fun s => pure (s, true)) = _
    rw [z1, if_neg (by simp), if_neg z2]; rfl

/-! ## C90: scientific notation -/

theorem goScience_length {x : Float} (hx : FFin x) (h0 : fval x ≠ 0) (p : Nat) : p + 4 ≤ (goScience p x).length := by
  obtain ⟨sgn, whole, frac, et, e, k, -, hd, -, -, he, ht, -⟩ := goScience_shows hx h0 p
  obtain ⟨d, -, -, h2, -, rfl⟩ := he
  have h1 : 0 < whole.length := List.length_pos_of_ne_nil hd.1.1.1
  have h3 := hd.2.1
  rw [ht]
  by_cases hp : p = 0
  · simp [hp]; omega
  · simp [hp]; omega

/-- C90 for the format `0.00E+00` (11): three significant digits, correctly rounded, with the power of ten of the
number. -/
theorem C90_science_partial (ext : Ext) (he : GoPrints ext) (f : Formatter) (x : Float) (hx : FFin x) (h0 : fval x ≠ 0) :
    ∃ out, ShowsScience 2 (fval x) out ∧ f.apply ext 11 (.float x) = .ok (out, true) := by
  refine ⟨_, goScience_shows hx h0 2, ?_⟩
  have h : lit "%4.2E" = 37 :: decNat 4 ++ 46 :: decNat 2 ++ [69] := by decide +kernel
  have hp := goSprintf_science 4 2 (by norm_num) (by norm_num) (by norm_num) (x * f64OfNat 1)
  have hl := goScience_length hx h0 2
  show GoRes.ok (ext.sprintfFloat (lit "%4.2E") (x * f64OfNat 1), true) = _
  rw [h, he _ _ _ hp, goScience_mul_one hx]
  unfold padLeft
  rw [Nat.sub_eq_zero_of_le (by omega)]
  rfl

theorem dropExp_code : ∀ (a : Bytes) (n : Nat), (∀ b ∈ a, b ≠ 69 ∧ b ≠ 101) → a.length < n →
    dropExp n (a ++ [69, 43, 48, 48]) = a
  | [], n, _, hn => by
    obtain ⟨m, rfl⟩ : ∃ m, n = m + 1 := ⟨n - 1, by simp at hn; omega⟩
    cases m <;> rfl
  | c :: cs, n, h, hn => by
    obtain ⟨m, rfl⟩ : ∃ m, n = m + 1 := ⟨n - 1, by simp at hn; omega⟩
    obtain ⟨h1, h2⟩ := h c (by simp)
    have : expRest (c :: cs ++ [69, 43, 48, 48]) = none := by
      unfold expRest
      split
      · next hd =>
        rw [if_neg]
        simp [h1, h2]
      · rfl
    rw [List.cons_append] at this ⊢
    rw [dropExp, this]
    simp only
    rw [dropExp_code cs m (fun b hb => h b (by simp [hb])) (by simp at hn; omega)]

/-- The formatter of a scientific code. -/
theorem makeFormatter_science (k : Nat) (hk : k ≠ 0) : makeFormatter (scienceCode k) =
    (.sprintf (.f (37 :: decNat (k + 1) ++ 46 :: decNat k ++ [69])) 1, .float) := by
  have hE : lit "E+00" = [69, 43, 48, 48] := by decide +kernel
  have hZ : lit "0." = [48, 46] := by decide +kernel
  have hmem : ∀ b ∈ scienceCode k, b = 48 ∨ b = 46 ∨ b = 69 ∨ b = 43 := by
    intro b hb
    unfold scienceCode at hb
    rw [hE, hZ] at hb
    simp only [List.mem_append, List.mem_cons, List.mem_replicate, List.not_mem_nil, or_false] at hb
    tauto
  have hne : ∀ c : UInt8, c ≠ 48 → c ≠ 46 → c ≠ 69 → c ≠ 43 → c ∉ scienceCode k := by
    intro c h1 h2 h3 h4 hc
    rcases hmem c hc with h | h | h | h <;> contradiction
  have h91 : dropSpans 91 93 (scienceCode k) = scienceCode k :=
    dropSpansGo_id 91 93 _ (fun b hb h => hne 91 (by decide) (by decide) (by decide) (by decide) (h ▸ hb))
  have h34 : dropSpans 34 34 (scienceCode k) = scienceCode k :=
    dropSpansGo_id 34 34 _ (fun b hb h => hne 34 (by decide) (by decide) (by decide) (by decide) (h ▸ hb))
  have h59 : (scienceCode k).contains 59 = false := by
    rw [Bool.eq_false_iff]
    intro h
    exact hne 59 (by decide) (by decide) (by decide) (by decide) (List.contains_iff_mem.1 h)
  have hdate : hasAny (lit "ymdhs") (scienceCode k) = false := by
    refine hasAny_false (fun b hb => ?_)
    rcases hmem b hb with rfl | rfl | rfl | rfl <;> decide +kernel
  have e69 : (69 : UInt8) ∈ scienceCode k := by unfold scienceCode; rw [hE]; simp
  let a : Bytes := [48, 46] ++ List.replicate k 48
  have ha : ∀ b ∈ a, b = 48 ∨ b = 46 := by
    intro b hb
    simp only [a, List.mem_append, List.mem_cons, List.mem_replicate, List.not_mem_nil, or_false] at hb
    tauto
  have hdrop : dropExp (scienceCode k).length (scienceCode k) = a := by
    have : scienceCode k = a ++ [69, 43, 48, 48] := by unfold scienceCode; rw [hE, hZ]
    rw [this]
    refine dropExp_code a _ (fun b hb => ?_) (by simp)
    rcases ha b hb with rfl | rfl <;> decide
  have hfil : a.filter (· != 44) = a := filter_self (fun b hb => by rcases ha b hb with rfl | rfl <;> decide)
  have i1 : firstIndex (· == 48) a = 0 := rfl
  have i2 : firstIndex (· == 46) a = 1 := rfl
  have i3 : lastIndex (fun b => b == 48 || b == 46) a = (k : Int) + 1 := by
    obtain ⟨j, rfl⟩ : ∃ j, k = j + 1 := ⟨k - 1, by omega⟩
    have : a = ([48, 46] ++ List.replicate j 48) ++ 48 :: [] := by
      simp only [a, List.replicate_succ', List.append_assoc]
    rw [this, lastIndex_append _ _ _ _ (by simp) (by decide)]
    simp
  have hmul : percentMul a = 1 := by
    unfold percentMul
    rw [if_neg]
    intro h
    rcases ha _ (List.contains_iff_mem.1 h) with h | h <;> exact absurd h (by decide)
  have hnum : numberFmt (scienceCode k) =
      (a, .sprintf (.f (37 :: decNat (k + 1) ++ 46 :: decNat k ++ [69])) 1, .float) := by
    unfold numberFmt
    rw [hasAny_true e69 (by decide +kernel), hasAny_true (cs := lit "Ee") e69 (by decide +kernel)]
    simp only [if_true, hdrop, hfil, i1, i2, i3, hmul]
    have d1 : decInt ((k : Int) + 1 - 0) = decNat (k + 1) := by
      unfold decInt
      rw [if_neg (by omega)]
      congr 1
    have d2 : decInt ((k : Int) + 1 - 1) = decNat k := by
      unfold decInt
      rw [if_neg (by omega)]
      congr 1
      omega
    rw [d1, d2]
    have : lit "E" = [69] := by decide +kernel
    rw [this]
  have hcomma : a.contains 44 = false := by
    rw [Bool.eq_false_iff]
    intro h
    rcases ha _ (List.contains_iff_mem.1 h) with h | h <;> exact absurd h (by decide)
  have hsplit : splitDigits a = some ([], []) := by
    have hp : ∀ b ∈ a, isPlace b = true := fun b hb => by rcases ha b hb with rfl | rfl <;> rfl
    unfold splitDigits
    change (if a.any isPlace then some (a.takeWhile (fun b => !isPlace b),
      (a.dropWhile (fun b => !isPlace b)).dropWhile isPlace) else none) = _
    rw [if_pos (List.any_eq_true.2 ⟨48, by simp [a], rfl⟩)]
    have : a.dropWhile isPlace = [] := by
      have := dropWhile_all isPlace a [] hp (by simp)
      simpa using this
    show some ([], a.dropWhile isPlace) = _
    rw [this]
  unfold makeFormatter
  simp only [h91, h59, Bool.false_eq_true, if_false]
  unfold makeSection
  rw [h34, hdate]
  simp only [Bool.false_eq_true, if_false]
  rw [hnum]
  simp only [hcomma, hsplit]
  rfl

/-- C90 for formats defined by the workbook: `0.0E+00`, `0.000E+00`, … -/
theorem C90_custom_partial (ext : Ext) (he : GoPrints ext) (f : Formatter) (id : Nat) (hid : 164 ≤ id)
    (hfree : f.codes id = none) (k : Nat) (hk : k ≠ 0) (hk' : k < 1000000) (x : Float) (hx : FFin x) (h0 : fval x ≠ 0) :
    ∃ out, ShowsScience k (fval x) out ∧ renderCustom ext f id (scienceCode k) (.float x) = .ok (out, true) := by
  have h48 : (48 : UInt8) ∈ scienceCode k := by
    unfold scienceCode
    rw [show lit "0." = [48, 46] by decide +kernel]
    simp
  refine ⟨_, goScience_shows hx h0 k, ?_⟩
  rw [(renderCustom_eq ext f id _ _ hid hfree (not_general h48 (.inl rfl))).1, makeFormatter_science k hk]
  have hp := goSprintf_science (k + 1) k (by omega) (by omega) (by omega) (x * f64OfNat 1)
  have hl := goScience_length hx h0 k
  show GoRes.ok (ext.sprintfFloat (37 :: decNat (k + 1) ++ 46 :: decNat k ++ [69]) (x * f64OfNat 1), true) = _
  rw [he _ _ _ hp, goScience_mul_one hx]
  unfold padLeft
  rw [Nat.sub_eq_zero_of_le (by omega)]
  rfl

/-- Zero, a number that is rounded up to the next power of ten, a very small and a large one. -/
theorem C90_witness (ext : Ext) (he : GoPrints ext) (f : Formatter) :
    FFin 2.75 ∧ fval 2.75 ≠ 0 ∧
    f.apply ext 11 (.float 0) = .ok (lit "0.00E+00", true) ∧
    f.apply ext 11 (.float (-9.996)) = .ok (lit "-1.00E+01", true) ∧
    f.apply ext 11 (.float 1e-310) = .ok (lit "1.00E-310", true) ∧
    f.apply ext 11 (.float 123456) = .ok (lit "1.23E+05", true) := by
  refine ⟨fval_275.1, by rw [fval_275.2]; norm_num, ?_, ?_, ?_, ?_⟩
  · show GoRes.ok (ext.sprintfFloat (lit "%4.2E") (0 * f64OfNat 1), true) = _
    rw [apply_goSprintf ext he (out := lit "0.00E+00") (by decide +kernel)]
  · show GoRes.ok (ext.sprintfFloat (lit "%4.2E") (-9.996 * f64OfNat 1), true) = _
    rw [apply_goSprintf ext he (out := lit "-1.00E+01") (by decide +kernel)]
  · show GoRes.ok (ext.sprintfFloat (lit "%4.2E") (1e-310 * f64OfNat 1), true) = _
    rw [apply_goSprintf ext he (out := lit "1.00E-310") (by decide +kernel)]
  · show GoRes.ok (ext.sprintfFloat (lit "%4.2E") (123456 * f64OfNat 1), true) = _
    rw [apply_goSprintf ext he (out := lit "1.23E+05") (by decide +kernel)]

/-- C90 is false for the format `##0.0E+0` (48), whose exponents are multiples of three: 12345 should show as
`12.3E+3`. A code with one digit for the exponent (`0.0E+0`) prints like one with two. -/
theorem C90_engineering_counterexample (ext : Ext) (he : GoPrints ext) (f : Formatter) :
    builtInFormats 48 = some (lit "##0.0E+0") ∧ f.apply ext 48 (.float 12345) = .ok (lit "1.2E+04", true) ∧
    (makeFormatter (lit "0.0E+0")).1 = .sprintf (.f (lit "%2.1E")) 1 := by
  refine ⟨rfl, ?_, by decide +kernel⟩
  show GoRes.ok (ext.sprintfFloat (lit "%3.1E") (12345 * f64OfNat 1), true) = _
  rw [apply_goSprintf ext he (out := lit "1.2E+04") (by decide +kernel)]

end Grate.Props
