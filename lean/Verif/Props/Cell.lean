import Verif.Lemmas.Cell
import Verif.Lemmas.Decimal
import Verif.Spec.Sheet

/-! # Properties C19–C22: cells -/

namespace Grate.Props

open Grate Grate.Spec

/-! ## C19 -/

/-- The mathematical integer carried by a Go value of an integer type, with the range of the type. -/
inductive IntVal : GoVal → Int → Prop
  | sint (n : Int) : -(2 ^ 63) ≤ n → n < 2 ^ 63 → IntVal (.sint n) n
  | usmall (n : Nat) : n < 2 ^ 32 → IntVal (.usmall n) n
  | uint (n : Nat) : n < 2 ^ 64 → IntVal (.uint n) n
  | uint64 (n : Nat) : n < 2 ^ 64 → IntVal (.uint64 n) n

/-- C19 where the value fits in int64: the same integer is stored, for every integer type. -/
theorem C19_fits (v : GoVal) (n : Int) (h : IntVal v n) (hfit : n < 2 ^ 63) :
    newCell v = .ok (.full (.int n) .integer none []) := by
  cases h with
  | sint n _ _ => rfl
  | usmall n _ => rfl
  | uint n _ =>
    have : wrap64 n = n := by unfold wrap64; rw [if_pos (by omega)]
    simp only [newCell, this]
    rw [if_neg (by omega)]
  | uint64 n _ =>
    have : wrap64 n = n := by unfold wrap64; rw [if_pos (by omega)]
    simp only [newCell, this]
    rw [if_neg (by omega)]

/-- C19 for every integer type except `uint`: no wrong integer, and none outside the
int64 range, is ever stored. Missing from the full
statement: `uint`, for which it is false. -/
theorem C19_never_wrong_partial (v : GoVal) (n : Int) (h : IntVal v n) (hu : ∀ k, v ≠ .uint k)
    (m : Int) (t : CellType) (o : Option Nat) (u : List Bytes)
    (hm : newCell v = .ok (.full (.int m) t o u)) : m = n ∧ -(2 ^ 63) ≤ m ∧ m < 2 ^ 63 := by
  cases h with
  | sint n h1 h2 => cases hm; exact ⟨rfl, h1, h2⟩
  | usmall n _ => cases hm; exact ⟨rfl, by omega, by omega⟩
  | uint n _ => exact absurd rfl (hu n)
  | uint64 n _ =>
    simp only [newCell] at hm
    split at hm
    · cases hm
    · have : wrap64 n = n := by unfold wrap64; rw [if_pos (by omega)]
      rw [this] at hm
      cases hm
      exact ⟨rfl, by omega, by omega⟩

/-- C19 is false for `uint`: every value above the int64 range is stored as a negative integer. -/
theorem C19_uint_counterexample (n : Nat) (h1 : 2 ^ 63 ≤ n) (h2 : n < 2 ^ 64) :
    ∃ m : Int, newCell (.uint n) = .ok (.full (.int m) .integer none []) ∧ m < 0 ∧ m ≠ n := by
  have hw : wrap64 n = (n : Int) - 2 ^ 64 := by unfold wrap64; rw [if_neg (by omega)]
  refine ⟨(n : Int) - 2 ^ 64, ?_, by omega, by omega⟩
  simp only [newCell, hw]
  rw [if_neg (by omega)]

/-- The counterexample is not vacuous: `^uint(0)` becomes -1. -/
theorem C19_witness : newCell (.uint 18446744073709551615) = .ok (.full (.int (-1)) .integer none []) := rfl

/-! ## C20 -/

/-- The values C20 speaks about. -/
inductive Scalar : GoVal → Prop
  | bool (b) : Scalar (.bool b)
  | int (n) : Scalar (.sint n)
  | float (x) : Scalar (.f64 x)
  | str (s) : s ≠ [] → Scalar (.str s)

/-- The types C20 speaks about. -/
def Target (t : CellType) : Prop :=
  t = .boolean ∨ t = .integer ∨ t = .float ∨ t = .string ∨ t = .date

/-- C20 (type). The cell has the requested type. -/
theorem C20_type (ext : Ext) (m : Bool) (v : GoVal) (hv : Scalar v) (t : CellType) (ht : Target t) :
    ∃ c, newCellWithType ext m v t = .ok c ∧ c.type = t := by
  cases hv with
  | bool b => rcases ht with rfl | rfl | rfl | rfl | rfl <;> exact ⟨_, rfl, rfl⟩
  | int n => rcases ht with rfl | rfl | rfl | rfl | rfl <;> exact ⟨_, rfl, rfl⟩
  | float x => rcases ht with rfl | rfl | rfl | rfl | rfl <;> exact ⟨_, rfl, rfl⟩
  | str s hs =>
    have hx : newCell (.str s) = .ok (.full (.str s) .string none []) := by
      simp [newCell, textCell, hs]
    unfold newCellWithType
    rw [hx]
    rcases ht with rfl | rfl | rfl | rfl | rfl <;> exact ⟨_, rfl, rfl⟩

/-- Value of a cell built with a requested type. -/
def coerced (ext : Ext) (m : Bool) (v : GoVal) (t : CellType) (x : Val) : Prop :=
  ∃ c, newCellWithType ext m v t = .ok c ∧ c.value = x

/-- C20 (booleans). -/
theorem C20_bool (ext : Ext) (m b : Bool) :
    coerced ext m (.bool b) .integer (.int (if b then 1 else 0)) ∧
    coerced ext m (.bool b) .float (.float (if b then 1 else 0)) ∧
    coerced ext m (.bool b) .string (.str (if b then lit "TRUE" else lit "FALSE")) ∧
    coerced ext m (.bool b) .boolean (.bool b) :=
  ⟨⟨_, rfl, rfl⟩, ⟨_, rfl, rfl⟩, ⟨_, rfl, by cases b <;> rfl⟩, ⟨_, rfl, rfl⟩⟩

/-- C20 (integers): the text form is a decimal numeral of the value. -/
theorem C20_int (ext : Ext) (m : Bool) (n : Int) :
    coerced ext m (.sint n) .float (.float (f64OfInt n)) ∧
    coerced ext m (.sint n) .boolean (.bool (n != 0)) ∧
    (∃ s, coerced ext m (.sint n) .string (.str s) ∧ DecValue s n) ∧
    coerced ext m (.sint n) .date (.time (convertToDate m (f64OfInt n))) ∧
    coerced ext m (.sint n) .integer (.int n) :=
  ⟨⟨_, rfl, rfl⟩, ⟨_, rfl, rfl⟩, ⟨_, ⟨_, rfl, rfl⟩, decInt_value n⟩, ⟨_, rfl, rfl⟩, ⟨_, rfl, rfl⟩⟩

/-- C20 (floats). -/
theorem C20_float (ext : Ext) (m : Bool) (x : Float) :
    coerced ext m (.f64 x) .integer (.int (f64ToInt x)) ∧
    coerced ext m (.f64 x) .boolean (.bool (x != 0)) ∧
    coerced ext m (.f64 x) .string (.str (ext.floatV x)) ∧
    coerced ext m (.f64 x) .date (.time (convertToDate m x)) ∧
    coerced ext m (.f64 x) .float (.float x) :=
  ⟨⟨_, rfl, rfl⟩, ⟨_, rfl, rfl⟩, ⟨_, rfl, rfl⟩, ⟨_, rfl, rfl⟩, ⟨_, rfl, rfl⟩⟩

/-- C20 (text): a decimal numeral in the int64 range becomes its value. -/
theorem C20_str (ext : Ext) (m : Bool) (s : Bytes) (hs : s ≠ []) :
    (∀ n : Int, DecValue s n → -(2 ^ 63) ≤ n → n < 2 ^ 63 → coerced ext m (.str s) .integer (.int n)) ∧
    coerced ext m (.str s) .float (.float (ext.parseFloat s).1) ∧
    coerced ext m (.str s) .boolean (.bool (boolStrings s)) ∧
    coerced ext m (.str s) .string (.str s) := by
  have hx : newCell (.str s) = .ok (.full (.str s) .string none []) := by
    simp [newCell, textCell, hs]
  have hc : ∀ t x ty, t ≠ .string → coerce ext m t (.str s) .string = (x, ty) →
      coerced ext m (.str s) t x := by
    intro t x ty hne h
    refine ⟨.full x ty none [], ?_, rfl⟩
    unfold newCellWithType
    rw [hx]
    simp only [GoRes.ok_bind, if_neg (Ne.symm hne), h]
    rfl
  refine ⟨?_, ?_, ?_, ?_⟩
  · intro n hn h1 h2
    have := (parseInt_ok_iff 64 (by omega) s n).mpr ⟨hn, h1, h2⟩
    refine hc .integer _ .integer (by decide) ?_
    simp only [coerce, coerceBool, coerceFloat, coerceInt, coerceStr, coerceLast, this]
  · exact hc .float _ .float (by decide) rfl
  · exact hc .boolean _ .boolean (by decide) rfl
  · refine ⟨.full (.str s) .string none [], ?_, rfl⟩
    unfold newCellWithType
    rw [hx]
    rfl

/-! ## C21 (booleans, integers, text) -/

/-- Irreflexive, asymmetric, transitive, for a boolean-valued test that may fail. -/
structure StrictOrder {α : Type} (less : α → α → GoRes Bool) : Prop where
  total : ∀ a b, ∃ r, less a b = .ok r
  irrefl : ∀ a, less a a = .ok false
  asymm : ∀ a b, less a b = .ok true → less b a = .ok false
  trans : ∀ a b c, less a b = .ok true → less b c = .ok true → less a c = .ok true

/-- A cell holding text (whatever its reported text-like type and format). -/
def strCell (s : Bytes) : Cell := .full (.str s) .string none []
/-- A cell holding an integer. -/
def intCell (n : Int) : Cell := .full (.int n) .integer none []
/-- A cell holding a boolean. -/
def boolCell (b : Bool) : Cell := .full (.bool b) .boolean none []

/-- C21 for text: Less is a strict order and Equal is equality. -/
theorem C21_str (ext : Ext) : StrictOrder (fun a b => (strCell a).less ext (strCell b)) ∧
    ∀ a b, (strCell a).equal ext (strCell b) = .ok (decide (a = b)) := by
  have hl : ∀ a b, (strCell a).less ext (strCell b) = .ok (bytesLt a b) := fun _ _ => rfl
  refine ⟨⟨fun a b => ⟨_, rfl⟩, ?_, ?_, ?_⟩, ?_⟩
  · intro a; simp only [hl, bytesLt_irrefl]
  · intro a b h
    simp only [hl, GoRes.ok.injEq] at h ⊢
    exact bytesLt_asymm h
  · intro a b c h1 h2
    simp only [hl, GoRes.ok.injEq] at h1 h2 ⊢
    exact bytesLt_trans a b c h1 h2
  · intro a b
    have he : (strCell a).equal ext (strCell b) = .ok (bytesLt a b == bytesLt b a) := rfl
    rw [he]
    congr 1
    by_cases hab : a = b
    · subst hab; simp
    · simp only [hab, decide_false]
      cases h1 : bytesLt a b with
      | true => rw [bytesLt_asymm h1]; rfl
      | false =>
        cases h2 : bytesLt b a with
        | true => rfl
        | false => exact absurd (bytesLt_total a b h1 h2) hab

/-- C21 for booleans. -/
theorem C21_bool (ext : Ext) : StrictOrder (fun a b => (boolCell a).less ext (boolCell b)) ∧
    ∀ a b, (boolCell a).equal ext (boolCell b) = .ok (decide (a = b)) := by
  refine ⟨⟨?_, ?_, ?_, ?_⟩, ?_⟩
  · intro a b; cases a <;> cases b <;> exact ⟨_, rfl⟩
  · intro a; cases a <;> rfl
  · intro a b h; cases a <;> cases b <;> first | rfl | cases h
  · have hl : ∀ a b, (boolCell a).less ext (boolCell b) = .ok (!a && b) := by
      intro a b; cases a <;> cases b <;> rfl
    intro a b c h1 h2
    simp only [hl, GoRes.ok.injEq] at h1 h2 ⊢
    revert h1 h2; cases a <;> cases b <;> cases c <;> simp
  · intro a b; cases a <;> cases b <;> rfl

/-- C21 for integers: Less is the order of the integers. -/
theorem C21_int_less (ext : Ext) : StrictOrder (fun a b => (intCell a).less ext (intCell b)) ∧
    ∀ a b, (intCell a).less ext (intCell b) = .ok (decide (a < b)) := by
  have hl : ∀ a b, (intCell a).less ext (intCell b) = .ok (decide (a < b)) := fun _ _ => rfl
  refine ⟨⟨fun a b => ⟨_, rfl⟩, ?_, ?_, ?_⟩, hl⟩
  · intro a; simp [hl]
  · intro a b h; simp only [hl, GoRes.ok.injEq, decide_eq_true_eq, decide_eq_false_iff_not] at *; omega
  · intro a b c h1 h2; simp only [hl, GoRes.ok.injEq, decide_eq_true_eq] at *; omega

/-- C21 is false for Equal on integers: 2^53 and 2^53+1 are reported equal. -/
theorem C21_int_equal_counterexample (ext : Ext) :
    (intCell 9007199254740992).equal ext (intCell 9007199254740993) = .ok true := by
  have : (f64OfInt 9007199254740992 == f64OfInt 9007199254740993) = true := by decide +kernel
  show GoRes.ok (f64OfInt 9007199254740992 == f64OfInt 9007199254740993) = _
  rw [this]

/-! ## C22 -/

/-- C22, except for numeric cells: on cells not reported as numbers Equal is symmetric, and
reflexive on booleans and text. Missing: numeric cells and times, for which it is false. -/
theorem C22_nonnumeric_partial (ext : Ext) (c d : Cell) (hc : c.type.numeric = false)
    (hd : d.type.numeric = false) (a b : Bool) (h1 : c.less ext d = .ok a) (h2 : d.less ext c = .ok b) :
    c.equal ext d = d.equal ext c ∧ c.equal ext d = .ok (a == b) := by
  have e1 : c.equal ext d = .ok (a == b) := by
    unfold Cell.equal; simp [hc, hd, h1, h2]
  have e2 : d.equal ext c = .ok (b == a) := by
    unfold Cell.equal; simp [hc, hd, h1, h2]
  refine ⟨?_, e1⟩
  rw [e1, e2]
  cases a <;> cases b <;> rfl

/-- Text and booleans compare without failing, both ways. -/
theorem C22_witness (ext : Ext) (s : Bytes) (b : Bool) :
    (strCell s).equal ext (boolCell b) = (boolCell b).equal ext (strCell s) := by
  refine (C22_nonnumeric_partial ext (strCell s) (boolCell b) rfl rfl (b && !boolStrings s)
    (!b && boolStrings s) rfl ?_).1
  cases b <;> rfl

/-- C22 is false (symmetry): the integer 5 equals any text, but text that does not scan as a number
does not equal 5. Only assumes that scanning "5" gives 5 and scanning "abc" fails. -/
theorem C22_symmetry_counterexample (ext : Ext) (h5 : ext.scanG (lit "5") = some (f64OfInt 5))
    (habc : ext.scanG (lit "abc") = none) :
    (intCell 5).equal ext (strCell (lit "abc")) = .ok true ∧
    (strCell (lit "abc")).equal ext (intCell 5) = .ok false := by
  have h5' : sprint ext (.int 5) = lit "5" := by show decInt 5 = _; decide +kernel
  have e1 : (f64OfInt 5 == f64OfInt 5) = true := by decide +kernel
  have e2 : ((0 : Float) == f64OfInt 5) = false := by decide +kernel
  constructor
  · show GoRes.ok (f64OfInt 5 == (ext.scanG (sprint ext (.int 5))).getD 0) = _
    rw [h5', h5]
    simp [e1]
  · show GoRes.ok ((ext.scanG (lit "abc")).getD 0 == f64OfInt 5) = _
    rw [habc]
    simp [e2]

/-- C22 is false (no panic): comparing two dates panics. -/
theorem C22_time_counterexample (ext : Ext) (t u : Time) :
    Cell.equal ext (.full (.time t) .date none []) (.full (.time u) .date none []) = .panic := rfl

/-- C22 is false (reflexivity): NaN does not equal itself. -/
theorem C22_nan_counterexample (ext : Ext) :
    let c : Cell := .full (.float (0 / 0)) .float none []
    c.equal ext c = .ok false := by
  have : ((0 / 0 : Float) == (0 / 0 : Float)) = false := by decide +kernel
  show GoRes.ok ((0 / 0 : Float) == (0 / 0 : Float)) = _
  rw [this]

end Grate.Props
