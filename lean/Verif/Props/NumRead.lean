import Verif.Lemmas.GoShortMore
import Verif.Props.NumText
import Verif.Props.Xlsx
import Verif.Props.Cell
import Verif.Props.Simple
import Verif.Props.Display

/-! # Properties C91 to C94: reading numbers, and the General and Text formats -/

namespace Grate.Props

open Grate Grate.Spec Grate.F64
open Grate.Xlsx (lit_types)

/-! ## C91: numerals are read as the nearest float64 -/

theorem parse_ok (ext : Ext) (hp : GoParses ext) {s : Bytes} {e : Int} {q : ℚ} (h : DecimalText s e q) (he : e.natAbs < 100000)
    (hq : |q| < floatLimit) : ∃ x, ext.parseFloat s = (x, none) ∧ NearestFloat q x := by
  obtain ⟨x, h1, h2⟩ := goParseFloat_ok h he hq
  exact ⟨x, hp _ _ h1, h2⟩

theorem parse_range (ext : Ext) (hp : GoParses ext) {s : Bytes} {e : Int} {q : ℚ} (h : DecimalText s e q) (he : e.natAbs < 100000)
    (hq : floatLimit ≤ |q|) : ∃ x, ext.parseFloat s = (x, some .range) := by
  obtain ⟨x, h1⟩ := goParseFloat_range h he hq
  exact ⟨x, hp _ _ h1⟩

/-- The text of a cell without a formula. -/
theorem number_means {ext : Ext} {strings : List Bytes} {t : Option Bytes} {a : List (Bytes × Bytes)} {s : Bytes} {v : GoVal}
    (h : CellContent ext strings t [.start (lit "v") a, .chars s, .stop (lit "v")] (some v)) : CellMeans ext strings t s v := by
  generalize hin : [Xlsx.Tok.start (lit "v") a, .chars s, .stop (lit "v")] = inner at h
  generalize hv : some v = w at h
  cases h with
  | blank => cases hv
  | value pre post e s' a' v' g1 g2 g3 g4 =>
    cases hv
    have q2 := firstText_append (pre ++ [.start e a']) s' (.stop e :: post) (by
      intro t ht
      rcases List.mem_append.1 ht with ht | ht
      · exact (g1 _ ht).1 t rfl
      · simp at ht)
    rw [List.append_assoc, List.singleton_append, ← hin] at q2
    have : s = s' := Option.some.inj q2
    rw [this]; exact g4
  | formula pre mid post f s' a' b' v' =>
    have := congrArg List.length hin
    simp only [List.length_cons, List.length_nil, List.length_append] at this
    omega

theorem number_value {ext : Ext} {strings : List Bytes} {t : Option Bytes} {s : Bytes} {v : GoVal}
    (ht : t = none ∨ t = some (lit "n")) (h : CellMeans ext strings t s v) :
    (∃ x, ext.parseFloat s = (x, none) ∧ v = .f64 x) ∨ (∃ x e, ext.parseFloat s = (x, some e) ∧ v = .str s) := by
  cases h with
  | number t s x _ hx => exact .inl ⟨x, hx, rfl⟩
  | notNumber t s x e _ hx => exact .inr ⟨x, e, hx, rfl⟩
  | true s =>
    rcases ht with ht | ht
    · cases ht
    · exact absurd (Option.some.inj ht).symm lit_types.1
  | false b s _ =>
    rcases ht with ht | ht
    · cases ht
    · exact absurd (Option.some.inj ht).symm lit_types.1
  | shared s t _ _ _ =>
    rcases ht with ht | ht
    · cases ht
    · exact absurd (Option.some.inj ht) lit_types.2.2.1
  | text t s h =>
    rcases ht with ht | ht
    · cases ht
    · have : t = lit "n" := Option.some.inj ht
      subst this
      rcases h with h | h | h | h <;> exact absurd h (by decide +kernel)

/-- C91 for xlsx: a numeric cell whose text is a decimal numeral holds the float64 nearest to the number written (of two
equally near ones the one whose last bit is zero), under the format of its style. Numbers beyond the range of float64
stay text. -/
theorem C91_cell (ext : Ext) (hp : GoParses ext) (a : Xlsx.Archive) (d : Xlsx.Doc) (dir : List Bytes) (base : Bytes)
    (hdir : ∀ s ∈ dir, RealName s) (hbase : PathName base) (xs : List ACell) (hx : ∀ x ∈ xs, x.Ok ext d.strings d.xfs)
    (hn : (xs.map (fun x => (x.row, x.col))).Nodup) (hpart : HasPart a (pathOf (dir ++ [base])) (xs.flatMap ACell.toks))
    (hl : LacksPart a (relsPart dir base)) (x : ACell) (hm : x ∈ xs) (b : List (Bytes × Bytes)) (s : Bytes)
    (ht : Lacks x.attrs "t" ∨ Has x.attrs "t" (lit "n"))
    (hin : x.inner = [.start (lit "v") b, .chars s, .stop (lit "v")]) (e : Int) (q : ℚ) (hs : DecimalText s e q)
    (he : e.natAbs < 100000) :
    ∃ sh y v, Xlsx.parseSheet ext a d (pathOf (dir ++ [base])) = .ok (sh, none) ∧ sh.cell? x.row x.col = some y ∧
      Builds ext d.fmt v x.fmt y ∧
      ((|q| < floatLimit ∧ ∃ z, v = .f64 z ∧ NearestFloat q z) ∨ (floatLimit ≤ |q| ∧ v = .str s)) := by
  obtain ⟨sh, hsh, h1, _⟩ := C58_cells_partial ext a d dir base hdir hbase xs hx hn hpart hl
  obtain ⟨y, hy, hb⟩ := h1 x hm
  refine ⟨sh, y, x.value, hsh, hy, hb, ?_⟩
  obtain ⟨t, ht', hc⟩ := (hx x hm).content
  rw [hin] at hc
  have htt : t = none ∨ t = some (lit "n") := by
    rcases ht' with ⟨h, rfl⟩ | ⟨u, h, rfl⟩
    · exact .inl rfl
    · right
      rcases ht with ht | ht
      · exact absurd h (ht u)
      · have g1 := Xlsx.attr?_has (hx x hm).distinct ht
        have g2 := Xlsx.attr?_has (hx x hm).distinct h
        rw [g1] at g2; cases g2; rfl
  have hv := number_value htt (number_means hc)
  rcases lt_or_ge |q| floatLimit with hq | hq
  · obtain ⟨z, p1, p2⟩ := parse_ok ext hp hs he hq
    rcases hv with ⟨w, g1, g2⟩ | ⟨w, e', g1, g2⟩
    · rw [p1] at g1; cases g1
      exact .inl ⟨hq, z, g2, p2⟩
    · rw [p1] at g1; cases g1
  · obtain ⟨z, p1⟩ := parse_range ext hp hs he hq
    rcases hv with ⟨w, g1, g2⟩ | ⟨w, e', g1, g2⟩
    · rw [p1] at g1; cases g1
    · exact .inr ⟨hq, g2⟩

/-- C91 for xlsx: a text of digits, signs, points and the letter `e` that is not a numeral (`1.2.3`, `1-2`) stays text. -/
theorem C91_text (ext : Ext) (hp : GoParses ext) (a : Xlsx.Archive) (d : Xlsx.Doc) (dir : List Bytes) (base : Bytes)
    (hdir : ∀ s ∈ dir, RealName s) (hbase : PathName base) (xs : List ACell) (hx : ∀ x ∈ xs, x.Ok ext d.strings d.xfs)
    (hn : (xs.map (fun x => (x.row, x.col))).Nodup) (hpart : HasPart a (pathOf (dir ++ [base])) (xs.flatMap ACell.toks))
    (hl : LacksPart a (relsPart dir base)) (x : ACell) (hm : x ∈ xs) (b : List (Bytes × Bytes)) (s : Bytes)
    (ht : Lacks x.attrs "t" ∨ Has x.attrs "t" (lit "n"))
    (hin : x.inner = [.start (lit "v") b, .chars s, .stop (lit "v")]) (hs : ∀ c ∈ s, c ∈ lit "0123456789+-.eE")
    (hno : ¬ ∃ e q, DecimalText s e q) :
    ∃ sh y, Xlsx.parseSheet ext a d (pathOf (dir ++ [base])) = .ok (sh, none) ∧ sh.cell? x.row x.col = some y ∧
      Builds ext d.fmt (.str s) x.fmt y := by
  obtain ⟨sh, hsh, h1, _⟩ := C58_cells_partial ext a d dir base hdir hbase xs hx hn hpart hl
  obtain ⟨y, hy, hb⟩ := h1 x hm
  obtain ⟨t, ht', hc⟩ := (hx x hm).content
  rw [hin] at hc
  have htt : t = none ∨ t = some (lit "n") := by
    rcases ht' with ⟨h, rfl⟩ | ⟨u, h, rfl⟩
    · exact .inl rfl
    · right
      rcases ht with ht | ht
      · exact absurd h (ht u)
      · have g1 := Xlsx.attr?_has (hx x hm).distinct ht
        have g2 := Xlsx.attr?_has (hx x hm).distinct h
        rw [g1] at g2; cases g2; rfl
  have hall : s.all numeralByte = true := by
    rw [List.all_eq_true]
    intro c hc
    have key : ∀ c ∈ lit "0123456789+-.eE", numeralByte c = true := by decide +kernel
    exact key c (hs c hc)
  have p1 := hp _ _ (goParseFloat_syntax hall hno)
  rcases number_value htt (number_means hc) with ⟨w, g1, g2⟩ | ⟨w, e', g1, g2⟩
  · rw [p1] at g1; cases g1
  · rw [g2] at hb
    exact ⟨sh, y, hsh, hy, hb⟩

/-- C91 for text files: a field that is a decimal numeral is scanned into a float64 as the nearest one; numbers beyond the
range cannot be scanned. -/
theorem C91_scan (ext : Ext) (hp : GoParses ext) (s : Bytes) (e : Int) (q : ℚ) (hs : DecimalText s e q) (he : e.natAbs < 100000)
    (v : Float) : (|q| < floatLimit → ∃ x, NearestFloat q x ∧ ∀ d', Converts ext.parseFloat s (.float v) d' ↔ d' = .float x) ∧
      (floatLimit ≤ |q| → ∀ d', ¬ Converts ext.parseFloat s (.float v) d') := by
  constructor
  · intro hq
    obtain ⟨x, p1, p2⟩ := parse_ok ext hp hs he hq
    refine ⟨x, p2, fun d' => ⟨?_, ?_⟩⟩
    · intro h
      cases h with
      | float _ y hy => rw [p1] at hy; cases hy; rfl
    · rintro rfl; exact .float _ _ _ p1
  · intro hq d' h
    obtain ⟨x, p1⟩ := parse_range ext hp hs he hq
    cases h with
    | float _ y hy => rw [p1] at hy; cases hy

/-- C91 for cells: a text that is a decimal numeral becomes the nearest float64 when coerced to a number, which is
also the number that formats work with. -/
theorem C91_coerce (ext : Ext) (hp : GoParses ext) (m : Bool) (s : Bytes) (e : Int) (q : ℚ) (hs : DecimalText s e q)
    (he : e.natAbs < 100000) (hq : |q| < floatLimit) :
    ∃ x, NearestFloat q x ∧ coerced ext m (.str s) .float (.float x) ∧ convertToFloat64 ext (.str s) = some x := by
  obtain ⟨x, p1, p2⟩ := parse_ok ext hp hs he hq
  have hne : s ≠ [] := by
    rintro rfl
    obtain ⟨sgn, a, b, pt, ex, -, -, h3, h4, -, h6, -⟩ := hs
    simp only [List.nil_eq, List.append_eq_nil_iff] at h6
    rcases h4 with h4 | ⟨-, h4⟩
    · rw [h4] at h6; simp at h6
    · exact h3 (by rw [h6.1.1.2, h4]; rfl)
  refine ⟨x, p2, ?_, ?_⟩
  · have := (C20_str ext m s hne).2.1
    rw [p1] at this
    exact this
  · simp only [convertToFloat64, p1]

/-- There is one nearest float64, but for the sign of zero. -/
theorem C91_determined {q : ℚ} {x y : Float} (hx : NearestFloat q x) (hy : NearestFloat q y) : fval x = fval y :=
  nearestFloat_unique hx hy

/-- Two numeric cells: 0.1, and a number that is no float64. -/
def exNumberCells : List ACell :=
  [⟨0, 0, [(lit "r", lit "A1")], [.start (lit "v") [], .chars (lit "0.1"), .stop (lit "v")], .f64 0.1, 0⟩,
    ⟨11, 27, [(lit "r", lit "AB12"), (lit "t", lit "n")], [.start (lit "v") [], .chars (lit "1e400"), .stop (lit "v")],
      .str (lit "1e400"), 0⟩]

theorem digits_of {s : Bytes} (h : s.all (fun c => 48 ≤ c.toNat && c.toNat ≤ 57) = true) : ∀ c ∈ s, 48 ≤ c.toNat ∧ c.toNat ≤ 57 := by
  intro c hc
  have := List.all_eq_true.1 h c hc
  simpa using this

theorem numeral_01 : DecimalText (lit "0.1") 0 (1 / 10) := by
  refine ⟨[], lit "0", lit "1", lit ".1", [], .inl rfl, digits_of (by decide +kernel), by decide +kernel, .inl (by decide +kernel),
    .none, by decide +kernel, ?_⟩
  rw [if_neg (by simp), show digitsVal (lit "0" ++ lit "1") = 1 by decide +kernel, show (lit "1").length = 1 by decide +kernel]
  norm_num

theorem numeral_1e400 : DecimalText (lit "1e400") 400 (10 ^ 400) := by
  refine ⟨[], lit "1", [], [], lit "e400", .inl rfl, digits_of (by decide +kernel), by decide +kernel, .inr ⟨rfl, rfl⟩, ?_,
    by decide +kernel, ?_⟩
  · have := ExpPart.some 101 (lit "400") 400 (.inl rfl) (by
      have := DecValue.plain (lit "400") (isDigits_of (by decide +kernel))
      rwa [show digitsVal (lit "400") = 400 by decide +kernel] at this)
    rwa [show (101 : UInt8) :: lit "400" = lit "e400" by decide +kernel] at this
  · rw [if_neg (by simp), show digitsVal (lit "1" ++ []) = 1 by decide +kernel]
    simp only [List.length_nil]
    rw [show ((400 : ℤ) - ((0 : ℕ) : ℤ)) = ((400 : ℕ) : ℤ) by norm_num, zpow_natCast]
    ring

/-- The cells meet the hypotheses of `C91_cell`, one with a float64 and one with a number beyond the range. -/
theorem C91_witness (ext : Ext) (hp : GoParses ext) : (∀ x ∈ exNumberCells, x.Ok ext exXlsxDoc.strings exXlsxDoc.xfs) ∧
    (exNumberCells.map (fun x => (x.row, x.col))).Nodup ∧ DecimalText (lit "0.1") 0 (1 / 10) ∧ |(1 / 10 : ℚ)| < floatLimit ∧
    DecimalText (lit "1e400") 400 (10 ^ 400) ∧ floatLimit ≤ |(10 ^ 400 : ℚ)| := by
  have p1 : ext.parseFloat (lit "0.1") = (0.1, none) := hp _ _ (by decide +kernel)
  have hbig : floatLimit ≤ |(10 ^ 400 : ℚ)| := by
    unfold floatLimit
    rw [abs_of_pos (by positivity)]
    have e1 : (2 : ℚ) ^ 1024 ≤ 2 ^ 1200 := pow_le_pow_right₀ (by norm_num) (by norm_num)
    have e2 : (2 : ℚ) ^ 1200 = (2 ^ 3) ^ 400 := by rw [← pow_mul]
    have e3 : ((2 : ℚ) ^ 3) ^ 400 ≤ 10 ^ 400 := pow_le_pow_left₀ (by norm_num) (by norm_num) _
    have e4 : (0 : ℚ) < 2 ^ 970 := by positivity
    rw [e2] at e1
    generalize (2 : ℚ) ^ 970 = y at *
    generalize (2 : ℚ) ^ 1024 = z at *
    generalize ((2 : ℚ) ^ 3) ^ 400 = w at *
    generalize (10 : ℚ) ^ 400 = u at *
    linarith
  obtain ⟨x2, p2⟩ := parse_range ext hp numeral_1e400 (by norm_num) hbig
  refine ⟨?_, by decide, numeral_01, ?_, numeral_1e400, hbig⟩
  · intro x hx
    simp only [exNumberCells, List.mem_cons, List.not_mem_nil, or_false] at hx
    rcases hx with rfl | rfl
    · refine ⟨by unfold Distinct; decide +kernel, ⟨_, by unfold Has; decide +kernel, exA1⟩, by unfold maxIndex; decide,
        ⟨0, .inl ⟨?_, rfl⟩, by decide, rfl⟩, ⟨none, .inl ⟨?_, rfl⟩, ?_⟩⟩
      · intro v hv
        simp only [List.mem_cons, Prod.mk.injEq, List.not_mem_nil, or_false] at hv
        exact absurd hv.1 (by decide +kernel)
      · intro v hv
        simp only [List.mem_cons, Prod.mk.injEq, List.not_mem_nil, or_false] at hv
        exact absurd hv.1 (by decide +kernel)
      · exact .value [] [] (lit "v") (lit "0.1") [] _ (by simp) (by simp) (.inl rfl) (.number _ _ _ (.inl rfl) p1)
    · refine ⟨by unfold Distinct; decide +kernel, ⟨_, by unfold Has; decide +kernel, exAB12⟩, by unfold maxIndex; decide,
        ⟨0, .inl ⟨?_, rfl⟩, by decide, rfl⟩, ⟨some (lit "n"), .inr ⟨_, by unfold Has; decide +kernel, rfl⟩, ?_⟩⟩
      · intro v hv
        simp only [List.mem_cons, Prod.mk.injEq, List.not_mem_nil, or_false] at hv
        rcases hv with ⟨h, _⟩ | ⟨h, _⟩ <;> exact absurd h (by decide +kernel)
      · exact .value [] [] (lit "v") (lit "1e400") [] _ (by simp) (by simp) (.inl rfl) (.notNumber _ _ _ _ (.inr rfl) p2)
  · unfold floatLimit
    rw [abs_of_pos (by norm_num)]
    have e1 : (2 : ℚ) ^ 1024 = 2 ^ 54 * 2 ^ 970 := by rw [← pow_add]
    have e2 : (1 : ℚ) ≤ 2 ^ 970 := one_le_pow₀ (by norm_num)
    rw [e1]
    clear e1
    generalize (2 : ℚ) ^ 970 = y at *
    linarith

/-! ## C92: numbers of at most eleven characters under the General format -/

theorem builds_general (ext : Ext) (f : Formatter) (x : Float) : Builds ext f (.f64 x) 0 (.full (.float x) .float none []) := by
  rw [builds_iff]
  unfold putCell typedCell
  cases f.getCellType 0 <;> rfl

theorem shown_general (ext : Ext) (f : Formatter) (x : Float) :
    cellString ext f (.full (.float x) .float none []) = .ok (identFmt ext (.float x)) := rfl

/-- C92: a number nearest to a decimal of at most eleven characters (twelve with a minus sign) is shown as this decimal
under the General format. -/
theorem C92_exact (ext : Ext) (hg : GoShort ext) (f : Formatter) (q : ℚ) (s : Bytes) (h : PlainDecimal q s)
    (hlen : s.length ≤ 11 ∨ (s.length = 12 ∧ q < 0)) (h0 : q ≠ 0) (x : Float) (hx : NearestFloat q x) :
    ∃ c, Builds ext f (.f64 x) 0 c ∧ cellString ext f c = .ok s := by
  refine ⟨_, builds_general ext f x, ?_⟩
  rw [shown_general]
  obtain ⟨h1, h2, h3, -⟩ := goShortF_plain h (by omega) h0 hx
  unfold identFmt
  simp only [hg.plain, h1]
  rw [if_pos]
  simp only [Bool.or_eq_true, Bool.and_eq_true, decide_eq_true_eq, beq_iff_eq]
  rcases hlen with hl | ⟨hl, hn⟩
  · exact .inl hl
  · refine .inr ⟨hl, ?_⟩
    have hz : FFin 0 ∧ fval 0 = 0 := ofNat_exact 0 (by norm_num)
    rw [lt_iff hx.1 hz.1, hz.2]
    exact h3.2 hn

/-- C92 for zero. -/
theorem C92_zero (ext : Ext) (hg : GoShort ext) (f : Formatter) :
    ∃ c, Builds ext f (.f64 0) 0 c ∧ cellString ext f c = .ok (lit "0") := by
  refine ⟨_, builds_general ext f 0, ?_⟩
  rw [shown_general]
  unfold identFmt
  have : goShortF 0 = lit "0" := by decide +kernel
  simp only [hg.plain, this]
  rfl

/-- C92 for whole numbers given as integers: all the digits are shown. -/
theorem C92_int (ext : Ext) (f : Formatter) (n : Int) :
    ∃ c, Builds ext f (.sint n) 0 c ∧ cellString ext f c = .ok (decInt n) := by
  refine ⟨.full (.int n) .integer none [], ?_, ?_⟩
  · rw [builds_iff]
    unfold putCell typedCell
    cases f.getCellType 0 <;> rfl
  · show GoRes.ok (identFmt ext (.int n)) = _
    unfold identFmt
    simp only
    split <;> rfl

/-- C92 for xlsx: a numeric cell without a style, whose text is a decimal of at most eleven characters (twelve with a
minus sign), is shown as this text. -/
theorem C92_cell (ext : Ext) (hp : GoParses ext) (hg : GoShort ext) (a : Xlsx.Archive) (d : Xlsx.Doc) (dir : List Bytes)
    (base : Bytes) (hdir : ∀ s ∈ dir, RealName s) (hbase : PathName base) (xs : List ACell)
    (hx : ∀ x ∈ xs, x.Ok ext d.strings d.xfs) (hn : (xs.map (fun x => (x.row, x.col))).Nodup)
    (hpart : HasPart a (pathOf (dir ++ [base])) (xs.flatMap ACell.toks)) (hl : LacksPart a (relsPart dir base)) (x : ACell)
    (hm : x ∈ xs) (b : List (Bytes × Bytes)) (s : Bytes) (ht : Lacks x.attrs "t" ∨ Has x.attrs "t" (lit "n"))
    (hin : x.inner = [.start (lit "v") b, .chars s, .stop (lit "v")]) (hfmt : x.fmt = 0) (q : ℚ) (hs : PlainDecimal q s)
    (hlen : s.length ≤ 11 ∨ (s.length = 12 ∧ q < 0)) (h0 : q ≠ 0) :
    ∃ sh y, Xlsx.parseSheet ext a d (pathOf (dir ++ [base])) = .ok (sh, none) ∧ sh.cell? x.row x.col = some y ∧
      cellString ext d.fmt y = .ok s := by
  obtain ⟨sh, y, v, h1, h2, h3, h4⟩ := C91_cell ext hp a d dir base hdir hbase xs hx hn hpart hl x hm b s ht hin 0 q
    (plain_decimal hs) (by norm_num)
  refine ⟨sh, y, h1, h2, ?_⟩
  rcases h4 with ⟨-, z, rfl, hz⟩ | ⟨hbig, -⟩
  · obtain ⟨c, c1, c2⟩ := C92_exact ext hg d.fmt q s hs hlen h0 z hz
    rw [hfmt, builds_iff] at h3
    rw [builds_iff, h3] at c1
    cases c1
    exact c2
  · exfalso
    obtain ⟨n, k, hab, hn', -, -⟩ := plain_parts hs
    have h12 : s.length ≤ 12 := by omega
    have g1 : (n : ℚ) ≤ 10 ^ 12 := by
      have : n ≤ 10 ^ 12 := le_trans hn'.le (Nat.pow_le_pow_right (by norm_num) h12)
      exact_mod_cast this
    have g2 : (10 : ℚ) ^ (-(k : ℤ)) ≤ 1 := zpow_le_one_of_nonpos₀ (by norm_num) (by omega)
    have g3 : |q| ≤ 10 ^ 12 * 1 := by
      rw [hab]
      exact mul_le_mul g1 g2 (by positivity) (by norm_num)
    unfold floatLimit at hbig
    have e1 : (2 : ℚ) ^ 1024 = 2 ^ 54 * 2 ^ 970 := by rw [← pow_add]
    have e2 : (1 : ℚ) ≤ 2 ^ 970 := one_le_pow₀ (by norm_num)
    rw [e1] at hbig
    generalize (2 : ℚ) ^ 970 = w at *
    have e3 : ((2 : ℚ) ^ 54 - 1) * 1 ≤ (2 ^ 54 - 1) * w := mul_le_mul_of_nonneg_left e2 (by norm_num)
    have e4 : (10 : ℚ) ^ 12 * 1 < (2 ^ 54 - 1) * 1 := by norm_num
    have e5 : ((2 : ℚ) ^ 54 - 1) * w = 2 ^ 54 * w - w := by ring
    rw [← e5] at hbig
    exact absurd (lt_of_lt_of_le e4 e3) (not_lt.2 (le_trans hbig g3))

theorem plain_01 : PlainDecimal (1 / 10) (lit "0.1") := by
  refine ⟨lit "0", lit "1", 0, by unfold Numeral IsDigits; decide +kernel, digits_of (by decide +kernel), by decide +kernel,
    ?_, ?_⟩
  · rw [if_neg (by norm_num), if_neg (by decide +kernel)]; decide +kernel
  · rw [show digitsVal (lit "0" ++ lit "1") = 1 by decide +kernel, show (lit "1").length = 1 by decide +kernel,
      abs_of_pos (by norm_num)]
    norm_num

/-- The first of the cells of `C91_witness` meets the hypotheses of `C92_cell`; a negative decimal of twelve
characters meets those of `C92_exact`. -/
theorem C92_witness : PlainDecimal (1 / 10) (lit "0.1") ∧ (lit "0.1").length ≤ 11 ∧ (exNumberCells.map (·.fmt))[0]? = some 0 ∧
    PlainDecimal (-12345678.25) (lit "-12345678.25") ∧ (lit "-12345678.25").length = 12 := by
  refine ⟨plain_01, by decide +kernel, rfl, ?_, by decide +kernel⟩
  refine ⟨lit "12345678", lit "25", 12345678, by unfold Numeral IsDigits; decide +kernel, digits_of (by decide +kernel),
    by decide +kernel, ?_, ?_⟩
  · rw [if_pos (by norm_num), if_neg (by decide +kernel)]; decide +kernel
  · rw [show digitsVal (lit "12345678" ++ lit "25") = 1234567825 by decide +kernel, show (lit "25").length = 2 by decide +kernel,
      abs_of_neg (by norm_num)]
    norm_num

/-! ## C93: longer numbers under the General format -/

/-- C93: every finite number is shown as a decimal numeral which is read as the same number, or has at most eleven
characters and differs from the number by less than a 200000th part. Missing: it is not the nearest that fits
(`C93_counterexample`). -/
theorem C93_close_partial (ext : Ext) (hg : GoShort ext) (f : Formatter) (x : Float) (hx : FFin x) (h0 : fval x ≠ 0) :
    ∃ c t e q, Builds ext f (.f64 x) 0 c ∧ cellString ext f c = .ok t ∧ DecimalText t e q ∧ e.natAbs < 100000 ∧
      (NearestFloat q x ∨ (t.length ≤ 11 ∧ |q - fval x| ≤ 5 / 10 ^ 6 * |fval x|)) := by
  have key : ∃ e q, DecimalText (identFmt ext (.float x)) e q ∧ e.natAbs < 100000 ∧
      (NearestFloat q x ∨ ((identFmt ext (.float x)).length ≤ 11 ∧ |q - fval x| ≤ 5 / 10 ^ 6 * |fval x|)) := by
    unfold identFmt
    simp only [hg.plain, hg.six]
    split
    · obtain ⟨q, h1, h2, -⟩ := goShortF_reads hx h0
      exact ⟨0, q, plain_decimal h1, by norm_num, .inl h2⟩
    · split
      · rename_i hl
        obtain ⟨e, q, h1, h2, h3⟩ := goSix_close hx h0
        exact ⟨e, q, h1, h2, .inr ⟨hl, h3⟩⟩
      · obtain ⟨e, q, h1, h2, h3, -⟩ := goShortG_reads hx h0
        refine ⟨e, q, ?_, h2, .inl h3⟩
        show DecimalText (ext.floatV x) e q
        rw [hg.sprint]; exact h1
  obtain ⟨e, q, h1, h2, h3⟩ := key
  exact ⟨_, _, e, q, builds_general ext f x, shown_general ext f x, h1, h2, h3⟩

/-- C93: positive numbers with an exponent of at most two digits are shown with at most eleven characters. Missing:
negative numbers, where it is false (`C93_negative_counterexample`). -/
theorem C93_width_partial (ext : Ext) (hg : GoShort ext) (f : Formatter) (x : Float) (hx : FFin x)
    (h1 : (10 : ℚ) ^ (-99 : ℤ) ≤ fval x) (h2 : fval x < 10 ^ (99 : ℤ)) :
    ∃ c t, Builds ext f (.f64 x) 0 c ∧ cellString ext f c = .ok t ∧ t.length ≤ 11 := by
  refine ⟨_, _, builds_general ext f x, shown_general ext f x, ?_⟩
  have hpos : 0 < fval x := lt_of_lt_of_le (by positivity) h1
  have hnl : ¬ (x < 0) := by
    have hz : FFin 0 ∧ fval 0 = 0 := ofNat_exact 0 (by norm_num)
    rw [lt_iff hx hz.1, hz.2]
    exact not_lt.2 hpos.le
  have hsix := goSix_length hx h1 h2
  unfold identFmt
  simp only [hg.plain, hg.six]
  split
  · rename_i h
    simp only [hnl, decide_false, Bool.and_false, Bool.or_false, decide_eq_true_eq] at h
    exact h
  · exact hsix

theorem fval_long : FFin 1234567.8912 ∧ fval 1234567.8912 = 5302428717395686 / 4294967296 := by
  obtain ⟨h1, h2⟩ := lit_val 1234567.8912 .positive 5302428717395686 (-32) (by norm_num)
    ⟨by norm_num, by norm_num, by norm_num, Or.inl (by norm_num)⟩ (by decide +kernel)
  refine ⟨h1, ?_⟩
  rw [h2]
  norm_num [sgn]

/-- The long number meets the hypotheses of the theorems. -/
theorem C93_witness : FFin 1234567.8912 ∧ fval 1234567.8912 ≠ 0 ∧ (10 : ℚ) ^ (-99 : ℤ) ≤ fval 1234567.8912 ∧
    fval 1234567.8912 < 10 ^ (99 : ℤ) := by
  rw [fval_long.2]
  exact ⟨fval_long.1, by norm_num, by norm_num, by norm_num⟩

/-- C93 is false in general: 1234567.8912 is shown as 1.23457e+06, though 1234567.891 fits in eleven characters and
is nearer. -/
theorem C93_counterexample (ext : Ext) (hg : GoShort ext) (f : Formatter) :
    (∃ c, Builds ext f (.f64 1234567.8912) 0 c ∧ cellString ext f c = .ok (lit "1.23457e+06")) ∧
    (lit "1234567.891").length = 11 ∧ |(1234567.891 : ℚ) - fval 1234567.8912| < |1.23457e+06 - fval 1234567.8912| := by
  refine ⟨⟨_, builds_general ext f _, ?_⟩, by decide +kernel, ?_⟩
  · rw [shown_general]
    have e1 : goShortF 1234567.8912 = lit "1234567.8912" := by decide +kernel
    have e2 : goSix 1234567.8912 = lit "1.23457e+06" := by decide +kernel
    have e3 : decide ((1234567.8912 : Float) < 0) = false := by decide +kernel
    unfold identFmt
    simp only [hg.plain, hg.six, e1, e2, e3]
    rfl
  · rw [fval_long.2]
    norm_num [abs_of_neg, abs_of_pos]

/-- Negative numbers of the same size take seventeen characters. -/
theorem C93_negative_counterexample (ext : Ext) (hg : GoShort ext) (f : Formatter) :
    ∃ c, Builds ext f (.f64 (-1234567.8912)) 0 c ∧ cellString ext f c = .ok (lit "-1.2345678912e+06") := by
  refine ⟨_, builds_general ext f _, ?_⟩
  rw [shown_general]
  have e1 : goShortF (-1234567.8912) = lit "-1234567.8912" := by decide +kernel
  have e2 : goSix (-1234567.8912) = lit "-1.23457e+06" := by decide +kernel
  have e4 : goShortG (-1234567.8912) = lit "-1.2345678912e+06" := by decide +kernel
  unfold identFmt sprint
  simp only [hg.plain, hg.six, hg.sprint, e1, e2, e4]
  rfl

/-! ## C94: numbers as text -/

/-- C94: a number turned into text and back into a number (`NewCellWithType`) is the same number. -/
theorem C94_roundtrip (ext : Ext) (hp : GoParses ext) (hg : GoShort ext) (m : Bool) (x : Float) (hx : FFin x) (h0 : fval x ≠ 0) :
    ∃ t y, coerced ext m (.f64 x) .string (.str t) ∧ coerced ext m (.str t) .float (.float y) ∧ FFin y ∧ fval y = fval x := by
  obtain ⟨e, q, h1, h2, h3, h4⟩ := goShortG_reads hx h0
  obtain ⟨y, y1, y2, -⟩ := C91_coerce ext hp m _ e q h1 h2 h4
  refine ⟨goShortG x, y, ?_, y2, y1.1, nearestFloat_unique y1 h3⟩
  have := (C20_float ext m x).2.2.1
  rw [hg.sprint] at this
  exact this

/-- A number under the Text format. -/
theorem builds_text (ext : Ext) (f : Formatter) (x : Float) :
    Builds ext f (.f64 x) 49 (.full (.str (ext.floatV x)) .string (some 49) []) := by
  rw [builds_iff]; rfl

/-- C94: a number nearest to a decimal of at most fifteen characters, at least 0.0001 and less than a million, is shown
as this decimal under the Text format (49). Missing: smaller and larger numbers, where it is false
(`C94_counterexample`). -/
theorem C94_text_partial (ext : Ext) (hg : GoShort ext) (f : Formatter) (q : ℚ) (s : Bytes) (h : PlainDecimal q s)
    (hlen : s.length ≤ 15) (h1 : (10 : ℚ) ^ (-4 : ℤ) ≤ |q|) (h2 : |q| < 10 ^ (6 : ℤ)) (x : Float) (hx : NearestFloat q x) :
    ∃ c, Builds ext f (.f64 x) 49 c ∧ cellString ext f c = .ok s := by
  have h0 : q ≠ 0 := by
    rintro rfl
    rw [abs_zero] at h1
    exact absurd h1 (not_le.2 (by positivity))
  refine ⟨_, builds_text ext f x, ?_⟩
  show GoRes.ok (ext.floatV x) = _
  obtain ⟨g1, -, -, neg, k, j, g2, g3, g4⟩ := goShortF_plain h (.inl hlen) h0 hx
  rw [hg.sprint, goShortG_plain g2 g3 (by rw [g4]; exact h1) (by rw [g4]; exact h2), g1]

/-- A decimal that meets the hypotheses. -/
theorem C94_witness : PlainDecimal (1 / 10) (lit "0.1") ∧ (lit "0.1").length ≤ 15 ∧ (10 : ℚ) ^ (-4 : ℤ) ≤ |1 / 10| ∧
    |(1 / 10 : ℚ)| < 10 ^ (6 : ℤ) := by
  refine ⟨plain_01, by decide +kernel, ?_, ?_⟩ <;> norm_num [abs_of_pos]

/-- C94 is false in general: under the Text format the number 5551234 is shown as 5.551234e+06. -/
theorem C94_counterexample (ext : Ext) (hg : GoShort ext) (f : Formatter) :
    ∃ c, Builds ext f (.f64 5551234) 49 c ∧ cellString ext f c = .ok (lit "5.551234e+06") := by
  refine ⟨_, builds_text ext f _, ?_⟩
  show GoRes.ok (ext.floatV 5551234) = _
  have e1 : goShortG 5551234 = lit "5.551234e+06" := by decide +kernel
  rw [hg.sprint, e1]

end Grate.Props
