import Verif.Props.TruthError
import Verif.Model.GoParse

/-! # C146: dates that are stored as texts are dates -/

namespace Grate.Props

open Spec

/-- The last decimal digit of a number. -/
def lastDigit (n : Nat) : UInt8 := UInt8.ofNat (48 + n % 10)

/-- A date in the form of ISO 8601, as in cells of the type `d` (ECMA-376 part 1, 18.18.11): `2023-05-01`. -/
def isoText (y m d : Nat) : Bytes :=
  [lastDigit (y / 1000), lastDigit (y / 100), lastDigit (y / 10), lastDigit y, 45, lastDigit (m / 10), lastDigit m, 45,
    lastDigit (d / 10), lastDigit d]

/-- What is shown in place of a date. -/
def notDate : Bytes := lit "MUST BE time.Time OR numeric TO FORMAT CORRECTLY"

/-- The number has a format for dates and times. -/
def ShowsDates (f : Formatter) (n : Nat) : Prop :=
  f.getCellType n = some .date ∧ ∃ layout, f.get n = (.time layout, true) ∨ f.get n = (.cnTime layout, true)

namespace Iso

theorem digit (n : Nat) : isDigit (lastDigit n) = true := by
  unfold lastDigit
  have h : n % 10 < 10 := Nat.mod_lt _ (by decide)
  generalize n % 10 = k at h
  have : ∀ k : Fin 10, isDigit (UInt8.ofNat (48 + k.1)) = true := by decide
  exact this ⟨k, h⟩

theorem digit_ne (n : Nat) : lastDigit n ≠ 43 ∧ lastDigit n ≠ 45 := by
  constructor <;> intro h <;> have := digit n <;> rw [h] at this <;> exact absurd this (by decide)

theorem parse (y m d : Nat) : goParseFloat (isoText y m d) = some (0, some .syntax) := by
  have hs : ∀ (a : UInt8) (r : Bytes), a ≠ 43 → a ≠ 45 → splitSign (a :: r) = (false, a :: r) := by
    intro a r h1 h2
    unfold splitSign
    split
    · rename_i h; cases h; exact absurd rfl h1
    · rename_i h; cases h; exact absurd rfl h2
    · rfl
  have hr : readDecimal (isoText y m d) = none := by
    unfold readDecimal isoText
    rw [hs _ _ (digit_ne _).1 (digit_ne _).2]
    have h45 : isDigit 45 = false := by decide
    simp [List.takeWhile, digit, h45, readFraction, readExponent]
  have ha : (isoText y m d).all numeralByte = true := by
    have h : ∀ n, numeralByte (lastDigit n) = true := fun n => by unfold numeralByte; rw [digit]; rfl
    simp [isoText, h]
    decide
  unfold goParseFloat
  rw [ha, hr]
  rfl

theorem plain (y m d : Nat) : isoText y m d ≠ [] ∧ ¬ Marker (isoText y m d) := by
  refine ⟨by simp [isoText], fun h => ?_⟩
  have hl : (isoText y m d).length = 10 := rfl
  unfold Marker at h
  rcases h with h | h | h | h <;> rw [h] at hl <;> revert hl <;> decide +kernel

end Iso

/-- C146 is false for every date: under every format for dates and times a cell with the date as its text is said to be a date,
but holds the text, so that it cannot be read into a time, and it is shown as an error message in place of the date. -/
theorem C146_date_counterexample (ext : Ext) (hp : GoParses ext) (f : Formatter) (y m d n : Nat) (hn : n ≠ 0)
    (hf : ShowsDates f n) :
    ∃ c, Builds ext f (.str (isoText y m d)) n c ∧ c.type = .date ∧ c.value = .str (isoText y m d) ∧
      (∀ t, ∃ e, scanCell c.value (.time t) = (.time t, some e)) ∧ cellString ext f c = .ok notDate := by
  obtain ⟨hc, layout, hg⟩ := hf
  have e := text_cell ext f (Iso.plain y m d).1 (Iso.plain y m d).2 hn hc (by simp)
  refine ⟨_, e, rfl, rfl, fun t => ⟨_, rfl⟩, ?_⟩
  have hpf : ext.parseFloat (isoText y m d) = (0, some .syntax) := hp _ _ (Iso.parse y m d)
  have hev : ∀ k, k = Fmt.time layout ∨ k = .cnTime layout → k.eval ext f.mode1904 (.str (isoText y m d)) = .ok dateMsg := by
    intro k hk
    rcases hk with rfl | rfl <;> simp only [Fmt.eval, convertToFloat64, hpf]
  have ha : f.apply ext n (.str (isoText y m d)) = .ok (dateMsg, true) := by
    unfold Formatter.get at hg
    unfold Formatter.apply
    cases h1 : goFormatters n with
    | some k =>
      rw [h1] at hg
      simp only [Prod.mk.injEq, and_true] at hg
      simp only [hev k hg]
      rfl
    | none =>
      rw [h1] at hg
      cases h2 : f.codes n with
      | some k =>
        rw [h2] at hg
        simp only [Prod.mk.injEq, and_true] at hg
        simp only [hev k hg]
        rfl
      | none => rw [h2] at hg; simp at hg
  show cellString ext f (.full (.str (isoText y m d)) .date (some n) []) = _
  simp only [cellString, Cell.type, Cell.formatNo, Cell.value, ha]
  rfl

/-- So in worksheets: a part with any cells; every cell of the type `d` with a date, with a style for dates. -/
theorem C146_sheet_counterexample (ext : Ext) (hpf : GoParses ext) (a : Xlsx.Archive) (d : Xlsx.Doc) (dir : List Bytes)
    (base : Bytes) (hdir : ∀ s ∈ dir, RealName s) (hbase : PathName base) (xs : List ACell)
    (hx : ∀ x ∈ xs, x.Ok ext d.strings d.xfs) (hn : (xs.map (fun x => (x.row, x.col))).Nodup)
    (hp : HasPart a (pathOf (dir ++ [base])) (xs.flatMap ACell.toks)) (hl : LacksPart a (relsPart dir base)) :
    ∃ s, Xlsx.parseSheet ext a d (pathOf (dir ++ [base])) = .ok (s, none) ∧
      ∀ x ∈ xs, ∀ year month day, x.value = .str (isoText year month day) → x.fmt ≠ 0 → ShowsDates d.fmt x.fmt →
        ∃ c, s.cell? x.row x.col = some c ∧ c.type = .date ∧ c.value = .str (isoText year month day) ∧
          cellString ext d.fmt c = .ok notDate := by
  obtain ⟨s, e, h, _⟩ := C58_cells_partial ext a d dir base hdir hbase xs hx hn hp hl
  refine ⟨s, e, fun x hx year month day hv h0 hf => ?_⟩
  obtain ⟨c, h1, h2⟩ := h x hx
  obtain ⟨c', hc, ht, hval, _, hs⟩ := C146_date_counterexample ext hpf d.fmt year month day x.fmt h0 hf
  rw [hv] at h2
  cases Links.builds_unique h2 hc
  exact ⟨_, h1, ht, hval, hs⟩

/-- C146, as far as it holds: with a style with the General or the Text format a cell with a date is shown as the date in the
form in which it is stored. Missing: that it is a date, and all formats for dates, where it is false. -/
theorem C146_shown_partial (ext : Ext) (a : Xlsx.Archive) (d : Xlsx.Doc) (dir : List Bytes) (base : Bytes)
    (hdir : ∀ s ∈ dir, RealName s) (hbase : PathName base) (xs : List ACell)
    (hx : ∀ x ∈ xs, x.Ok ext d.strings d.xfs) (hn : (xs.map (fun x => (x.row, x.col))).Nodup)
    (hp : HasPart a (pathOf (dir ++ [base])) (xs.flatMap ACell.toks)) (hl : LacksPart a (relsPart dir base)) :
    ∃ s, Xlsx.parseSheet ext a d (pathOf (dir ++ [base])) = .ok (s, none) ∧
      ∀ x ∈ xs, ∀ year month day, x.value = .str (isoText year month day) → x.fmt = 0 ∨ x.fmt = 49 →
        ∃ c, s.cell? x.row x.col = some c ∧ c.type = .string ∧ cellString ext d.fmt c = .ok (isoText year month day) := by
  obtain ⟨s, e, h, _⟩ := C58_cells_partial ext a d dir base hdir hbase xs hx hn hp hl
  refine ⟨s, e, fun x hx year month day hv hf => ?_⟩
  obtain ⟨c, h1, h2⟩ := h x hx
  obtain ⟨c', hc, ht, hty⟩ := C74_text_partial ext d.fmt _ (Iso.plain year month day).1 (Iso.plain year month day).2 x.fmt hf
  rw [hv] at h2
  cases Links.builds_unique h2 hc
  exact ⟨_, h1, hty, ht⟩

/-- The cell A1 with the first of May 2023. -/
def exIsoCell : ACell := ⟨0, 0, [(lit "r", lit "A1"), (lit "t", lit "d")],
  [.start (lit "v") [], .chars (lit "2023-05-01"), .stop (lit "v")], .str (isoText 2023 5 1), 14⟩

/-- The hypotheses hold for it in a document whose first style has the first built-in date format, in which the number of the same
day is shown as a date. -/
theorem C146_witness (ext : Ext) (f : Formatter) :
    isoText 2023 5 1 = lit "2023-05-01" ∧ exIsoCell.Ok ext [] [14] ∧ ShowsDates f 14 ∧
    ∃ c, Builds ext f (.f64 (f64OfNat 45047)) 14 c ∧ c.type = .date ∧
      cellString ext f c = .ok (ext.timeFormat (lit "01-02-06") (convertToDate f.mode1904 (f64OfNat 45047))) := by
  refine ⟨by decide +kernel, ?_, ⟨rfl, lit "01-02-06", .inl rfl⟩, ?_⟩
  · have l1 : Lacks [(lit "r", lit "A1"), (lit "t", lit "d")] "s" := by
      intro v hv
      simp only [List.mem_cons, Prod.mk.injEq, List.not_mem_nil, or_false] at hv
      rcases hv with ⟨h, _⟩ | ⟨h, _⟩ <;> exact absurd h (by decide +kernel)
    refine ⟨by unfold Distinct exIsoCell; decide +kernel, ⟨_, by unfold Has exIsoCell; decide +kernel, exA1⟩,
      ⟨by unfold maxIndex exIsoCell; decide, by unfold maxIndex exIsoCell; decide⟩, ⟨0, .inl ⟨l1, rfl⟩, by decide, rfl⟩,
      ⟨some (lit "d"), .inr ⟨_, by unfold Has exIsoCell; decide +kernel, rfl⟩, ?_⟩⟩
    have e : isoText 2023 5 1 = lit "2023-05-01" := by decide +kernel
    unfold exIsoCell
    rw [e]
    exact .value [] [] (lit "v") (lit "2023-05-01") [] _ (by simp) (by simp) (.inl rfl) (.text _ _ (.inr (.inr (.inr rfl))))
  · refine ⟨.full (.time (convertToDate f.mode1904 (f64OfNat 45047))) .date (some 14) [], ?_, rfl, rfl⟩
    rw [builds_iff]
    rfl

end Grate.Props
