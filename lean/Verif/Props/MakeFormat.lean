import Verif.Lemmas.MakeDate
import Verif.Lemmas.Format
import Verif.Lemmas.Simple
import Verif.Props.Format

/-! # Custom number formats (C70 to C73) -/

namespace Grate.Props

open Grate.Spec

/-- A value shown by a custom format: the code is registered with `Add` under a number used by no built-in
format and then applied. -/
def renderCustom (ext : Ext) (x : Formatter) (id : Nat) (code : Bytes) (v : Val) : GoRes (Bytes × Bool) :=
  (x.add makeFormatter id code).1.apply ext id v

theorem custom_none (id : Nat) (h : 164 ≤ id) : goFormatters id = none ∧ builtInFormatTypes id = none := by
  constructor
  · unfold goFormatters
    split <;> first | omega | rfl
  · unfold builtInFormatTypes
    split <;> first | omega | rfl

theorem renderCustom_eq (ext : Ext) (x : Formatter) (id : Nat) (code : Bytes) (v : Val) (hid : 164 ≤ id)
    (hfree : x.codes id = none) (hg : asciiLower code ≠ lit "general") :
    renderCustom ext x id code v = ((makeFormatter code).1.eval ext x.mode1904 v >>= fun s => pure (s, true)) ∧
      (x.add makeFormatter id code).1.getCellType id = some (makeFormatter code).2 := by
  obtain ⟨h1, h2⟩ := custom_none id hid
  have e : x.add makeFormatter id code =
      ({ x with codes := upd x.codes id (makeFormatter code).1, types := upd x.types id (makeFormatter code).2 }, none) := by
    unfold Formatter.add
    rw [if_neg hg, h1, hfree]
    rfl
  constructor
  · unfold renderCustom Formatter.apply
    rw [e, h1]
    simp only [upd, if_true]
  · unfold Formatter.getCellType
    rw [e, h2]
    simp only [upd, if_true]

/-- "general" has no digit and no field letter of a date format. -/
theorem not_general {code : Bytes} {b : UInt8} (hb : b ∈ code) (h : b = 48 ∨ b = 121 ∨ b = 109 ∨ b = 100 ∨ b = 104 ∨ b = 115) :
    asciiLower code ≠ lit "general" := by
  intro e
  have hm : (if 65 ≤ b && b ≤ 90 then b + 32 else b) ∈ asciiLower code := List.mem_map.2 ⟨b, hb, rfl⟩
  rw [e] at hm
  rcases h with rfl | rfl | rfl | rfl | rfl | rfl <;> exact absurd hm (by decide +kernel)

theorem num_zero_mem (c : NumCode) : (48 : UInt8) ∈ c.text := by
  unfold NumCode.text NumCode.digits
  by_cases h : c.group <;> simp [h]

/-! ## C70: number formats -/

/-- Text that a number is printed as. -/
theorem commas_text (sgn d frac : Bytes) (hs : sgn = [] ∨ sgn = [45]) (hd : IsDigits d)
    (hf : frac = [] ∨ ∃ f, frac = 46 :: f) :
    ∃ g, Grouped d g ∧ addCommas (sgn ++ d ++ frac) = .ok (sgn ++ g ++ frac) := by
  obtain ⟨g, hg, hG⟩ := commaLoop_spec d.length d frac hd.1 (Nat.le_refl _)
  have hdig : ∀ b ∈ d, (!(b == 46 || b == 101 || b == 69)) = true := by
    intro b hb
    obtain ⟨h1, h2⟩ := hd.2 b hb
    simp only [Bool.not_eq_true', Bool.or_eq_false_iff, beq_eq_false_iff_ne]
    refine ⟨⟨?_, ?_⟩, ?_⟩ <;> rintro rfl <;> simp at h1 h2
  have hend : numEnd (d ++ frac) = d.length := by
    unfold numEnd
    rw [List.takeWhile_append_of_pos hdig]
    rcases hf with rfl | ⟨f, rfl⟩ <;> simp
  refine ⟨g, hG, ?_⟩
  rcases hs with rfl | rfl
  · cases hc : d with
    | nil => exact absurd hc hd.1
    | cons c cs =>
      have hne : (c == 45) = false := by
        have := hd.2 c (by rw [hc]; simp)
        simp only [beq_eq_false_iff_ne]
        rintro rfl
        simp at this
      rw [hc] at hend hg
      simp only [List.nil_append, List.cons_append] at hend hg ⊢
      unfold addCommas
      simp only [hne, Bool.false_eq_true, if_false]
      rw [hend, hg]
  · simp only [List.cons_append, List.nil_append]
    unfold addCommas
    simp only [beq_self_eq_true, if_true]
    rw [hend, hg]

/-- The compiled format on a value the inner verb prints as a number. -/
theorem num_shows (ext : Ext) (m : Bool) (c : NumCode) (v : Val) (sgn d frac : Bytes) (hs : sgn = [] ∨ sgn = [45])
    (hd : IsDigits d) (hf : frac = [] ∨ ∃ f, frac = 46 :: f)
    (hv : (numInner c).eval ext m v = .ok (sgn ++ d ++ frac)) :
    ∃ out, (numCompiled c).eval ext m v = .ok out ∧ c.Shows sgn d frac out := by
  have hbody : ∃ g, (if c.group then Grouped d g else g = d) ∧ (numBody c).eval ext m v = .ok (sgn ++ g ++ frac) := by
    unfold numBody
    by_cases hg : c.group
    · obtain ⟨g, hG, ha⟩ := commas_text sgn d frac hs hd hf
      refine ⟨g, by rw [if_pos hg]; exact hG, ?_⟩
      rw [if_pos hg, Fmt.eval, hv]
      exact ha
    · refine ⟨d, by rw [if_neg hg], ?_⟩
      rw [if_neg hg, hv]
  obtain ⟨g, hg, hb⟩ := hbody
  refine ⟨_, ?_, g, hg, rfl⟩
  unfold numCompiled
  by_cases hc : c.pre = [] ∧ c.sign = [] ∧ c.post = []
  · rw [if_pos hc, hb, hc.1, hc.2.1, hc.2.2]
    simp
  · rw [if_neg hc, Fmt.eval, hb]
    rfl

/-- The verb for a number with decimals, as given to `fmt.Sprintf`: `%3.2f` for two decimals. The width
(one more than the decimals) is never more than what is printed. -/
def decimalVerb (k : Nat) : Bytes := lit "%" ++ decNat (k + 1) ++ lit "." ++ decNat k ++ lit "f"

/-- C70, formats with decimals (`0.00`, `"about "#,##0.0%`, …): a cell with such a format has floats, and a
float is shown with the text around it, grouped if the code says so, from what `fmt` prints of it (times
100 for a percent) with that many decimals. Missing: texts with characters of `PlainText`'s list, other
placements of `#` and `?`, optional decimals, and values that are not floats. -/
theorem C70_decimals_partial (ext : Ext) (x : Formatter) (id : Nat) (hid : 164 ≤ id) (hfree : x.codes id = none)
    (c : NumCode) (hpre : PlainText c.pre) (hpost : PlainText c.post) (hk : c.decimals ≠ 0)
    (v : Float) (sgn d frac : Bytes) (hs : sgn = [] ∨ sgn = [45]) (hd : IsDigits d)
    (hprint : ext.sprintfFloat (decimalVerb c.decimals) (v * f64OfNat c.factor) = sgn ++ d ++ 46 :: frac) :
    (x.add makeFormatter id c.text).1.getCellType id = some .float ∧
    ∃ out, renderCustom ext x id c.text (.float v) = .ok (out, true) ∧ c.Shows sgn d (46 :: frac) out := by
  obtain ⟨e1, e2⟩ := renderCustom_eq ext x id c.text (.float v) hid hfree (not_general (num_zero_mem c) (.inl rfl))
  rw [makeFormatter_num c hpre hpost] at e1 e2
  simp only [if_neg hk] at e1 e2
  obtain ⟨out, h1, h2⟩ := num_shows ext x.mode1904 c (.float v) sgn d (46 :: frac) hs hd (.inr ⟨frac, rfl⟩) (by
    rw [← hprint]
    unfold numInner
    rw [if_neg hk, Fmt.eval]
    have : decimalVerb c.decimals = 37 :: decInt ((c.decimals : Int) + 1) ++ 46 :: decInt (c.decimals : Int) ++ lit "f" := by
      have a1 : decInt ((c.decimals : Int) + 1) = decNat (c.decimals + 1) := by
        unfold decInt
        rw [if_neg (by omega)]
        congr 1
      have a2 : decInt (c.decimals : Int) = decNat c.decimals := by
        unfold decInt
        rw [if_neg (by omega)]
        congr 1
      rw [a1, a2]
      unfold decimalVerb
      have b1 : lit "%" = [37] := by decide +kernel
      have b2 : lit "." = [46] := by decide +kernel
      rw [b1, b2]
      simp
    rw [this]
    rfl)
  exact ⟨e2, out, by rw [e1, h1]; rfl, h2⟩

/-- C70, formats without decimals (`0`, `#,##0`, `"no. "0`, …) on integers: the decimal numeral with the text
around it, grouped if the code says so. Missing: as for `C70_decimals_partial`; and integers are not
multiplied by 100 for a percent (as in `C30`). -/
theorem C70_integers_partial (ext : Ext) (x : Formatter) (id : Nat) (hid : 164 ≤ id) (hfree : x.codes id = none)
    (c : NumCode) (hpre : PlainText c.pre) (hpost : PlainText c.post) (hk : c.decimals = 0)
    (n : Int) :
    (x.add makeFormatter id c.text).1.getCellType id = some .integer ∧
    ∃ d out, Numeral d n.natAbs ∧ renderCustom ext x id c.text (.int n) = .ok (out, true) ∧
      c.Shows (if n < 0 then [45] else []) d [] out := by
  obtain ⟨e1, e2⟩ := renderCustom_eq ext x id c.text (.int n) hid hfree (not_general (num_zero_mem c) (.inl rfl))
  rw [makeFormatter_num c hpre hpost] at e1 e2
  simp only [if_pos hk] at e1 e2
  have hd := decNat_isDigits n.natAbs
  obtain ⟨out, h1, h2⟩ := num_shows ext x.mode1904 c (.int n) (if n < 0 then [45] else []) (decNat n.natAbs) []
    (by split <;> simp) hd (.inl rfl) (by
      unfold numInner
      rw [if_pos hk, Fmt.eval]
      change GoRes.ok (padLeft 0 (decInt n) ++ []) = _
      rw [padLeft_zero, List.append_nil, List.append_nil]
      unfold decInt
      split
      · rfl
      · next h =>
        have : n.toNat = n.natAbs := by omega
        rw [this]; rfl)
  exact ⟨e2, _, out, decNat_numeral _, by rw [e1, h1]; rfl, h2⟩

/-- C70, formats without decimals on floats: the number (times 100 for a percent) is cut off, not rounded.
Missing: as above; a spreadsheet rounds. -/
theorem C70_floats_partial (ext : Ext) (x : Formatter) (id : Nat) (hid : 164 ≤ id) (hfree : x.codes id = none)
    (c : NumCode) (hpre : PlainText c.pre) (hpost : PlainText c.post) (hk : c.decimals = 0) (v : Float) :
    ∃ d out, Numeral d (f64ToInt (v * f64OfNat c.factor)).natAbs ∧
      renderCustom ext x id c.text (.float v) = .ok (out, true) ∧
      c.Shows (if f64ToInt (v * f64OfNat c.factor) < 0 then [45] else []) d [] out := by
  obtain ⟨e1, -⟩ := renderCustom_eq ext x id c.text (.float v) hid hfree (not_general (num_zero_mem c) (.inl rfl))
  rw [makeFormatter_num c hpre hpost] at e1
  have hd := decNat_isDigits (f64ToInt (v * f64OfNat c.factor)).natAbs
  obtain ⟨out, h1, h2⟩ := num_shows ext x.mode1904 c (.float v)
    (if f64ToInt (v * f64OfNat c.factor) < 0 then [45] else []) _ []
    (by split <;> simp) hd (.inl rfl) (by
      unfold numInner
      rw [if_pos hk, Fmt.eval]
      change GoRes.ok (decInt (f64ToInt (v * f64OfNat c.factor)) ++ []) = _
      rw [List.append_nil, List.append_nil]
      unfold decInt
      split
      · rfl
      · next h =>
        have : (f64ToInt (v * f64OfNat c.factor)).toNat = (f64ToInt (v * f64OfNat c.factor)).natAbs := by omega
        rw [this]; rfl)
  exact ⟨_, out, decNat_numeral _, by rw [e1, h1]; rfl, h2⟩

/-- `"up "#,##0.00%" so far"`. -/
def exNum : NumCode := ⟨lit "up ", true, 2, true, lit " so far"⟩

theorem C70_witness : exNum.text = lit "\"up \"#,##0.00%\" so far\"" ∧ PlainText exNum.pre ∧ PlainText exNum.post ∧
    exNum.decimals ≠ 0 ∧ decimalVerb exNum.decimals = lit "%3.2f" ∧
    exNum.Shows (lit "-") (lit "1234") (lit ".50") (lit "up -1,234.50% so far") := by
  refine ⟨by decide +kernel, ?_, ?_, by decide, by decide +kernel, lit "1,234", ?_, by decide +kernel⟩
  · unfold PlainText; decide +kernel
  · unfold PlainText; decide +kernel
  · show Grouped (lit "1234") (lit "1,234")
    exact Grouped.more (d := lit "1") (s := lit "1") (lit "234") (Grouped.base _ (by decide +kernel) (by decide +kernel))
      (by decide +kernel)

/-- The whole way on a literal: 1234567 with the code `"n="#,##0`. -/
theorem C70_witness_value (ext : Ext) :
    renderCustom ext Formatter.new 164 (lit "\"n=\"#,##0") (.int (-1234567)) = .ok (lit "n=-1,234,567", true) := by
  have h : makeFormatter (lit "\"n=\"#,##0") = (.surround (lit "n=") (.commas (.sprintf (.d 0 []) 1)) [], .integer) := by
    decide +kernel
  rw [(renderCustom_eq ext Formatter.new 164 _ _ (by decide) rfl (by decide +kernel)).1, h]
  rfl

/-- C70 is false for a code of two or more zeros: 7 with `000` shows two digits fewer, padded with a blank. -/
theorem C70_zeros_counterexample (ext : Ext) :
    renderCustom ext Formatter.new 164 (lit "000") (.int 7) = .ok (lit " 7", true) ∧
    renderCustom ext Formatter.new 164 (lit "000") (.float 7) = .ok (ext.sprintfFloat (lit "%2d") (7 * f64OfNat 1), true) := by
  have h : makeFormatter (lit "000") = (.sprintf (.d 2 []) 1, .integer) := by decide +kernel
  constructor
  · rw [(renderCustom_eq ext Formatter.new 164 _ _ (by decide) rfl (by decide +kernel)).1, h]
    rfl
  · rw [(renderCustom_eq ext Formatter.new 164 _ _ (by decide) rfl (by decide +kernel)).1, h]
    rfl

/-- C70 is false for quoted text with the letter `e`: the number is printed with an exponent. -/
theorem C70_text_counterexample (ext : Ext) (n : Int) :
    renderCustom ext Formatter.new 164 (lit "0\" each\"") (.int n) = .ok (ext.sprintfInt (lit "%0.1E") n ++ lit " each", true) := by
  have h : makeFormatter (lit "0\" each\"") = (.surround [] (.sprintf (.f (lit "%0.1E")) 1) (lit " each"), .float) := by
    decide +kernel
  rw [(renderCustom_eq ext Formatter.new 164 _ _ (by decide) rfl (by decide +kernel)).1, h]
  rfl

/-- C70 is false for rounding: 2.75 with the code `0` shows 2. -/
theorem C70_rounding_counterexample (ext : Ext) :
    renderCustom ext Formatter.new 164 (lit "0") (.float 2.75) = .ok (lit "2", true) := by
  have h : makeFormatter (lit "0") = (.sprintf (.d 0 []) 1, .integer) := by decide +kernel
  have e : f64ToInt (2.75 * f64OfNat 1) = 2 := by decide +kernel
  rw [(renderCustom_eq ext Formatter.new 164 _ _ (by decide) rfl (by decide +kernel)).1, h]
  change GoRes.ok (decInt (f64ToInt (2.75 * f64OfNat 1)) ++ [], true) = _
  rw [e]
  rfl

/-! ## C71: date formats -/

/-- C71. A date format whose fields and separators are as in `DateCode.Readable` makes date cells, and a date
is shown with the same fields in the same order and the same separators: times as they are, numbers as
serial dates. Missing: minutes without hours and seconds, `dddd`, `AM/PM`, escapes, elapsed time. -/
theorem C71_dates_partial (ext : Ext) (x : Formatter) (id : Nat) (hid : 164 ≤ id) (hfree : x.codes id = none)
    (c : DateCode) (hc : c.Readable) :
    (x.add makeFormatter id c.text).1.getCellType id = some .date ∧
    (∀ t, renderCustom ext x id c.text (.time t) = .ok (ext.timeFormat c.layout t, true)) ∧
    ∀ v, renderCustom ext x id c.text (.float v) = .ok (ext.timeFormat c.layout (convertToDate x.mode1904 v), true) := by
  have hg : asciiLower c.text ≠ lit "general" := by
    cases hr : c.rest with
    | nil => exact absurd hr hc.some_field
    | cons p l =>
      obtain ⟨k1, k2⟩ := code_letters p.1 (plain_mem (hc.fields p (by rw [hr]; simp)))
      cases hcode : p.1.code with
      | nil => exact absurd hcode k2
      | cons b bs =>
        have hb := (k1 b (by rw [hcode]; simp)).1
        refine not_general (b := b) ?_ ?_
        · unfold DateCode.text DateCode.render
          rw [hr, List.flatMap_cons, hcode]
          simp
        · have : lit "ymdhs" = [121, 109, 100, 104, 115] := by decide +kernel
          rw [this] at hb
          simp at hb
          tauto
  refine ⟨?_, fun t => ?_, fun v => ?_⟩
  · rw [(renderCustom_eq ext x id c.text .nil hid hfree hg).2, makeFormatter_date c hc]
  · rw [(renderCustom_eq ext x id c.text _ hid hfree hg).1, makeFormatter_date c hc]
    rfl
  · rw [(renderCustom_eq ext x id c.text _ hid hfree hg).1, makeFormatter_date c hc]
    rfl

/-- `dd" of "mmmm yyyy, hh:mm:ss`. -/
def exDate : DateCode :=
  ⟨.bare [], [(.day 2, .quoted (lit " of ")), (.month 4, .bare (lit " ")), (.year true, .bare (lit ", ")),
    (.hour true, .bare (lit ":")), (.minute true, .bare (lit ":")), (.second true, .bare [])]⟩

theorem C71_witness : exDate.text = lit "dd\" of \"mmmm yyyy, hh:mm:ss" ∧ exDate.layout = lit "02 of January 2006, 15:04:05" ∧
    exDate.Readable := by
  refine ⟨by decide +kernel, by decide +kernel, by decide, by decide, ?_, ?_, ?_, ?_, ?_⟩
  · show PlainSep (.bare [])
    unfold PlainSep; decide
  · unfold exDate PlainSep; decide +kernel
  · intro p hp
    simp only [exDate, List.mem_cons, List.not_mem_nil, or_false] at hp
    rcases hp with rfl | rfl | rfl | rfl | rfl | rfl <;> simp [DateField.Plain]
  · exact .inr ⟨[.day, .month, .year], [], [], [], rfl, by decide, by decide⟩
  · intro l s y t r h
    have hl : l.length = 1 := by
      have := congrArg (List.map (fun p : DateField × DateSep => p.1.kind)) h
      simp only [exDate, List.map_cons, List.map_nil, List.map_append, DateField.kind] at this
      rcases l with _ | ⟨a, _ | ⟨b, l⟩⟩
      · simp at this
      · rfl
      · simp only [List.map_cons, List.cons_append, List.cons.injEq] at this
        obtain ⟨-, hb, this⟩ := this
        rcases l with _ | ⟨c, _ | ⟨d, _ | ⟨e, _ | ⟨f, l⟩⟩⟩⟩ <;> simp at this
    obtain ⟨a, rfl⟩ := List.length_eq_one_iff.1 hl
    simp only [exDate, List.cons_append, List.nil_append, List.cons.injEq, Prod.mk.injEq] at h
    rw [← h.2.1.2]
    decide +kernel

/-- C71 is false for minutes without seconds: `h:mm` shows the month after the hour. -/
theorem C71_minutes_counterexample : makeFormatter (lit "h:mm") = (.time (lit "15:01"), .date) ∧
    makeFormatter (lit "mm:ss") = (.time (lit "01:05"), .date) ∧
    codeKinds (lit "h:mm") = [.hour, .minute] ∧ layoutKinds 0 (lit "15:01") = [.hour, .month] := by decide +kernel

/-- C71 is false for the full name of the weekday: the `d` of `Monday` is replaced once more. -/
theorem C71_weekday_counterexample :
    makeFormatter (lit "dddd, mmmm dd, yyyy") = (.time (lit "Mon2ay, January 02, 2006"), .date) := by decide +kernel

/-- C71 is false for `AM/PM`: it stays in the layout, and `time.Format` knows only the `PM` in it, so times are
shown with "AM/AM" or "AM/PM". -/
theorem C71_ampm_counterexample : makeFormatter (lit "h:mm:ss AM/PM") = (.time (lit "3:04:05 AM/PM"), .date) := by
  decide +kernel

/-- C71 is false for elapsed hours: `[h]` is dropped like a colour. -/
theorem C71_elapsed_counterexample : makeFormatter (lit "[h]:mm:ss") = (.time (lit ":01:05"), .date) := by decide +kernel

/-- C71 is false for field letters in quotes: `"days: "d` replaces the first `d`, the one in quotes. -/
theorem C71_quoted_counterexample : makeFormatter (lit "\"days: \"d") = (.time (lit "2ay5: d"), .date) := by decide +kernel

/-! ## C72: sections and marks -/

/-- C72, marks in brackets (colours): they do not change the format. -/
theorem C72_marks (pre mark post : Bytes) (h1 : (91 : UInt8) ∉ pre) (h2 : (93 : UInt8) ∉ mark) :
    makeFormatter (pre ++ 91 :: (mark ++ 93 :: post)) = makeFormatter (pre ++ post) := by
  have h : dropSpans 91 93 (pre ++ 91 :: (mark ++ 93 :: post)) = dropSpans 91 93 (pre ++ post) := by
    unfold dropSpans
    rw [dropSpansGo_append 91 93 pre _ (fun b hb e => h1 (e ▸ hb)), dropSpansGo_append 91 93 pre post (fun b hb e => h1 (e ▸ hb)),
      dropSpansGo, if_pos (by rfl), dropSpansGo_some 91 93 mark post [] (fun b hb e => h2 (e ▸ hb))]
  unfold makeFormatter
  rw [h]

/-- C72, sections: a value is shown by the section for its sign, exactly as if that section were the whole
format (a missing section for negative numbers or zero is the first, one for text shows the text). -/
theorem C72_sections (ext : Ext) (m : Bool) (first : Bytes) (rest : List Bytes) (hne : rest ≠ [])
    (h : ∀ s ∈ first :: rest, (59 : UInt8) ∉ s ∧ (91 : UInt8) ∉ s) (v : Val) :
    (makeFormatter ([59].intercalate (first :: rest))).1.eval ext m v =
      (sectionFor (makeFormatter first).1 (rest.map (fun s => (makeFormatter s).1)) (convertToFloat64 ext v)).eval ext m v ∧
    (makeFormatter ([59].intercalate (first :: rest))).2 = (makeFormatter first).2 := by
  have hmem : ∀ (l : List Bytes), (∀ s ∈ l, (91 : UInt8) ∉ s) → (91 : UInt8) ∉ [59].intercalate l := by
    intro l
    induction l with
    | nil => intro _; simp [List.intercalate]
    | cons a l ih =>
      intro hl
      cases l with
      | nil => simpa [List.intercalate] using hl a (by simp)
      | cons b l =>
        have he : [59].intercalate (a :: b :: l) = a ++ 59 :: [59].intercalate (b :: l) := by
          simp [List.intercalate, List.intersperse]
        rw [he]
        simp only [List.mem_append, List.mem_cons, not_or]
        exact ⟨hl a (by simp), by decide, ih (fun s hs => hl s (by simp [hs]))⟩
  have h91 : dropSpans 91 93 ([59].intercalate (first :: rest)) = [59].intercalate (first :: rest) :=
    dropSpansGo_id 91 93 _ (fun b hb e => hmem _ (fun s hs => (h s hs).2) (e ▸ hb))
  have hsplit : splitByte 59 ([59].intercalate (first :: rest)) = first :: rest :=
    Simple.splitByte_intercalate 59 _ (by simp) (fun s hs => (h s hs).1)
  have h59 : ([59].intercalate (first :: rest)).contains 59 = true := by
    rw [List.contains_iff_mem]
    cases rest with
    | nil => exact absurd rfl hne
    | cons b l =>
      simp [List.intercalate, List.intersperse]
  have hsec : ∀ s ∈ first :: rest, makeSection (dropSpans 91 93 s) = makeFormatter s := by
    intro s hs
    have e : dropSpans 91 93 s = s := dropSpansGo_id 91 93 _ (fun b hb e => (h s hs).2 (e ▸ hb))
    have hc : s.contains 59 = false := by
      rw [Bool.eq_false_iff]
      intro hc
      exact (h s hs).1 (List.contains_iff_mem.1 hc)
    unfold makeFormatter
    simp only [e, hc, Bool.false_eq_true, if_false]
  have key : makeFormatter ([59].intercalate (first :: rest)) =
      (switchFmt (makeFormatter first).1 (rest.map (fun s => (makeFormatter s).1)), (makeFormatter first).2) := by
    conv => lhs; unfold makeFormatter
    simp only [h91, h59, if_true, hsplit, List.map_cons]
    rw [hsec first (by simp), List.map_map]
    congr 2
    refine List.map_congr_left (fun s hs => ?_)
    simp only [Function.comp]
    rw [hsec s (by simp [hs])]
  rw [key]
  exact ⟨C28_sections ext m _ _ v, rfl⟩

/-- `"yes";"yes";"no"` on truth values. -/
theorem C72_witness (ext : Ext) :
    [59].intercalate [lit "\"yes\"", lit "\"yes\"", lit "\"no\""] = lit "\"yes\";\"yes\";\"no\"" ∧
    (makeFormatter (lit "\"yes\";\"yes\";\"no\"")).1.eval ext false (.bool false) = .ok (lit "no") ∧
    (makeFormatter (lit "[Red]0")) = makeFormatter (lit "0") := by
  refine ⟨by decide +kernel, ?_, by decide +kernel⟩
  have h : (makeFormatter (lit "\"yes\";\"yes\";\"no\"")).1 =
      .switch4 (.static (lit "yes")) (.static (lit "yes")) (.static (lit "no")) .ident := by decide +kernel
  have e0 : ((0 : Float) == 0) = true := by decide +kernel
  rw [h, Fmt.eval]
  simp only [convertToFloat64, e0, if_true]
  rfl

/-- Sections are cut at every semicolon, also one in quotes. -/
theorem C72_quoted_counterexample : (makeFormatter (lit "0\"; \"")).1 =
    .switch4 (.surround [] (.sprintf (.d 0 []) 1) []) (.static (lit " ")) (.surround [] (.sprintf (.d 0 []) 1) []) .ident := by
  decide +kernel

/-! ## C73: built-in date formats -/

/-- The layout of a date renderer. -/
def layoutOf : Fmt → Option Bytes
  | .time l => some l
  | .cnTime l => some l
  | _ => none

/-- C73. Every built-in date format, except 36 and 50, shows the fields of its code in their order. -/
theorem C73_builtin_dates_partial (id : Nat) (h36 : id ≠ 36) (h50 : id ≠ 50) (code layout : Bytes) (f : Fmt)
    (h1 : builtInFormats id = some code) (h2 : goFormatters id = some f) (h3 : layoutOf f = some layout) :
    layoutKinds 0 layout = codeKinds code := by
  have key : ∀ id < 82, id ≠ 36 → id ≠ 50 →
      (match builtInFormats id, goFormatters id with
        | some code, some f =>
          (match layoutOf f with
            | some l => decide (layoutKinds 0 l = codeKinds code)
            | none => true)
        | _, _ => true) = true := by decide +kernel
  have hlt : id < 82 := by
    by_contra hge
    have : goFormatters id = none := by
      unfold goFormatters
      split <;> first | omega | rfl
    rw [this] at h2
    cases h2
  have := key id hlt h36 h50
  rw [h1, h2] at this
  simp only [h3] at this
  exact of_decide_eq_true this

/-- Format 22 is a case with five fields. -/
theorem C73_witness : builtInFormats 22 = some (lit "m/d/yy h:mm") ∧
    codeKinds (lit "m/d/yy h:mm") = [.month, .day, .year, .hour, .minute] ∧
    layoutKinds 0 (lit "1/2/06 15:04") = [.month, .day, .year, .hour, .minute] := by decide +kernel

/-- C73 is false: formats 36 and 50 (year and month) show the day of the month in place of the month. -/
theorem C73_counterexample (id : Nat) (h : id = 36 ∨ id = 50) : ∃ code layout,
    builtInFormats id = some code ∧ goFormatters id = some (.time layout) ∧
    codeKinds code = [.year, .month] ∧ layoutKinds 0 layout = [.year, .day] := by
  rcases h with rfl | rfl
  · exact ⟨_, _, rfl, rfl, by decide +kernel, by decide +kernel⟩
  · exact ⟨_, _, rfl, rfl, by decide +kernel, by decide +kernel⟩

end Grate.Props
