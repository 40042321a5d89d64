import Verif.Lemmas.GoFormat
import Verif.Lemmas.SerialTime
import Verif.Props.MakeFormat
import Verif.Props.Display

/-! # Properties C86 and C87: dates and times as displayed text -/

namespace Grate.Props

open Grate Grate.Spec

/-! ### What a moment is -/

theorem moment_days (m : Moment) (h : m.Valid) : m.time / dayNs = (m.day : Int) - 25569 := by
  have := h.hour; have := h.minute; have := h.second; have := h.nano
  unfold Moment.time dayNs
  omega

theorem moment_rest (m : Moment) (h : m.Valid) :
    m.time % dayNs = ((m.hour * 60 + m.minute) * 60 + m.second : Nat) * 1000000000 + m.nano := by
  have := h.hour; have := h.minute; have := h.second; have := h.nano
  unfold Moment.time dayNs
  omega

theorem epoch1899 : (⟨1899, 12, 30⟩ : Date).Valid := by unfold Date.Valid; decide

theorem moment_civil (m : Moment) (h : m.Valid) : m.date.Valid ∧ (goCivil (m.time / dayNs)).1 = m.date.y ∧
    (goCivil (m.time / dayNs)).2.1 = m.date.m ∧ (goCivil (m.time / dayNs)).2.2.1 = m.date.d := by
  obtain ⟨hv, hd⟩ := goDate_after ⟨1899, 12, 30⟩ epoch1899 m.day
  have e : m.time / dayNs = goDate m.date.y m.date.m m.date.d := by
    rw [moment_days m h]
    unfold Moment.date
    rw [hd, show goDate (1899 : Int) 12 30 = -25569 by decide +kernel]
    ring
  have := goCivil_goDate m.date hv
  rw [← e] at this
  exact ⟨hv, congrArg Date.y this, congrArg Date.m this, congrArg Date.d this⟩

theorem next_year (t : Date) (h : 1 ≤ t.y) : 1 ≤ t.next.y := by
  unfold Date.next
  split
  · exact h
  · split
    · exact h
    · simp only; omega

theorem moment_year (m : Moment) : 1 ≤ m.date.y := by
  unfold Moment.date
  induction m.day with
  | zero => decide
  | succ n ih => exact next_year _ ih

/-! ### Numbers -/

theorem appendInt_two (n : Nat) (h : n < 100) : appendInt n 2 = two n := by
  have : ∀ n < 100, appendInt (n : Nat) 2 = two n := by decide +kernel
  exact this n h

theorem appendInt_short (n : Nat) (h : n < 100) : appendInt n 0 = short n := by
  have : ∀ n < 100, appendInt (n : Nat) 0 = short n := by decide +kernel
  exact this n h

theorem decNatAux_fuel (a b n : Nat) (ha : n < a) (hb : n < b) : decNatAux a n = decNatAux b n := by
  induction a generalizing b n with
  | zero => omega
  | succ a ih =>
    cases b with
    | zero => omega
    | succ b =>
      unfold decNatAux
      split
      · rfl
      · rw [ih b (n / 10) (by omega) (by omega)]

theorem decNat_big (n : Nat) (h : 10 ≤ n) : decNat n = decNat (n / 10) ++ [digitByte (n % 10)] := by
  unfold decNat
  rw [decNatAux, if_neg (by omega), decNatAux_fuel n (n / 10 + 1) (n / 10) (by omega) (by omega)]

theorem decNat_small (n : Nat) (h : n < 10) : decNat n = [digitByte n] := by
  unfold decNat
  rw [decNatAux, if_pos h]

theorem digit_byte (n : Nat) : digitByte (n % 10) = digit n := by
  have : ∀ k < 10, digitByte k = UInt8.ofNat (48 + k) := by decide +kernel
  exact this (n % 10) (by omega)

theorem digit_byte' (n : Nat) (h : n < 10) : digitByte n = digit n := by
  rw [← digit_byte, Nat.mod_eq_of_lt h]

theorem digit_zero {n : Nat} (h : n = 0) : digit n = 48 := by rw [h]; rfl

theorem appendInt_four (n : Nat) (h : n < 10000) : appendInt n 4 = four n := by
  unfold appendInt four
  rw [if_neg (by omega)]
  simp only [Int.natAbs_natCast, List.nil_append]
  by_cases h1 : n < 10
  · rw [decNat_small n h1, digit_byte' n h1, digit_zero (n := n / 1000) (by omega), digit_zero (n := n / 100) (by omega),
      digit_zero (n := n / 10) (by omega)]
    rfl
  · rw [decNat_big n (by omega), digit_byte n]
    by_cases h2 : n < 100
    · rw [decNat_small (n / 10) (by omega), digit_byte' (n / 10) (by omega), digit_zero (n := n / 1000) (by omega),
        digit_zero (n := n / 100) (by omega)]
      rfl
    · rw [decNat_big (n / 10) (by omega), digit_byte (n / 10), Nat.div_div_eq_div_mul]
      by_cases h3 : n < 1000
      · rw [decNat_small (n / 100) (by omega), digit_byte' (n / 100) (by omega), digit_zero (n := n / 1000) (by omega)]
        rfl
      · rw [decNat_big (n / 100) (by omega), digit_byte (n / 100), Nat.div_div_eq_div_mul,
          decNat_small (n / 1000) (by omega), digit_byte' (n / 1000) (by omega)]
        rfl

/-! ### Fields -/

theorem moment_weekday (m : Moment) (h : m.Valid) : goDay (goWeekday (m.time / dayNs)) = m.dayName := by
  rw [moment_days m h]
  have : goWeekday ((m.day : Int) - 25569) = ((m.day + 6) % 7 : Nat) := by
    unfold goWeekday; omega
  rw [this]
  rfl

/-- A field shows what it stands for. -/
theorem field_shows (m : Moment) (h : m.Valid) (f : DateField)
    (hl : ∀ n, (f = .month n ∨ f = .day n) → 1 ≤ n ∧ n ≤ 4) (hh : 10 ≤ m.hour ∨ f ≠ .hour false) :
    stdShow m.time (DateField.std f) = f.shows m := by
  obtain ⟨hv, c1, c2, c3⟩ := moment_civil m h
  have hy := h.year
  have hy1 := moment_year m
  have hm1 := hv.1
  have hm2 := hv.2.1
  have hd1 := hv.2.2.1
  have hd2 : m.date.d ≤ 31 := by
    refine le_trans hv.2.2.2 ?_
    unfold monthLen
    split
    · split <;> omega
    · split <;> omega
  have key : ∀ x : Int, 0 ≤ x → ∃ n : Nat, x = n ∧ x.toNat = n := fun x hx => ⟨x.toNat, by omega, rfl⟩
  have h1 := h.hour; have h2 := h.minute; have h3 := h.second; have h4 := h.nano
  have rest := moment_rest m h
  have hhour : m.time % dayNs / 3600000000000 = (m.hour : Nat) := by rw [rest]; omega
  have hmin : m.time % dayNs / 60000000000 % 60 = (m.minute : Nat) := by rw [rest]; omega
  have hsec : m.time % dayNs / 1000000000 % 60 = (m.second : Nat) := by rw [rest]; omega
  have hmonth : goMonth m.date.m = m.monthName := rfl
  have hday := moment_weekday m h
  obtain ⟨y, hy', hy''⟩ := key m.date.y (by omega)
  obtain ⟨mo, hmo, hmo'⟩ := key m.date.m (by omega)
  obtain ⟨d, hd', hd''⟩ := key m.date.d (by omega)
  match f with
  | .year true =>
    simp only [DateField.std, if_true, stdShow, c1, DateField.shows, hy'']
    rw [hy', appendInt_four y (by omega)]
  | .year false =>
    simp only [DateField.std, Bool.false_eq_true, if_false, stdShow, c1, DateField.shows, hy'']
    rw [hy', if_neg (by omega), show ((y : Int) % 100) = ((y % 100 : Nat) : Int) by omega, appendInt_two _ (by omega)]
  | .month 0 => have := hl 0 (.inl rfl); omega
  | .month 1 =>
    simp only [DateField.std, stdShow, c2, DateField.shows, hmo']
    rw [hmo, appendInt_short mo (by omega)]
  | .month 2 =>
    simp only [DateField.std, stdShow, c2, DateField.shows, hmo']
    rw [hmo, appendInt_two mo (by omega)]
  | .month 3 => simp only [DateField.std, stdShow, c2, DateField.shows, hmonth]
  | .month 4 => simp only [DateField.std, stdShow, c2, DateField.shows, hmonth]
  | .month (n + 5) => have := hl (n + 5) (.inl rfl); omega
  | .day 0 => have := hl 0 (.inr rfl); omega
  | .day 1 =>
    simp only [DateField.std, stdShow, c3, DateField.shows, hd'']
    rw [hd', appendInt_short d (by omega)]
  | .day 2 =>
    simp only [DateField.std, stdShow, c3, DateField.shows, hd'']
    rw [hd', appendInt_two d (by omega)]
  | .day 3 => simp only [DateField.std, stdShow, DateField.shows, hday]
  | .day (n + 4) => simp only [DateField.std, stdShow, DateField.shows, hday]
  | .hour true =>
    simp only [DateField.std, stdShow, DateField.shows, hhour]
    rw [appendInt_two _ (by omega)]
  | .hour false =>
    simp only [DateField.std, stdShow, DateField.shows, hhour]
    rw [appendInt_two _ (by omega)]
    unfold short
    rw [if_neg]
    rcases hh with hh | hh
    · omega
    · exact absurd rfl hh
  | .minute true =>
    simp only [DateField.std, if_true, stdShow, DateField.shows, hmin]
    rw [appendInt_two _ (by omega)]
  | .minute false =>
    simp only [DateField.std, Bool.false_eq_true, if_false, stdShow, DateField.shows, hmin]
    rw [appendInt_short _ (by omega)]
  | .second true =>
    simp only [DateField.std, if_true, stdShow, DateField.shows, hsec]
    rw [appendInt_two _ (by omega)]
  | .second false =>
    simp only [DateField.std, Bool.false_eq_true, if_false, stdShow, DateField.shows, hsec]
    rw [appendInt_short _ (by omega)]

/-! ### Layouts -/

theorem layout_head (f : DateField) : f.layout.head? = some 53 → f = .second false := by
  obtain ⟨l1, l2, l3, l4, l5, l6, l7, l8, l9, l10, l11, l12, l13, l14, l15⟩ := lits
  unfold DateField.layout
  intro h
  split at h
  all_goals try split at h
  all_goals simp only [l1, l2, l3, l4, l5, l6, l7, l8, l9, l10, l11, l12, l13, l14, l15] at h
  all_goals first | exact absurd h (by decide) | skip
  rename_i b hb
  cases b
  · rfl
  · exact absurd rfl hb

theorem layout_lower (f : DateField) (L : Bytes) : lowerFirst (f.layout ++ L) = false := by
  obtain ⟨l1, l2, l3, l4, l5, l6, l7, l8, l9, l10, l11, l12, l13, l14, l15⟩ := lits
  unfold DateField.layout
  split <;> try split
  all_goals simp only [l1, l2, l3, l4, l5, l6, l7, l8, l9, l10, l11, l12, l13, l14, l15]
  all_goals rfl

theorem layout_three (f : DateField) (hl : ∀ n, (f = .month n ∨ f = .day n) → 1 ≤ n ∧ n ≤ 4)
    (h : f.layout.length = 3) : f = .month 3 ∨ f = .day 3 := by
  obtain ⟨l1, l2, l3, l4, l5, l6, l7, l8, l9, l10, l11, l12, l13, l14, l15⟩ := lits
  match f with
  | .year true => simp [DateField.layout, l1] at h
  | .year false => simp [DateField.layout, l2] at h
  | .month 0 => have := hl 0 (.inl rfl); omega
  | .month 1 => simp [DateField.layout, l3] at h
  | .month 2 => simp [DateField.layout, l4] at h
  | .month 3 => exact .inl rfl
  | .month 4 => simp [DateField.layout, l6] at h
  | .month (n + 5) => have := hl (n + 5) (.inl rfl); omega
  | .day 0 => have := hl 0 (.inr rfl); omega
  | .day 1 => simp [DateField.layout, l7] at h
  | .day 2 => simp [DateField.layout, l8] at h
  | .day 3 => exact .inr rfl
  | .day (n + 4) => simp [DateField.layout, l10] at h
  | .hour b => simp [DateField.layout, l11] at h
  | .minute true => simp [DateField.layout, l12] at h
  | .minute false => simp [DateField.layout, l13] at h
  | .second true => simp [DateField.layout, l14] at h
  | .second false => simp [DateField.layout, l15] at h

theorem layout_rest (m : Moment) (h : m.Valid) (rest : List (DateField × DateSep))
    (hseps : ∀ p ∈ rest, p.2.Free)
    (hlet : ∀ p ∈ rest, ∀ n, (p.1 = .month n ∨ p.1 = .day n) → 1 ≤ n ∧ n ≤ 4)
    (hnames : ∀ p ∈ rest, (p.1 = .month 3 ∨ p.1 = .day 3) → NoSmall p.2.text)
    (hmonth : ∀ l s t r, rest = l ++ (.month 1, s) :: (.second false, t) :: r → s.text ≠ [])
    (hours : 10 ≤ m.hour ∨ ∀ p ∈ rest, p.1 ≠ .hour false) :
    Quiet (rest.flatMap (fun p => p.1.layout ++ p.2.text)) ∧
    goFormatFrom m.time 0 (rest.flatMap (fun p => p.1.layout ++ p.2.text)) =
      rest.flatMap (fun p => p.1.shows m ++ p.2.text) := by
  induction rest with
  | nil => exact ⟨quiet_nil, rfl⟩
  | cons p rest ih =>
    obtain ⟨hq, ih⟩ := ih (fun q hq => hseps q (by simp [hq])) (fun q hq => hlet q (by simp [hq]))
      (fun q hq => hnames q (by simp [hq])) (fun l s t r hr => hmonth (p :: l) s t r (by rw [hr]; rfl))
      (hours.imp id (fun hh q hq => hh q (by simp [hq])))
    refine ⟨?_, ?_⟩
    · rw [List.flatMap_cons, List.append_assoc]
      exact quiet_layout _ _
    · rw [List.flatMap_cons, List.flatMap_cons, List.append_assoc, List.append_assoc, goFormat_field, goFormat_sep _ _ _ (hseps p (by simp)) hq, ih,
        field_shows m h p.1 (hlet p (by simp)) (hours.imp id (fun hh => hh p (by simp)))]
      -- what may follow
      refine ⟨?_, ?_, ?_⟩
      · cases ht : p.2.text with
        | nil => exact hq
        | cons b r => exact quiet_safe _ (hseps p (by simp) b (by rw [ht]; simp))
      · intro hp hhead
        cases ht : p.2.text with
        | cons b r =>
          rw [ht] at hhead
          simp only [List.cons_append, List.head?_cons, Option.some.injEq] at hhead
          have := hseps p (by simp) b (by rw [ht]; simp)
          rw [hhead] at this
          exact this.1 (by decide)
        | nil =>
          rw [ht, List.nil_append] at hhead
          cases rest with
          | nil => simp at hhead
          | cons q rest =>
            have hne := layout_ne q.1
            have h53 : q.1.layout.head? = some 53 := by
              rw [List.flatMap_cons] at hhead
              cases hl : q.1.layout with
              | nil => exact absurd hl hne
              | cons x xs => rw [hl] at hhead; exact hhead
            have hq2 := layout_head _ h53
            refine hmonth [] p.2 q.2 rest ?_ ht
            obtain ⟨p1, p2⟩ := p
            obtain ⟨q1, q2⟩ := q
            simp only at hp hq2
            rw [hp, hq2]
            rfl
      · intro h3
        have := hnames p (by simp) (layout_three _ (hlet p (by simp)) h3)
        cases ht : p.2.text with
        | cons b r =>
          have := this b r ht
          rw [List.cons_append]
          unfold lowerFirst
          rw [Bool.and_eq_false_iff, decide_eq_false_iff_not, decide_eq_false_iff_not]
          by_cases hb : 97 ≤ b
          · exact .inr (fun h => this ⟨hb, h⟩)
          · exact .inl hb
        | nil =>
          rw [List.nil_append]
          cases rest with
          | nil => rfl
          | cons q rest => rw [List.flatMap_cons, List.append_assoc]; exact layout_lower _ _

/-- The layout of a date format shows its fields. -/
theorem layout_shows (c : DateCode) (hc : c.Apart) (m : Moment) (h : m.Valid) (hh : c.HoursOk m) :
    goFormat c.layout m.time = c.shows m := by
  obtain ⟨hq, he⟩ := layout_rest m h c.rest hc.seps hc.letters hc.names hc.month hh
  unfold goFormat DateCode.layout DateCode.shows DateCode.render
  rw [goFormat_sep _ _ _ hc.first hq, he]

/-! ## C86 -/

/-- The built-in date and time formats whose layout is the code read field by field. -/
def builtinDates : List (Nat × DateCode) :=
  let d (s : DateSep) (l : List (DateField × DateSep)) : DateCode := ⟨s, l⟩
  let b (t : String) : DateSep := .bare (lit t)
  [(14, d (b "") [(.month 2, b "-"), (.day 2, b "-"), (.year false, b "")]),
   (15, d (b "") [(.day 1, b "-"), (.month 3, b "-"), (.year false, b "")]),
   (16, d (b "") [(.day 1, b "-"), (.month 3, b "")]),
   (17, d (b "") [(.month 3, b "-"), (.year false, b "")]),
   (20, d (b "") [(.hour false, b ":"), (.minute true, b "")]),
   (21, d (b "") [(.hour false, b ":"), (.minute true, b ":"), (.second true, b "")]),
   (22, d (b "") [(.month 1, b "/"), (.day 1, b "/"), (.year false, b " "), (.hour false, b ":"), (.minute true, b "")]),
   (30, d (b "") [(.month 1, b "-"), (.day 1, b "-"), (.year false, b "")]),
   (45, d (b "") [(.minute true, b ":"), (.second true, b "")]),
   (71, d (b "") [(.day 1, b "/"), (.month 1, b "/"), (.year true, b "")]),
   (72, d (b "") [(.day 1, b "-"), (.month 3, b "-"), (.year false, b "")]),
   (73, d (b "") [(.day 1, b "-"), (.month 3, b "")]),
   (74, d (b "") [(.month 3, b "-"), (.year false, b "")]),
   (75, d (b "") [(.hour false, b ":"), (.minute true, b "")]),
   (76, d (b "") [(.hour false, b ":"), (.minute true, b ":"), (.second true, b "")]),
   (77, d (b "") [(.day 1, b "/"), (.month 1, b "/"), (.year true, b " "), (.hour false, b ":"), (.minute true, b "")]),
   (78, d (b "") [(.minute true, b ":"), (.second true, b "")])]

theorem builtin_code : ∀ p ∈ builtinDates, builtInFormats p.1 = some p.2.text := by decide +kernel

theorem builtin_layout : ∀ p ∈ builtinDates, goFormatters p.1 = some (.time p.2.layout) := by decide +kernel

/-- `Apart` as a check. -/
def apartCheck (c : DateCode) : Bool :=
  (c.first.text.all (fun b => decide (SafeByte b))) && c.rest.all (fun p =>
    p.2.text.all (fun b => decide (SafeByte b)) &&
    (match p.1 with | .month n => decide (1 ≤ n ∧ n ≤ 4) | .day n => decide (1 ≤ n ∧ n ≤ 4) | _ => true) &&
    (match p.1 with | .month 3 => !lowerFirst p.2.text | .day 3 => !lowerFirst p.2.text | _ => true) &&
    (match p.1 with | .month 1 => p.2.text != [] | _ => true))

theorem apart_of_check (c : DateCode) (h : apartCheck c = true) : c.Apart := by
  unfold apartCheck at h
  simp only [Bool.and_eq_true, List.all_eq_true, decide_eq_true_eq] at h
  obtain ⟨h1, h2⟩ := h
  refine ⟨h1, fun p hp => (h2 p hp).1.1.1, ?_, ?_, ?_⟩
  · rintro p hp n (hn | hn) <;> · have := (h2 p hp).1.1.2; rw [hn] at this; simpa using this
  · intro p hp hn b r hb hlow
    have := (h2 p hp).1.2
    have e : lowerFirst p.2.text = true := by
      rw [hb]
      unfold lowerFirst
      rw [Bool.and_eq_true, decide_eq_true_eq, decide_eq_true_eq]
      exact hlow
    rcases hn with hn | hn <;> · rw [hn, e] at this; exact absurd this (by decide)
  · intro l s t r hr
    have := (h2 (.month 1, s) (by rw [hr]; simp)).2
    simpa using this

theorem builtin_apart : ∀ p ∈ builtinDates, p.2.Apart := by
  have : ∀ p ∈ builtinDates, apartCheck p.2 = true := by decide +kernel
  exact fun p hp => apart_of_check _ (this p hp)

/-- C86, the built-in formats in `builtinDates`: a moment is shown field by field as the code of the format says. (For
hours of one letter: from ten o'clock.) -/
theorem C86_builtin_partial (ext : Ext) (hext : ext.timeFormat = goFormat) (x : Formatter) (p : Nat × DateCode)
    (hp : p ∈ builtinDates) (m : Moment) (hm : m.Valid) (hh : p.2.HoursOk m) :
    builtInFormats p.1 = some p.2.text ∧
    x.apply ext p.1 (.time m.time) = .ok (p.2.shows m, true) ∧
    ∀ v, convertToDate x.mode1904 v = m.time → x.apply ext p.1 (.float v) = .ok (p.2.shows m, true) := by
  have hl := layout_shows p.2 (builtin_apart p hp) m hm hh
  refine ⟨builtin_code p hp, ?_, fun v hv => ?_⟩
  · unfold Formatter.apply
    rw [builtin_layout p hp]
    show GoRes.ok (ext.timeFormat p.2.layout m.time, true) = _
    rw [hext, hl]
  · unfold Formatter.apply
    rw [builtin_layout p hp]
    show GoRes.ok (ext.timeFormat p.2.layout (convertToDate x.mode1904 v), true) = _
    rw [hext, hv, hl]

/-- C86, custom formats: the same for the date formats the compiler is proved to read. -/
theorem C86_custom_partial (ext : Ext) (hext : ext.timeFormat = goFormat) (x : Formatter) (id : Nat) (hid : 164 ≤ id)
    (hfree : x.codes id = none) (c : DateCode) (hc : c.Readable) (ha : c.Apart) (m : Moment) (hm : m.Valid)
    (hh : c.HoursOk m) :
    renderCustom ext x id c.text (.time m.time) = .ok (c.shows m, true) ∧
    ∀ v, convertToDate x.mode1904 v = m.time → renderCustom ext x id c.text (.float v) = .ok (c.shows m, true) := by
  obtain ⟨-, h1, h2⟩ := C71_dates_partial ext x id hid hfree c hc
  have hl := layout_shows c ha m hm hh
  refine ⟨?_, fun v hv => ?_⟩
  · rw [h1, hext, hl]
  · rw [h2, hext, hv, hl]

/-- Midnight of the day of a whole serial. -/
def midnight (mode : Bool) (n : Nat) : Moment := ⟨n + zeroOffset mode, 0, 0, 0, 0⟩

theorem zeroDay_eq (mode : Bool) : zeroDay mode = (zeroOffset mode : Nat) - 25569 := by cases mode <;> decide +kernel

/-- Days up to 9999-12-31 have years of four digits. -/
theorem year_bound (m : Moment) (h : m.day ≤ 2958465) : m.date.y ≤ 9999 := by
  by_contra hc
  obtain ⟨hv, hd⟩ := goDate_after ⟨1899, 12, 30⟩ epoch1899 m.day
  have h2 : (⟨9999, 12, 31⟩ : Date).Valid := by unfold Date.Valid; decide
  have := goDate_lt_year ⟨9999, 12, 31⟩ m.date h2 hv (by simp only; omega)
  unfold Moment.date at this
  rw [hd] at this
  simp only at this
  rw [show goDate (9999 : Int) 12 31 = 2932896 by decide +kernel, show goDate (1899 : Int) 12 30 = -25569 by decide +kernel] at this
  omega

theorem midnight_valid (mode : Bool) (n : Nat) (h : (midnight mode n).day ≤ 2958465) : (midnight mode n).Valid :=
  ⟨by simp [midnight], by simp [midnight], by simp [midnight], by simp [midnight], year_bound _ h⟩

/-- C86 for whole serials, in a built-in format without hours: the day reached by counting from 1899-12-30 (or
1904-01-01), in the notation of the format. -/
theorem C86_days_partial (ext : Ext) (hext : ext.timeFormat = goFormat) (x : Formatter) (p : Nat × DateCode)
    (hp : p ∈ builtinDates) (n : Nat) (hday : (midnight x.mode1904 n).day ≤ 2958465)
    (hh : ∀ q ∈ p.2.rest, q.1 ≠ .hour false) (v : Float) (hv : F64.FFin v) (hn : F64.fval v = n) :
    builtInFormats p.1 = some p.2.text ∧
    x.apply ext p.1 (.float v) = .ok (p.2.shows (midnight x.mode1904 n), true) ∧
    (midnight x.mode1904 n).date = (serialZero x.mode1904).after n := by
  have hlt : n < 2 ^ 46 := by unfold midnight at hday; simp only at hday; omega
  have ht : convertToDate x.mode1904 v = (midnight x.mode1904 n).time := by
    rw [C31_day x.mode1904 v n hv (by rw [hn]; norm_cast) (by omega) (by omega)]
    show (zeroDay x.mode1904 + n) * dayNs = _
    rw [zeroDay_eq]
    unfold midnight Moment.time dayNs
    push_cast
    ring
  have := C86_builtin_partial ext hext x p hp (midnight x.mode1904 n) (midnight_valid _ _ hday) (.inr hh)
  refine ⟨this.1, this.2.2 v ht, ?_⟩
  unfold midnight Moment.date serialZero zeroOffset
  cases x.mode1904 with
  | false => rfl
  | true =>
    have after_add : ∀ (t : Date) (a b : Nat), t.after (a + b) = (t.after b).after a := by
      intro t a b
      induction a with
      | zero => rw [Nat.zero_add]; rfl
      | succ a ih => rw [Nat.succ_add]; exact congrArg Date.next ih
    have e : (⟨1899, 12, 30⟩ : Date).after 1462 = ⟨1904, 1, 1⟩ := by
      obtain ⟨h1, h2⟩ := goDate_after ⟨1899, 12, 30⟩ epoch1899 1462
      refine goDate_inj _ _ h1 (by unfold Date.Valid; decide) ?_
      rw [h2]
      decide +kernel
    simp only [if_true]
    rw [after_add, e]

/-- A library that shows moments as `time.Format` does. -/
def clockExt : Ext := { displayExt with timeFormat := goFormat }

theorem apply_time (ext : Ext) (hext : ext.timeFormat = goFormat) (x : Formatter) (id : Nat) (layout out : Bytes) (t : Time)
    (h1 : goFormatters id = some (.time layout)) (h2 : goFormat layout t = out) :
    x.apply ext id (.time t) = .ok (out, true) := by
  unfold Formatter.apply
  rw [h1]
  show GoRes.ok (ext.timeFormat layout t, true) = _
  rw [hext, h2]

theorem custom_time (ext : Ext) (hext : ext.timeFormat = goFormat) (x : Formatter) (id : Nat) (hid : 164 ≤ id)
    (hfree : x.codes id = none) (code layout out : Bytes) (t : Time) (hg : asciiLower code ≠ lit "general")
    (h1 : (makeFormatter code).1 = .time layout) (h2 : goFormat layout t = out) :
    renderCustom ext x id code (.time t) = .ok (out, true) := by
  rw [(renderCustom_eq ext x id code (.time t) hid hfree hg).1, h1]
  show GoRes.ok (ext.timeFormat layout t, true) = _
  rw [hext, h2]

/-- 2021-07-04 13:05:09. -/
def july : Moment := ⟨44381, 13, 5, 9, 0⟩

theorem july_valid : july.Valid :=
  ⟨by decide, by decide, by decide, by decide, year_bound _ (by decide)⟩

theorem july_time : july.time = 1625403909000000000 := by decide

/-- A case of C86: `m/d/yy h:mm` of that moment is `7/4/21 13:05`; a custom format shows it as `04 of July 2021, 13:05:09`. -/
theorem C86_witness (ext : Ext) (hext : ext.timeFormat = goFormat) (x : Formatter) (id : Nat) (hid : 164 ≤ id) (hfree : x.codes id = none) :
    x.apply ext 22 (.time july.time) = .ok (lit "7/4/21 13:05", true) ∧
    exDate.Readable ∧ exDate.Apart ∧ exDate.HoursOk july ∧
    renderCustom ext x id exDate.text (.time july.time) = .ok (lit "04 of July 2021, 13:05:09", true) ∧
    x.apply ext 15 (.time (midnight false 44381).time) = .ok (lit "4-Jul-21", true) := by
  have ha : exDate.Apart := apart_of_check _ (by decide +kernel)
  have hh : exDate.HoursOk july := .inl (by decide)
  have hr := C71_witness.2.2
  refine ⟨?_, hr, ha, hh, ?_, ?_⟩
  · exact apply_time ext hext x _ _ _ _ rfl (by rw [july_time]; decide +kernel)
  · exact custom_time ext hext x id hid hfree _ (lit "02 of January 2006, 15:04:05") _ _ (by decide +kernel) (by decide +kernel) (by rw [july_time]; decide +kernel)
  · exact apply_time ext hext x _ _ _ _ rfl (by decide +kernel)

/-- C86 is false for hours of one letter before ten o'clock: `h:mm` (format 20) of 9:05 is shown as `09:05`. -/
theorem C86_hour_counterexample (ext : Ext) (hext : ext.timeFormat = goFormat) (x : Formatter) :
    builtInFormats 20 = some (lit "h:mm") ∧
    x.apply ext 20 (.time (⟨44381, 9, 5, 0, 0⟩ : Moment).time) = .ok (lit "09:05", true) ∧
    (⟨.bare [], [(.hour false, .bare [58]), (.minute true, .bare [])]⟩ : DateCode).text = lit "h:mm" ∧
    (⟨.bare [], [(.hour false, .bare [58]), (.minute true, .bare [])]⟩ : DateCode).shows ⟨44381, 9, 5, 0, 0⟩ = lit "9:05" := by
  refine ⟨rfl, ?_, by decide +kernel, by decide +kernel⟩
  exact apply_time ext hext x _ _ _ _ rfl (by decide +kernel)

/-- C86 is false for the formats with text in quotes (27 to 33, 36, 50 to 54, 57, 58): the quotes are shown. -/
theorem C86_quotes_counterexample (ext : Ext) (hext : ext.timeFormat = goFormat) (x : Formatter) :
    builtInFormats 31 = some (lit "yyyy\"年\"m\"月\"d\"日\"") ∧
    x.apply ext 31 (.time july.time) = .ok (lit "2021\"年\"7\"月\"4\"日\"", true) := by
  refine ⟨rfl, ?_⟩
  exact apply_time ext hext x _ _ _ _ rfl (by rw [july_time]; decide +kernel)

/-- C86 is false for elapsed hours: `[h]:mm:ss` (format 46) of 13:05:09 is shown as `1:05:09`, and days are not counted. -/
theorem C86_elapsed_counterexample (ext : Ext) (hext : ext.timeFormat = goFormat) (x : Formatter) :
    builtInFormats 46 = some (lit "[h]:mm:ss") ∧
    x.apply ext 46 (.time july.time) = .ok (lit "1:05:09", true) ∧
    x.apply ext 46 (.time (⟨2, 1, 0, 0, 0⟩ : Moment).time) = .ok (lit "1:00:00", true) := by
  refine ⟨rfl, ?_, ?_⟩
  · exact apply_time ext hext x _ _ _ _ rfl (by rw [july_time]; decide +kernel)
  · exact apply_time ext hext x _ _ _ _ rfl (by decide +kernel)

/-- C86 is false for tenths of seconds: `mmss.0` (format 47) of 13:05:09 is shown as `0509`, the `.0` is missing. -/
theorem C86_tenths_counterexample (ext : Ext) (hext : ext.timeFormat = goFormat) (x : Formatter) :
    builtInFormats 47 = some (lit "mmss.0") ∧
    x.apply ext 47 (.time july.time) = .ok (lit "0509", true) := by
  refine ⟨rfl, ?_⟩
  exact apply_time ext hext x _ _ _ _ rfl (by rw [july_time]; decide +kernel)

/-- C86 is false for the custom code `h:mm:ss AM/PM`: 13:05:09 is shown as `1:05:09 AM/PM`, and 1:05:09 as `1:05:09 AM/AM`. -/
theorem C86_ampm_counterexample (ext : Ext) (hext : ext.timeFormat = goFormat) (x : Formatter) (id : Nat) (hid : 164 ≤ id)
    (hfree : x.codes id = none) :
    renderCustom ext x id (lit "h:mm:ss AM/PM") (.time july.time) = .ok (lit "1:05:09 AM/PM", true) ∧
    renderCustom ext x id (lit "h:mm:ss AM/PM") (.time (⟨44381, 1, 5, 9, 0⟩ : Moment).time) = .ok (lit "1:05:09 AM/AM", true) :=
  ⟨custom_time ext hext x id hid hfree _ (lit "3:04:05 AM/PM") _ _ (by decide +kernel) (by decide +kernel)
      (by rw [july_time]; decide +kernel),
    custom_time ext hext x id hid hfree _ (lit "3:04:05 AM/PM") _ _ (by decide +kernel) (by decide +kernel) (by decide +kernel)⟩

/-- C86 is false for the first letter of the month: `mmmmm` is shown as `Jul`. -/
theorem C86_letter_counterexample (ext : Ext) (hext : ext.timeFormat = goFormat) (x : Formatter) (id : Nat) (hid : 164 ≤ id)
    (hfree : x.codes id = none) :
    renderCustom ext x id (lit "mmmmm") (.time july.time) = .ok (lit "Jul", true) ∧
    (DateField.month 5).code = lit "mmmmm" ∧ (DateField.month 5).shows july = lit "J" := by
  refine ⟨custom_time ext hext x id hid hfree _ (lit "Jan") _ _ (by decide +kernel) (by decide +kernel)
    (by rw [july_time]; decide +kernel), by decide +kernel, ?_⟩
  obtain ⟨-, -, c2, -⟩ := moment_civil july july_valid
  simp only [DateField.shows, Moment.monthName]
  rw [← c2, july_time, show (goCivil (1625403909000000000 / dayNs)).2.1 = 7 by decide +kernel]
  decide +kernel

end Grate.Props
