import Verif.Lemmas.Simple
import Verif.Lemmas.Decimal
import Verif.Spec.Cursor

/-! # C04–C09: delimited text sources -/

namespace Grate.Props

open Grate Spec Simple

/-! ### C08: cursor protocol -/

theorem simple_afterNext (f : File) (k : Nat) :
    afterNext File.next k f = { f with iterRow := f.iterRow + k } := by
  induction k generalizing f with
  | zero => simp [afterNext]
  | succ k ih =>
    rw [afterNext, ih]
    simp only [File.next]
    congr 1
    omega

/-- **C08.** From a freshly opened source with `n` rows, the `(k+1)`-th call to `Next` answers true
iff `k < n` (so: true exactly `n` times, then false for ever); after it `Strings` is the `k`-th row,
and `Types`/`Formats` are aligned with it, `blank` exactly at the empty cells. -/
theorem C08_cursor (f : File) (h0 : f.iterRow = -1) (k : Nat) :
    (File.next (afterNext File.next k f)).2 = decide (k < f.rows.length) ∧
    ∀ row, f.rows[k]? = some row →
      let g := afterNext File.next (k + 1) f
      g.strings = .ok row ∧
      (∃ ts, g.types = .ok ts ∧ ts.length = row.length ∧
        ∀ (i : Nat) (c : Bytes), row[i]? = some c →
          ts[i]? = some (if c = [] then lit "blank" else lit "string")) ∧
      (∃ fs, g.formats = .ok fs ∧ fs = List.replicate row.length (lit "General")) := by
  refine ⟨?_, ?_⟩
  · rw [simple_afterNext]
    simp only [File.next, h0]
    congr 1
    apply propext
    omega
  · intro row hrow
    have hg : (afterNext File.next (k + 1) f).row = .ok row := by
      rw [simple_afterNext]
      simp only [File.row, h0]
      rw [if_pos (by omega)]
      have : (-1 + ((k + 1 : Nat) : Int)).toNat = k := by omega
      rw [this, hrow]
    refine ⟨hg, ?_, ?_⟩
    · refine ⟨_, by rw [File.types, hg]; rfl, by simp, ?_⟩
      intro i c hc
      simp [hc]
    · refine ⟨_, by rw [File.formats, hg]; rfl, ?_⟩
      exact List.map_const' ..

/-- Draining from a state whose next row is `k`. -/
theorem simple_drain_from (f : File) (k : Nat) (hk : f.iterRow = (k : Int) - 1)
    (hle : k ≤ f.rows.length) (fuel : Nat) (hf : f.rows.length - k < fuel) :
    drain File.next File.strings fuel f = some (.ok (f.rows.drop k)) := by
  induction fuel generalizing f k with
  | zero => omega
  | succ fuel ih =>
    simp only [drain, File.next]
    rcases Nat.lt_or_ge k f.rows.length with hlt | hge
    · have hd : decide (f.iterRow + 1 < f.rows.length) = true := by
        rw [decide_eq_true_eq]; omega
      rw [hd]
      simp only
      have := ih { f with iterRow := f.iterRow + 1 } (k + 1) (by simp only; omega) (by simp only; omega)
        (by simp only; omega)
      rw [this]
      have hs : File.strings { f with iterRow := f.iterRow + 1 } = .ok f.rows[k] := by
        simp only [File.strings, File.row]
        rw [if_pos (by omega)]
        have h1 : (f.iterRow + 1).toNat = k := by omega
        rw [h1, List.getElem?_eq_getElem hlt]
      simp only [hs, GoRes.ok_bind, GoRes.pure_eq]
      rw [List.drop_eq_getElem_cons hlt]
    · have hd : decide (f.iterRow + 1 < f.rows.length) = false := by
        rw [decide_eq_false_iff_not]; omega
      rw [hd]
      have : f.rows.drop k = [] := List.drop_eq_nil_of_le hge
      simp [this]

/-- **C08 (loop).** The usual client loop terminates and returns all rows in order. -/
theorem C08_drain (f : File) (h0 : f.iterRow = -1) :
    drain File.next File.strings (f.rows.length + 1) f = some (.ok f.rows) := by
  have := simple_drain_from f 0 (by omega) (Nat.zero_le _) (f.rows.length + 1) (by omega)
  simpa using this

/-- **C08 (IsEmpty).** `IsEmpty` answers true exactly when the client loop delivers no rows. -/
theorem C08_isEmpty (f : File) (h0 : f.iterRow = -1) :
    f.isEmpty = true ↔ drain File.next File.strings (f.rows.length + 1) f = some (.ok []) := by
  rw [C08_drain f h0]
  simp [File.isEmpty]

/-- Non-vacuity: a fresh two-row source (hypothesis met), second row. -/
example : ∃ f : File, f.iterRow = -1 ∧ f.rows[1]? = some [[], lit "x"] ∧
    (afterNext File.next 2 f).types = .ok [lit "blank", lit "string"] :=
  ⟨⟨lit "f", [[lit "a"], [[], lit "x"]], -1⟩, rfl, rfl, rfl⟩

/-! ### C05: nothing is lost -/

/-- **C05.** For every file content and every map iteration order: if some line has 64 KiB or more the
open fails (with an error that is not "not in format"); otherwise the rows are exactly the file's
lines split at tabs, and the only other outcome is that the detection rule declines. -/
theorem C05_tsv_lossless (iter : List (Nat × Nat) → List (Nat × Nat)) (fn content : Bytes) :
    (HasLongLine content → ∃ e, openTSV iter fn (some content) = .err e ∧ e.isNotInFormat = false) ∧
    (¬ HasLongLine content → ∃ lines rows,
      LinesOf content lines ∧ All2 FieldsOf lines rows ∧
      (openTSV iter fn (some content) = .ok ⟨fn, rows, -1⟩ ∨
       openTSV iter fn (some content) = .err .notInFormat)) := by
  constructor
  · intro h
    have := (longLine_iff content).2 h
    refine ⟨.msg "bufio.Scanner: token too long", ?_, by simp [GoErr.isNotInFormat, GoErr.unwrap]⟩
    simp [openTSV, scanLines, this]
  · intro h
    have hany : ¬ (rawLines content).any (fun l => maxTokenSize ≤ l.length) = true :=
      fun h' => h ((longLine_iff content).1 h')
    refine ⟨(rawLines content).map dropCR, ((rawLines content).map dropCR).map (splitByte 9),
      linesOf_rawLines content, ?_, ?_⟩
    · generalize (rawLines content).map dropCR = ls
      induction ls with
      | nil => exact .nil
      | cons l ls ih =>
        refine .cons ⟨splitByte_ne_nil 9 l, (splitByte_spec 9 l).1, (splitByte_spec 9 l).2⟩ ih
    · simp only [openTSV, scanLines, if_neg hany, GoRes.ok_bind]
      split
      · right; rfl
      · left; rfl

/-- The specification determines the rows: `LinesOf` and `FieldsOf` are functional. -/
theorem C05_rows_unique {content : Bytes} {l1 l2 : List Bytes} {r1 r2 : List (List Bytes)}
    (h1 : LinesOf content l1) (h2 : LinesOf content l2)
    (f1 : All2 FieldsOf l1 r1) (f2 : All2 FieldsOf l2 r2) : l1 = l2 ∧ r1 = r2 := by
  have hl : l1 = l2 := (linesOf_unique h1).trans (linesOf_unique h2).symm
  subst hl
  refine ⟨rfl, ?_⟩
  clear h1 h2
  induction f1 generalizing r2 with
  | nil => cases f2; rfl
  | cons h _ ih =>
    cases f2 with
    | cons h' ht =>
      have e1 := splitByte_intercalate 9 _ h.1 h.2.1
      have e2 := splitByte_intercalate 9 _ h'.1 h'.2.1
      rw [h.2.2] at e1
      rw [h'.2.2] at e2
      rw [← e1, ← e2, ih ht]

/-- A file with CRLF, an empty line and an unterminated last line. -/
example : LinesOf [97, 9, 98, 13, 10, 10, 99] [[97, 9, 98], [], [99]] := by
  refine LinesOf.crlf (l := [97, 9, 98]) (by decide) ?_
  refine LinesOf.lf (l := []) (by decide) (by decide) ?_
  exact .last (by decide) (by decide) (by decide)

example : HasLongLine (List.replicate 65536 97) :=
  ⟨[], List.replicate 65536 97, [], by rw [List.nil_append, List.append_nil],
    by rw [List.length_replicate]; omega, fun h => by
      have := List.eq_of_mem_replicate h
      exact absurd this (by decide)⟩

/-! ### C04: round trip -/

theorem linesOf_tsvText (rows : List (List Bytes))
    (hc : ∀ r ∈ rows, ∀ c ∈ r, (10 : UInt8) ∉ c ∧ (13 : UInt8) ∉ c) :
    LinesOf (tsvText rows) (rows.map ([(9 : UInt8)].intercalate ·)) := by
  induction rows with
  | nil => exact .nil
  | cons r rs ih =>
    have hi := ih (fun r' hr' => hc r' (by simp [hr']))
    have hmem : ∀ b ∈ [(9 : UInt8)].intercalate r, b ≠ 10 ∧ b ≠ 13 := by
      intro b hb
      have hr := hc r (by simp)
      clear hc ih hi
      induction r with
      | nil => simp [List.intercalate] at hb
      | cons c cs ihc =>
        cases cs with
        | nil =>
          simp only [List.intercalate, List.intersperse, List.flatten_cons, List.flatten_nil,
            List.append_nil] at hb
          exact ⟨fun h => (hr c (by simp)).1 (h ▸ hb), fun h => (hr c (by simp)).2 (h ▸ hb)⟩
        | cons d ds =>
          have he : [(9 : UInt8)].intercalate (c :: d :: ds) =
              c ++ 9 :: [(9 : UInt8)].intercalate (d :: ds) := by
            simp [List.intercalate, List.intersperse]
          rw [he] at hb
          rcases List.mem_append.1 hb with hb | hb
          · exact ⟨fun h => (hr c (by simp)).1 (h ▸ hb), fun h => (hr c (by simp)).2 (h ▸ hb)⟩
          · rcases List.mem_cons.1 hb with rfl | hb
            · decide
            · exact ihc hb (fun c' hc' => hr c' (by simp [hc']))
    have : tsvText (r :: rs) = [(9 : UInt8)].intercalate r ++ 10 :: tsvText rs := by
      simp [tsvText]
    rw [this]
    refine .lf (fun h => (hmem 10 h).1 rfl) ?_ hi
    intro h
    exact (hmem 13 (List.mem_of_getLast? h)).2 rfl

/-- **C04.** Write any table (rows of at least one cell, cells free of tab/CR/LF, lines under 64 KiB)
as TSV. If opening it succeeds, the client loop gets back exactly the table; and the only way it can
fail is being declined as "not in format". -/
theorem C04_tsv_roundtrip (iter : List (Nat × Nat) → List (Nat × Nat)) (fn : Bytes)
    (rows : List (List Bytes)) (hrow : ∀ r ∈ rows, r ≠ [])
    (hcell : ∀ r ∈ rows, ∀ c ∈ r, (9 : UInt8) ∉ c ∧ (10 : UInt8) ∉ c ∧ (13 : UInt8) ∉ c)
    (hlen : ∀ r ∈ rows, ([(9 : UInt8)].intercalate r).length < 65536) :
    (∃ src, openTSV iter fn (some (tsvText rows)) = .ok src ∧
      drain File.next File.strings (rows.length + 1) src = some (.ok rows)) ∨
    openTSV iter fn (some (tsvText rows)) = .err .notInFormat := by
  have hlines := linesOf_tsvText rows (fun r hr c hc => (hcell r hr c hc).2)
  have hnolong : ¬ HasLongLine (tsvText rows) := by
    rw [← longLine_iff]
    intro h
    obtain ⟨l, hl, hlong⟩ := List.any_eq_true.1 h
    have hraw : rawLines (tsvText rows) = rows.map ([(9 : UInt8)].intercalate ·) := by
      clear h hl hlen hrow hlong
      induction rows with
      | nil => rfl
      | cons r rs ih =>
        have h1 := linesOf_tsvText [r] (fun r' hr' c hc => (hcell r' (by simp at hr'; simp [hr']) c hc).2)
        have hno : (10 : UInt8) ∉ [(9 : UInt8)].intercalate r := by
          intro hin
          have : ∀ b ∈ [(9 : UInt8)].intercalate r, b ≠ 10 := by
            intro b hb
            have hr := hcell r (by simp)
            clear hcell ih h1 hin hlines
            induction r with
            | nil => simp [List.intercalate] at hb
            | cons c cs ihc =>
              cases cs with
              | nil =>
                simp only [List.intercalate, List.intersperse, List.flatten_cons, List.flatten_nil,
                  List.append_nil] at hb
                exact fun h => (hr c (by simp)).2.1 (h ▸ hb)
              | cons d ds =>
                have he : [(9 : UInt8)].intercalate (c :: d :: ds) =
                    c ++ 9 :: [(9 : UInt8)].intercalate (d :: ds) := by
                  simp [List.intercalate, List.intersperse]
                rw [he] at hb
                rcases List.mem_append.1 hb with hb | hb
                · exact fun h => (hr c (by simp)).2.1 (h ▸ hb)
                · rcases List.mem_cons.1 hb with rfl | hb
                  · decide
                  · exact ihc hb (fun c' hc' => hr c' (by simp [hc']))
          exact this 10 hin rfl
        have : tsvText (r :: rs) = [(9 : UInt8)].intercalate r ++ 10 :: tsvText rs := by
          simp [tsvText]
        rw [this, rawLines_append _ _ hno]
        simp only [List.map_cons]
        rw [ih (fun r' hr' => hcell r' (by simp [hr']))
          (linesOf_tsvText rs (fun r' hr' c hc => (hcell r' (by simp [hr']) c hc).2))]
    rw [hraw] at hl
    obtain ⟨r, hr, rfl⟩ := List.mem_map.1 hl
    have := hlen r hr
    have hlong' := of_decide_eq_true hlong
    simp only [maxTokenSize] at hlong'
    omega
  obtain ⟨lines, rows', hl', hf', hres⟩ := (C05_tsv_lossless iter fn (tsvText rows)).2 hnolong
  have hf : All2 FieldsOf (rows.map ([(9 : UInt8)].intercalate ·)) rows := by
    clear hlines hnolong hl' hf' hres hlen
    induction rows with
    | nil => exact .nil
    | cons r rs ih =>
      refine .cons ⟨hrow r (by simp), fun c hc => (hcell r (by simp) c hc).1, rfl⟩ ?_
      exact ih (fun r' hr' => hrow r' (by simp [hr'])) (fun r' hr' => hcell r' (by simp [hr']))
  obtain ⟨_, rfl⟩ := C05_rows_unique hlines hl' hf hf'
  rcases hres with h | h
  · left
    exact ⟨_, h, C08_drain ⟨fn, rows, -1⟩ rfl⟩
  · right; exact h

/-- Non-vacuity of C04: a 2×2 table with an empty cell is accepted and read back. -/
example : ∃ src, openTSV id [] (some (tsvText [[[97], []], [[98], [99]]])) = .ok src ∧
    drain File.next File.strings 3 src = some (.ok [[[97], []], [[98], [99]]]) := by
  have h := C04_tsv_roundtrip id [] [[[97], []], [[98], [99]]] (by decide) (by decide) (by decide)
  rcases h with h | h
  · exact h
  · exfalso
    simp [openTSV, scanLines, tsvText, List.intercalate, List.intersperse, rawLines, dropCR,
      splitByte, colCounts, bump, detect, detectStep, maxTokenSize] at h

/-! ### C06: detection does not depend on map order -/

/-- **C06 (order).** Any two iteration orders of the column-count map give the same outcome. -/
theorem C06_order_independent (i1 i2 : List (Nat × Nat) → List (Nat × Nat))
    (h1 : ∀ m, (i1 m).Perm m) (h2 : ∀ m, (i2 m).Perm m) (fn : Bytes) (file : Option Bytes) :
    openTSV i1 fn file = openTSV i2 fn file := by
  have hd : ∀ total m, (detect total (i1 m) = 1) ↔ (detect total (i2 m) = 1) := by
    intro total m
    rw [detect_eq_one_iff, detect_eq_one_iff]
    simp only [(h1 m).mem_iff, (h2 m).mem_iff]
  cases file with
  | none => rfl
  | some content =>
    simp only [openTSV]
    cases scanLines content with
    | ok lines => simp [hd]
    | err e => rfl
    | panic => rfl

/-! ### C07: CSV -/

/-- **C07 is false of the code.** No CSV file can be opened: whatever records the reader produces and
however it ends, `OpenCSV` returns an error — even for a file parsed to the end (`.eof`). -/
theorem C07_csv_never_opens (iter : List (Nat × Nat) → List (Nat × Nat)) (fn : Bytes)
    (file : Option (List (List Bytes) × CsvEnd)) : ∃ e, openCSV iter fn file = .err e := by
  match file with
  | none => exact ⟨_, rfl⟩
  | some (rows, .parseError) => exact ⟨_, rfl⟩
  | some (rows, .eof) => simp only [openCSV]; split <;> exact ⟨_, rfl⟩
  | some (rows, .other s) => simp only [openCSV]; split <;> exact ⟨_, rfl⟩

/-- Counter-example to C07: 12 identical two-column records, fully parsed, are refused with `io.EOF`
— a decisive error that also stops `grate.Open`. -/
theorem C07_counterexample (iter : List (Nat × Nat) → List (Nat × Nat)) (fn : Bytes) :
    openCSV iter fn (some (List.replicate 12 [lit "a", lit "b"], .eof)) = .err .eof ∧
    GoErr.eof.isNotInFormat = false := by
  refine ⟨by simp [openCSV, CsvEnd.toErr], by simp [GoErr.isNotInFormat, GoErr.unwrap]⟩

/-- **C07 (partial: what does hold).** A file that is not CSV (parse error) is declined, so that
other formats are tried, and so is every file with fewer than ten records. Missing: that parseable
files open, which is false (`C07_csv_never_opens`). -/
theorem C07_csv_declines_partial (iter : List (Nat × Nat) → List (Nat × Nat)) (fn : Bytes)
    (rows : List (List Bytes)) (fin : CsvEnd) (h : fin = .parseError ∨ rows.length < 10) :
    ∃ e, openCSV iter fn (some (rows, fin)) = .err e ∧ e.isNotInFormat = true := by
  have hw : ∀ x : GoErr, (wrapErr [x, .notInFormat]).isNotInFormat = true := by
    intro x; simp [wrapErr, GoErr.isNotInFormat, GoErr.unwrap]
  cases fin with
  | parseError => exact ⟨_, rfl, hw _⟩
  | eof =>
    have : rows.length < 10 := by rcases h with h | h <;> simp_all
    exact ⟨_, by simp [openCSV, this]; rfl, hw _⟩
  | other s =>
    have : rows.length < 10 := by rcases h with h | h <;> simp_all
    exact ⟨_, by simp [openCSV, this]; rfl, hw _⟩

/-! ### C09: Scan -/

/-- Scan before `Next`, or after the end, panics; it never silently reads another row. -/
theorem C09_scan_position (pf : Bytes → Float × Option NumErr) (f : File) (args : List Dest)
    (h : f.iterRow < 0 ∨ (f.rows.length : Int) ≤ f.iterRow) : f.scan pf args = .panic := by
  have : f.row = .panic := by
    unfold File.row
    rcases h with h | h
    · rw [if_neg (by omega)]
    · split
      · rw [List.getElem?_eq_none (by omega)]
      · rfl
  simp [File.scan, this]

/-- **C09 (width mismatch).** A wrong number of destinations is an error and writes nothing. -/
theorem C09_scan_width (pf : Bytes → Float × Option NumErr) (f : File) (args : List Dest)
    (row : List Bytes) (hrow : f.row = .ok row) (hne : args.length ≠ row.length) :
    ∃ e, f.scan pf args = .ok (args, some e) := by
  refine ⟨.msg "grate/simple: wrong number of Scan destinations", ?_⟩
  simp only [File.scan, hrow, GoRes.ok_bind]
  rw [if_pos (fun h => hne h.symm)]
  rfl

/-- Equality of a cell with a lower-case word up to ASCII case. -/
def EqFold (c w : Bytes) : Prop :=
  All2 (fun a b : UInt8 => a = b ∨ (65 ≤ a.toNat ∧ a.toNat ≤ 90 ∧ b.toNat = a.toNat + 32)) c w

/-- What the documentation promises for one destination: its new contents, when the conversion of the
cell succeeds. -/
inductive Converts (pf : Bytes → Float × Option NumErr) : Bytes → Dest → Dest → Prop
  | str (c v) : Converts pf c (.str v) (.str c)
  | int (c v n) : DecValue c n → -(2 ^ 63 : Int) ≤ n → n < (2 ^ 63 : Int) →
      Converts pf c (.int v) (.int n)
  | float (c v x) : pf c = (x, none) → Converts pf c (.float v) (.float x)
  | bool (c v b) : (b = true ↔ EqFold c (lit "1") ∨ EqFold c (lit "t") ∨ EqFold c (lit "true") ∨
      EqFold c (lit "y") ∨ EqFold c (lit "yes")) → Converts pf c (.bool v) (.bool b)

theorem toLower_eq_iff (c w : Bytes) (hw : ∀ b ∈ w, ¬ (65 ≤ b.toNat ∧ b.toNat ≤ 90)) :
    toLower c = w ↔ EqFold c w := by
  induction c generalizing w with
  | nil =>
    cases w with
    | nil => exact ⟨fun _ => .nil, fun _ => rfl⟩
    | cons b bs => exact ⟨fun h => by simp [toLower] at h, fun h => by cases h⟩
  | cons a as ih =>
    cases w with
    | nil => exact ⟨fun h => by simp [toLower] at h, fun h => by cases h⟩
    | cons b bs =>
      have hb := hw b (by simp)
      have ih' := ih bs (fun x hx => hw x (by simp [hx]))
      have hhead : (if 65 ≤ a && a ≤ 90 then a + 32 else a) = b ↔
          (a = b ∨ (65 ≤ a.toNat ∧ a.toNat ≤ 90 ∧ b.toNat = a.toNat + 32)) := by
        have hc : (65 ≤ a && a ≤ 90) = true ↔ 65 ≤ a.toNat ∧ a.toNat ≤ 90 := by
          simp only [Bool.and_eq_true, decide_eq_true_eq]; exact Iff.rfl
        by_cases h : 65 ≤ a.toNat ∧ a.toNat ≤ 90
        · rw [if_pos (hc.2 h)]
          have ht : (a + 32).toNat = a.toNat + 32 := by
            rw [UInt8.toNat_add]; simp; omega
          constructor
          · rintro rfl; right; exact ⟨h.1, h.2, ht⟩
          · rintro (rfl | ⟨_, _, h3⟩)
            · exact absurd h hb
            · exact UInt8.toNat_inj.1 (by omega)
        · rw [if_neg (fun h' => h (hc.1 h'))]
          constructor
          · exact fun h => Or.inl h
          · rintro (h' | ⟨h1, h2, _⟩)
            · exact h'
            · exact absurd ⟨h1, h2⟩ h
      constructor
      · intro h
        simp only [toLower, List.map_cons, List.cons.injEq] at h
        exact .cons (hhead.1 h.1) (ih'.1 h.2)
      · intro h
        cases h with
        | cons h1 h2 =>
          simp only [toLower, List.map_cons, List.cons.injEq]
          exact ⟨hhead.2 h1, ih'.2 h2⟩

theorem truthy_iff (c : Bytes) : truthy c = true ↔
    EqFold c (lit "1") ∨ EqFold c (lit "t") ∨ EqFold c (lit "true") ∨
      EqFold c (lit "y") ∨ EqFold c (lit "yes") := by
  rw [← toLower_eq_iff c (lit "1") (by decide), ← toLower_eq_iff c (lit "t") (by decide),
    ← toLower_eq_iff c (lit "true") (by decide), ← toLower_eq_iff c (lit "y") (by decide),
    ← toLower_eq_iff c (lit "yes") (by decide)]
  simp [truthy]

theorem scanOne_iff (pf : Bytes → Float × Option NumErr) (c : Bytes) (d d' : Dest) :
    scanOne pf c d = (d', none) ↔ Converts pf c d d' := by
  constructor
  · intro h
    cases d with
    | bool v =>
      simp [scanOne] at h; subst h
      exact .bool _ _ _ (truthy_iff c)
    | int v =>
      simp only [scanOne, Prod.mk.injEq, Option.map_eq_none_iff] at h
      obtain ⟨h1, h2⟩ := h
      subst h1
      have := (parseInt_ok_iff 64 (by omega) c (parseInt 64 c).1).1 (by rw [← h2])
      exact .int _ _ _ this.1 this.2.1 this.2.2
    | float v =>
      simp only [scanOne, Prod.mk.injEq, Option.map_eq_none_iff] at h
      obtain ⟨h1, h2⟩ := h
      subst h1
      exact .float _ _ _ (by rw [← h2])
    | str v => simp [scanOne] at h; subst h; exact .str _ _
    | time => simp [scanOne] at h
    | other => simp [scanOne] at h
  · intro h
    cases h with
    | str => rfl
    | int v n hd h1 h2 =>
      have := (parseInt_ok_iff 64 (by omega) c n).2 ⟨hd, h1, h2⟩
      simp [scanOne, this]
    | float v x hx => simp [scanOne, hx]
    | bool v b hb =>
      simp only [scanOne, Prod.mk.injEq, Dest.bool.injEq, and_true]
      rw [Bool.eq_iff_iff, hb]
      exact truthy_iff c

/-- **C09 (filling).** With the right number of destinations, either every destination receives the
conversion of its own column, or there is a first column whose conversion fails: all destinations
before it were filled from their own columns, all later ones are untouched, and an error is
reported. -/
theorem C09_scan_fill (pf : Bytes → Float × Option NumErr) (f : File) (args : List Dest)
    (row : List Bytes) (hrow : f.row = .ok row) (hlen : args.length = row.length) :
    ∃ out err, f.scan pf args = .ok (out, err) ∧ out.length = args.length ∧
      ((err = none ∧ ∀ (i : Nat) c d d', row[i]? = some c → args[i]? = some d → out[i]? = some d' →
          Converts pf c d d') ∨
       (∃ e k, err = some e ∧ k < args.length ∧
          (∀ (i : Nat) c d d', i < k → row[i]? = some c → args[i]? = some d → out[i]? = some d' →
            Converts pf c d d') ∧
          (∀ c d, row[k]? = some c → args[k]? = some d → ¬ ∃ d', Converts pf c d d') ∧
          (∀ i : Nat, k < i → out[i]? = args[i]?))) := by
  have key : ∀ (row : List Bytes) (args : List Dest), args.length = row.length →
      (scanLoop pf (row.zip args)).1.length = args.length ∧
      (((scanLoop pf (row.zip args)).2 = none ∧
          ∀ (i : Nat) c d d', row[i]? = some c → args[i]? = some d →
            (scanLoop pf (row.zip args)).1[i]? = some d' → Converts pf c d d') ∨
       (∃ e k, (scanLoop pf (row.zip args)).2 = some e ∧ k < args.length ∧
          (∀ (i : Nat) c d d', i < k → row[i]? = some c → args[i]? = some d →
            (scanLoop pf (row.zip args)).1[i]? = some d' → Converts pf c d d') ∧
          (∀ c d, row[k]? = some c → args[k]? = some d → ¬ ∃ d', Converts pf c d d') ∧
          (∀ i : Nat, k < i → (scanLoop pf (row.zip args)).1[i]? = args[i]?))) := by
    intro row
    induction row with
    | nil =>
      intro args h
      have : args = [] := by simpa using h
      subst this
      simp [scanLoop]
    | cons c cs ih =>
      intro args h
      cases args with
      | nil => simp at h
      | cons d ds =>
        have hl : ds.length = cs.length := by simpa using h
        obtain ⟨ihl, ihc⟩ := ih ds hl
        simp only [List.zip_cons_cons, scanLoop]
        cases hs : scanOne pf c d with
        | mk d1 e1 =>
          cases e1 with
          | none =>
            have hconv := (scanOne_iff pf c d d1).1 hs
            refine ⟨by simpa using ihl, ?_⟩
            rcases ihc with ⟨hn, hall⟩ | ⟨e, k, he, hk, hbef, hat, haft⟩
            · left
              refine ⟨hn, ?_⟩
              intro i c' d' d'' h1 h2 h3
              cases i with
              | zero => simp at h1 h2 h3; subst h1 h2 h3; exact hconv
              | succ i => exact hall i c' d' d'' (by simpa using h1) (by simpa using h2) (by simpa using h3)
            · right
              refine ⟨e, k + 1, he, by simpa using hk, ?_, ?_, ?_⟩
              · intro i c' d' d'' hi h1 h2 h3
                cases i with
                | zero => simp at h1 h2 h3; subst h1 h2 h3; exact hconv
                | succ i =>
                  exact hbef i c' d' d'' (by omega) (by simpa using h1) (by simpa using h2)
                    (by simpa using h3)
              · intro c' d' h1 h2
                exact hat c' d' (by simpa using h1) (by simpa using h2)
              · intro i hi
                cases i with
                | zero => omega
                | succ i => simpa using haft i (by omega)
          | some e =>
            have hzip : (cs.zip ds).map (·.2) = ds := by
              rw [← List.unzip_snd, List.unzip_zip_right (by omega)]
            refine ⟨by simp [hl], ?_⟩
            right
            refine ⟨e, 0, rfl, by simp, ?_, ?_, ?_⟩
            · intro i _ _ _ hi; omega
            · intro c' d' h1 h2
              simp at h1 h2; subst h1 h2
              rintro ⟨d', hd'⟩
              rw [(scanOne_iff pf c d d').2 hd'] at hs
              simp at hs
            · intro i hi
              cases i with
              | zero => omega
              | succ i => simp [hzip]
  obtain ⟨h1, h2⟩ := key row args hlen
  refine ⟨_, _, ?_, h1, h2⟩
  simp only [File.scan, hrow, GoRes.ok_bind]
  rw [if_neg (by omega)]
  rfl

/-- Non-vacuity: a row scanned into int/string/bool destinations, and one that fails at column 1. -/
example : File.scan (fun _ => (0, none)) ⟨[], [[lit "-42", lit "x", lit "Yes"]], 0⟩
    [.int 0, .str [], .bool false] = .ok ([.int (-42), .str (lit "x"), .bool true], none) := by
  have h1 : parseInt 64 (lit "-42") = (-42, none) := by decide
  have h2 : truthy (lit "Yes") = true := by decide
  simp [File.scan, File.row, scanLoop, scanOne, h1, h2]

end Grate.Props
