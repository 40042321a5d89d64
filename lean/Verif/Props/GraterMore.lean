import Verif.Props.Grater

/-! # C82, continued: the flag `-v`, sheets that cannot be read; C83: a witness -/

namespace Grate.Props

open Grate Grate.Spec Grate.Api Grate.Grater

/-- The names of the types, and the empty text beyond the cells of a row. -/
def typeWords : List Bytes :=
  [[], lit "blank", lit "integer", lit "float", lit "boolean", lit "date", lit "hyperlink", lit "static", lit "string"]

/-- `b` is `a` with a line before every line of a row: as many words as the row has texts, separated by tabs. -/
inductive Verbose : List Event → List Event → Prop
  | nil : Verbose [] []
  | err (e : GoErr) (a b : List Event) : Verbose a b → Verbose (.err e :: a) (.err e :: b)
  | row (types row : List Bytes) (a b : List Event) : types.length = row.length → (∀ t ∈ types, t ∈ typeWords) →
      Verbose a b →
      Verbose (.out ([(9 : UInt8)].intercalate row ++ [10]) :: a)
        (.out ([(9 : UInt8)].intercalate types ++ [10]) :: .out ([(9 : UInt8)].intercalate row ++ [10]) :: b)

theorem Verbose.append {a b c d : List Event} (h : Verbose a b) (h2 : Verbose c d) : Verbose (a ++ c) (b ++ d) := by
  induction h with
  | nil => exact h2
  | err e a b _ ih => exact .err e _ _ ih
  | row t r a b h1 h3 _ ih => exact .row t r _ _ h1 h3 ih

theorem Verbose.stderr {a b : List Event} (h : Verbose a b) : Props.stderr b = Props.stderr a := by
  induction h with
  | nil => rfl
  | err e a b _ ih => simp [Props.stderr, ih]
  | row t r a b h1 h3 _ ih => simp [Props.stderr, ih]

theorem println_eq (r : List Bytes) : println r = .out ([(9 : UInt8)].intercalate r ++ [10]) := by
  rw [println, join_eq]

theorem seqRes_length {α : Type} : ∀ (l : List (GoRes α)) (xs : List α), seqRes l = .ok xs → xs.length = l.length := by
  intro l
  induction l with
  | nil => intro xs h; cases h; rfl
  | cons x l ih =>
    intro xs h
    unfold seqRes at h
    rw [GoRes.bind_eq_ok] at h
    obtain ⟨a, _, h⟩ := h
    rw [GoRes.bind_eq_ok] at h
    obtain ⟨as, has, h⟩ := h
    cases h
    simp [ih as has]

theorem types_of_strings (ext : Ext) (c : Coll) (row : List Bytes) (h : c.strings ext = .ok row) :
    ∃ ts, c.types = .ok ts ∧ ts.length = row.length ∧ ∀ t ∈ ts, t ∈ typeWords := by
  cases c with
  | noSheet => cases h
  | text f =>
    have h : f.row = .ok row := h
    refine ⟨_, by show Simple.File.types f = _; unfold Simple.File.types; rw [h]; rfl, by simp, ?_⟩
    intro t ht
    obtain ⟨v, _, rfl⟩ := List.mem_map.1 ht
    split <;> simp [typeWords]
  | sheet s =>
    have h : s.strings ext = .ok row := h
    unfold Sheet.strings at h
    rw [GoRes.bind_eq_ok] at h
    obtain ⟨r, hr, h⟩ := h
    rw [GoRes.bind_eq_ok] at h
    obtain ⟨cells, hc, h⟩ := h
    have hl := seqRes_length _ _ hc
    rw [List.length_map] at hl
    unfold fillRow at h
    split at h
    · rename_i hk
      cases h
      refine ⟨r.map (fun c => c.type.name) ++ List.replicate (s.numCols.toNat - r.length) [], ?_, ?_, ?_⟩
      · show Sheet.types s = _
        unfold Sheet.types
        rw [hr]
        show fillRow s.numCols [] (r.map (fun c => c.type.name)) = _
        unfold fillRow
        rw [if_pos (by rw [List.length_map, ← hl]; exact hk), List.length_map]
      · simp [hl]
      · intro t ht
        rcases List.mem_append.1 ht with ht | ht
        · obtain ⟨c, _, rfl⟩ := List.mem_map.1 ht
          cases c.type <;> simp [CellType.name, typeWords]
        · rw [(List.mem_replicate.1 ht).2]
          simp [typeWords]
    · cases h

theorem andThen_ok {α β : Type} {x : Option (GoRes α)} {f : α → Option (GoRes β)} {b : β}
    (h : andThen x f = some (.ok b)) : ∃ a, x = some (.ok a) ∧ f a = some (.ok b) := by
  rcases x with _ | (a | _ | _)
  · cases h
  · exact ⟨a, rfl, h⟩
  · cases h
  · cases h

theorem rowLoop_verbose (ext : Ext) : ∀ (fuel : Nat) (c c' : Coll) (ev : List Event),
    rowLoop ext false fuel c = some (.ok (c', ev)) →
    ∃ ev', rowLoop ext true fuel c = some (.ok (c', ev')) ∧ Verbose ev ev' := by
  intro fuel
  induction fuel with
  | zero => intro c c' ev h; cases h
  | succ fuel ih =>
    intro c c' ev h
    rw [rowLoop] at h
    obtain ⟨⟨c1, more⟩, h1, h⟩ := andThen_ok h
    cases more with
    | false =>
      simp only [Bool.false_eq_true, if_false] at h
      cases h
      refine ⟨[], ?_, .nil⟩
      rw [rowLoop, h1]
      rfl
    | true =>
      simp only [Bool.false_eq_true, if_false, if_true, andThen] at h
      obtain ⟨row, h2, h⟩ := andThen_ok (x := some (c1.strings ext)) h
      obtain ⟨⟨c2, evs⟩, h3, h⟩ := andThen_ok h
      simp only [List.nil_append] at h
      cases h
      obtain ⟨ev', h4, h5⟩ := ih _ _ _ h3
      obtain ⟨ts, ht, hl, hw⟩ := types_of_strings ext c1 row (Option.some.inj h2)
      refine ⟨[println ts] ++ println row :: ev', ?_, ?_⟩
      · rw [rowLoop, h1]
        simp only [andThen, if_true, ht, Option.some.inj h2, h4]
        rfl
      · rw [println_eq, println_eq]
        exact .row _ _ _ _ hl hw h5

theorem sheetLoop_verbose (ext : Ext) (fuel : Nat) : ∀ (ns : List Bytes) (src : Source) (ev : List Event),
    sheetLoop ext false fuel src ns = some (.ok ev) →
    ∃ ev', sheetLoop ext true fuel src ns = some (.ok ev') ∧ Verbose ev ev' := by
  intro ns
  induction ns with
  | nil => intro src ev h; cases h; exact ⟨[], rfl, .nil⟩
  | cons n ns ih =>
    intro src ev h
    rw [sheetLoop] at h
    obtain ⟨⟨src', r⟩, h1, h⟩ := andThen_ok h
    cases r with
    | error e =>
      simp only at h
      obtain ⟨evs, h2, h⟩ := andThen_ok h
      cases h
      obtain ⟨ev', h3, h4⟩ := ih _ _ h2
      refine ⟨.err e :: ev', ?_, .err _ _ _ h4⟩
      rw [sheetLoop, h1]
      simp only [andThen, h3]
    | ok c =>
      simp only at h
      obtain ⟨⟨c', ev0⟩, h2, h⟩ := andThen_ok h
      simp only at h
      obtain ⟨evs, h3, h⟩ := andThen_ok h
      cases h
      obtain ⟨ev1, h4, h5⟩ := rowLoop_verbose ext fuel c c' ev0 h2
      obtain ⟨ev', h6, h7⟩ := ih _ _ h3
      refine ⟨ev1 ++ ev', ?_, h5.append h7⟩
      rw [sheetLoop, h1]
      simp only [andThen, h4, h6]

/-- C82, with `-v`. Whatever the files are: if the command ends, it also ends with `-v`; then it writes the same, with a
line of as many type names before the line of each row, and the same errors. -/
theorem C82_verbose (ext : Ext) (fuel : Nat) (t : List (Grate.Entry Source)) : ∀ (fns : List Bytes) (ev : List Event),
    main ext false fuel t fns = some (.ok ev) →
    ∃ ev', main ext true fuel t fns = some (.ok ev') ∧ Verbose ev ev' ∧ stderr ev' = stderr ev := by
  have key : ∀ (fns : List Bytes) (ev : List Event), main ext false fuel t fns = some (.ok ev) →
      ∃ ev', main ext true fuel t fns = some (.ok ev') ∧ Verbose ev ev' := by
    intro fns
    induction fns with
    | nil => intro ev h; cases h; exact ⟨[], rfl, .nil⟩
    | cons fn fns ih =>
      intro ev h
      rw [main] at h
      rw [main]
      cases ho : openSrc t fn with
      | panic => rw [ho] at h; cases h
      | err e =>
        rw [ho] at h
        simp only at h ⊢
        obtain ⟨evs, h2, h⟩ := andThen_ok h
        cases h
        obtain ⟨ev', h3, h4⟩ := ih _ h2
        exact ⟨.err e :: ev', by rw [h3]; rfl, .err _ _ _ h4⟩
      | ok src =>
        rw [ho] at h
        simp only at h ⊢
        obtain ⟨ev0, h2, h⟩ := andThen_ok h
        obtain ⟨evs, h3, h⟩ := andThen_ok h
        cases h
        obtain ⟨ev1, h4, h5⟩ := sheetLoop_verbose ext fuel _ _ _ h2
        obtain ⟨ev', h6, h7⟩ := ih _ h3
        exact ⟨ev1 ++ ev', by rw [h4]; simp only [andThen, h6], h5.append h7⟩
  intro fns ev h
  obtain ⟨ev', h1, h2⟩ := key fns ev h
  exact ⟨ev', h1, h2, h2.stderr⟩

/-- What the command finds under the names of the sheets: an error, or the rows. -/
def Found (ext : Ext) (b : Xls.Book) (fuel : Nat) (n : Bytes) : Except GoErr (List (List Bytes)) → Prop
  | .error e => b.get ext n = .err e
  | .ok rows => ∃ s k, b.get ext n = .ok (some s) ∧ k ≤ fuel ∧ drain Sheet.next (Sheet.strings ext) k s = some (.ok rows)

/-- The rows of those that could be read. -/
def goodRows : List (Except GoErr (List (List Bytes))) → List (List Bytes)
  | [] => []
  | .error _ :: l => goodRows l
  | .ok rows :: l => rows ++ goodRows l

/-- The errors of the others. -/
def badErrors : List (Except GoErr (List (List Bytes))) → List GoErr
  | [] => []
  | .error e :: l => e :: badErrors l
  | .ok _ :: l => badErrors l

/-- C82. A sheet of an xls workbook that cannot be read gives one error and does not stop the others. -/
theorem C82_sheets (ext : Ext) (b : Xls.Book) (fuel : Nat) (fn : Bytes) (t : List (Grate.Entry Source))
    (ho : openSrc t fn = .ok (.xls b)) (found : List (Except GoErr (List (List Bytes))))
    (hf : All2 (Found ext b fuel) b.list found) :
    ∃ ev, main ext false fuel t [fn] = some (.ok ev) ∧ stdout ev = tsvText (goodRows found) ∧
      stderr ev = badErrors found := by
  have key : ∀ (ns : List Bytes) (found : List (Except GoErr (List (List Bytes)))), All2 (Found ext b fuel) ns found →
      ∃ ev, sheetLoop ext false fuel (.xls b) ns = some (.ok ev) ∧ stdout ev = tsvText (goodRows found) ∧
        stderr ev = badErrors found := by
    intro ns found h
    induction h with
    | nil => exact ⟨[], rfl, rfl, rfl⟩
    | @cons n x ns found hx _ ih =>
      obtain ⟨ev, h1, h2, h3⟩ := ih
      cases x with
      | error e =>
        have hx : b.get ext n = .err e := hx
        refine ⟨.err e :: ev, ?_, h2, ?_⟩
        · simp only [sheetLoop, Source.get, hx, andThen, h1]
        · simp only [stderr, badErrors, h3]
      | ok rows =>
        obtain ⟨s, k, hg, hk, hd⟩ := hx
        obtain ⟨s', hs⟩ := rows_sheet ext k s rows hd
        refine ⟨rows.map println ++ ev, ?_, ?_, ?_⟩
        · simp only [sheetLoop, Source.get, hg, andThen, hs fuel hk, Source.used, h1]
        · rw [stdout_append, (println_out rows).1, h2]
          simp [tsvText, goodRows]
        · rw [stderr_append, (println_out rows).2, h3]
          rfl
  obtain ⟨ev, h1, h2, h3⟩ := key _ _ hf
  refine ⟨ev ++ [], ?_, by rw [List.append_nil, h2], by rw [List.append_nil, h3]⟩
  simp only [main, ho, Source.list, h1, andThen]

/-- A workbook of two sheets. The first has a text with an index beyond the string table, the second declares two rows
and two columns. -/
def badBook : Xls.Book where
  sheets := [⟨0, 0, 0, lit "A"⟩, ⟨40, 0, 0, lit "B"⟩]
  dateMode := 0
  strings := []
  subs := [[⟨0x809, 0, ⟨[], []⟩⟩, ⟨253, 10, ⟨[0, 0, 0, 0, 0, 0, 7, 0, 0, 0], []⟩⟩, ⟨0x0A, 0, ⟨[], []⟩⟩],
    [⟨0x809, 0, ⟨[], []⟩⟩, ⟨512, 14, ⟨[0, 0, 0, 0, 2, 0, 0, 0, 0, 0, 2, 0, 0, 0], []⟩⟩, ⟨0x0A, 0, ⟨[], []⟩⟩]]
  pos2 := [(0, 0), (40, 1)]
  nfmt := Formatter.new
  xfs := [0]

/-- C82: a workbook with a sheet that cannot be read and one that can. -/
theorem C82_sheets_witness (ext : Ext) : badBook.list = [lit "A", lit "B"] ∧
    All2 (Found ext badBook 5) badBook.list
      [.error (.msg "xls: invalid sst index"), .ok [[[], []], [[], []], [[], []]]] := by
  have hl : badBook.list = [lit "A", lit "B"] := by decide +kernel
  refine ⟨hl, ?_⟩
  rw [hl]
  exact .cons rfl (.cons ⟨_, 5, rfl, Nat.le_refl _, rfl⟩ .nil)

/-- C83: the error of a missing file is not one of a file of another format. -/
theorem C83_witness (text : String) : ¬ Recognised (.msg text) := by
  intro h
  cases h

end Grate.Props
