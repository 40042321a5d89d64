import Verif.Spec.ScanTypes
import Verif.Props.Sheet
import Verif.Props.Simple

/-! # C139: rows of all kinds of sources can be scanned by their `Types` -/

namespace Grate.Props

open Grate Spec

namespace ScanTypes

/-- A variable by type and a value of the type. -/
theorem scanCell_named {t : CellType} {v : Val} {d : SDest} (h : VarOf t.name d) (hn : Named t v) :
    ∃ d', scanCell v d = (d', none) ∧ HoldsVal v d' := by
  generalize hx : t.name = x at h
  cases h <;> cases t <;> first
    | exact absurd hx (by decide +kernel)
    | (cases v <;> first | exact absurd hn id | exact ⟨_, rfl, by constructor⟩)

/-- A variable by type and a value of another kind. -/
theorem scanCell_unnamed {t : CellType} {v : Val} {d : SDest} (h : VarOf t.name d) (hn : ¬ Named t v) :
    ∃ e, scanCell v d = (d, some e) := by
  generalize hx : t.name = x at h
  cases h <;> cases t <;> first
    | exact absurd hx (by decide +kernel)
    | (cases v <;> first | exact absurd trivial hn | exact ⟨_, rfl⟩)

theorem scanRow_named : ∀ {row : List Cell} {args : List SDest}, All2 (fun c d => VarOf c.type.name d) row args →
    (∀ c ∈ row, Named c.type c.value) → ∃ out, scanRow row args = .ok (out, none) ∧ All2 (fun c d => HoldsVal c.value d) row out
  | _, _, .nil, _ => ⟨[], rfl, .nil⟩
  | _, _, .cons (a := c) (b := d) h hs, hn => by
    obtain ⟨d', h1, h2⟩ := scanCell_named h (hn c List.mem_cons_self)
    obtain ⟨out, h3, h4⟩ := scanRow_named hs (fun c hc => hn c (List.mem_cons_of_mem _ hc))
    refine ⟨d' :: out, ?_, .cons h2 h4⟩
    simp only [scanRow, h1, h3]
    rfl

theorem scanRow_unnamed : ∀ {row : List Cell} {args : List SDest}, All2 (fun c d => VarOf c.type.name d) row args →
    (∃ c ∈ row, ¬ Named c.type c.value) → ∃ out e, scanRow row args = .ok (out, some e)
  | _, _, .nil, ⟨_, hc, _⟩ => absurd hc (by simp)
  | _, _, .cons (a := c) (b := d) (as := cs) (bs := ds) h hs, hn => by
    by_cases h0 : Named c.type c.value
    · obtain ⟨d', h1, _⟩ := scanCell_named h h0
      obtain ⟨x, hx, hxn⟩ := hn
      rcases List.mem_cons.1 hx with rfl | hx
      · exact absurd h0 hxn
      · obtain ⟨out, e, h3⟩ := scanRow_unnamed hs ⟨x, hx, hxn⟩
        refine ⟨d' :: out, e, ?_⟩
        simp only [scanRow, h1, h3]
        rfl
    · obtain ⟨e, he⟩ := scanCell_unnamed h h0
      exact ⟨d :: ds, e, by simp only [scanRow, he]⟩

theorem all2_len {α β : Type} {R : α → β → Prop} {l : List α} {m : List β} (h : All2 R l m) : l.length = m.length := by
  induction h with
  | nil => rfl
  | cons _ _ ih => simp [ih]

theorem no_padding (k : Nat) : ∀ {row : List Cell} {args : List SDest},
    All2 VarOf (row.map (fun c => c.type.name) ++ List.replicate k []) args → All2 (fun c d => VarOf c.type.name d) row args
  | [], args, h => by
    cases k with
    | zero => cases h; exact .nil
    | succ n =>
      rw [List.map_nil, List.nil_append, List.replicate_succ] at h
      cases h with
      | cons h _ =>
        generalize hx : ([] : Bytes) = x at h
        cases h <;> exact absurd hx (by decide +kernel)
  | c :: cs, _, .cons h hs => .cons h (no_padding k hs)

theorem types_row {s : Sheet} {names : List Bytes} {args : List SDest} (ht : s.types = .ok names) (ha : All2 VarOf names args) :
    ∃ row, s.row = .ok row ∧ All2 (fun c d => VarOf c.type.name d) row args := by
  unfold Sheet.types at ht
  rw [GoRes.bind_eq_ok] at ht
  obtain ⟨row, h1, h2⟩ := ht
  unfold fillRow at h2
  split at h2
  · cases h2
    exact ⟨row, h1, no_padding _ ha⟩
  · cases h2

end ScanTypes

open ScanTypes

/-- **C139, texts.** Every row of a text source can be scanned into the variables that its `Types` name, and they hold its texts. -/
theorem C139_text (pf : Bytes → Float × Option NumErr) (f : Simple.File) (names row : List Bytes) (ht : f.types = .ok names)
    (hr : f.row = .ok row) (args : List Simple.Dest) (ha : All2 TextVarOf names args) :
    f.scan pf args = .ok (row.map .str, none) := by
  unfold Simple.File.types at ht
  simp only [hr, GoRes.ok_bind] at ht
  cases ht
  have hl : row.length = args.length ∧ Simple.scanLoop pf (row.zip args) = (row.map .str, none) := by
    clear hr
    induction row generalizing args with
    | nil => cases ha; exact ⟨rfl, rfl⟩
    | cons c cs ih =>
      rw [List.map_cons] at ha
      cases ha with
      | cons h hs =>
        obtain ⟨a, b⟩ := ih _ hs
        refine ⟨by simp [a], ?_⟩
        rw [List.zip_cons_cons]
        unfold Simple.scanLoop
        generalize (if c = [] then lit "blank" else lit "string") = x at h
        cases h <;> simp only [Simple.scanOne, b] <;> rfl
  unfold Simple.File.scan
  simp only [hr, GoRes.ok_bind]
  rw [if_neg (fun h => h hl.1), hl.2]
  rfl

/-- **C139, sheets** (partial). The current row of a sheet can be scanned into the variables that its `Types` name exactly if its values
are of these kinds; then the variables hold the values. Missing: all other rows (`C139_blank_counterexample`, `C139_date_counterexample`). -/
theorem C139_sheet_partial (s : Sheet) (names : List Bytes) (ht : s.types = .ok names) (args : List SDest) (ha : All2 VarOf names args) :
    ∃ row, s.row = .ok row ∧ names = row.map (fun c : Cell => c.type.name) ∧
      ((∀ c ∈ row, Named c.type c.value) → ∃ out, s.scan args = .ok (out, none) ∧ All2 (fun c d => HoldsVal c.value d) row out) ∧
      ((∃ c ∈ row, ¬ Named c.type c.value) → ∃ out e, s.scan args = .ok (out, some e)) := by
  obtain ⟨row, h1, h2⟩ := types_row ht ha
  refine ⟨row, h1, ?_, fun hn => ?_, fun hn => ?_⟩
  · unfold Sheet.types at ht
    simp only [h1, GoRes.ok_bind] at ht
    unfold fillRow at ht
    split at ht
    · cases ht
      have e : (row.map (fun c : Cell => c.type.name) ++
          List.replicate (s.numCols.toNat - (row.map (fun c : Cell => c.type.name)).length) []).length = row.length :=
        (all2_len ha).trans (all2_len h2).symm
      rw [List.length_append, List.length_map, List.length_replicate] at e
      rw [List.length_map, show s.numCols.toNat - row.length = 0 by omega]
      simp
    · cases ht
  · obtain ⟨out, h3, h4⟩ := scanRow_named h2 hn
    refine ⟨out, ?_, h4⟩
    unfold Sheet.scan
    simp only [h1, GoRes.ok_bind, h3]
  · obtain ⟨out, e, h3⟩ := scanRow_unnamed h2 hn
    refine ⟨out, e, ?_⟩
    unfold Sheet.scan
    simp only [h1, GoRes.ok_bind, h3]

/-- C139 is false for cells with the empty text: `Types` says blank, which is a string type, and no string variable can be filled; a cell
that was never written is blank too, and can be scanned. -/
theorem C139_blank_counterexample (ext : Ext) (f : Formatter) (d : Bytes) :
    ∃ c, Builds ext f (.str []) 0 c ∧
      (⟨f, 1, 1, [[c]], 1⟩ : Sheet).types = .ok [lit "blank"] ∧
      (∃ e, (⟨f, 1, 1, [[c]], 1⟩ : Sheet).scan [.str d] = .ok ([.str d], some e)) ∧
      (⟨f, 1, 1, [[.empty]], 1⟩ : Sheet).types = .ok [lit "blank"] ∧
      (⟨f, 1, 1, [[.empty]], 1⟩ : Sheet).scan [.str d] = .ok ([.str []], none) := by
  refine ⟨.full .nil .blank none [], ?_, rfl, ⟨_, rfl⟩, rfl, rfl⟩
  rw [builds_iff]
  unfold putCell typedCell
  cases f.getCellType 0 <;> rfl

/-- C139 is false for texts in cells with date formats. -/
theorem C139_date_counterexample (ext : Ext) (f : Formatter) (d : Time) :
    ∃ c, Builds ext f (.str (lit "n/a")) 14 c ∧
      (⟨f, 1, 1, [[c]], 1⟩ : Sheet).types = .ok [lit "date"] ∧
      ∃ e, (⟨f, 1, 1, [[c]], 1⟩ : Sheet).scan [.time d] = .ok ([.time d], some e) := by
  obtain ⟨c, h1, h2, h3, _⟩ := C14_date_counterexample ext f
  refine ⟨c, h1, ?_, ?_⟩
  · cases c with
    | empty => cases h2
    | full v t n u => cases h2; rfl
  · cases c with
    | empty => cases h2
    | full v t n u => cases h2; cases h3; exact ⟨_, rfl⟩

/-- C139: the parts of merged cells have a type that the documentation does not have. -/
theorem C139_merged (ext : Ext) (f : Formatter) :
    ∃ c, Builds ext f (.str (lit "→")) 0 c ∧ (⟨f, 1, 1, [[c]], 1⟩ : Sheet).types = .ok [lit "static"] ∧ ∀ d, ¬ VarOf (lit "static") d := by
  refine ⟨.full (.str (lit "→")) .static none [], ?_, rfl, ?_⟩
  · rw [builds_iff]
    rfl
  · intro d h
    generalize hx : lit "static" = x at h
    cases h <;> exact absurd hx (by decide +kernel)

/-- C139: the same calls of `Scan` have different outcomes on a text and on a sheet with the same two cells: with one variable too few
(an error and success), with one too many (an error and a crash), and with an `*int64`, which the documentation names (`.other` is a
pointer that a text source does not know, `/repo/simple/simple.go:83-104`). -/
theorem C139_differ_counterexample (pf : Bytes → Float × Option NumErr) (f : Formatter) (c : Bytes) :
    (∃ e, (⟨lit "x", [[c, c]], 0⟩ : Simple.File).scan pf [.str []] = .ok ([.str []], some e)) ∧
    (⟨f, 1, 2, [[.full (.str c) .string none [], .full (.str c) .string none []]], 1⟩ : Sheet).scan [.str []] = .ok ([.str c], none) ∧
    (∃ e, (⟨lit "x", [[c, c]], 0⟩ : Simple.File).scan pf [.str [], .str [], .str []] = .ok ([.str [], .str [], .str []], some e)) ∧
    (⟨f, 1, 2, [[.full (.str c) .string none [], .full (.str c) .string none []]], 1⟩ : Sheet).scan [.str [], .str [], .str []] = .panic ∧
    (⟨lit "x", [[lit "5"]], 0⟩ : Simple.File).scan pf [.other] = .ok ([.other], some .invalidScanType) ∧
    (⟨f, 1, 1, [[.full (.int 5) .integer none []]], 1⟩ : Sheet).scan [.int64 0] = .ok ([.int64 5], none) :=
  ⟨⟨_, rfl⟩, rfl, ⟨_, rfl⟩, rfl, rfl, rfl⟩

/-- C139: a row with a number, a truth value, a text, a link and a cell that was never written. -/
theorem C139_witness (f : Formatter) :
    (⟨f, 1, 5, [[.full (.int 5) .integer none [], .full (.bool true) .boolean none [], .full (.str [65]) .string none [],
      .full (.str [66]) .hyperlink (some 0) [[67]], .empty]], 1⟩ : Sheet).types =
        .ok [lit "integer", lit "boolean", lit "string", lit "hyperlink", lit "blank"] ∧
    All2 VarOf [lit "integer", lit "boolean", lit "string", lit "hyperlink", lit "blank"]
      [.int64 0, .bool false, .str [], .str [], .str []] ∧
    (⟨f, 1, 5, [[.full (.int 5) .integer none [], .full (.bool true) .boolean none [], .full (.str [65]) .string none [],
      .full (.str [66]) .hyperlink (some 0) [[67]], .empty]], 1⟩ : Sheet).scan [.int64 0, .bool false, .str [], .str [], .str []] =
        .ok ([.int64 5, .bool true, .str [65], .str [66], .str []], none) :=
  ⟨rfl, .cons (.integer _) (.cons (.boolean _) (.cons (.string _) (.cons (.hyperlink _) (.cons (.blank _) .nil)))), rfl⟩

end Grate.Props
