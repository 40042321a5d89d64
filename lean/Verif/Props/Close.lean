import Verif.Model.Close
import Verif.Props.Open

/-! # Properties C102 (after Close), C103 (open files), C104 (slices returned) -/

namespace Grate.Props

open Grate Grate.Api

/-! ### C102 -/

/-- The names of all sheets of a source, hidden ones too. -/
def allNames : Source → List Bytes
  | .xls b => b.sheets.map (·.name)
  | .xlsx _ d => d.sheets.map (·.name)
  | .text f => f.list

/-- C102: exactly which calls of `Get` crash after `Close`: all those for a sheet of an xls workbook. -/
theorem C102_exact (ext : Ext) (src : Source) (n : Bytes) :
    src.close.get ext n = .panic ↔ ∃ b, src = .xls b ∧ n ∈ allNames src := by
  cases src with
  | xls b =>
    simp only [Source.close, Source.get, Xls.Book.get, Xls.Book.close]
    constructor
    · intro h
      refine ⟨b, rfl, ?_⟩
      cases hf : b.sheets.find? (fun s => s.name = n) with
      | none => rw [hf] at h; cases h
      | some s =>
        have h1 := List.mem_of_find?_eq_some hf
        have h2 := List.find?_some hf
        simp only [decide_eq_true_eq] at h2
        exact List.mem_map.2 ⟨s, h1, h2⟩
    · rintro ⟨b', hb, hn⟩
      cases hb
      obtain ⟨s, hs, hn⟩ := List.mem_map.1 hn
      cases hf : b.sheets.find? (fun s => s.name = n) with
      | none => exact absurd hn (by simpa using List.find?_eq_none.1 hf s hs)
      | some s => simp [Xls.parseSheet]
  | xlsx a d =>
    simp only [Source.close, Source.get, Xlsx.Doc.get, Xlsx.Doc.find, Xlsx.Doc.close, List.findIdx?_nil]
    constructor
    · intro h; cases h
    · rintro ⟨b, hb, _⟩; cases hb
  | text f =>
    constructor
    · intro h; cases h
    · rintro ⟨b, hb, _⟩; cases hb

/-- C102 where it is true: after `Close` an xlsx source lists nothing and reports every sheet as not found, a text source is as
before, an xls source reports names that it does not have. Closing again changes nothing. -/
theorem C102_close_partial (ext : Ext) (src : Source) (n : Bytes) : src.close.close = src.close ∧
    (∀ a d, src = .xlsx a d → src.close.list = [] ∧
      src.close.get ext n = .ok (src.close, .error (.msg "xlsx: sheet not found"))) ∧
    (∀ f, src = .text f → src.close = src ∧ src.close.get ext n = .ok (src, .ok (.text f))) ∧
    (∀ b, src = .xls b → n ∉ allNames src → src.close.get ext n = .ok (src.close, .error (.msg "xls: sheet not found"))) := by
  refine ⟨by cases src <;> rfl, ?_, ?_, ?_⟩
  · rintro a d rfl; exact ⟨rfl, rfl⟩
  · rintro f rfl; exact ⟨rfl, rfl⟩
  · rintro b rfl hn
    have : b.sheets.find? (fun s => s.name = n) = none := by
      rw [List.find?_eq_none]
      intro s hs h
      exact hn (List.mem_map.2 ⟨s, hs, by simpa using h⟩)
    simp only [Source.close, Source.get, Xls.Book.get, Xls.Book.close, this]

/-- C102 is false of every xls source: after `Close` it still lists its sheets, and getting any of them crashes. -/
theorem C102_counterexample (ext : Ext) (b : Xls.Book) :
    (Source.xls b).close.list = (Source.xls b).list ∧
    ∀ n ∈ (Source.xls b).close.list, (Source.xls b).close.get ext n = .panic := by
  refine ⟨rfl, ?_⟩
  intro n hn
  refine (C102_exact ext _ n).2 ⟨b, rfl, ?_⟩
  simp only [Source.close, Source.list, Xls.Book.list, Xls.Book.close] at hn
  obtain ⟨s, hs, hn⟩ := List.mem_map.1 hn
  exact List.mem_map.2 ⟨s, (List.mem_filter.1 hs).1, hn⟩

/-- There is such a workbook, with a sheet that `Get` returns before `Close`. -/
theorem C102_witness (p : Crypto.Prims) (mk : Bytes → Fmt × CellType) (ext : Ext) : ∃ b s,
    Xls.loadStream p mk [] ⟨Spec.stream exBook.flatten, []⟩ = .ok b ∧
    (Source.xls b).get ext (lit "S") = .ok (.xls b, .ok (.sheet s)) ∧ (Source.xls b).close.get ext (lit "S") = .panic := by
  obtain ⟨b, s, h1, h2, _⟩ := C49_witness p mk ext
  refine ⟨b, s, h1, by simp only [Source.get, h2], ?_⟩
  refine (C102_exact ext _ _).2 ⟨b, rfl, ?_⟩
  by_cases hn : lit "S" ∈ allNames (.xls b)
  · exact hn
  · have : b.sheets.find? (fun s => s.name = lit "S") = none := by
      rw [List.find?_eq_none]
      intro s hs h
      exact hn (List.mem_map.2 ⟨s, hs, by simpa using h⟩)
    simp only [Xls.Book.get, this] at h2
    cases h2

/-! ### C103 -/

/-- The number of files left open. -/
def leftOpen (evs : List FileEv) : Int := evs.count .opened - evs.count .closed

/-- The number of files that stay open after `Open` and `Close`. -/
def keptOpen : Source → Int
  | .xls _ => 1
  | .xlsx _ _ => 1
  | .text _ => 2

theorem shipped_eq {w : World} {t : List (Grate.Entry Source)} (h : Shipped w t) : t = formats w := by
  obtain ⟨hist, hr, hp⟩ := h
  have p12 : t.Perm (formats w) := (reachable_perm hr).trans hp
  refine List.Perm.eq_of_pairwise ?_ (reachable_sorted hr) (reachable_sorted (formats_reach w)) p12
  intro a b ha hb hab hba
  have ha' := p12.mem_iff.1 ha
  have hab' : a.pri = b.pri := by omega
  simp only [formats, List.mem_cons, List.not_mem_nil, or_false] at ha' hb
  rcases ha' with rfl | rfl | rfl | rfl <;> rcases hb with rfl | rfl | rfl | rfl <;> first | rfl | (exfalso; simp at hab')

theorem leftOpen_append (l m : List FileEv) : leftOpen (l ++ m) = leftOpen l + leftOpen m := by
  unfold leftOpen; simp only [List.count_append]; omega

theorem xlsOpen_kind {w : World} {fn : Bytes} {src : Source} (h : xlsOpen w fn = .ok src) : ∃ b, src = .xls b := by
  unfold xlsOpen at h
  split at h
  · cases h
  · split at h
    · cases h
    · rw [GoRes.bind_eq_ok] at h
      obtain ⟨b, _, h⟩ := h
      cases h; exact ⟨b, rfl⟩

theorem xlsxOpen_kind {w : World} {fn : Bytes} {src : Source} (h : xlsxOpen w fn = .ok src) : ∃ a d, src = .xlsx a d := by
  unfold xlsxOpen at h
  split at h
  · cases h
  · split at h
    · cases h
    · rw [GoRes.bind_eq_ok] at h
      obtain ⟨d, _, h⟩ := h
      cases h; exact ⟨_, d, rfl⟩

theorem tsvOpen_kind {w : World} {fn : Bytes} {src : Source} (h : tsvOpen w fn = .ok src) : ∃ f, src = .text f := by
  unfold tsvOpen at h
  split at h
  · cases h
  · rw [GoRes.bind_eq_ok] at h
    obtain ⟨d, _, h⟩ := h
    cases h; exact ⟨d, rfl⟩

theorem csvOpen_kind {w : World} {fn : Bytes} {src : Source} (h : csvOpen w fn = .ok src) : ∃ f, src = .text f := by
  unfold csvOpen at h
  split at h
  · cases h
  · rw [GoRes.bind_eq_ok] at h
    obtain ⟨d, _, h⟩ := h
    cases h; exact ⟨d, rfl⟩

/-- The ways `Open` can end with the shipped formats: which opener decided, and the files left open. -/
theorem open_files (w : World) (fn c : Bytes) (hf : w.files fn = .ok c) :
    (leftOpen (openFiles w (formats w) fn) = 1 ∧ openSrc (formats w) fn = xlsOpen w fn) ∨
    (leftOpen (openFiles w (formats w) fn) = 2 ∧ (openSrc (formats w) fn = xlsxOpen w fn ∨
      openSrc (formats w) fn = tsvOpen w fn ∨ openSrc (formats w) fn = csvOpen w fn ∨
      openSrc (formats w) fn = .err .unknownFormat)) := by
  have e1 : ∀ op, openerFiles w fn ⟨"xls", 1, op⟩ = [.opened] := by
    intro op; unfold openerFiles xlsFiles; rw [if_pos rfl, hf]
  have e2 : ∀ op, openerFiles w fn ⟨"xlsx", 5, op⟩ = [.opened] := by
    intro op; unfold openerFiles xlsxFiles; rw [if_neg (by simp), if_pos rfl, hf]
  have e3 : ∀ op, openerFiles w fn ⟨"tsv", 10, op⟩ = [.opened, .closed] := by
    intro op; unfold openerFiles textFiles; rw [if_neg (by simp), if_neg (by simp), hf]
  have e4 : ∀ op, openerFiles w fn ⟨"csv", 15, op⟩ = [.opened, .closed] := by
    intro op; unfold openerFiles textFiles; rw [if_neg (by simp), if_neg (by simp), hf]
  unfold openFiles openSrc formats
  simp only [openTrace]
  cases h1 : xlsOpen w fn with
  | ok s => left; dsimp only; exact ⟨by simp only [List.flatMap_cons, List.flatMap_nil, e1]; decide, rfl⟩
  | panic => left; dsimp only; exact ⟨by simp only [List.flatMap_cons, List.flatMap_nil, e1]; decide, rfl⟩
  | err e =>
    dsimp only
    by_cases hn : e.isNotInFormat = true
    swap
    · left; rw [if_neg hn]; dsimp only; exact ⟨by simp only [List.flatMap_cons, List.flatMap_nil, e1]; decide, rfl⟩
    right
    rw [if_pos hn]; dsimp only
    cases h2 : xlsxOpen w fn with
    | ok s => dsimp only; exact ⟨by simp only [List.flatMap_cons, List.flatMap_nil, e1, e2]; decide, .inl rfl⟩
    | panic => dsimp only; exact ⟨by simp only [List.flatMap_cons, List.flatMap_nil, e1, e2]; decide, .inl rfl⟩
    | err e' =>
      dsimp only
      by_cases hn' : e'.isNotInFormat = true
      swap
      · rw [if_neg hn']; dsimp only; exact ⟨by simp only [List.flatMap_cons, List.flatMap_nil, e1, e2]; decide, .inl rfl⟩
      rw [if_pos hn']; dsimp only
      cases h3 : tsvOpen w fn with
      | ok s => dsimp only; exact ⟨by simp only [List.flatMap_cons, List.flatMap_nil, e1, e2, e3]; decide, .inr (.inl rfl)⟩
      | panic => dsimp only; exact ⟨by simp only [List.flatMap_cons, List.flatMap_nil, e1, e2, e3]; decide, .inr (.inl rfl)⟩
      | err e'' =>
        dsimp only
        by_cases hn'' : e''.isNotInFormat = true
        swap
        · rw [if_neg hn'']; dsimp only; exact ⟨by simp only [List.flatMap_cons, List.flatMap_nil, e1, e2, e3]; decide, .inr (.inl rfl)⟩
        rw [if_pos hn'']; dsimp only
        cases h4 : csvOpen w fn with
        | ok s => dsimp only; exact ⟨by simp only [List.flatMap_cons, List.flatMap_nil, e1, e2, e3, e4]; decide, .inr (.inr (.inl rfl))⟩
        | panic => dsimp only; exact ⟨by simp only [List.flatMap_cons, List.flatMap_nil, e1, e2, e3, e4]; decide, .inr (.inr (.inl rfl))⟩
        | err ec =>
          dsimp only
          by_cases hn3 : ec.isNotInFormat = true
          · rw [if_pos hn3]; dsimp only; exact ⟨by simp only [List.flatMap_cons, List.flatMap_nil, e1, e2, e3, e4]; decide, .inr (.inr (.inr rfl))⟩
          · rw [if_neg hn3]; dsimp only; exact ⟨by simp only [List.flatMap_cons, List.flatMap_nil, e1, e2, e3, e4]; decide, .inr (.inr (.inl rfl))⟩

/-- C103: exactly how many files stay open after `Open` and `Close`: one for xls and xlsx files, two for text files. -/
theorem C103_exact (w : World) (t : List (Grate.Entry Source)) (ht : Shipped w t) (fn c : Bytes) (hf : w.files fn = .ok c)
    (src : Source) (ho : openSrc t fn = .ok src) : leftOpen (openFiles w t fn ++ src.closeFiles) = keptOpen src := by
  rw [shipped_eq ht] at ho ⊢
  rw [leftOpen_append]
  rcases open_files w fn c hf with ⟨h1, h2⟩ | ⟨h1, h2 | h2 | h2 | h2⟩ <;> rw [h2] at ho <;> rw [h1]
  · obtain ⟨b, rfl⟩ := xlsOpen_kind ho; rfl
  · obtain ⟨a, d, rfl⟩ := xlsxOpen_kind ho; rfl
  · obtain ⟨f, rfl⟩ := tsvOpen_kind ho; rfl
  · obtain ⟨f, rfl⟩ := csvOpen_kind ho; rfl
  · cases ho

/-- C103 is false of every file that can be read: however `Open` ends, a file stays open, after `Close`, too. -/
theorem C103_counterexample (w : World) (t : List (Grate.Entry Source)) (ht : Shipped w t) (fn c : Bytes)
    (hf : w.files fn = .ok c) : 1 ≤ leftOpen (openFiles w t fn) ∧
    ∀ src, openSrc t fn = .ok src → 1 ≤ leftOpen (openFiles w t fn ++ src.closeFiles) := by
  constructor
  · rw [shipped_eq ht]
    rcases open_files w fn c hf with ⟨h1, _⟩ | ⟨h1, _⟩ <;> rw [h1] <;> decide
  · intro src ho
    rw [C103_exact w t ht fn c hf src ho]
    cases src <;> simp [keptOpen]

/-- C103 where it is true: no file is left open by the openers of text files, whatever their result, nor when the file cannot
be opened, nor by `Close` of more than there are. -/
theorem C103_partial (w : World) (t : List (Grate.Entry Source)) (ht : Shipped w t) (fn : Bytes) :
    leftOpen (textFiles w fn) = 0 ∧ (∀ e, w.files fn = .error e → leftOpen (openFiles w t fn) = 0) ∧
    ∀ c src, w.files fn = .ok c → openSrc t fn = .ok src → ∀ k, k ≤ src.closeFiles.length →
      0 ≤ leftOpen (openFiles w t fn ++ src.closeFiles.take k) := by
  refine ⟨?_, ?_, ?_⟩
  · unfold textFiles; split <;> decide
  · intro e he
    have : ∀ o, openerFiles w fn o = [] := by
      intro o; unfold openerFiles xlsFiles xlsxFiles textFiles; simp [he]
    unfold openFiles
    have : (openTrace fn t).1.flatMap (openerFiles w fn) = [] := List.flatMap_eq_nil_iff.2 (fun o _ => this o)
    rw [this]; decide
  · intro c src hf ho k hk
    have h1 := (C103_counterexample w t ht fn c hf).1
    rw [leftOpen_append]
    cases src with
    | xls b => simp only [Source.closeFiles, List.take_nil]; have : leftOpen [] = 0 := by decide
               omega
    | xlsx a d =>
      have : leftOpen ([FileEv.closed].take k) = 0 ∨ leftOpen ([FileEv.closed].take k) = -1 := by
        cases k with
        | zero => left; decide
        | succ k => right; rw [List.take_of_length_le (by simp)]; decide
      simp only [Source.closeFiles]
      omega
    | text f => simp only [Source.closeFiles, List.take_nil]; have : leftOpen [] = 0 := by decide
                omega

/-! ### C104 -/

/-- C104 for sheets, and for the other rows of text files: assigning to the slice that `Strings` returned does not change them. -/
theorem C104_partial (ext : Ext) (c : Coll) (j : Nat) (v : Bytes) :
    (∀ s, c = .sheet s → c.assign c.stringsRow j v = c) ∧
    ∀ f, c = .text f → 0 ≤ f.iterRow → ∃ g, c.assign c.stringsRow j v = .text g ∧ g.iterRow = f.iterRow ∧
      g.rows.length = f.rows.length ∧ ∀ i : Nat, (i : Int) ≠ f.iterRow → g.rows[i]? = f.rows[i]? := by
  constructor
  · rintro s rfl; rfl
  · rintro f rfl h0
    refine ⟨_, rfl, rfl, by simp, ?_⟩
    intro i hi
    simp only [List.getElem?_modify]
    have hne : f.iterRow.toNat ≠ i := by omega
    simp [hne]

/-- C104 is false of every row of every text file: assigning to the slice changes what `Strings` returns. -/
theorem C104_counterexample (ext : Ext) (f : Simple.File) (r : List Bytes) (j : Nat) (x v : Bytes)
    (h : (Coll.text f).strings ext = .ok r) (hj : r[j]? = some x) (hv : v ≠ x) :
    ∃ r', ((Coll.text f).assign (Coll.text f).stringsRow j v).strings ext = .ok r' ∧ r' ≠ r ∧ r'[j]? = some v := by
  simp only [Coll.strings, Simple.File.strings, Simple.File.row] at h
  split at h
  · rename_i h0
    split at h
    · rename_i r0 hr
      cases h
      have hl : j < r.length := (List.getElem?_eq_some_iff.1 hj).1
      refine ⟨r.set j v, ?_, ?_, by simp [hl]⟩
      · simp only [Coll.assign, Coll.stringsRow, Coll.strings, Simple.File.strings, Simple.File.row]
        rw [if_pos h0, List.getElem?_modify, hr]
        simp
      · intro he
        have : (r.set j v)[j]? = r[j]? := by rw [he]
        rw [hj, List.getElem?_set_self hl] at this
        exact hv (Option.some.inj this)
    · cases h
  · cases h

/-- There is such a row. -/
theorem C104_witness (ext : Ext) : ∃ f r, (Coll.text f).strings ext = .ok r ∧ r[1]? = some (lit "b") ∧
    ((Coll.text f).assign (Coll.text f).stringsRow 1 (lit "c")).strings ext = .ok [lit "a", lit "c"] :=
  ⟨⟨[], [[lit "a", lit "b"]], 0⟩, _, rfl, rfl, rfl⟩

end Grate.Props
