import Verif.Model.Grater
import Verif.Props.Rows
import Verif.Props.Display
import Verif.Props.OpenEncrypted

/-! # C82: the command `grater` -/

namespace Grate.Props

open Grate Grate.Spec Grate.Api Grate.Grater

/-- What is on standard output. -/
def stdout : List Event → Bytes
  | [] => []
  | .out b :: es => b ++ stdout es
  | .err _ :: es => stdout es

/-- The errors on standard error. -/
def stderr : List Event → List GoErr
  | [] => []
  | .out _ :: es => stderr es
  | .err e :: es => e :: stderr es

theorem stdout_append (a b : List Event) : stdout (a ++ b) = stdout a ++ stdout b := by
  induction a with
  | nil => rfl
  | cons e a ih => cases e <;> simp [stdout, ih]

theorem stderr_append (a b : List Event) : stderr (a ++ b) = stderr a ++ stderr b := by
  induction a with
  | nil => rfl
  | cons e a ih => cases e <;> simp [stderr, ih]

theorem join_eq (r : List Bytes) : join [9] r = [(9 : UInt8)].intercalate r := by
  induction r with
  | nil => simp [join, List.intercalate]
  | cons x xs ih =>
    cases xs with
    | nil => simp [join, List.intercalate]
    | cons y ys =>
      rw [join, ih]
      simp [List.intercalate]

theorem println_out (rows : List (List Bytes)) : stdout (rows.map println) = tsvText rows ∧ stderr (rows.map println) = [] := by
  induction rows with
  | nil => exact ⟨rfl, rfl⟩
  | cons r rows ih =>
    constructor
    · show join [9] r ++ [10] ++ stdout (rows.map println) = _
      rw [ih.1, join_eq]
      simp [tsvText]
    · exact ih.2

/-! ### The loop over the rows -/

theorem rows_sheet (ext : Ext) : ∀ (n : Nat) (s : Sheet) (rows : List (List Bytes)),
    drain Sheet.next (Sheet.strings ext) n s = some (.ok rows) →
    ∃ s', ∀ fuel, n ≤ fuel → rowLoop ext false fuel (.sheet s) = some (.ok (.sheet s', rows.map println)) := by
  intro n
  induction n with
  | zero => intro s rows h; cases h
  | succ n ih =>
    intro s rows h
    rw [drain] at h
    cases hn : s.next with
    | mk s' more =>
      rw [hn] at h
      cases more with
      | false =>
        simp only at h
        cases h
        refine ⟨s', fun fuel hf => ?_⟩
        obtain ⟨fuel, rfl⟩ : ∃ k, fuel = k + 1 := ⟨fuel - 1, by omega⟩
        simp [rowLoop, andThen, Coll.next, hn]
      | true =>
        simp only at h
        cases hd : drain Sheet.next (Sheet.strings ext) n s' with
        | none => rw [hd] at h; cases h
        | some rest =>
          rw [hd] at h
          simp only [Option.some.injEq] at h
          rw [GoRes.bind_eq_ok] at h
          obtain ⟨r, hr, h⟩ := h
          rw [GoRes.bind_eq_ok] at h
          obtain ⟨rs, hrs, h⟩ := h
          cases h
          subst hrs
          obtain ⟨s2, h2⟩ := ih s' rs hd
          refine ⟨s2, fun fuel hf => ?_⟩
          obtain ⟨fuel, rfl⟩ : ∃ k, fuel = k + 1 := ⟨fuel - 1, by omega⟩
          simp [rowLoop, andThen, Coll.next, hn, Coll.strings, hr, h2 fuel (by omega)]

theorem rows_text (ext : Ext) : ∀ (n : Nat) (s : Simple.File) (rows : List (List Bytes)),
    drain Simple.File.next Simple.File.strings n s = some (.ok rows) →
    ∃ s', ∀ fuel, n ≤ fuel → rowLoop ext false fuel (.text s) = some (.ok (.text s', rows.map println)) := by
  intro n
  induction n with
  | zero => intro s rows h; cases h
  | succ n ih =>
    intro s rows h
    rw [drain] at h
    cases hn : s.next with
    | mk s' more =>
      rw [hn] at h
      cases more with
      | false =>
        simp only at h
        cases h
        refine ⟨s', fun fuel hf => ?_⟩
        obtain ⟨fuel, rfl⟩ : ∃ k, fuel = k + 1 := ⟨fuel - 1, by omega⟩
        simp [rowLoop, andThen, Coll.next, hn]
      | true =>
        simp only at h
        cases hd : drain Simple.File.next Simple.File.strings n s' with
        | none => rw [hd] at h; cases h
        | some rest =>
          rw [hd] at h
          simp only [Option.some.injEq] at h
          rw [GoRes.bind_eq_ok] at h
          obtain ⟨r, hr, h⟩ := h
          rw [GoRes.bind_eq_ok] at h
          obtain ⟨rs, hrs, h⟩ := h
          cases h
          subst hrs
          obtain ⟨s2, h2⟩ := ih s' rs hd
          refine ⟨s2, fun fuel hf => ?_⟩
          obtain ⟨fuel, rfl⟩ : ∃ k, fuel = k + 1 := ⟨fuel - 1, by omega⟩
          simp [rowLoop, andThen, Coll.next, hn, Coll.strings, hr, h2 fuel (by omega)]

/-! ### The files -/

/-- C82 (files are independent). The output for two lists of files is the output for the first followed by that for the
second; it does not end, or crashes, at the first file that does. -/
theorem C82_files (ext : Ext) (v : Bool) (fuel : Nat) (t : List (Grate.Entry Source)) (a b : List Bytes) :
    main ext v fuel t (a ++ b) =
      andThen (main ext v fuel t a) fun x => andThen (main ext v fuel t b) fun y => some (.ok (x ++ y)) := by
  have hid : ∀ x : Option (GoRes (List Event)), (andThen x fun y => some (.ok ([] ++ y))) = x := by
    intro x
    rcases x with _ | (_ | _ | _) <;> rfl
  have hassoc : ∀ {α β γ : Type} (x : Option (GoRes α)) (f : α → Option (GoRes β)) (g : β → Option (GoRes γ)),
      andThen (andThen x f) g = andThen x (fun a => andThen (f a) g) := by
    intro α β γ x f g
    rcases x with _ | (_ | _ | _) <;> rfl
  induction a with
  | nil =>
    show main ext v fuel t b = andThen (main ext v fuel t b) fun y => some (.ok ([] ++ y))
    rw [hid]
  | cons fn fns ih =>
    rw [List.cons_append, main, main]
    cases openSrc t fn with
    | panic => rfl
    | err e =>
      simp only
      rw [ih, hassoc, hassoc]
      congr 1
      funext x
      rw [hassoc]
      rfl
    | ok src =>
      simp only
      rw [hassoc]
      congr 1
      funext ev
      rw [ih, hassoc, hassoc]
      congr 1
      funext x
      rw [hassoc]
      simp only [andThen, List.append_assoc]

/-- C82 (errors). A file that does not open costs one line on standard error; the others are not affected. -/
theorem C82_error (ext : Ext) (v : Bool) (fuel : Nat) (t : List (Grate.Entry Source)) (fn : Bytes) (e : GoErr)
    (he : openSrc t fn = .err e) (a b : List Bytes) (x y : List Event) (ha : main ext v fuel t a = some (.ok x))
    (hb : main ext v fuel t b = some (.ok y)) :
    ∃ ev, main ext v fuel t (a ++ fn :: b) = some (.ok ev) ∧ stdout ev = stdout x ++ stdout y ∧
      stderr ev = stderr x ++ e :: stderr y := by
  refine ⟨x ++ .err e :: y, ?_, by rw [stdout_append]; rfl, by rw [stderr_append]; rfl⟩
  rw [C82_files, ha]
  simp only [andThen, main, he, hb]

/-- C82 (text). For a text file as in C79 the output is its lines, each ended with a line feed. -/
theorem C82_text (w : World) (ext : Ext) (fn file : Bytes) (hf : w.files fn = .ok file) (hn : NotCompound file)
    (ez : GoErr) (hz : w.zip file = .error ez) (hi : ∀ m, (w.iter m).Perm m) (lines : List Bytes)
    (rows : List (List Bytes)) (hlong : ¬ HasLongLine file) (hl : LinesOf file lines) (hr : All2 FieldsOf lines rows)
    (hsize : rows.length < 2 ^ 50) (hd : ¬ Declined rows) (t : List (Grate.Entry Source)) (ht : Shipped w t)
    (fuel : Nat) (hfu : lines.length < fuel) :
    ∃ ev, main ext false fuel t [fn] = some (.ok ev) ∧ stdout ev = printed lines ∧ stderr ev = [] := by
  have ho := (C06_rule w.iter hi fn file lines rows hlong hl hr hsize).2 hd
  have hopen := (open_text w _ file hf hn ez hz t ht).1 _ ho
  have hlen : rows.length = lines.length ∧ tsvText rows = printed lines := by
    clear hl ho hsize hd hfu hopen
    induction hr with
    | nil => exact ⟨rfl, rfl⟩
    | cons h _ ih =>
      refine ⟨by simp [ih.1], ?_⟩
      have := ih.2
      unfold tsvText printed at this ⊢
      rw [List.flatMap_cons, List.flatMap_cons, this, h.2.2]
  obtain ⟨s', hs⟩ := rows_text ext (rows.length + 1) ⟨fn, rows, -1⟩ rows (C08_drain _ rfl)
  refine ⟨rows.map println ++ [] ++ [], ?_, ?_, ?_⟩
  · simp only [main, hopen, Source.list, Simple.File.list, sheetLoop, Source.get, andThen, hs fuel (by omega)]
  · rw [List.append_nil, List.append_nil, (println_out rows).1, hlen.2]
  · rw [List.append_nil, List.append_nil, (println_out rows).2]

/-- The texts of a sheet with this declared size: for every cell that was written the text that is displayed for the
last write, under its format; all others are empty. There is an empty row more than the sheet has (C84). -/
structure Table (ext : Ext) (f : Formatter) (m : Nat × Nat) (ws : List Write) (texts : List (List Bytes)) : Prop where
  shown : ∀ (r c : Nat) (w : What), lastAt r c ws = some w → ∃ x t, Shows ext f w x ∧ cellString ext f x = .ok t ∧
    texts[r]?.bind (·[c]?) = some t
  blank : ∀ (r c : Nat) (t : Bytes), lastAt r c ws = none → texts[r]?.bind (·[c]?) = some t → t = []
  width : ∃ n, ∀ row ∈ texts, row.length = n
  size : ∀ R C, Extent m.1 (ws.map (·.row)) R → Extent m.2 (ws.map (·.col)) C →
    texts.length = R + 1 ∧ ∀ row ∈ texts, row.length = C

/-- Reading a sheet row by row gives its table. -/
theorem holds_table (ext : Ext) (hp : Prints ext) (f : Formatter) (hf : Made f) (ws : List Write) (s : Sheet)
    (h : Holds ext f ws s) (hw : ∀ w ∈ ws, w.what.Fit f) (m : Nat × Nat) (hz : SizeIs m.1 m.2 ws s) (hq : Rectangular s) :
    ∃ texts, drain Sheet.next (Sheet.strings ext) (s.rows.length + 1) s = some (.ok texts) ∧ Table ext f m ws texts ∧
      texts.length = s.rows.length ∧ ∀ row ∈ texts, (row.length : Int) = s.numCols := by
  have hr := hq.width
  have hcells := holds_cells ext hp f hf ws s h hw
  have hcell : ∀ (r c : Nat), s.cell? r c = s.rows[r]?.bind (·[c]?) := by
    intro r c
    rw [cell?_nat]
    unfold Sheet.at?
    cases s.rows[r]? <;> rfl
  let render : Cell → Bytes := fun c => match cellString ext f c with | .ok t => t | _ => []
  have hren : ∀ (r : Nat) (row : List Cell), s.rows[r]? = some row → ∀ c ∈ row, cellString ext f c = .ok (render c) := by
    intro r row hrow c hc
    obtain ⟨i, hi, rfl⟩ := List.mem_iff_getElem.1 hc
    obtain ⟨t, ht⟩ := hcells r i row[i] (by rw [hcell, hrow]; simp)
    simp only [render, ht]
  have hget : ∀ (r c : Nat), (s.rows.map (·.map render))[r]?.bind (·[c]?) = (s.cell? r c).map render := by
    intro r c
    rw [hcell, List.getElem?_map]
    cases s.rows[r]? with
    | none => rfl
    | some row => simp
  refine ⟨s.rows.map (·.map render), ?_, ⟨?_, ?_, ⟨s.numCols.toNat, ?_⟩, ?_⟩, by simp, ?_⟩
  · rw [C13_drain _ s h.start]
    congr 1
    rw [seqRes_ok]
    apply List.ext_getElem?
    intro i
    rw [List.getElem?_map, List.getElem?_map, List.getElem?_map]
    by_cases hi : i < s.rows.length
    · have hrow : s.rows[i]? = some s.rows[i] := by simp [hi]
      rw [List.getElem?_range hi, hrow]
      simp only [Option.map_some, Option.some.injEq]
      have hr1 : ({ s with curRow := (i : Int) + 1 } : Sheet).row = .ok s.rows[i] := by
        unfold Sheet.row
        rw [if_pos (by simp only []; omega)]
        have : (((i : Int) + 1) - 1).toNat = i := by omega
        simp only [this, hrow]
      have hseq : seqRes (s.rows[i].map (cellString ext f)) = .ok (s.rows[i].map render) := by
        rw [seqRes_ok, List.map_map]
        apply List.map_congr_left
        intro c hc
        exact hren i _ hrow c hc
      unfold Sheet.strings
      rw [hr1, GoRes.ok_bind]
      show (seqRes (s.rows[i].map (cellString ext s.fmtr)) >>= fun cells => fillRow s.numCols [] cells) = _
      rw [h.fmtr, hseq, GoRes.ok_bind]
      exact fillRow_exact _ (by rw [List.length_map]; exact hr _ (List.getElem_mem _))
    · rw [List.getElem?_eq_none (by simpa using hi), List.getElem?_eq_none (by simpa using hi)]; rfl
  · intro r c w hl
    obtain ⟨x, hx, hc⟩ := h.written r c w hl
    obtain ⟨t, ht⟩ := hcells r c x hc
    refine ⟨x, t, hx, ht, ?_⟩
    rw [hget, hc]
    simp only [Option.map_some, render, ht]
  · intro r c t hl ht
    rw [hget] at ht
    rcases h.blank r c hl with e | e
    · rw [e] at ht; cases ht
    · rw [e] at ht
      cases ht
      rfl
  · intro row hrow
    obtain ⟨row', hr', rfl⟩ := List.mem_map.1 hrow
    have := hr row' hr'
    rw [List.length_map]
    omega
  · intro R C hR hC
    obtain ⟨_, hwd, hlast⟩ := rows_are h hz hR hC hq
    obtain ⟨n1, _⟩ := size_extent h hz hR hC
    refine ⟨?_, ?_⟩
    · rw [List.length_map]
      have := hR.1
      rcases hq.count with ⟨_, h0, _⟩ | ⟨h1, _⟩ <;> omega
    · intro row hrow
      obtain ⟨row', hr', rfl⟩ := List.mem_map.1 hrow
      rw [List.length_map]
      exact hwd row' hr'
  · intro row hrow
    obtain ⟨row', hr', rfl⟩ := List.mem_map.1 hrow
    rw [List.length_map]
    exact hr row' hr'

/-- `ws` are the writes of the sheet `e` of a workbook: it is the first of its name, and its records have one
declaration of its size and no formats that are not known. -/
def SheetWrites (groups : List (List Record)) (c : Content) (e : SheetEntry) (m : Nat × Nat) (ws : List Write) : Prop :=
  (∃ before after, c.sheets = before ++ e :: after ∧ ∀ x ∈ before, utf8 x.name ≠ utf8 e.name) ∧
  (∃ i bof rs, groups[i]? = some (bof :: rs) ∧ e.position = position groups i ∧ Declares (0, 0) rs m ∧
    SheetRecs c.strings c.styles m.1 m.2 rs ws ∧ dimsCount rs ≤ 1) ∧
  ∀ w ∈ ws, w.what.Fit (formatterOf (c.formats.map (fun a => (a.1, utf8 a.2))))

theorem made_formatter (l : List (Nat × Bytes)) : Made (formatterOf l) := by
  have : ∀ (l : List (Nat × Bytes)) (f : Formatter), Made f →
      Made (l.foldl (fun f a => (f.add makeFormatter a.1 a.2).1) f) := by
    intro l
    induction l with
    | nil => intro f h; exact h
    | cons a l ih => intro f h; exact ih _ (.add _ _ h)
  exact this l _ .new

/-- What C82 says of a workbook that opens. -/
theorem opens_grater (w : World) (ext : Ext) (hpr : Prints ext) (fn : Bytes) {c : Content} {subs : List (List Record)}
    (ho : Opens w ext fn c subs) (size : SheetEntry → Nat × Nat) (writes : SheetEntry → List Write)
    (hsh : ∀ e ∈ c.sheets, e.visible = true → SheetWrites subs c e (size e) (writes e)) :
    ∃ (tables : List (List (List Bytes))) (n m : Nat),
      All2 (fun e tb => Table ext (formatterOf (c.formats.map (fun a => (a.1, utf8 a.2)))) (size e) (writes e) tb)
        (c.sheets.filter (·.visible)) tables ∧
      ∀ k, n ≤ k → ∀ t, Shipped { w with fuel := k } t → ∀ fuel, m ≤ fuel → ∃ ev,
        main ext false fuel t [fn] = some (.ok ev) ∧ stdout ev = tsvText tables.flatten ∧ stderr ev = [] := by
  obtain ⟨b, n, hn, hlist, hget, _⟩ := ho
  -- the sheets, one by one
  have key : ∀ es : List SheetEntry, (∀ e ∈ es, e ∈ c.sheets ∧ e.visible = true) →
      ∃ (tables : List (List (List Bytes))) (m : Nat),
        All2 (fun e tb => Table ext (formatterOf (c.formats.map (fun a => (a.1, utf8 a.2)))) (size e) (writes e) tb) es tables ∧
        ∀ fuel, m ≤ fuel → ∃ ev, sheetLoop ext false fuel (.xls b) (es.map (fun e => utf8 e.name)) = some (.ok ev) ∧
          stdout ev = tsvText tables.flatten ∧ stderr ev = [] := by
    intro es
    induction es with
    | nil => intro _; exact ⟨[], 0, .nil, fun fuel _ => ⟨[], rfl, rfl, rfl⟩⟩
    | cons e es ih =>
      intro hes
      obtain ⟨tables, m, hall, hrun⟩ := ih (fun x hx => hes x (by simp [hx]))
      obtain ⟨he, hv⟩ := hes e (by simp)
      obtain ⟨⟨before, after, hx, hfirst⟩, ⟨i, bof, rs, hi, hpos, hd, hw, hone⟩, hfit⟩ := hsh e he hv
      obtain ⟨s, hg, hh, hz, hrect⟩ := hget before after e hx hfirst i bof rs hi hpos _ _ hd (writes e) hw
      obtain ⟨texts, hdr, htab, _⟩ := holds_table ext hpr _ (made_formatter _) (writes e) s hh hfit (size e) hz (hrect hone)
      refine ⟨texts :: tables, max m (s.rows.length + 1), .cons htab hall, fun fuel hfu => ?_⟩
      obtain ⟨ev, hev, h1, h2⟩ := hrun fuel (by omega)
      obtain ⟨s', hs'⟩ := rows_sheet ext _ s texts hdr
      refine ⟨texts.map println ++ ev, ?_, ?_, ?_⟩
      · simp only [List.map_cons, sheetLoop, hg, andThen, hs' fuel (by omega), Source.used, hev]
      · rw [stdout_append, (println_out texts).1, h1]
        simp [tsvText]
      · rw [stderr_append, (println_out texts).2, h2]
        rfl
  obtain ⟨tables, m, hall, hrun⟩ := key (c.sheets.filter (·.visible)) (by
    intro e he
    exact ⟨(List.mem_filter.1 he).1, (List.mem_filter.1 he).2⟩)
  refine ⟨tables, n, m, hall, fun k hk t ht fuel hfu => ?_⟩
  obtain ⟨ev, hev, h1, h2⟩ := hrun fuel hfu
  refine ⟨ev ++ [], ?_, by rw [List.append_nil, h1], by rw [List.append_nil, h2]⟩
  simp only [main, hn k hk t ht, hlist, hev, andThen]

/-- C82 (xls). For an xls file as in C77 whose visible sheets are all as in C76: the output is the sheets in file order,
each row on a line of its own, the displayed texts separated by tabs. Missing: what C77 leaves out, and sheets that C76
leaves out. -/
theorem C82_xls_partial (w : World) (ext : Ext) (hpr : Prints ext) (fn file : Bytes) (hf : w.files fn = .ok file)
    {groups : List (List Record)} (h : Grouped groups) (hp : ∀ r ∈ groups.flatten, r.type ≠ 0x2F) {c : Content}
    (hc : AllGlobals .empty groups c) (hs : StreamIn file (lit "Workbook") (stream groups.flatten))
    (hb : ∀ k ∈ w.bufs, 0 < k) (hbl : (stream groups.flatten).length < w.bufs.length)
    (size : SheetEntry → Nat × Nat) (writes : SheetEntry → List Write)
    (hsh : ∀ e ∈ c.sheets, e.visible = true → SheetWrites groups c e (size e) (writes e)) :
    ∃ (tables : List (List (List Bytes))) (n m : Nat),
      All2 (fun e tb => Table ext (formatterOf (c.formats.map (fun a => (a.1, utf8 a.2)))) (size e) (writes e) tb)
        (c.sheets.filter (·.visible)) tables ∧
      ∀ k, n ≤ k → ∀ t, Shipped { w with fuel := k } t → ∀ fuel, m ≤ fuel → ∃ ev,
        main ext false fuel t [fn] = some (.ok ev) ∧ stdout ev = tsvText tables.flatten ∧ stderr ev = [] :=
  opens_grater w ext hpr fn (opens_plain w ext fn file hf h hp hc hs hb hbl) size writes hsh

/-- C82 (encrypted xls). The same for encrypted workbooks as in `C77_encrypted_partial`: the output is the sheets that were
encrypted. -/
theorem C82_encrypted_partial (w : World) (ext : Ext) (hpr : Prints ext) (fn file : Bytes) (hf : w.files fn = .ok file)
    (hdg : Digest w.prims) (groups : List (List Record)) (last : List Record) (h : Header)
    (he : EncryptedFile w.prims file groups last h) {c : Content} (hc : AllGlobals .empty (groups ++ [last]) c)
    (hb : ∀ k ∈ w.bufs, 0 < k)
    (hbl : (stream (groups.flatten ++ last ++ [⟨0x0A, []⟩])).length < w.bufs.length)
    (size : SheetEntry → Nat × Nat) (writes : SheetEntry → List Write)
    (hsh : ∀ e ∈ c.sheets, e.visible = true → SheetWrites (groups ++ [last]) c e (size e) (writes e)) :
    ∃ (tables : List (List (List Bytes))) (n m : Nat),
      All2 (fun e tb => Table ext (formatterOf (c.formats.map (fun a => (a.1, utf8 a.2)))) (size e) (writes e) tb)
        (c.sheets.filter (·.visible)) tables ∧
      ∀ k, n ≤ k → ∀ t, Shipped { w with fuel := k } t → ∀ fuel, m ≤ fuel → ∃ ev,
        main ext false fuel t [fn] = some (.ok ev) ∧ stdout ev = tsvText tables.flatten ∧ stderr ev = [] :=
  opens_grater w ext hpr fn (C77_encrypted_partial w ext fn file hf hdg groups last h he hc hb hbl) size writes hsh

/-- C82: the example workbook meets the hypotheses. -/
theorem C82_witness : SheetWrites exBook exBookContent exEntry (4, 4) exWrites := by
  refine ⟨⟨[], [], rfl, by simp⟩, ⟨1, exBof 0x10, exSheet, rfl, by decide +kernel, exSheet_declares, exSheet_recs,
    by decide +kernel⟩, ?_⟩
  have hk : ∀ n, n = 14 ∨ n = 0 → Known Formatter.new n := by rintro n (rfl | rfl) <;> rfl
  intro w hw
  simp only [exWrites, List.mem_cons, List.not_mem_nil, or_false] at hw
  rcases hw with rfl | rfl | rfl | rfl | rfl | rfl | rfl | rfl
  · exact hk 14 (.inl rfl)
  · exact hk 0 (.inr rfl)
  · exact hk 0 (.inr rfl)
  · exact hk 0 (.inr rfl)
  · exact ⟨hk 0 (.inr rfl), by decide +kernel⟩
  · exact hk 0 (.inr rfl)
  · exact hk 0 (.inr rfl)
  · exact hk 0 (.inr rfl)

/-- `ws` are the writes of the sheet with this relationship of an xlsx file: the elements of its part write them, and they
have no formats that are not known. -/
def PartWrites (ext : Ext) (a : Xlsx.Archive) (b : Spec.Book) (id : Bytes) (m : Nat × Nat)
    (ws : List Write) : Prop :=
  (∃ r ∈ b.rels, r.type = relType "worksheet" ∧ r.id = id ∧ ∃ (sdir : List Bytes) (sbase : Bytes),
    (∀ s ∈ sdir, RealName s) ∧ PathName sbase ∧ r.part = pathOf (sdir ++ [sbase]) ∧ ∃ ts, HasPart a r.part ts ∧
    ∃ ls : List (Bytes × Bytes),
      ((LacksPart a (relsPart sdir sbase) ∧ ls = []) ∨ ∃ us, HasPart a (relsPart sdir sbase) us ∧ LinkToks us ls) ∧
    WsPart ext b.strings b.styles (targetOf ls) ts m ws) ∧
  ∀ w ∈ ws, w.what.Fit (formatterOf b.formats)

/-- C82 (xlsx). For an xlsx file as in C78 with sheets of different names that are all as in C76: the output is the
sheets in file order, each row on a line of its own, the displayed texts separated by tabs. Missing: what C78 leaves
out, and sheets that C76 leaves out. -/
theorem C82_xlsx_partial (w : World) (ext : Ext) (hpr : Prints ext) (fn file : Bytes) (hf : w.files fn = .ok file)
    (hn : NotCompound file) (a : Xlsx.Archive) (hz : w.zip file = .ok a) (ho : ∀ l, (w.order l).Perm l)
    (dir : List Bytes) (base : Bytes) (b : Spec.Book) (h : XlsxFile a dir base b)
    (hd : (b.sheets.map Prod.snd).Nodup) (size : Bytes → Nat × Nat) (writes : Bytes → List Write)
    (hsh : ∀ e ∈ b.sheets, PartWrites ext a b e.1 (size e.1) (writes e.1)) (t : List (Grate.Entry Source)) (ht : Shipped w t) :
    ∃ (tables : List (List (List Bytes))) (m : Nat),
      All2 (fun e tb => Table ext (formatterOf b.formats) (size e.1) (writes e.1) tb) b.sheets tables ∧
      ∀ fuel, m ≤ fuel → ∃ ev,
        main ext false fuel t [fn] = some (.ok ev) ∧ stdout ev = tsvText tables.flatten ∧ stderr ev = [] := by
  obtain ⟨src, hopen, hl, _, _⟩ := C78_xlsx_partial w ext fn file hf hn a hz ho dir base b h t ht
  obtain ⟨d, hd0, hlist, hsheets, hstr, hxfs, hfmt⟩ := C61_open_partial makeFormatter w.order ho a dir base b h
  have hsrc : src = .xlsx a d := by
    have hx : xlsxOpen w fn = .ok (.xlsx a d) := by
      unfold xlsxOpen
      simp only [hf, hz, hd0]
      rfl
    have : openSrc t fn = .ok (.xlsx a d) := by
      rw [shipped_open ht]
      simp [openSrc, openTrace, formats, xls_declines w fn file hf hn, hx, GoErr.isNotInFormat]
    rw [hopen] at this
    cases this
    rfl
  -- the sheets, one by one
  have key : ∀ (es past : List (Bytes × Bytes)) (d1 : Xlsx.Doc), b.sheets = past ++ es → d1.list = d.list →
      d1.strings = d.strings → d1.xfs = d.xfs → d1.fmt = d.fmt →
      (∀ j, past.length ≤ j → d1.sheets[j]? = d.sheets[j]?) →
      ∃ (tables : List (List (List Bytes))) (m : Nat),
        All2 (fun e tb => Table ext (formatterOf b.formats) (size e.1) (writes e.1) tb) es tables ∧
        ∀ fuel, m ≤ fuel → ∃ ev, sheetLoop ext false fuel (.xlsx a d1) (es.map Prod.snd) = some (.ok ev) ∧
          stdout ev = tsvText tables.flatten ∧ stderr ev = [] := by
    intro es
    induction es with
    | nil => intros; exact ⟨[], 0, .nil, fun fuel _ => ⟨[], rfl, rfl, rfl⟩⟩
    | cons e es ih =>
      intro past d1 he h1 h2 h3 h4 h5
      obtain ⟨⟨r, hr, hty, hid, sdir, sbase, hsd, hsb, hpart, ts, hp, ls, hlk, hw⟩, hfit⟩ := hsh e (by rw [he]; simp)
      have hi : b.sheets[past.length]? = some (e.1, e.2) := by rw [he]; simp
      obtain ⟨x, hx, hxn, hxs, hxd⟩ := hsheets past.length e.1 e.2 hi
      have hx1 : d1.sheets[past.length]? = some x := by rw [h5 _ (Nat.le_refl _)]; exact hx
      have hdoc := hxd r hr hty hid
      rw [← hstr, ← hxfs, ← h2, ← h3] at hw
      rw [hpart] at hp
      obtain ⟨s, hs, hh, hz, hrect⟩ := C58_sheet_partial ext a d1 sdir sbase hsd hsb ts hp ls hlk _ (writes e.1) hw
      have hfm : d1.fmt = formatterOf b.formats := by rw [h4, hfmt]; rfl
      rw [hfm] at hh
      obtain ⟨texts, hdr, htab, _⟩ := holds_table ext hpr _ (made_formatter _) (writes e.1) s hh hfit _ hz hrect
      have hfirst : ∀ j < past.length, ∀ y, d1.sheets[j]? = some y → y.name ≠ e.2 := by
        intro j hj y hy hne
        have hl2 : d1.list[j]? = some e.2 := by unfold Xlsx.Doc.list; rw [List.getElem?_map, hy, Option.map_some, hne]
        rw [h1, hlist, he, List.map_append, List.getElem?_append_left (by simpa using hj)] at hl2
        rw [he, List.map_append, List.nodup_append] at hd
        exact hd.2.2 e.2 (List.mem_of_getElem? hl2) e.2 (by simp) rfl
      have hfind := find_of hx1 hxn hfirst
      obtain ⟨hlt, _⟩ := List.getElem?_eq_some_iff.1 hx1
      have hget : d1.get ext a e.2 = .ok ({ d1 with sheets := d1.sheets.set past.length { x with state := some (s, none) } },
          past.length, none) := by
        unfold Xlsx.Doc.get
        rw [hfind]
        simp only [hx1, hxs, hdoc, hpart, hs]
        rfl
      have hgs : (Source.xlsx a d1).get ext e.2 =
          .ok (.xlsx a { d1 with sheets := d1.sheets.set past.length { x with state := some (s, none) } }, .ok (.sheet s)) := by
        simp only [Source.get, hget, List.getElem?_set_self hlt]
      obtain ⟨s', hs'⟩ := rows_sheet ext _ s texts hdr
      have hmap : ∀ (d : Xlsx.Doc) (i : Nat) (x y : Xlsx.XSheet), d.sheets[i]? = some x → y.name = x.name →
          (d.sheets.set i y).map (·.name) = d.sheets.map (·.name) := by
        intro d i x y hx hy
        refine List.ext_getElem? (fun m => ?_)
        rw [List.getElem?_map, List.getElem?_map, List.getElem?_set]
        split
        · rename_i hj
          subst hj
          obtain ⟨hlt, _⟩ := List.getElem?_eq_some_iff.1 hx
          rw [if_pos hlt, hx, Option.map_some, Option.map_some, hy]
        · rfl
      have hx2 : (d1.sheets.set past.length { x with state := some (s, none) })[past.length]? =
          some { x with state := some (s, none) } := List.getElem?_set_self hlt
      have hfind2 : ({ d1 with sheets := d1.sheets.set past.length { x with state := some (s, none) } } : Xlsx.Doc).find e.2 =
          some past.length := by
        refine find_of hx2 hxn ?_
        intro j hj y hy
        simp only at hy
        rw [List.getElem?_set_ne (by omega)] at hy
        exact hfirst j hj y hy
      have hused : (Source.xlsx a { d1 with sheets := d1.sheets.set past.length { x with state := some (s, none) } }).used e.2
          (.sheet s') = .xlsx a { d1 with sheets := d1.sheets.set past.length { x with state := some (s', none) } } := by
        simp only [Source.used, hfind2, hx2, Option.map_some, List.set_set]
      obtain ⟨tables, m', hall, hrun⟩ := ih (past ++ [e])
        { d1 with sheets := d1.sheets.set past.length { x with state := some (s', none) } } (by rw [he]; simp)
        (by rw [← h1]; exact hmap d1 _ x _ hx1 rfl) h2 h3 h4 (by
          intro j hj
          simp only [List.length_append, List.length_singleton] at hj
          rw [← h5 j (by omega)]
          exact List.getElem?_set_ne (by omega))
      refine ⟨texts :: tables, max m' (s.rows.length + 1), .cons htab hall, fun fuel hfu => ?_⟩
      obtain ⟨ev, hev, e1, e2⟩ := hrun fuel (by omega)
      refine ⟨texts.map println ++ ev, ?_, ?_, ?_⟩
      · simp only [List.map_cons, sheetLoop, hgs, andThen, hs' fuel (by omega), hused, hev]
      · rw [stdout_append, (println_out texts).1, e1]
        simp [tsvText]
      · rw [stderr_append, (println_out texts).2, e2]
        rfl
  obtain ⟨tables, m, hall, hrun⟩ := key b.sheets [] d rfl rfl rfl rfl rfl (fun _ _ => rfl)
  refine ⟨tables, m, hall, fun fuel hfu => ?_⟩
  obtain ⟨ev, hev, h1, h2⟩ := hrun fuel hfu
  refine ⟨ev ++ [], ?_, by rw [List.append_nil, h1], by rw [List.append_nil, h2]⟩
  subst hsrc
  simp only [main, hopen, hl, hev, andThen]

/-- The cells of the second sheet of the example archive; the strings and styles are those of that file. -/
def exPartCells : List ACell :=
  exSheetCells.map (fun x => if x.row = 0 then { x with value := .str (lit "two"), fmt := 0 } else x)

/-- What the sheets of the example archive write. -/
def exPartWrites (id : Bytes) : List Write := if id = lit "rId1" then exPartCells.map ACell.write else []

/-- C82: the example archive of C61 meets the hypotheses. -/
theorem C82_xlsx_witness (ext : Ext) : (exXlsxBook.sheets.map Prod.snd).Nodup ∧
    (∀ e ∈ exXlsxBook.sheets, PartWrites ext exZip exXlsxBook e.1 (0, 0) (exPartWrites e.1)) ∧
    (exPartWrites (lit "rId1")).map (fun w => (w.row, w.col)) = [(0, 0), (11, 27)] := by
  refine ⟨by decide +kernel, ?_, by decide +kernel⟩
  have names : ∀ s ∈ [lit "xl", lit "worksheets"], RealName s := by
    intro s hs
    simp only [List.mem_cons, List.not_mem_nil, or_false] at hs
    rcases hs with rfl | rfl <;> exact realName_of (by decide +kernel)
  have hk : Known (formatterOf exXlsxBook.formats) 0 := rfl
  intro e he
  simp only [exXlsxBook, List.mem_cons, List.not_mem_nil, or_false] at he
  rcases he with rfl | rfl
  · have hname : lit "xl/worksheets/sheet2.xml" = pathOf ([lit "xl", lit "worksheets"] ++ [lit "sheet2.xml"]) := by
      decide +kernel
    have hw : exPartWrites (lit "rId2") = [] := by unfold exPartWrites; rw [if_neg (by decide +kernel)]
    refine ⟨⟨_, List.mem_cons_of_mem _ (List.mem_cons_self ..), rfl, rfl, [lit "xl", lit "worksheets"], lit "sheet2.xml", names,
      (realName_of (by decide +kernel)).1, hname, _, ⟨[_, _, _, _, _], [], rfl, ?_⟩, [], .inl ⟨?_, rfl⟩, ?_⟩, ?_⟩
    · intro e he
      simp only [List.mem_cons, List.not_mem_nil, or_false] at he
      rcases he with rfl | rfl | rfl | rfl | rfl <;> decide +kernel
    · intro e he
      simp only [exZip, List.mem_cons, List.not_mem_nil, or_false] at he
      rcases he with rfl | rfl | rfl | rfl | rfl | rfl <;> decide +kernel
    · simp only
      rw [hw]
      refine .plain _ _ (.other _ _ _ (by unfold Starts sheetNames; decide +kernel) (.other _ _ _ (by unfold Starts; decide +kernel) .nil))
    · simp only
      rw [hw]
      simp
  · have hname : lit "xl/worksheets/sheet1.xml" = pathOf ([lit "xl", lit "worksheets"] ++ [lit "sheet1.xml"]) := by
      decide +kernel
    have hw : exPartWrites (lit "rId1") = exPartCells.map ACell.write := by unfold exPartWrites; rw [if_pos rfl]
    have htoks : exSheetCells.flatMap ACell.toks = exPartCells.flatMap ACell.toks := rfl
    refine ⟨⟨_, List.mem_cons_self .., rfl, rfl, [lit "xl", lit "worksheets"], lit "sheet1.xml", names,
      (realName_of (by decide +kernel)).1, hname, _, ⟨[_, _, _, _], [_], rfl, ?_⟩, [], .inl ⟨?_, rfl⟩, ?_⟩, ?_⟩
    · intro e he
      simp only [List.mem_cons, List.not_mem_nil, or_false] at he
      rcases he with rfl | rfl | rfl | rfl <;> decide +kernel
    · intro e he
      simp only [exZip, List.mem_cons, List.not_mem_nil, or_false] at he
      rcases he with rfl | rfl | rfl | rfl | rfl | rfl <;> decide +kernel
    · simp only
      rw [hw, htoks]
      refine .plain _ _ (cells_toks _ ?_)
      intro x hx
      obtain ⟨y, hy, rfl⟩ := List.mem_map.1 hx
      obtain ⟨h1, h2, h3, ⟨k, h4, h5, _⟩, _⟩ := (C58_witness ext).1 y hy
      simp only [exSheetCells, List.mem_cons, List.not_mem_nil, or_false] at hy
      rcases hy with rfl | rfl
      · refine ⟨h1, h2, h3, ⟨k, h4, h5, rfl⟩, ⟨some (lit "s"), .inr ⟨_, by unfold Has; decide +kernel, rfl⟩, ?_⟩⟩
        refine .value [] [] (lit "v") (lit "1") [] _ (by simp) (by simp) (.inl rfl) ?_
        exact .shared (lit "1") (lit "two") (isDigits_of (by decide +kernel)) (by decide +kernel) (by decide +kernel)
      · refine ⟨h1, h2, h3, ⟨k, h4, h5, rfl⟩, ⟨some (lit "b"), .inr ⟨_, by unfold Has; decide +kernel, rfl⟩, ?_⟩⟩
        refine .formula [] [] [] (lit "A1=2") (lit "1") [] [] _ (by simp) (by simp) (by simp) (by decide +kernel) ?_ ?_
        · exact fun h => absurd (Option.some.inj h) (by decide +kernel)
        · exact .true []
    · simp only
      rw [hw]
      intro w hw
      simp only [exPartCells, exSheetCells, List.map_cons, List.map_nil, List.mem_cons, List.not_mem_nil, or_false] at hw
      rcases hw with rfl | rfl
      · exact hk
      · exact hk

/-- `Get` gives no sheet and no error for a dialog sheet of an xls file. -/
theorem dialog_get (w : World) (ext : Ext) (fn file : Bytes) (hf : w.files fn = .ok file)
    {groups : List (List Record)} (h : Grouped groups) (hp : ∀ r ∈ groups.flatten, r.type ≠ 0x2F) {c : Content}
    (hc : AllGlobals .empty groups c) (hs : StreamIn file (lit "Workbook") (stream groups.flatten))
    (hb : ∀ k ∈ w.bufs, 0 < k) (hbl : (stream groups.flatten).length < w.bufs.length)
    (e : SheetEntry) (after : List SheetEntry) (hx : c.sheets = e :: after) (hv : e.visible = true)
    (i : Nat) (bof : Record) (x y : UInt8) (more : Bytes) (rs : List Record)
    (hi : groups[i]? = some (bof :: ⟨0x81, x :: y :: more⟩ :: rs)) (hpos : e.position = position groups i)
    (hy : y &&& 0x10 ≠ 0) :
    ∃ b n, (∀ k, n ≤ k → ∀ t, Shipped { w with fuel := k } t → openSrc t fn = .ok (.xls b)) ∧
      (Source.xls b).list = utf8 e.name :: (after.filter (·.visible)).map (fun e => utf8 e.name) ∧
      (Source.xls b).get ext (utf8 e.name) = .ok (.xls b, .ok .noSheet) := by
  obtain ⟨b, hl, hlist, _, hget, _⟩ := C45_sheets w.prims makeFormatter h hp hc w.spare
  obtain ⟨n, hn⟩ := open_xls w fn file _ hf hs hb hbl b hl
  obtain ⟨g, hl2, hsubs, _⟩ := load_content w.prims makeFormatter h hp hc w.spare
  rw [hl] at hl2
  cases hl2
  have hbof : bof.type = 0x809 := by
    obtain ⟨b', inner, e', he, hb', _⟩ := h.whole _ (List.mem_of_getElem? hi)
    simp only [List.cons.injEq] at he
    rw [he.1]
    exact hb'
  have hlt : i < groups.length := by
    rw [List.getElem?_eq_some_iff] at hi
    exact hi.1
  have hg := hget ext [] after e i hx (by simp) hlt hpos
  have hsub : (g.subs.map (·.map Xls.Rec.view))[i]? = some (bof :: ⟨0x81, x :: y :: more⟩ :: rs) := by rw [hsubs]; exact hi
  rw [List.getElem?_map] at hsub
  have hnone : Xls.parseSheet ext (Xls.bookOf makeFormatter c g.subs g.pos2) i = .ok none := by
    unfold Xls.parseSheet
    show (match g.subs[i]? with | none => _ | some recs => _) = _
    cases hrecs : g.subs[i]? with
    | none => rw [hrecs] at hsub; cases hsub
    | some recs =>
      rw [hrecs] at hsub
      simp only [Option.map_some, Option.some.injEq] at hsub
      match recs, hsub with
      | r0 :: r1 :: rest, hsub =>
        simp only [List.map_cons, List.cons.injEq] at hsub
        obtain ⟨h0, h1, _⟩ := hsub
        have t0 : r0.type = 0x809 := by rw [← hbof, ← h0]; rfl
        have t1 : r1.type = 129 := congrArg Record.type h1
        have d1 : r1.data.val = x :: y :: more := congrArg Record.data h1
        have hidx : r1.data.idx 1 = .ok y := by
          unfold Slice.idx
          rw [d1]
          rfl
        simp [Xls.pass1, t0, t1, Xls.recBOF, hidx, hy]
  have hlist' : (Source.xls (Xls.bookOf makeFormatter c g.subs g.pos2)).list = utf8 e.name ::
      (after.filter (·.visible)).map (fun e => utf8 e.name) := by
    show Xls.Book.list _ = _
    rw [hlist, hx, List.filter_cons_of_pos (by simpa using hv)]
    rfl
  have hgs : (Source.xls (Xls.bookOf makeFormatter c g.subs g.pos2)).get ext (utf8 e.name) =
      .ok (.xls (Xls.bookOf makeFormatter c g.subs g.pos2), .ok .noSheet) := by
    simp only [Source.get, hg, hnone]
  exact ⟨_, n, hn, hlist', hgs⟩

/-- C82 fails for xls files with a dialog sheet: `Get` gives no sheet for it and no error, and the command crashes,
whatever files follow. -/
theorem C82_counterexample (w : World) (ext : Ext) (v : Bool) (fn file : Bytes) (hf : w.files fn = .ok file)
    {groups : List (List Record)} (h : Grouped groups) (hp : ∀ r ∈ groups.flatten, r.type ≠ 0x2F) {c : Content}
    (hc : AllGlobals .empty groups c) (hs : StreamIn file (lit "Workbook") (stream groups.flatten))
    (hb : ∀ k ∈ w.bufs, 0 < k) (hbl : (stream groups.flatten).length < w.bufs.length)
    (e : SheetEntry) (after : List SheetEntry) (hx : c.sheets = e :: after) (hv : e.visible = true)
    (i : Nat) (bof : Record) (x y : UInt8) (more : Bytes) (rs : List Record)
    (hi : groups[i]? = some (bof :: ⟨0x81, x :: y :: more⟩ :: rs)) (hpos : e.position = position groups i)
    (hy : y &&& 0x10 ≠ 0) :
    ∃ n, ∀ k, n ≤ k → ∀ t, Shipped { w with fuel := k } t → ∀ fuel, 0 < fuel → ∀ fns,
      main ext v fuel t (fn :: fns) = some .panic := by
  obtain ⟨b, n, ho, hlist, hget⟩ := dialog_get w ext fn file hf h hp hc hs hb hbl e after hx hv i bof x y more rs hi hpos hy
  refine ⟨n, fun k hk t ht fuel hfu fns => ?_⟩
  obtain ⟨fuel, rfl⟩ : ∃ m, fuel = m + 1 := ⟨fuel - 1, by omega⟩
  rw [main, ho k hk t ht]
  simp only [hlist, sheetLoop, hget, andThen, rowLoop, Coll.next]

/-- The example workbook with a dialog sheet instead. -/
def dlgBook : List (List Record) :=
  [exBook.headD [], [exBof 0x10, ⟨0x81, [0, 0x10]⟩, ⟨1, List.replicate 151 0⟩, ⟨0x0A, []⟩]]

/-- The file with it. -/
def dlgFile : Bytes := wbFileOf (stream dlgBook.flatten) 0xFFFFFFFE wbSlots

theorem dlgBook_grouped : Grouped dlgBook ∧ ∀ r ∈ dlgBook.flatten, r.type ≠ 0x2F := by
  have pl : ∀ (r : Record) (rs : List Record), (r.type ≠ 0x809 ∧ r.type ≠ 0x0A) → Balanced rs → Balanced (r :: rs) :=
    fun r rs h hb => .plain r rs h.1 h.2 hb
  refine ⟨⟨by unfold Record.Fits; decide +kernel, ?_⟩, by decide +kernel⟩
  intro g hg
  simp only [dlgBook, List.mem_cons, List.not_mem_nil, or_false] at hg
  rcases hg with rfl | rfl
  · exact exBook_grouped.1.whole _ (by simp [exBook])
  · refine ⟨_, [_, _], _, rfl, rfl, rfl, ?_⟩
    iterate 2 refine pl _ _ (by decide) ?_
    exact .nil

theorem dlgBook_content : AllGlobals .empty dlgBook exBookContent := by
  have sk : ∀ (c c' : Content) (r : Record) (rs : List Record), ¬ telling r.type → Globals c rs c' →
      Globals c (r :: rs) c' := fun c c' r rs h => .skip c c' r rs (Or.inr h)
  refine .cons _ exBookContent _ _ _ ?_ (.cons _ exBookContent _ _ _ ?_ (.nil _))
  · have h := exBook_globals
    exact h
  · refine .bof _ _ _ _ _ _ _ (by decide) (by decide) ?_
    iterate 2 refine sk _ _ _ _ (by unfold telling; decide) ?_
    exact .skip _ _ _ _ (Or.inl rfl) (.nil _)

theorem dlgDoc : Spec.Doc dlgFile exHead (table dlgFile 9 [0]) wbSlots where
  header := ⟨_, rfl⟩
  numFAT := by decide
  firstDir := by decide
  firstMiniFAT := by decide
  numMiniFAT := by decide
  firstDIFAT := by decide
  numDIFAT := by decide
  headFAT := by decide
  table := ⟨[], Or.inr ⟨rfl, rfl⟩, by
    intro i hi
    have : i = 0 := by simpa [exHead] using hi
    subst this
    exact ⟨by unfold Regular; decide, by unfold HasSector; decide +kernel⟩, rfl⟩
  dir := ⟨[1], .cons 1 0xFFFFFFFE [] (by decide +kernel) .done, by
    intro i hi
    have : i = 1 := by simpa using hi
    subst this
    exact ⟨by unfold Regular; decide, by unfold HasSector; decide +kernel⟩, by decide +kernel⟩
  slotsOk := by
    intro s hs
    obtain ⟨h1, h2⟩ := wbEntry_ok
    simp only [wbSlots, List.mem_cons, List.not_mem_nil, or_false] at hs
    rcases hs with rfl | rfl | rfl | rfl
    · exact ⟨h1, by decide⟩
    · exact ⟨h2, by decide⟩
    · exact ⟨by decide, by decide⟩
    · exact ⟨by decide, by decide⟩
  root := ⟨wbRoot, exMid, _, rfl, rfl, by decide⟩

theorem dlgStream : StreamIn dlgFile (lit "Workbook") (stream dlgBook.flatten) := by
  have h := StreamIn.small (file := dlgFile) (name := lit "Workbook") exHead _ wbRoot exMid [] [exFree, exFree] wbEntry exMid
    [3] [0, 1, 2, 3, 4] (sector dlgFile 9 3) dlgDoc (by unfold Regular; decide)
    (by unfold HasSector; decide +kernel) (by decide) (by simp) (by decide) (by simp [entries]) (by decide +kernel) rfl (by decide)
    (.cons _ 0xFFFFFFFE _ (by decide +kernel) .done)
    (by
      intro i hi
      have : i = 3 := by simpa using hi
      subst this
      exact ⟨by unfold Regular; decide, by unfold HasSector; decide +kernel⟩) (by decide) (by simp)
    (.cons _ 1 _ (by decide +kernel) (.cons _ 2 _ (by decide +kernel) (.cons _ 3 _ (by decide +kernel)
      (.cons _ 4 _ (by decide +kernel) (.cons _ 0xFFFFFFFE _ (by decide +kernel) .done))))) (by decide)
    (by
      intro i hi
      have hl : (sector dlgFile 9 3).length = 512 := by decide +kernel
      have : i ≤ 4 := by revert i; decide
      refine ⟨by unfold Regular; omega, by omega⟩)
  have e : ((([0, 1, 2, 3, 4] : List Nat).map (miniSector (sector dlgFile 9 3))).flatten).take wbEntry.size =
      stream dlgBook.flatten := by decide +kernel
  rw [e] at h
  exact h

/-- C82: a file with a dialog sheet on which the command crashes. -/
theorem C82_dialog_witness (w : World) (ext : Ext) (v : Bool) (fn : Bytes) (hf : w.files fn = .ok dlgFile)
    (hb : w.bufs = List.replicate 512 512) :
    ∃ n, ∀ k, n ≤ k → ∀ t, Shipped { w with fuel := k } t → ∀ fuel, 0 < fuel → ∀ fns,
      main ext v fuel t (fn :: fns) = some .panic :=
  C82_counterexample w ext v fn _ hf dlgBook_grouped.1 dlgBook_grouped.2 dlgBook_content dlgStream
    (by rw [hb]; intro k hk; rw [(List.mem_replicate.1 hk).2]; decide) (by rw [hb]; decide +kernel)
    exEntry [] rfl (by decide) 1 (exBof 0x10) 0 0x10 [] _ rfl (by decide +kernel) (by decide)

end Grate.Props
