import Verif.Model.Open
import Verif.Spec.Open
import Verif.Props.Cfb
import Verif.Props.Registry
import Verif.Props.Detect
import Verif.Props.XlsSheet
import Verif.Props.XlsxDoc
import Verif.Lemmas.XlsxRels

/-! # C77 to C81: files through `grate.Open` -/

namespace Grate.Props

open Grate Grate.Spec Grate.Api

/-! ### The registered formats -/

/-- The formats registered in the order of their priorities. -/
theorem formats_reach (w : World) : Reachable (formats w) (formats w) := by
  have h1 : Reachable [(⟨"xls", 1, xlsOpen w⟩ : Grate.Entry Source)] [⟨"xls", 1, xlsOpen w⟩] :=
    Reachable.register (hist := []) .init ⟨by simp, by simp⟩
  have h2 := Reachable.register (e := ⟨"xlsx", 5, xlsxOpen w⟩) (t' := [⟨"xls", 1, xlsOpen w⟩, ⟨"xlsx", 5, xlsxOpen w⟩])
    h1 ⟨by simp, by simp⟩
  have h3 := Reachable.register (e := ⟨"tsv", 10, tsvOpen w⟩)
    (t' := [⟨"xls", 1, xlsOpen w⟩, ⟨"xlsx", 5, xlsxOpen w⟩, ⟨"tsv", 10, tsvOpen w⟩]) h2 ⟨by simp, by simp⟩
  exact Reachable.register (e := ⟨"csv", 15, csvOpen w⟩) (t' := formats w) h3 ⟨by simp [formats], by simp [formats]⟩

/-- Whatever the order of registration, the formats are tried in the order xls, xlsx, tsv, csv. -/
theorem open_formats (w : World) {hist t : List (Grate.Entry Source)} (hr : Reachable hist t)
    (hp : hist.Perm (formats w)) (fn : Bytes) : openSrc t fn = openSrc (formats w) fn := by
  refine C01_open_order_independent hr (formats_reach w) hp ?_ fn
  have : ((formats w).map (·.pri)).Nodup := by simp [formats]
  exact (hp.map _).nodup_iff.2 this

/-- The table of formats in a program that imports the packages of all formats, in any order. -/
def Shipped (w : World) (t : List (Grate.Entry Source)) : Prop :=
  ∃ hist, Reachable hist t ∧ hist.Perm (formats w)

theorem shipped_open {w : World} {t : List (Grate.Entry Source)} (h : Shipped w t) (fn : Bytes) :
    openSrc t fn = openSrc (formats w) fn := by
  obtain ⟨hist, hr, hp⟩ := h
  exact open_formats w hr hp fn

theorem shipped_some (w : World) : Shipped w (formats w) := ⟨_, formats_reach w, .refl _⟩

/-! ### C77: xls files -/

theorem stream_reads (data : Slice) (name b : Bytes) (h : StreamIn data.val name b) :
    ∃ d r, (∃ n, ∀ fuel, n ≤ fuel → Cfb.load fuel data = some (.ok d)) ∧ Cfb.openStream d name = .ok r ∧ Reads r b := by
  cases h with
  | large h fat us post e mid mf ids hd hm hus h4 hname hn ht hbig hrun hs h1 h2 =>
    subst hn
    exact C35_file data h fat us post e mid mf ids hd hm hus h4 hname ht hbig hrun hs h1 h2
  | small h fat root rmid us post e mid fids mids M hd hmr hms hmn hus h4 hname hn ht hsm hf hfid hfl hM hmc hml hmid =>
    subst hn
    exact C36_file_partial data h fat root rmid us post e mid fids mids M hd hmr hms hmn hus h4 hname ht hsm hf hfid hfl hM
      hmc hml hmid

/-- Opening an xls file reads its stream `Workbook`. -/
theorem open_xls (w : World) (fn file raw : Bytes) (hf : w.files fn = .ok file) (hs : StreamIn file (lit "Workbook") raw)
    (hb : ∀ k ∈ w.bufs, 0 < k) (hbl : raw.length < w.bufs.length) (b : Xls.Book)
    (hl : Xls.loadStream w.prims makeFormatter w.spare ⟨raw, w.spare⟩ = .ok b) :
    ∃ n, ∀ fuel, n ≤ fuel → ∀ t, Shipped { w with fuel := fuel } t → openSrc t fn = .ok (.xls b) := by
  obtain ⟨d, r, ⟨n, hload⟩, ho, hr⟩ := stream_reads ⟨file, w.cap⟩ _ raw hs
  refine ⟨n, fun fuel hn t ht => ?_⟩
  rw [shipped_open ht]
  have hx : xlsOpen { w with fuel := fuel } fn = .ok (.xls b) := by
    unfold xlsOpen
    simp only [hf]
    unfold Xls.openFile
    rw [hload fuel hn]
    simp only [ho, (hr w.bufs hb).2.1 hbl, hl]
    rfl
  simp [openSrc, openTrace, formats, hx]

/-- The formatter of a workbook with these formats. -/
def formatterOf (formats : List (Nat × Bytes)) : Formatter :=
  formats.foldl (fun f a => (f.add makeFormatter a.1 a.2).1) Formatter.new

theorem addAll_formatter : ∀ (l : List (Nat × List Nat)) (f : Formatter), Xls.addAll makeFormatter l f =
    (l.map (fun a => (a.1, utf8 a.2))).foldl (fun f a => (f.add makeFormatter a.1 a.2).1) f := by
  intro l
  induction l with
  | nil => intro f; rfl
  | cons a l ih =>
    intro f
    rw [List.map_cons, List.foldl_cons]
    exact ih _

/-- C77. A compound file whose stream `Workbook` consists of the records `groups` (not encrypted), in any program with
all formats: `Open` succeeds, `List` are the names of the visible sheets in file order, and `Get` of a sheet gives a
collection with exactly the cells its records describe. Missing: what C36 and C49 leave out (a mini FAT of more than one
sector, cell records outside the format, some Continue records). -/
theorem C77_xls_partial (w : World) (ext : Ext) (fn file : Bytes) (hf : w.files fn = .ok file)
    {groups : List (List Record)} (h : Grouped groups) (hp : ∀ r ∈ groups.flatten, r.type ≠ 0x2F) {c : Content}
    (hc : AllGlobals .empty groups c) (hs : StreamIn file (lit "Workbook") (stream groups.flatten))
    (hb : ∀ k ∈ w.bufs, 0 < k) (hbl : (stream groups.flatten).length < w.bufs.length) :
    ∃ n, ∀ fuel, n ≤ fuel → ∀ t, Shipped { w with fuel := fuel } t → ∃ src, openSrc t fn = .ok src ∧
      src.list = (c.sheets.filter (·.visible)).map (fun e => utf8 e.name) ∧
      (∀ (before after : List SheetEntry) (e : SheetEntry), c.sheets = before ++ e :: after →
        (∀ x ∈ before, utf8 x.name ≠ utf8 e.name) → ∀ (i : Nat) (bof : Record) (rs : List Record),
        groups[i]? = some (bof :: rs) → e.position = position groups i → ∀ mr mc, Declares (0, 0) rs (mr, mc) →
        ∀ ws, SheetRecs c.strings c.styles mr mc rs ws →
        ∃ s, src.get ext (utf8 e.name) = .ok (src, .ok (.sheet s)) ∧
          Holds ext (formatterOf (c.formats.map (fun a => (a.1, utf8 a.2)))) ws s ∧
          SizeIs mr mc ws s ∧ (dimsCount rs ≤ 1 → Rectangular s)) ∧
      (∀ name, (∀ e ∈ c.sheets, utf8 e.name ≠ name) → ∃ er, src.get ext name = .ok (src, .error er)) := by
  obtain ⟨b, hl, hlist, _, _, hnone⟩ := C45_sheets w.prims makeFormatter h hp hc w.spare
  obtain ⟨n, hn⟩ := open_xls w fn file _ hf hs hb hbl b hl
  refine ⟨n, fun fuel hfu t ht => ⟨_, hn fuel hfu t ht, hlist, ?_, ?_⟩⟩
  · intro before after e hx hfirst i bof rs hi hpos mr mc hd ws hw
    obtain ⟨b', s, hl', hg, hh, hsz, hrect⟩ := C49_file_partial w.prims makeFormatter ext h hp hc w.spare before after e hx hfirst
      i bof rs hi hpos mr mc hd ws hw
    obtain ⟨g, hl2, _⟩ := load_content w.prims makeFormatter h hp hc w.spare
    have hnf : b'.nfmt = formatterOf (c.formats.map (fun a => (a.1, utf8 a.2))) := by
      rw [hl'] at hl2
      cases hl2
      exact addAll_formatter _ _
    rw [hl] at hl'
    cases hl'
    rw [hnf] at hh
    exact ⟨s, by simp only [Source.get, hg], hh, hsz, hrect⟩
  · intro name hne
    exact ⟨_, by simp only [Source.get, hnone ext name hne]; rfl⟩

/-! ### C78: xlsx files -/

/-- What is too short for the header of a compound file, or does not begin with its signature. -/
def NotCompound (file : Bytes) : Prop := ¬ signature <+: file ∨ file.length < 512

theorem xls_declines (w : World) (fn file : Bytes) (hf : w.files fn = .ok file) (hn : NotCompound file) :
    xlsOpen w fn = .err .notInFormat := by
  unfold xlsOpen
  simp only [hf]
  unfold Xls.openFile
  rw [C38_declined w.fuel ⟨file, w.cap⟩ hn]
  rfl

/-- C78. A zip archive (not beginning like a compound file) whose parts are a document with the content `b`, in any
program with all formats: `Open` succeeds, `List` are the names of the sheets in the order of the workbook part, and
`Get` of a sheet gives a collection with exactly the cells its part describes. Missing: what C61 leaves out, and Zip and
XML, which are not modelled. -/
theorem C78_xlsx_partial (w : World) (ext : Ext) (fn file : Bytes) (hf : w.files fn = .ok file) (hn : NotCompound file)
    (a : Xlsx.Archive) (hz : w.zip file = .ok a) (ho : ∀ l, (w.order l).Perm l) (dir : List Bytes) (base : Bytes)
    (b : Spec.Book) (h : XlsxFile a dir base b) (t : List (Grate.Entry Source)) (ht : Shipped w t) :
    ∃ src, openSrc t fn = .ok src ∧ src.list = b.sheets.map Prod.snd ∧
      (∀ name, name ∉ b.sheets.map Prod.snd → ∃ er, src.get ext name = .ok (src, .error er)) ∧
      ∀ (i : Nat) (id name : Bytes), b.sheets[i]? = some (id, name) →
        (∀ (j : Nat) (s : Bytes × Bytes), j < i → b.sheets[j]? = some s → s.2 ≠ name) →
        ∀ r ∈ b.rels, r.type = relType "worksheet" → r.id = id → ∀ (sdir : List Bytes) (sbase : Bytes),
        (∀ s ∈ sdir, RealName s) → PathName sbase → r.part = pathOf (sdir ++ [sbase]) → ∀ (ts : List Xlsx.Tok),
        HasPart a r.part ts → ∀ ls : List (Bytes × Bytes),
        ((LacksPart a (relsPart sdir sbase) ∧ ls = []) ∨ ∃ us, HasPart a (relsPart sdir sbase) us ∧ LinkToks us ls) →
        ∀ (m : Nat × Nat) (ws : List Write), WsPart ext b.strings b.styles (targetOf ls) ts m ws →
        ∃ src' s, src.get ext name = .ok (src', .ok (.sheet s)) ∧ Holds ext (formatterOf b.formats) ws s ∧
          SizeIs m.1 m.2 ws s ∧ Rectangular s := by
  obtain ⟨d, hd, hl, _⟩ := C61_open_partial makeFormatter w.order ho a dir base b h
  have hopen : openSrc t fn = .ok (.xlsx a d) := by
    rw [shipped_open ht]
    have hx : xlsxOpen w fn = .ok (.xlsx a d) := by
      unfold xlsxOpen
      simp only [hf, hz, hd]
      rfl
    simp [openSrc, openTrace, formats, xls_declines w fn file hf hn, hx, GoErr.isNotInFormat]
  refine ⟨_, hopen, hl, ?_, ?_⟩
  · intro name hne
    refine ⟨_, by simp only [Source.get, C60_unknown ext a d name (by rw [hl]; exact hne)]; rfl⟩
  · intro i id name hi hfirst r hr hty hid sdir sbase hsd hsb hpart ts hp ls hlk m ws hw
    obtain ⟨d0, d', s, hd0, hg, _, hh, hsz, hrect, x, hx, hst⟩ := C61_sheet_partial makeFormatter ext w.order ho a dir base b h i
      id name hi hfirst r hr hty hid sdir sbase hsd hsb hpart ts hp ls hlk m ws hw
    rw [hd] at hd0
    cases hd0
    refine ⟨.xlsx a d', s, ?_, hh, hsz, hrect⟩
    obtain ⟨xn, xd, xs⟩ := x
    simp only at hst
    subst hst
    simp only [Source.get, hg, hx]

/-! ### C79 to C82: other files -/

/-- The answers of the four formats for a file that is neither a compound file nor a zip archive. -/
theorem open_text (w : World) (fn file : Bytes) (hf : w.files fn = .ok file) (hn : NotCompound file) (ez : GoErr)
    (hz : w.zip file = .error ez) (t : List (Grate.Entry Source)) (ht : Shipped w t) :
    (∀ f, Simple.openTSV w.iter fn (some file) = .ok f → openSrc t fn = .ok (.text f)) ∧
    (∀ e, Simple.openTSV w.iter fn (some file) = .err e → e.isNotInFormat = false → openSrc t fn = .err e) ∧
    (Simple.openTSV w.iter fn (some file) = .err .notInFormat → ∃ e, openSrc t fn = .err e ∧
      (e = .unknownFormat ↔ (w.csv file).2 = .parseError ∨ (w.csv file).1.length < 10)) := by
  have hx : xlsxOpen w fn = .err (wrapErr [ez, .notInFormat]) := by
    unfold xlsxOpen
    simp only [hf, hz]
  have ht1 : ∀ r, Simple.openTSV w.iter fn (some file) = r → tsvOpen w fn = (do pure (.text (← r))) := by
    intro r hr
    unfold tsvOpen
    simp only [hf, hr]
  have hbase : openSrc t fn = (openTrace fn [⟨"tsv", 10, tsvOpen w⟩, ⟨"csv", 15, csvOpen w⟩]).2 := by
    rw [shipped_open ht]
    have h2 := C03_wrap_two ez
    simp [openSrc, openTrace, formats, xls_declines w fn file hf hn, hx, GoErr.isNotInFormat, h2]
  refine ⟨?_, ?_, ?_⟩
  · intro f h
    rw [hbase]
    simp [openTrace, ht1 _ h]
  · intro e h he
    rw [hbase]
    have : tsvOpen w fn = .err e := ht1 _ h
    simp [openTrace, this, he]
  · intro h
    have h1 : tsvOpen w fn = .err .notInFormat := ht1 _ h
    have h2 : csvOpen w fn = (do pure (.text (← Simple.openCSV w.iter fn (some (w.csv file))))) := by
      unfold csvOpen
      simp only [hf]
    rw [hbase]
    cases hc : w.csv file with
    | mk rows fin =>
      rw [hc] at h2
      by_cases hd : fin = .parseError ∨ rows.length < 10
      · obtain ⟨e, he, hni⟩ := C07_csv_declines_partial w.iter fn rows fin hd
        rw [he] at h2
        have h2 : csvOpen w fn = .err e := h2
        refine ⟨.unknownFormat, ?_, by simp [hd]⟩
        simp [openTrace, h1, h2, hni, GoErr.isNotInFormat]
      · have hd' := not_or.1 hd
        have he : Simple.openCSV w.iter fn (some (rows, fin)) = .err fin.toErr := by
          cases fin with
          | parseError => exact absurd rfl hd'.1
          | eof => simp [Simple.openCSV, hd'.2]
          | other s => simp [Simple.openCSV, hd'.2]
        rw [he] at h2
        have h2 : csvOpen w fn = .err fin.toErr := h2
        refine ⟨fin.toErr, ?_, ?_⟩
        · have : fin.toErr.isNotInFormat = false := by cases fin <;> simp [Simple.CsvEnd.toErr, GoErr.isNotInFormat, GoErr.unwrap]
          simp [openTrace, h1, h2, this, GoErr.isNotInFormat]
        · simp only [hd, iff_false]
          cases fin <;> simp [Simple.CsvEnd.toErr]

/-- C79. A text file (neither a compound file nor a zip archive) without lines of 64 KiB that the rule of C06 does not
decline, in any program with all formats: `Open` succeeds; the source lists one sheet, the base name of the file; `Get`
with any name gives the collection whose rows are the lines of the file split at tabs. -/
theorem C79_text (w : World) (ext : Ext) (dir : List Bytes) (base : Bytes) (hb : PathName base) (file : Bytes)
    (hf : w.files (pathOf (dir ++ [base])) = .ok file) (hn : NotCompound file)
    (ez : GoErr) (hz : w.zip file = .error ez) (hi : ∀ m, (w.iter m).Perm m) (lines : List Bytes)
    (rows : List (List Bytes)) (hlong : ¬ HasLongLine file) (hl : LinesOf file lines) (hr : All2 FieldsOf lines rows)
    (hsize : rows.length < 2 ^ 50) (hd : ¬ Declined rows) (t : List (Grate.Entry Source)) (ht : Shipped w t) :
    ∃ f, openSrc t (pathOf (dir ++ [base])) = .ok (.text f) ∧ (Source.text f).list = [base] ∧
      (∀ name, (Source.text f).get ext name = .ok (.text f, .ok (.text f))) ∧
      drain Simple.File.next Simple.File.strings (rows.length + 1) f = some (.ok rows) := by
  have ho := (C06_rule w.iter hi (pathOf (dir ++ [base])) file lines rows hlong hl hr hsize).2 hd
  refine ⟨_, (open_text w _ file hf hn ez hz t ht).1 _ ho, ?_, fun _ => rfl, C08_drain _ rfl⟩
  show [Simple.basePath (pathOf (dir ++ [base]))] = [base]
  rw [Xlsx.basePath_spec dir base hb]

/-- Few rows are never declined. -/
theorem few_rows {rows : List (List Bytes)} (h : rows.length ≤ 25) : ¬ Declined rows := by
  rintro ⟨⟨w, _, hw⟩, _⟩
  have := widthCount_le rows w
  omega

/-- Rows of one field are never declined. -/
theorem one_field {rows : List (List Bytes)} (h : ∀ r ∈ rows, r.length ≤ 1) : ¬ Declined rows := by
  rintro ⟨⟨w, h2, hw⟩, _⟩
  have : widthCount rows w = 0 := by
    unfold widthCount
    rw [List.length_eq_zero_iff, List.filter_eq_nil_iff]
    intro r hr he
    have := h r hr
    have := of_decide_eq_true he
    omega
  omega

/-! ### C80: CSV files -/

/-- A field that is written in CSV as it is, without tabs. -/
def PlainField (c : Bytes) : Prop := ∀ b ∈ c, b ≠ 44 ∧ b ≠ 34 ∧ b ≠ 9 ∧ b ≠ 10 ∧ b ≠ 13

/-- A table written as CSV. -/
def csvText (rows : List (List Bytes)) : Bytes := rows.flatMap (fun r => [(44 : UInt8)].intercalate r ++ [10])

theorem mem_intercalate {s b : UInt8} : ∀ {r : List Bytes}, b ∈ [s].intercalate r → b = s ∨ ∃ c ∈ r, b ∈ c := by
  intro r
  induction r with
  | nil => intro h; simp [List.intercalate] at h
  | cons c cs ih =>
    intro h
    cases cs with
    | nil => simp [List.intercalate] at h; exact .inr ⟨c, by simp, h⟩
    | cons d ds =>
      have e : [s].intercalate (c :: d :: ds) = c ++ s :: [s].intercalate (d :: ds) := by simp [List.intercalate]
      rw [e, List.mem_append, List.mem_cons] at h
      rcases h with h | h | h
      · exact .inr ⟨c, by simp, h⟩
      · exact .inl h
      · rcases ih h with h | ⟨x, hx, hb⟩
        · exact .inl h
        · exact .inr ⟨x, by simp [hx], hb⟩

theorem long_printed (lines : List Bytes) (h : ∀ l ∈ lines, (10 : UInt8) ∉ l) (hs : ∀ l ∈ lines, l.length < 65536) :
    ¬ HasLongLine (printed lines) := by
  rw [← Simple.longLine_iff]
  have hraw : ∀ ls : List Bytes, (∀ l ∈ ls, (10 : UInt8) ∉ l) → Simple.rawLines (printed ls) = ls := by
    intro ls
    induction ls with
    | nil => intro _; rfl
    | cons l ls ih =>
      intro h
      have : printed (l :: ls) = l ++ 10 :: printed ls := by simp [printed]
      rw [this, Simple.rawLines_append _ _ (h l (by simp)), ih (fun x hx => h x (by simp [hx]))]
  rw [hraw lines h]
  intro ha
  obtain ⟨l, hl, hlong⟩ := List.any_eq_true.1 ha
  have h1 := hs l hl
  have h2 := of_decide_eq_true hlong
  simp only [Simple.maxTokenSize] at h2
  omega

/-- What `Open` makes of CSV files: every row has one field, which is the whole line. -/
theorem csv_lines (w : World) (fn : Bytes) (rows : List (List Bytes)) (hp : ∀ r ∈ rows, ∀ c ∈ r, PlainField c)
    (hlen : ∀ r ∈ rows, ([(44 : UInt8)].intercalate r).length < 65536) (hf : w.files fn = .ok (csvText rows))
    (hn : NotCompound (csvText rows)) (ez : GoErr) (hz : w.zip (csvText rows) = .error ez)
    (hi : ∀ m, (w.iter m).Perm m) (hsize : rows.length < 2 ^ 50) (t : List (Grate.Entry Source)) (ht : Shipped w t) :
    openSrc t fn = .ok (.text ⟨fn, rows.map (fun r => [[(44 : UInt8)].intercalate r]), -1⟩) := by
  have he : csvText rows = tsvText (rows.map (fun r => [[(44 : UInt8)].intercalate r])) := by
    unfold csvText tsvText
    rw [List.flatMap_map]
    apply List.flatMap_congr
    intro r _
    simp [List.intercalate]
  have hb : ∀ r ∈ rows, ∀ b ∈ [(44 : UInt8)].intercalate r, b ≠ 9 ∧ b ≠ 10 ∧ b ≠ 13 := by
    intro r hr b hb
    rcases mem_intercalate hb with rfl | ⟨c, hc, hb⟩
    · decide
    · have := hp r hr c hc b hb
      exact ⟨this.2.2.1, this.2.2.2⟩
  have hl := linesOf_tsvText (rows.map (fun r => [[(44 : UInt8)].intercalate r])) (by
    intro r hr c hc
    obtain ⟨r', hr', rfl⟩ := List.mem_map.1 hr
    rw [List.mem_singleton] at hc
    subst hc
    exact ⟨fun h => (hb r' hr' _ h).2.1 rfl, fun h => (hb r' hr' _ h).2.2 rfl⟩)
  have hfields : All2 FieldsOf ((rows.map (fun r => [[(44 : UInt8)].intercalate r])).map ([(9 : UInt8)].intercalate ·))
      (rows.map (fun r => [[(44 : UInt8)].intercalate r])) := by
    clear hl he hz hn hf hsize hlen hp
    induction rows with
    | nil => exact .nil
    | cons r rs ih =>
      refine .cons ⟨by simp, ?_, rfl⟩ (ih (fun r' hr' => hb r' (by simp [hr'])))
      intro c hc
      rw [List.mem_singleton] at hc
      subst hc
      exact fun h => (hb r (by simp) _ h).1 rfl
  have hlong : ¬ HasLongLine (csvText rows) := by
    have := long_printed (rows.map ([(44 : UInt8)].intercalate ·)) ?_ ?_
    · rw [printed, List.flatMap_map] at this
      exact this
    · intro l hl
      obtain ⟨r, hr, rfl⟩ := List.mem_map.1 hl
      exact fun h => (hb r hr _ h).2.1 rfl
    · intro l hl
      obtain ⟨r, hr, rfl⟩ := List.mem_map.1 hl
      exact hlen r hr
  rw [← he] at hl
  exact (open_text w fn _ hf hn ez hz t ht).1 _ ((C06_rule w.iter hi fn _ _ _ hlong hl hfields (by simpa using hsize)).2
    (one_field (by intro r hr; obtain ⟨_, _, rfl⟩ := List.mem_map.1 hr; simp)))

/-- C80, as far as it holds: a CSV file with one column of plain fields comes back as it is. Missing: files with more
columns, for which it is false. -/
theorem C80_column_partial (w : World) (fn : Bytes) (cells : List Bytes) (hp : ∀ c ∈ cells, PlainField c)
    (hlen : ∀ c ∈ cells, c.length < 65536) (hf : w.files fn = .ok (csvText (cells.map ([·]))))
    (hn : NotCompound (csvText (cells.map ([·])))) (ez : GoErr) (hz : w.zip (csvText (cells.map ([·]))) = .error ez)
    (hi : ∀ m, (w.iter m).Perm m) (hsize : cells.length < 2 ^ 50) (t : List (Grate.Entry Source)) (ht : Shipped w t) :
    ∃ f, openSrc t fn = .ok (.text f) ∧
      drain Simple.File.next Simple.File.strings (cells.length + 1) f = some (.ok (cells.map ([·]))) := by
  have hone : ∀ c : Bytes, [(44 : UInt8)].intercalate [c] = c := by intro c; simp [List.intercalate]
  refine ⟨_, csv_lines w fn (cells.map ([·])) ?_ ?_ hf hn ez hz hi (by simpa using hsize) t ht, ?_⟩
  · intro r hr c hc
    obtain ⟨c', hc', rfl⟩ := List.mem_map.1 hr
    rw [List.mem_singleton] at hc
    subst hc
    exact hp c hc'
  · intro r hr
    obtain ⟨c', hc', rfl⟩ := List.mem_map.1 hr
    rw [hone]
    exact hlen c' hc'
  · have he : (cells.map ([·])).map (fun r => [[(44 : UInt8)].intercalate r]) = cells.map ([·]) := by
      rw [List.map_map]
      apply List.map_congr_left
      intro c _
      simp only [Function.comp, hone]
    rw [he]
    have := C08_drain ⟨fn, cells.map ([·]), -1⟩ rfl
    simpa using this

/-- C80 is false for every CSV file with a row of two or more fields: it opens, but as a text with one field per line.
(This is the reader the command-line tools use.) -/
theorem C80_counterexample (w : World) (fn : Bytes) (rows : List (List Bytes)) (hp : ∀ r ∈ rows, ∀ c ∈ r, PlainField c)
    (hlen : ∀ r ∈ rows, ([(44 : UInt8)].intercalate r).length < 65536) (hf : w.files fn = .ok (csvText rows))
    (hn : NotCompound (csvText rows)) (ez : GoErr) (hz : w.zip (csvText rows) = .error ez)
    (hi : ∀ m, (w.iter m).Perm m) (hsize : rows.length < 2 ^ 50) (hmany : ∃ r ∈ rows, 2 ≤ r.length)
    (t : List (Grate.Entry Source)) (ht : Shipped w t) :
    ∃ f got, openSrc t fn = .ok (.text f) ∧
      drain Simple.File.next Simple.File.strings (rows.length + 1) f = some (.ok got) ∧ got ≠ rows ∧
      ∀ r ∈ got, r.length = 1 := by
  refine ⟨_, rows.map (fun r => [[(44 : UInt8)].intercalate r]), csv_lines w fn rows hp hlen hf hn ez hz hi hsize t ht, ?_, ?_, ?_⟩
  · have := C08_drain ⟨fn, rows.map (fun r => [[(44 : UInt8)].intercalate r]), -1⟩ rfl
    simpa using this
  · intro he
    obtain ⟨r, hr, h2⟩ := hmany
    rw [← he] at hr
    obtain ⟨r', _, rfl⟩ := List.mem_map.1 hr
    simp at h2
  · intro r hr
    obtain ⟨r', _, rfl⟩ := List.mem_map.1 hr
    rfl

/-! ### C81: files that are in no format -/

/-- C81, as far as it holds: exactly when `Open` answers ErrUnknownFormat, for a file that is neither a compound file
nor a zip archive: no line has 64 KiB, the rule of C06 declines its lines, and it has fewer than ten CSV records or is
not CSV. Missing: that all files which are in none of the formats are answered so, which is false. -/
theorem C81_unknown_partial (w : World) (fn file : Bytes) (hf : w.files fn = .ok file) (hn : NotCompound file)
    (ez : GoErr) (hz : w.zip file = .error ez) (hi : ∀ m, (w.iter m).Perm m) (lines : List Bytes)
    (rows : List (List Bytes)) (hl : LinesOf file lines) (hr : All2 FieldsOf lines rows) (hsize : rows.length < 2 ^ 50)
    (t : List (Grate.Entry Source)) (ht : Shipped w t) :
    openSrc t fn = .err .unknownFormat ↔ ¬ HasLongLine file ∧ Declined rows ∧
      ((w.csv file).2 = .parseError ∨ (w.csv file).1.length < 10) := by
  obtain ⟨o1, o2, o3⟩ := open_text w fn file hf hn ez hz t ht
  by_cases hlong : HasLongLine file
  · obtain ⟨e, he, hne⟩ := (C05_tsv_lossless w.iter fn file).1 hlong
    have hlt := (Simple.longLine_iff file).2 hlong
    have he2 : Simple.openTSV w.iter fn (some file) = .err (.msg "bufio.Scanner: token too long") := by
      simp [Simple.openTSV, Simple.scanLines, hlt]
    rw [o2 _ he2 (by simp [GoErr.isNotInFormat, GoErr.unwrap])]
    simp [hlong]
  · obtain ⟨r1, r2⟩ := C06_rule w.iter hi fn file lines rows hlong hl hr hsize
    by_cases hd : Declined rows
    · obtain ⟨e, he, hiff⟩ := o3 (r1 hd)
      rw [he]
      simp only [GoRes.err.injEq, hiff, hlong, not_false_eq_true, hd, true_and]
    · rw [o1 _ (r2 hd)]
      simp [hd]

/-- C81 is false: every file of at most 25 lines that is neither a compound file nor a zip archive opens as a text,
whatever it is. -/
theorem C81_counterexample (w : World) (fn file : Bytes) (hf : w.files fn = .ok file) (hn : NotCompound file)
    (ez : GoErr) (hz : w.zip file = .error ez) (hi : ∀ m, (w.iter m).Perm m) (lines : List Bytes)
    (hlong : ¬ HasLongLine file) (hl : LinesOf file lines) (hfew : lines.length ≤ 25)
    (t : List (Grate.Entry Source)) (ht : Shipped w t) : ∃ f, openSrc t fn = .ok (.text f) := by
  have hr : ∀ ls : List Bytes, ∃ rows, All2 FieldsOf ls rows ∧ rows.length = ls.length := by
    intro ls
    induction ls with
    | nil => exact ⟨[], .nil, rfl⟩
    | cons l ls ih =>
      obtain ⟨rows, h, e⟩ := ih
      exact ⟨splitByte 9 l :: rows, .cons ⟨Simple.splitByte_ne_nil 9 l, (Simple.splitByte_spec 9 l).1, (Simple.splitByte_spec 9 l).2⟩ h,
        by simp [e]⟩
  obtain ⟨rows, hr, hlen⟩ := hr lines
  exact ⟨_, (open_text w fn file hf hn ez hz t ht).1 _ ((C06_rule w.iter hi fn file lines rows hlong hl hr (by omega)).2
    (few_rows (by omega)))⟩

/-- C81: the first bytes of a PNG image are such a file. -/
theorem C81_witness : NotCompound [137, 80, 78, 71, 13, 10, 26, 10, 0, 0, 0, 13] ∧
    ¬ HasLongLine [137, 80, 78, 71, 13, 10, 26, 10, 0, 0, 0, 13] ∧
    LinesOf [137, 80, 78, 71, 13, 10, 26, 10, 0, 0, 0, 13] [[137, 80, 78, 71], [26], [0, 0, 0]] := by
  refine ⟨.inr (by decide), ?_, ?_⟩
  · rintro ⟨a, l, b, h, hl, _⟩
    have := congrArg List.length h
    simp at this
    omega
  · refine .crlf (l := [137, 80, 78, 71]) (by decide) (.lf (l := [26]) (by decide) (by decide) ?_)
    exact .lastCR (l := [0, 0, 0]) (by decide)

/-- C79: a file of two lines with two fields meets the hypotheses. -/
theorem C79_witness : NotCompound [97, 9, 98, 10, 99, 9, 10] ∧ LinesOf [97, 9, 98, 10, 99, 9, 10] [[97, 9, 98], [99, 9]] ∧
    All2 FieldsOf [[97, 9, 98], [99, 9]] [[[97], [98]], [[99], []]] ∧ ¬ HasLongLine [97, 9, 98, 10, 99, 9, 10] ∧
    ¬ Declined [[[97], [98]], [[99], []]] := by
  refine ⟨.inr (by decide), .lf (l := [97, 9, 98]) (by decide) (by decide) (.lf (l := [99, 9]) (by decide) (by decide) .nil),
    .cons ?_ (.cons ?_ .nil), ?_, few_rows (by decide)⟩
  · unfold FieldsOf; decide +kernel
  · unfold FieldsOf; decide +kernel
  · rintro ⟨a, l, b, h, hl, _⟩
    have := congrArg List.length h
    simp at this
    omega

/-- C80: a table with two columns, and one with one column, meet the hypotheses. -/
theorem C80_witness : (∀ r ∈ [[lit "a", lit "b"], [lit "1", lit "2"]], ∀ c ∈ r, PlainField c) ∧
    csvText [[lit "a", lit "b"], [lit "1", lit "2"]] = lit "a,b\n1,2\n" ∧
    NotCompound (csvText [[lit "a", lit "b"], [lit "1", lit "2"]]) ∧
    (∃ r ∈ [[lit "a", lit "b"], [lit "1", lit "2"]], 2 ≤ r.length) ∧
    (∀ c ∈ [lit "a", lit "1"], PlainField c) ∧ NotCompound (csvText ([lit "a", lit "1"].map ([·]))) := by
  refine ⟨by unfold PlainField; decide +kernel, by decide +kernel, .inr (by decide +kernel), ⟨_, List.mem_cons_self .., by decide⟩,
    by unfold PlainField; decide +kernel, .inr (by decide +kernel)⟩

/-! ### C83: files that cannot be opened -/

/-- C83. A file that cannot be opened or read, whatever the formats and their order: `Open` returns the error of the
operating system (which does not call the file one of another format). -/
theorem C83_missing (w : World) (fn : Bytes) (e : GoErr) (hf : w.files fn = .error e) (he : ¬ Recognised e)
    (t : List (Grate.Entry Source)) (ht : Shipped w t) : openSrc t fn = .err e := by
  rw [shipped_open ht]
  have hn : e.isNotInFormat = false := by
    cases h : e.isNotInFormat with
    | false => rfl
    | true => exact absurd ((C03_only_second e).1 h) he
  have hx : xlsOpen w fn = .err e := by
    unfold xlsOpen
    simp only [hf]
  simp [openSrc, openTrace, formats, hx, hn]

/-! ### Example files -/

/-- The name `Workbook`. -/
def wbName : List Nat := [87, 111, 114, 107, 98, 111, 111, 107]

/-- The root entry: the mini stream is sector 3. -/
def wbRoot : Spec.Entry := { name := [82], objType := 5, start := 3, size := 512 }
/-- The entry of the stream `Workbook`. -/
def wbEntry : Spec.Entry := { name := wbName, objType := 2, start := 0, size := 261 }

/-- A compound file with a workbook: sector 0 is the FAT, 1 the first sector of the directory, 2 the mini FAT, 3 the
mini stream, and 4 the second sector of the directory, if there is one. -/
def wbFileOf (content : Bytes) (next : Nat) (slots : List Slot) : Bytes :=
  exHead.bytes ++ (([0xFFFFFFFD, next, 0xFFFFFFFE, 0xFFFFFFFE, 0xFFFFFFFE] ++ List.replicate 123 0xFFFFFFFF).flatMap (leBytes 4) ++
    ((slots.take 4).flatMap Slot.bytes ++ (([1, 2, 3, 4, 0xFFFFFFFE] ++ List.replicate 123 0xFFFFFFFF).flatMap (leBytes 4) ++
    (content ++ List.replicate 251 0 ++ (slots.drop 4).flatMap Slot.bytes))))

/-- The file with the workbook of C49. -/
def wbFile (next : Nat) (slots : List Slot) : Bytes := wbFileOf (stream exBook.flatten) next slots

/-- A usual directory. -/
def wbSlots : List Slot := [.used wbRoot exMid, .used wbEntry exMid, exFree, exFree]

/-- A directory with the workbook as its fifth entry. -/
def lateSlots : List Slot :=
  [.used wbRoot exMid, .used (ex5Stream 65) exMid, .used (ex5Stream 66) exMid, .used (ex5Stream 67) exMid,
   .used wbEntry exMid, exFree, exFree, exFree]

theorem wbEntry_ok : wbRoot.Ok ∧ wbEntry.Ok := by
  refine ⟨⟨?_, ?_, ?_, ?_, ?_⟩, ⟨?_, ?_, ?_, ?_, ?_⟩⟩ <;> decide

theorem wbDoc : Spec.Doc (wbFile 0xFFFFFFFE wbSlots) exHead (table (wbFile 0xFFFFFFFE wbSlots) 9 [0]) wbSlots where
  header := ⟨_, rfl⟩
  numFAT := by decide
  firstDir := by decide
  firstMiniFAT := by decide
  numMiniFAT := by decide
  firstDIFAT := by decide
  numDIFAT := by decide
  headFAT := by decide
  table := ⟨[], Or.inr ⟨rfl, rfl⟩, by
    intro i hi
    have : i = 0 := by simpa [exHead] using hi
    subst this
    exact ⟨by unfold Regular; decide, by unfold HasSector; decide +kernel⟩, rfl⟩
  dir := ⟨[1], .cons 1 0xFFFFFFFE [] (by decide +kernel) .done, by
    intro i hi
    have : i = 1 := by simpa using hi
    subst this
    exact ⟨by unfold Regular; decide, by unfold HasSector; decide +kernel⟩, by decide +kernel⟩
  slotsOk := by
    intro s hs
    obtain ⟨h1, h2⟩ := wbEntry_ok
    simp only [wbSlots, List.mem_cons, List.not_mem_nil, or_false] at hs
    rcases hs with rfl | rfl | rfl | rfl
    · exact ⟨h1, by decide⟩
    · exact ⟨h2, by decide⟩
    · exact ⟨by decide, by decide⟩
    · exact ⟨by decide, by decide⟩
  root := ⟨wbRoot, exMid, _, rfl, rfl, by decide⟩

theorem wbStream : StreamIn (wbFile 0xFFFFFFFE wbSlots) (lit "Workbook") (stream exBook.flatten) := by
  have h := StreamIn.small (file := wbFile 0xFFFFFFFE wbSlots) (name := lit "Workbook") exHead _ wbRoot exMid [] [exFree, exFree] wbEntry exMid
    [3] [0, 1, 2, 3, 4] (sector (wbFile 0xFFFFFFFE wbSlots) 9 3) wbDoc (by unfold Regular; decide)
    (by unfold HasSector; decide +kernel) (by decide) (by simp) (by decide) (by simp [entries]) (by decide +kernel) rfl (by decide)
    (.cons _ 0xFFFFFFFE _ (by decide +kernel) .done)
    (by
      intro i hi
      have : i = 3 := by simpa using hi
      subst this
      exact ⟨by unfold Regular; decide, by unfold HasSector; decide +kernel⟩) (by decide) (by simp)
    (.cons _ 1 _ (by decide +kernel) (.cons _ 2 _ (by decide +kernel) (.cons _ 3 _ (by decide +kernel)
      (.cons _ 4 _ (by decide +kernel) (.cons _ 0xFFFFFFFE _ (by decide +kernel) .done))))) (by decide)
    (by
      intro i hi
      have hl : (sector (wbFile 0xFFFFFFFE wbSlots) 9 3).length = 512 := by decide +kernel
      have : i ≤ 4 := by revert i; decide
      refine ⟨by unfold Regular; omega, by omega⟩)
  have e : ((([0, 1, 2, 3, 4] : List Nat).map (miniSector (sector (wbFile 0xFFFFFFFE wbSlots) 9 3))).flatten).take wbEntry.size =
      stream exBook.flatten := by decide +kernel
  rw [e] at h
  exact h

/-- C77: the example file meets the hypotheses; `Open`, `List` and `Get` on it. -/
theorem C77_witness (w : World) (ext : Ext) (fn : Bytes) (hf : w.files fn = .ok (wbFile 0xFFFFFFFE wbSlots))
    (hb : w.bufs = List.replicate 512 512) :
    ∃ n, ∀ fuel, n ≤ fuel → ∀ t, Shipped { w with fuel := fuel } t → ∃ src, openSrc t fn = .ok src ∧
      src.list = [lit "S"] ∧ ∃ s, src.get ext (lit "S") = .ok (src, .ok (.sheet s)) ∧ Holds ext Formatter.new exWrites s := by
  obtain ⟨n, hn⟩ := C77_xls_partial w ext fn _ hf exBook_grouped.1 exBook_grouped.2 exBook_content wbStream
    (by rw [hb]; intro k hk; rw [(List.mem_replicate.1 hk).2]; decide)
    (by rw [hb]; decide +kernel)
  refine ⟨n, fun fuel hfu t ht => ?_⟩
  obtain ⟨src, h1, h2, h3, _⟩ := hn fuel hfu t ht
  obtain ⟨s, g1, g2, _⟩ := h3 [] [] exEntry rfl (by simp) 1 (exBof 0x10) exSheet rfl (by decide +kernel) 4 4
    exSheet_declares exWrites exSheet_recs
  exact ⟨src, h1, h2, s, g1, g2⟩

/-- What becomes of compound documents whose first four directory entries are not a stream `Workbook`: the xls format
declines them, and a file of at most 25 lines that is not a zip archive opens as a text. -/
theorem open_compound (w : World) (fn file : Bytes) (hf : w.files fn = .ok file) (h : Head) (fat : List Nat)
    (slots : List Slot) (mf : List Nat) (hd : Spec.Doc file h fat slots) (hm : MiniLoaded file h mf)
    (habs : ∀ e ∈ entries (slots.take 4), e.label ≠ lit "Workbook") (ez : GoErr) (hz : w.zip file = .error ez)
    (hi : ∀ m, (w.iter m).Perm m) (lines : List Bytes) (hlong : ¬ HasLongLine file) (hl : LinesOf file lines)
    (hfew : lines.length ≤ 25) :
    ∃ n, ∀ fuel, n ≤ fuel → ∀ t, Shipped { w with fuel := fuel } t → ∃ f, openSrc t fn = .ok (.text f) := by
  obtain ⟨d, ⟨n, hload⟩, ho, _⟩ := C39_actual ⟨file, w.cap⟩ h fat slots mf (lit "Workbook") hd hm habs
  refine ⟨n, fun fuel hn t ht => ?_⟩
  rw [shipped_open ht]
  have hx : xlsOpen { w with fuel := fuel } fn = .err (wrapErr [Cfb.notFound, .notInFormat]) := by
    unfold xlsOpen
    simp only [hf]
    unfold Xls.openFile
    rw [hload fuel hn]
    simp only [ho]
    rfl
  have hz2 : xlsxOpen { w with fuel := fuel } fn = .err (wrapErr [ez, .notInFormat]) := by
    unfold xlsxOpen
    simp only [hf, hz]
  have hr : ∀ ls : List Bytes, ∃ rows, All2 FieldsOf ls rows ∧ rows.length = ls.length := by
    intro ls
    induction ls with
    | nil => exact ⟨[], .nil, rfl⟩
    | cons l ls ih =>
      obtain ⟨rows, h, e⟩ := ih
      exact ⟨splitByte 9 l :: rows, .cons ⟨Simple.splitByte_ne_nil 9 l, (Simple.splitByte_spec 9 l).1, (Simple.splitByte_spec 9 l).2⟩ h,
        by simp [e]⟩
  obtain ⟨rows, hr, hlen⟩ := hr lines
  have ho2 := (C06_rule w.iter hi fn file lines rows hlong hl hr (by omega)).2 (few_rows (by omega))
  have ht2 : tsvOpen { w with fuel := fuel } fn = .ok (.text ⟨fn, rows, -1⟩) := by
    unfold tsvOpen
    simp only [hf, ho2]
    rfl
  refine ⟨⟨fn, rows, -1⟩, ?_⟩
  simp [openSrc, openTrace, formats, hx, hz2, ht2, C03_wrap_two]

theorem short_lines {file : Bytes} (h : file.length < 65536) : ¬ HasLongLine file := by
  rintro ⟨a, l, b, rfl, hl, _⟩
  simp at h
  omega

theorem lateDoc : Spec.Doc (wbFile 4 lateSlots) exHead (table (wbFile 4 lateSlots) 9 [0]) lateSlots where
  header := ⟨_, rfl⟩
  numFAT := by decide
  firstDir := by decide
  firstMiniFAT := by decide
  numMiniFAT := by decide
  firstDIFAT := by decide
  numDIFAT := by decide
  headFAT := by decide
  table := ⟨[], Or.inr ⟨rfl, rfl⟩, by
    intro i hi
    have : i = 0 := by simpa [exHead] using hi
    subst this
    exact ⟨by unfold Regular; decide, by unfold HasSector; decide +kernel⟩, rfl⟩
  dir := ⟨[1, 4], .cons 1 4 _ (by decide +kernel) (.cons 4 0xFFFFFFFE [] (by decide +kernel) .done), by
    intro i hi
    have : i = 1 ∨ i = 4 := by simpa using hi
    rcases this with rfl | rfl
    · exact ⟨by unfold Regular; decide, by unfold HasSector; decide +kernel⟩
    · exact ⟨by unfold Regular; decide, by unfold HasSector; decide +kernel⟩, by decide +kernel⟩
  slotsOk := by
    have hst : ∀ c, c < 65536 → (ex5Stream c).Ok := fun c hc =>
      ⟨by simp [ex5Stream], by intro u hu; have : u = c := by simpa [ex5Stream] using hu
                               omega, by simp [ex5Stream], by simp [ex5Stream], by simp [ex5Stream]⟩
    intro s hs
    simp only [lateSlots, List.mem_cons, List.not_mem_nil, or_false] at hs
    rcases hs with rfl | rfl | rfl | rfl | rfl | rfl | rfl | rfl
    · exact ⟨wbEntry_ok.1, by decide⟩
    · exact ⟨hst _ (by decide), by decide⟩
    · exact ⟨hst _ (by decide), by decide⟩
    · exact ⟨hst _ (by decide), by decide⟩
    · exact ⟨wbEntry_ok.2, by decide⟩
    · exact ⟨by decide, by decide⟩
    · exact ⟨by decide, by decide⟩
    · exact ⟨by decide, by decide⟩
  root := ⟨wbRoot, exMid, _, rfl, rfl, by decide⟩

/-- C77 is false without its limits: the same workbook as the fifth entry of the directory opens as a text. (Its bytes
are those of `C77_witness`.) -/
theorem C77_counterexample (w : World) (fn : Bytes) (hf : w.files fn = .ok (wbFile 4 lateSlots)) (ez : GoErr)
    (hz : w.zip (wbFile 4 lateSlots) = .error ez) (hi : ∀ m, (w.iter m).Perm m) :
    ∃ n, ∀ fuel, n ≤ fuel → ∀ t, Shipped { w with fuel := fuel } t → ∃ f, openSrc t fn = .ok (.text f) :=
  open_compound w fn _ hf exHead _ lateSlots _ lateDoc
    (.one (by unfold Regular; decide) (by unfold HasSector; decide +kernel) (by decide)) (by decide +kernel) ez hz hi
    _ (short_lines (by decide +kernel)) (Simple.linesOf_rawLines _) (by decide +kernel)

/-- C81 is false for other compound documents, too: this one has four streams, none of them a workbook, and opens as a
text. -/
theorem C81_compound_counterexample (w : World) (fn : Bytes) (hf : w.files fn = .ok ex5File) (ez : GoErr)
    (hz : w.zip ex5File = .error ez) (hi : ∀ m, (w.iter m).Perm m) :
    ∃ n, ∀ fuel, n ≤ fuel → ∀ t, Shipped { w with fuel := fuel } t → ∃ f, openSrc t fn = .ok (.text f) :=
  open_compound w fn _ hf ex5Head _ ex5Slots _ ex5Doc (.none rfl) (by decide +kernel) ez hz hi
    _ (short_lines (by decide +kernel)) (Simple.linesOf_rawLines _) (by decide +kernel)

end Grate.Props
