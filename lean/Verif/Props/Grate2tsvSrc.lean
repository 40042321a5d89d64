import Verif.Lemmas.SourceReads
import Verif.Props.Grate2tsv

/-! # C106: what `grate2tsv` writes for the files it is given -/

namespace Grate.Props

open Grate Grate.Spec Grate.Api
open Grate.G2t (srcLoop processSrc outPath Out Stats collEmpty addTo drainColl)
open Grate.Grater (andThen)

/-- What is done about a sheet with these rows: the file written, if any, and the entry of the report. -/
def Exported (hex : Bytes → Bytes) (fn name : Bytes) (rows : List (List Bytes)) (skipped : Prop) (y : Option Out × Stats) : Prop :=
  y.2.filename = fn ∧ y.2.sheet = name ∧ y.2.err = none ∧
  (skipped → y.1 = none ∧ y.2.counts.numRows = 0) ∧
  (¬ skipped → ∃ o kept, y.1 = some o ∧ o.path = outPath hex fn name ∧ SheetText rows kept o.content ∧
    y.2.counts.numRows = kept.length)

theorem srcLoop_reads (hex : Bytes → Bytes) (create : Bytes → Option GoErr) (ext : Ext) (fn : Bytes) {src : Source}
    {ns : List Bytes} {xs : List (Coll × List (List Bytes))} (h : SourceReads ext src ns xs)
    (hc : ∀ n ∈ ns, create (outPath hex fn n) = none) (he : ∀ x ∈ xs, ∃ v, collEmpty x.1 = .ok v) :
    ∃ (ys : List (Option Out × Stats)) (m : Nat),
      All2 (fun (p : Bytes × Coll × List (List Bytes)) y => Exported hex fn p.1 p.2.2 (collEmpty p.2.1 = .ok true) y) (ns.zip xs) ys ∧
      ∀ fuel, m ≤ fuel → srcLoop {} hex create ext fuel fn src ns = some (.ok (ys.filterMap (·.1), .inl (ys.map (·.2)))) := by
  induction h with
  | nil src => exact ⟨[], 0, .nil, fun _ _ => rfl⟩
  | cons src src' n c c' k rows ns rest hg hd _ _ ih1 ih2 =>
    obtain ⟨v, hv⟩ := he _ List.mem_cons_self
    simp only at hv
    cases v with
    | true =>
      obtain ⟨ys, m, hall, hrun⟩ := ih1 (fun x hx => hc x (by simp [hx])) (fun x hx => he x (by simp [hx]))
      refine ⟨(none, ⟨fn, n, ⟨0, 0⟩, none⟩) :: ys, m, ?_, fun fuel hf => ?_⟩
      · exact .cons ⟨rfl, rfl, rfl, fun _ => ⟨rfl, rfl⟩, fun hn => absurd hv hn⟩ hall
      · simp [srcLoop, andThen, hg, hv, hrun fuel hf, addTo]
    | false =>
      obtain ⟨ys, m, hall, hrun⟩ := ih2 (fun x hx => hc x (by simp [hx])) (fun x hx => he x (by simp [hx]))
      refine ⟨(some ⟨outPath hex fn n, (G2t.sheetLoop {} ⟨0, 0⟩ rows).1⟩, ⟨fn, n, (G2t.sheetLoop {} ⟨0, 0⟩ rows).2, none⟩) :: ys,
        max m k, ?_, fun fuel hf => ?_⟩
      · refine .cons ⟨rfl, rfl, rfl, fun ht => ?_, fun _ => ⟨_, _, rfl, rfl, sheetText_loop rows ⟨0, 0⟩, ?_⟩⟩ hall
        · simp only [hv] at ht
          cases ht
        · simp only [G2t.sheetLoop_default, Nat.zero_add]
      · simp [srcLoop, andThen, hg, hv, hrun fuel (by omega), addTo, hc n List.mem_cons_self, hd fuel (by omega)]

theorem all2_zip {α β : Type} {f : α → Bytes} {R : α → β → Prop} {S : Bytes × β → Option Out × Stats → Prop} {es : List α}
    {xs : List β} (h : All2 R es xs) {ys : List (Option Out × Stats)} (h2 : All2 S ((es.map f).zip xs) ys) :
    All2 (fun e y => ∃ x, R e x ∧ S (f e, x) y) es ys := by
  induction h generalizing ys with
  | nil => cases h2; exact .nil
  | cons hr _ ih => cases h2 with | cons hs ht => exact .cons ⟨_, hr, hs⟩ (ih ht)

theorem readsTable_empty {ext : Ext} {f : Formatter} {m : Nat × Nat} {ws : List Write} {x : Coll × List (List Bytes)}
    (h : ReadsTable ext f m ws x) : (∃ v, collEmpty x.1 = .ok v) ∧ (collEmpty x.1 = .ok true ↔ Small m ws) := by
  obtain ⟨_, s, hs, hi⟩ := h
  rw [hs]
  refine ⟨⟨_, rfl⟩, ?_⟩
  rw [← hi]
  simp [collEmpty]

theorem exported_table {ext : Ext} {f : Formatter} {m : Nat × Nat} {ws : List Write} {x : Coll × List (List Bytes)}
    (h : ReadsTable ext f m ws x) {hex : Bytes → Bytes} {fn name : Bytes} {y : Option Out × Stats}
    (hy : Exported hex fn name x.2 (collEmpty x.1 = .ok true) y) :
    ∃ tb, Table ext f m ws tb ∧ Exported hex fn name tb (Small m ws) y := by
  have := (readsTable_empty h).2
  refine ⟨x.2, h.1, hy.1, hy.2.1, hy.2.2.1, fun hs => hy.2.2.2.1 (this.2 hs), fun hs => hy.2.2.2.2 (fun h => hs (this.1 h))⟩

theorem all2_imp {α β : Type} {R S : α → β → Prop} (h : ∀ a b, R a b → S a b) {l : List α} {m : List β} (h2 : All2 R l m) :
    All2 S l m := by
  induction h2 with
  | nil => exact .nil
  | cons hr _ ih => exact .cons (h _ _ hr) ih

/-- What C106 says of a workbook that opens. -/
theorem opens_export (w : World) (ext : Ext) (hpr : Prints ext) (hex : Bytes → Bytes) (create : Bytes → Option GoErr)
    (fn : Bytes) {c : Content} {subs : List (List Record)} (ho : Opens w ext fn c subs)
    (size : SheetEntry → Nat × Nat) (writes : SheetEntry → List Write)
    (hsh : ∀ e ∈ c.sheets, e.visible = true → SheetWrites subs c e (size e) (writes e))
    (hcr : ∀ e ∈ c.sheets, e.visible = true → create (outPath hex fn (utf8 e.name)) = none) :
    ∃ (ys : List (Option Out × Stats)) (n m : Nat),
      All2 (fun e y => ∃ tb, Table ext (formatterOf (c.formats.map (fun a => (a.1, utf8 a.2)))) (size e) (writes e) tb ∧
          Exported hex fn (utf8 e.name) tb (Small (size e) (writes e)) y) (c.sheets.filter (·.visible)) ys ∧
      ∀ k, n ≤ k → ∀ t, Shipped { w with fuel := k } t → ∀ fuel, m ≤ fuel →
        processSrc {} hex create ext fuel t fn = some (.ok (ys.filterMap (·.1), .inl (ys.map (·.2)))) := by
  obtain ⟨src, xs, n, hall, hl, hr, hopen⟩ := opens_reads w ext hpr fn ho size writes hsh
  rw [hl] at hr
  obtain ⟨ys, m, hys, hrun⟩ := srcLoop_reads hex create ext fn hr (by
    intro x hx
    obtain ⟨e, he, rfl⟩ := List.mem_map.1 hx
    exact hcr e (List.mem_filter.1 he).1 (List.mem_filter.1 he).2) (by
    intro x hx
    obtain ⟨e, _, hex⟩ := all2_mem hall x hx
    exact (readsTable_empty hex).1)
  refine ⟨ys, n, m, all2_imp (fun e y hy => ?_) (all2_zip hall hys), fun k hk t ht fuel hfu => ?_⟩
  · obtain ⟨x, hx, hy⟩ := hy
    exact exported_table hx hy
  · unfold processSrc
    rw [hopen k hk t ht]
    simp only [hl]
    exact hrun fuel hfu

/-- **C106 (partial, xls).** With the default flags, for every unencrypted xls file whose stream is `Workbook` and whose sheets
in view are worksheets, if the outputs can be created: one entry of the report for each sheet in view, in order and without error,
and one output for each of them that is not `Small`, with the tidied non-blank rows of the displayed texts. Missing: sheets that
hold or declare at most the first cell, whose text is lost (`C106_counterexample`), and files with dialog sheets, which crash the
command (`C106_dialog_counterexample`). -/
theorem C106_xls_partial (w : World) (ext : Ext) (hpr : Prints ext) (hex : Bytes → Bytes) (create : Bytes → Option GoErr)
    (fn file : Bytes) (hf : w.files fn = .ok file)
    {groups : List (List Record)} (h : Grouped groups) (hp : ∀ r ∈ groups.flatten, r.type ≠ 0x2F) {c : Content}
    (hc : AllGlobals .empty groups c) (hs : StreamIn file (lit "Workbook") (stream groups.flatten))
    (hb : ∀ k ∈ w.bufs, 0 < k) (hbl : (stream groups.flatten).length < w.bufs.length)
    (size : SheetEntry → Nat × Nat) (writes : SheetEntry → List Write)
    (hsh : ∀ e ∈ c.sheets, e.visible = true → SheetWrites groups c e (size e) (writes e))
    (hcr : ∀ e ∈ c.sheets, e.visible = true → create (outPath hex fn (utf8 e.name)) = none) :
    ∃ (ys : List (Option Out × Stats)) (n m : Nat),
      All2 (fun e y => ∃ tb, Table ext (formatterOf (c.formats.map (fun a => (a.1, utf8 a.2)))) (size e) (writes e) tb ∧
          Exported hex fn (utf8 e.name) tb (Small (size e) (writes e)) y) (c.sheets.filter (·.visible)) ys ∧
      ∀ k, n ≤ k → ∀ t, Shipped { w with fuel := k } t → ∀ fuel, m ≤ fuel →
        processSrc {} hex create ext fuel t fn = some (.ok (ys.filterMap (·.1), .inl (ys.map (·.2)))) :=
  opens_export w ext hpr hex create fn (opens_plain w ext fn file hf h hp hc hs hb hbl) size writes hsh hcr

/-- **C106 (partial, encrypted xls).** The same for encrypted workbooks as in `C77_encrypted_partial`. -/
theorem C106_encrypted_partial (w : World) (ext : Ext) (hpr : Prints ext) (hex : Bytes → Bytes) (create : Bytes → Option GoErr)
    (fn file : Bytes) (hf : w.files fn = .ok file)
    (hdg : Digest w.prims) (groups : List (List Record)) (last : List Record) (h : Header)
    (he : EncryptedFile w.prims file groups last h) {c : Content} (hc : AllGlobals .empty (groups ++ [last]) c)
    (hb : ∀ k ∈ w.bufs, 0 < k)
    (hbl : (stream (groups.flatten ++ last ++ [⟨0x0A, []⟩])).length < w.bufs.length)
    (size : SheetEntry → Nat × Nat) (writes : SheetEntry → List Write)
    (hsh : ∀ e ∈ c.sheets, e.visible = true → SheetWrites (groups ++ [last]) c e (size e) (writes e))
    (hcr : ∀ e ∈ c.sheets, e.visible = true → create (outPath hex fn (utf8 e.name)) = none) :
    ∃ (ys : List (Option Out × Stats)) (n m : Nat),
      All2 (fun e y => ∃ tb, Table ext (formatterOf (c.formats.map (fun a => (a.1, utf8 a.2)))) (size e) (writes e) tb ∧
          Exported hex fn (utf8 e.name) tb (Small (size e) (writes e)) y) (c.sheets.filter (·.visible)) ys ∧
      ∀ k, n ≤ k → ∀ t, Shipped { w with fuel := k } t → ∀ fuel, m ≤ fuel →
        processSrc {} hex create ext fuel t fn = some (.ok (ys.filterMap (·.1), .inl (ys.map (·.2)))) :=
  opens_export w ext hpr hex create fn (C77_encrypted_partial w ext fn file hf hdg groups last h he hc hb hbl) size writes hsh hcr

/-- **C106 (partial, xlsx).** The same for xlsx files whose entries under the names read have distinct names. -/
theorem C106_xlsx_partial (w : World) (ext : Ext) (hpr : Prints ext) (hex : Bytes → Bytes) (create : Bytes → Option GoErr)
    (fn file : Bytes) (hf : w.files fn = .ok file)
    (hn : NotCompound file) (a : Xlsx.Archive) (hz : w.zip file = .ok a) (ho : ∀ l, (w.order l).Perm l)
    (dir : List Bytes) (base : Bytes) (b : Spec.Book) (h : XlsxFile a dir base b)
    (hd : (b.sheets.map Prod.snd).Nodup) (size : Bytes → Nat × Nat) (writes : Bytes → List Write)
    (hsh : ∀ e ∈ b.sheets, PartWrites ext a b e.1 (size e.1) (writes e.1)) (t : List (Grate.Entry Source)) (ht : Shipped w t)
    (hcr : ∀ e ∈ b.sheets, create (outPath hex fn e.2) = none) :
    ∃ (ys : List (Option Out × Stats)) (m : Nat),
      All2 (fun e y => ∃ tb, Table ext (formatterOf b.formats) (size e.1) (writes e.1) tb ∧
          Exported hex fn e.2 tb (Small (size e.1) (writes e.1)) y) b.sheets ys ∧
      ∀ fuel, m ≤ fuel →
        processSrc {} hex create ext fuel t fn = some (.ok (ys.filterMap (·.1), .inl (ys.map (·.2)))) := by
  obtain ⟨xs, hall, src, hopen, hl, hr⟩ := xlsx_reads w ext hpr fn file hf hn a hz ho dir base b h hd size writes hsh t ht
  rw [hl] at hr
  obtain ⟨ys, m, hys, hrun⟩ := srcLoop_reads hex create ext fn hr (by
    intro x hx
    obtain ⟨e, he, rfl⟩ := List.mem_map.1 hx
    exact hcr e he) (by
    intro x hx
    obtain ⟨e, _, hex⟩ := all2_mem hall x hx
    exact (readsTable_empty hex).1)
  refine ⟨ys, m, all2_imp (fun e y hy => ?_) (all2_zip hall hys), fun fuel hfu => ?_⟩
  · obtain ⟨x, hx, hy⟩ := hy
    exact exported_table hx hy
  · unfold processSrc
    rw [hopen]
    simp only [hl]
    exact hrun fuel hfu

/-- **C106 (text).** For every tab-separated text file that is recognised, with lines below the limit: the output is the tidied
non-blank rows; if the file has no lines, there is none. -/
theorem C106_text (w : World) (ext : Ext) (hex : Bytes → Bytes) (create : Bytes → Option GoErr) (fn file : Bytes)
    (hf : w.files fn = .ok file) (hn : NotCompound file)
    (ez : GoErr) (hz : w.zip file = .error ez) (hi : ∀ m, (w.iter m).Perm m) (lines : List Bytes)
    (rows : List (List Bytes)) (hlong : ¬ HasLongLine file) (hl : LinesOf file lines) (hr : All2 FieldsOf lines rows)
    (hsize : rows.length < 2 ^ 50) (hd : ¬ Declined rows) (t : List (Grate.Entry Source)) (ht : Shipped w t)
    (hcr : create (outPath hex fn (Simple.basePath fn)) = none) :
    ∃ (y : Option Out × Stats) (m : Nat), Exported hex fn (Simple.basePath fn) rows (rows = []) y ∧
      ∀ fuel, m ≤ fuel → processSrc {} hex create ext fuel t fn = some (.ok (y.1.toList, .inl [y.2])) := by
  have ho := (C06_rule w.iter hi fn file lines rows hlong hl hr hsize).2 hd
  have hopen := (open_text w _ file hf hn ez hz t ht).1 _ ho
  have hrd := text_reads ext ⟨fn, rows, -1⟩ rows _ (Simple.basePath fn) (C08_drain _ rfl)
  obtain ⟨ys, m, hys, hrun⟩ := srcLoop_reads hex create ext fn hrd (by simpa using hcr) (by
    intro x hx
    simp only [List.mem_singleton] at hx
    subst hx
    exact ⟨_, rfl⟩)
  cases hys with
  | @cons _ y _ ys hy hnil =>
    cases hnil
    have hemp : (collEmpty (.text ⟨fn, rows, -1⟩) = .ok true) ↔ rows = [] := by
      cases rows <;> simp [collEmpty, Simple.File.isEmpty]
    refine ⟨y, m, ⟨hy.1, hy.2.1, hy.2.2.1, fun hs => hy.2.2.2.1 (hemp.2 hs), fun hs => hy.2.2.2.2 (fun h => hs (hemp.1 h))⟩,
      fun fuel hfu => ?_⟩
    unfold processSrc
    rw [hopen]
    simp only [Source.list, Simple.File.list]
    rw [hrun fuel hfu]
    cases y with
    | mk o s => cases o <;> rfl

/-- C106 fails for files with a dialog sheet: the command crashes, and with it the processing of all other files. -/
theorem C106_dialog_counterexample (w : World) (ext : Ext) (hex : Bytes → Bytes) (create : Bytes → Option GoErr) (fl : G2t.Flags)
    (fn file : Bytes) (hf : w.files fn = .ok file)
    {groups : List (List Record)} (h : Grouped groups) (hp : ∀ r ∈ groups.flatten, r.type ≠ 0x2F) {c : Content}
    (hc : AllGlobals .empty groups c) (hs : StreamIn file (lit "Workbook") (stream groups.flatten))
    (hb : ∀ k ∈ w.bufs, 0 < k) (hbl : (stream groups.flatten).length < w.bufs.length)
    (e : SheetEntry) (after : List SheetEntry) (hx : c.sheets = e :: after) (hv : e.visible = true)
    (i : Nat) (bof : Record) (x y : UInt8) (more : Bytes) (rs : List Record)
    (hi : groups[i]? = some (bof :: ⟨0x81, x :: y :: more⟩ :: rs)) (hpos : e.position = position groups i)
    (hy : y &&& 0x10 ≠ 0) :
    ∃ n, ∀ k, n ≤ k → ∀ t, Shipped { w with fuel := k } t → ∀ fuel,
      processSrc fl hex create ext fuel t fn = some .panic := by
  obtain ⟨b, n, ho, hlist, hget⟩ := dialog_get w ext fn file hf h hp hc hs hb hbl e after hx hv i bof x y more rs hi hpos hy
  refine ⟨n, fun k hk t ht fuel => ?_⟩
  rw [processSrc, ho k hk t ht]
  simp only [hlist, srcLoop, hget, andThen, collEmpty]

/-- There is a file like that. -/
theorem C106_dialog_witness (w : World) (ext : Ext) (hex : Bytes → Bytes) (create : Bytes → Option GoErr) (fl : G2t.Flags)
    (fn : Bytes) (hf : w.files fn = .ok dlgFile) (hb : w.bufs = List.replicate 512 512) :
    ∃ n, ∀ k, n ≤ k → ∀ t, Shipped { w with fuel := k } t → ∀ fuel,
      processSrc fl hex create ext fuel t fn = some .panic :=
  C106_dialog_counterexample w ext hex create fl fn _ hf dlgBook_grouped.1 dlgBook_grouped.2 dlgBook_content dlgStream
    (by rw [hb]; intro k hk; rw [(List.mem_replicate.1 hk).2]; decide) (by rw [hb]; decide +kernel)
    exEntry [] rfl (by decide) 1 (exBof 0x10) 0 0x10 [] _ rfl (by decide +kernel) (by decide)

/-- The archive of C61 with a text in the first cell of each sheet and nothing else. -/
def oneCellZip : Xlsx.Archive :=
  exZip.map (fun e => if e.1 = lit "xl/worksheets/sheet1.xml" ∨ e.1 = lit "xl/worksheets/sheet2.xml" then
    (e.1, .ok ⟨(exSheetCells.take 1).flatMap ACell.toks, .eof⟩) else e)

/-- A system where every file is that archive. -/
def oneCellWorld (p : Crypto.Prims) : World where
  files := fun _ => .ok []
  zip := fun _ => .ok oneCellZip
  csv := fun _ => ([], .eof)
  prims := p
  cap := []
  spare := []
  fuel := 0
  bufs := []
  iter := id
  order := id

/-- C106 fails for sheets with a text in the first cell and nothing else: `Get` delivers the sheet, and its first row is the text,
but it counts as empty, and nothing is written. -/
theorem C106_counterexample (p : Crypto.Prims) (ext : Ext) (hex : Bytes → Bytes) (t : List (Grate.Entry Source))
    (ht : Shipped (oneCellWorld p) t) :
    processSrc {} hex (fun _ => none) ext 9 t (lit "a.xlsx") =
      some (.ok ([], .inl [⟨lit "a.xlsx", lit "one", ⟨0, 0⟩, none⟩, ⟨lit "a.xlsx", lit "two", ⟨0, 0⟩, none⟩])) ∧
    ∃ src src' c rows, openSrc t (lit "a.xlsx") = .ok src ∧ src.get ext (lit "one") = .ok (src', .ok c) ∧
      (drainColl ext 9 c).map (·.bind fun x => .ok x.2) = some (.ok ([lit "two"] :: rows)) := by
  obtain ⟨d, h1, h2, src', c, rows, h3, h4⟩ : ∃ d, xlsxOpen (oneCellWorld p) (lit "a.xlsx") = .ok (.xlsx oneCellZip d) ∧
      srcLoop {} hex (fun _ => none) ext 9 (lit "a.xlsx") (.xlsx oneCellZip d) (Source.list (.xlsx oneCellZip d)) =
        some (.ok ([], .inl [⟨lit "a.xlsx", lit "one", ⟨0, 0⟩, none⟩, ⟨lit "a.xlsx", lit "two", ⟨0, 0⟩, none⟩])) ∧
      ∃ src' c rows, Source.get ext (.xlsx oneCellZip d) (lit "one") = .ok (src', .ok c) ∧
        (drainColl ext 9 c).map (·.bind fun x => .ok x.2) = some (.ok ([lit "two"] :: rows)) :=
    ⟨_, rfl, rfl, _, _, _, rfl, rfl⟩
  have ho : openSrc t (lit "a.xlsx") = .ok (.xlsx oneCellZip d) := by
    rw [shipped_open ht]
    have hx := xls_declines (oneCellWorld p) (lit "a.xlsx") [] rfl (.inr (by decide))
    simp [openSrc, openTrace, formats, hx, h1, GoErr.isNotInFormat]
  refine ⟨?_, _, src', c, rows, ho, h3, h4⟩
  unfold processSrc
  rw [ho]
  exact h2

/-- The hypotheses of `C106_xlsx_partial` hold for the archive of C61: an empty sheet, which is skipped, and one with cells in
A1 and AB12, which is not. -/
theorem C106_xlsx_witness (ext : Ext) :
    XlsxFile exZip [lit "xl"] (lit "workbook.xml") exXlsxBook ∧ (exXlsxBook.sheets.map Prod.snd).Nodup ∧
    (∀ e ∈ exXlsxBook.sheets, PartWrites ext exZip exXlsxBook e.1 (0, 0) (exPartWrites e.1)) ∧
    Small (0, 0) (exPartWrites (lit "rId2")) ∧ ¬ Small (0, 0) (exPartWrites (lit "rId1")) := by
  refine ⟨C61_witness, (C82_xlsx_witness ext).1, (C82_xlsx_witness ext).2.1, ⟨by decide, by decide, ?_⟩, ?_⟩
  · have : exPartWrites (lit "rId2") = [] := by unfold exPartWrites; rw [if_neg (by decide +kernel)]
    rw [this]
    simp
  · rintro ⟨_, _, h⟩
    have : exPartWrites (lit "rId1") = exPartCells.map ACell.write := by unfold exPartWrites; rw [if_pos rfl]
    rw [this] at h
    exact absurd (h _ (List.mem_map_of_mem (List.mem_cons_of_mem _ (List.mem_cons_self ..)))).1 (by decide +kernel)

end Grate.Props
