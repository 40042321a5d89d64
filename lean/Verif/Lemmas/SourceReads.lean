import Verif.Model.Grate2tsvSrc
import Verif.Props.Grater

/-! # Reading all sheets of a source, in order -/

namespace Grate.Props

open Grate Grate.Spec Grate.Api
open Grate.G2t (drainColl)

/-- The collections with these names are these, with these rows, also after those before them were read or not. -/
inductive SourceReads (ext : Ext) : Source → List Bytes → List (Coll × List (List Bytes)) → Prop
  | nil (src : Source) : SourceReads ext src [] []
  | cons (src src' : Source) (n : Bytes) (c c' : Coll) (k : Nat) (rows : List (List Bytes)) (ns : List Bytes)
      (rest : List (Coll × List (List Bytes))) : src.get ext n = .ok (src', .ok c) →
      (∀ fuel, k ≤ fuel → drainColl ext fuel c = some (.ok (c', rows))) → SourceReads ext src' ns rest →
      SourceReads ext (src'.used n c') ns rest → SourceReads ext src (n :: ns) ((c, rows) :: rest)

theorem drain_sheet (ext : Ext) : ∀ (n : Nat) (s : Sheet) (rows : List (List Bytes)),
    drain Sheet.next (Sheet.strings ext) n s = some (.ok rows) →
    ∃ s', ∀ fuel, n ≤ fuel → drainColl ext fuel (.sheet s) = some (.ok (.sheet s', rows)) := by
  intro n
  induction n with
  | zero => intro s rows h; cases h
  | succ n ih =>
    intro s rows h
    rw [drain] at h
    cases hn : s.next with
    | mk s' more =>
      rw [hn] at h
      cases more with
      | false =>
        simp only at h
        cases h
        refine ⟨s', fun fuel hf => ?_⟩
        obtain ⟨fuel, rfl⟩ : ∃ k, fuel = k + 1 := ⟨fuel - 1, by omega⟩
        simp [drainColl, Grater.andThen, Coll.next, hn]
      | true =>
        simp only at h
        cases hd : drain Sheet.next (Sheet.strings ext) n s' with
        | none => rw [hd] at h; cases h
        | some rest =>
          rw [hd] at h
          simp only [Option.some.injEq] at h
          rw [GoRes.bind_eq_ok] at h
          obtain ⟨r, hr, h⟩ := h
          rw [GoRes.bind_eq_ok] at h
          obtain ⟨rs, hrs, h⟩ := h
          cases h
          subst hrs
          obtain ⟨s2, h2⟩ := ih s' rs hd
          refine ⟨s2, fun fuel hf => ?_⟩
          obtain ⟨fuel, rfl⟩ : ∃ k, fuel = k + 1 := ⟨fuel - 1, by omega⟩
          simp [drainColl, Grater.andThen, Coll.next, hn, Coll.strings, hr, h2 fuel (by omega)]

theorem drain_text (ext : Ext) : ∀ (n : Nat) (s : Simple.File) (rows : List (List Bytes)),
    drain Simple.File.next Simple.File.strings n s = some (.ok rows) →
    ∃ s', ∀ fuel, n ≤ fuel → drainColl ext fuel (.text s) = some (.ok (.text s', rows)) := by
  intro n
  induction n with
  | zero => intro s rows h; cases h
  | succ n ih =>
    intro s rows h
    rw [drain] at h
    cases hn : s.next with
    | mk s' more =>
      rw [hn] at h
      cases more with
      | false =>
        simp only at h
        cases h
        refine ⟨s', fun fuel hf => ?_⟩
        obtain ⟨fuel, rfl⟩ : ∃ k, fuel = k + 1 := ⟨fuel - 1, by omega⟩
        simp [drainColl, Grater.andThen, Coll.next, hn]
      | true =>
        simp only at h
        cases hd : drain Simple.File.next Simple.File.strings n s' with
        | none => rw [hd] at h; cases h
        | some rest =>
          rw [hd] at h
          simp only [Option.some.injEq] at h
          rw [GoRes.bind_eq_ok] at h
          obtain ⟨r, hr, h⟩ := h
          rw [GoRes.bind_eq_ok] at h
          obtain ⟨rs, hrs, h⟩ := h
          cases h
          subst hrs
          obtain ⟨s2, h2⟩ := ih s' rs hd
          refine ⟨s2, fun fuel hf => ?_⟩
          obtain ⟨fuel, rfl⟩ : ∃ k, fuel = k + 1 := ⟨fuel - 1, by omega⟩
          simp [drainColl, Grater.andThen, Coll.next, hn, Coll.strings, hr, h2 fuel (by omega)]

/-- A sheet that is called empty: it has, and declares, at most one cell in its first row and column. -/
def Small (m : Nat × Nat) (ws : List Write) : Prop := m.1 ≤ 1 ∧ m.2 ≤ 1 ∧ ∀ w ∈ ws, w.row = 0 ∧ w.col = 0

theorem small_iff {ext : Ext} {f : Formatter} {ws : List Write} {s : Sheet} (h : Holds ext f ws s) {m : Nat × Nat}
    (hz : SizeIs m.1 m.2 ws s) : s.isEmpty = true ↔ Small m ws := by
  unfold Sheet.isEmpty Small
  simp only [Bool.and_eq_true, decide_eq_true_eq]
  constructor
  · rintro ⟨h1, h2⟩
    have := hz.rows; have := hz.cols
    refine ⟨by omega, by omega, fun w hw => ?_⟩
    have := h.inside w hw
    omega
  · rintro ⟨h1, h2, h3⟩
    refine ⟨hz.noMoreCols 1 (by omega) (by omega) ?_, hz.noMoreRows 1 (by omega) (by omega) ?_⟩ <;> intro w hw <;>
      have := h3 w hw <;> omega

/-- One of the collections of a workbook: the rows are the table of the sheet. -/
def ReadsTable (ext : Ext) (f : Formatter) (m : Nat × Nat) (ws : List Write) (x : Coll × List (List Bytes)) : Prop :=
  Table ext f m ws x.2 ∧ ∃ s, x.1 = .sheet s ∧ (s.isEmpty = true ↔ Small m ws)

theorem opens_reads (w : World) (ext : Ext) (hpr : Prints ext) (fn : Bytes) {c : Content} {subs : List (List Record)}
    (ho : Opens w ext fn c subs) (size : SheetEntry → Nat × Nat) (writes : SheetEntry → List Write)
    (hsh : ∀ e ∈ c.sheets, e.visible = true → SheetWrites subs c e (size e) (writes e)) :
    ∃ src xs n, All2 (fun e x => ReadsTable ext (formatterOf (c.formats.map (fun a => (a.1, utf8 a.2)))) (size e) (writes e) x)
        (c.sheets.filter (·.visible)) xs ∧
      src.list = (c.sheets.filter (·.visible)).map (fun e => utf8 e.name) ∧ SourceReads ext src src.list xs ∧
      ∀ k, n ≤ k → ∀ t, Shipped { w with fuel := k } t → openSrc t fn = .ok src := by
  obtain ⟨b, n, hn, hlist, hget, _⟩ := ho
  have key : ∀ es : List SheetEntry, (∀ e ∈ es, e ∈ c.sheets ∧ e.visible = true) →
      ∃ xs, All2 (fun e x => ReadsTable ext (formatterOf (c.formats.map (fun a => (a.1, utf8 a.2)))) (size e) (writes e) x)
          es xs ∧ SourceReads ext (.xls b) (es.map (fun e => utf8 e.name)) xs := by
    intro es
    induction es with
    | nil => intro _; exact ⟨[], .nil, .nil _⟩
    | cons e es ih =>
      intro hes
      obtain ⟨xs, hall, hrun⟩ := ih (fun x hx => hes x (by simp [hx]))
      obtain ⟨he, hv⟩ := hes e (by simp)
      obtain ⟨⟨before, after, hx, hfirst⟩, ⟨i, bof, rs, hi, hpos, hd, hw, hone⟩, hfit⟩ := hsh e he hv
      obtain ⟨s, hg, hh, hz, hrect⟩ := hget before after e hx hfirst i bof rs hi hpos _ _ hd (writes e) hw
      obtain ⟨texts, hdr, htab, _⟩ := holds_table ext hpr _ (made_formatter _) (writes e) s hh hfit (size e) hz (hrect hone)
      obtain ⟨s', hs'⟩ := drain_sheet ext _ s texts hdr
      exact ⟨(.sheet s, texts) :: xs, .cons ⟨htab, s, rfl, small_iff hh hz⟩ hall,
        .cons _ _ _ _ _ _ _ _ _ hg hs' hrun hrun⟩
  obtain ⟨xs, hall, hrun⟩ := key (c.sheets.filter (·.visible)) (by
    intro e he
    exact ⟨(List.mem_filter.1 he).1, (List.mem_filter.1 he).2⟩)
  exact ⟨_, xs, n, hall, hlist, by rw [hlist]; exact hrun, hn⟩

/-- Reading a worksheet part only uses the strings, the cell formats and the formatter of the document. -/
theorem parseSheet_congr (ext : Ext) (a : Xlsx.Archive) {d d1 : Xlsx.Doc} (h2 : d1.strings = d.strings) (h3 : d1.xfs = d.xfs)
    (h4 : d1.fmt = d.fmt) (name : Bytes) : Xlsx.parseSheet ext a d1 name = Xlsx.parseSheet ext a d name := by
  have hc : ∀ v st, Xlsx.charsTok ext d1 v st = Xlsx.charsTok ext d v st := by
    intro v st
    unfold Xlsx.charsTok
    rw [h2]
  have he : ∀ attrs st, Xlsx.cElem d1 attrs st = Xlsx.cElem d attrs st := by
    intro attrs st
    unfold Xlsx.cElem
    rw [h3]
  have ht : ∀ links t st, Xlsx.sheetTok ext d1 links t st = Xlsx.sheetTok ext d links t st := by
    intro links t st
    unfold Xlsx.sheetTok
    simp only [hc, he]
  have hl : ∀ links ts st, Xlsx.sheetLoop ext d1 links ts st = Xlsx.sheetLoop ext d links ts st := by
    intro links ts
    induction ts with
    | nil => intro st; rfl
    | cons t ts ih => intro st; simp only [Xlsx.sheetLoop, ht, ih]
  unfold Xlsx.parseSheet
  simp only [hl, h4]

theorem xlsx_reads (w : World) (ext : Ext) (hpr : Prints ext) (fn file : Bytes) (hf : w.files fn = .ok file)
    (hn : NotCompound file) (a : Xlsx.Archive) (hz : w.zip file = .ok a) (ho : ∀ l, (w.order l).Perm l)
    (dir : List Bytes) (base : Bytes) (b : Spec.Book) (h : XlsxFile a dir base b)
    (hd : (b.sheets.map Prod.snd).Nodup) (size : Bytes → Nat × Nat) (writes : Bytes → List Write)
    (hsh : ∀ e ∈ b.sheets, PartWrites ext a b e.1 (size e.1) (writes e.1)) (t : List (Grate.Entry Source)) (ht : Shipped w t) :
    ∃ xs, All2 (fun e x => ReadsTable ext (formatterOf b.formats) (size e.1) (writes e.1) x) b.sheets xs ∧
      ∃ src, openSrc t fn = .ok src ∧ src.list = b.sheets.map Prod.snd ∧ SourceReads ext src src.list xs := by
  obtain ⟨src, hopen, hl, _, _⟩ := C78_xlsx_partial w ext fn file hf hn a hz ho dir base b h t ht
  obtain ⟨d, hd0, hlist, hsheets, hstr, hxfs, hfmt⟩ := C61_open_partial makeFormatter w.order ho a dir base b h
  have hsrc : src = .xlsx a d := by
    have hx : xlsxOpen w fn = .ok (.xlsx a d) := by
      unfold xlsxOpen
      simp only [hf, hz, hd0]
      rfl
    have : openSrc t fn = .ok (.xlsx a d) := by
      rw [shipped_open ht]
      simp [openSrc, openTrace, formats, xls_declines w fn file hf hn, hx, GoErr.isNotInFormat]
    rw [hopen] at this
    cases this
    rfl
  have key : ∀ (es past : List (Bytes × Bytes)), b.sheets = past ++ es →
      ∃ xs, All2 (fun e x => ReadsTable ext (formatterOf b.formats) (size e.1) (writes e.1) x) es xs ∧
        ∀ d1 : Xlsx.Doc, d1.list = d.list → d1.strings = d.strings → d1.xfs = d.xfs → d1.fmt = d.fmt →
          (∀ j, past.length ≤ j → d1.sheets[j]? = d.sheets[j]?) → SourceReads ext (.xlsx a d1) (es.map Prod.snd) xs := by
    intro es
    induction es with
    | nil => intros; exact ⟨[], .nil, fun _ _ _ _ _ _ => .nil _⟩
    | cons e es ih =>
      intro past he
      obtain ⟨⟨r, hr, hty, hid, sdir, sbase, hsd, hsb, hpart, ts, hp, ls, hlk, hw⟩, hfit⟩ := hsh e (by rw [he]; simp)
      have hi : b.sheets[past.length]? = some (e.1, e.2) := by rw [he]; simp
      obtain ⟨x, hx, hxn, hxs, hxd⟩ := hsheets past.length e.1 e.2 hi
      have hdoc := hxd r hr hty hid
      rw [hpart] at hp
      rw [← hstr, ← hxfs] at hw
      obtain ⟨s, hs, hh, hz, hrect⟩ := C58_sheet_partial ext a d sdir sbase hsd hsb ts hp ls hlk _ (writes e.1) hw
      have hfm : d.fmt = formatterOf b.formats := by rw [hfmt]; rfl
      rw [hfm] at hh
      obtain ⟨texts, hdr, htab, _⟩ := holds_table ext hpr _ (made_formatter _) (writes e.1) s hh hfit _ hz hrect
      obtain ⟨s', hs'⟩ := drain_sheet ext _ s texts hdr
      obtain ⟨xs, hall, hrun⟩ := ih (past ++ [e]) (by rw [he]; simp)
      refine ⟨(.sheet s, texts) :: xs, .cons ⟨htab, s, rfl, small_iff hh hz⟩ hall, fun d1 h1 h2 h3 h4 h5 => ?_⟩
      have hs1 : Xlsx.parseSheet ext a d1 (pathOf (sdir ++ [sbase])) = .ok (s, none) := by
        rw [← hs]
        exact parseSheet_congr ext a h2 h3 h4 _
      have hx1 : d1.sheets[past.length]? = some x := by rw [h5 _ (Nat.le_refl _)]; exact hx
      have hfirst : ∀ j < past.length, ∀ y, d1.sheets[j]? = some y → y.name ≠ e.2 := by
        intro j hj y hy hne
        have hl2 : d1.list[j]? = some e.2 := by unfold Xlsx.Doc.list; rw [List.getElem?_map, hy, Option.map_some, hne]
        rw [h1, hlist, he, List.map_append, List.getElem?_append_left (by simpa using hj)] at hl2
        rw [he, List.map_append, List.nodup_append] at hd
        exact hd.2.2 e.2 (List.mem_of_getElem? hl2) e.2 (by simp) rfl
      have hfind := find_of hx1 hxn hfirst
      obtain ⟨hlt, _⟩ := List.getElem?_eq_some_iff.1 hx1
      have hget : d1.get ext a e.2 = .ok ({ d1 with sheets := d1.sheets.set past.length { x with state := some (s, none) } },
          past.length, none) := by
        unfold Xlsx.Doc.get
        rw [hfind]
        simp only [hx1, hxs, hdoc, hpart, hs1]
        rfl
      have hgs : (Source.xlsx a d1).get ext e.2 =
          .ok (.xlsx a { d1 with sheets := d1.sheets.set past.length { x with state := some (s, none) } }, .ok (.sheet s)) := by
        simp only [Source.get, hget, List.getElem?_set_self hlt]
      have hx2 : (d1.sheets.set past.length { x with state := some (s, none) })[past.length]? =
          some { x with state := some (s, none) } := List.getElem?_set_self hlt
      have hfind2 : ({ d1 with sheets := d1.sheets.set past.length { x with state := some (s, none) } } : Xlsx.Doc).find e.2 =
          some past.length := by
        refine find_of hx2 hxn ?_
        intro j hj y hy
        simp only at hy
        rw [List.getElem?_set_ne (by omega)] at hy
        exact hfirst j hj y hy
      have hused : (Source.xlsx a { d1 with sheets := d1.sheets.set past.length { x with state := some (s, none) } }).used e.2
          (.sheet s') = .xlsx a { d1 with sheets := d1.sheets.set past.length { x with state := some (s', none) } } := by
        simp only [Source.used, hfind2, hx2, Option.map_some, List.set_set]
      have hrest : ∀ st, SourceReads ext (.xlsx a { d1 with sheets := d1.sheets.set past.length { x with state := st } })
          (es.map Prod.snd) xs := by
        intro st
        refine hrun _ ?_ h2 h3 h4 ?_
        · rw [← h1]
          unfold Xlsx.Doc.list
          refine List.ext_getElem? (fun m => ?_)
          rw [List.getElem?_map, List.getElem?_map, List.getElem?_set]
          split
          · rename_i hj
            subst hj
            simp only [hx1, Option.map_some]
          · rfl
        · intro j hj
          simp only [List.length_append, List.length_singleton] at hj
          rw [← h5 j (by omega)]
          exact List.getElem?_set_ne (by omega)
      exact .cons _ _ _ _ _ _ _ _ _ hgs hs' (hrest _) (by rw [hused]; exact hrest _)
  obtain ⟨xs, hall, hrun⟩ := key b.sheets [] rfl
  subst hsrc
  refine ⟨xs, hall, _, hopen, hl, ?_⟩
  rw [hl]
  exact hrun d rfl rfl rfl rfl (fun _ _ => rfl)

theorem text_reads (ext : Ext) (f : Simple.File) (rows : List (List Bytes)) (m : Nat) (fn : Bytes)
    (hd : drain Simple.File.next Simple.File.strings m f = some (.ok rows)) :
    SourceReads ext (.text f) [fn] [(.text f, rows)] := by
  obtain ⟨f', hf'⟩ := drain_text ext m f rows hd
  exact .cons _ (.text f) _ _ _ _ _ _ _ rfl hf' (.nil _) (.nil _)

end Grate.Props
