import Verif.Props.Grate2tsvSrc

/-! # C107: outputs of `grate2tsv` that cannot be created -/

namespace Grate.Props

open Grate Grate.Spec Grate.Api
open Grate.G2t (srcLoop processSrc outPath Out Stats collEmpty addTo drainColl)
open Grate.Grater (andThen)

theorem srcLoop_create (hex : Bytes → Bytes) (create : Bytes → Option GoErr) (ext : Ext) (fn : Bytes) (n : Bytes)
    (ns2 : List Bytes) (x : Coll × List (List Bytes)) (xs2 : List (Coll × List (List Bytes))) (e : GoErr)
    (hn : create (outPath hex fn n) = some e) (hx : collEmpty x.1 = .ok false) :
    ∀ (ns : List Bytes) (xs : List (Coll × List (List Bytes))) (src : Source), ns.length = xs.length →
    SourceReads ext src (ns ++ n :: ns2) (xs ++ x :: xs2) →
    (∀ a ∈ ns, create (outPath hex fn a) = none) → (∀ a ∈ xs, ∃ v, collEmpty a.1 = .ok v) →
    ∃ (ys : List (Option Out × Stats)) (m : Nat),
      All2 (fun (p : Bytes × Coll × List (List Bytes)) y => Exported hex fn p.1 p.2.2 (collEmpty p.2.1 = .ok true) y) (ns.zip xs) ys ∧
      ∀ fuel, m ≤ fuel → srcLoop {} hex create ext fuel fn src (ns ++ n :: ns2) =
        some (.ok (ys.filterMap (·.1), .inr e)) := by
  intro ns
  induction ns with
  | nil =>
    intro xs src hl h _ _
    cases xs with
    | cons _ _ => simp at hl
    | nil =>
      refine ⟨[], 0, .nil, fun fuel _ => ?_⟩
      cases h with
      | cons _ src' _ c c' k rows _ _ hg hd _ _ =>
        simp only at hx
        simp [srcLoop, andThen, hg, hx, hn]
  | cons a ns ih =>
    intro xs src hl h hc he
    cases xs with
    | nil => simp at hl
    | cons z xs =>
      cases h with
      | cons _ src' _ c c' k rows _ _ hg hd h1 h2 =>
        obtain ⟨v, hv⟩ := he _ List.mem_cons_self
        simp only at hv
        cases v with
        | true =>
          obtain ⟨ys, m, hall, hrun⟩ := ih xs src' (by simpa using hl) h1 (fun b hb => hc b (by simp [hb]))
            (fun b hb => he b (by simp [hb]))
          refine ⟨(none, ⟨fn, a, ⟨0, 0⟩, none⟩) :: ys, m, ?_, fun fuel hf => ?_⟩
          · exact .cons ⟨rfl, rfl, rfl, fun _ => ⟨rfl, rfl⟩, fun hn => absurd hv hn⟩ hall
          · simp [srcLoop, andThen, hg, hv, hrun fuel hf, addTo]
        | false =>
          obtain ⟨ys, m, hall, hrun⟩ := ih xs (src'.used a c') (by simpa using hl) h2 (fun b hb => hc b (by simp [hb]))
            (fun b hb => he b (by simp [hb]))
          refine ⟨(some ⟨outPath hex fn a, (G2t.sheetLoop {} ⟨0, 0⟩ rows).1⟩,
            ⟨fn, a, (G2t.sheetLoop {} ⟨0, 0⟩ rows).2, none⟩) :: ys, max m k, ?_, fun fuel hf => ?_⟩
          · refine .cons ⟨rfl, rfl, rfl, fun ht => ?_, fun _ => ⟨_, _, rfl, rfl, sheetText_loop rows ⟨0, 0⟩, ?_⟩⟩ hall
            · simp only [hv] at ht
              cases ht
            · simp only [G2t.sheetLoop_default, Nat.zero_add]
          · simp [srcLoop, andThen, hg, hv, hrun fuel (by omega), addTo, hc a List.mem_cons_self, hd fuel (by omega)]

theorem all2_split {α β : Type} {R : α → β → Prop} : ∀ {l : List α} {a : α} {r : List α} {ys : List β},
    All2 R (l ++ a :: r) ys → ∃ l' b r', ys = l' ++ b :: r' ∧ All2 R l l' ∧ R a b := by
  intro l
  induction l with
  | nil =>
    intro a r ys h
    cases h with
    | cons hr _ => exact ⟨[], _, _, rfl, .nil, hr⟩
  | cons x l ih =>
    intro a r ys h
    cases h with
    | cons hr ht =>
      obtain ⟨l', b, r', rfl, h1, h2⟩ := ih ht
      exact ⟨_ :: l', b, r', rfl, .cons hr h1, h2⟩

theorem all2_length {α β : Type} {R : α → β → Prop} {l : List α} {m : List β} (h : All2 R l m) : l.length = m.length := by
  induction h with
  | nil => rfl
  | cons _ _ ih => simp [ih]

/-- What C107 says of a workbook that opens. -/
theorem opens_create (w : World) (ext : Ext) (hpr : Prints ext) (hex : Bytes → Bytes) (create : Bytes → Option GoErr)
    (fn : Bytes) {c : Content} {subs : List (List Record)} (ho : Opens w ext fn c subs)
    (size : SheetEntry → Nat × Nat) (writes : SheetEntry → List Write)
    (hsh : ∀ e ∈ c.sheets, e.visible = true → SheetWrites subs c e (size e) (writes e))
    (before after : List SheetEntry) (e : SheetEntry) (hse : c.sheets.filter (·.visible) = before ++ e :: after)
    (hbe : ∀ x ∈ before, create (outPath hex fn (utf8 x.name)) = none) (er : GoErr)
    (her : create (outPath hex fn (utf8 e.name)) = some er) (hsm : ¬ Small (size e) (writes e)) :
    ∃ (ys : List (Option Out × Stats)) (n m : Nat),
      All2 (fun e y => ∃ tb, Table ext (formatterOf (c.formats.map (fun a => (a.1, utf8 a.2)))) (size e) (writes e) tb ∧
          Exported hex fn (utf8 e.name) tb (Small (size e) (writes e)) y) before ys ∧
      ∀ k, n ≤ k → ∀ t, Shipped { w with fuel := k } t → ∀ fuel, m ≤ fuel →
        processSrc {} hex create ext fuel t fn = some (.ok (ys.filterMap (·.1), .inr er)) := by
  obtain ⟨src, xs, n, hall, hl, hr, hopen⟩ := opens_reads w ext hpr fn ho size writes hsh
  rw [hse] at hall
  obtain ⟨xb, x, xa, rfl, hb, hx⟩ := all2_split hall
  have hln : src.list = before.map (fun e => utf8 e.name) ++ utf8 e.name :: after.map (fun e => utf8 e.name) := by
    rw [hl, hse]; simp
  rw [hln] at hr
  have hxe : collEmpty x.1 = .ok false := by
    obtain ⟨⟨v, hv⟩, h2⟩ := readsTable_empty hx
    cases v with
    | false => exact hv
    | true => exact absurd (h2.1 hv) hsm
  obtain ⟨ys, m, hys, hrun⟩ := srcLoop_create hex create ext fn _ _ x xa er her hxe _ xb src (by simpa using all2_length hb) hr (by
    intro y hy
    obtain ⟨e, he, rfl⟩ := List.mem_map.1 hy
    exact hbe e he) (by
    intro y hy
    obtain ⟨e, _, hex⟩ := all2_mem hb y hy
    exact (readsTable_empty hex).1)
  refine ⟨ys, n, m, all2_imp (fun e y hy => ?_) (all2_zip hb hys), fun k hk t ht fuel hfu => ?_⟩
  · obtain ⟨x, hx, hy⟩ := hy
    exact exported_table hx hy
  · unfold processSrc
    rw [hopen k hk t ht]
    simp only [hln]
    exact hrun fuel hfu

/-- **C107, what happens (xls).** If the output of a sheet cannot be created, the outputs of the sheets before it are written as
in C106, those after it are not, and of all of them nothing is reported but the error. -/
theorem C107_xls (w : World) (ext : Ext) (hpr : Prints ext) (hex : Bytes → Bytes) (create : Bytes → Option GoErr)
    (fn file : Bytes) (hf : w.files fn = .ok file)
    {groups : List (List Record)} (h : Grouped groups) (hp : ∀ r ∈ groups.flatten, r.type ≠ 0x2F) {c : Content}
    (hc : AllGlobals .empty groups c) (hs : StreamIn file (lit "Workbook") (stream groups.flatten))
    (hb : ∀ k ∈ w.bufs, 0 < k) (hbl : (stream groups.flatten).length < w.bufs.length)
    (size : SheetEntry → Nat × Nat) (writes : SheetEntry → List Write)
    (hsh : ∀ e ∈ c.sheets, e.visible = true → SheetWrites groups c e (size e) (writes e))
    (before after : List SheetEntry) (e : SheetEntry) (hse : c.sheets.filter (·.visible) = before ++ e :: after)
    (hbe : ∀ x ∈ before, create (outPath hex fn (utf8 x.name)) = none) (er : GoErr)
    (her : create (outPath hex fn (utf8 e.name)) = some er) (hsm : ¬ Small (size e) (writes e)) :
    ∃ (ys : List (Option Out × Stats)) (n m : Nat),
      All2 (fun e y => ∃ tb, Table ext (formatterOf (c.formats.map (fun a => (a.1, utf8 a.2)))) (size e) (writes e) tb ∧
          Exported hex fn (utf8 e.name) tb (Small (size e) (writes e)) y) before ys ∧
      ∀ k, n ≤ k → ∀ t, Shipped { w with fuel := k } t → ∀ fuel, m ≤ fuel →
        processSrc {} hex create ext fuel t fn = some (.ok (ys.filterMap (·.1), .inr er)) :=
  opens_create w ext hpr hex create fn (opens_plain w ext fn file hf h hp hc hs hb hbl) size writes hsh before after e hse hbe er
    her hsm

/-- **C107, what happens (xlsx).** The same for xlsx files. -/
theorem C107_xlsx (w : World) (ext : Ext) (hpr : Prints ext) (hex : Bytes → Bytes) (create : Bytes → Option GoErr)
    (fn file : Bytes) (hf : w.files fn = .ok file)
    (hn : NotCompound file) (a : Xlsx.Archive) (hz : w.zip file = .ok a) (ho : ∀ l, (w.order l).Perm l)
    (dir : List Bytes) (base : Bytes) (b : Spec.Book) (h : XlsxFile a dir base b)
    (hd : (b.sheets.map Prod.snd).Nodup) (size : Bytes → Nat × Nat) (writes : Bytes → List Write)
    (hsh : ∀ e ∈ b.sheets, PartWrites ext a b e.1 (size e.1) (writes e.1)) (t : List (Grate.Entry Source)) (ht : Shipped w t)
    (before after : List (Bytes × Bytes)) (e : Bytes × Bytes) (hse : b.sheets = before ++ e :: after)
    (hbe : ∀ x ∈ before, create (outPath hex fn x.2) = none) (er : GoErr)
    (her : create (outPath hex fn e.2) = some er) (hsm : ¬ Small (size e.1) (writes e.1)) :
    ∃ (ys : List (Option Out × Stats)) (m : Nat),
      All2 (fun e y => ∃ tb, Table ext (formatterOf b.formats) (size e.1) (writes e.1) tb ∧
          Exported hex fn e.2 tb (Small (size e.1) (writes e.1)) y) before ys ∧
      ∀ fuel, m ≤ fuel →
        processSrc {} hex create ext fuel t fn = some (.ok (ys.filterMap (·.1), .inr er)) := by
  obtain ⟨xs, hall, src, hopen, hl, hr⟩ := xlsx_reads w ext hpr fn file hf hn a hz ho dir base b h hd size writes hsh t ht
  rw [hse] at hall
  obtain ⟨xb, x, xa, rfl, hb, hx⟩ := all2_split hall
  have hln : src.list = before.map Prod.snd ++ e.2 :: after.map Prod.snd := by
    rw [hl, hse]; simp
  rw [hln] at hr
  have hxe : collEmpty x.1 = .ok false := by
    obtain ⟨⟨v, hv⟩, h2⟩ := readsTable_empty hx
    cases v with
    | false => exact hv
    | true => exact absurd (h2.1 hv) hsm
  obtain ⟨ys, m, hys, hrun⟩ := srcLoop_create hex create ext fn _ _ x xa er her hxe _ xb src (by simpa using all2_length hb) hr (by
    intro y hy
    obtain ⟨e, he, rfl⟩ := List.mem_map.1 hy
    exact hbe e he) (by
    intro y hy
    obtain ⟨e, _, hex⟩ := all2_mem hb y hy
    exact (readsTable_empty hex).1)
  refine ⟨ys, m, all2_imp (fun e y hy => ?_) (all2_zip hb hys), fun fuel hfu => ?_⟩
  · obtain ⟨x, hx, hy⟩ := hy
    exact exported_table hx hy
  · unfold processSrc
    rw [hopen]
    simp only [hln]
    exact hrun fuel hfu

/-- The archive of C61 with two cells in each sheet. -/
def twoSheetZip : Xlsx.Archive :=
  exZip.map (fun e => if e.1 = lit "xl/worksheets/sheet1.xml" ∨ e.1 = lit "xl/worksheets/sheet2.xml" then
    (e.1, .ok ⟨exSheetCells.flatMap ACell.toks, .eof⟩) else e)

/-- A system where every file is that archive. -/
def twoSheetWorld (p : Crypto.Prims) : World := { oneCellWorld p with zip := fun _ => .ok twoSheetZip }

/-- C107 is false: a file with two sheets where the second output cannot be created. The first is written, and the report has
only the error. -/
theorem C107_counterexample (p : Crypto.Prims) (ext : Ext) (hex : Bytes → Bytes) (t : List (Grate.Entry Source))
    (ht : Shipped (twoSheetWorld p) t) (er : GoErr) (create : Bytes → Option GoErr)
    (h1 : create (outPath hex (lit "a.xlsx") (lit "one")) = none)
    (h2 : create (outPath hex (lit "a.xlsx") (lit "two")) = some er) :
    ∃ o, processSrc {} hex create ext 99 t (lit "a.xlsx") = some (.ok ([o], .inr er)) ∧
      o.path = outPath hex (lit "a.xlsx") (lit "one") ∧ o.content ≠ [] := by
  obtain ⟨d, src1, c1, c1', rows, src2, c2, e1, e2, e3, e4, e5, e6, e7, e8⟩ : ∃ d src1 c1 c1' rows src2 c2,
      xlsxOpen (twoSheetWorld p) (lit "a.xlsx") = .ok (.xlsx twoSheetZip d) ∧
      Source.list (.xlsx twoSheetZip d) = [lit "one", lit "two"] ∧
      Source.get ext (.xlsx twoSheetZip d) (lit "one") = .ok (src1, .ok c1) ∧ collEmpty c1 = .ok false ∧
      drainColl ext 99 c1 = some (.ok (c1', rows)) ∧ (G2t.sheetLoop {} ⟨0, 0⟩ rows).1.head? = some 116 ∧
      Source.get ext (src1.used (lit "one") c1') (lit "two") = .ok (src2, .ok c2) ∧ collEmpty c2 = .ok false :=
    ⟨_, _, _, _, _, _, _, rfl, rfl, rfl, rfl, rfl, rfl, rfl, rfl⟩
  have ho : openSrc t (lit "a.xlsx") = .ok (.xlsx twoSheetZip d) := by
    rw [shipped_open ht]
    have hx := xls_declines (twoSheetWorld p) (lit "a.xlsx") [] rfl (.inr (by decide))
    simp [openSrc, openTrace, formats, hx, e1, GoErr.isNotInFormat]
  refine ⟨⟨outPath hex (lit "a.xlsx") (lit "one"), (G2t.sheetLoop {} ⟨0, 0⟩ rows).1⟩, ?_, rfl, fun (h : (G2t.sheetLoop {} ⟨0, 0⟩ rows).1 = []) => by rw [h] at e6; cases e6⟩
  unfold processSrc
  rw [ho]
  simp only [e2]
  simp [srcLoop, andThen, e3, e4, h1, e5, e7, e8, h2, addTo]

end Grate.Props
