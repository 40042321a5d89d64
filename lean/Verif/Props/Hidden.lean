import Verif.Props.Open
import Verif.Props.SameStoredWitness

/-! # Hidden sheets (C126) -/

namespace Grate.Spec

open Grate Grate.Xlsx

/-- The visibility of a sheet element (18.18.68): visible unless it says hidden or veryHidden. -/
def HiddenElement (attrs : List (Bytes × Bytes)) : Prop := Has attrs "state" (lit "hidden") ∨ Has attrs "state" (lit "veryHidden")

end Grate.Spec

namespace Grate.Props

open Grate.Spec Grate.Xls Grate.Api

/-- **C126 (xls).** `List` of an xls file names the visible sheets: a name is listed if and only if a visible sheet has it, and it is
listed as often. -/
theorem C126_xls (w : World) (ext : Ext) (fn file : Bytes) (hf : w.files fn = .ok file)
    {groups : List (List Record)} (h : Grouped groups) (hp : ∀ r ∈ groups.flatten, r.type ≠ 0x2F) {c : Content}
    (hc : AllGlobals .empty groups c) (hs : StreamIn file (lit "Workbook") (stream groups.flatten))
    (hb : ∀ k ∈ w.bufs, 0 < k) (hbl : (stream groups.flatten).length < w.bufs.length) :
    ∃ n, ∀ fuel, n ≤ fuel → ∀ t, Shipped { w with fuel := fuel } t → ∃ src, openSrc t fn = .ok src ∧
      ∀ name, src.list.count name = (c.sheets.filter (fun e => decide (e.visible = true ∧ utf8 e.name = name))).length := by
  obtain ⟨n, hn⟩ := C77_xls_partial w ext fn file hf h hp hc hs hb hbl
  refine ⟨n, fun fuel hfu t ht => ?_⟩
  obtain ⟨src, h1, h2, _⟩ := hn fuel hfu t ht
  refine ⟨src, h1, fun name => ?_⟩
  rw [h2, List.count_eq_length_filter, List.filter_map, List.length_map, List.filter_filter]
  congr 2
  funext e
  cases hv : e.visible <;> simp [Bool.beq_eq_decide_eq]

/-- The archive of C61 with a workbook part in which the second sheet is hidden. -/
def exHiddenAttrs : List (Bytes × Bytes) := [(lit "name", lit "two"), (lit "state", lit "hidden"), (lit "id", lit "rId1")]

/-- The archive. -/
def exHiddenZip : Xlsx.Archive :=
  putPart exZip (lit "xl/workbook.xml") [.start (lit "sheets") [], .start (lit "sheet") [(lit "name", lit "one"), (lit "id", lit "rId2")],
    .start (lit "sheet") exHiddenAttrs]

/-- C126 is false of xlsx files: the visibility of a sheet is not read, and `List` names the hidden sheet. -/
theorem C126_xlsx_counterexample (p : Crypto.Prims) (t : List (Grate.Entry Source)) (ht : Shipped (otherWorld p exHiddenZip) t) :
    HiddenElement exHiddenAttrs ∧ Has exHiddenAttrs "name" (lit "two") ∧
    ∃ src, openSrc t (lit "b.xlsx") = .ok src ∧ src.list = [lit "one", lit "two"] := by
  refine ⟨.inl (by unfold Has; decide +kernel), by unfold Has; decide +kernel, ?_⟩
  obtain ⟨src, h1, h2⟩ : ∃ src, xlsxOpen (otherWorld p exHiddenZip) (lit "b.xlsx") = .ok src ∧ src.list = [lit "one", lit "two"] :=
    ⟨_, rfl, rfl⟩
  exact ⟨src, xlsx_is_open _ _ _ rfl (.inr (by decide)) src t ht h1, h2⟩

/-- A workbook with a very hidden and a visible sheet. -/
def exHidden : List (List Record) :=
  [[exBof 5, ⟨0x85, (⟨0, 2, 0, 0, [0x48]⟩ : SheetEntry).data⟩, ⟨0x85, (⟨0, 0, 0, 0, [0x53]⟩ : SheetEntry).data⟩, ⟨1, List.replicate 207 0⟩, ⟨0x0A, []⟩]]

/-- What it says. -/
def exHiddenContent : Content := ⟨[⟨0, 2, 0, 0, [0x48]⟩, ⟨0, 0, 0, 0, [0x53]⟩], 0, [], [], []⟩

theorem exHidden_length : (stream exHidden.flatten).length = 261 := by decide +kernel

theorem exHidden_grouped : Grouped exHidden ∧ ∀ r ∈ exHidden.flatten, r.type ≠ 0x2F := by
  have pl : ∀ (r : Record) (rs : List Record), (r.type ≠ 0x809 ∧ r.type ≠ 0x0A) → Balanced rs → Balanced (r :: rs) :=
    fun r rs h hb => .plain r rs h.1 h.2 hb
  refine ⟨⟨by unfold Record.Fits; decide +kernel, ?_⟩, by decide +kernel⟩
  intro g hg
  simp only [exHidden, List.mem_cons, List.not_mem_nil, or_false] at hg
  subst hg
  refine ⟨_, [_, _, _], _, rfl, rfl, rfl, ?_⟩
  iterate 3 refine pl _ _ (by decide) ?_
  exact .nil

theorem exHidden_content : AllGlobals .empty exHidden exHiddenContent := by
  have sk : ∀ (c c' : Content) (r : Record) (rs : List Record), ¬ telling r.type → Globals c rs c' →
      Globals c (r :: rs) c' := fun c c' r rs h => .skip c c' r rs (Or.inr h)
  refine .cons _ exHiddenContent _ _ _ ?_ (.nil _)
  refine .bof _ _ 5 _ _ _ _ (by decide) (by decide) ?_
  refine .sheet _ _ ⟨0, 2, 0, 0, [0x48]⟩ _ ?_ ?_
  · exact ⟨by decide, by unfold Spec.Scalar; decide +kernel, by unfold Fits; decide +kernel, by decide +kernel⟩
  refine .sheet _ _ ⟨0, 0, 0, 0, [0x53]⟩ _ ?_ ?_
  · exact ⟨by decide, by unfold Spec.Scalar; decide +kernel, by unfold Fits; decide +kernel, by decide +kernel⟩
  refine sk _ _ _ _ (by unfold telling; decide) ?_
  exact .skip _ _ _ _ (Or.inl rfl) (.nil _)

/-- The hypotheses of `C126_xls` hold for a file with a hidden sheet. -/
theorem C126_witness (w : World) (ext : Ext) (fn : Bytes)
    (hf : w.files fn = .ok (wbFileOf (stream exHidden.flatten) 0xFFFFFFFE wbSlots)) (hb : w.bufs = List.replicate 512 512) :
    ∃ n, ∀ fuel, n ≤ fuel → ∀ t, Shipped { w with fuel := fuel } t → ∃ src, openSrc t fn = .ok src ∧
      src.list.count (lit "H") = 0 ∧ src.list.count (lit "S") = 1 := by
  obtain ⟨n, hn⟩ := C126_xls w ext fn _ hf exHidden_grouped.1 exHidden_grouped.2 exHidden_content (wbOf_stream _ exHidden_length)
    (by rw [hb]; intro k hk; rw [(List.mem_replicate.1 hk).2]; decide) (by rw [exHidden_length, hb]; decide +kernel)
  refine ⟨n, fun fuel hfu t ht => ?_⟩
  obtain ⟨src, h1, h2⟩ := hn fuel hfu t ht
  exact ⟨src, h1, (h2 _).trans (by decide +kernel), (h2 _).trans (by decide +kernel)⟩

end Grate.Props
