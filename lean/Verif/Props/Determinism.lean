import Verif.Props.Unused

/-! # C119: opening a file does not depend on the order in which maps are ranged over -/

namespace Grate.Props

open Grate Grate.Spec Grate.Api

/-! ### Specification -/

/-- All relationships of a type lead to one part. -/
def OnePart (a : Xlsx.Archive) (type : Bytes) : Prop :=
  ∀ dir t dir' t', Related a dir type t → Related a dir' type t' → Xlsx.relTarget dir t = Xlsx.relTarget dir' t'

/-! ### Lists of equal elements -/

theorem perm_equal {l k : List Bytes} (h : k.Perm l) (he : ∀ x ∈ l, ∀ y ∈ l, x = y) : k = l := by
  cases l with
  | nil => exact h.eq_nil
  | cons x l =>
    have e : x :: l = List.replicate (l.length + 1) x := by
      refine List.eq_replicate_iff.2 ⟨rfl, fun y hy => ?_⟩
      exact he y hy x List.mem_cons_self
    rw [e] at h ⊢
    exact List.perm_replicate.1 h

theorem openFile_order {mk : Bytes → Fmt × CellType} {o1 o2 : List Bytes → List Bytes} (h1 : ∀ l, (o1 l).Perm l)
    (h2 : ∀ l, (o2 l).Perm l) {a : Xlsx.Archive} (hs : OnePart a (relType "styles")) (ht : OnePart a (relType "sharedStrings")) :
    Xlsx.openFile mk o1 (.ok a) = Xlsx.openFile mk o2 (.ok a) := by
  unfold Xlsx.openFile
  refine notXlsx_bind (SamePart.refl _).alike _ _ ?_
  intro ts us e hp hsame
  have e1 : Xlsx.parseRels [] ⟨us, e⟩ ⟨[], []⟩ = Xlsx.parseRels [] ⟨ts, e⟩ ⟨[], []⟩ := by
    simp only [Xlsx.parseRels, hsame.rels]
  simp only [e1]
  cases hst : Xlsx.notXlsx (Xlsx.parseRels [] ⟨ts, e⟩ ⟨[], []⟩) with
  | err e => rfl
  | panic => rfl
  | ok st =>
    simp only [GoRes.ok_bind]
    obtain ⟨f1, f2⟩ := package_from hp (notXlsx_ok hst)
    split
    · rfl
    · rename_i hne
      have f2 := f2.resolve_left hne
      cases hpr : Xlsx.openPart a (Xlsx.relsOf st.primaryDoc) with
      | err e => rfl
      | panic => rfl
      | ok p =>
        simp only [GoRes.ok_bind]
        cases hst' : Xlsx.parseRels (Xlsx.dirOf st.primaryDoc) p st with
        | err e => rfl
        | panic => rfl
        | ok st' =>
          simp only [GoRes.ok_bind]
          obtain ⟨g1, dir, g2⟩ := workbook_from f1 f2 (openPart_ok hpr) hst'
          have key : ∀ typ, OnePart a typ → o1 (st'.rels.values typ) = o2 (st'.rels.values typ) := by
            intro typ ho
            have he : ∀ x ∈ st'.rels.values typ, ∀ y ∈ st'.rels.values typ, x = y := by
              intro x hx y hy
              obtain ⟨dx, tx, rx, rfl⟩ := values_from g1 hx
              obtain ⟨dy, ty, ry, rfl⟩ := values_from g1 hy
              exact ho _ _ _ _ rx ry
            rw [perm_equal (h1 _) he, perm_equal (h2 _) he]
          rw [key Xlsx.tStyles (relTypes.2.2.1 ▸ hs), key Xlsx.tSharedStrings (relTypes.2.2.2 ▸ ht)]

theorem openSrc_congr {S : Type} {fn : Bytes} : ∀ {es fs : List (Grate.Entry S)},
    List.Forall₂ (fun e f => e.op fn = f.op fn) es fs → openSrc es fn = openSrc fs fn := by
  intro es fs h
  induction h with
  | nil => rfl
  | @cons e f es fs hef _ ih =>
    unfold openSrc at ih ⊢
    unfold openTrace
    rw [hef]
    cases f.op fn with
    | ok s => rfl
    | panic => rfl
    | err e =>
      simp only
      by_cases he : e.isNotInFormat = true
      · simp only [if_pos he]
        exact ih
      · simp only [if_neg he]

/-! ### C119 -/

/-- **C119.** If the styles relationships of an xlsx file lead to one part, and the shared strings relationships to one part, then the
result of `Open` (the source, or the error) does not depend on the orders in which maps are ranged over. For all other files there is
no condition. -/
theorem C119_open_partial (w : World) (iter' : List (Nat × Nat) → List (Nat × Nat)) (order' : List Bytes → List Bytes)
    (hi : ∀ m, (w.iter m).Perm m) (hi' : ∀ m, (iter' m).Perm m) (ho : ∀ l, (w.order l).Perm l) (ho' : ∀ l, (order' l).Perm l)
    (fn : Bytes) (hone : ∀ file a, w.files fn = .ok file → w.zip file = .ok a →
      OnePart a (relType "styles") ∧ OnePart a (relType "sharedStrings"))
    (t t' : List (Grate.Entry Source)) (ht : Shipped w t) (ht' : Shipped { w with iter := iter', order := order' } t') :
    openSrc t' fn = openSrc t fn := by
  rw [shipped_open ht, shipped_open ht']
  refine openSrc_congr ?_
  refine .cons ?_ (.cons ?_ (.cons ?_ (.cons ?_ .nil)))
  · rfl
  · simp only [xlsxOpen]
    split
    · rfl
    · rename_i file hf
      split
      · rfl
      · rename_i a hz
        obtain ⟨h1, h2⟩ := hone file a hf hz
        rw [openFile_order ho' ho h1 h2]
  · simp only [tsvOpen]
    split
    · rfl
    · rw [C06_order_independent iter' w.iter hi' hi]
  · simp only [csvOpen]
    split
    · rfl
    · rename_i c hc
      have e : Simple.openCSV iter' fn (some (w.csv c)) = Simple.openCSV w.iter fn (some (w.csv c)) := by
        obtain ⟨rows, fin⟩ := w.csv c
        cases fin <;> rfl
      rw [e]

/-- The archive of C61, which has a part of shared strings and no styles, meets the hypotheses of C119, and the reversed order is one
in which Go may range over a map. -/
theorem C119_witness (p : Crypto.Prims) (b : Xlsx.Archive) : OnePart exZip (relType "styles") ∧ OnePart exZip (relType "sharedStrings") ∧
    (∀ l : List Bytes, (List.reverse l).Perm l) ∧
    (∀ file a, (otherWorld p b).files (lit "a.xlsx") = .ok file → (otherWorld p b).zip file = .ok a → a = exZip) ∧
    ∃ dir t, Related exZip dir (relType "sharedStrings") t := by
  have h1 : OnePart exZip (relType "styles") := by
    intro dir t _ _ h _
    rcases exZip_related h with ⟨_, h1, _⟩ | ⟨_, ⟨h1, _⟩ | ⟨h1, _⟩⟩ <;> exact absurd h1 (by decide +kernel)
  have h2 : OnePart exZip (relType "sharedStrings") := by
    intro dir t dir' t' h h'
    rcases exZip_related h with ⟨_, h1, _⟩ | ⟨rfl, ⟨h1, _⟩ | ⟨_, rfl⟩⟩
    · exact absurd h1 (by decide +kernel)
    · exact absurd h1 (by decide +kernel)
    · rcases exZip_related h' with ⟨_, h1, _⟩ | ⟨rfl, ⟨h1, _⟩ | ⟨_, rfl⟩⟩
      · exact absurd h1 (by decide +kernel)
      · exact absurd h1 (by decide +kernel)
      · rfl
  refine ⟨h1, h2, List.reverse_perm, ?_, lit "xl/", lit "../strings.xml", ?_⟩
  · intro file a hf hz
    have e : (otherWorld p b).files (lit "a.xlsx") = .ok [] := rfl
    rw [e] at hf
    cases hf
    have e : (otherWorld p b).zip [] = .ok exZip := rfl
    rw [e] at hz
    cases hz
    rfl
  · have r : Related exZip [] (relType "officeDocument") (lit "xl/workbook.xml") := by
      have := Related.package (a := exZip) _ _ rfl (List.mem_singleton.2 rfl)
      exact this
    have := Related.workbook (a := exZip) (lit "xl/workbook.xml") _
      [(lit "Id", lit "rId3"), (lit "Type", relType "sharedStrings"), (lit "Target", lit "../strings.xml")] r rfl
      (List.mem_cons_of_mem _ (List.mem_cons_of_mem _ List.mem_cons_self))
    exact this

/-! ### Two parts -/

/-- An archive with two parts of shared strings, and a sheet that uses the first string. -/
def exTwoStrings : Xlsx.Archive :=
  [(lit "_rels/.rels", .ok ⟨[exRelation (relType "officeDocument") (lit "rId1") (lit "w.xml")], .eof⟩),
    (lit "_rels/w.xml.rels", .ok ⟨[exRelation (relType "sharedStrings") (lit "rId1") (lit "s.xml"),
      exRelation (relType "sharedStrings") (lit "rId2") (lit "t.xml"),
      exRelation (relType "worksheet") (lit "rId3") (lit "1.xml")], .eof⟩),
    (lit "w.xml", .ok ⟨[.start (lit "sheet") [(lit "name", lit "S"), (lit "id", lit "rId3")]], .eof⟩),
    (lit "s.xml", .ok ⟨[.start (lit "si") [], .chars (lit "x"), .stop (lit "si")], .eof⟩),
    (lit "t.xml", .ok ⟨[.start (lit "si") [], .chars (lit "y"), .stop (lit "si")], .eof⟩),
    (lit "1.xml", .ok ⟨[.start (lit "c") [(lit "r", lit "A1"), (lit "t", lit "s")], .chars (lit "0"), .stop (lit "c")], .eof⟩)]

/-- C119 is false in general: with two parts of shared strings the numbers of the strings depend on the order in which Go ranges over
the map of relationships, so that the same cell of the same file is "x" or "y". -/
theorem C119_counterexample (ext : Ext) (mk : Bytes → Fmt × CellType) :
    ∃ (o1 o2 : List Bytes → List Bytes) (d1 d2 : Xlsx.Doc) (src1 src2 : Source) (s1 s2 : Sheet),
    (∀ l, (o1 l).Perm l) ∧ (∀ l, (o2 l).Perm l) ∧ Xlsx.openFile mk o1 (.ok exTwoStrings) = .ok d1 ∧
    Xlsx.openFile mk o2 (.ok exTwoStrings) = .ok d2 ∧
    (Source.xlsx exTwoStrings d1).get ext (lit "S") = .ok (src1, .ok (.sheet s1)) ∧
    (Source.xlsx exTwoStrings d2).get ext (lit "S") = .ok (src2, .ok (.sheet s2)) ∧
    (s1.cell? 0 0).map Cell.value = some (.str (lit "x")) ∧ (s2.cell? 0 0).map Cell.value = some (.str (lit "y")) :=
  ⟨id, List.reverse, _, _, _, _, _, _, fun _ => .refl _, fun l => List.reverse_perm l, rfl, rfl, rfl, rfl, rfl, rfl⟩

end Grate.Props
