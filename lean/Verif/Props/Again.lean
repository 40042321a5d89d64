import Verif.Props.GraterMore

/-! # C85: getting a sheet again -/

namespace Grate.Props

open Grate Grate.Spec Grate.Api

/-- Calls of `Next` on a collection: `c'` is the collection after `k` of them. -/
inductive Moved : Nat → Coll → Coll → Prop
  | refl (c : Coll) : Moved 0 c c
  | next (k : Nat) (c c' c'' : Coll) (more : Bool) : c.next = .ok (c', more) → Moved k c' c'' → Moved (k + 1) c c''

/-- C85, xls. However far a collection has been read, the next `Get` of any sheet gives what it would have given
before: a collection that has not been read. -/
theorem C85_xls_partial (ext : Ext) (b : Xls.Book) (n : Bytes) (src : Source) (r : Except GoErr Coll)
    (hg : (Source.xls b).get ext n = .ok (src, r)) (c' : Coll) : (src.used n c').get ext n = .ok (src, r) := by
  have : src = .xls b := by
    simp only [Source.get] at hg
    cases h : b.get ext n with
    | panic => rw [h] at hg; cases hg
    | err e => rw [h] at hg; cases hg; rfl
    | ok x => rw [h] at hg; cases x <;> cases hg <;> rfl
  subst this
  cases c' <;> exact hg

theorem moved_sheet {k : Nat} {s : Sheet} {c' : Coll} (h : Moved k (.sheet s) c') : ∃ s', c' = .sheet s' := by
  generalize hc : Coll.sheet s = c at h
  induction h generalizing s with
  | refl => exact ⟨s, hc.symm⟩
  | next k c c1 c2 more h1 _ ih =>
    subst hc
    cases h1
    exact ih rfl

theorem moved_text {k : Nat} {f : Simple.File} {c' : Coll} (h : Moved k (.text f) c') :
    c' = .text { f with iterRow := f.iterRow + k } := by
  generalize hc : Coll.text f = c at h
  induction h generalizing f with
  | refl => rw [← hc]; simp
  | next k c c1 c2 more h1 _ ih =>
    subst hc
    cases h1
    rw [ih rfl]
    simp only [Simple.File.next]
    congr 2
    push_cast
    omega

/-- C85, texts. The next `Get`, of any name, gives the collection as it was left. -/
theorem C85_text (ext : Ext) (f : Simple.File) (n n' : Bytes) (src : Source) (c : Coll)
    (hg : (Source.text f).get ext n = .ok (src, .ok c)) (k : Nat) (c' : Coll) (hm : Moved k c c') :
    (src.used n c').get ext n' = .ok (src.used n c', .ok c') ∧ c' = .text { f with iterRow := f.iterRow + k } := by
  cases hg
  have := moved_text hm
  subst this
  exact ⟨rfl, rfl⟩

/-- C85, xlsx. The next `Get` of the same sheet gives the collection as it was left. -/
theorem C85_xlsx (ext : Ext) (a : Xlsx.Archive) (d : Xlsx.Doc) (n : Bytes) (src : Source) (c : Coll)
    (hg : (Source.xlsx a d).get ext n = .ok (src, .ok c)) (k : Nat) (c' : Coll) (hm : Moved k c c') :
    (src.used n c').get ext n = .ok (src.used n c', .ok c') := by
  simp only [Source.get] at hg
  cases h : d.get ext a n with
  | panic => rw [h] at hg; cases hg
  | err e => rw [h] at hg; cases hg
  | ok p =>
    obtain ⟨d1, i, e⟩ := p
    rw [h] at hg
    cases e with
    | some e => cases hg
    | none =>
      simp only at hg
      cases hx : d1.sheets[i]? with
      | none => rw [hx] at hg; cases hg
      | some x =>
        rw [hx] at hg
        obtain ⟨nm, dn, st⟩ := x
        cases st with
        | none => cases hg
        | some p =>
          obtain ⟨s, e⟩ := p
          cases hg
          obtain ⟨s', rfl⟩ := moved_sheet hm
          obtain ⟨h1, h2, h3⟩ := C60_first ext a d d1 n i none h
          rw [← h3] at h1 h2
          have hnm : nm = n := by
            unfold Xlsx.Doc.list at h1
            rw [List.getElem?_map, hx] at h1
            exact Option.some.inj h1
          have hfirst : ∀ j < i, ∀ y, d1.sheets[j]? = some y → y.name ≠ n := by
            intro j hj y hy he
            refine h2 j hj ?_
            unfold Xlsx.Doc.list
            rw [List.getElem?_map, hy, Option.map_some, he]
          have he : e = none := by
            obtain ⟨s0, hs0⟩ := get_loaded h
            obtain ⟨y, c, hy, hyl⟩ := hs0
            rw [hx] at hy
            cases hy
            cases hyl
            rfl
          subst he
          obtain ⟨hlt, _⟩ := List.getElem?_eq_some_iff.1 hx
          have hf1 := find_of hx hnm hfirst
          have hu : (Source.xlsx a d1).used n (.sheet s') =
              .xlsx a { d1 with sheets := d1.sheets.set i ⟨nm, dn, some (s', none)⟩ } := by
            simp only [Source.used, hf1, hx, Option.map_some]
          rw [hu]
          have hx2 : (d1.sheets.set i ⟨nm, dn, some (s', none)⟩)[i]? = some ⟨nm, dn, some (s', none)⟩ :=
            List.getElem?_set_self hlt
          have hf2 : ({ d1 with sheets := d1.sheets.set i ⟨nm, dn, some (s', none)⟩ } : Xlsx.Doc).find n = some i := by
            refine find_of hx2 hnm ?_
            intro j hj y hy
            simp only at hy
            rw [List.getElem?_set_ne (by omega)] at hy
            exact hfirst j hj y hy
          simp only [Source.get, Xlsx.Doc.get, hf2, hx2]

/-- `Next` says that there is no more row. -/
def Ended (c : Coll) : Prop := ∃ c', c.next = .ok (c', false)

/-- There is a row to read. -/
def HasMore (c : Coll) : Prop := ∃ c', c.next = .ok (c', true)

theorem moved_next (k : Nat) (s : Sheet) : Moved k (.sheet s) (.sheet (afterNext Sheet.next k s)) := by
  induction k generalizing s with
  | zero => exact .refl _
  | succ k ih => exact .next k _ _ _ _ rfl (ih s.next.1)

/-- A collection that has rows, and can be read to its end. -/
theorem sheet_ends (s : Sheet) (h : s.curRow = 0) (hr : s.rows ≠ []) :
    HasMore (.sheet s) ∧ ∃ k c', Moved k (.sheet s) c' ∧ Ended c' := by
  have hl : 0 < s.rows.length := List.length_pos_iff.2 hr
  constructor
  · have := ((C13_cursor s h 0).2).2 hl
    exact ⟨_, by show GoRes.ok (Coll.sheet s.next.1, s.next.2) = _; rw [show s.next.2 = true from this]⟩
  · refine ⟨s.rows.length, _, moved_next _ s, ?_⟩
    have := mt ((C13_cursor s h s.rows.length).2).1 (Nat.lt_irrefl _)
    generalize afterNext Sheet.next s.rows.length s = s' at this
    exact ⟨_, by show GoRes.ok (Coll.sheet s'.next.1, s'.next.2) = _; rw [Bool.eq_false_iff.2 this]⟩

/-- C85: false for xlsx files and for texts. A sheet with rows that has been read to its end has no rows when it is
asked for again. -/
theorem C85_counterexample (ext : Ext) :
    (∀ (a : Xlsx.Archive) (d : Xlsx.Doc) (n : Bytes) (src : Source) (s : Sheet),
      (Source.xlsx a d).get ext n = .ok (src, .ok (.sheet s)) → s.curRow = 0 → s.rows ≠ [] →
      HasMore (.sheet s) ∧ ∃ k c', Moved k (.sheet s) c' ∧ Ended c' ∧ (src.used n c').get ext n = .ok (src.used n c', .ok c')) ∧
    (∀ (f : Simple.File) (n : Bytes), f.iterRow = -1 → f.rows ≠ [] →
      HasMore (.text f) ∧ ∃ k c', Moved k (.text f) c' ∧ Ended c' ∧
        ((Source.text f).used n c').get ext n = .ok ((Source.text f).used n c', .ok c')) := by
  refine ⟨fun a d n src s hg h0 hr => ?_, fun f n h0 hr => ?_⟩
  · obtain ⟨h1, k, c', h2, h3⟩ := sheet_ends s h0 hr
    exact ⟨h1, k, c', h2, h3, C85_xlsx ext a d n src _ hg k c' h2⟩
  · have hl : 0 < f.rows.length := List.length_pos_iff.2 hr
    have hm : ∀ (k : Nat) (g : Simple.File), Moved k (.text g) (.text { g with iterRow := g.iterRow + k }) := by
      intro k
      induction k with
      | zero => intro g; simpa using Moved.refl (.text g)
      | succ k ih =>
        intro g
        refine .next k _ _ _ _ rfl ?_
        have := ih g.next.1
        simp only [Simple.File.next] at this ⊢
        rw [show g.iterRow + 1 + (k : Int) = g.iterRow + ((k + 1 : Nat) : Int) by push_cast; omega] at this
        exact this
    refine ⟨⟨.text f.next.1, ?_⟩, f.rows.length, _, hm _ f, ⟨.text ({ f with iterRow := f.iterRow + (f.rows.length : Int) } : Simple.File).next.1, ?_⟩, ?_⟩
    · show GoRes.ok (Coll.text f.next.1, f.next.2) = _
      have : f.next.2 = true := by simp only [Simple.File.next, h0]; simpa using hl
      rw [this]
    · generalize hg : ({ f with iterRow := f.iterRow + (f.rows.length : Int) } : Simple.File) = g
      show GoRes.ok (Coll.text g.next.1, g.next.2) = _
      have : g.next.2 = false := by subst hg; simp only [Simple.File.next, h0]; simp
      rw [this]
    · exact (C85_text ext f n n _ _ rfl _ _ (hm _ f)).1

/-- C85: an archive with a sheet of two rows and one column. -/
def twoRows : Xlsx.Archive := [(lit "p", .ok ⟨[.start (lit "dimension") [(lit "ref", lit "A1:A2")]], .eof⟩)]

/-- C85: its document, and a text of a line. -/
theorem C85_witness (ext : Ext) (f : Formatter) : (∃ src s,
    (Source.xlsx twoRows ⟨[], [], [⟨lit "x", lit "p", none⟩], [], [], f⟩).get ext (lit "x") = .ok (src, .ok (.sheet s)) ∧
    s.curRow = 0 ∧ s.rows.length = 2) ∧
    ∃ t : Simple.File, t.iterRow = -1 ∧ t.rows = [[lit "a", lit "b"]] :=
  ⟨⟨_, _, rfl, rfl, rfl⟩, ⟨[], [[lit "a", lit "b"]], -1⟩, rfl, rfl⟩

end Grate.Props
