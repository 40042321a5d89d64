import Verif.Model.CellHeap

/-! # C128: cells are values

`Raw` hands out copies, and no two cells share memory: what a program does with the cells it got does not change the sheet, what is done
to the sheet does not change the cells that were handed out, and every cell behaves like a value of its own. -/

namespace Grate.CellHeap

open Grate

/-! ### The specification: the same program when cells are values -/

/-- A sheet of values, and the rows of values the program got. -/
structure Plain where
  sheet : Sheet
  out : List (List Cell)

/-- One step on values. -/
def Plain.step (ext : Ext) (s : Plain) : Op → GoRes Plain
  | .put row col v f => do
    let t ← s.sheet.put ext row col v f
    pure { s with sheet := t }
  | .set row col v => do
    let t ← s.sheet.set row col v
    pure { s with sheet := t }
  | .setURL row col l => do
    let t ← s.sheet.setURL row col l
    pure { s with sheet := t }
  | .resize rows cols => pure { s with sheet := s.sheet.resize rows cols }
  | .next => pure { s with sheet := s.sheet.next.1 }
  | .raw => do
    let r ← s.sheet.raw
    pure { s with out := s.out ++ [r] }
  | .outURL k i l =>
    match (s.out[k]?).bind (fun r => r[i]?) with
    | none => .panic
    | some c => do
      let c ← c.setURL l
      pure { s with out := s.out.modify k (fun row => row.set i c) }
  | .outFormat k i f =>
    match (s.out[k]?).bind (fun r => r[i]?) with
    | none => .panic
    | some c => do
      let c ← c.setFormatNumber f
      pure { s with out := s.out.modify k (fun row => row.set i c) }
  | .outValue k i v =>
    match (s.out[k]?).bind (fun r => r[i]?) with
    | none => .panic
    | some .empty => .panic
    | some (.full _ t f u) => pure { s with out := s.out.modify k (fun row => row.set i (.full v t f u)) }

/-- Several steps on values. -/
def Plain.run (ext : Ext) (s : Plain) : List Op → GoRes Plain
  | [] => .ok s
  | o :: os => do
    let s ← s.step ext o
    s.run ext os

/-! ### What is read from the memory -/

/-- The links among the elements. -/
def linksOf : List Word → List Bytes
  | .link b :: ws => b :: linksOf ws
  | _ => []

/-- The cell the elements of a slice stand for. -/
def decode : List Word → Cell
  | [.val v, .ty t] => .full v t none []
  | .val v :: .ty t :: .num n :: ls => .full v t (some n) (linksOf ls)
  | _ => .empty

/-- The cell a program reads through a reference. -/
def cellOf (h : Heap) (r : Ref) : Cell := decode (CellHeap.read h r)

/-- What a program reads. -/
def view (s : Sys) : Plain :=
  ⟨⟨s.sheet.fmtr, s.sheet.numRows, s.sheet.numCols, s.sheet.rows.map (·.map (cellOf s.heap)), s.sheet.curRow⟩,
    s.out.map (·.map (cellOf s.heap))⟩

/-! ### Ownership -/

/-- The elements of a cell. -/
def wordsOf : Cell → List Word
  | .empty => []
  | .full v t none _ => [.val v, .ty t]
  | .full v t (some n) us => .val v :: .ty t :: .num n :: us.map .link

/-- Cells with two elements or with at least three. -/
def Formed : Cell → Prop
  | .empty => False
  | .full _ _ none us => us = []
  | .full _ _ (some _) _ => True

theorem linksOf_map (us : List Bytes) : linksOf (us.map .link) = us := by
  induction us with
  | nil => rfl
  | cons u us ih => simp [linksOf, ih]

theorem decode_words {c : Cell} (h : Formed c) : decode (wordsOf c) = c := by
  match c, h with
  | .full v t none us, h => simp only [Formed] at h; subst h; rfl
  | .full v t (some n) us, _ => simp [wordsOf, decode, linksOf_map]

/-- The reference holds a cell. -/
structure HoldsCell (h : Heap) (r : Ref) (c : Cell) : Prop where
  formed : Formed c
  arr : ∃ a, h[r.addr]? = some a ∧ r.len ≤ a.length ∧ a.take r.len = wordsOf c

/-- Nil, or a reference to a cell. -/
def Valid (h : Heap) (r : Ref) : Prop := r.len = 0 ∨ ∃ c, HoldsCell h r c

/-- An entry of a table. -/
def get2 {α : Type} (t : List (List α)) (i j : Nat) : Option α := (t[i]?).bind (fun r => r[j]?)

/-- Every reference is valid, and no array belongs to two of them. -/
structure Own (h : Heap) (tab : Bool → List (List Ref)) : Prop where
  valid : ∀ (b : Bool) (i j : Nat) (r : Ref), get2 (tab b) i j = some r → Valid h r
  sep : ∀ (b : Bool) (i j : Nat) (r : Ref) (b' : Bool) (i' j' : Nat) (r' : Ref), get2 (tab b) i j = some r →
    get2 (tab b') i' j' = some r' → r.len ≠ 0 → r'.len ≠ 0 → r.addr = r'.addr → b = b' ∧ i = i' ∧ j = j'

/-- What a change to one cell does to the memory. -/
structure Moved (h : Heap) (r : Ref) (h' : Heap) (r' : Ref) (c : Cell) : Prop where
  frame : ∀ (a : Nat) (x : List Word), h[a]? = some x → a ≠ r'.addr → (r.len ≠ 0 → a ≠ r.addr) → h'[a]? = some x
  here : (r.len ≠ 0 ∧ r'.addr = r.addr) ∨ h.length ≤ r'.addr
  longer : h.length ≤ h'.length
  holds : HoldsCell h' r' c

theorem holds_len {h : Heap} {r : Ref} {c : Cell} (hc : HoldsCell h r c) : r.len = (wordsOf c).length ∧ 2 ≤ r.len := by
  obtain ⟨a, _, h2, h3⟩ := hc.arr
  have h4 := congrArg List.length h3
  rw [List.length_take] at h4
  have h5 : 2 ≤ (wordsOf c).length := by
    match c, hc.formed with
    | .full v t none us, _ => simp [wordsOf]
    | .full v t (some n) us, _ => simp [wordsOf]
  omega

theorem holds_read {h : Heap} {r : Ref} {c : Cell} (hc : HoldsCell h r c) : CellHeap.read h r = wordsOf c := by
  obtain ⟨a, h1, _, h3⟩ := hc.arr
  unfold CellHeap.read
  rw [List.getD_eq_getElem?_getD, h1]
  exact h3

theorem holds_cell {h : Heap} {r : Ref} {c : Cell} (hc : HoldsCell h r c) : cellOf h r = c := by
  unfold cellOf
  rw [holds_read hc, decode_words hc.formed]

theorem nil_cell (h : Heap) {r : Ref} (hr : r.len = 0) : cellOf h r = .empty := by
  unfold cellOf CellHeap.read
  rw [hr, List.take_zero]
  rfl

theorem holds_mono {h h' : Heap} {r : Ref} {c : Cell} (hc : HoldsCell h r c)
    (hf : ∀ x, h[r.addr]? = some x → h'[r.addr]? = some x) : HoldsCell h' r c := by
  obtain ⟨a, h1, h2, h3⟩ := hc.arr
  exact ⟨hc.formed, a, hf a h1, h2, h3⟩

theorem get2_modify {α : Type} (t : List (List α)) (i j i' j' : Nat) (x : α) :
    get2 (t.modify i (fun r => r.set j x)) i' j' =
      if i = i' ∧ j = j' then (get2 t i j).map (fun _ => x) else get2 t i' j' := by
  unfold get2
  rw [List.getElem?_modify]
  by_cases hi : i = i'
  · subst hi
    cases hr : t[i]? with
    | none => simp
    | some r =>
      simp only [if_true, Option.map_eq_map, Option.map_some, Option.bind_some, List.getElem?_set, true_and]
      by_cases hj : j = j'
      · subst hj
        by_cases hl : j < r.length
        · simp [hl]
        · simp [hl]
      · simp [hj]
  · simp [hi]

theorem table_ext {α : Type} {t t' : List (List α)} (hs : t.map List.length = t'.map List.length)
    (h : ∀ i j, get2 t i j = get2 t' i j) : t = t' := by
  have hl : t.length = t'.length := by simpa using congrArg List.length hs
  refine List.ext_getElem hl ?_
  intro i h1 h2
  refine List.ext_getElem? (fun j => ?_)
  have := h i j
  unfold get2 at this
  rw [List.getElem?_eq_getElem h1, List.getElem?_eq_getElem h2] at this
  exact this

theorem get2_map {α β : Type} (f : α → β) (t : List (List α)) (i j : Nat) :
    get2 (t.map (·.map f)) i j = (get2 t i j).map f := by
  unfold get2
  cases h : t[i]? with
  | none => simp [h]
  | some r => simp [h]

theorem shape_modify {α : Type} (t : List (List α)) (i j : Nat) (x : α) :
    (t.modify i (fun r => r.set j x)).map List.length = t.map List.length := by
  refine List.ext_getElem? (fun k => ?_)
  rw [List.getElem?_map, List.getElem?_map, List.getElem?_modify]
  cases t[k]? with
  | none => rfl
  | some r => by_cases h : i = k <;> simp [h]

theorem shape_map {α β : Type} (f : α → β) (t : List (List α)) :
    (t.map (·.map f)).map List.length = t.map List.length := by
  rw [List.map_map]
  exact List.map_congr_left (fun r _ => by simp)

/-- The tables after one reference was exchanged. -/
def tabSet (tab : Bool → List (List Ref)) (b : Bool) (i j : Nat) (r : Ref) : Bool → List (List Ref) :=
  fun b' => if b' = b then (tab b').modify i (fun row => row.set j r) else tab b'

theorem get2_tabSet {tab : Bool → List (List Ref)} {b : Bool} {i j : Nat} {r0 : Ref} (h : get2 (tab b) i j = some r0)
    (r : Ref) (b' : Bool) (i' j' : Nat) :
    get2 (tabSet tab b i j r b') i' j' = if b' = b ∧ i' = i ∧ j' = j then some r else get2 (tab b') i' j' := by
  unfold tabSet
  by_cases hb : b' = b
  · subst hb
    rw [if_pos rfl, get2_modify, h]
    by_cases hi : i' = i ∧ j' = j
    · obtain ⟨rfl, rfl⟩ := hi
      simp
    · have : ¬ (i = i' ∧ j = j') := fun hh => hi ⟨hh.1.symm, hh.2.symm⟩
      rw [if_neg this, if_neg (fun hh => hi hh.2)]
  · rw [if_neg hb, if_neg (fun hh => hb hh.1)]

/-- A change to one cell keeps the others. -/
theorem other_holds {h h' : Heap} {tab : Bool → List (List Ref)} (ho : Own h tab) {b : Bool} {i j : Nat} {r r' : Ref} {c : Cell}
    (hr : get2 (tab b) i j = some r) (hm : Moved h r h' r' c) {b' : Bool} {i' j' : Nat} {r2 : Ref}
    (h2 : get2 (tab b') i' j' = some r2) (hne : ¬ (b' = b ∧ i' = i ∧ j' = j)) :
    (r2.len ≠ 0 → r2.addr ≠ r'.addr) ∧ Valid h' r2 ∧ cellOf h' r2 = cellOf h r2 := by
  rcases ho.valid b' i' j' r2 h2 with hz | ⟨c2, hc2⟩
  · exact ⟨fun hh => absurd hz hh, Or.inl hz, by rw [nil_cell _ hz, nil_cell _ hz]⟩
  · have hl : r2.len ≠ 0 := by have := (holds_len hc2).2; omega
    have hs : r.len ≠ 0 → r2.addr ≠ r.addr := fun hr0 he => by
      obtain ⟨e1, e2, e3⟩ := ho.sep b' i' j' r2 b i j r h2 hr hl hr0 he
      exact hne ⟨e1, e2, e3⟩
    have hlt : r2.addr < h.length := by
      obtain ⟨a, h1, _⟩ := hc2.arr
      exact (List.getElem?_eq_some_iff.1 h1).1
    have hs' : r2.addr ≠ r'.addr := by
      rcases hm.here with ⟨h0, h1⟩ | h1
      · rw [h1]; exact hs h0
      · omega
    have hc2' := holds_mono hc2 (fun x hx => hm.frame r2.addr x hx hs' hs)
    exact ⟨fun _ => hs', Or.inr ⟨c2, hc2'⟩, by rw [holds_cell hc2, holds_cell hc2']⟩

theorem own_set {h h' : Heap} {tab : Bool → List (List Ref)} (ho : Own h tab) {b : Bool} {i j : Nat} {r r' : Ref} {c : Cell}
    (hr : get2 (tab b) i j = some r) (hm : Moved h r h' r' c) : Own h' (tabSet tab b i j r') := by
  constructor
  · intro b1 i1 j1 r1 h1
    rw [get2_tabSet hr] at h1
    by_cases hp : b1 = b ∧ i1 = i ∧ j1 = j
    · rw [if_pos hp] at h1
      cases h1
      exact Or.inr ⟨c, hm.holds⟩
    · rw [if_neg hp] at h1
      exact (other_holds ho hr hm h1 hp).2.1
  · intro b1 i1 j1 r1 b2 i2 j2 r2 h1 h2 l1 l2 he
    rw [get2_tabSet hr] at h1 h2
    by_cases hp : b1 = b ∧ i1 = i ∧ j1 = j
    · rw [if_pos hp] at h1
      cases h1
      by_cases hq : b2 = b ∧ i2 = i ∧ j2 = j
      · exact ⟨hp.1.trans hq.1.symm, hp.2.1.trans hq.2.1.symm, hp.2.2.trans hq.2.2.symm⟩
      · rw [if_neg hq] at h2
        exact absurd he.symm ((other_holds ho hr hm h2 hq).1 l2)
    · rw [if_neg hp] at h1
      by_cases hq : b2 = b ∧ i2 = i ∧ j2 = j
      · rw [if_pos hq] at h2
        cases h2
        exact absurd he ((other_holds ho hr hm h1 hp).1 l1)
      · rw [if_neg hq] at h2
        exact ho.sep _ _ _ _ _ _ _ _ h1 h2 l1 l2 he

theorem view_set {h h' : Heap} {tab : Bool → List (List Ref)} (ho : Own h tab) {b : Bool} {i j : Nat} {r r' : Ref} {c : Cell}
    (hr : get2 (tab b) i j = some r) (hm : Moved h r h' r' c) (b' : Bool) :
    (tabSet tab b i j r' b').map (·.map (cellOf h')) =
      if b' = b then ((tab b').map (·.map (cellOf h))).modify i (fun row => row.set j c)
      else (tab b').map (·.map (cellOf h)) := by
  apply table_ext
  · rw [shape_map]
    unfold tabSet
    by_cases hb : b' = b
    · rw [if_pos hb, if_pos hb, shape_modify, shape_modify, shape_map]
    · rw [if_neg hb, if_neg hb, shape_map]
  · intro i' j'
    rw [get2_map, get2_tabSet hr]
    by_cases hb : b' = b
    · subst hb
      rw [if_pos rfl, get2_modify, get2_map, get2_map, hr]
      by_cases hp : i' = i ∧ j' = j
      · obtain ⟨rfl, rfl⟩ := hp
        simp [holds_cell hm.holds]
      · have : ¬ (i = i' ∧ j = j') := fun hh => hp ⟨hh.1.symm, hh.2.symm⟩
        rw [if_neg this, if_neg (fun hh => hp hh.2)]
        cases h2 : get2 (tab b') i' j' with
        | none => rfl
        | some r2 =>
          simp only [Option.map_some]
          rw [(other_holds ho hr hm h2 (fun hh => hp hh.2)).2.2]
    · rw [if_neg hb, if_neg (fun hh => hb hh.1), get2_map]
      cases h2 : get2 (tab b') i' j' with
      | none => rfl
      | some r2 =>
        simp only [Option.map_some]
        rw [(other_holds ho hr hm h2 (fun hh => hb hh.1)).2.2]

/-! ### Changes to one cell -/

theorem moved_here {h h' : Heap} {r : Ref} {c0 : Cell} (hr : HoldsCell h r c0) {a' : List Word} {n : Nat} {c : Cell}
    (hl : h'.length = h.length) (hh : ∀ k, h'[k]? = if k = r.addr then some a' else h[k]?)
    (hn : n ≤ a'.length) (hw : a'.take n = wordsOf c) (hf : Formed c) : Moved h r h' ⟨r.addr, n⟩ c where
  frame k x hx hk _ := by rw [hh, if_neg hk]; exact hx
  here := Or.inl ⟨by have := (holds_len hr).2; omega, rfl⟩
  longer := by omega
  holds := ⟨hf, a', by rw [hh, if_pos rfl], hn, hw⟩

theorem moved_new {h h1 : Heap} {r : Ref} {a' : List Word} {n : Nat} {c : Cell} (hl : h1.length = h.length)
    (hh : ∀ k x, h[k]? = some x → (r.len ≠ 0 → k ≠ r.addr) → h1[k]? = some x)
    (hn : n ≤ a'.length) (hw : a'.take n = wordsOf c) (hf : Formed c) : Moved h r (h1 ++ [a']) ⟨h1.length, n⟩ c where
  frame k x hx _ hk := by
    have h2 := hh k x hx hk
    rw [List.getElem?_append_left (List.getElem?_eq_some_iff.1 h2).1]
    exact h2
  here := Or.inr (by show h.length ≤ h1.length; omega)
  longer := by rw [List.length_append]; omega
  holds := ⟨hf, a', by simp, hn, hw⟩

theorem moved_any {h h' : Heap} {r' : Ref} {c : Cell} (hm : Moved h .nil h' r' c) (r : Ref) : Moved h r h' r' c where
  frame k x hx hk _ := hm.frame k x hx hk (fun hh => absurd rfl hh)
  here := by
    rcases hm.here with ⟨h0, _⟩ | h1
    · exact absurd rfl h0
    · exact Or.inr h1
  longer := hm.longer
  holds := hm.holds

theorem moved_trans {h h1 h2 : Heap} {r r1 r2 : Ref} {c1 c2 : Cell} (hm : Moved h r h1 r1 c1) (hm2 : Moved h1 r1 h2 r2 c2)
    (hk : r2.addr = r1.addr ∨ h1.length ≤ r2.addr) : Moved h r h2 r2 c2 where
  frame k x hx hk2 hk3 := by
    have hlt := (List.getElem?_eq_some_iff.1 hx).1
    by_cases hk1 : k = r1.addr
    · rcases hm.here with ⟨h0, h3⟩ | h3
      · exact absurd (hk1.trans h3) (hk3 h0)
      · omega
    · exact hm2.frame k x (hm.frame k x hx hk1 hk3) hk2 (fun _ => hk1)
  here := by
    have := hm.longer
    rcases hk with h3 | h3
    · rw [h3]; exact hm.here
    · exact Or.inr (by omega)
  longer := Nat.le_trans hm.longer hm2.longer
  holds := hm2.holds

theorem moved_trans' {h h1 h2 : Heap} {r r1 r2 : Ref} {c1 c2 : Cell} (hm : Moved h r h1 r1 c1) (hm2 : Moved h1 r1 h2 r2 c2) :
    Moved h r h2 r2 c2 := moved_trans hm hm2 (by
  rcases hm2.here with ⟨_, h1⟩ | h1
  · exact Or.inl h1
  · exact Or.inr h1)

theorem modify_get (h : Heap) (k : Nat) (f : List Word → List Word) (a : List Word) (ha : h[k]? = some a) (k' : Nat) :
    (h.modify k f)[k']? = if k' = k then some (f a) else h[k']? := by
  rw [List.getElem?_modify]
  by_cases hk : k = k'
  · subst hk
    simp [ha]
  · rw [if_neg (fun hh => hk hh.symm)]
    simp [hk]

/-- Overwriting an element. -/
theorem write_moved {h : Heap} {r : Ref} {c0 : Cell} (hr : HoldsCell h r c0) (i : Nat) (w : Word) {c : Cell} (hf : Formed c)
    (hi : i < r.len) (hw : (wordsOf c0).set i w = wordsOf c) :
    ∃ h', write h r i w = .ok h' ∧ Moved h r h' r c := by
  obtain ⟨a, h1, h2, h3⟩ := hr.arr
  unfold write
  rw [if_pos hi]
  refine ⟨_, rfl, ?_⟩
  refine moved_here hr (by simp) (modify_get h r.addr _ a h1) (by simpa using h2) ?_ hf
  rw [List.take_set, h3, hw]

/-- Adding elements. -/
theorem append_moved (g : Nat → Nat) {h : Heap} {r : Ref} {c0 : Cell} (hr : HoldsCell h r c0) (ws : List Word) {c : Cell}
    (hf : Formed c) (hw : wordsOf c0 ++ ws = wordsOf c) :
    ∃ h' r', CellHeap.append g h r ws = (h', r') ∧ Moved h r h' r' c := by
  have hl := holds_len hr
  obtain ⟨a, h1, h2, h3⟩ := hr.arr
  unfold CellHeap.append
  by_cases hc : r.len + ws.length ≤ cap h r
  · rw [if_pos hc]
    refine ⟨_, _, rfl, ?_⟩
    have hcap : cap h r = a.length := by
      unfold cap
      rw [if_neg (by omega), List.getD_eq_getElem?_getD, h1]
      rfl
    rw [hcap] at hc
    have e1 : (a.take r.len ++ ws).length = r.len + ws.length := by simp; omega
    refine moved_here hr (by simp) (modify_get h r.addr _ a h1) ?_ ?_ hf
    · rw [List.length_append, e1]; omega
    · rw [List.take_append_of_le_length (by omega), List.take_of_length_le (by omega), h3, hw]
  · rw [if_neg hc]
    refine ⟨_, _, rfl, ?_⟩
    have e0 := holds_read hr
    have e1 : (CellHeap.read h r ++ ws).length = r.len + ws.length := by rw [e0, List.length_append]; omega
    refine moved_new rfl (fun k x hx _ => hx) ?_ ?_ hf
    · rw [List.length_append, e1]; omega
    · rw [List.take_append_of_le_length (by omega), List.take_of_length_le (by omega), e0, hw]

/-- A result in memory and a result on values agree. -/
def Agrees (h : Heap) (r : Ref) (x : GoRes (Heap × Ref)) (y : GoRes Cell) : Prop :=
  match x, y with
  | .ok (h', r'), .ok c => Moved h r h' r' c
  | .panic, .panic => True
  | .err e, .err e' => e = e'
  | _, _ => False

theorem newCell_formed (value : GoVal) :
    Grate.newCell value = .panic ∨ ∃ v t, Grate.newCell value = .ok (.full v t none []) := by
  cases value <;> simp only [Grate.newCell, textCell]
  all_goals first
    | exact Or.inl rfl
    | exact Or.inl trivial
    | exact Or.inr ⟨_, _, rfl⟩
    | (refine Or.inr ?_; split <;> exact ⟨_, _, rfl⟩)

theorem alloc_moved (h : Heap) (v : Val) (t : CellType) :
    ∃ h' r', alloc h [.val v, .ty t] = (h', r') ∧ Moved h .nil h' r' (.full v t none []) :=
  ⟨_, _, rfl, moved_new rfl (fun _ _ hx _ => hx) (Nat.le_refl _) rfl rfl⟩

theorem newCell_agrees (h : Heap) (value : GoVal) : Agrees h .nil (CellHeap.newCell h value) (Grate.newCell value) := by
  unfold CellHeap.newCell
  rcases newCell_formed value with h1 | ⟨v, t, h1⟩
  · rw [h1]; trivial
  · obtain ⟨h', r', e, hm⟩ := alloc_moved h v t
    rw [h1, GoRes.ok_bind]
    show Agrees h .nil (GoRes.ok (alloc h _)) _
    rw [e]
    exact hm

theorem newCellWithType_agrees (ext : Ext) (m : Bool) (h : Heap) (value : GoVal) (t : CellType) :
    Agrees h .nil (CellHeap.newCellWithType ext m h value t) (Grate.newCellWithType ext m value t) := by
  unfold CellHeap.newCellWithType Grate.newCellWithType
  rcases newCell_formed value with h1 | ⟨v, ty, h1⟩
  · rw [h1]; trivial
  · obtain ⟨h', r', e, hm⟩ := alloc_moved h v ty
    rw [h1, GoRes.ok_bind, GoRes.ok_bind]
    simp only [e]
    by_cases ht : ty = t
    · rw [if_pos ht, if_pos ht]
      exact hm
    · rw [if_neg ht, if_neg ht]
      have hl := holds_len hm.holds
      obtain ⟨h2, e2, m2⟩ := write_moved (c := .full (coerce ext m t v ty).1 ty none []) hm.holds 0 (.val (coerce ext m t v ty).1)
        rfl (by omega) rfl
      obtain ⟨h3, e3, m3⟩ := write_moved (c := .full (coerce ext m t v ty).1 (coerce ext m t v ty).2 none []) m2.holds 1
        (.ty (coerce ext m t v ty).2) rfl (by omega) rfl
      rw [e2, GoRes.ok_bind, e3, GoRes.ok_bind]
      exact moved_trans' hm (moved_trans' m2 m3)

theorem setFormat_agrees (g : Nat → Nat) {h : Heap} {r : Ref} (hv : Valid h r) (f : Nat) :
    Agrees h r (CellHeap.setFormatNumber g h r f) ((cellOf h r).setFormatNumber f) := by
  rcases hv with hz | ⟨c, hc⟩
  · rw [nil_cell h hz]
    unfold CellHeap.setFormatNumber cap write
    by_cases hf : f = 0
    · simp [hf, hz, Cell.setFormatNumber, Agrees]
    · simp [hf, hz, Cell.setFormatNumber, Agrees]
  · rw [holds_cell hc]
    have hl := holds_len hc
    obtain ⟨a, h1, h2, h3⟩ := hc.arr
    have hcap : cap h r = a.length := by
      unfold cap
      rw [if_neg (by omega), List.getD_eq_getElem?_getD, h1]
      rfl
    unfold CellHeap.setFormatNumber
    match c, hc, hl with
    | .full v t fm us, hc, hl =>
    by_cases hf : f = 0
    · rw [if_pos hf, hcap, if_pos (by omega)]
      simp only [Cell.setFormatNumber, if_pos hf]
      refine moved_here hc rfl (a' := a) ?_ (by omega) ?_ rfl
      · intro k
        by_cases hk : k = r.addr
        · rw [if_pos hk, hk, h1]
        · rw [if_neg hk]
      · have : a.take 2 = (a.take r.len).take 2 := by rw [List.take_take]; congr 1; omega
        rw [this, h3]
        cases fm <;> rfl
    · rw [if_neg hf]
      simp only [Cell.setFormatNumber, if_neg hf]
      cases fm with
      | none =>
        have hu : us = [] := hc.formed
        subst hu
        rw [if_pos (show r.len = 2 from hl.1)]
        obtain ⟨h', r', e, hm⟩ := append_moved g hc [.num f] (c := .full v t (some f) []) trivial rfl
        rw [e]
        exact hm
      | some n =>
        have hl3 : 3 ≤ r.len := by rw [hl.1]; simp [wordsOf]
        rw [if_neg (by omega)]
        obtain ⟨h', e, hm⟩ := write_moved (c := .full v t (some f) us) hc 2 (.num f) trivial (by omega) rfl
        rw [e, GoRes.ok_bind]
        exact hm

theorem setURL_agrees (g : Nat → Nat) {h : Heap} {r : Ref} (hv : Valid h r) (l : Bytes) :
    Agrees h r (CellHeap.setURL g h r l) ((cellOf h r).setURL l) := by
  unfold CellHeap.setURL
  rcases hv with hz | ⟨c, hc⟩
  · rw [nil_cell h hz]
    unfold write
    rw [if_neg (by omega)]
    trivial
  · rw [holds_cell hc]
    have hl := holds_len hc
    match c, hc, hl with
    | .full v t none us, hc, hl =>
      have hu : us = [] := hc.formed
      subst hu
      obtain ⟨h1, e1, m1⟩ := write_moved (c := .full v .hyperlink none []) hc 1 (.ty .hyperlink) rfl (by omega) rfl
      obtain ⟨h2, r2, e2, m2⟩ := append_moved g m1.holds [.num 0, .link l] (c := .full v .hyperlink (some 0) [l]) trivial rfl
      rw [e1, GoRes.ok_bind, if_pos (show r.len = 2 from hl.1), e2]
      exact moved_trans' m1 m2
    | .full v t (some n) us, hc, hl =>
      have hl3 : 3 ≤ r.len := by rw [hl.1]; simp [wordsOf]
      obtain ⟨h1, e1, m1⟩ := write_moved (c := .full v .hyperlink (some n) us) hc 1 (.ty .hyperlink) trivial (by omega) rfl
      obtain ⟨h2, r2, e2, m2⟩ := append_moved g m1.holds [.link l] (c := .full v .hyperlink (some n) (us ++ [l])) trivial
        (by simp [wordsOf])
      rw [e1, GoRes.ok_bind, if_neg (by omega), e2]
      exact moved_trans' m1 m2

theorem putCell_agrees (ext : Ext) (g : Nat → Nat) (f : Formatter) (h : Heap) (value : GoVal) (n : Nat) :
    Agrees h .nil (CellHeap.putCell ext g f h value n) (Grate.putCell ext f value n) := by
  unfold CellHeap.putCell Grate.putCell
  cases value.marker with
  | true =>
    simp only [cond_true]
    unfold staticCell
    have ha := newCell_agrees h value
    rcases newCell_formed value with h1 | ⟨v, t, h1⟩
    · rw [h1] at ha ⊢
      revert ha
      cases CellHeap.newCell h value with
      | ok x => intro ha; exact ha.elim
      | err e => intro ha; exact ha.elim
      | panic => intro _; trivial
    · rw [h1] at ha ⊢
      revert ha
      cases hx : CellHeap.newCell h value with
      | err e => intro ha; exact ha.elim
      | panic => intro ha; exact ha.elim
      | ok x =>
        intro ha
        have hm : Moved h .nil x.1 x.2 (.full v t none []) := ha
        have hl := holds_len hm.holds
        obtain ⟨h2, e2, m2⟩ := write_moved (c := .full v .static none []) hm.holds 1 (.ty .static) rfl (by omega) rfl
        rw [GoRes.ok_bind, GoRes.ok_bind]
        simp only [e2, GoRes.ok_bind]
        exact moved_trans' hm m2
  | false =>
    simp only [cond_false]
    have ha : Agrees h .nil (CellHeap.typedCell ext f h value n) (Grate.typedCell ext f value n) := by
      unfold CellHeap.typedCell Grate.typedCell
      cases f.getCellType n with
      | none => exact newCell_agrees h value
      | some ct =>
        by_cases hn : n = 0
        · simp only [if_pos hn]; exact newCell_agrees h value
        · simp only [if_neg hn]; exact newCellWithType_agrees ext f.mode1904 h value ct
    revert ha
    generalize CellHeap.typedCell ext f h value n = x
    generalize Grate.typedCell ext f value n = y
    intro ha
    match x, y, ha with
    | .panic, .panic, _ => trivial
    | .err _, .err _, ha => exact ha
    | .ok (h1, r1), .ok c, ha =>
      have hm : Moved h .nil h1 r1 c := ha
      rw [GoRes.ok_bind, GoRes.ok_bind]
      have hb := setFormat_agrees g (Or.inr ⟨c, hm.holds⟩) n
      rw [holds_cell hm.holds] at hb
      revert hb
      dsimp only
      generalize CellHeap.setFormatNumber g h1 r1 n = x2
      generalize c.setFormatNumber n = y2
      intro hb
      match x2, y2, hb with
      | .panic, .panic, _ => trivial
      | .err _, .err _, hb => exact hb
      | .ok (h2, r2), .ok c2, hb => exact moved_trans' hm hb

/-! ### Steps of the program -/

/-- The references of a program. -/
def tabOf (s : Sys) : Bool → List (List Ref) := fun b => bif b then s.out else s.sheet.rows

/-- A run in memory and a run on values agree. -/
def Sim (x : GoRes Sys) (y : GoRes Plain) : Prop :=
  match x, y with
  | .ok s, .ok p => Own s.heap (tabOf s) ∧ view s = p
  | .panic, .panic => True
  | .err e, .err e' => e = e'
  | _, _ => False

theorem own_sub {h : Heap} {tab tab' : Bool → List (List Ref)} (ho : Own h tab)
    (hs : ∀ (b : Bool) (i j : Nat) (r : Ref), get2 (tab' b) i j = some r → r.len = 0 ∨ get2 (tab b) i j = some r) : Own h tab' := by
  constructor
  · intro b i j r hr
    rcases hs b i j r hr with h1 | h1
    · exact Or.inl h1
    · exact ho.valid b i j r h1
  · intro b i j r b' i' j' r' hr hr' l l' he
    rcases hs b i j r hr with h1 | h1
    · exact absurd h1 l
    · rcases hs b' i' j' r' hr' with h2 | h2
      · exact absurd h2 l'
      · exact ho.sep _ _ _ _ _ _ _ _ h1 h2 l l' he

theorem extendRow_map (h : Heap) (cols : Int) (row : List Ref) :
    (CellHeap.extendRow cols row).map (cellOf h) = Grate.extendRow cols (row.map (cellOf h)) := by
  unfold CellHeap.extendRow Grate.extendRow
  rw [List.length_map]
  by_cases hn : cols - row.length ≤ 0
  · simp only [if_pos hn]
  · simp only [if_neg hn, List.map_append, List.map_replicate]
    rw [nil_cell h (r := .nil) rfl]

theorem extendRows_map (h : Heap) (rows cols : Int) (i : Nat) (t : List (List Ref)) :
    (CellHeap.extendRows rows cols i t).map (·.map (cellOf h)) = Grate.extendRows rows cols i (t.map (·.map (cellOf h))) := by
  induction t generalizing i with
  | nil => rfl
  | cons r rs ih =>
    unfold CellHeap.extendRows
    rw [List.map_cons]
    unfold Grate.extendRows
    by_cases hi : (i : Int) > rows
    · simp only [if_pos hi, List.map_cons]
    · simp only [if_neg hi, List.map_cons, extendRow_map]
      rw [ih]

theorem extendRow_get (cols : Int) (row : List Ref) (j : Nat) (r : Ref) (hr : (CellHeap.extendRow cols row)[j]? = some r) :
    r.len = 0 ∨ row[j]? = some r := by
  unfold CellHeap.extendRow at hr
  by_cases hn : cols - row.length ≤ 0
  · simp only [if_pos hn] at hr
    exact Or.inr hr
  · simp only [if_neg hn] at hr
    by_cases hj : j < row.length
    · rw [List.getElem?_append_left hj] at hr
      exact Or.inr hr
    · rw [List.getElem?_append_right (by omega)] at hr
      have := List.eq_of_mem_replicate (List.mem_of_getElem? hr)
      rw [this]
      exact Or.inl rfl

theorem extendRows_get (rows cols : Int) (k : Nat) (t : List (List Ref)) (i j : Nat) (r : Ref)
    (hr : get2 (CellHeap.extendRows rows cols k t) i j = some r) : r.len = 0 ∨ get2 t i j = some r := by
  induction t generalizing k i with
  | nil => simp [CellHeap.extendRows, get2] at hr
  | cons row t ih =>
    unfold CellHeap.extendRows at hr
    by_cases hk : (k : Int) > rows
    · rw [if_pos hk] at hr
      exact Or.inr hr
    · rw [if_neg hk] at hr
      cases i with
      | zero => exact extendRow_get cols row j r hr
      | succ i => exact ih (k + 1) i hr

theorem extendRows_length (rows cols : Int) (k : Nat) (t : List (List Ref)) :
    (CellHeap.extendRows rows cols k t).length = t.length := by
  induction t generalizing k with
  | nil => rfl
  | cons row t ih =>
    unfold CellHeap.extendRows
    by_cases hk : (k : Int) > rows
    · rw [if_pos hk]
    · rw [if_neg hk]; simp [ih]

/-- The sheet a program reads. -/
def viewSheet (h : Heap) (s : HSheet) : Sheet :=
  ⟨s.fmtr, s.numRows, s.numCols, s.rows.map (·.map (cellOf h)), s.curRow⟩

theorem resize_view (h : Heap) (s : HSheet) (rows cols : Int) :
    viewSheet h (s.resize rows cols) = (viewSheet h s).resize rows cols := by
  unfold HSheet.resize Sheet.resize viewSheet
  simp only [List.map_append, List.map_replicate, extendRows_map]
  rw [nil_cell h (r := .nil) rfl]
  simp only [← extendRows_map, List.length_map]

theorem resize_get (s : HSheet) (rows cols : Int) (i j : Nat) (r : Ref)
    (hr : get2 (s.resize rows cols).rows i j = some r) : r.len = 0 ∨ get2 s.rows i j = some r := by
  unfold HSheet.resize at hr
  dsimp only at hr
  unfold get2 at hr
  by_cases hi : i < (CellHeap.extendRows rows cols 0 s.rows).length
  · rw [List.getElem?_append_left hi] at hr
    exact extendRows_get rows cols 0 s.rows i j r hr
  · rw [List.getElem?_append_right (by omega)] at hr
    obtain ⟨row, h1, h2⟩ := Option.bind_eq_some_iff.1 hr
    have h3 := List.eq_of_mem_replicate (List.mem_of_getElem? h1)
    rw [h3] at h2
    have h4 := List.eq_of_mem_replicate (List.mem_of_getElem? h2)
    rw [h4]
    exact Or.inl rfl

theorem grow_view (h : Heap) (s : HSheet) (row col : Int) : viewSheet h (s.grow row col) = (viewSheet h s).grow row col := by
  unfold HSheet.grow Sheet.grow
  by_cases hg : row ≥ s.numRows ∨ col ≥ s.numCols
  · rw [if_pos hg, if_pos (show row ≥ (viewSheet h s).numRows ∨ col ≥ (viewSheet h s).numCols from hg)]
    exact resize_view _ _ _ _
  · rw [if_neg hg, if_neg (show ¬ (row ≥ (viewSheet h s).numRows ∨ col ≥ (viewSheet h s).numCols) from hg)]

theorem grow_get (s : HSheet) (row col : Int) (i j : Nat) (r : Ref)
    (hr : get2 (s.grow row col).rows i j = some r) : r.len = 0 ∨ get2 s.rows i j = some r := by
  unfold HSheet.grow at hr
  by_cases hg : row ≥ s.numRows ∨ col ≥ s.numCols
  · rw [if_pos hg] at hr
    exact resize_get _ _ _ _ _ _ hr
  · rw [if_neg hg] at hr
    exact Or.inr hr

theorem cell_view (h : Heap) (s : HSheet) (row col : Int) :
    (viewSheet h s).cell? row col = (s.cell? row col).map (cellOf h) := by
  unfold Sheet.cell? HSheet.cell?
  by_cases hg : 0 ≤ row ∧ 0 ≤ col
  · rw [if_pos hg, if_pos hg]
    unfold viewSheet
    simp only [List.getElem?_map]
    cases s.rows[row.toNat]? with
    | none => rfl
    | some r => simp
  · rw [if_neg hg, if_neg hg]
    rfl

theorem cell_get {s : HSheet} {row col : Int} {r : Ref} (h : s.cell? row col = some r) :
    get2 s.rows row.toNat col.toNat = some r := by
  unfold HSheet.cell? at h
  by_cases hg : 0 ≤ row ∧ 0 ≤ col
  · rw [if_pos hg] at h; exact h
  · rw [if_neg hg] at h; cases h

theorem set_same {t : List (List Ref)} {i j : Nat} {r : Ref} (h : get2 t i j = some r) :
    t.modify i (fun row => row.set j r) = t := by
  apply table_ext
  · exact shape_modify t i j r
  · intro i' j'
    rw [get2_modify]
    by_cases hp : i = i' ∧ j = j'
    · obtain ⟨rfl, rfl⟩ := hp
      simp [h]
    · rw [if_neg hp]

/-- A cell of the sheet is exchanged. -/
theorem store_sim {s : Sys} (ho : Own s.heap (tabOf s)) {row col : Int} {r r' : Ref} {h' : Heap} {c : Cell}
    (hr : s.sheet.cell? row col = some r) (hm : Moved s.heap r h' r' c) :
    Own h' (tabOf { s with heap := h', sheet := s.sheet.store row col r' }) ∧
      view { s with heap := h', sheet := s.sheet.store row col r' } =
        { view s with sheet := { (view s).sheet with
          rows := (view s).sheet.rows.modify row.toNat (fun x => x.set col.toNat c) } } := by
  have hg : get2 (tabOf s false) row.toNat col.toNat = some r := cell_get hr
  have e : tabOf { s with heap := h', sheet := s.sheet.store row col r' } = tabSet (tabOf s) false row.toNat col.toNat r' := by
    funext b
    cases b <;> rfl
  refine ⟨by rw [e]; exact own_set ho hg hm, ?_⟩
  have v1 := view_set ho hg hm false
  have v2 := view_set ho hg hm true
  unfold view
  congr 1
  congr 1

/-- A cell that was handed out is exchanged. -/
theorem out_sim {s : Sys} (ho : Own s.heap (tabOf s)) {k i : Nat} {r r' : Ref} {h' : Heap} {c : Cell}
    (hr : get2 s.out k i = some r) (hm : Moved s.heap r h' r' c) :
    Own h' (tabOf { s with heap := h', out := s.out.modify k (fun row => row.set i r') }) ∧
      view { s with heap := h', out := s.out.modify k (fun row => row.set i r') } =
        { view s with out := (view s).out.modify k (fun x => x.set i c) } := by
  have hg : get2 (tabOf s true) k i = some r := hr
  have e : tabOf { s with heap := h', out := s.out.modify k (fun row => row.set i r') } = tabSet (tabOf s) true k i r' := by
    funext b
    cases b <;> rfl
  refine ⟨by rw [e]; exact own_set ho hg hm, ?_⟩
  have v1 := view_set ho hg hm false
  have v2 := view_set ho hg hm true
  unfold view
  congr 1
  congr 1

theorem out_get (s : Sys) (k i : Nat) :
    ((view s).out[k]?).bind (fun r => r[i]?) = ((s.out[k]?).bind (fun r => r[i]?)).map (cellOf s.heap) :=
  get2_map (cellOf s.heap) s.out k i

theorem put_sim (ext : Ext) (g : Nat → Nat) {s : Sys} (ho : Own s.heap (tabOf s)) (row col : Int) (v : GoVal) (f : Nat) :
    Sim (s.step ext g (.put row col v f)) ((view s).step ext (.put row col v f)) := by
  have hg : viewSheet s.heap (s.sheet.grow row col) = (view s).sheet.grow row col := grow_view s.heap s.sheet row col
  have ho1 : Own s.heap (tabOf { s with sheet := s.sheet.grow row col }) := own_sub ho (by
    intro b i j r hr
    cases b with
    | false => exact grow_get s.sheet row col i j r hr
    | true => exact Or.inr hr)
  unfold Sys.step Plain.step HSheet.put Sheet.put
  dsimp only
  rw [← hg]
  have hc := putCell_agrees ext g (s.sheet.grow row col).fmtr s.heap v f
  revert hc
  show Agrees _ _ _ (Grate.putCell ext (viewSheet s.heap (s.sheet.grow row col)).fmtr v f) → _
  generalize CellHeap.putCell ext g (s.sheet.grow row col).fmtr s.heap v f = x
  generalize Grate.putCell ext (viewSheet s.heap (s.sheet.grow row col)).fmtr v f = y
  intro hc
  match x, y, hc with
  | .panic, .panic, _ => trivial
  | .err _, .err _, hc => exact hc
  | .ok (h', r'), .ok c, hc =>
    have hm : Moved s.heap .nil h' r' c := hc
    rw [GoRes.ok_bind, GoRes.ok_bind]
    dsimp only
    unfold Sheet.store
    rw [cell_view]
    cases hcell : (s.sheet.grow row col).cell? row col with
    | none => trivial
    | some r =>
      have := store_sim (s := { s with sheet := s.sheet.grow row col }) ho1 hcell (moved_any hm r)
      exact this

theorem set_sim (ext : Ext) (g : Nat → Nat) {s : Sys} (ho : Own s.heap (tabOf s)) (row col : Int) (v : Val) :
    Sim (s.step ext g (.set row col v)) ((view s).step ext (.set row col v)) := by
  unfold Sys.step Plain.step HSheet.set Sheet.set
  dsimp only
  by_cases hb : row > s.sheet.numRows ∨ col > s.sheet.numCols
  · rw [if_pos hb, if_pos (show row > (view s).sheet.numRows ∨ col > (view s).sheet.numCols from hb)]
    exact ⟨ho, rfl⟩
  · rw [if_neg hb, if_neg (show ¬ (row > (view s).sheet.numRows ∨ col > (view s).sheet.numCols) from hb)]
    rw [show (view s).sheet.cell? row col = _ from cell_view s.heap s.sheet row col]
    cases hcell : s.sheet.cell? row col with
    | none => trivial
    | some r =>
      simp only [Option.map_some]
      rcases ho.valid false _ _ r (cell_get hcell) with hz | ⟨c, hc⟩
      · rw [nil_cell _ hz]
        unfold write
        rw [if_neg (by omega)]
        trivial
      · rw [holds_cell hc]
        have hl := holds_len hc
        match c, hc, hl with
        | .full v0 t0 fm us, hc, hl =>
          obtain ⟨h1, e1, m1⟩ := write_moved (c := .full v t0 fm us) hc 0 (.val v) (by cases fm <;> exact hc.formed) (by omega)
            (by cases fm <;> rfl)
          obtain ⟨h2, e2, m2⟩ := write_moved (c := .full v .string fm us) m1.holds 1 (.ty .string)
            (by cases fm <;> exact hc.formed) (by omega) (by cases fm <;> rfl)
          have hst := store_sim ho hcell (moved_trans' m1 m2)
          have es : s.sheet.store row col r = s.sheet := by
            unfold HSheet.store
            rw [set_same (cell_get hcell)]
          rw [es] at hst
          simp only [e1, e2, GoRes.ok_bind]
          unfold Sheet.store
          rw [show (view s).sheet.cell? row col = _ from cell_view s.heap s.sheet row col, hcell]
          exact hst

theorem setURL_sim (ext : Ext) (g : Nat → Nat) {s : Sys} (ho : Own s.heap (tabOf s)) (row col : Int) (l : Bytes) :
    Sim (s.step ext g (.setURL row col l)) ((view s).step ext (.setURL row col l)) := by
  unfold Sys.step Plain.step HSheet.setURL Sheet.setURL
  dsimp only
  by_cases hb : row > s.sheet.numRows ∨ col > s.sheet.numCols
  · rw [if_pos hb, if_pos (show row > (view s).sheet.numRows ∨ col > (view s).sheet.numCols from hb)]
    exact ⟨ho, rfl⟩
  · rw [if_neg hb, if_neg (show ¬ (row > (view s).sheet.numRows ∨ col > (view s).sheet.numCols) from hb)]
    rw [show (view s).sheet.cell? row col = _ from cell_view s.heap s.sheet row col]
    cases hcell : s.sheet.cell? row col with
    | none => trivial
    | some r =>
      simp only [Option.map_some]
      have hc := setURL_agrees g (ho.valid false _ _ r (cell_get hcell)) l
      revert hc
      generalize CellHeap.setURL g s.heap r l = x
      generalize (cellOf s.heap r).setURL l = y
      intro hc
      match x, y, hc with
      | .panic, .panic, _ => trivial
      | .err _, .err _, hc => exact hc
      | .ok (h', r'), .ok c, hc =>
        simp only [GoRes.ok_bind]
        unfold Sheet.store
        rw [show (view s).sheet.cell? row col = _ from cell_view s.heap s.sheet row col, hcell]
        exact store_sim ho hcell hc

theorem next_view (h : Heap) (s : HSheet) : viewSheet h s.next = (viewSheet h s).next.1 := by
  unfold HSheet.next Sheet.next viewSheet
  simp only [List.length_map]
  by_cases hn : s.curRow + 1 > s.rows.length
  · simp only [if_pos hn]
  · simp only [if_neg hn]

theorem next_rows (s : HSheet) : s.next.rows = s.rows := by
  unfold HSheet.next
  split <;> rfl

/-- The references of a row of copies. -/
def freshRow (n : Nat) (ls : List (List Word)) : List Ref := ls.mapIdx (fun j ws => ⟨n + j, ws.length⟩)

theorem read_append {h : Heap} {r : Ref} (hv : Valid h r) (l : List (List Word)) : CellHeap.read (h ++ l) r = CellHeap.read h r := by
  rcases hv with hz | ⟨c, hc⟩
  · unfold CellHeap.read; rw [hz, List.take_zero, List.take_zero]
  · have hc' : HoldsCell (h ++ l) r c := holds_mono hc (fun x hx => by
      rw [List.getElem?_append_left (List.getElem?_eq_some_iff.1 hx).1]; exact hx)
    rw [holds_read hc, holds_read hc']

theorem valid_append {h : Heap} {r : Ref} (hv : Valid h r) (l : List (List Word)) : Valid (h ++ l) r := by
  rcases hv with hz | ⟨c, hc⟩
  · exact Or.inl hz
  · exact Or.inr ⟨c, holds_mono hc (fun x hx => by
      rw [List.getElem?_append_left (List.getElem?_eq_some_iff.1 hx).1]; exact hx)⟩

theorem cloneRow_eq (h : Heap) (rs : List Ref) (hv : ∀ r ∈ rs, Valid h r) :
    cloneRow h rs = (h ++ rs.map (CellHeap.read h), freshRow h.length (rs.map (CellHeap.read h))) := by
  induction rs generalizing h with
  | nil => simp [cloneRow, freshRow]
  | cons r rs ih =>
    have h1 := ih (h ++ [CellHeap.read h r]) (fun r2 h2 => valid_append (hv r2 (List.mem_cons_of_mem _ h2)) _)
    have h2 : rs.map (CellHeap.read (h ++ [CellHeap.read h r])) = rs.map (CellHeap.read h) :=
      List.map_congr_left (fun r2 hr2 => read_append (hv r2 (List.mem_cons_of_mem _ hr2)) _)
    rw [h2] at h1
    unfold cloneRow clone alloc
    dsimp only
    rw [h1]
    unfold freshRow
    simp only [List.map_cons, List.mapIdx_cons, List.length_append, List.length_singleton, List.append_assoc, List.singleton_append,
      Nat.add_zero]
    congr 2
    refine List.ext_getElem (by simp) (fun j _ _ => ?_)
    simp only [List.getElem_mapIdx]
    congr 1
    omega

theorem fillRow_map {α β : Type} (f : α → β) (n : Int) (d : α) (l : List α) :
    fillRow n (f d) (l.map f) = (fillRow n d l >>= fun x => pure (x.map f)) := by
  unfold fillRow
  rw [List.length_map]
  by_cases hc : 0 ≤ n ∧ (l.length : Int) ≤ n
  · rw [if_pos hc, if_pos hc, GoRes.ok_bind]
    simp [GoRes.pure_eq]
  · rw [if_neg hc, if_neg hc]; rfl

theorem own_row {s : Sys} (ho : Own s.heap (tabOf s)) {i : Nat} {row : List Ref} (h : s.sheet.rows[i]? = some row) :
    ∀ r ∈ row, Valid s.heap r := by
  intro r hr
  obtain ⟨j, hj⟩ := List.getElem?_of_mem hr
  exact ho.valid false i j r (by show get2 s.sheet.rows i j = some r; unfold get2; rw [h]; exact hj)

theorem get2_snoc {α : Type} {t : List (List α)} {x : List α} {i j : Nat} {r : α} (h : get2 (t ++ [x]) i j = some r) :
    get2 t i j = some r ∨ (i = t.length ∧ x[j]? = some r) := by
  unfold get2 at h ⊢
  by_cases hi : i < t.length
  · rw [List.getElem?_append_left hi] at h
    exact Or.inl h
  · rw [List.getElem?_append_right (by omega)] at h
    by_cases h0 : i - t.length = 0
    · rw [h0] at h
      exact Or.inr ⟨by omega, by simpa using h⟩
    · obtain ⟨y, h1, _⟩ := Option.bind_eq_some_iff.1 h
      have := (List.getElem?_eq_some_iff.1 h1).1
      simp at this
      omega

/-- The copies of a row. -/
theorem fresh_get {h : Heap} {row : List Ref} (hv : ∀ r ∈ row, Valid h r) (m j : Nat) (r : Ref)
    (hr : (freshRow h.length (row.map (CellHeap.read h)) ++ List.replicate m Ref.nil)[j]? = some r) :
    r.len = 0 ∨ (r.addr = h.length + j ∧ ∃ c, HoldsCell (h ++ row.map (CellHeap.read h)) r c) := by
  have hl : (freshRow h.length (row.map (CellHeap.read h))).length = row.length := by simp [freshRow]
  by_cases hj : j < row.length
  · rw [List.getElem?_append_left (by omega)] at hr
    unfold freshRow at hr
    rw [List.getElem?_mapIdx, List.getElem?_map, List.getElem?_eq_getElem hj] at hr
    simp only [Option.map_some, Option.some.injEq] at hr
    subst hr
    rcases hv row[j] (List.getElem_mem hj) with hz | ⟨c, hc⟩
    · left
      show (CellHeap.read h row[j]).length = 0
      unfold CellHeap.read
      rw [hz]
      rfl
    · right
      refine ⟨rfl, c, hc.formed, CellHeap.read h row[j], ?_, Nat.le_refl _, ?_⟩
      · show (h ++ row.map (CellHeap.read h))[h.length + j]? = _
        rw [List.getElem?_append_right (by omega), show h.length + j - h.length = j by omega, List.getElem?_map,
          List.getElem?_eq_getElem hj]
        rfl
      · show (CellHeap.read h row[j]).take (CellHeap.read h row[j]).length = _
        rw [List.take_length, holds_read hc]
  · rw [List.getElem?_append_right (by omega)] at hr
    have := List.eq_of_mem_replicate (List.mem_of_getElem? hr)
    rw [this]
    exact Or.inl rfl

theorem fresh_view (h : Heap) (row : List Ref) :
    (freshRow h.length (row.map (CellHeap.read h))).map (cellOf (h ++ row.map (CellHeap.read h))) = row.map (cellOf h) := by
  refine List.ext_getElem (by simp [freshRow]) (fun j h1 h2 => ?_)
  have hj : j < row.length := by simpa using h2
  simp only [freshRow, List.getElem_map, List.getElem_mapIdx]
  show decode (List.take (CellHeap.read h row[j]).length ((h ++ row.map (CellHeap.read h)).getD (h.length + j) [])) =
    decode (CellHeap.read h row[j])
  rw [List.getD_eq_getElem?_getD, List.getElem?_append_right (by omega), show h.length + j - h.length = j by omega,
    List.getElem?_map, List.getElem?_eq_getElem hj]
  simp

theorem raw_sim (ext : Ext) (g : Nat → Nat) {s : Sys} (ho : Own s.heap (tabOf s)) :
    Sim (s.step ext g .raw) ((view s).step ext .raw) := by
  unfold Sys.step Plain.step HSheet.raw Sheet.raw HSheet.row Sheet.row
  dsimp only
  rw [show (view s).sheet.curRow = s.sheet.curRow from rfl]
  by_cases hc : 1 ≤ s.sheet.curRow
  · rw [if_pos hc, if_pos hc]
    rw [show (view s).sheet.rows = s.sheet.rows.map (·.map (cellOf s.heap)) from rfl, List.getElem?_map]
    cases hr : s.sheet.rows[(s.sheet.curRow - 1).toNat]? with
    | none => trivial
    | some row =>
      have hv := own_row ho hr
      simp only [Option.map_some, GoRes.ok_bind]
      rw [cloneRow_eq s.heap row hv]
      dsimp only
      rw [show (view s).sheet.numCols = s.sheet.numCols from rfl, ← nil_cell s.heap (r := .nil) rfl, fillRow_map]
      unfold fillRow
      have hl : (freshRow s.heap.length (row.map (CellHeap.read s.heap))).length = row.length := by simp [freshRow]
      rw [hl]
      by_cases hf : 0 ≤ s.sheet.numCols ∧ (row.length : Int) ≤ s.sheet.numCols
      · rw [if_pos hf, if_pos hf]
        simp only [GoRes.ok_bind, GoRes.pure_eq]
        refine ⟨⟨?_, ?_⟩, ?_⟩
        · intro b i j r h1
          cases b with
          | false => exact valid_append (ho.valid false i j r h1) _
          | true =>
            rcases get2_snoc h1 with h2 | ⟨_, h2⟩
            · exact valid_append (ho.valid true i j r h2) _
            · rcases fresh_get hv _ _ _ h2 with h3 | ⟨_, h3⟩
              · exact Or.inl h3
              · exact Or.inr h3
        · have key : ∀ (b : Bool) (i j : Nat) (r : Ref), get2 (tabOf ⟨s.heap ++ row.map (CellHeap.read s.heap), s.sheet,
              s.out ++ [freshRow s.heap.length (row.map (CellHeap.read s.heap)) ++
                List.replicate (s.sheet.numCols.toNat - row.length) Ref.nil]⟩ b) i j = some r → r.len ≠ 0 →
              (get2 (tabOf s b) i j = some r ∧ r.addr < s.heap.length) ∨
                (b = true ∧ i = s.out.length ∧ r.addr = s.heap.length + j) := by
            intro b i j r h1 hl
            have old : get2 (tabOf s b) i j = some r → r.addr < s.heap.length := by
              intro h2
              rcases ho.valid b i j r h2 with h3 | ⟨c, h3⟩
              · exact absurd h3 hl
              · obtain ⟨a, h4, _⟩ := h3.arr
                exact (List.getElem?_eq_some_iff.1 h4).1
            cases b with
            | false => exact Or.inl ⟨h1, old h1⟩
            | true =>
              rcases get2_snoc h1 with h2 | ⟨h2, h3⟩
              · exact Or.inl ⟨h2, old h2⟩
              · rcases fresh_get hv _ _ _ h3 with h4 | ⟨h4, _⟩
                · exact absurd h4 hl
                · exact Or.inr ⟨rfl, h2, h4⟩
          intro b i j r b' i' j' r' h1 h2 l l' he
          rcases key b i j r h1 l with ⟨k1, k2⟩ | ⟨k1, k2, k3⟩
          · rcases key b' i' j' r' h2 l' with ⟨k4, k5⟩ | ⟨k4, k5, k6⟩
            · exact ho.sep _ _ _ _ _ _ _ _ k1 k4 l l' he
            · omega
          · rcases key b' i' j' r' h2 l' with ⟨k4, k5⟩ | ⟨k4, k5, k6⟩
            · omega
            · exact ⟨k1.trans k4.symm, k2.trans k5.symm, by omega⟩
        · have old : ∀ b, (tabOf s b).map (·.map (cellOf (s.heap ++ row.map (CellHeap.read s.heap)))) =
              (tabOf s b).map (·.map (cellOf s.heap)) := by
            intro b
            refine table_ext (by rw [shape_map, shape_map]) (fun i j => ?_)
            rw [get2_map, get2_map]
            cases h2 : get2 (tabOf s b) i j with
            | none => rfl
            | some r =>
              simp only [Option.map_some]
              unfold cellOf
              rw [read_append (ho.valid b i j r h2)]
          unfold view
          dsimp only
          congr 1
          · congr 1
            exact old false
          · rw [List.map_append]
            congr 1
            · exact old true
            · simp only [List.map_cons, List.map_nil, List.map_append, List.map_replicate]
              rw [fresh_view, nil_cell _ (r := .nil) rfl, nil_cell _ (r := .nil) rfl]
      · rw [if_neg hf, if_neg hf]
        trivial
  · rw [if_neg hc, if_neg hc]
    trivial

theorem out_op_sim {s : Sys} (ho : Own s.heap (tabOf s)) {k i : Nat} (op : Heap → Ref → GoRes (Heap × Ref)) (vop : Cell → GoRes Cell)
    (ha : ∀ r, Valid s.heap r → Agrees s.heap r (op s.heap r) (vop (cellOf s.heap r))) :
    Sim (match (s.out[k]?).bind (fun r => r[i]?) with
        | none => .panic
        | some r => do
          let (h, r) ← op s.heap r
          pure { s with heap := h, out := s.out.modify k (fun row => row.set i r) })
      (match ((view s).out[k]?).bind (fun r => r[i]?) with
        | none => .panic
        | some c => do
          let c ← vop c
          pure { view s with out := (view s).out.modify k (fun row => row.set i c) }) := by
  rw [out_get]
  cases hr : (s.out[k]?).bind (fun r => r[i]?) with
  | none => trivial
  | some r =>
    simp only [Option.map_some]
    have hc := ha r (ho.valid true k i r hr)
    revert hc
    generalize op s.heap r = x
    generalize vop (cellOf s.heap r) = y
    intro hc
    match x, y, hc with
    | .panic, .panic, _ => trivial
    | .err _, .err _, hc => exact hc
    | .ok (h', r'), .ok c, hc => exact out_sim ho hr hc

theorem outValue_sim (ext : Ext) (g : Nat → Nat) {s : Sys} (ho : Own s.heap (tabOf s)) (k i : Nat) (v : Val) :
    Sim (s.step ext g (.outValue k i v)) ((view s).step ext (.outValue k i v)) := by
  unfold Sys.step Plain.step
  dsimp only
  rw [out_get]
  cases hr : (s.out[k]?).bind (fun r => r[i]?) with
  | none => trivial
  | some r =>
    simp only [Option.map_some]
    rcases ho.valid true k i r hr with hz | ⟨c, hc⟩
    · rw [nil_cell _ hz]
      unfold write
      rw [if_neg (by omega)]
      trivial
    · rw [holds_cell hc]
      have hl := holds_len hc
      match c, hc, hl with
      | .full v0 t0 fm us, hc, hl =>
        obtain ⟨h1, e1, m1⟩ := write_moved (c := .full v t0 fm us) hc 0 (.val v) (by cases fm <;> exact hc.formed) (by omega)
          (by cases fm <;> rfl)
        have hst := out_sim ho hr m1
        rw [set_same (t := s.out) hr] at hst
        rw [e1, GoRes.ok_bind]
        exact hst

theorem step_sim (ext : Ext) (g : Nat → Nat) {s : Sys} (ho : Own s.heap (tabOf s)) (o : Op) :
    Sim (s.step ext g o) ((view s).step ext o) := by
  cases o with
  | put row col v f => exact put_sim ext g ho row col v f
  | set row col v => exact set_sim ext g ho row col v
  | setURL row col l => exact setURL_sim ext g ho row col l
  | resize rows cols =>
    refine ⟨own_sub ho ?_, ?_⟩
    · intro b i j r hr
      cases b with
      | false => exact resize_get s.sheet rows cols i j r hr
      | true => exact Or.inr hr
    · have := resize_view s.heap s.sheet rows cols
      show (⟨viewSheet s.heap (s.sheet.resize rows cols), _⟩ : Plain) = _
      rw [this]
      rfl
  | next =>
    refine ⟨own_sub ho ?_, ?_⟩
    · intro b i j r hr
      cases b with
      | false =>
        have hr : get2 s.sheet.next.rows i j = some r := hr
        rw [next_rows] at hr
        exact Or.inr hr
      | true => exact Or.inr hr
    · have := next_view s.heap s.sheet
      show (⟨viewSheet s.heap s.sheet.next, _⟩ : Plain) = _
      rw [this]
      rfl
  | raw => exact raw_sim ext g ho
  | outURL k i l => exact out_op_sim ho (fun h r => CellHeap.setURL g h r l) (fun c => c.setURL l) (fun r hv => setURL_agrees g hv l)
  | outFormat k i f =>
    exact out_op_sim ho (fun h r => CellHeap.setFormatNumber g h r f) (fun c => c.setFormatNumber f)
      (fun r hv => setFormat_agrees g hv f)
  | outValue k i v => exact outValue_sim ext g ho k i v

theorem run_sim (ext : Ext) (g : Nat → Nat) {s : Sys} (ho : Own s.heap (tabOf s)) (os : List Op) :
    Sim (s.run ext g os) ((view s).run ext os) := by
  induction os generalizing s with
  | nil => exact ⟨ho, rfl⟩
  | cons o os ih =>
    have h1 := step_sim ext g ho o
    unfold Sys.run Plain.run
    revert h1
    generalize s.step ext g o = x
    generalize (view s).step ext o = y
    intro h1
    match x, y, h1 with
    | .panic, .panic, _ => trivial
    | .err _, .err _, h1 => exact h1
    | .ok s', .ok p, h1 =>
      obtain ⟨h2, h3⟩ := h1
      rw [GoRes.ok_bind, GoRes.ok_bind, ← h3]
      exact ih h2

theorem new_own (f : Formatter) : Own (Sys.new f).heap (tabOf (Sys.new f)) := by
  have hn : ∀ b i j, get2 (tabOf (Sys.new f) b) i j = none := by
    intro b i j
    cases b <;> simp [tabOf, Sys.new, get2]
  constructor
  · intro b i j r h
    rw [hn] at h
    cases h
  · intro b i j r b' i' j' r' h
    rw [hn] at h
    cases h

end Grate.CellHeap

namespace Grate.Props

open Grate Grate.CellHeap

/-! ### The properties -/

/-- C128: whatever a program does with a sheet and with the cells it got from `Raw`, in whatever order, it reads what it would read if
every cell were a value of its own, and it panics exactly when it would then. -/
theorem C128_values (ext : Ext) (g : Nat → Nat) (f : Formatter) (os : List Op) :
    (∀ s, (Sys.new f).run ext g os = .ok s → Plain.run ext ⟨Sheet.new f, []⟩ os = .ok (view s)) ∧
    (∀ p, Plain.run ext ⟨Sheet.new f, []⟩ os = .ok p → ∃ s, (Sys.new f).run ext g os = .ok s ∧ view s = p) ∧
    ((Sys.new f).run ext g os = .panic ↔ Plain.run ext ⟨Sheet.new f, []⟩ os = .panic) := by
  have h := run_sim ext g (new_own f) os
  have e : view (Sys.new f) = ⟨Sheet.new f, []⟩ := rfl
  rw [e] at h
  revert h
  generalize (Sys.new f).run ext g os = x
  generalize Plain.run ext ⟨Sheet.new f, []⟩ os = y
  intro h
  match x, y, h with
  | .panic, .panic, _ => simp
  | .err _, .err _, _ => simp
  | .ok s, .ok p, h =>
    obtain ⟨_, h3⟩ := h
    subst h3
    simp

/-- Calls on the sheet. -/
def Op.onSheet : Op → Prop
  | .outURL .. | .outFormat .. | .outValue .. => False
  | _ => True

theorem plain_out_keeps (ext : Ext) (os : List Op) : ∀ (p q : Plain), (∀ o ∈ os, Op.onSheet o) → p.run ext os = .ok q →
    ∃ l, q.out = p.out ++ l := by
  induction os with
  | nil => intro p q _ h; cases h; exact ⟨[], by simp⟩
  | cons o os ih =>
    intro p q ho h
    unfold Plain.run at h
    obtain ⟨p1, h1, h2⟩ := GoRes.bind_eq_ok.1 h
    obtain ⟨l, hl⟩ := ih p1 q (fun o' h' => ho o' (List.mem_cons_of_mem _ h')) h2
    have hk : ∃ l, p1.out = p.out ++ l := by
      have h0 := ho o List.mem_cons_self
      cases o with
      | put row col v f =>
        obtain ⟨t, _, h3⟩ := GoRes.bind_eq_ok.1 h1
        cases h3; exact ⟨[], by simp⟩
      | set row col v =>
        obtain ⟨t, _, h3⟩ := GoRes.bind_eq_ok.1 h1
        cases h3; exact ⟨[], by simp⟩
      | setURL row col l =>
        obtain ⟨t, _, h3⟩ := GoRes.bind_eq_ok.1 h1
        cases h3; exact ⟨[], by simp⟩
      | resize rows cols => cases h1; exact ⟨[], by simp⟩
      | next => cases h1; exact ⟨[], by simp⟩
      | raw =>
        obtain ⟨t, _, h3⟩ := GoRes.bind_eq_ok.1 h1
        cases h3; exact ⟨_, rfl⟩
      | outURL k i l => exact h0.elim
      | outFormat k i f => exact h0.elim
      | outValue k i v => exact h0.elim
    obtain ⟨l1, hl1⟩ := hk
    exact ⟨l1 ++ l, by rw [hl, hl1, List.append_assoc]⟩

theorem plain_sheet_keeps (ext : Ext) (os : List Op) : ∀ (p q : Plain), (∀ o ∈ os, ¬ Op.onSheet o) → p.run ext os = .ok q →
    q.sheet = p.sheet := by
  induction os with
  | nil => intro p q _ h; cases h; rfl
  | cons o os ih =>
    intro p q ho h
    unfold Plain.run at h
    obtain ⟨p1, h1, h2⟩ := GoRes.bind_eq_ok.1 h
    rw [ih p1 q (fun o' h' => ho o' (List.mem_cons_of_mem _ h')) h2]
    have h0 := ho o List.mem_cons_self
    cases o with
    | put row col v f => exact absurd trivial h0
    | set row col v => exact absurd trivial h0
    | setURL row col l => exact absurd trivial h0
    | resize rows cols => exact absurd trivial h0
    | next => exact absurd trivial h0
    | raw => exact absurd trivial h0
    | outURL k i l =>
      unfold Plain.step at h1
      dsimp only at h1
      split at h1
      · cases h1
      · obtain ⟨t, _, h3⟩ := GoRes.bind_eq_ok.1 h1
        cases h3; rfl
    | outFormat k i f =>
      unfold Plain.step at h1
      dsimp only at h1
      split at h1
      · cases h1
      · obtain ⟨t, _, h3⟩ := GoRes.bind_eq_ok.1 h1
        cases h3; rfl
    | outValue k i v =>
      unfold Plain.step at h1
      dsimp only at h1
      split at h1
      · cases h1
      · cases h1
      · cases h1; rfl

/-- A state a program can be in. -/
def Reached (ext : Ext) (g : Nat → Nat) (f : Formatter) (s : Sys) : Prop := ∃ os, (Sys.new f).run ext g os = .ok s

theorem reached_own {ext : Ext} {g : Nat → Nat} {f : Formatter} {s : Sys} (h : Reached ext g f s) : Own s.heap (tabOf s) := by
  obtain ⟨os, h⟩ := h
  have h1 := run_sim ext g (new_own f) os
  rw [h] at h1
  revert h1
  generalize (view (Sys.new f)).run ext os = y
  intro h1
  match y, h1 with
  | .ok p, h1 => exact h1.1

theorem reached_run {ext : Ext} {g : Nat → Nat} {f : Formatter} {s s' : Sys} (h : Reached ext g f s) {os : List Op}
    (hr : s.run ext g os = .ok s') : (view s).run ext os = .ok (view s') := by
  have h1 := run_sim ext g (reached_own h) os
  rw [hr] at h1
  revert h1
  generalize (view s).run ext os = y
  intro h1
  match y, h1 with
  | .ok p, h1 => rw [h1.2]

/-- C128: the cells a program got stay as they were, whatever is done to the sheet afterwards. -/
theorem C128_snapshot (ext : Ext) (g : Nat → Nat) (f : Formatter) (s s' : Sys) (h : Reached ext g f s) (os : List Op)
    (hos : ∀ o ∈ os, Op.onSheet o) (hr : s.run ext g os = .ok s') (k : Nat) (row : List Cell)
    (hk : (view s).out[k]? = some row) : (view s').out[k]? = some row := by
  obtain ⟨l, hl⟩ := plain_out_keeps ext os _ _ hos (reached_run h hr)
  rw [hl, List.getElem?_append_left (List.getElem?_eq_some_iff.1 hk).1]
  exact hk

/-- C128: the sheet stays as it was, whatever a program does to the cells it got. -/
theorem C128_sheet (ext : Ext) (g : Nat → Nat) (f : Formatter) (s s' : Sys) (h : Reached ext g f s) (os : List Op)
    (hos : ∀ o ∈ os, ¬ Op.onSheet o) (hr : s.run ext g os = .ok s') : (view s').sheet = (view s).sheet :=
  plain_sheet_keeps ext os _ _ hos (reached_run h hr)

/-- What the program of the example does first: a sheet of two cells, one with a link, the row handed out. -/
def exOps : List Op := [.put 0 0 (.sint 7) 0, .put 0 1 (.str (lit "a")) 0, .setURL 0 1 (lit "u"), .next, .raw]

/-- And then: changes to the cells that were handed out. -/
def exOutOps : List Op := [.outValue 0 0 (.int 8), .outFormat 0 0 9, .outURL 0 1 (lit "v")]

/-- And changes to the sheet. -/
def exSheetOps : List Op := [.set 0 1 (.str (lit "b")), .setURL 0 0 (lit "w"), .put 0 0 (.sint 9) 0]

set_option maxRecDepth 20000 in
/-- C128: the example program reaches a state, and both kinds of changes take effect, each on its side only. -/
theorem C128_witness (ext : Ext) : ∃ s s1 s2, (Sys.new Formatter.new).run ext (fun n => 2 * n) exOps = .ok s ∧
    s.run ext (fun n => 2 * n) exOutOps = .ok s1 ∧ s.run ext (fun n => 2 * n) exSheetOps = .ok s2 ∧
    (∀ o ∈ exOutOps, ¬ Op.onSheet o) ∧ (∀ o ∈ exSheetOps, Op.onSheet o) ∧
    (view s).out = [[.full (.int 7) .integer none [], .full (.str (lit "a")) .hyperlink (some 0) [lit "u"]]] ∧
    (view s1).out = [[.full (.int 8) .integer (some 9) [], .full (.str (lit "a")) .hyperlink (some 0) [lit "u", lit "v"]]] ∧
    (view s2).sheet.rows[0]? = some [.full (.int 9) .integer none [], .full (.str (lit "b")) .string (some 0) [lit "u"]] := by
  refine ⟨_, _, _, rfl, rfl, rfl, ?_, ?_, rfl, rfl, rfl⟩
  · intro o ho
    simp only [exOutOps, List.mem_cons, List.not_mem_nil, or_false] at ho
    rcases ho with rfl | rfl | rfl <;> exact fun h => h
  · intro o ho
    simp only [exSheetOps, List.mem_cons, List.not_mem_nil, or_false] at ho
    rcases ho with rfl | rfl | rfl <;> trivial

end Grate.Props
