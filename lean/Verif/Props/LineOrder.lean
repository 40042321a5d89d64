import Verif.Props.LineEnds

/-! # C152: the order of the lines of a text and the values in it do not decide whether it is opened -/

namespace Grate.Props

open Grate Grate.Spec Grate.Api

namespace LineOrder

theorem count_widths (rows : List (List Bytes)) (w : Nat) : widthCount rows w = (rows.map List.length).count w := by
  induction rows with
  | nil => rfl
  | cons r rows ih =>
    unfold widthCount at ih ⊢
    rw [List.map_cons, List.count_cons, List.filter_cons, ← ih]
    by_cases h : r.length = w <;> simp [h]

theorem declined_iff {rows rows' : List (List Bytes)} (h : (rows.map List.length).Perm (rows'.map List.length)) :
    Declined rows ↔ Declined rows' := by
  have hc : ∀ w, widthCount rows w = widthCount rows' w := fun w => by
    rw [count_widths, count_widths]
    exact h.count_eq w
  have hl : rows.length = rows'.length := by simpa using h.length_eq
  unfold Declined
  simp only [hc, hl]

theorem fields_total (ls : List Bytes) : All2 FieldsOf ls (ls.map (splitByte 9)) := by
  induction ls with
  | nil => exact .nil
  | cons l ls ih => exact .cons ⟨Simple.splitByte_ne_nil 9 l, (Simple.splitByte_spec 9 l).1, (Simple.splitByte_spec 9 l).2⟩ ih

end LineOrder

/-- **C152 (values).** Two texts with lines that are not too long, whose rows have the same numbers of fields in any order: both are
opened as tab separated texts, each with its rows, or both are declined, whatever the fields are and in whatever orders the maps of
column counts are visited. -/
theorem C152_widths (iter iter' : List (Nat × Nat) → List (Nat × Nat)) (hi : ∀ m, (iter m).Perm m) (hi' : ∀ m, (iter' m).Perm m)
    (fn fn' x x' : Bytes) (ls ls' : List Bytes) (rows rows' : List (List Bytes)) (hx : ¬ HasLongLine x) (hx' : ¬ HasLongLine x')
    (hl : LinesOf x ls) (hl' : LinesOf x' ls') (hr : All2 FieldsOf ls rows) (hr' : All2 FieldsOf ls' rows')
    (hp : (rows.map List.length).Perm (rows'.map List.length)) (hs : rows.length < 2 ^ 50) :
    (Simple.openTSV iter fn (some x) = .ok ⟨fn, rows, -1⟩ ∧ Simple.openTSV iter' fn' (some x') = .ok ⟨fn', rows', -1⟩) ∨
    (Simple.openTSV iter fn (some x) = .err .notInFormat ∧ Simple.openTSV iter' fn' (some x') = .err .notInFormat) := by
  have hlen : rows.length = rows'.length := by simpa using hp.length_eq
  have h := C06_rule iter hi fn x ls rows hx hl hr hs
  have h' := C06_rule iter' hi' fn' x' ls' rows' hx' hl' hr' (hlen ▸ hs)
  by_cases hd : Declined rows
  · exact .inr ⟨h.1 hd, h'.1 ((LineOrder.declined_iff hp).1 hd)⟩
  · exact .inl ⟨h.2 hd, h'.2 (fun e => hd ((LineOrder.declined_iff hp).2 e))⟩

/-- **C152 (order).** Two texts with the same lines in different orders, none too long: both are opened, with the same rows in the
orders of their lines, or both are declined. -/
theorem C152_order (iter iter' : List (Nat × Nat) → List (Nat × Nat)) (hi : ∀ m, (iter m).Perm m) (hi' : ∀ m, (iter' m).Perm m)
    (fn fn' x x' : Bytes) (ls ls' : List Bytes) (hx : ¬ HasLongLine x) (hx' : ¬ HasLongLine x') (hl : LinesOf x ls)
    (hl' : LinesOf x' ls') (hp : ls.Perm ls') (hs : ls.length < 2 ^ 50) :
    (∃ rows rows', All2 FieldsOf ls rows ∧ All2 FieldsOf ls' rows' ∧ rows.Perm rows' ∧
      Simple.openTSV iter fn (some x) = .ok ⟨fn, rows, -1⟩ ∧ Simple.openTSV iter' fn' (some x') = .ok ⟨fn', rows', -1⟩) ∨
    (Simple.openTSV iter fn (some x) = .err .notInFormat ∧ Simple.openTSV iter' fn' (some x') = .err .notInFormat) := by
  have hrows := hp.map (splitByte 9)
  rcases C152_widths iter iter' hi hi' fn fn' x x' ls ls' _ _ hx hx' hl hl' (LineOrder.fields_total ls) (LineOrder.fields_total ls')
    (hrows.map List.length) (by simpa using hs) with ⟨h1, h2⟩ | h
  · exact .inl ⟨_, _, LineOrder.fields_total ls, LineOrder.fields_total ls', hrows, h1, h2⟩
  · exact .inr h

/-- C152 for `Open` in a program with all formats: of two files with the same lines in different orders, if one opens as a text, so
does the other, and reading all rows of both gives the rows of their lines, the same ones in different orders. -/
theorem C152_open (w : World) (hi : ∀ m, (w.iter m).Perm m) (fn fn' x y : Bytes) (hf : w.files fn = .ok x) (hf' : w.files fn' = .ok y)
    (hn : NotCompound x) (hn' : NotCompound y) (ez ez' : GoErr) (hz : w.zip x = .error ez) (hz' : w.zip y = .error ez')
    (ls ls' : List Bytes) (hx : LinesOf x ls) (hy : LinesOf y ls') (lx : ¬ HasLongLine x) (ly : ¬ HasLongLine y) (hp : ls.Perm ls')
    (hs : ls.length < 2 ^ 50) (t : List (Grate.Entry Source)) (ht : Shipped w t) (f : Simple.File)
    (ho : openSrc t fn = .ok (.text f)) :
    ∃ rows rows' f', All2 FieldsOf ls rows ∧ All2 FieldsOf ls' rows' ∧ rows.Perm rows' ∧ openSrc t fn' = .ok (.text f') ∧
      drain Simple.File.next Simple.File.strings (rows.length + 1) f = some (.ok rows) ∧
      drain Simple.File.next Simple.File.strings (rows'.length + 1) f' = some (.ok rows') := by
  obtain ⟨o1, _, o3⟩ := open_text w fn x hf hn ez hz t ht
  obtain ⟨p1, _, _⟩ := open_text w fn' y hf' hn' ez' hz' t ht
  rcases C152_order w.iter w.iter hi hi fn fn' x y ls ls' lx ly hx hy hp hs with ⟨rows, rows', h1, h2, h3, h4, h5⟩ | ⟨h, _⟩
  · have e := o1 _ h4
    rw [ho] at e
    cases e
    exact ⟨rows, rows', _, h1, h2, h3, p1 _ h5, C08_drain _ rfl, C08_drain _ rfl⟩
  · obtain ⟨e, he, _⟩ := o3 h
    rw [ho] at he
    cases he

/-- Two lines of two and one fields, in both orders: both texts open, with the rows in the orders of the lines. -/
theorem C152_witness (iter : List (Nat × Nat) → List (Nat × Nat)) (hi : ∀ m, (iter m).Perm m) (fn : Bytes) :
    LinesOf (lit "a\tb\nc") [lit "a\tb", lit "c"] ∧ LinesOf (lit "c\na\tb") [lit "c", lit "a\tb"] ∧
    [lit "a\tb", lit "c"].Perm [lit "c", lit "a\tb"] ∧ ¬ HasLongLine (lit "a\tb\nc") ∧ ¬ HasLongLine (lit "c\na\tb") ∧
    Simple.openTSV iter fn (some (lit "a\tb\nc")) = .ok ⟨fn, [[lit "a", lit "b"], [lit "c"]], -1⟩ ∧
    Simple.openTSV iter fn (some (lit "c\na\tb")) = .ok ⟨fn, [[lit "c"], [lit "a", lit "b"]], -1⟩ := by
  have e1 : lit "a\tb\nc" = [97, 9, 98, 10, 99] := by decide +kernel
  have e2 : lit "c\na\tb" = [99, 10, 97, 9, 98] := by decide +kernel
  have e3 : lit "a\tb" = [97, 9, 98] := by decide +kernel
  have ea : lit "a" = [97] ∧ lit "b" = [98] ∧ lit "c" = [99] := by decide +kernel
  rw [e1, e2, e3, ea.1, ea.2.1, ea.2.2]
  have short : ∀ z : Bytes, z.length = 5 → ¬ HasLongLine z := by
    rintro z hz ⟨a, l, b, h, hl, _⟩
    have := congrArg List.length h
    simp only [List.length_append] at this
    omega
  have l1 : LinesOf [97, 9, 98, 10, 99] [[97, 9, 98], [99]] :=
    .lf (l := [97, 9, 98]) (by decide) (by decide) (.last (l := [99]) (by decide) (by decide) (by decide))
  have l2 : LinesOf [99, 10, 97, 9, 98] [[99], [97, 9, 98]] :=
    .lf (l := [99]) (by decide) (by decide) (.last (l := [97, 9, 98]) (by decide) (by decide) (by decide))
  have f1 : FieldsOf [97, 9, 98] [[97], [98]] := by unfold FieldsOf; decide +kernel
  have f2 : FieldsOf [99] [[99]] := by unfold FieldsOf; decide +kernel
  exact ⟨l1, l2, .swap _ _ _, short _ rfl, short _ rfl,
    (C06_rule iter hi fn _ _ [[[97], [98]], [[99]]] (short _ rfl) l1 (.cons f1 (.cons f2 .nil)) (by decide)).2 (few_rows (by decide)),
    (C06_rule iter hi fn _ _ [[[99]], [[97], [98]]] (short _ rfl) l2 (.cons f2 (.cons f1 .nil)) (by decide)).2 (few_rows (by decide))⟩

end Grate.Props
