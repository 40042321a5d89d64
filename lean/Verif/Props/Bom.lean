import Verif.Props.LineEnds

/-! # C151: a byte order mark at the begin of a text -/

namespace Grate.Spec

/-- The byte order mark in UTF-8, which some programs write at the begin of a text. -/
def textMark : Bytes := [0xEF, 0xBB, 0xBF]

/-- The rows of a table, and the same rows with the mark before the first field of the first row. -/
inductive MarkedRows : List (List Bytes) → List (List Bytes) → Prop
  | mk (f : Bytes) (fs : List Bytes) (rows : List (List Bytes)) : MarkedRows ((f :: fs) :: rows) (((textMark ++ f) :: fs) :: rows)

end Grate.Spec

namespace Grate.Props

open Grate Grate.Spec Grate.Api

namespace Bom

theorem raw_ne (x : Bytes) (h : x ≠ []) : Simple.rawLines x ≠ [] := by
  cases x with
  | nil => exact absurd rfl h
  | cons c x =>
    rw [Simple.rawLines]
    split
    · simp
    · split <;> simp

theorem raw_cons (c : UInt8) (hc : c ≠ 10) (x l : Bytes) (ls : List Bytes) (h : Simple.rawLines x = l :: ls) :
    Simple.rawLines (c :: x) = (c :: l) :: ls := by
  rw [Simple.rawLines, if_neg (by simpa using hc), h]

theorem raw_mark (x l : Bytes) (ls : List Bytes) (h : Simple.rawLines x = l :: ls) :
    Simple.rawLines (textMark ++ x) = (textMark ++ l) :: ls :=
  raw_cons _ (by decide) _ _ _ (raw_cons _ (by decide) _ _ _ (raw_cons _ (by decide) _ _ _ h))

theorem split_cons (c : UInt8) (hc : c ≠ 9) (x p : Bytes) (ps : List Bytes) (h : splitByte 9 x = p :: ps) :
    splitByte 9 (c :: x) = (c :: p) :: ps := by
  rw [splitByte, if_neg (by simpa using hc), h]

theorem split_mark (x p : Bytes) (ps : List Bytes) (h : splitByte 9 x = p :: ps) :
    splitByte 9 (textMark ++ x) = (textMark ++ p) :: ps :=
  split_cons _ (by decide) _ _ _ (split_cons _ (by decide) _ _ _ (split_cons _ (by decide) _ _ _ h))

theorem drop_mark (l : Bytes) : Simple.dropCR (textMark ++ l) = textMark ++ Simple.dropCR l := by
  cases l with
  | nil => rfl
  | cons c l =>
    unfold Simple.dropCR
    rw [List.getLast?_append_of_ne_nil _ (by simp), List.dropLast_append_of_ne_nil (by simp)]
    split <;> rfl

theorem counts_mark {r r' : List (List Bytes)} (h : MarkedRows r r') : Simple.colCounts r' = Simple.colCounts r ∧ r'.length = r.length := by
  cases h with
  | mk f fs rows =>
    unfold Simple.colCounts
    simp only [List.foldl_cons, List.length_cons, and_self]

end Bom

/-- **C151 (what is so).** A text that is not empty and has a byte order mark, no line of which is too long: it is opened as a tab
separated text exactly if it is without the mark, with the same rows, but the mark is the begin of the first field. Missing: the mark
should not be there (`C151_counterexample`). -/
theorem C151_opener_partial (iter : List (Nat × Nat) → List (Nat × Nat)) (fn x : Bytes) (hx : x ≠ []) (hl : ¬ HasLongLine (textMark ++ x)) :
    (∃ rows rows', MarkedRows rows rows' ∧ Simple.openTSV iter fn (some x) = .ok ⟨fn, rows, -1⟩ ∧
      Simple.openTSV iter fn (some (textMark ++ x)) = .ok ⟨fn, rows', -1⟩) ∨
    (Simple.openTSV iter fn (some x) = .err .notInFormat ∧
      Simple.openTSV iter fn (some (textMark ++ x)) = .err .notInFormat) := by
  have hl0 : ¬ HasLongLine x := by
    rintro ⟨a, l, b, h, h1, h2⟩
    exact hl ⟨textMark ++ a, l, b, by rw [h]; simp, h1, h2⟩
  have any : ∀ z, ¬ HasLongLine z → ¬ (Simple.rawLines z).any (fun l => Simple.maxTokenSize ≤ l.length) = true :=
    fun z h h' => h ((Simple.longLine_iff z).1 h')
  obtain ⟨l, ls, hr⟩ := List.exists_cons_of_ne_nil (Bom.raw_ne x hx)
  obtain ⟨p, ps, hp⟩ := List.exists_cons_of_ne_nil (Simple.splitByte_ne_nil 9 (Simple.dropCR l))
  have e0 : Simple.scanLines x = .ok (Simple.dropCR l :: ls.map Simple.dropCR) := by
    unfold Simple.scanLines
    rw [if_neg (any x hl0), hr, List.map_cons]
  have e1 : Simple.scanLines (textMark ++ x) = .ok ((textMark ++ Simple.dropCR l) :: ls.map Simple.dropCR) := by
    unfold Simple.scanLines
    rw [if_neg (any _ hl), Bom.raw_mark x l ls hr, List.map_cons, Bom.drop_mark]
  have hm := MarkedRows.mk p ps ((ls.map Simple.dropCR).map (splitByte 9))
  obtain ⟨c1, c2⟩ := Bom.counts_mark hm
  unfold Simple.openTSV
  simp only [e0, e1, GoRes.ok_bind, List.map_cons (f := splitByte 9), hp, Bom.split_mark _ _ _ hp, c1, c2]
  split
  · exact .inr ⟨rfl, rfl⟩
  · exact .inl ⟨_, _, hm, rfl, rfl⟩

/-- C151 for `Open` in a program with all formats: a text opens with the mark if it opens without, and reading all rows gives the same
but for the mark at the begin of the first field. -/
theorem C151_open_partial (w : World) (fn fn' x : Bytes) (hx : x ≠ []) (hl : ¬ HasLongLine (textMark ++ x)) (hf : w.files fn = .ok x)
    (hf' : w.files fn' = .ok (textMark ++ x)) (hn : NotCompound x) (ez ez' : GoErr) (hz : w.zip x = .error ez)
    (hz' : w.zip (textMark ++ x) = .error ez') (t : List (Grate.Entry Source)) (ht : Shipped w t) (f : Simple.File)
    (ho : openSrc t fn = .ok (.text f)) :
    ∃ rows rows' f', MarkedRows rows rows' ∧ openSrc t fn' = .ok (.text f') ∧
      drain Simple.File.next Simple.File.strings (rows.length + 1) f = some (.ok rows) ∧
      drain Simple.File.next Simple.File.strings (rows'.length + 1) f' = some (.ok rows') := by
  have hn' : NotCompound (textMark ++ x) := .inl (by
    intro h
    obtain ⟨y, hy⟩ := h
    have := congrArg List.head? hy
    revert this
    show ¬ some _ = some _
    decide)
  obtain ⟨o1, _, o3⟩ := open_text w fn x hf hn ez hz t ht
  obtain ⟨p1, _, _⟩ := open_text w fn' _ hf' hn' ez' hz' t ht
  rcases C151_opener_partial w.iter fn x hx hl with ⟨rows, rows', hm, h1, h2⟩ | ⟨h1, _⟩
  · have e := o1 _ h1
    rw [ho] at e
    cases e
    exact ⟨rows, rows', _, hm, p1 _ (openTSV_name w.iter fn fn' _ _ h2), C08_drain _ rfl, C08_drain _ rfl⟩
  · obtain ⟨e, he, _⟩ := o3 h1
    rw [ho] at he
    cases he

/-- C151 is false: no text that is not empty and opens gives the same rows with the mark as without. -/
theorem C151_counterexample (iter : List (Nat × Nat) → List (Nat × Nat)) (fn x : Bytes) (hx : x ≠ [])
    (hl : ¬ HasLongLine (textMark ++ x)) (f : Simple.File) (ho : Simple.openTSV iter fn (some x) = .ok f) :
    ∃ f', Simple.openTSV iter fn (some (textMark ++ x)) = .ok f' ∧ f'.rows ≠ f.rows := by
  rcases C151_opener_partial iter fn x hx hl with ⟨rows, rows', hm, h1, h2⟩ | ⟨h1, _⟩
  · rw [ho] at h1
    cases h1
    refine ⟨_, h2, ?_⟩
    cases hm with
    | mk g gs rest =>
      intro h
      simp only [List.cons.injEq, and_true] at h
      have := congrArg List.length h
      simp only [List.length_append, textMark, List.length_cons, List.length_nil] at this
      omega
  · rw [ho] at h1
    cases h1

/-- A text of two lines with a mark: the first field is `a` with the mark. -/
theorem C151_witness (iter : List (Nat × Nat) → List (Nat × Nat)) (hi : ∀ m, (iter m).Perm m) (fn : Bytes) :
    Simple.openTSV iter fn (some (lit "a\tb\nc")) = .ok ⟨fn, [[lit "a", lit "b"], [lit "c"]], -1⟩ ∧
    Simple.openTSV iter fn (some (textMark ++ lit "a\tb\nc")) = .ok ⟨fn, [[textMark ++ lit "a", lit "b"], [lit "c"]], -1⟩ := by
  have e : lit "a\tb\nc" = [97, 9, 98, 10, 99] := by decide +kernel
  have ne : lit "a\tb\nc" ≠ [] := by decide +kernel
  have short : ¬ HasLongLine (textMark ++ lit "a\tb\nc") := by
    rintro ⟨a, l, b, h, hl, _⟩
    have := congrArg List.length h
    rw [e] at this
    simp only [textMark, List.length_append, List.length_cons, List.length_nil] at this
    omega
  have lines : LinesOf (lit "a\tb\nc") [[97, 9, 98], [99]] := by
    rw [e]
    exact .lf (l := [97, 9, 98]) (by decide) (by decide) (.last (l := [99]) (by decide) (by decide) (by decide))
  have short0 : ¬ HasLongLine (lit "a\tb\nc") := by
    rintro ⟨a, l, b, h, h1, h2⟩
    exact short ⟨textMark ++ a, l, b, by rw [h]; simp, h1, h2⟩
  have h0 := (C06_rule iter hi fn (lit "a\tb\nc") [[97, 9, 98], [99]] [[[97], [98]], [[99]]] short0 lines
    (.cons (by unfold FieldsOf; decide +kernel) (.cons (by unfold FieldsOf; decide +kernel) .nil)) (by decide)).2 (few_rows (by decide))
  have ea : lit "a" = [97] ∧ lit "b" = [98] ∧ lit "c" = [99] := by decide +kernel
  rw [ea.1, ea.2.1, ea.2.2]
  refine ⟨h0, ?_⟩
  rcases C151_opener_partial iter fn _ ne short with ⟨rows, rows', hm, h1, h2⟩ | ⟨h1, _⟩
  · rw [h0] at h1
    cases h1
    cases hm
    exact h2
  · rw [h0] at h1
    cases h1

end Grate.Props
