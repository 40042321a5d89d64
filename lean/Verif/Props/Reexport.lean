import Verif.Props.Grate2tsvSrc

/-! # C111: what `grate2tsv` writes can be opened and exported again -/

namespace Grate.Props

open Grate Grate.Spec Grate.Api
open Grate.G2t (srcLoop processSrc outPath Out Stats)

/-! ### Tidied texts are tidy -/

theorem squeezed_length {P : UInt8 → Prop} {r : UInt8} {c d : Bytes} (h : Squeezed P r c d) : d.length ≤ c.length := by
  induction h with
  | nil => simp
  | byte _ _ ih => simp; omega
  | @run g c d hg _ _ _ ih =>
    have := List.length_pos_iff.2 hg
    simp only [List.length_cons, List.length_append]
    omega

theorem squeezed_head {P : UInt8 → Prop} {r : UInt8} {c d : Bytes} (h : Squeezed P r c d)
    (hc : ∀ b, c.head? = some b → ¬ P b) : ∀ b, d.head? = some b → ¬ P b := by
  cases h with
  | nil => exact hc
  | byte hb _ => intro x hx; cases hx; exact hb
  | @run g c d hg hall _ _ =>
    obtain ⟨b, g, rfl⟩ := List.exists_cons_of_ne_nil hg
    exact absurd (hall b List.mem_cons_self) (hc b rfl)

theorem squeezed_again {P : UInt8 → Prop} {r : UInt8} (hr : P r) {c d : Bytes} (h : Squeezed P r c d) :
    Squeezed P r d d := by
  induction h with
  | nil => exact .nil
  | byte hb _ ih => exact .byte hb ih
  | @run g c d _ _ hc h ih => exact .run (g := [r]) (by simp) (by simpa using hr) (squeezed_head h hc) ih

theorem squeezed_inv' {P : UInt8 → Prop} {r b : UInt8} {s c d : Bytes} (h : Squeezed P r c d) (e : c = b :: s)
    (e' : d = b :: s) : Squeezed P r s s ∧ (¬ P b ∨ b = r ∧ P r ∧ ∀ x, s.head? = some x → ¬ P x) := by
  cases h with
  | nil => cases e
  | byte hb h =>
    cases e
    cases e'
    exact ⟨h, .inl hb⟩
  | @run g c d hg hall hc h =>
    obtain ⟨x, g, rfl⟩ := List.exists_cons_of_ne_nil hg
    rw [List.cons_append] at e
    obtain ⟨rfl, rfl⟩ := List.cons.inj e
    obtain ⟨rfl, e2⟩ := List.cons.inj e'
    have h1 := squeezed_length h
    have h2 := congrArg List.length e2
    rw [List.length_append] at h2
    obtain rfl : g = [] := List.length_eq_zero_iff.1 (by omega)
    rw [List.nil_append] at e2 ⊢
    subst e2
    exact ⟨h, .inr ⟨rfl, hall _ List.mem_cons_self, hc⟩⟩

theorem squeezed_inv {P : UInt8 → Prop} {r b : UInt8} {s : Bytes} (h : Squeezed P r (b :: s) (b :: s)) :
    Squeezed P r s s ∧ (¬ P b ∨ b = r ∧ P r ∧ ∀ x, s.head? = some x → ¬ P x) := squeezed_inv' h rfl rfl

theorem squeezed_drop {P : UInt8 → Prop} {r : UInt8} {t : Bytes} : ∀ x : Bytes, Squeezed P r (x ++ t) (x ++ t) →
    Squeezed P r t t := by
  intro x
  induction x with
  | nil => exact id
  | cons b x ih => exact fun h => ih (squeezed_inv h).1

theorem squeezed_take {P : UInt8 → Prop} {r : UInt8} {y : Bytes} : ∀ t : Bytes, Squeezed P r (t ++ y) (t ++ y) →
    Squeezed P r t t := by
  intro t
  induction t with
  | nil => exact fun _ => .nil
  | cons b t ih =>
    intro h
    obtain ⟨h1, h2⟩ := squeezed_inv h
    rcases h2 with h2 | ⟨rfl, hp, h2⟩
    · exact .byte h2 (ih h1)
    · refine .run (g := [b]) (by simp) (by simpa using hp) (fun x hx => h2 x ?_) (ih h1)
      cases t with
      | nil => cases hx
      | cons => exact hx

theorem tidy_again {c t : Bytes} (h : Tidy c t) : Tidy t t := by
  obtain ⟨d, h1, a, b, _, _, rfl, hp, hs⟩ := h
  have := squeezed_again (r := 32) (.inl rfl) h1
  rw [List.append_assoc] at this
  exact ⟨t, squeezed_take t (squeezed_drop _ this), [], [], by simp, by simp, by simp [utf8], hp, hs⟩

theorem all2_self {α : Type} {R : α → α → Prop} : ∀ {l : List α}, (∀ a ∈ l, R a a) → All2 R l l := by
  intro l
  induction l with
  | nil => exact fun _ => .nil
  | cons a l ih => exact fun h => .cons (h a List.mem_cons_self) (ih (fun b hb => h b (List.mem_cons_of_mem _ hb)))

/-- The rows written are written as they are. -/
theorem sheetText_again {rows kept : List (List Bytes)} {content : Bytes} (h : SheetText rows kept content) :
    SheetText kept kept content := by
  obtain ⟨td, h1, rfl, rfl⟩ := h
  refine ⟨_, all2_self fun r hr => all2_self fun c hc => ?_, ?_, rfl⟩
  · obtain ⟨_, _, h2⟩ := all2_mem h1 r (List.mem_filter.1 hr).1
    obtain ⟨_, _, h3⟩ := all2_mem h2 c hc
    exact tidy_again h3
  · rw [List.filter_filter]
    simp

theorem all2_len {α β : Type} {R : α → β → Prop} {l : List α} {m : List β} (h : All2 R l m) : l.length = m.length := by
  induction h with
  | nil => rfl
  | cons _ _ ih => simp [ih]

theorem sheetText_width {rows kept : List (List Bytes)} {content : Bytes} (h : SheetText rows kept content) {n : Nat}
    (hn : ∀ r ∈ rows, r.length = n) : ∀ r ∈ kept, r.length = n := by
  obtain ⟨td, h1, rfl, _⟩ := h
  intro r hr
  obtain ⟨a, ha, h2⟩ := all2_mem h1 r (List.mem_filter.1 hr).1
  rw [← all2_len h2]
  exact hn a ha

/-- Rows of the same width are never declined. -/
theorem same_width {rows : List (List Bytes)} {n : Nat} (h : ∀ r ∈ rows, r.length = n) : ¬ Declined rows := by
  rintro ⟨⟨w, h2, hw⟩, hno⟩
  have hall : ∀ r ∈ rows, r.length = w := by
    have hne : (rows.filter (fun r => r.length = w)) ≠ [] := fun e => by
      unfold widthCount at hw
      rw [e] at hw
      cases hw
    obtain ⟨r, hr⟩ := List.exists_mem_of_ne_nil _ hne
    obtain ⟨hr, hw⟩ := List.mem_filter.1 hr
    have := h r hr
    have := of_decide_eq_true hw
    exact fun r' hr' => by rw [h r' hr']; omega
  have he : widthCount rows w = rows.length := by
    unfold widthCount
    rw [List.filter_eq_self.2 (fun r hr => decide_eq_true (hall r hr))]
  exact hno ⟨w, h2, by omega, by omega⟩

/-! ### C111 -/

theorem written_short {rows kept : List (List Bytes)} {content : Bytes} (h : SheetText rows kept content)
    (hlen : ∀ r ∈ kept, ([(9 : UInt8)].intercalate r).length < 65536) : ¬ HasLongLine content := by
  intro hl
  obtain ⟨e, he, hne⟩ := (C05_tsv_lossless id [] content).1 hl
  rcases C65_reopened h id [] hlen with ⟨_, h2, _⟩ | h2
  · rw [he] at h2; cases h2
  · rw [he] at h2
    cases h2
    exact absurd hne (by simp [GoErr.isNotInFormat])

theorem written_length {rows kept : List (List Bytes)} {content : Bytes} (h : SheetText rows kept content) :
    kept.length ≤ content.length := by
  obtain ⟨_, _, _, rfl⟩ := h
  clear * -
  unfold tsvText
  induction kept with
  | nil => simp
  | cons r rs ih =>
    rw [List.flatMap_cons]
    simp only [List.length_cons, List.length_append, List.length_nil]
    omega

/-- **C111 (partial, opened).** What is written for a sheet with rows of one width, if the lines are shorter than 64 KiB, opens in
every program with all formats, and its rows are exactly the rows written. Missing: longer lines and rows of different widths,
where it is false (`C111_long_counterexample`, `C111_ragged_counterexample`), and texts that are a compound file or an archive. -/
theorem C111_open_partial (w : World) (ext : Ext) (fn : Bytes) {rows kept : List (List Bytes)} {content : Bytes}
    (h : SheetText rows kept content) (n : Nat) (hn : ∀ r ∈ rows, r.length = n)
    (hshort : ¬ HasLongLine content) (hsize : content.length < 2 ^ 50)
    (hf : w.files fn = .ok content) (hnc : NotCompound content) (ez : GoErr) (hz : w.zip content = .error ez)
    (hi : ∀ m, (w.iter m).Perm m) (t : List (Grate.Entry Source)) (ht : Shipped w t) :
    ∃ f, openSrc t fn = .ok (.text f) ∧ (∀ name, (Source.text f).get ext name = .ok (.text f, .ok (.text f))) ∧
      drain Simple.File.next Simple.File.strings (kept.length + 1) f = some (.ok kept) := by
  obtain ⟨lines, hl, hr⟩ := C65_lines h
  have ho := (C06_rule w.iter hi fn content lines kept hshort hl hr (by have := written_length h; omega)).2
    (same_width (sheetText_width h hn))
  exact ⟨_, (open_text w _ content hf hnc ez hz t ht).1 _ ho, fun _ => rfl, C08_drain _ rfl⟩

/-- **C111 (partial, exported again).** Exporting such an output (of at least one line) writes the same bytes, and reports as many
rows. -/
theorem C111_again_partial (w : World) (ext : Ext) (hex : Bytes → Bytes) (create : Bytes → Option GoErr) (fn : Bytes)
    {rows kept : List (List Bytes)} {content : Bytes} (h : SheetText rows kept content) (hne : kept ≠ [])
    (n : Nat) (hn : ∀ r ∈ rows, r.length = n)
    (hshort : ¬ HasLongLine content) (hsize : content.length < 2 ^ 50)
    (hf : w.files fn = .ok content) (hnc : NotCompound content) (ez : GoErr) (hz : w.zip content = .error ez)
    (hi : ∀ m, (w.iter m).Perm m) (t : List (Grate.Entry Source)) (ht : Shipped w t)
    (hcr : create (outPath hex fn (Simple.basePath fn)) = none) :
    ∃ (st : Stats) (m : Nat), st.err = none ∧ st.counts.numRows = kept.length ∧
      ∀ fuel, m ≤ fuel → processSrc {} hex create ext fuel t fn =
        some (.ok ([⟨outPath hex fn (Simple.basePath fn), content⟩], .inl [st])) := by
  obtain ⟨lines, hl, hr⟩ := C65_lines h
  obtain ⟨y, m, hy, hrun⟩ := C106_text w ext hex create fn content hf hnc ez hz hi lines kept hshort hl hr
    (by have := written_length h; omega)
    (same_width (sheetText_width h hn)) t ht hcr
  obtain ⟨o, kept', e1, e2, e3, e4⟩ := hy.2.2.2.2 hne
  obtain ⟨rfl, e5⟩ := C65_unique e3 (sheetText_again h)
  refine ⟨y.2, m, hy.2.2.1, e4, fun fuel hfu => ?_⟩
  rw [hrun fuel hfu, e1]
  cases o
  cases e2
  cases e5
  rfl

/-- **C111 (partial, sheets of workbooks).** Every output that C106 describes for a sheet of an xls or xlsx file (they have rows of
one width) opens, if no line is too long, and its rows are those of the table of the sheet that have some text, tidied. -/
theorem C111_exported_partial (w : World) (ext : Ext) (hex : Bytes → Bytes) (fn name fn' : Bytes) {f : Formatter} {m : Nat × Nat}
    {ws : List Write} {tb : List (List Bytes)} (htb : Table ext f m ws tb) {y : Option Out × Stats}
    (hy : Exported hex fn name tb (Small m ws) y) {o : Out} (ho : y.1 = some o)
    (hshort : ¬ HasLongLine o.content) (hsize : o.content.length < 2 ^ 50)
    (hf : w.files fn' = .ok o.content) (hnc : NotCompound o.content) (ez : GoErr) (hz : w.zip o.content = .error ez)
    (hi : ∀ m, (w.iter m).Perm m) (t : List (Grate.Entry Source)) (ht : Shipped w t) :
    ∃ g tidied, openSrc t fn' = .ok (.text g) ∧ All2 (All2 Tidy) tb tidied ∧
      drain Simple.File.next Simple.File.strings (y.2.counts.numRows + 1) g =
        some (.ok (tidied.filter (fun r => decide (HasText r)))) := by
  have hns : ¬ Small m ws := fun hs => by
    rw [(hy.2.2.2.1 hs).1] at ho
    cases ho
  obtain ⟨o', kept, e1, _, e3, e4⟩ := hy.2.2.2.2 hns
  rw [e1] at ho
  cases ho
  obtain ⟨n, hn⟩ := htb.width
  obtain ⟨g, h1, _, h3⟩ := C111_open_partial w ext fn' e3 n hn hshort hsize hf hnc ez hz hi t ht
  obtain ⟨td, h4, rfl, _⟩ := e3
  exact ⟨g, td, h1, h4, by rw [e4]; exact h3⟩

/-- A sheet with a blank row, line breaks and spaces, which is written in two lines. -/
theorem C111_witness : ∃ kept content, SheetText [[lit " a\n b ", lit ""], [lit "", lit " "], [lit "c", lit "d"]] kept content ∧
    kept = [[lit "a b", []], [lit "c", lit "d"]] ∧ content = lit "a b\t\nc\td\n" ∧ NotCompound content ∧
    ¬ HasLongLine content ∧ content.length < 2 ^ 50 :=
  ⟨_, _, sheetText_loop _ ⟨0, 0⟩, by decide +kernel, by decide +kernel, .inr (by decide +kernel),
    written_short (sheetText_loop _ ⟨0, 0⟩) (by decide +kernel), by decide +kernel⟩

theorem white_97 {r : Nat} (hr : White r) : (97 : UInt8) ∉ utf8 [r] ∧ utf8 [r] ≠ [] := by
  have : ∀ r ∈ G2t.spacePoints, (97 : UInt8) ∉ utf8 [r] ∧ utf8 [r] ≠ [] := by decide +kernel
  exact this r ((G2t.white_iff r).1 hr)

theorem tidy_as (k : Nat) : Tidy (List.replicate k 97) (List.replicate k 97) := by
  have no : ∀ r, White r → (∀ b ∈ utf8 [r], b ∈ List.replicate k (97 : UInt8)) → False := by
    intro r hr h
    obtain ⟨b, hb⟩ := List.exists_mem_of_ne_nil _ (white_97 hr).2
    exact (white_97 hr).1 (List.eq_of_mem_replicate (h b hb) ▸ hb)
  refine ⟨List.replicate k 97, ?_, [], [], by simp, by simp, by simp [utf8], fun r hr hp => no r hr (fun b hb => hp.subset hb),
    fun r hr hp => no r hr (fun b hb => hp.subset hb)⟩
  clear no
  induction k with
  | zero => exact .nil
  | succ m ih => exact .byte (by unfold Gap; decide) ih

/-- C111 is false for long lines: a sheet with a cell of 65536 bytes is written, and opening the output fails. -/
theorem C111_long_counterexample (w : World) (fn : Bytes) :
    ∃ row content, SheetText [row] [row] content ∧
      ∀ (ez : GoErr), w.files fn = .ok content → w.zip content = .error ez → ∀ t, Shipped w t →
        ∃ e, openSrc t fn = .err e := by
  refine ⟨[List.replicate 65536 97], tsvText [[List.replicate 65536 97]],
    ⟨[[List.replicate 65536 97]], .cons (.cons (tidy_as _) .nil) .nil, ?_, rfl⟩, ?_⟩
  · have : HasText [List.replicate 65536 (97 : UInt8)] :=
      ⟨_, List.mem_cons_self, fun e => absurd (congrArg List.length e) (by rw [List.length_replicate]; decide)⟩
    rw [List.filter_cons, if_pos (decide_eq_true this), List.filter_nil]
  · have ht : ∀ x : Bytes, tsvText [[x]] = x ++ [10] := fun x => by simp [tsvText, List.intercalate]
    rw [ht]
    intro ez hf hz t hsh
    obtain ⟨e, he, hne⟩ := (C05_tsv_lossless w.iter fn (List.replicate 65536 97 ++ [10])).1
      ⟨[], List.replicate 65536 97, [10], by rw [List.nil_append], by rw [List.length_replicate], fun h => by
        have := List.eq_of_mem_replicate h
        exact absurd this (by decide)⟩
    refine ⟨e, (open_text w fn _ hf (.inl ?_) ez hz t hsh).2.1 e he hne⟩
    rw [List.replicate_succ, List.cons_append]
    rintro ⟨u, hu⟩
    have := congrArg List.head? hu
    rw [signature, List.cons_append, List.head?_cons, List.head?_cons] at this
    exact absurd (Option.some.inj this) (by decide)

/-- The rows of a text file, most of them blank. -/
def exRagged : List (List Bytes) :=
  List.replicate 27 [lit "a", lit "b"] ++ List.replicate 100 [[], []] ++ List.replicate 20 [lit "a", lit "b", lit "c"]

/-- Those with some text. -/
def exRaggedKept : List (List Bytes) :=
  List.replicate 27 [lit "a", lit "b"] ++ List.replicate 20 [lit "a", lit "b", lit "c"]

/-- C111 is false for text files with rows of different widths: the file opens, but what is written for it, without the blank rows,
does not. -/
theorem C111_ragged_counterexample (w : World) (fn fn' : Bytes) (hi : ∀ m, (w.iter m).Perm m) (ez ez' : GoErr)
    (hf : w.files fn = .ok (tsvText exRagged)) (hz : w.zip (tsvText exRagged) = .error ez)
    (hf' : w.files fn' = .ok (tsvText exRaggedKept)) (hz' : w.zip (tsvText exRaggedKept) = .error ez')
    (t : List (Grate.Entry Source)) (ht : Shipped w t) :
    SheetText exRagged exRaggedKept (tsvText exRaggedKept) ∧
    (∃ f, openSrc t fn = .ok (.text f) ∧ drain Simple.File.next Simple.File.strings 148 f = some (.ok exRagged)) ∧
    ∃ e, openSrc t fn' = .err e := by
  have hst : SheetText exRagged exRaggedKept (tsvText exRaggedKept) := by
    have h := sheetText_loop exRagged ⟨0, 0⟩
    have e : G2t.keptRows exRagged = exRaggedKept := by decide +kernel
    rw [e] at h
    obtain ⟨td, h1, h2, h3⟩ := h
    exact ⟨td, h1, h2, rfl⟩
  have long : ∀ rows : List (List Bytes), (∀ r ∈ rows, r ≠ []) →
      (∀ r ∈ rows, ∀ c ∈ r, (9 : UInt8) ∉ c ∧ (10 : UInt8) ∉ c ∧ (13 : UInt8) ∉ c) →
      (∀ r ∈ rows, ([(9 : UInt8)].intercalate r).length < 65536) → ¬ HasLongLine (tsvText rows) := by
    intro rows h1 h2 h3 hl
    obtain ⟨e, he, hne⟩ := (C05_tsv_lossless id [] _).1 hl
    rcases C04_tsv_roundtrip id [] rows h1 h2 h3 with ⟨_, h2, _⟩ | h2
    · rw [he] at h2; cases h2
    · rw [he] at h2
      cases h2
      exact absurd hne (by simp [GoErr.isNotInFormat])
  have fields : ∀ rows : List (List Bytes), (∀ r ∈ rows, r ≠ []) →
      (∀ r ∈ rows, ∀ c ∈ r, (9 : UInt8) ∉ c ∧ (10 : UInt8) ∉ c ∧ (13 : UInt8) ∉ c) →
      All2 FieldsOf (rows.map ([(9 : UInt8)].intercalate ·)) rows := by
    intro rows h1 h2
    induction rows with
    | nil => exact .nil
    | cons r rs ih =>
      exact .cons ⟨h1 r List.mem_cons_self, fun f hf => (h2 r List.mem_cons_self f hf).1, rfl⟩
        (ih (fun r' hr' => h1 r' (List.mem_cons_of_mem _ hr')) (fun r' hr' => h2 r' (List.mem_cons_of_mem _ hr')))
  have nc : ∀ rows : List (List Bytes), (tsvText rows).head? = some 97 → NotCompound (tsvText rows) := by
    intro rows h
    refine .inl ?_
    rintro ⟨u, hu⟩
    rw [← hu] at h
    exact absurd h (by unfold signature; simp)
  have rule : ∀ rows : List (List Bytes), (∀ r ∈ rows, r ≠ []) →
      (∀ r ∈ rows, ∀ c ∈ r, (9 : UInt8) ∉ c ∧ (10 : UInt8) ∉ c ∧ (13 : UInt8) ∉ c) →
      (∀ r ∈ rows, ([(9 : UInt8)].intercalate r).length < 65536) → rows.length < 2 ^ 50 → ∀ fn, _ :=
    fun rows h1 h2 h3 h4 fn => C06_rule w.iter hi fn (tsvText rows) _ rows (long rows h1 h2 h3)
      (linesOf_tsvText rows (fun r hr c hc => (h2 r hr c hc).2)) (fields rows h1 h2) h4
  have hd : ¬ Declined exRagged := fun h => h.2 ⟨2, by decide, by decide +kernel, by decide +kernel⟩
  have hd' : Declined exRaggedKept := by
    refine ⟨⟨2, by decide, by decide +kernel⟩, ?_⟩
    rintro ⟨k, _, h1, h2⟩
    have hk : widthCount exRaggedKept k ≤ 27 := by
      by_cases e2 : k = 2
      · subst e2; decide +kernel
      by_cases e3 : k = 3
      · subst e3; decide +kernel
      have : widthCount exRaggedKept k = 0 := by
        unfold widthCount
        rw [List.length_eq_zero_iff, List.filter_eq_nil_iff]
        intro r hr he
        have he := of_decide_eq_true he
        have : ∀ r ∈ exRaggedKept, r.length = 2 ∨ r.length = 3 := by decide +kernel
        have := this r hr
        omega
      omega
    have : exRaggedKept.length = 47 := by decide +kernel
    omega
  refine ⟨hst, ⟨_, (open_text w fn _ hf (nc _ (by decide +kernel)) ez hz t ht).1 _ ((rule exRagged (by decide +kernel)
    (by decide +kernel) (by decide +kernel) (by decide +kernel) fn).2 hd), C08_drain ⟨fn, exRagged, -1⟩ rfl⟩, ?_⟩
  obtain ⟨e, he, _⟩ := (open_text w fn' _ hf' (nc _ (by decide +kernel)) ez' hz' t ht).2.2 ((rule exRaggedKept (by decide +kernel)
    (by decide +kernel) (by decide +kernel) (by decide +kernel) fn').1 hd')
  exact ⟨e, he⟩

end Grate.Props
