import Verif.Props.Open

/-! # C118: the line endings of a text do not matter -/

namespace Grate.Props

open Grate Grate.Spec Grate.Api

/-! ### Specification -/

/-- A text with CR LF for every LF. -/
def crlf : Bytes → Bytes
  | [] => []
  | c :: cs => if c = 10 then 13 :: 10 :: crlf cs else c :: crlf cs

/-! ### The same lines -/

theorem scan_same {x y : Bytes} {ls : List Bytes} (hx : LinesOf x ls) (hy : LinesOf y ls) (lx : ¬ HasLongLine x)
    (ly : ¬ HasLongLine y) : Simple.scanLines x = Simple.scanLines y := by
  have h : ∀ z, LinesOf z ls → ¬ HasLongLine z → Simple.scanLines z = .ok ls := by
    intro z hz lz
    have hany : ¬ (Simple.rawLines z).any (fun l => Simple.maxTokenSize ≤ l.length) = true :=
      fun h' => lz ((Simple.longLine_iff z).1 h')
    simp only [Simple.scanLines, if_neg hany, ← Simple.linesOf_unique hz]
  rw [h x hx lx, h y hy ly]

/-- **C118 (opener).** Two texts with the same lines, none too long, are opened by `OpenTSV` alike: with the same rows, or both are
declined. -/
theorem C118_opener (iter : List (Nat × Nat) → List (Nat × Nat)) (fn x y : Bytes) (ls : List Bytes) (hx : LinesOf x ls)
    (hy : LinesOf y ls) (lx : ¬ HasLongLine x) (ly : ¬ HasLongLine y) :
    Simple.openTSV iter fn (some x) = Simple.openTSV iter fn (some y) := by
  simp only [Simple.openTSV, scan_same hx hy lx ly]

theorem openTSV_name (iter : List (Nat × Nat) → List (Nat × Nat)) (fn fn' x : Bytes) (f : Simple.File)
    (h : Simple.openTSV iter fn (some x) = .ok f) : Simple.openTSV iter fn' (some x) = .ok { f with filename := fn' } := by
  unfold Simple.openTSV at h ⊢
  obtain ⟨l, hl, h⟩ := GoRes.bind_eq_ok.1 h
  simp only [hl, GoRes.ok_bind] at h ⊢
  split at h
  · cases h
  · rename_i hd
    cases h
    rw [if_neg hd]

/-- **C118 (Open).** In a program with all formats: of two files with the same lines, if one opens as a text, so does the other, with
the same rows (and its own name). -/
theorem C118_open (w : World) (fn fn' x y : Bytes) (hf : w.files fn = .ok x) (hf' : w.files fn' = .ok y) (hn : NotCompound x)
    (hn' : NotCompound y) (ez ez' : GoErr) (hz : w.zip x = .error ez) (hz' : w.zip y = .error ez') (ls : List Bytes)
    (hx : LinesOf x ls) (hy : LinesOf y ls) (lx : ¬ HasLongLine x) (ly : ¬ HasLongLine y) (t : List (Grate.Entry Source))
    (ht : Shipped w t) (f : Simple.File) (ho : openSrc t fn = .ok (.text f)) :
    openSrc t fn' = .ok (.text { f with filename := fn' }) := by
  obtain ⟨o1, o2, o3⟩ := open_text w fn x hf hn ez hz t ht
  obtain ⟨p1, _, _⟩ := open_text w fn' y hf' hn' ez' hz' t ht
  have key : Simple.openTSV w.iter fn (some x) = .ok f := by
    obtain ⟨_, _, _, _, h | h⟩ := (C05_tsv_lossless w.iter fn x).2 lx
    · have := o1 _ h
      rw [ho] at this
      cases this
      exact h
    · obtain ⟨e, he, _⟩ := o3 h
      rw [ho] at he
      cases he
  refine p1 _ ?_
  rw [← C118_opener w.iter fn' x y ls hx hy lx ly]
  exact openTSV_name w.iter fn fn' x f key

/-! ### Converting a text -/

theorem crlf_append (l rest : Bytes) (h : (10 : UInt8) ∉ l) : crlf (l ++ rest) = l ++ crlf rest := by
  induction l with
  | nil => rfl
  | cons c l ih =>
    rw [List.mem_cons, not_or] at h
    simp only [List.cons_append, crlf, if_neg (Ne.symm h.1), ih h.2]

theorem crlf_lines {x : Bytes} {ls : List Bytes} (h : LinesOf x ls) : (13 : UInt8) ∉ x → LinesOf (crlf x) ls := by
  induction h with
  | nil => intro _; exact .nil
  | @lf l rest ls h1 h2 _ ih =>
    intro hc
    rw [crlf_append _ _ h1]
    simp only [crlf, if_true]
    exact .crlf h1 (ih (fun h => hc (List.mem_append_right _ (List.mem_cons_of_mem _ h))))
  | @crlf l rest ls h1 _ _ =>
    intro hc
    exact absurd (List.mem_append_right _ List.mem_cons_self) hc
  | @last l hne h1 h2 =>
    intro _
    have := crlf_append l [] h1
    rw [List.append_nil] at this
    rw [this]
    simp only [crlf, List.append_nil]
    exact .last hne h1 h2
  | @lastCR l h1 =>
    intro hc
    exact absurd (List.mem_append_right _ List.mem_cons_self) hc

/-- No line (without its LF) has as many bytes. -/
def LinesBelow (n : Nat) (x : Bytes) : Prop := ∀ a l b : Bytes, x = a ++ l ++ b → (10 : UInt8) ∉ l → l.length < n

theorem below_iff (x : Bytes) : LinesBelow 65536 x ↔ ¬ HasLongLine x := by
  unfold LinesBelow HasLongLine
  constructor
  · rintro h ⟨a, l, b, e, hl, hn⟩
    have := h a l b e hn
    omega
  · intro h a l b e hn
    by_contra hl
    exact h ⟨a, l, b, e, by omega, hn⟩

theorem raw_below (n : Nat) {x : Bytes} {ls : List Bytes} (h : LinesOf x ls) :
    (∀ a l b : Bytes, x = a ++ l ++ b → (10 : UInt8) ∉ l → l.length < n) → (13 : UInt8) ∉ x →
    ∀ r ∈ Simple.rawLines (crlf x), r.length < n + 1 := by
  induction h with
  | nil => intro _ _ r hr; cases hr
  | @lf l rest ls h1 h2 _ ih =>
    intro hb hc r hr
    have hcl : (10 : UInt8) ∉ l ++ [13] := by
      rw [List.mem_append, not_or]
      exact ⟨h1, by decide⟩
    have e : crlf (l ++ 10 :: rest) = (l ++ [13]) ++ 10 :: crlf rest := by
      rw [crlf_append _ _ h1]
      simp only [crlf, if_true, List.append_assoc, List.singleton_append]
    rw [e, Simple.rawLines_append _ _ hcl] at hr
    rcases List.mem_cons.1 hr with rfl | hr
    · have := hb [] l (10 :: rest) (by simp) h1
      simp only [List.length_append, List.length_singleton]
      omega
    · refine ih (fun a m b he hm => hb (l ++ 10 :: a) m b (by rw [he]; simp) hm)
        (fun h => hc (List.mem_append_right _ (List.mem_cons_of_mem _ h))) r hr
  | @crlf l rest ls h1 _ _ =>
    intro _ hc
    exact absurd (List.mem_append_right _ List.mem_cons_self) hc
  | @last l hne h1 h2 =>
    intro hb _ r hr
    have e := crlf_append l [] h1
    rw [List.append_nil] at e
    rw [e] at hr
    simp only [crlf, List.append_nil] at hr
    rw [Simple.rawLines_noLF l hne h1] at hr
    rw [List.mem_singleton.1 hr]
    have := hb [] l [] (by simp) h1
    omega
  | @lastCR l h1 =>
    intro _ hc
    exact absurd (List.mem_append_right _ List.mem_cons_self) hc

theorem crlf_short {x : Bytes} (hc : (13 : UInt8) ∉ x) (h : LinesBelow 65535 x) : ¬ HasLongLine (crlf x) := by
  rw [← Simple.longLine_iff]
  intro ha
  obtain ⟨r, hr, hl⟩ := List.any_eq_true.1 ha
  have := raw_below 65535 (Simple.linesOf_rawLines x) h hc r hr
  have hl := of_decide_eq_true hl
  simp only [Simple.maxTokenSize] at hl
  omega

/-- **C118 (CR LF).** A text without CR, all of whose lines have less than 65535 bytes, is opened like the one with CR LF for LF. -/
theorem C118_crlf (iter : List (Nat × Nat) → List (Nat × Nat)) (fn x : Bytes) (hc : (13 : UInt8) ∉ x) (h : LinesBelow 65535 x) :
    Simple.openTSV iter fn (some (crlf x)) = Simple.openTSV iter fn (some x) := by
  have hl := Simple.linesOf_rawLines x
  refine C118_opener iter fn _ _ _ (crlf_lines hl hc) hl (crlf_short hc h) ?_
  rw [← below_iff]
  intro a l b e hn
  have := h a l b e hn
  omega

theorem rawLines_final (x : Bytes) (hne : x ≠ []) (hl : x.getLast? ≠ some 10) : Simple.rawLines (x ++ [10]) = Simple.rawLines x := by
  induction x with
  | nil => exact absurd rfl hne
  | cons c x ih =>
    cases x with
    | nil =>
      have hc : c ≠ 10 := fun e => hl (by rw [e]; rfl)
      simp [Simple.rawLines, hc]
    | cons d x =>
      have e := ih (by simp) (by simpa [List.getLast?_cons_cons] using hl)
      rw [List.cons_append, Simple.rawLines, e]
      conv_rhs => rw [Simple.rawLines]

/-- **C118 (final newline).** A text that does not end in LF is opened like the one with a final LF. -/
theorem C118_final (iter : List (Nat × Nat) → List (Nat × Nat)) (fn x : Bytes) (hne : x ≠ []) (hl : x.getLast? ≠ some 10) :
    Simple.openTSV iter fn (some (x ++ [10])) = Simple.openTSV iter fn (some x) := by
  simp only [Simple.openTSV, Simple.scanLines, rawLines_final x hne hl]

/-- C118: the limit on the lengths of lines counts the CR: a line of 65535 bytes can be read with LF, not with CR LF. -/
theorem C118_limit (iter : List (Nat × Nat) → List (Nat × Nat)) (hi : ∀ m, (iter m).Perm m) (fn : Bytes) :
    ∃ (x : Bytes) (f : Simple.File) (e : GoErr), (13 : UInt8) ∉ x ∧ Simple.openTSV iter fn (some x) = .ok f ∧
      Simple.openTSV iter fn (some (crlf x)) = .err e := by
  have h1 : (10 : UInt8) ∉ List.replicate 65535 (97 : UInt8) := by
    intro h
    exact absurd (List.eq_of_mem_replicate h) (by decide)
  have h2 : (13 : UInt8) ∉ List.replicate 65535 (97 : UInt8) := by
    intro h
    exact absurd (List.eq_of_mem_replicate h) (by decide)
  have hlen : (List.replicate 65535 (97 : UInt8)).length = 65535 := List.length_replicate
  generalize List.replicate 65535 (97 : UInt8) = l at h1 h2 hlen
  have hraw : Simple.rawLines (l ++ [10]) = [l] := by
    rw [Simple.rawLines_append l [] h1]
    rfl
  have hlong : ¬ HasLongLine (l ++ [10]) := by
    rw [← Simple.longLine_iff, hraw]
    simp [Simple.maxTokenSize, hlen]
  have hlast : l.getLast? ≠ some 13 := fun h => h2 (List.mem_of_getLast? h)
  have hr := (C06_rule iter hi fn (l ++ [10]) [l] [splitByte 9 l] hlong (.lf h1 hlast .nil)
    (.cons ⟨Simple.splitByte_ne_nil 9 l, (Simple.splitByte_spec 9 l).1, (Simple.splitByte_spec 9 l).2⟩ .nil) (by simp)).2
    (few_rows (by simp))
  obtain ⟨e, he, _⟩ := (C05_tsv_lossless iter fn (crlf (l ++ [10]))).1 ⟨[], l ++ [13], [10], by
    rw [crlf_append l [10] h1]
    simp [crlf], by simp [hlen], by
    rw [List.mem_append, not_or]
    exact ⟨h1, by decide⟩⟩
  refine ⟨l ++ [10], _, e, ?_, hr, he⟩
  rw [List.mem_append, not_or]
  exact ⟨h2, by decide⟩

/-- A text of two lines with three fields meets the hypotheses of C118: it has no CR, no long line, and it and its converted form
have the same lines. -/
theorem C118_witness : (13 : UInt8) ∉ lit "a\tb\nc" ∧ LinesBelow 65535 (lit "a\tb\nc") ∧ crlf (lit "a\tb\nc") = lit "a\tb\r\nc" ∧
    LinesOf (lit "a\tb\nc") [lit "a\tb", lit "c"] ∧ LinesOf (lit "a\tb\r\nc\r\n") [lit "a\tb", lit "c"] ∧
    lit "a\tb\nc" ≠ [] ∧ (lit "a\tb\nc").getLast? ≠ some 10 := by
  have e1 : lit "a\tb\nc" = [97, 9, 98, 10, 99] := by decide +kernel
  have e2 : lit "a\tb\r\nc\r\n" = [97, 9, 98, 13, 10, 99, 13, 10] := by decide +kernel
  have e3 : lit "a\tb" = [97, 9, 98] := by decide +kernel
  have e4 : lit "c" = [99] := by decide +kernel
  refine ⟨by decide +kernel, ?_, by decide +kernel, ?_, ?_, by decide +kernel, by decide +kernel⟩
  · intro a l b h _
    have := congrArg List.length h
    rw [e1] at this
    simp at this
    omega
  · rw [e1, e3, e4]
    exact .lf (l := [97, 9, 98]) (by decide) (by decide) (.last (l := [99]) (by decide) (by decide) (by decide))
  · rw [e2, e3, e4]
    exact .crlf (l := [97, 9, 98]) (by decide) (.crlf (l := [99]) (by decide) .nil)

end Grate.Props
