import Verif.Model.GoXml
import Mathlib.Data.List.Infix

/-! # Texts that end inside markup, and readers that fail -/

namespace Grate.Xlsx

open Grate

theorem endErr_ne (fin : GoErr) : endErr fin ≠ .eof := by
  unfold endErr
  split
  · exact fun h => nomatch h
  · rename_i h
    exact h

theorem syntax_ne : xmlSyntax ≠ .eof := fun h => nomatch h

/-! ### The errors of the decoder -/

theorem xmlName_err {T : XmlTables} {fin e : GoErr} {bs : Bytes} (h : xmlName T fin bs = .error e) : e ≠ .eof := by
  unfold xmlName at h
  split at h
  · cases h; exact endErr_ne _
  split at h
  · split at h
    · cases h; exact endErr_ne _
    · split at h
      · cases h
      · cases h; exact syntax_ne
  · cases h; exact syntax_ne

theorem xmlNsName_err {T : XmlTables} {fin e : GoErr} {bs : Bytes} (h : xmlNsName T fin bs = .error e) : e ≠ .eof := by
  unfold xmlNsName at h
  split at h
  · rename_i h'; cases h; exact xmlName_err h'
  · split at h
    · cases h
    · cases h; exact syntax_ne

theorem textLoop_err {fin : GoErr} {q : Option UInt8} {cdata : Bool} {e : GoErr} : ∀ {bs : Bytes} {ent : Option Bytes} {b0 b1 : UInt8}
    {buf : Bytes}, textLoop fin q cdata bs ent b0 b1 buf = .error e → e ≠ .eof := by
  intro bs
  induction bs with
  | nil =>
    intro ent b0 b1 buf h
    cases ent with
    | none =>
      unfold textLoop at h
      split at h
      · cases h; exact endErr_ne _
      · cases h
    | some x => unfold textLoop at h; cases h; exact endErr_ne _
  | cons b bs ih =>
    intro ent b0 b1 buf h
    cases ent with
    | none =>
      unfold textLoop at h
      split at h
      · split at h
        · cases h
        · cases h; exact syntax_ne
      split at h
      · split at h
        · cases h
        · cases h; exact syntax_ne
      split at h
      · cases h
      split at h
      · exact ih h
      split at h
      · exact ih h
      split at h
      · exact ih h
      · exact ih h
    | some x =>
      unfold textLoop at h
      split at h
      · exact ih h
      split at h
      · split at h
        · exact ih h
        · cases h; exact syntax_ne
      · cases h; exact syntax_ne

theorem xmlText_err {fin : GoErr} {q : Option UInt8} {cdata : Bool} {e : GoErr} {bs : Bytes} (h : xmlText fin q cdata bs = .error e) :
    e ≠ .eof := by
  unfold xmlText at h
  split at h
  · rename_i h'; cases h; exact textLoop_err h'
  · split at h
    · cases h
    · cases h; exact syntax_ne

theorem piLoop_err {fin e : GoErr} : ∀ {bs : Bytes} {b0 : UInt8} {buf : Bytes}, piLoop fin bs b0 buf = .error e → e ≠ .eof := by
  intro bs
  induction bs with
  | nil => intro b0 buf h; cases h; exact endErr_ne _
  | cons b bs ih =>
    intro b0 buf h
    unfold piLoop at h
    split at h
    · cases h
    · exact ih h

theorem xmlProcInst_err {T : XmlTables} {fin e : GoErr} {bs : Bytes} (h : xmlProcInst T fin bs = .error e) : e ≠ .eof := by
  unfold xmlProcInst at h
  split at h
  · rename_i h'; cases h; exact xmlName_err h'
  · split at h
    · rename_i h'; cases h; exact piLoop_err h'
    · split at h
      · cases h; exact fun h => nomatch h
      · cases h

theorem commentLoop_err {fin e : GoErr} : ∀ {bs : Bytes} {b0 b1 : UInt8}, commentLoop fin bs b0 b1 = .error e → e ≠ .eof := by
  intro bs
  induction bs with
  | nil => intro b0 b1 h; cases h; exact endErr_ne _
  | cons b bs ih =>
    intro b0 b1 h
    unfold commentLoop at h
    split at h
    · split at h
      · cases h
      · cases h; exact syntax_ne
    · exact ih h

theorem dirLoop_err {fin e : GoErr} : ∀ {bs : Bytes} {m : DirMode} {q : Option UInt8} {depth : Nat},
    dirLoop fin bs m q depth = .error e → e ≠ .eof := by
  intro bs
  induction bs with
  | nil =>
    intro m q depth h
    unfold dirLoop at h
    cases h; exact endErr_ne _
  | cons b bs ih =>
    intro m q depth h
    cases m <;> unfold dirLoop at h <;> split at h <;> first | exact ih h | cases h

theorem attrsLoop_err {T : XmlTables} {fin e : GoErr} : ∀ {n : Nat} {bs : Bytes} {as : List (Bytes × Bytes)},
    attrsLoop T fin n bs as = .error e → e ≠ .eof := by
  intro n
  induction n with
  | zero => intro bs as h; cases h; exact fun h => nomatch h
  | succ n ih =>
    intro bs as h
    unfold attrsLoop at h
    split at h
    · cases h; exact endErr_ne _
    split at h
    · split at h
      · cases h; exact endErr_ne _
      · split at h
        · cases h
        · cases h; exact syntax_ne
    split at h
    · cases h
    split at h
    · rename_i h'; cases h; exact xmlNsName_err h'
    split at h
    · cases h; exact endErr_ne _
    split at h
    · cases h; exact syntax_ne
    split at h
    · cases h; exact endErr_ne _
    split at h
    · split at h
      · rename_i h'; cases h; exact xmlText_err h'
      · exact ih h
    · cases h; exact syntax_ne

theorem rawToken_err {T : XmlTables} {fin e : GoErr} {bs : Bytes} (h : rawToken T fin bs = .error e) : e ≠ .eof := by
  unfold rawToken at h
  split at h
  · cases h; exact endErr_ne _
  · unfold xmlStop at h
    split at h
    · rename_i h'; cases h; exact xmlNsName_err h'
    · split at h
      · cases h; exact endErr_ne _
      · split at h
        · cases h
        · cases h; exact syntax_ne
  · split at h
    · rename_i h'; cases h; exact xmlProcInst_err h'
    · cases h
  · unfold xmlBang at h
    split at h
    · cases h; exact endErr_ne _
    · cases h; exact endErr_ne _
    · split at h
      · split at h
        · rename_i h'; cases h; exact commentLoop_err h'
        · cases h
      · cases h; exact syntax_ne
    · split at h
      · split at h
        · rename_i h'; cases h; exact xmlText_err h'
        · cases h
      · split at h
        · cases h; exact endErr_ne _
        · cases h; exact syntax_ne
    · split at h
      · rename_i h'; cases h; exact dirLoop_err h'
      · cases h
  · unfold xmlStart at h
    split at h
    · rename_i h'; cases h; exact xmlNsName_err h'
    · split at h
      · rename_i h'; cases h; exact attrsLoop_err h'
      · cases h
  · split at h
    · rename_i h'; cases h; exact xmlText_err h'
    · cases h

/-- If reading the bytes ends with an error, so does reading the tokens. -/
theorem xmlTokens_err {T : XmlTables} {fin : GoErr} (hf : fin ≠ .eof) : ∀ (n : Nat) (bs : Bytes), (xmlTokens T fin n bs).2 ≠ .eof := by
  intro n
  induction n with
  | zero => intro bs h; cases h
  | succ n ih =>
    intro bs
    cases bs with
    | nil => exact hf
    | cons b bs =>
      unfold xmlTokens
      split
      · rename_i h'; exact rawToken_err h'
      · exact ih _

/-! ### What a token consumes -/

theorem xmlName_suffix {T : XmlTables} {fin : GoErr} {bs s r : Bytes} (h : xmlName T fin bs = .ok (s, r)) : r <:+ bs := by
  unfold xmlName at h
  split at h
  · cases h
  split at h
  · split at h
    · cases h
    · split at h
      · rename_i h' _
        cases h
        exact List.dropWhile_suffix _
      · cases h
  · cases h

theorem xmlNsName_suffix {T : XmlTables} {fin : GoErr} {bs s r : Bytes} (h : xmlNsName T fin bs = .ok (s, r)) : r <:+ bs := by
  unfold xmlNsName at h
  split at h
  · cases h
  · rename_i h'
    split at h
    · cases h; exact xmlName_suffix h'
    · cases h

theorem xmlSpace_suffix (bs : Bytes) : xmlSpace bs <:+ bs := List.dropWhile_suffix _

theorem textLoop_suffix {fin : GoErr} {q : Option UInt8} {cdata : Bool} {t r : Bytes} : ∀ {bs : Bytes} {ent : Option Bytes}
    {b0 b1 : UInt8} {buf : Bytes}, textLoop fin q cdata bs ent b0 b1 buf = .ok (t, r) → r <:+ bs := by
  intro bs
  induction bs with
  | nil =>
    intro ent b0 b1 buf h
    cases ent with
    | none =>
      unfold textLoop at h
      split at h
      · cases h
      · cases h; exact List.suffix_refl _
    | some x => unfold textLoop at h; cases h
  | cons b bs ih =>
    intro ent b0 b1 buf h
    have ih' : ∀ {ent : Option Bytes} {b0 b1 : UInt8} {buf : Bytes}, textLoop fin q cdata bs ent b0 b1 buf = .ok (t, r) →
        r <:+ b :: bs := fun h => (ih h).trans (List.suffix_cons _ _)
    cases ent with
    | none =>
      unfold textLoop at h
      split at h
      · split at h
        · cases h; exact List.suffix_cons _ _
        · cases h
      split at h
      · split at h
        · cases h; exact List.suffix_refl _
        · cases h
      split at h
      · cases h; exact List.suffix_cons _ _
      split at h
      · exact ih' h
      split at h
      · exact ih' h
      split at h
      · exact ih' h
      · exact ih' h
    | some x =>
      unfold textLoop at h
      split at h
      · exact ih' h
      split at h
      · split at h
        · exact ih' h
        · cases h
      · cases h

theorem textLoop_cdata {fin : GoErr} {t r : Bytes} : ∀ {bs : Bytes} {b0 b1 : UInt8} {buf : Bytes},
    textLoop fin none true bs none b0 b1 buf = .ok (t, r) → 62 :: r <:+ bs := by
  intro bs
  induction bs with
  | nil => intro b0 b1 buf h; cases h
  | cons b bs ih =>
    intro b0 b1 buf h
    have ih' : ∀ {b0 b1 : UInt8} {buf : Bytes}, textLoop fin none true bs none b0 b1 buf = .ok (t, r) →
        62 :: r <:+ b :: bs := fun h => (ih h).trans (List.suffix_cons _ _)
    unfold textLoop at h
    split at h
    · rename_i hb
      rw [if_pos rfl] at h
      cases h
      rw [hb.2.2.2]
    split at h
    · rename_i hb; exact absurd hb.2 (by decide)
    split at h
    · rename_i hb; cases hb
    split at h
    · rename_i hb; exact absurd hb.2 (by decide)
    split at h
    · exact ih' h
    split at h
    · exact ih' h
    · exact ih' h

theorem entByte_open (e : Bytes) : entByte e 60 = false := by
  unfold entByte
  split <;> decide

/-- A text goes up to the next `<`, or to the end. -/
theorem textLoop_text {fin : GoErr} {t r : Bytes} : ∀ {bs : Bytes} {ent : Option Bytes} {b0 b1 : UInt8} {buf : Bytes},
    textLoop fin none false bs ent b0 b1 buf = .ok (t, r) → ∃ c, bs = c ++ r ∧ (60 : UInt8) ∉ c ∧ (r = [] ∨ r.head? = some 60) := by
  intro bs
  induction bs with
  | nil =>
    intro ent b0 b1 buf h
    cases ent with
    | none =>
      unfold textLoop at h
      cases h
      exact ⟨[], rfl, by simp, .inl rfl⟩
    | some x => unfold textLoop at h; cases h
  | cons b bs ih =>
    intro ent b0 b1 buf h
    have ih' : b ≠ 60 → ∀ {ent : Option Bytes} {b0 b1 : UInt8} {buf : Bytes}, textLoop fin none false bs ent b0 b1 buf = .ok (t, r) →
        ∃ c, b :: bs = c ++ r ∧ (60 : UInt8) ∉ c ∧ (r = [] ∨ r.head? = some 60) := by
      intro hb ent b0 b1 buf h
      obtain ⟨c, h1, h2, h3⟩ := ih h
      exact ⟨b :: c, by rw [h1]; rfl, by simp [h2, Ne.symm hb], h3⟩
    cases ent with
    | none =>
      unfold textLoop at h
      split at h
      · rw [if_neg (by decide)] at h; cases h
      split at h
      · rename_i hb
        rw [if_pos rfl] at h
        cases h
        exact ⟨[], rfl, by simp, .inr (by simp [hb.1])⟩
      rename_i hb
      have hb : b ≠ 60 := fun e => hb ⟨e, rfl⟩
      split at h
      · rename_i hq; cases hq
      split at h
      · exact ih' hb h
      split at h
      · exact ih' hb h
      split at h
      · exact ih' hb h
      · exact ih' hb h
    | some x =>
      unfold textLoop at h
      split at h
      · rename_i he
        exact ih' (fun e => by rw [e, entByte_open] at he; cases he) h
      split at h
      · rename_i hb
        split at h
        · exact ih' (by rw [hb]; decide) h
        · cases h
      · cases h

theorem xmlText_ok {fin : GoErr} {q : Option UInt8} {cdata : Bool} {bs t r : Bytes} (h : xmlText fin q cdata bs = .ok (t, r)) :
    ∃ u, textLoop fin q cdata bs none 0 0 [] = .ok (u, r) := by
  unfold xmlText at h
  split at h
  · cases h
  · split at h
    · rename_i h' _; cases h; exact ⟨_, h'⟩
    · cases h

theorem piLoop_ok {fin : GoErr} {t r : Bytes} : ∀ {bs : Bytes} {b0 : UInt8} {buf : Bytes}, piLoop fin bs b0 buf = .ok (t, r) →
    62 :: r <:+ bs := by
  intro bs
  induction bs with
  | nil => intro b0 buf h; cases h
  | cons b bs ih =>
    intro b0 buf h
    unfold piLoop at h
    split at h
    · rename_i hb; cases h; rw [hb.2]
    · exact (ih h).trans (List.suffix_cons _ _)

theorem commentLoop_ok {fin : GoErr} {r : Bytes} : ∀ {bs : Bytes} {b0 b1 : UInt8}, commentLoop fin bs b0 b1 = .ok r →
    62 :: r <:+ bs := by
  intro bs
  induction bs with
  | nil => intro b0 b1 h; cases h
  | cons b bs ih =>
    intro b0 b1 h
    unfold commentLoop at h
    split at h
    · split at h
      · rename_i hb; cases h; rw [hb]
      · cases h
    · exact (ih h).trans (List.suffix_cons _ _)

theorem dirLoop_ok {fin : GoErr} {r : Bytes} : ∀ {bs : Bytes} {m : DirMode} {q : Option UInt8} {depth : Nat},
    dirLoop fin bs m q depth = .ok r → 62 :: r <:+ bs := by
  intro bs
  induction bs with
  | nil => intro m q depth h; unfold dirLoop at h; cases h
  | cons b bs ih =>
    intro m q depth h
    cases m with
    | plain =>
      unfold dirLoop at h
      split at h
      · rename_i hb; cases h; rw [hb.2.1]
      · exact (ih h).trans (List.suffix_cons _ _)
    | «open» n =>
      unfold dirLoop at h
      split at h <;> exact (ih h).trans (List.suffix_cons _ _)
    | comment b0 b1 =>
      unfold dirLoop at h
      split at h <;> exact (ih h).trans (List.suffix_cons _ _)

theorem attrsLoop_ok {T : XmlTables} {fin : GoErr} {as' : List (Bytes × Bytes)} {em : Bool} {r : Bytes} : ∀ {n : Nat} {bs : Bytes}
    {as : List (Bytes × Bytes)}, attrsLoop T fin n bs as = .ok (as', em, r) → 62 :: r <:+ bs := by
  intro n
  induction n with
  | zero => intro bs as h; cases h
  | succ n ih =>
    intro bs as h
    unfold attrsLoop at h
    split at h
    · cases h
    rename_i b rest hsp
    have hs : b :: rest <:+ bs := by rw [← hsp]; exact xmlSpace_suffix bs
    split at h
    · split at h
      · cases h
      · split at h
        · rename_i hc
          cases h
          rw [hc] at hs
          exact (List.suffix_cons _ _).trans hs
        · cases h
    split at h
    · rename_i hb
      cases h
      rw [hb] at hs
      exact hs
    split at h
    · cases h
    rename_i hn
    have hs := (xmlNsName_suffix hn).trans hs
    split at h
    · cases h
    rename_i hsp2
    have hs := (hsp2 ▸ xmlSpace_suffix _).trans hs
    split at h
    · cases h
    split at h
    · cases h
    rename_i hsp3
    have hs := (hsp3 ▸ xmlSpace_suffix _).trans ((List.suffix_cons _ _).trans hs)
    split at h
    · split at h
      · cases h
      · rename_i ht
        obtain ⟨u, hu⟩ := xmlText_ok ht
        exact (ih h).trans ((textLoop_suffix hu).trans ((List.suffix_cons _ _).trans hs))
    · cases h

/-- Markup ends with `>`. -/
theorem rawToken_markup {T : XmlTables} {fin : GoErr} {bs r : Bytes} {ts : List Tok} (h : rawToken T fin (60 :: bs) = .ok (ts, r)) :
    62 :: r <:+ bs := by
  unfold rawToken at h
  split at h
  · cases h
  · rename_i heq
    cases heq
    refine List.IsSuffix.trans ?_ (List.suffix_cons _ _)
    unfold xmlStop at h
    split at h
    · cases h
    · rename_i hn
      split at h
      · cases h
      · rename_i hsp
        split at h
        · rename_i hb
          cases h
          rw [hb] at hsp
          exact (hsp ▸ xmlSpace_suffix _).trans (xmlNsName_suffix hn)
        · cases h
  · rename_i heq
    cases heq
    refine List.IsSuffix.trans ?_ (List.suffix_cons _ _)
    split at h
    · cases h
    · rename_i h'
      cases h
      unfold xmlProcInst at h'
      split at h'
      · cases h'
      · rename_i hn
        split at h'
        · cases h'
        · rename_i hp
          split at h'
          · cases h'
          · cases h'
            exact (piLoop_ok hp).trans ((xmlSpace_suffix _).trans (xmlName_suffix hn))
  · rename_i heq
    cases heq
    refine List.IsSuffix.trans ?_ (List.suffix_cons _ _)
    unfold xmlBang at h
    split at h
    · cases h
    · cases h
    · split at h
      · split at h
        · cases h
        · rename_i hc
          cases h
          exact (commentLoop_ok hc).trans ((List.suffix_cons _ _).trans (List.suffix_cons _ _))
      · cases h
    · split at h
      · split at h
        · cases h
        · rename_i ht
          cases h
          obtain ⟨u, hu⟩ := xmlText_ok ht
          exact (textLoop_cdata hu).trans ((List.drop_suffix _ _).trans (List.suffix_cons _ _))
      · split at h <;> cases h
    · split at h
      · cases h
      · rename_i hd
        cases h
        exact (dirLoop_ok hd).trans (List.suffix_cons _ _)
  · rename_i heq
    cases heq
    unfold xmlStart at h
    split at h
    · cases h
    · rename_i hn
      split at h
      · cases h
      · rename_i ha
        cases h
        exact (attrsLoop_ok ha).trans (xmlNsName_suffix hn)
  · rename_i h1 h2 h3 h4 h5
    exact absurd rfl (h5 bs)

/-- A token does not go over a `<` after which there is no `>`. -/
theorem rawToken_keeps {T : XmlTables} {fin : GoErr} {bs r pre rest : Bytes} {ts : List Tok} (h : rawToken T fin bs = .ok (ts, r))
    (hb : bs = pre ++ 60 :: rest) (hr : (62 : UInt8) ∉ rest) : ∃ pre', r = pre' ++ 60 :: rest := by
  by_cases h60 : ∃ c, bs = 60 :: c
  · obtain ⟨c, rfl⟩ := h60
    obtain ⟨x, hx⟩ := rawToken_markup h
    have hb' : (60 :: x) ++ 62 :: r = pre ++ 60 :: rest := by rw [← hb, List.cons_append, hx]
    have hb'' : (60 :: x ++ [62]) ++ r = pre ++ 60 :: rest := by simpa using hb'
    rcases List.append_eq_append_iff.1 hb'' with ⟨y, h1, h2⟩ | ⟨y, h1, h2⟩
    · exact ⟨y, h2⟩
    · cases y with
      | nil => exact ⟨[], by simpa using h2.symm⟩
      | cons z y =>
        exfalso
        simp only [List.cons_append, List.cons.injEq] at h2
        have h3 : (60 :: x ++ [62]).getLast? = (pre ++ z :: y).getLast? := by rw [h1]
        rw [List.getLast?_append, List.getLast?_append] at h3
        cases y with
        | nil =>
          simp only [List.getLast?_singleton, Option.some_or, Option.some.injEq] at h3
          rw [← h2.1] at h3
          exact absurd h3 (by decide)
        | cons u y =>
          have h4 : (62 : UInt8) ∈ u :: y := by
            rw [List.getLast?_cons_cons] at h3
            rw [List.getLast?_eq_some_getLast (l := u :: y) (by simp)] at h3
            simp only [List.getLast?_singleton, Option.some_or, Option.some.injEq] at h3
            rw [h3]
            exact List.getLast_mem _
          exact hr (by rw [h2.2]; exact List.mem_append_left _ h4)
  · have : rawToken T fin bs = (match xmlText fin none false bs with
      | .error e => .error e
      | .ok (t, rest) => .ok ([.chars t], rest)) := by
      unfold rawToken
      split <;> first | rfl | exact absurd ⟨_, rfl⟩ h60
    rw [this] at h
    split at h
    · cases h
    · rename_i ht
      cases h
      obtain ⟨u, hu⟩ := xmlText_ok ht
      obtain ⟨c, h1, h2, h3⟩ := textLoop_text hu
      rw [hb] at h1
      rcases List.append_eq_append_iff.1 h1 with ⟨y, h4, h5⟩ | ⟨y, h4, h5⟩
      · cases y with
        | nil => exact ⟨[], by simpa using h5.symm⟩
        | cons z y =>
          exfalso
          simp only [List.cons_append, List.cons.injEq] at h5
          exact h2 (by rw [h4, ← h5.1]; simp)
      · exact ⟨y, h5⟩

/-- A text that ends inside markup is not read to its end without an error. -/
theorem xmlTokens_open {T : XmlTables} {fin : GoErr} : ∀ (n : Nat) (pre rest : Bytes), (62 : UInt8) ∉ rest →
    (xmlTokens T fin n (pre ++ 60 :: rest)).2 ≠ .eof := by
  intro n
  induction n with
  | zero => intro pre rest hr h; cases h
  | succ n ih =>
    intro pre rest hr
    generalize hbs : pre ++ 60 :: rest = bs
    cases bs with
    | nil => simp at hbs
    | cons b bs =>
      unfold xmlTokens
      split
      · rename_i h'; exact rawToken_err h'
      · rename_i h'
        obtain ⟨pre', rfl⟩ := rawToken_keeps h' hbs.symm hr
        exact ih _ _ hr

end Grate.Xlsx
