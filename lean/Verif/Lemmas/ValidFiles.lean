import Verif.Lemmas.ValidUtf8
import Verif.Model.GoXml
import Verif.Model.Open

/-! # Lemmas: the text in the files that are read is valid UTF-8 (C129) -/

namespace Grate.Valid

open Grate Grate.Spec Grate.Xlsx

/-! ### UTF-16 -/

theorem utf8Rune_ok (r : Nat) : ValidUtf8 (utf8Rune r) := by
  by_cases h : Scalar r
  · rw [← utf8_one r h]; exact rune h
  · have : utf8Rune r = utf8Rune 0xFFFD := by
      unfold Scalar at h
      unfold utf8Rune
      rw [if_neg (by omega), if_neg (by omega), if_pos (by omega)]
      rfl
    rw [this, ← utf8_one 0xFFFD (by unfold Scalar; omega)]
    exact rune (by unfold Scalar; omega)

theorem utf8Encode_ok : ∀ (rs : List Nat), ValidUtf8 (utf8Encode rs)
  | [] => nil
  | r :: rs => append (utf8Rune_ok r) (utf8Encode_ok rs)

theorem u16_ok (us : List Nat) : ValidUtf8 (Xls.u16str us) := utf8Encode_ok _

/-! ### XML -/

/-- The second byte of a sequence. -/
theorem secondOk_ok {b b1 : UInt8} (h : secondOk b b1 = true) : 0x80 ≤ b1.toNat ∧ b1.toNat ≤ 0xBF ∧ (b.toNat = 0xE0 → 0xA0 ≤ b1.toNat) ∧
    (b.toNat = 0xED → b1.toNat ≤ 0x9F) ∧ (b.toNat = 0xF0 → 0x90 ≤ b1.toNat) ∧ (b.toNat = 0xF4 → b1.toNat ≤ 0x8F) := by
  have hn : ∀ k : UInt8, b ≠ k → b.toNat ≠ k.toNat := fun k h e => h (UInt8.toNat_inj.1 e)
  have n0 : (0xE0 : UInt8).toNat = 0xE0 := rfl
  have n1 : (0xED : UInt8).toNat = 0xED := rfl
  have n2 : (0xF0 : UInt8).toNat = 0xF0 := rfl
  have n3 : (0xF4 : UInt8).toNat = 0xF4 := rfl
  have n4 : (0xA0 : UInt8).toNat = 0xA0 := rfl
  have n5 : (0xBF : UInt8).toNat = 0xBF := rfl
  have n6 : (0x80 : UInt8).toNat = 0x80 := rfl
  have n7 : (0x9F : UInt8).toNat = 0x9F := rfl
  have n8 : (0x90 : UInt8).toNat = 0x90 := rfl
  have n9 : (0x8F : UInt8).toNat = 0x8F := rfl
  unfold secondOk at h
  by_cases h0 : b = 0xE0
  · rw [if_pos h0, inRange_iff] at h; subst h0; omega
  rw [if_neg h0] at h
  by_cases h1 : b = 0xED
  · rw [if_pos h1, inRange_iff] at h; subst h1; omega
  rw [if_neg h1] at h
  by_cases h2 : b = 0xF0
  · rw [if_pos h2, inRange_iff] at h; subst h2; omega
  rw [if_neg h2] at h
  by_cases h3 : b = 0xF4
  · rw [if_pos h3, inRange_iff] at h; subst h3; omega
  rw [if_neg h3, inRange_iff] at h
  have := hn _ h0
  have := hn _ h1
  have := hn _ h2
  have := hn _ h3
  omega

/-- A rune that is decoded is that of the bytes. -/
theorem decode_ok (b : UInt8) (rest : Bytes) (h : ¬ ((decodeRune b rest).1 = 0xFFFD ∧ (decodeRune b rest).2 = 1)) :
    ∃ t rest', rest = t ++ rest' ∧ t.length = (decodeRune b rest).2 - 1 ∧ ValidUtf8 (b :: t) := by
  have hv : ∀ r, Scalar r → ∀ l, utf8Rune r = l → ValidUtf8 l := fun r hr l e => by
    rw [← e]; exact utf8Rune_ok r
  have e8 : ∀ (n : Nat) (x : UInt8), x.toNat = n → UInt8.ofNat n = x := by
    intro n x e; rw [← e]; simp
  by_cases h1 : b.toNat < 128
  · refine ⟨[], rest, rfl, ?_, byte h1⟩
    unfold decodeRune
    rw [if_pos (by exact h1)]
    rfl
  · have h1' : ¬ b < 0x80 := h1
    unfold decodeRune at h ⊢
    rw [if_neg h1'] at h ⊢
    have hb := b.toNat_lt
    by_cases h2 : inRange 0xC2 0xDF b = true
    · rw [if_pos h2] at h ⊢
      rw [inRange_iff] at h2
      cases rest with
      | nil => simp at h
      | cons b1 rest =>
        simp only at h ⊢
        by_cases hs : secondOk b b1 = true
        · rw [if_pos hs]
          have hs' : 0x80 ≤ b1.toNat ∧ b1.toNat ≤ 0xBF := by
                have := secondOk_ok hs
                omega
          simp at h2
          refine ⟨[b1], rest, rfl, rfl, hv ((b.toNat - 0xC0) * 64 + (b1.toNat - 0x80)) (by unfold Scalar; omega) _ ?_⟩
          unfold utf8Rune
          rw [if_neg (by omega), if_pos (by omega), e8 _ b (by omega), e8 _ b1 (by omega)]
        · rw [if_neg hs] at h; simp at h
    · rw [if_neg h2] at h ⊢
      by_cases h3 : inRange 0xE0 0xEF b = true
      · rw [if_pos h3] at h ⊢
        rw [inRange_iff] at h3
        match rest with
        | [] => simp at h
        | [_] => simp at h
        | b1 :: b2 :: rest =>
          simp only at h ⊢
          by_cases hs : (secondOk b b1 && inRange 0x80 0xBF b2) = true
          · rw [if_pos hs]
            rw [Bool.and_eq_true, inRange_iff] at hs
            obtain ⟨hs, h5⟩ := hs
            simp at h3 h5
            have hs' : 0x80 ≤ b1.toNat ∧ b1.toNat ≤ 0xBF ∧ (b.toNat = 0xE0 → 0xA0 ≤ b1.toNat) ∧ (b.toNat = 0xED → b1.toNat ≤ 0x9F) := by
                have := secondOk_ok hs
                omega
            refine ⟨[b1, b2], rest, rfl, rfl,
              hv ((b.toNat - 0xE0) * 4096 + (b1.toNat - 0x80) * 64 + (b2.toNat - 0x80)) (by unfold Scalar; omega) _ ?_⟩
            unfold utf8Rune
            rw [if_neg (by omega), if_neg (by omega), if_neg (by omega), if_pos (by omega), e8 _ b (by omega), e8 _ b1 (by omega),
              e8 _ b2 (by omega)]
          · rw [if_neg hs] at h; simp at h
      · rw [if_neg h3] at h ⊢
        by_cases h4 : inRange 0xF0 0xF4 b = true
        · rw [if_pos h4] at h ⊢
          rw [inRange_iff] at h4
          match rest with
          | [] => simp at h
          | [_] => simp at h
          | [_, _] => simp at h
          | b1 :: b2 :: b3 :: rest =>
            simp only at h ⊢
            by_cases hs : (secondOk b b1 && inRange 0x80 0xBF b2 && inRange 0x80 0xBF b3) = true
            · rw [if_pos hs]
              rw [Bool.and_eq_true, Bool.and_eq_true, inRange_iff, inRange_iff] at hs
              obtain ⟨⟨hs, h5⟩, h6⟩ := hs
              simp at h4 h5 h6
              have hs' : 0x80 ≤ b1.toNat ∧ b1.toNat ≤ 0xBF ∧ (b.toNat = 0xF0 → 0x90 ≤ b1.toNat) ∧ (b.toNat = 0xF4 → b1.toNat ≤ 0x8F) := by
                have := secondOk_ok hs
                omega
              refine ⟨[b1, b2, b3], rest, rfl, rfl,
                hv ((b.toNat - 0xF0) * 262144 + (b1.toNat - 0x80) * 4096 + (b2.toNat - 0x80) * 64 + (b3.toNat - 0x80))
                  (by unfold Scalar; omega) _ ?_⟩
              unfold utf8Rune
              rw [if_neg (by omega), if_neg (by omega), if_neg (by omega), if_neg (by omega), e8 _ b (by omega), e8 _ b1 (by omega),
                e8 _ b2 (by omega), e8 _ b3 (by omega)]
            · rw [if_neg hs] at h; simp at h
        · rw [if_neg h4] at h; simp at h

theorem charsOk_ok : ∀ (n : Nat) (s : Bytes), s.length ≤ n → charsOk 0 s = true → ValidUtf8 s
  | _, [], _, _ => nil
  | 0, _ :: _, h, _ => by simp at h
  | n + 1, b :: rest, hl, h => by
    simp only [List.length_cons] at hl
    rw [charsOk, Bool.and_eq_true, Bool.and_eq_true] at h
    obtain ⟨⟨h1, -⟩, h3⟩ := h
    obtain ⟨t, rest', rfl, hlen, hv⟩ := decode_ok b rest (by
      intro hx
      simp [hx.1, hx.2] at h1)
    rw [← hlen, charsOk_skip] at h3
    simp only [List.length_append] at hl
    rw [← List.cons_append]
    exact append hv (charsOk_ok n rest' (by omega) h3)

theorem xmlText_ok {fin : GoErr} {q : Option UInt8} {cd : Bool} {bs t rest : Bytes} (e : xmlText fin q cd bs = .ok (t, rest)) :
    ValidUtf8 t := by
  unfold xmlText at e
  split at e
  · simp at e
  · split at e
    · rename_i h
      simp only [Except.ok.injEq, Prod.mk.injEq] at e
      rw [← e.1]
      exact charsOk_ok _ _ (Nat.le_refl _) h
    · simp at e

/-- The text and the values of attributes in a token. -/
def TokOk : Tok → Prop
  | .chars t => ValidUtf8 t
  | .start _ attrs => ∀ a ∈ attrs, ValidUtf8 a.2
  | _ => True

theorem attrsLoop_ok (T : XmlTables) (fin : GoErr) : ∀ (n : Nat) (bs : Bytes) (attrs : List (Bytes × Bytes)) (r),
    (∀ a ∈ attrs, ValidUtf8 a.2) → attrsLoop T fin n bs attrs = .ok r → ∀ a ∈ r.1, ValidUtf8 a.2
  | 0, _, _, _, _, e => by simp [attrsLoop] at e
  | n + 1, bs, attrs, r, h, e => by
    unfold attrsLoop at e
    split at e
    · simp at e
    · split at e
      · split at e
        · simp at e
        · split at e
          · simp only [Except.ok.injEq] at e; subst e; exact h
          · simp at e
      · split at e
        · simp only [Except.ok.injEq] at e; subst e; exact h
        · split at e
          · simp at e
          · split at e
            · simp at e
            · split at e
              · simp at e
              · split at e
                · simp at e
                · split at e
                  · split at e
                    · simp at e
                    · rename_i hx
                      refine attrsLoop_ok T fin n _ _ r ?_ e
                      intro a ha
                      rcases List.mem_append.1 ha with ha | ha
                      · exact h a ha
                      · rw [List.mem_singleton] at ha; subst ha; exact xmlText_ok hx
                  · simp at e

theorem rawToken_ok (T : XmlTables) (fin : GoErr) (bs : Bytes) (r) (e : rawToken T fin bs = .ok r) : ∀ t ∈ r.1, TokOk t := by
  have one : ∀ t : Tok, TokOk t → ∀ x ∈ [t], TokOk x := fun t h x hx => by rw [List.mem_singleton] at hx; subst hx; exact h
  have text : ∀ q cd b r, (match xmlText fin q cd b with | .error e => Except.error e | .ok (t, rest) => .ok ([Tok.chars t], rest)) = .ok r →
      ∀ t ∈ r.1, TokOk t := by
    intro q cd b r e
    split at e
    · simp at e
    · rename_i h
      simp only [Except.ok.injEq] at e; subst e
      exact one _ (xmlText_ok h)
  unfold rawToken at e
  split at e
  · simp at e
  · unfold xmlStop at e
    split at e
    · simp at e
    · split at e
      · simp at e
      · split at e
        · simp only [Except.ok.injEq] at e; subst e; exact one _ trivial
        · simp at e
  · split at e
    · simp at e
    · simp only [Except.ok.injEq] at e; subst e; exact one _ trivial
  · unfold xmlBang at e
    split at e
    · simp at e
    · simp at e
    · split at e
      · split at e
        · simp at e
        · simp only [Except.ok.injEq] at e; subst e; exact one _ trivial
      · simp at e
    · split at e
      · exact text _ _ _ _ e
      · split at e <;> simp at e
    · split at e
      · simp at e
      · simp only [Except.ok.injEq] at e; subst e; exact one _ trivial
  · unfold xmlStart at e
    split at e
    · simp at e
    · split at e
      · simp at e
      · rename_i h
        simp only [Except.ok.injEq] at e; subst e
        have ha := attrsLoop_ok T fin _ _ _ _ (fun a ha => by simp at ha) h
        intro t ht
        simp only at ht
        split at ht
        · simp only [List.mem_cons, List.not_mem_nil, or_false] at ht
          rcases ht with rfl | rfl
          · exact ha
          · trivial
        · simp only [List.mem_cons, List.not_mem_nil, or_false] at ht
          subst ht
          exact ha
  · exact text _ _ _ _ e

theorem tokens_ok (T : XmlTables) (fin : GoErr) : ∀ (n : Nat) (bs : Bytes), ∀ t ∈ (xmlTokens T fin n bs).1, TokOk t
  | 0, _, t, h => by simp [xmlTokens] at h
  | n + 1, [], t, h => by simp [xmlTokens] at h
  | n + 1, b :: rest, t, h => by
    rw [xmlTokens] at h
    split at h
    · simp at h
    · rename_i e
      rcases List.mem_append.1 h with h | h
      · exact rawToken_ok T fin _ _ e t h
      · exact tokens_ok T fin n _ t h

/-- All tokens of an archive. -/
def ArchOk (a : Archive) : Prop := ∀ x ∈ a, ∀ p, x.2 = .ok p → ∀ t ∈ p.toks, TokOk t

theorem archive_ok (T : XmlTables) (z : Files) : ArchOk (z.archive T) := by
  intro x hx p hp
  unfold Files.archive at hx
  obtain ⟨y, _, rfl⟩ := List.mem_map.1 hx
  simp only at hp
  cases hy : y.2 with
  | error e => rw [hy] at hp; simp [Except.map] at hp
  | ok c =>
    rw [hy] at hp
    simp only [Except.map, Except.ok.injEq] at hp
    subst hp
    exact tokens_ok T _ _ _

theorem openXML_ok {a : Archive} (h : ArchOk a) {n : Bytes} {p : Part} (e : openXML a n = .ok p) : ∀ t ∈ p.toks, TokOk t := by
  induction a with
  | nil => simp [openXML] at e
  | cons x a ih =>
    obtain ⟨m, y⟩ := x
    rw [openXML] at e
    split at e
    · exact h (m, y) (by simp) p e
    · exact ih (fun x hx => h x (by simp [hx])) e

theorem openPart_ok {a : Archive} (h : ArchOk a) {n : Bytes} {p : Part} (e : openPart a n = .ok p) : ∀ t ∈ p.toks, TokOk t := by
  unfold openPart at e
  split at e
  · rename_i he; simp only [GoRes.ok.injEq] at e; subst e; exact openXML_ok h he
  · simp at e

theorem attr_ok {attrs : List (Bytes × Bytes)} (h : ∀ a ∈ attrs, ValidUtf8 a.2) (k : Bytes) : ValidUtf8 (attr attrs k) := by
  unfold attr
  have : ∀ (l : List (Bytes × Bytes)) (r : Bytes), (∀ a ∈ l, ValidUtf8 a.2) → ValidUtf8 r →
      ValidUtf8 (l.foldl (fun res a => if a.1 = k then a.2 else res) r) := by
    intro l
    induction l with
    | nil => intro r _ hr; exact hr
    | cons a l ih =>
      intro r hl hr
      rw [List.foldl_cons]
      exact ih _ (fun x hx => hl x (by simp [hx])) (ite_ok (hl a (by simp)) hr)
  exact this attrs [] h nil

theorem attr?_ok {attrs : List (Bytes × Bytes)} (h : ∀ a ∈ attrs, ValidUtf8 a.2) {k v : Bytes} (e : attr? attrs k = some v) : ValidUtf8 v := by
  unfold attr? at e
  have : ∀ (l : List (Bytes × Bytes)) (r : Option Bytes), (∀ a ∈ l, ValidUtf8 a.2) → (∀ x, r = some x → ValidUtf8 x) →
      ∀ x, l.foldl (fun res a => if a.1 = k then some a.2 else res) r = some x → ValidUtf8 x := by
    intro l
    induction l with
    | nil => intro r _ hr; exact hr
    | cons a l ih =>
      intro r hl hr
      rw [List.foldl_cons]
      refine ih _ (fun x hx => hl x (by simp [hx])) (fun x hx => ?_)
      split at hx
      · simp only [Option.some.injEq] at hx; subst hx; exact hl a (by simp)
      · exact hr x hx
  exact this attrs none h (fun x hx => by simp at hx) v e

/-! ### Sheets -/

/-- The text in a value for a cell. -/
def GoValOk : GoVal → Prop
  | .str s => ValidUtf8 s
  | .bytes s => ValidUtf8 s
  | .stringer s => ValidUtf8 s
  | _ => True

/-- The text in a value. -/
def ValOk (v : Val) : Prop := ∀ t, v = .str t → ValidUtf8 t

/-- The text in a cell. -/
def CellOk : Cell → Prop
  | .empty => True
  | .full v _ _ us => ValOk v ∧ ∀ u ∈ us, ValidUtf8 u

/-- All formatting functions of a formatter. -/
def FmtrOk (f : Formatter) : Prop := ∀ id g, f.codes id = some g → FmtOk g

/-- The text in a sheet. -/
structure SheetOk (s : Sheet) : Prop where
  fmtr : FmtrOk s.fmtr
  cells : ∀ r ∈ s.rows, ∀ c ∈ r, CellOk c

theorem valOk_other {v : Val} (h : ∀ t, v ≠ .str t) : ValOk v := fun t e => absurd e (h t)

theorem textCell_ok {s : Bytes} (h : ValidUtf8 s) : CellOk (textCell s) := by
  unfold textCell
  split
  · exact ⟨valOk_other (by simp), by simp⟩
  · exact ⟨fun t e => by simp only [Val.str.injEq] at e; subst e; exact h, by simp⟩

theorem newCell_ok {v : GoVal} (h : GoValOk v) {c : Cell} (e : newCell v = .ok c) : CellOk c := by
  have flat : ∀ (x : Val) ty, (∀ t, x ≠ .str t) → newCell v = .ok (.full x ty none []) → CellOk c := by
    intro x ty hx hn
    rw [hn] at e
    simp only [GoRes.ok.injEq] at e
    subst e
    exact ⟨valOk_other hx, by simp⟩
  cases v with
  | bool b => exact flat _ _ (by simp) rfl
  | sint n => exact flat _ _ (by simp) rfl
  | usmall n => exact flat _ _ (by simp) rfl
  | uint n =>
    simp only [newCell] at e
    split at e <;> simp only [GoRes.ok.injEq] at e <;> subst e <;> exact ⟨valOk_other (by simp), by simp⟩
  | uint64 n =>
    simp only [newCell] at e
    split at e <;> simp only [GoRes.ok.injEq] at e <;> subst e <;> exact ⟨valOk_other (by simp), by simp⟩
  | f32 x => exact flat _ _ (by simp) rfl
  | f64 x => exact flat _ _ (by simp) rfl
  | str s => simp only [newCell, GoRes.ok.injEq] at e; subst e; exact textCell_ok h
  | bytes s => simp only [newCell, GoRes.ok.injEq] at e; subst e; exact textCell_ok h
  | utf16 us =>
    simp only [newCell, GoRes.ok.injEq] at e
    subst e
    split
    · exact ⟨valOk_other (by simp), by simp⟩
    · exact ⟨fun t e => by simp only [Val.str.injEq] at e; subst e; exact utf8Encode_ok _, by simp⟩
  | runes rs =>
    simp only [newCell, GoRes.ok.injEq] at e
    subst e
    split
    · exact ⟨valOk_other (by simp), by simp⟩
    · exact ⟨fun t e => by simp only [Val.str.injEq] at e; subst e; exact utf8Encode_ok _, by simp⟩
  | time t => exact flat _ _ (by simp) rfl
  | stringer s => simp only [newCell, GoRes.ok.injEq] at e; subst e; exact textCell_ok h
  | other => simp [newCell] at e

theorem str_ok {s : Bytes} (h : ValidUtf8 s) : ValOk (.str s) := fun t e => by
  simp only [Val.str.injEq] at e; subst e; exact h

theorem coerceBool_ok (t : CellType) (v : Val) (ty : CellType) (h : ValOk v) : ValOk (coerceBool t v ty).1 := by
  unfold coerceBool
  split
  · split
    · exact valOk_other (by simp)
    · exact valOk_other (by simp)
    · exact str_ok (ite_ok (ascii (lit_ascii (by decide +kernel))) (ascii (lit_ascii (by decide +kernel))))
    · exact h
  · exact h

theorem coerceFloat_ok (t : CellType) (v : Val) (ty : CellType) (h : ValOk v) : ValOk (coerceFloat t v ty).1 := by
  unfold coerceFloat
  split
  · split
    · exact valOk_other (by simp)
    · exact valOk_other (by simp)
    · exact h
  · exact h

theorem coerceInt_ok (t : CellType) (v : Val) (ty : CellType) (h : ValOk v) : ValOk (coerceInt t v ty).1 := by
  unfold coerceInt
  split
  · split
    · exact valOk_other (by simp)
    · exact valOk_other (by simp)
    · exact h
  · exact h

theorem coerceStr_ok (ext : Ext) (t : CellType) (v : Val) (ty : CellType) (h : ValOk v) : ValOk (coerceStr ext t v ty).1 := by
  unfold coerceStr
  split
  · split
    · exact valOk_other (by simp)
    · exact valOk_other (by simp)
    · exact valOk_other (by simp)
    · exact h
  · exact h

theorem coerceLast_ok {ext : Ext} (hp : PrintsText ext) (m : Bool) (t : CellType) (v : Val) (ty : CellType) (h : ValOk v) :
    ValOk (coerceLast ext m t v ty).1 := by
  unfold coerceLast
  split
  · exact str_ok (sprint_ok hp h)
  · split
    · exact valOk_other (by simp)
    · exact valOk_other (by simp)
    · exact h
  · exact h

theorem coerce_ok {ext : Ext} (hp : PrintsText ext) (m : Bool) (t : CellType) (v : Val) (ty : CellType) (h : ValOk v) :
    ValOk (coerce ext m t v ty).1 := by
  unfold coerce
  exact coerceLast_ok hp _ _ _ _ (coerceStr_ok _ _ _ _ (coerceInt_ok _ _ _ (coerceFloat_ok _ _ _ (coerceBool_ok _ _ _ h))))

theorem newCellWithType_ok {ext : Ext} (hp : PrintsText ext) (m : Bool) {v : GoVal} (h : GoValOk v) (t : CellType) {c : Cell}
    (e : newCellWithType ext m v t = .ok c) : CellOk c := by
  unfold newCellWithType at e
  rw [GoRes.bind_eq_ok] at e
  obtain ⟨c0, h0, e⟩ := e
  have hc := newCell_ok h h0
  cases c0 with
  | empty => simp only [GoRes.pure_eq, GoRes.ok.injEq] at e; subst e; trivial
  | full v ty f u =>
    simp only at e
    split at e
    · simp only [GoRes.pure_eq, GoRes.ok.injEq] at e; subst e; exact hc
    · simp only [GoRes.pure_eq, GoRes.ok.injEq] at e; subst e; exact ⟨coerce_ok hp m t v ty hc.1, hc.2⟩

theorem putCell_ok {ext : Ext} (hp : PrintsText ext) (f : Formatter) {v : GoVal} (h : GoValOk v) (n : Nat) {c : Cell}
    (e : putCell ext f v n = .ok c) : CellOk c := by
  unfold putCell at e
  cases hm : v.marker with
  | true =>
    rw [hm, cond_true] at e
    unfold staticCell at e
    rw [GoRes.bind_eq_ok] at e
    obtain ⟨c0, h0, e⟩ := e
    have hc := newCell_ok h h0
    cases c0 with
    | empty => simp at e
    | full v ty g u => simp only [GoRes.pure_eq, GoRes.ok.injEq] at e; subst e; exact hc
  | false =>
    rw [hm, cond_false, GoRes.bind_eq_ok] at e
    obtain ⟨c0, h0, e⟩ := e
    have hc : CellOk c0 := by
      unfold typedCell at h0
      split at h0
      · exact newCell_ok h h0
      · split at h0
        · exact newCell_ok h h0
        · exact newCellWithType_ok hp _ h _ h0
    cases c0 with
    | empty => simp [Cell.setFormatNumber] at e
    | full v ty g u =>
      simp only [Cell.setFormatNumber] at e
      split at e <;> simp only [GoRes.ok.injEq] at e <;> subst e
      · exact ⟨hc.1, by simp⟩
      · exact hc

theorem new_ok {f : Formatter} (h : FmtrOk f) : SheetOk (Sheet.new f) := ⟨h, by simp [Sheet.new]⟩

theorem extendRows_ok (rows cols : Int) : ∀ (i : Nat) (rs : List (List Cell)), (∀ r ∈ rs, ∀ c ∈ r, CellOk c) →
    ∀ r ∈ extendRows rows cols i rs, ∀ c ∈ r, CellOk c
  | _, [], _, r, hr => by simp [extendRows] at hr
  | i, x :: rs, h, r, hr => by
    rw [extendRows] at hr
    split at hr
    · exact h r hr
    · rcases List.mem_cons.1 hr with rfl | hr
      · intro c hc
        unfold extendRow at hc
        simp only at hc
        split at hc
        · exact h x (by simp) c hc
        · rcases List.mem_append.1 hc with hc | hc
          · exact h x (by simp) c hc
          · rw [List.eq_of_mem_replicate hc]; trivial
      · exact extendRows_ok rows cols (i + 1) rs (fun y hy => h y (by simp [hy])) r hr

theorem resize_ok {s : Sheet} (h : SheetOk s) (rows cols : Int) : SheetOk (s.resize rows cols) := by
  refine ⟨h.fmtr, fun r hr c hc => ?_⟩
  unfold Sheet.resize at hr
  simp only at hr
  rcases List.mem_append.1 hr with hr | hr
  · exact extendRows_ok rows cols 0 _ h.cells r hr c hc
  · rw [List.eq_of_mem_replicate hr] at hc
    rw [List.eq_of_mem_replicate hc]
    trivial

theorem cell?_ok {s : Sheet} (h : SheetOk s) {row col : Int} {c : Cell} (e : s.cell? row col = some c) : CellOk c := by
  unfold Sheet.cell? at e
  split at e
  · split at e
    · rename_i r hr
      exact h.cells r (List.mem_of_getElem? hr) c (List.mem_of_getElem? e)
    · simp at e
  · simp at e

theorem store_ok {s s' : Sheet} (h : SheetOk s) {row col : Int} {c : Cell} (hc : CellOk c) (e : s.store row col c = .ok s') : SheetOk s' := by
  unfold Sheet.store at e
  split at e
  · simp at e
  · simp only [GoRes.ok.injEq] at e
    subst e
    refine ⟨h.fmtr, fun r hr d hd => ?_⟩
    simp only at hr
    obtain ⟨i, hi⟩ := List.mem_iff_getElem?.1 hr
    rw [List.getElem?_modify] at hi
    simp only [Option.map_eq_map, Option.map_eq_some_iff] at hi
    obtain ⟨x, hx, hxr⟩ := hi
    have hxm := List.mem_of_getElem? hx
    split at hxr
    · subst hxr
      rcases List.mem_or_eq_of_mem_set hd with hd | rfl
      · exact h.cells x hxm d hd
      · exact hc
    · subst hxr
      exact h.cells x hxm d hd

theorem put_ok {ext : Ext} (hp : PrintsText ext) {s s' : Sheet} (h : SheetOk s) {row col : Int} {v : GoVal} (hv : GoValOk v) {n : Nat}
    (e : s.put ext row col v n = .ok s') : SheetOk s' := by
  unfold Sheet.put at e
  rw [GoRes.bind_eq_ok] at e
  obtain ⟨c, hc, e⟩ := e
  refine store_ok ?_ (putCell_ok hp _ hv n hc) e
  unfold Sheet.grow
  simp only
  split
  · exact resize_ok h _ _
  · exact h

theorem set_ok {s s' : Sheet} (h : SheetOk s) {row col : Int} {v : Val} (hv : ValOk v) (e : s.set row col v = .ok s') : SheetOk s' := by
  unfold Sheet.set at e
  split at e
  · simp only [GoRes.ok.injEq] at e; subst e; exact h
  · split at e
    · rename_i hc
      have ho := cell?_ok h hc
      exact store_ok (c := .full v .string _ _) h ⟨hv, ho.2⟩ e
    · simp at e

theorem setURL_ok {s s' : Sheet} (h : SheetOk s) {row col : Int} {u : Bytes} (hu : ValidUtf8 u) (e : s.setURL row col u = .ok s') : SheetOk s' := by
  unfold Sheet.setURL at e
  split at e
  · simp only [GoRes.ok.injEq] at e; subst e; exact h
  · split at e
    · rename_i c hc
      rw [GoRes.bind_eq_ok] at e
      obtain ⟨c', hc', e⟩ := e
      refine store_ok h ?_ e
      have ho := cell?_ok h hc
      cases c with
      | empty => simp [Cell.setURL] at hc'
      | full v t f us =>
        cases f with
        | none => simp only [Cell.setURL, GoRes.ok.injEq] at hc'; subst hc'; exact ⟨ho.1, fun x hx => by rw [List.mem_singleton] at hx; subst hx; exact hu⟩
        | some n =>
          simp only [Cell.setURL, GoRes.ok.injEq] at hc'
          subst hc'
          refine ⟨ho.1, fun x hx => ?_⟩
          rcases List.mem_append.1 hx with hx | hx
          · exact ho.2 x hx
          · rw [List.mem_singleton] at hx; subst hx; exact hu
    · simp at e

theorem add_ok {f : Formatter} (h : FmtrOk f) (id : Nat) {code : Bytes} (hc : ValidUtf8 code) : FmtrOk (f.add makeFormatter id code).1 := by
  unfold Formatter.add
  have hu : ∀ g, FmtOk g → ∀ i x, upd f.codes id g i = some x → FmtOk x := by
    intro g hg i x hx
    unfold upd at hx
    split at hx
    · simp only [Option.some.injEq] at hx; subst hx; exact hg
    · exact h i x hx
  split
  · exact hu _ trivial
  · split
    · exact h
    · split
      · exact h
      · exact hu _ (makeFormatter_ok hc)

theorem newFmtr_ok : FmtrOk Formatter.new := fun id g e => by simp [Formatter.new] at e

/-! ### What is seen of a sheet -/

theorem next_ok {s : Sheet} (h : SheetOk s) : SheetOk s.next.1 := by
  unfold Sheet.next
  split
  · exact h
  · exact ⟨h.fmtr, h.cells⟩

theorem after_ok {s s' : Sheet} (h : SheetOk s) (ha : After s s') : SheetOk s' ∧ s'.fmtr = s.fmtr := by
  induction ha with
  | here => exact ⟨h, rfl⟩
  | next _ ih =>
    refine ⟨next_ok ih.1, ?_⟩
    unfold Sheet.next
    split
    · exact ih.2
    · exact ih.2

theorem row_ok {s : Sheet} (h : SheetOk s) {r : List Cell} (e : s.row = .ok r) : ∀ c ∈ r, CellOk c := by
  unfold Sheet.row at e
  split at e
  · split at e
    · rename_i hr
      simp only [GoRes.ok.injEq] at e; subst e
      exact h.cells _ (List.mem_of_getElem? hr)
    · simp at e
  · simp at e

theorem fillRow_mem {α : Type} {n : Int} {d : α} {cs r : List α} (e : fillRow n d cs = .ok r) : (∀ x ∈ r, x ∈ cs ∨ x = d) ∧ ∀ x ∈ cs, x ∈ r := by
  unfold fillRow at e
  split at e
  · simp only [GoRes.ok.injEq] at e
    subst e
    refine ⟨fun x hx => ?_, fun x hx => List.mem_append_left _ hx⟩
    rcases List.mem_append.1 hx with hx | hx
    · exact .inl hx
    · exact .inr (List.eq_of_mem_replicate hx)
  · simp at e

theorem cellOk_value {c : Cell} (h : CellOk c) : ValOk c.value := by
  cases c with
  | empty => exact fun t e => by simp only [Cell.value, Val.str.injEq] at e; subst e; exact nil
  | full v t f u => exact h.1

theorem scanRow_ok : ∀ (cs : List Cell) (ds : List SDest) (r), (∀ c ∈ cs, CellOk c) → (∀ d ∈ ds, DestValid d) → scanRow cs ds = .ok r →
    ∀ d ∈ r.1, DestValid d
  | _, [], r, _, _, e, d, hd => by
    simp only [scanRow, GoRes.ok.injEq] at e
    subst e
    simp at hd
  | [], _ :: _, r, _, _, e, d, hd => by simp [scanRow] at e
  | c :: cs, x :: ds, r, hc, hds, e, d, hd => by
    have hx : DestValid (scanCell c.value x).1 := by
      have h0 := hds x (by simp)
      have hv := cellOk_value (hc c (by simp))
      cases x with
      | str v =>
        simp only [scanCell]
        cases hcv : c.value with
        | str t => exact hv t hcv
        | _ => exact h0
      | bool v => simp only [scanCell]; split <;> trivial
      | int64 v => simp only [scanCell]; split <;> trivial
      | float v => simp only [scanCell]; split <;> trivial
      | time v => simp only [scanCell]; split <;> trivial
      | nonPointer => trivial
      | other => trivial
    rw [scanRow] at e
    split at e
    · rename_i d' er hs
      rw [hs] at hx
      simp only [GoRes.ok.injEq] at e
      subst e
      rcases List.mem_cons.1 hd with rfl | hd
      · exact hx
      · exact hds d (by simp [hd])
    · rename_i d' hs
      rw [hs] at hx
      rw [GoRes.bind_eq_ok] at e
      obtain ⟨r', hr', e⟩ := e
      simp only [GoRes.pure_eq, GoRes.ok.injEq] at e
      subst e
      rcases List.mem_cons.1 hd with rfl | hd
      · exact hx
      · exact scanRow_ok cs ds r' (fun c h => hc c (by simp [h])) (fun d h => hds d (by simp [h])) hr' d hd

/-- A text is valid, computed. -/
def validB (s : Bytes) : Bool := charsOk 0 s

theorem validB_ok {s : Bytes} (h : validB s = true) : ValidUtf8 s := charsOk_ok _ s (Nat.le_refl _) h

theorem typeName_ok (t : CellType) : ValidUtf8 t.name := by cases t <;> exact validB_ok (by decide +kernel)

/-- `FmtOk`, computed. -/
def fmtB : Fmt → Bool
  | .ident => true
  | .static s => validB s
  | .surround pre f post => validB pre && (fmtB f && validB post)
  | .negParens f => fmtB f
  | .commas (.sprintf v m) => fmtB (.sprintf v m)
  | .commas _ => false
  | .sprintf (.d _ suf) _ => suf.all (fun b => decide (b.toNat < 128))
  | .sprintf (.f text) _ => text.all (fun b => decide (b.toNat < 128))
  | .zeroDash f => fmtB f
  | .frac _ => true
  | .switch4 a b c d => fmtB a && (fmtB b && (fmtB c && fmtB d))
  | .time l => validB l
  | .cnTime l => validB l

theorem fmtB_ok : ∀ (f : Fmt), fmtB f = true → FmtOk f
  | .ident, _ => trivial
  | .static s, h => validB_ok h
  | .surround pre f post, h => by
    simp only [fmtB, Bool.and_eq_true] at h
    exact ⟨validB_ok h.1, fmtB_ok f h.2.1, validB_ok h.2.2⟩
  | .negParens f, h => fmtB_ok f h
  | .commas f, h => by
    cases f with
    | sprintf v m => exact ⟨fmtB_ok (.sprintf v m) h, v, m, rfl⟩
    | _ => simp [fmtB] at h
  | .sprintf (.d _ suf) _, h => lit_ascii h
  | .sprintf (.f text) _, h => lit_ascii h
  | .zeroDash f, h => fmtB_ok f h
  | .frac _, _ => trivial
  | .switch4 a b c d, h => by
    simp only [fmtB, Bool.and_eq_true] at h
    exact ⟨fmtB_ok a h.1, fmtB_ok b h.2.1, fmtB_ok c h.2.2.1, fmtB_ok d h.2.2.2⟩
  | .time l, h => validB_ok h
  | .cnTime l, h => validB_ok h

theorem goFormatters_ok {id : Nat} {f : Fmt} (e : goFormatters id = some f) : FmtOk f := by
  have hall : (List.range 82).all (fun i => match goFormatters i with | some f => fmtB f | none => true) = true := by decide +kernel
  by_cases h : id < 82
  · have := List.all_eq_true.1 hall id (List.mem_range.2 h)
    rw [e] at this
    exact fmtB_ok f this
  · unfold goFormatters at e
    split at e <;> first | omega | cases e

theorem builtInFormats_ok {id : Nat} {t : Bytes} (e : builtInFormats id = some t) : ValidUtf8 t := by
  have hall : (List.range 82).all (fun i => match builtInFormats i with | some f => validB f | none => true) = true := by decide +kernel
  by_cases h : id < 82
  · have := List.all_eq_true.1 hall id (List.mem_range.2 h)
    rw [e] at this
    exact validB_ok this
  · unfold builtInFormats at e
    split at e <;> first | omega | cases e

theorem sheet_text {s : Sheet} (h : SheetOk s) : TextValid s := by
  refine ⟨fun s' cs ha e c hc => ?_, fun s' args res ha hd e => ?_, fun s' ts ha e t ht => ?_, fun s' ts ha e t ht => ?_⟩
  · unfold Sheet.raw at e
    rw [GoRes.bind_eq_ok] at e
    obtain ⟨r, hr, e⟩ := e
    have hr := row_ok (after_ok h ha).1 hr
    rcases (fillRow_mem e).1 c hc with hm | rfl
    · refine ⟨cellOk_value (hr c hm), fun u hu => ?_⟩
      have hk := hr c hm
      cases c with
      | empty => simp [Cell.url] at hu
      | full v t f us =>
        unfold Cell.url at hu
        split at hu
        · rename_i v' n u' us' heq
          simp only [Cell.full.injEq] at heq
          simp only [Option.some.injEq] at hu
          subst hu
          exact hk.2 _ (by rw [heq.2.2.2]; simp)
        · simp at hu
    · exact ⟨cellOk_value (c := .empty) trivial, fun u hu => by simp [Cell.url] at hu⟩
  · unfold Sheet.scan at e
    rw [GoRes.bind_eq_ok] at e
    obtain ⟨r, hr, e⟩ := e
    exact scanRow_ok r args res (row_ok (after_ok h ha).1 hr) hd e
  · unfold Sheet.types at e
    rw [GoRes.bind_eq_ok] at e
    obtain ⟨r, _, e⟩ := e
    rcases (fillRow_mem e).1 t ht with hm | rfl
    · obtain ⟨c, _, rfl⟩ := List.mem_map.1 hm
      exact typeName_ok _
    · exact nil
  · unfold Sheet.formats at e
    rw [GoRes.bind_eq_ok] at e
    obtain ⟨r, _, e⟩ := e
    rcases (fillRow_mem e).1 t ht with hm | rfl
    · obtain ⟨c, _, rfl⟩ := List.mem_map.1 hm
      split
      · rename_i hb
        exact builtInFormats_ok hb
      · exact ascii (decNat_ascii _)
    · exact nil

theorem seqRes_mem {α : Type} : ∀ (xs : List (GoRes α)) (as : List α), seqRes xs = .ok as → ∀ a ∈ as, .ok a ∈ xs
  | [], as, e, a, ha => by simp only [seqRes, GoRes.ok.injEq] at e; subst e; simp at ha
  | x :: xs, as, e, a, ha => by
    simp only [seqRes, GoRes.bind_eq_ok] at e
    obtain ⟨b, hb, bs, hbs, e⟩ := e
    simp only [GoRes.pure_eq, GoRes.ok.injEq] at e
    subst e
    rcases List.mem_cons.1 ha with rfl | ha
    · rw [hb]; simp
    · exact List.mem_cons_of_mem _ (seqRes_mem xs bs hbs a ha)

theorem cellString_ok {ext : Ext} (hp : PrintsText ext) {f : Formatter} (hf : FmtrOk f) {c : Cell} (hc : CellOk c)
    (hn : ∀ t, c.value = .str t → AsciiOnly t ∨ NoSeparator (f.get c.formatNo).1) {s : Bytes} (e : cellString ext f c = .ok s) :
    ValidUtf8 s := by
  have hv := cellOk_value hc
  have hap : (do
      let (s, ok) ← f.apply ext c.formatNo c.value
      pure (if ok then s else sprint ext c.value)) = GoRes.ok s → ValidUtf8 s := by
    intro e
    rw [GoRes.bind_eq_ok] at e
    obtain ⟨⟨x, ok⟩, hx, e⟩ := e
    simp only [GoRes.pure_eq, GoRes.ok.injEq] at e
    subst e
    refine ite_ok ?_ (sprint_ok hp hv)
    have key : ∀ g, FmtOk g → (f.get c.formatNo).1 = g → (do let s ← g.eval ext f.mode1904 c.value; pure (s, true)) = GoRes.ok (x, ok) →
        ValidUtf8 x := by
      intro g hg hgg e
      rw [GoRes.bind_eq_ok] at e
      obtain ⟨y, hy, e⟩ := e
      simp only [GoRes.pure_eq, GoRes.ok.injEq, Prod.mk.injEq] at e
      rw [← e.1]
      exact eval_ok hp _ g hg c.value hv (fun t ht => by rw [← hgg]; exact hn t ht) hy
    unfold Formatter.apply at hx
    unfold Formatter.get at key
    split at hx
    · rename_i g hg
      rw [hg] at key
      exact key g (goFormatters_ok hg) rfl hx
    · rename_i hnone
      split at hx
      · rename_i g hg
        rw [hnone] at key
        simp only [hg] at key
        exact key g (hf _ g hg) rfl hx
      · simp at hx
  unfold cellString at e
  split at e
  · simp only [GoRes.ok.injEq] at e; subst e; exact nil
  · split at e
    · rename_i t ht
      simp only [GoRes.ok.injEq] at e; subst e
      exact hv _ ht
    · simp at e
  · exact hap e

theorem sheet_strings {ext : Ext} (hp : PrintsText ext) {s : Sheet} (h : SheetOk s) : StringsValid ext s := by
  intro s' cs ss ha hraw hsep e t ht
  obtain ⟨ho, hf⟩ := after_ok h ha
  unfold Sheet.raw at hraw
  rw [GoRes.bind_eq_ok] at hraw
  obtain ⟨r, hr, hraw⟩ := hraw
  unfold Sheet.strings at e
  rw [GoRes.bind_eq_ok] at e
  obtain ⟨r', hr', e⟩ := e
  rw [hr] at hr'
  simp only [GoRes.ok.injEq] at hr'
  subst hr'
  rw [GoRes.bind_eq_ok] at e
  obtain ⟨xs, hxs, e⟩ := e
  rcases (fillRow_mem e).1 t ht with hm | rfl
  · obtain ⟨c, hc, hcs⟩ := List.mem_map.1 (seqRes_mem _ _ hxs t hm)
    refine cellString_ok hp ho.fmtr (row_ok ho hr c hc) (fun u hu => ?_) hcs
    rw [hf]
    exact hsep c ((fillRow_mem hraw).2 c hc) u hu
  · exact nil

/-! ### xlsx -/

theorem finish_eq {α : Type} {a b : α} {e : GoErr} (h : finish a e = .ok b) : a = b := by
  unfold finish at h
  split at h
  · simpa using h
  · simp at h

theorem workbook_ok (rels : Rels) : ∀ (ts : List Tok) (ss : List XSheet), (∀ t ∈ ts, TokOk t) → workbookLoop rels ts = .ok ss →
    ∀ x ∈ ss, ValidUtf8 x.name ∧ x.state = none
  | [], ss, _, e => by simp only [workbookLoop, GoRes.ok.injEq] at e; subst e; simp
  | .start name attrs :: ts, ss, h, e => by
    have ha : ∀ a ∈ attrs, ValidUtf8 a.2 := h (.start name attrs) (by simp)
    have ht : ∀ t ∈ ts, TokOk t := fun t ht => h t (by simp [ht])
    rw [workbookLoop] at e
    split at e
    · split at e
      · rename_i id nm _ hn
        rw [GoRes.bind_eq_ok] at e
        obtain ⟨ss', hs, e⟩ := e
        simp only [GoRes.pure_eq, GoRes.ok.injEq] at e
        subst e
        intro x hx
        rcases List.mem_cons.1 hx with rfl | hx
        · exact ⟨attr?_ok ha hn, rfl⟩
        · exact workbook_ok rels ts ss' ht hs x hx
      · simp at e
    · exact workbook_ok rels ts ss ht e
  | .stop _ :: ts, ss, h, e => workbook_ok rels ts ss (fun t ht => h t (by simp [ht])) (by simpa only [workbookLoop] using e)
  | .chars _ :: ts, ss, h, e => workbook_ok rels ts ss (fun t ht => h t (by simp [ht])) (by simpa only [workbookLoop] using e)
  | .other :: ts, ss, h, e => workbook_ok rels ts ss (fun t ht => h t (by simp [ht])) (by simpa only [workbookLoop] using e)

theorem styleElem_ok {name : Bytes} {attrs : List (Bytes × Bytes)} (ha : ∀ a ∈ attrs, ValidUtf8 a.2) {st st' : StyleSt} (h : FmtrOk st.fmt)
    (e : styleElem makeFormatter name attrs st = .ok st') : FmtrOk st'.fmt := by
  unfold styleElem at e
  split at e
  · simp only [GoRes.ok.injEq] at e; subst e; exact add_ok h _ (attr_ok ha _)
  · split at e
    · simp only [GoRes.ok.injEq] at e; subst e; exact h
    · split at e
      · rw [GoRes.bind_eq_ok] at e
        obtain ⟨_, _, e⟩ := e
        simp only [GoRes.pure_eq, GoRes.ok.injEq] at e; subst e; exact h
      · split at e
        · unfold xfElem at e
          simp only at e
          split at e
          · simp only [GoRes.ok.injEq] at e; subst e; exact h
          · split at e
            · rw [GoRes.bind_eq_ok] at e
              obtain ⟨_, _, e⟩ := e
              simp only [GoRes.pure_eq, GoRes.ok.injEq] at e; subst e; exact h
            · simp at e
        · simp only [GoRes.ok.injEq] at e; subst e; exact h

theorem stylesLoop_ok : ∀ (ts : List Tok) (st st' : StyleSt), (∀ t ∈ ts, TokOk t) → FmtrOk st.fmt →
    stylesLoop makeFormatter ts st = .ok st' → FmtrOk st'.fmt
  | [], st, st', _, h, e => by simp only [stylesLoop, GoRes.ok.injEq] at e; subst e; exact h
  | .start name attrs :: ts, st, st', ht, h, e => by
    rw [stylesLoop, GoRes.bind_eq_ok] at e
    obtain ⟨st1, h1, e⟩ := e
    exact stylesLoop_ok ts st1 st' (fun t h => ht t (by simp [h])) (styleElem_ok (ht (.start name attrs) (by simp)) h h1) e
  | .stop name :: ts, st, st', ht, h, e => by
    rw [stylesLoop] at e
    refine stylesLoop_ok ts _ st' (fun t h => ht t (by simp [h])) ?_ e
    split <;> exact h
  | .chars _ :: ts, st, st', ht, h, e => stylesLoop_ok ts st st' (fun t h => ht t (by simp [h])) h (by simpa only [stylesLoop] using e)
  | .other :: ts, st, st', ht, h, e => stylesLoop_ok ts st st' (fun t h => ht t (by simp [h])) h (by simpa only [stylesLoop] using e)

theorem stylesParts_ok {a : Archive} (ha : ArchOk a) : ∀ (ns : List Bytes) (st st' : Formatter × List Nat), FmtrOk st.1 →
    stylesParts makeFormatter a ns st = .ok st' → FmtrOk st'.1
  | [], st, st', h, e => by simp only [stylesParts, GoRes.ok.injEq] at e; subst e; exact h
  | n :: ns, st, st', h, e => by
    rw [stylesParts, GoRes.bind_eq_ok] at e
    obtain ⟨p, hp, e⟩ := e
    rw [GoRes.bind_eq_ok] at e
    obtain ⟨st1, h1, e⟩ := e
    refine stylesParts_ok ha ns st1 st' ?_ e
    unfold parseStyles at h1
    rw [GoRes.bind_eq_ok] at h1
    obtain ⟨s2, h2, h1⟩ := h1
    rw [← finish_eq h1]
    exact stylesLoop_ok p.toks _ s2 (openPart_ok ha hp) h h2

theorem stringsLoop_ok : ∀ (ts : List Tok) (v : Bytes) (out : List Bytes), (∀ t ∈ ts, TokOk t) → ValidUtf8 v → (∀ s ∈ out, ValidUtf8 s) →
    ∀ s ∈ stringsLoop ts v out, ValidUtf8 s
  | [], _, _, _, _, ho => ho
  | .chars w :: ts, v, out, h, hv, ho =>
    stringsLoop_ok ts (v ++ w) out (fun t ht => h t (by simp [ht])) (append hv (h (.chars w) (by simp))) ho
  | .start name _ :: ts, v, out, h, hv, ho =>
    stringsLoop_ok ts _ out (fun t ht => h t (by simp [ht])) (ite_ok nil hv) ho
  | .stop name :: ts, v, out, h, hv, ho => by
    rw [stringsLoop]
    refine stringsLoop_ok ts v _ (fun t ht => h t (by simp [ht])) hv (fun s hs => ?_)
    split at hs
    · rcases List.mem_append.1 hs with hs | hs
      · exact ho s hs
      · rw [List.mem_singleton] at hs; subst hs; exact hv
    · exact ho s hs
  | .other :: ts, v, out, h, hv, ho => stringsLoop_ok ts v out (fun t ht => h t (by simp [ht])) hv ho

theorem stringsParts_ok {a : Archive} (ha : ArchOk a) : ∀ (ns : List Bytes) (st st' : List Bytes), (∀ s ∈ st, ValidUtf8 s) →
    stringsParts a ns st = .ok st' → ∀ s ∈ st', ValidUtf8 s
  | [], st, st', h, e => by simp only [stringsParts, GoRes.ok.injEq] at e; subst e; exact h
  | n :: ns, st, st', h, e => by
    rw [stringsParts, GoRes.bind_eq_ok] at e
    obtain ⟨p, hp, e⟩ := e
    rw [GoRes.bind_eq_ok] at e
    obtain ⟨st1, h1, e⟩ := e
    refine stringsParts_ok ha ns st1 st' ?_ e
    rw [← finish_eq h1]
    exact stringsLoop_ok p.toks [] st (openPart_ok ha hp) nil h

theorem linkLoop_ok : ∀ (ts : List Tok) (m : Bytes → Bytes), (∀ t ∈ ts, TokOk t) → (∀ k, ValidUtf8 (m k)) → ∀ k, ValidUtf8 (linkLoop ts m k)
  | [], _, _, hm => hm
  | .start name attrs :: ts, m, h, hm => by
    rw [linkLoop]
    refine linkLoop_ok ts _ (fun t ht => h t (by simp [ht])) (fun k => ?_)
    split
    · exact ite_ok (attr_ok (h (.start name attrs) (by simp)) _) (hm k)
    · exact hm k
  | .stop _ :: ts, m, h, hm => linkLoop_ok ts m (fun t ht => h t (by simp [ht])) hm
  | .chars _ :: ts, m, h, hm => linkLoop_ok ts m (fun t ht => h t (by simp [ht])) hm
  | .other :: ts, m, h, hm => linkLoop_ok ts m (fun t ht => h t (by simp [ht])) hm

theorem linkMap_ok {a : Archive} (ha : ArchOk a) (n k : Bytes) : ValidUtf8 (linkMap a n k) := by
  unfold linkMap
  cases hp : openXML a (relsOf n) with
  | ok p => exact linkLoop_ok _ _ (openXML_ok ha hp) (fun _ => nil) k
  | error e => exact nil

theorem cellValue_ok {ext : Ext} {strings : List Bytes} (hs : ∀ s ∈ strings, ValidUtf8 s) {typ v : Bytes} (hv : ValidUtf8 v) {r : GoVal}
    (e : cellValue ext strings typ v = .ok (some r)) : GoValOk r := by
  unfold cellValue at e
  split at e
  · split at e
    · simp at e
    · simp only [GoRes.ok.injEq, Option.some.injEq] at e; subst e; trivial
  · split at e
    · split at e <;> simp only [GoRes.ok.injEq, Option.some.injEq] at e <;> subst e
      · trivial
      · exact hv
    · split at e
      · rw [GoRes.bind_eq_ok] at e
        obtain ⟨s, hx, e⟩ := e
        simp only [GoRes.pure_eq, GoRes.ok.injEq, Option.some.injEq] at e; subst e
        unfold index at hx
        split at hx
        · split at hx
          · rename_i hm
            simp only [GoRes.ok.injEq] at hx; subst hx
            exact hs _ (List.mem_of_getElem? hm)
          · simp at hx
        · simp at hx
      · split at e
        · simp at e
        · simp only [GoRes.ok.injEq, Option.some.injEq] at e; subst e; exact hv

theorem marker_ok {v : Bytes} (h : v = endRow ∨ v = contRow ∨ v = endCol ∨ v = contCol) : ValidUtf8 v := by
  rcases h with rfl | rfl | rfl | rfl <;> exact validB_ok (by decide +kernel)

theorem mergeCell_ok {ext : Ext} (hp : PrintsText ext) {r0 r1 c0 c1 r c : Int} {s s' : Sheet} (h : SheetOk s)
    (e : mergeCell ext r0 r1 c0 c1 r c s = .ok s') : SheetOk s' := by
  unfold mergeCell at e
  split at e
  · simp only [GoRes.ok.injEq] at e; subst e; exact h
  · rename_i v hv
    refine put_ok hp h (v := .str v) (marker_ok ?_) e
    unfold mergeVal at hv
    split at hv
    · simp at hv
    · split at hv
      · split at hv <;> simp only [Option.some.injEq] at hv <;> simp [← hv]
      · split at hv <;> simp only [Option.some.injEq] at hv <;> simp [← hv]

theorem mergeRow_ok {ext : Ext} (hp : PrintsText ext) {r0 r1 c0 c1 r : Int} : ∀ (n : Nat) (c : Int) (s s' : Sheet), SheetOk s →
    mergeRow ext r0 r1 c0 c1 r n c s = .ok s' → SheetOk s'
  | 0, _, s, s', h, e => by simp only [mergeRow, GoRes.ok.injEq] at e; subst e; exact h
  | n + 1, c, s, s', h, e => by
    rw [mergeRow, GoRes.bind_eq_ok] at e
    obtain ⟨s1, h1, e⟩ := e
    exact mergeRow_ok hp n (c + 1) s1 s' (mergeCell_ok hp h h1) e

theorem mergeRows_ok {ext : Ext} (hp : PrintsText ext) {r0 r1 c0 c1 : Int} : ∀ (n : Nat) (r : Int) (s s' : Sheet), SheetOk s →
    mergeRows ext r0 r1 c0 c1 n r s = .ok s' → SheetOk s'
  | 0, _, s, s', h, e => by simp only [mergeRows, GoRes.ok.injEq] at e; subst e; exact h
  | n + 1, r, s, s', h, e => by
    rw [mergeRows, GoRes.bind_eq_ok] at e
    obtain ⟨s1, h1, e⟩ := e
    exact mergeRows_ok hp n (r + 1) s1 s' (mergeRow_ok hp _ _ s s1 h h1) e

theorem sheetTok_ok {ext : Ext} (hp : PrintsText ext) {d : Doc} (hs : ∀ s ∈ d.strings, ValidUtf8 s) {links : Bytes → Bytes}
    (hl : ∀ k, ValidUtf8 (links k)) {t : Tok} (ht : TokOk t) {st st' : WsSt} (h : SheetOk st.sheet)
    (e : sheetTok ext d links t st = .ok st') : SheetOk st'.sheet := by
  cases t with
  | chars v =>
    simp only [sheetTok, charsTok] at e
    split at e
    · simp only [GoRes.ok.injEq] at e; subst e; exact h
    · rw [GoRes.bind_eq_ok] at e
      obtain ⟨⟨c, r⟩, _, e⟩ := e
      simp only at e
      split at e
      · rw [GoRes.bind_eq_ok] at e
        obtain ⟨o, ho, e⟩ := e
        cases o with
        | none => simp only [GoRes.pure_eq, GoRes.ok.injEq] at e; subst e; exact h
        | some val =>
          simp only at e
          rw [GoRes.bind_eq_ok] at e
          obtain ⟨s1, h1, e⟩ := e
          simp only [GoRes.pure_eq, GoRes.ok.injEq] at e; subst e
          exact put_ok hp h (cellValue_ok hs ht ho) h1
      · simp only [GoRes.pure_eq, GoRes.ok.injEq] at e; subst e; exact h
  | start name attrs =>
    simp only [sheetTok] at e
    split at e
    · unfold dimElem at e
      simp only at e
      split at e
      · simp only [GoRes.ok.injEq] at e; subst e; exact resize_ok h _ _
      · rw [GoRes.bind_eq_ok] at e
        obtain ⟨⟨c, r⟩, _, e⟩ := e
        simp only [GoRes.pure_eq, GoRes.ok.injEq] at e; subst e; exact resize_ok h _ _
    · split at e
      · unfold cElem at e
        simp only at e
        rw [GoRes.bind_eq_ok] at e
        obtain ⟨_, _, e⟩ := e
        simp only [GoRes.pure_eq, GoRes.ok.injEq] at e; subst e; exact h
      · split at e
        · unfold mergeElem at e
          simp only [GoRes.bind_eq_ok] at e
          obtain ⟨_, _, _, _, s1, h1, e⟩ := e
          simp only [GoRes.pure_eq, GoRes.ok.injEq] at e; subst e
          exact mergeRows_ok hp _ _ _ _ h h1
        · split at e
          · unfold linkElem at e
            simp only [GoRes.bind_eq_ok] at e
            obtain ⟨_, _, s1, h1, s2, h2, e⟩ := e
            simp only [GoRes.pure_eq, GoRes.ok.injEq] at e; subst e
            exact setURL_ok (put_ok hp h (v := .str _) (hl _) h1) (hl _) h2
          · simp only [GoRes.ok.injEq] at e; subst e; exact h
  | stop name =>
    simp only [sheetTok, GoRes.ok.injEq] at e
    subst e
    split <;> exact h
  | other => simp only [sheetTok, GoRes.ok.injEq] at e; subst e; exact h

theorem sheetLoop_ok {ext : Ext} (hp : PrintsText ext) {d : Doc} (hs : ∀ s ∈ d.strings, ValidUtf8 s) {links : Bytes → Bytes}
    (hl : ∀ k, ValidUtf8 (links k)) : ∀ (ts : List Tok), (∀ t ∈ ts, TokOk t) → ∀ st st' : WsSt, SheetOk st.sheet →
    sheetLoop ext d links ts st = .ok st' → SheetOk st'.sheet
  | [], _, st, st', h, e => by simp only [sheetLoop, GoRes.ok.injEq] at e; subst e; exact h
  | t :: ts, ht, st, st', h, e => by
    rw [sheetLoop, GoRes.bind_eq_ok] at e
    obtain ⟨st1, h1, e⟩ := e
    exact sheetLoop_ok hp hs hl ts (fun t h => ht t (by simp [h])) st1 st' (sheetTok_ok hp hs hl (ht t (by simp)) h h1) e

/-- The text in a document. -/
structure DocOk (d : Doc) : Prop where
  names : ∀ x ∈ d.sheets, ValidUtf8 x.name
  sheets : ∀ x ∈ d.sheets, ∀ s e, x.state = some (s, e) → SheetOk s
  strings : ∀ s ∈ d.strings, ValidUtf8 s
  fmt : FmtrOk d.fmt

theorem parseSheet_ok {ext : Ext} (hp : PrintsText ext) {a : Archive} (ha : ArchOk a) {d : Doc} (hd : DocOk d) {n : Bytes} {s : Sheet} {er : Option GoErr}
    (e : Xlsx.parseSheet ext a d n = .ok (s, er)) : SheetOk s := by
  unfold Xlsx.parseSheet at e
  split at e
  · simp only [GoRes.ok.injEq, Prod.mk.injEq] at e; rw [← e.1]; exact new_ok hd.fmt
  · rename_i p hpart
    rw [GoRes.bind_eq_ok] at e
    obtain ⟨st, hst, e⟩ := e
    simp only [GoRes.pure_eq, GoRes.ok.injEq, Prod.mk.injEq] at e
    rw [← e.1]
    exact sheetLoop_ok hp hd.strings (linkMap_ok ha n) p.toks (openXML_ok ha hpart) _ st (new_ok hd.fmt) hst

theorem openDoc_ok {a : Archive} (ha : ArchOk a) {order : List Bytes → List Bytes} {d : Doc}
    (e : Xlsx.openFile makeFormatter order (.ok a) = .ok d) : DocOk d := by
  unfold Xlsx.openFile at e
  simp only [GoRes.bind_eq_ok] at e
  obtain ⟨p, hp, st, hst, e⟩ := e
  split at e
  · simp at e
  · simp only [GoRes.bind_eq_ok] at e
    obtain ⟨p1, hp1, st1, hst1, p2, hp2, sheets, hsh, ⟨fmt, xfs⟩, hf, strings, hss, e⟩ := e
    simp only [GoRes.pure_eq, GoRes.ok.injEq] at e
    subst e
    unfold parseWorkbook at hsh
    rw [GoRes.bind_eq_ok] at hsh
    obtain ⟨ss, hs1, hs2⟩ := hsh
    have := finish_eq hs2
    subst this
    have hw := workbook_ok st1.rels p2.toks ss (openPart_ok ha hp2) hs1
    refine ⟨fun x hx => (hw x hx).1, fun x hx s er hxs => ?_, stringsParts_ok ha _ [] strings (by simp) hss,
      stylesParts_ok ha _ _ _ newFmtr_ok hf⟩
    rw [(hw x hx).2] at hxs
    simp at hxs

theorem get_ok {ext : Ext} (hp : PrintsText ext) {a : Archive} (ha : ArchOk a) {d d' : Doc} (hd : DocOk d) {n : Bytes} {i : Nat} {er : Option GoErr}
    (e : d.get ext a n = .ok (d', i, er)) : DocOk d' := by
  unfold Xlsx.Doc.get at e
  split at e
  · simp at e
  · split at e
    · simp at e
    · rename_i x hx
      have hm := List.mem_of_getElem? hx
      split at e
      · simp only [GoRes.ok.injEq, Prod.mk.injEq] at e
        rw [← e.1]; exact hd
      · rw [GoRes.bind_eq_ok] at e
        obtain ⟨⟨s, er1⟩, hr, e⟩ := e
        simp only [GoRes.pure_eq, GoRes.ok.injEq, Prod.mk.injEq] at e
        rw [← e.1]
        refine ⟨fun y hy => ?_, fun y hy s' e' hys => ?_, hd.strings, hd.fmt⟩
        · rcases List.mem_or_eq_of_mem_set hy with hy | rfl
          · exact hd.names y hy
          · exact hd.names x hm
        · rcases List.mem_or_eq_of_mem_set hy with hy | rfl
          · exact hd.sheets y hy s' e' hys
          · simp only [Option.some.injEq, Prod.mk.injEq] at hys
            rw [← hys.1]
            exact parseSheet_ok hp ha hd hr

end Grate.Valid
