import Verif.Model.GoXml
import Verif.Spec.Xml
import Verif.Props.Utf16
import Mathlib.Tactic.Ring
import Mathlib.Data.List.Induction

/-! # Lemmas about the XML tokenizer -/

namespace Grate.Xlsx

open Grate Grate.Spec Grate.Props

/-! ### UTF-8 -/

theorem inRange_iff (lo hi b : UInt8) : inRange lo hi b = true ↔ lo.toNat ≤ b.toNat ∧ b.toNat ≤ hi.toNat := by
  simp [inRange, UInt8.le_iff_toNat_le]

theorem ofNat_small {n : Nat} (h : n < 256) : (UInt8.ofNat n).toNat = n := by
  rw [UInt8.toNat_ofNat']; omega

theorem second_of {b0 b1 : UInt8} (h : 0x80 ≤ b1.toNat ∧ b1.toNat ≤ 0xBF) (h1 : b0.toNat = 0xE0 → 0xA0 ≤ b1.toNat)
    (h2 : b0.toNat = 0xED → b1.toNat ≤ 0x9F) (h3 : b0.toNat = 0xF0 → 0x90 ≤ b1.toNat) (h4 : b0.toNat = 0xF4 → b1.toNat ≤ 0x8F) :
    secondOk b0 b1 = true := by
  have e : ∀ k : UInt8, b0 = k ↔ b0.toNat = k.toNat := fun k => ⟨fun h => by rw [h], fun h => UInt8.toNat_inj.mp h⟩
  unfold secondOk
  simp only [e]
  split
  · rename_i hh; rw [inRange_iff]; exact ⟨h1 hh, h.2⟩
  · split
    · rename_i hh; rw [inRange_iff]; exact ⟨h.1, h2 hh⟩
    · split
      · rename_i hh; rw [inRange_iff]; exact ⟨h3 hh, h.2⟩
      · split
        · rename_i hh; rw [inRange_iff]; exact ⟨h.1, h4 hh⟩
        · rw [inRange_iff]; exact h

/-- Decoding the encoding of a character. -/
theorem decode_rune (r : Nat) (h : Scalar r) : ∃ b t, utf8Rune r = b :: t ∧ t.length ≤ 3 ∧
    ∀ rest, decodeRune b (t ++ rest) = (r, t.length + 1) := by
  have hlt : ∀ (b k : UInt8), b < k ↔ b.toNat < k.toNat := fun _ _ => UInt8.lt_iff_toNat_lt
  unfold Scalar at h
  unfold utf8Rune
  split
  · refine ⟨_, [], rfl, by simp, fun rest => ?_⟩
    unfold decodeRune
    have e : (UInt8.ofNat r).toNat = r := ofNat_small (by omega)
    rw [if_pos (by rw [hlt, e]; exact (by assumption : r < 0x80)), e]
    rfl
  · split
    · refine ⟨_, [_], rfl, by simp, fun rest => ?_⟩
      have e : (UInt8.ofNat (0xC0 + r / 64)).toNat = 0xC0 + r / 64 := ofNat_small (by omega)
      have e1 : (UInt8.ofNat (0x80 + r % 64)).toNat = 0x80 + r % 64 := ofNat_small (by omega)
      generalize UInt8.ofNat (0xC0 + r / 64) = b at e ⊢
      generalize UInt8.ofNat (0x80 + r % 64) = b1 at e1 ⊢
      unfold decodeRune
      rw [if_neg (by rw [hlt, e]; show ¬ (_ < 128); omega),
        if_pos ((inRange_iff _ _ _).2 (by rw [e]; show 194 ≤ _ ∧ _ ≤ 223; omega))]
      simp only [List.cons_append, List.nil_append]
      rw [if_pos (second_of (by omega) (by omega) (by omega) (by omega) (by omega)), e, e1]
      simp only [List.length_cons, List.length_nil]
      refine Prod.ext ?_ rfl
      simp only
      omega
    · rw [if_neg (by omega)]
      split
      · refine ⟨_, [_, _], rfl, by simp, fun rest => ?_⟩
        have e : (UInt8.ofNat (0xE0 + r / 4096)).toNat = 0xE0 + r / 4096 := ofNat_small (by omega)
        have e1 : (UInt8.ofNat (0x80 + r / 64 % 64)).toNat = 0x80 + r / 64 % 64 := ofNat_small (by omega)
        have e2 : (UInt8.ofNat (0x80 + r % 64)).toNat = 0x80 + r % 64 := ofNat_small (by omega)
        generalize UInt8.ofNat (0xE0 + r / 4096) = b at e ⊢
        generalize UInt8.ofNat (0x80 + r / 64 % 64) = b1 at e1 ⊢
        generalize UInt8.ofNat (0x80 + r % 64) = b2 at e2 ⊢
        unfold decodeRune
        rw [if_neg (by rw [hlt, e]; show ¬ (_ < 128); omega),
          if_neg (by rw [inRange_iff, e]; show ¬ (194 ≤ _ ∧ _ ≤ 223); omega),
          if_pos ((inRange_iff _ _ _).2 (by rw [e]; show 224 ≤ _ ∧ _ ≤ 239; omega))]
        simp only [List.cons_append, List.nil_append]
        rw [second_of (by omega) (by omega) (by omega) (by omega) (by omega),
          (inRange_iff 0x80 0xBF b2).2 (by rw [e2]; show 128 ≤ _ ∧ _ ≤ 191; omega), e, e1, e2]
        simp only [List.length_cons, List.length_nil, Bool.and_self, if_true]
        refine Prod.ext ?_ rfl
        simp only
        omega
      · refine ⟨_, [_, _, _], rfl, by simp, fun rest => ?_⟩
        have e : (UInt8.ofNat (0xF0 + r / 262144)).toNat = 0xF0 + r / 262144 := ofNat_small (by omega)
        have e1 : (UInt8.ofNat (0x80 + r / 4096 % 64)).toNat = 0x80 + r / 4096 % 64 := ofNat_small (by omega)
        have e2 : (UInt8.ofNat (0x80 + r / 64 % 64)).toNat = 0x80 + r / 64 % 64 := ofNat_small (by omega)
        have e3 : (UInt8.ofNat (0x80 + r % 64)).toNat = 0x80 + r % 64 := ofNat_small (by omega)
        generalize UInt8.ofNat (0xF0 + r / 262144) = b at e ⊢
        generalize UInt8.ofNat (0x80 + r / 4096 % 64) = b1 at e1 ⊢
        generalize UInt8.ofNat (0x80 + r / 64 % 64) = b2 at e2 ⊢
        generalize UInt8.ofNat (0x80 + r % 64) = b3 at e3 ⊢
        unfold decodeRune
        rw [if_neg (by rw [hlt, e]; show ¬ (_ < 128); omega),
          if_neg (by rw [inRange_iff, e]; show ¬ (194 ≤ _ ∧ _ ≤ 223); omega),
          if_neg (by rw [inRange_iff, e]; show ¬ (224 ≤ _ ∧ _ ≤ 239); omega),
          if_pos ((inRange_iff _ _ _).2 (by rw [e]; show 240 ≤ _ ∧ _ ≤ 244; omega))]
        simp only [List.cons_append, List.nil_append]
        rw [second_of (by omega) (by omega) (by omega) (by omega) (by omega),
          (inRange_iff 0x80 0xBF b2).2 (by rw [e2]; show 128 ≤ _ ∧ _ ≤ 191; omega),
          (inRange_iff 0x80 0xBF b3).2 (by rw [e3]; show 128 ≤ _ ∧ _ ≤ 191; omega), e, e1, e2, e3]
        simp only [List.length_cons, List.length_nil, Bool.and_self, if_true]
        refine Prod.ext ?_ rfl
        simp only
        omega

theorem xmlChar_scalar {r : Nat} (h : XmlChar r) : Scalar r := by
  unfold XmlChar at h; unfold Scalar; omega

theorem xmlChar_range {r : Nat} (h : XmlChar r) : inCharRange r = true := by
  unfold XmlChar at h
  simp only [inCharRange, Bool.or_eq_true, decide_eq_true_eq, Bool.and_eq_true]
  omega

theorem charsOk_skip : ∀ (t rest : Bytes), charsOk t.length (t ++ rest) = charsOk 0 rest
  | [], rest => rfl
  | b :: t, rest => by simp only [List.length_cons, List.cons_append, charsOk]; exact charsOk_skip t rest

theorem utf8_one (c : Nat) (h : Scalar c) : utf8 [c] = utf8Rune c := by
  simp [utf8, utf8Rune_eq c h]

theorem utf8_cons (c : Nat) (cs : List Nat) : utf8 (c :: cs) = utf8 [c] ++ utf8 cs := by simp [utf8]

theorem charsOk_utf8 : ∀ (cs : List Nat), (∀ c ∈ cs, XmlChar c) → charsOk 0 (utf8 cs) = true
  | [], _ => rfl
  | c :: cs, h => by
    have hc := h c (by simp)
    obtain ⟨b, t, e, hl, hd⟩ := decode_rune c (xmlChar_scalar hc)
    rw [utf8_cons, utf8_one c (xmlChar_scalar hc), e]
    simp only [List.cons_append, charsOk, hd, Nat.add_sub_cancel, charsOk_skip, xmlChar_range hc,
      charsOk_utf8 cs (fun c hc => h c (by simp [hc]))]
    have : ¬ (c = 0xFFFD ∧ t = []) := by
      rintro ⟨rfl, rfl⟩
      have := congrArg List.length e
      simp [utf8Rune] at this
    simp only [Bool.and_true, Bool.not_eq_true', Bool.and_eq_false_iff, decide_eq_false_iff_not]
    by_cases h1 : c = 0xFFFD
    · right
      intro h2
      exact this ⟨h1, List.eq_nil_of_length_eq_zero (by omega)⟩
    · exact .inl h1

/-- The bytes of a character that is not ASCII. -/
theorem utf8_high (c : Nat) (h : Scalar c) (hc : 128 ≤ c) : ∀ b ∈ utf8 [c], 128 ≤ b.toNat := by
  rw [utf8_one c h]
  unfold Scalar at h
  unfold utf8Rune
  rw [if_neg (by omega)]
  split
  · intro b hb
    simp only [List.mem_cons, List.not_mem_nil, or_false] at hb
    rcases hb with rfl | rfl <;> rw [ofNat_small (by omega)] <;> omega
  · rw [if_neg (by omega)]
    split
    · intro b hb
      simp only [List.mem_cons, List.not_mem_nil, or_false] at hb
      rcases hb with rfl | rfl | rfl <;> rw [ofNat_small (by omega)] <;> omega
    · intro b hb
      simp only [List.mem_cons, List.not_mem_nil, or_false] at hb
      rcases hb with rfl | rfl | rfl | rfl <;> rw [ofNat_small (by omega)] <;> omega

theorem utf8_low (c : Nat) (hc : c < 128) : utf8 [c] = [UInt8.ofNat c] := by
  rw [utf8_one c (by unfold Scalar; omega)]
  unfold utf8Rune
  rw [if_pos (by omega)]

/-! ### Text -/

/-- Bytes that are copied. -/
def PlainByte (q : Option UInt8) (cdata : Bool) (b : UInt8) : Prop :=
  b ≠ 13 ∧ (cdata = false → b ≠ 60 ∧ b ≠ 38) ∧ q ≠ some b

theorem textLoop_plain (fin : GoErr) (q : Option UInt8) (cdata : Bool) (b : UInt8) (rest : Bytes) (b0 b1 : UInt8) (buf : Bytes)
    (hp : PlainByte q cdata b) (h1 : ¬ (q = none ∧ b0 = 93 ∧ b1 = 93 ∧ b = 62)) (h2 : ¬ (b1 = 13 ∧ b = 10)) :
    textLoop fin q cdata (b :: rest) none b0 b1 buf = textLoop fin q cdata rest none b1 b (buf ++ [b]) := by
  rw [textLoop, if_neg h1, if_neg (fun h => (hp.2.1 h.2).1 h.1), if_neg hp.2.2, if_neg (fun h => (hp.2.1 h.2).2 h.1),
    if_neg hp.1, if_neg h2]

theorem textLoop_run (fin : GoErr) (q : Option UInt8) (cdata : Bool) : ∀ (l rest R buf : Bytes),
    (∀ b ∈ l, PlainByte q cdata b ∧ b ≠ 62 ∧ b ≠ 10) →
    textLoop fin q cdata (l ++ rest) none (R.tail.headD 0) (R.headD 0) buf =
      textLoop fin q cdata rest none ((l.reverse ++ R).tail.headD 0) ((l.reverse ++ R).headD 0) (buf ++ l)
  | [], rest, R, buf, _ => by simp
  | b :: l, rest, R, buf, h => by
    have hb := h b (by simp)
    rw [List.cons_append, textLoop_plain fin q cdata b _ _ _ _ hb.1 (fun h => hb.2.1 h.2.2.2) (fun h => hb.2.2 h.2)]
    have := textLoop_run fin q cdata l rest (b :: R) (buf ++ [b]) (fun x hx => h x (by simp [hx]))
    simp only [List.tail_cons, List.headD_cons] at this
    rw [this]
    simp

/-- References. -/
theorem textLoop_ent (fin : GoErr) (q : Option UInt8) : ∀ (l rest e : Bytes) (b0 b1 : UInt8) (buf : Bytes),
    (∀ a b c, l = a ++ b :: c → entByte (e ++ a) b = true) →
    textLoop fin q false (l ++ rest) (some e) b0 b1 buf = textLoop fin q false rest (some (e ++ l)) b0 b1 buf ∨
      textLoop fin q false (l ++ rest) (some e) b0 b1 buf = textLoop fin q false rest (some (e ++ l)) 0 0 buf
  | [], rest, e, b0, b1, buf, _ => by simp
  | b :: l, rest, e, b0, b1, buf, h => by
    right
    have hb := h [] b l rfl
    rw [List.append_nil] at hb
    rw [List.cons_append, textLoop, if_pos hb]
    have := textLoop_ent fin q l rest (e ++ [b]) 0 0 buf (fun a x c hl => by
      have := h (b :: a) x c (by rw [hl]; rfl)
      simpa using this)
    rw [or_self] at this
    rw [this]
    simp

theorem entByte_semi (e : Bytes) : entByte e 59 = false := by
  unfold entByte
  split <;> decide

theorem textLoop_ref (fin : GoErr) (q : Option UInt8) (e t rest : Bytes) (b0 b1 : UInt8) (buf : Bytes) (hq : q ≠ some 38)
    (h : ∀ a b c, e = a ++ b :: c → entByte a b = true) (ht : entText e = some t) :
    textLoop fin q false (38 :: (e ++ 59 :: rest)) none b0 b1 buf = textLoop fin q false rest none 0 0 (buf ++ t) := by
  rw [textLoop, if_neg (by simp), if_neg (by simp), if_neg hq, if_pos (by simp)]
  have := textLoop_ent fin q e (59 :: rest) [] 0 0 buf (by simpa using h)
  rw [or_self] at this
  rw [this, List.nil_append, textLoop, if_neg (by rw [entByte_semi]; simp), if_pos rfl, ht]

/-! Numerals -/

theorem uintVal_snoc (base : Nat) (s : Bytes) (b : UInt8) : uintVal base (s ++ [b]) = uintVal base s * base + hexVal b := by
  simp [uintVal, List.foldl_append]

theorem hexVal_digit {b : UInt8} (h : 48 ≤ b.toNat ∧ b.toNat ≤ 57) : hexVal b = b.toNat - 48 := by
  unfold hexVal
  rw [if_pos (by rw [UInt8.le_iff_toNat_le]; exact h.2)]

theorem digitsVal_snoc (b : UInt8) : ∀ s : Bytes, digitsVal (s ++ [b]) = digitsVal s * 10 + (b.toNat - 48)
  | [] => by simp [digitsVal]
  | a :: s => by
    simp only [List.cons_append, digitsVal, digitsVal_snoc b s, List.length_append, List.length_cons, List.length_nil]
    ring

theorem uintVal_dec (s : Bytes) (h : ∀ b ∈ s, 48 ≤ b.toNat ∧ b.toNat ≤ 57) : uintVal 10 s = digitsVal s := by
  induction s using List.reverseRecOn with
  | nil => rfl
  | append_singleton s b ih =>
    rw [uintVal_snoc, digitsVal_snoc, ih (fun x hx => h x (by simp [hx])), hexVal_digit (h b (by simp))]

theorem hexDigit_spec {b : UInt8} {d : Nat} (h : hexDigitVal b = some d) :
    hexVal b = d ∧ (inRange 48 57 b || inRange 97 102 b || inRange 65 70 b) = true := by
  unfold hexDigitVal at h
  simp only [UInt8.le_iff_toNat_le] at h
  simp only [Bool.or_eq_true, inRange_iff]
  unfold hexVal
  simp only [UInt8.le_iff_toNat_le]
  have e : ∀ n : Nat, n < 256 → (UInt8.ofNat n).toNat = n := fun n => ofNat_small
  change (if 48 ≤ b.toNat ∧ b.toNat ≤ 57 then _ else if 65 ≤ b.toNat ∧ b.toNat ≤ 70 then _ else
    if 97 ≤ b.toNat ∧ b.toNat ≤ 102 then _ else _) = _ at h
  change (if b.toNat ≤ 57 then _ else if b.toNat ≤ 70 then _ else _) = _ ∧
    ((48 ≤ b.toNat ∧ b.toNat ≤ 57 ∨ 97 ≤ b.toNat ∧ b.toNat ≤ 102) ∨ 65 ≤ b.toNat ∧ b.toNat ≤ 70)
  split at h
  · rw [if_pos (by omega)]; cases h; exact ⟨rfl, by omega⟩
  · split at h
    · rw [if_neg (by omega), if_pos (by omega)]; cases h; exact ⟨rfl, by omega⟩
    · split at h
      · rw [if_neg (by omega), if_neg (by omega)]; cases h; exact ⟨rfl, by omega⟩
      · cases h

theorem hexNum_spec {s : Bytes} {n : Nat} (h : HexNum s n) : s ≠ [] ∧ uintVal 16 s = n ∧
    ∀ b ∈ s, (inRange 48 57 b || inRange 97 102 b || inRange 65 70 b) = true := by
  induction h with
  | one b d h =>
    have := hexDigit_spec h
    refine ⟨by simp, by simp [uintVal, this.1], by simpa using this.2⟩
  | more s n b d _ h ih =>
    have := hexDigit_spec h
    refine ⟨by simp, by rw [uintVal_snoc, ih.2.1, this.1]; omega, ?_⟩
    intro x hx
    rcases List.mem_append.1 hx with hx | hx
    · exact ih.2.2 x hx
    · rw [List.mem_singleton.1 hx]; exact this.2

theorem charRef_of {base : Nat} {ds : Bytes} {n : Nat} (h : ds ≠ []) (hn : uintVal base ds = n) (hc : XmlChar n) :
    charRef base ds = some (utf8 [n]) := by
  unfold charRef
  rw [hn, if_pos ⟨h, by unfold XmlChar at hc; omega⟩, utf8_one n (xmlChar_scalar hc)]

theorem entByte_prefix {e : Bytes} (h : (List.range e.length).all (fun i => match e[i]? with
    | some b => entByte (e.take i) b | none => true) = true) : ∀ a b c, e = a ++ b :: c → entByte a b = true := by
  intro a b c he
  rw [List.all_eq_true] at h
  have := h a.length (by rw [List.mem_range, he]; simp)
  rw [he] at this
  simpa using this

/-- A reference is read as its character. -/
theorem reference_spec {c : Nat} {w : Bytes} (h : Reference c w) (hc : XmlChar c) : ∃ e, w = 38 :: (e ++ [59]) ∧
    entText e = some (utf8 [c]) ∧ ∀ a b c, e = a ++ b :: c → entByte a b = true := by
  cases h with
  | lt => exact ⟨lit "lt", by decide +kernel, by decide +kernel, entByte_prefix (by decide +kernel)⟩
  | gt => exact ⟨lit "gt", by decide +kernel, by decide +kernel, entByte_prefix (by decide +kernel)⟩
  | amp => exact ⟨lit "amp", by decide +kernel, by decide +kernel, entByte_prefix (by decide +kernel)⟩
  | apos => exact ⟨lit "apos", by decide +kernel, by decide +kernel, entByte_prefix (by decide +kernel)⟩
  | quot => exact ⟨lit "quot", by decide +kernel, by decide +kernel, entByte_prefix (by decide +kernel)⟩
  | dec ds hd =>
    have hl : lit "&#" = [38, 35] := by decide +kernel
    refine ⟨35 :: ds, by rw [hl]; rfl, ?_, ?_⟩
    · obtain ⟨d, ds, rfl⟩ := List.exists_cons_of_ne_nil hd.1
      have hd0 := hd.2 d (by simp)
      have : d ≠ 120 := by rintro rfl; revert hd0; decide
      have e : entText (35 :: d :: ds) = charRef 10 (d :: ds) := by
        unfold entText
        split
        · rename_i heq; simp only [List.cons.injEq, true_and] at heq; exact absurd heq.1 this
        · rename_i heq; simp only [List.cons.injEq, true_and] at heq; rw [← heq]
        · rename_i h2; exact absurd rfl (h2 _)
      rw [e, charRef_of (by simp) (uintVal_dec _ hd.2) hc]
    · intro a b c he
      cases a with
      | nil => simp only [List.nil_append, List.cons.injEq] at he; rw [← he.1]; decide
      | cons x a =>
        simp only [List.cons_append, List.cons.injEq] at he
        obtain ⟨rfl, he⟩ := he
        have hb : inRange 48 57 b = true := by rw [inRange_iff]; exact hd.2 b (by rw [he]; simp)
        cases a with
        | nil => simp [entByte, hb]
        | cons y a =>
          have hy := hd.2 y (by rw [he]; simp)
          have : y ≠ 120 := by rintro rfl; revert hy; decide
          unfold entByte
          split
          · rename_i heq; cases heq
          · rename_i heq; cases heq
          · rename_i heq; simp only [List.cons.injEq, true_and] at heq; exact absurd heq.1 this
          · exact hb
          · rename_i h2; exact absurd rfl (h2 _)
  | hex ds n hd =>
    obtain ⟨h1, h2, h3⟩ := hexNum_spec hd
    have hl : lit "&#x" = [38, 35, 120] := by decide +kernel
    refine ⟨35 :: 120 :: ds, by rw [hl]; rfl, by rw [entText, charRef_of h1 h2 hc], ?_⟩
    intro a b c he
    cases a with
    | nil => simp only [List.nil_append, List.cons.injEq] at he; rw [← he.1]; decide
    | cons x a =>
      simp only [List.cons_append, List.cons.injEq] at he
      obtain ⟨rfl, he⟩ := he
      cases a with
      | nil => simp only [List.nil_append, List.cons.injEq] at he; rw [← he.1]; decide
      | cons y a =>
        simp only [List.cons_append, List.cons.injEq] at he
        obtain ⟨rfl, he⟩ := he
        exact h3 b (by rw [he]; simp)

/-- What was written is read. -/
theorem textLoop_written {plain : Nat → Prop} {refs nl : Prop} (fin : GoErr) (q : Option UInt8) (cdata : Bool)
    (hq : ∀ b, q = some b → b.toNat < 128 ∧ b ≠ 38 ∧ b ≠ 13 ∧ b ≠ 10) (hp : ∀ c, plain c → c < 128 → PlainByte q cdata (UInt8.ofNat c))
    (hr : refs → cdata = false) {cs : List Nat} {raw : Bytes} (h : Written plain refs nl cs raw) :
    ∀ (R buf tail : Bytes), (q = none → NoCdEnd (R.reverse ++ raw)) → (R.headD 0 = 13 → raw.head? ≠ some 10) →
    ∃ b0 b1, textLoop fin q cdata (raw ++ tail) none (R.tail.headD 0) (R.headD 0) buf =
      textLoop fin q cdata tail none b0 b1 (buf ++ utf8 cs) := by
  induction h with
  | nil => intro R buf tail _ _; exact ⟨R.tail.headD 0, R.headD 0, by simp [utf8]⟩
  | char c cs bs hx hpl _ ih =>
    intro R buf tail hn hcr
    rw [utf8_cons c cs, List.append_assoc]
    have hs := xmlChar_scalar hx
    by_cases hc : c < 128
    · have hb := hp c hpl hc
      rw [utf8_low c hc] at hn hcr ⊢
      generalize UInt8.ofNat c = b at hb hn hcr ⊢
      rw [List.singleton_append, textLoop_plain fin q cdata b _ _ _ _ hb]
      · obtain ⟨b0, b1, e⟩ := ih (b :: R) (buf ++ [b]) tail (fun h => by simpa using hn h)
          (fun h => absurd h hb.1)
        simp only [List.tail_cons, List.headD_cons] at e
        exact ⟨b0, b1, by rw [e]; simp⟩
      · rintro ⟨h, h0, h1, rfl⟩
        apply hn h
        match R, h0, h1 with
        | [], h0, _ => exact absurd h0 (by decide)
        | [_], h0, _ => exact absurd h0 (by show ¬ ((0 : UInt8) = 93); decide)
        | x :: y :: R, h0, h1 =>
          simp only [List.tail_cons, List.headD_cons] at h0 h1
          subst h0; subst h1
          have hl : lit "]]>" = [93, 93, 62] := by decide +kernel
          exact ⟨R.reverse, bs, by rw [hl]; simp⟩
      · rintro ⟨h13, rfl⟩
        exact hcr h13 (by simp)
    · have hb : ∀ b ∈ utf8 [c], PlainByte q cdata b ∧ b ≠ 62 ∧ b ≠ 10 := by
        intro b hb
        have := utf8_high c hs (by omega) b hb
        have ne : ∀ k : UInt8, k.toNat < 128 → b ≠ k := by rintro k hk rfl; omega
        exact ⟨⟨ne _ (by decide), fun _ => ⟨ne _ (by decide), ne _ (by decide)⟩, fun h => by have := (hq b h).1; omega⟩,
          ne _ (by decide), ne _ (by decide)⟩
      rw [textLoop_run fin q cdata _ _ _ _ hb]
      obtain ⟨b0, b1, e⟩ := ih ((utf8 [c]).reverse ++ R) (buf ++ utf8 [c]) tail (fun h => by simpa using hn h) (by
        intro h
        exfalso
        obtain ⟨b, t, e, _⟩ := decode_rune c hs
        have : ((utf8 [c]).reverse ++ R).headD 0 ∈ utf8 [c] := by
          rw [← List.mem_reverse]
          have : (utf8 [c]).reverse ≠ [] := by rw [utf8_one c hs, e]; simp
          obtain ⟨y, ys, e⟩ := List.exists_cons_of_ne_nil this
          rw [e]; simp
        rw [h] at this
        exact (hb _ this).1.1 rfl)
      exact ⟨b0, b1, by rw [e]; simp⟩
  | ref c w cs bs href hx hw _ ih =>
    intro R buf tail hn _
    obtain ⟨e, rfl, ht, he⟩ := reference_spec hw hx
    have hcd := hr href
    subst hcd
    have : 38 :: (e ++ [59]) ++ bs ++ tail = 38 :: (e ++ 59 :: (bs ++ tail)) := by simp
    rw [this, textLoop_ref fin q e _ _ _ _ _ (fun h => (hq _ h).2.1 rfl) he ht]
    obtain ⟨b0, b1, e'⟩ := ih [] (buf ++ utf8 [c]) tail (fun h hi => hn h (by
      refine hi.trans ⟨R.reverse ++ (38 :: (e ++ [59])), [], by simp⟩)) (by simp)
    refine ⟨b0, b1, ?_⟩
    rw [utf8_cons c cs, ← List.append_assoc, ← e']
    rfl
  | crlf cs bs _ _ ih =>
    intro R buf tail hn _
    have hq13 : q ≠ some 13 := fun h => (hq _ h).2.2.1 rfl
    have hq10 : q ≠ some 10 := fun h => (hq _ h).2.2.2 rfl
    rw [List.cons_append, textLoop, if_neg (by simp), if_neg (by simp), if_neg hq13, if_neg (by simp), if_pos rfl,
      List.cons_append, textLoop, if_neg (by simp), if_neg (by simp), if_neg hq10, if_neg (by simp), if_neg (by simp),
      if_pos (by simp)]
    obtain ⟨b0, b1, e⟩ := ih (10 :: 13 :: R) (buf ++ [10]) tail (fun h => by simpa using hn h) (by simp)
    refine ⟨b0, b1, ?_⟩
    simp only [List.tail_cons, List.headD_cons] at e
    rw [e, utf8_cons 10 cs, utf8_low 10 (by decide)]
    simp
  | cr cs bs _ hh _ ih =>
    intro R buf tail hn _
    have hq13 : q ≠ some 13 := fun h => (hq _ h).2.2.1 rfl
    rw [List.cons_append, textLoop, if_neg (by simp), if_neg (by simp), if_neg hq13, if_neg (by simp), if_pos rfl]
    obtain ⟨b0, b1, e⟩ := ih (13 :: R) (buf ++ [10]) tail (fun h => by simpa using hn h) (fun _ => hh)
    refine ⟨b0, b1, ?_⟩
    simp only [List.tail_cons, List.headD_cons] at e
    rw [e, utf8_cons 10 cs, utf8_low 10 (by decide)]
    simp

end Grate.Xlsx
