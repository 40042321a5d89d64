import Verif.Model.MakeFormat
import Verif.Spec.FormatCode
import Mathlib.Tactic.Tauto
import Mathlib.Tactic.ByContra

/-! # Lemmas about the compiler of custom formats -/

namespace Grate

open Grate.Spec

/-! ### Text -/

theorem dropSpansGo_id (o c : UInt8) : ∀ s : Bytes, (∀ b ∈ s, b ≠ o) → dropSpansGo o c none s = s
  | [], _ => rfl
  | b :: bs, h => by
    rw [dropSpansGo, if_neg (by simpa using h b (by simp)), dropSpansGo_id o c bs (fun b hb => h b (by simp [hb]))]

theorem dropSpansGo_some (o c : UInt8) : ∀ (t r buf : Bytes), (∀ b ∈ t, b ≠ c) →
    dropSpansGo o c (some buf) (t ++ c :: r) = dropSpansGo o c none r
  | [], r, buf, _ => by simp [dropSpansGo]
  | b :: t, r, buf, h => by
    rw [List.cons_append, dropSpansGo, if_neg (by simpa using h b (by simp)),
      dropSpansGo_some o c t r _ (fun b hb => h b (by simp [hb]))]

theorem dropSpansGo_append (o c : UInt8) : ∀ (a r : Bytes), (∀ b ∈ a, b ≠ o) →
    dropSpansGo o c none (a ++ r) = a ++ dropSpansGo o c none r
  | [], _, _ => rfl
  | b :: bs, r, h => by
    rw [List.cons_append, dropSpansGo, if_neg (by simpa using h b (by simp)),
      dropSpansGo_append o c bs r (fun b hb => h b (by simp [hb]))]
    rfl

theorem dropQuoted (t r : Bytes) (h : ∀ b ∈ t, b ≠ 34) :
    dropSpansGo 34 34 none (quoted t ++ r) = dropSpansGo 34 34 none r := by
  unfold quoted
  split
  · rfl
  · rw [List.cons_append, dropSpansGo, if_pos (by rfl), List.append_assoc]
    exact dropSpansGo_some 34 34 t r [] h

theorem unquoteGo_append : ∀ (a r : Bytes), (∀ b ∈ a, b ≠ 34) → ∀ q, a ≠ [] →
    unquoteGo q (a ++ r) = a ++ unquoteGo false r
  | [], _, _, _, h => absurd rfl h
  | [b], r, h, q, _ => by
    have hb : (b == 34) = false := by simpa using h b (by simp)
    simp [unquoteGo, hb]
  | b :: c :: bs, r, h, q, _ => by
    have hb : (b == 34) = false := by simpa using h b (by simp)
    have := unquoteGo_append (c :: bs) r (fun b hb => h b (by simp [hb])) false (by simp)
    rw [List.cons_append, unquoteGo, hb]
    simp only [Bool.false_and, Bool.false_eq_true, if_false]
    rw [this]
    rfl

theorem unquoteGo_quoted (t r : Bytes) (h : ∀ b ∈ t, b ≠ 34) (hr : ∀ q, unquoteGo q r = unquoteGo false r) :
    unquoteGo false (quoted t ++ r) = t ++ unquoteGo false r := by
  unfold quoted
  split
  · next he => subst he; rfl
  · next he =>
    rw [List.cons_append, unquoteGo, if_pos (by rfl), List.append_assoc, unquoteGo_append t _ h true he]
    rw [List.singleton_append, unquoteGo, if_pos (by rfl), hr]

theorem squashGo_id : ∀ s : Bytes, (∀ b ∈ s, b ≠ 42 ∧ b ≠ 95) → squashGo 0 s = s
  | [], _ => rfl
  | b :: bs, h => by
    obtain ⟨h1, h2⟩ := h b (by simp)
    rw [squashGo.eq_def]
    dsimp only
    simp only [Bool.or_self, Bool.false_and, Bool.false_eq_true, if_false,
      show (b == 42) = false by simpa using h1, show (b == 95) = false by simpa using h2]
    rw [squashGo_id bs (fun b hb => h b (by simp [hb]))]

theorem unescapeGo_id : ∀ s : Bytes, (∀ b ∈ s, b ≠ 92) → unescapeGo false s = s
  | [], _ => rfl
  | b :: bs, h => by
    rw [unescapeGo.eq_def]
    dsimp only
    simp only [show (b == 92) = false by simpa using h b (by simp), Bool.false_and, Bool.false_eq_true, if_false]
    rw [unescapeGo_id bs (fun b hb => h b (by simp [hb]))]

theorem expRest_none (s : Bytes) (h : ∀ b ∈ s, b ≠ 69 ∧ b ≠ 101) : expRest s = none := by
  unfold expRest
  split
  · next hd =>
    rw [if_neg]
    cases s with
    | nil => simp
    | cons b bs =>
      obtain ⟨h1, h2⟩ := h b (by simp)
      simp [h1, h2]
  · rfl

theorem dropExp_id : ∀ (n : Nat) (s : Bytes), (∀ b ∈ s, b ≠ 69 ∧ b ≠ 101) → dropExp n s = s
  | 0, _, _ => rfl
  | _ + 1, [], _ => rfl
  | n + 1, c :: cs, h => by
    rw [dropExp, expRest_none _ h]
    simp only
    rw [dropExp_id n cs (fun b hb => h b (by simp [hb]))]

theorem firstIndex_append (p : UInt8 → Bool) (a r : Bytes) (b : UInt8) (ha : ∀ x ∈ a, p x = false) (hb : p b = true) :
    firstIndex p (a ++ b :: r) = a.length := by
  have : (a ++ b :: r).findIdx? p = some a.length := by
    rw [List.findIdx?_append, List.findIdx?_eq_none_iff.2 (by simpa using ha)]
    simp [List.findIdx?_cons, hb]
  unfold firstIndex
  rw [this]

theorem lastIndex_append (p : UInt8 → Bool) (a r : Bytes) (b : UInt8) (hr : ∀ x ∈ r, p x = false) (hb : p b = true) :
    lastIndex p (a ++ b :: r) = a.length := by
  have : (a ++ b :: r).reverse.findIdx? p = some r.length := by
    rw [List.reverse_append, List.reverse_cons, List.append_assoc, List.findIdx?_append,
      List.findIdx?_eq_none_iff.2 (by simpa using hr)]
    simp [List.findIdx?_cons, hb]
  unfold lastIndex
  rw [this]
  simp
  omega

theorem hasAny_false {cs s : Bytes} (h : ∀ b ∈ s, cs.contains b = false) : hasAny cs s = false := by
  unfold hasAny
  rw [List.any_eq_false]
  intro b hb
  rw [h b hb]
  simp

theorem hasAny_true {cs s : Bytes} {b : UInt8} (hb : b ∈ s) (h : cs.contains b = true) : hasAny cs s = true := by
  unfold hasAny
  rw [List.any_eq_true]
  exact ⟨b, hb, h⟩

theorem quoted_mem {t : Bytes} {b : UInt8} (h : b ∈ quoted t) : b = 34 ∨ b ∈ t := by
  unfold quoted at h
  split at h
  · simp at h
  · simp only [List.mem_cons, List.mem_append, List.not_mem_nil, or_false] at h
    rcases h with h | h | h
    · exact .inl h
    · exact .inr h
    · exact .inl h

/-! ### Number formats -/

/-- Digit placeholders. -/
def isPlace (b : UInt8) : Bool := b == 48 || b == 35 || b == 63 || b == 44 || b == 46

theorem plain_quoted {t : Bytes} (h : PlainText t) : ∀ b ∈ quoted t, b ≠ 91 ∧ b ≠ 59 ∧ b ≠ 92 ∧ b ≠ 42 ∧ b ≠ 95 ∧
    b ≠ 37 ∧ b ≠ 48 ∧ b ≠ 35 ∧ b ≠ 63 ∧ b ≠ 44 ∧ b ≠ 46 ∧ b ≠ 69 ∧ b ≠ 101 := by
  intro b hb
  rcases quoted_mem hb with rfl | hb
  · decide
  · exact (h b hb).2

/-- What the number part compiles to. -/
def numInner (c : NumCode) : Fmt :=
  .sprintf (if c.decimals = 0 then .d 0 []
    else .f (37 :: decInt ((c.decimals : Int) + 1) ++ 46 :: decInt (c.decimals : Int) ++ lit "f"))
    (if c.percent then 100 else 1)

def numBody (c : NumCode) : Fmt := if c.group then .commas (numInner c) else numInner c

def numCompiled (c : NumCode) : Fmt :=
  if c.pre = [] ∧ c.sign = [] ∧ c.post = [] then numBody c
  else .surround c.pre (numBody c) (c.sign ++ c.post)

theorem digits_mem {c : NumCode} {b : UInt8} (h : b ∈ c.digits) : b = 48 ∨ b = 35 ∨ b = 44 ∨ b = 46 := by
  unfold NumCode.digits at h
  rcases List.mem_append.1 h with h | h
  · split at h
    · simp at h; tauto
    · simp at h; tauto
  · split at h
    · simp at h
    · simp only [List.mem_cons, List.mem_replicate] at h
      tauto

theorem sign_mem {c : NumCode} {b : UInt8} (h : b ∈ c.sign) : b = 37 := by
  unfold NumCode.sign at h
  split at h <;> simp at h
  exact h

theorem text_mem {c : NumCode} (hpre : PlainText c.pre) (hpost : PlainText c.post) {b : UInt8} (h : b ∈ c.text) :
    b ≠ 91 ∧ b ≠ 59 ∧ b ≠ 92 ∧ b ≠ 42 ∧ b ≠ 95 ∧ b ≠ 69 ∧ b ≠ 101 := by
  unfold NumCode.text at h
  simp only [List.mem_append] at h
  rcases h with ((h | h) | h) | h
  · have := plain_quoted hpre b h; tauto
  · rcases digits_mem h with rfl | rfl | rfl | rfl <;> decide
  · rw [sign_mem h]; decide
  · have := plain_quoted hpost b h; tauto

theorem digits_noComma (c : NumCode) : ∃ a : Bytes, (∀ x ∈ a, (x == 48) = false ∧ (x == 46) = false) ∧
    c.digits.filter (· != 44) = a ++ 48 :: (if c.decimals = 0 then [] else 46 :: List.replicate c.decimals 48) := by
  refine ⟨if c.group then [35, 35, 35] else [], ?_, ?_⟩
  · split <;> simp
  · unfold NumCode.digits
    have : (List.replicate c.decimals (48 : UInt8)).filter (· != 44) = List.replicate c.decimals 48 := by
      rw [List.filter_eq_self]
      intro b hb
      rw [(List.mem_replicate.1 hb).2]
      decide
    rw [List.filter_append]
    by_cases hg : c.group <;> by_cases hd : c.decimals = 0 <;> simp [hg, hd, this]

theorem filter_self {s : Bytes} (h : ∀ b ∈ s, b ≠ 44) : s.filter (· != 44) = s := by
  rw [List.filter_eq_self]
  intro b hb
  simpa using h b hb

theorem digits_place (c : NumCode) : ∀ b ∈ c.digits, isPlace b = true := by
  intro b hb
  rcases digits_mem hb with rfl | rfl | rfl | rfl <;> rfl

theorem takeWhile_stop {α : Type} (p : α → Bool) (a : List α) (b : α) (r : List α) (ha : ∀ x ∈ a, p x = true)
    (hb : p b = false) : (a ++ b :: r).takeWhile p = a ∧ (a ++ b :: r).dropWhile p = b :: r := by
  constructor
  · rw [List.takeWhile_append_of_pos ha]
    simp [hb]
  · rw [List.dropWhile_append_of_pos ha]
    simp [hb]

theorem dropWhile_all {α : Type} (p : α → Bool) (a r : List α) (ha : ∀ x ∈ a, p x = true)
    (hr : ∀ x ∈ r, p x = false) : (a ++ r).dropWhile p = r := by
  rw [List.dropWhile_append_of_pos ha]
  cases r with
  | nil => rfl
  | cons b r => simp [hr b (by simp)]

theorem digits_head (c : NumCode) : ∃ d ds, c.digits = d :: ds := by
  unfold NumCode.digits
  split
  · exact ⟨_, _, rfl⟩
  · exact ⟨_, _, rfl⟩

theorem splitDigits_num (c : NumCode) (hpre : PlainText c.pre) (hpost : PlainText c.post) :
    splitDigits c.text = some (quoted c.pre, c.sign ++ quoted c.post) := by
  have hQ : ∀ b ∈ quoted c.pre, isPlace b = false := by
    intro b hb
    have := plain_quoted hpre b hb
    unfold isPlace
    simp only [Bool.or_eq_false_iff, beq_eq_false_iff_ne]
    tauto
  have hP : ∀ b ∈ c.sign ++ quoted c.post, isPlace b = false := by
    intro b hb
    rcases List.mem_append.1 hb with hb | hb
    · rw [sign_mem hb]; rfl
    · have := plain_quoted hpost b hb
      unfold isPlace
      simp only [Bool.or_eq_false_iff, beq_eq_false_iff_ne]
      tauto
  obtain ⟨d, ds, hd⟩ := digits_head c
  have hd1 : isPlace d = true := digits_place c d (by rw [hd]; simp)
  have e : c.text = quoted c.pre ++ d :: (ds ++ (c.sign ++ quoted c.post)) := by
    unfold NumCode.text
    rw [hd]
    simp
  obtain ⟨e1, e2⟩ := takeWhile_stop (fun b => !isPlace b) (quoted c.pre) d (ds ++ (c.sign ++ quoted c.post))
    (fun x hx => by rw [hQ x hx]; rfl) (by rw [hd1]; rfl)
  have e3 : (d :: (ds ++ (c.sign ++ quoted c.post))).dropWhile isPlace = c.sign ++ quoted c.post :=
    dropWhile_all isPlace (d :: ds) _ (fun x hx => digits_place c x (by rw [hd]; exact hx)) hP
  unfold splitDigits
  change (if c.text.any isPlace then some (c.text.takeWhile (fun b => !isPlace b),
    (c.text.dropWhile (fun b => !isPlace b)).dropWhile isPlace) else none) = _
  rw [if_pos (List.any_eq_true.2 ⟨d, by rw [e]; simp, hd1⟩), e, e1, e2, e3]

theorem cleanText_of {s t : Bytes} (h : unquoteGo false s = t) (ht : ∀ b ∈ t, b ≠ 42 ∧ b ≠ 95 ∧ b ≠ 92) :
    cleanText s = t := by
  unfold cleanText
  rw [h, squashGo_id t (fun b hb => ⟨(ht b hb).1, (ht b hb).2.1⟩), unescapeGo_id t (fun b hb => (ht b hb).2.2)]

theorem unquote_post (c : NumCode) (hpost : PlainText c.post) :
    unquoteGo false (c.sign ++ quoted c.post) = c.sign ++ c.post := by
  have hq : unquoteGo false (quoted c.post) = c.post := by
    have := unquoteGo_quoted c.post [] (fun b hb => (hpost b hb).1) (fun q => by cases q <;> rfl)
    simpa [unquoteGo] using this
  unfold NumCode.sign
  split
  · rw [unquoteGo_append [37] _ (by decide) false (by decide), hq]
  · exact hq

theorem numberFmt_num (c : NumCode) (hpre : PlainText c.pre) (hpost : PlainText c.post) :
    numberFmt c.text = (c.text, numInner c, if c.decimals = 0 then .integer else .float) := by
  have hmul : percentMul (c.text.filter (· != 44)) = if c.percent then 100 else 1 := by
    unfold percentMul
    by_cases hp : c.percent
    · rw [if_pos, if_pos hp]
      simp [NumCode.text, NumCode.sign, hp]
    · rw [if_neg, if_neg hp]
      simp only [List.contains_iff_mem, List.mem_filter, not_and]
      intro h
      exfalso
      unfold NumCode.text at h
      simp only [List.mem_append] at h
      rcases h with ((h | h) | h) | h
      · exact (plain_quoted hpre _ h).2.2.2.2.2.1 rfl
      · rcases digits_mem h with h | h | h | h <;> exact absurd h (by decide)
      · unfold NumCode.sign at h
        rw [if_neg hp] at h
        simp at h
      · exact (plain_quoted hpost _ h).2.2.2.2.2.1 rfl
  obtain ⟨a, ha, hfd⟩ := digits_noComma c
  have hfilter : c.text.filter (· != 44) = quoted c.pre ++ (a ++ 48 :: ((if c.decimals = 0 then []
      else 46 :: List.replicate c.decimals 48) ++ (c.sign ++ quoted c.post))) := by
    unfold NumCode.text
    simp only [List.filter_append]
    rw [hfd, filter_self (fun b hb => (plain_quoted hpre b hb).2.2.2.2.2.2.2.2.2.1),
      filter_self (s := c.sign) (fun b hb => by rw [sign_mem hb]; decide),
      filter_self (fun b hb => (plain_quoted hpost b hb).2.2.2.2.2.2.2.2.2.1)]
    simp
  have hQ : ∀ b ∈ quoted c.pre, (b == 48) = false ∧ (b == 46) = false := by
    intro b hb
    have := plain_quoted hpre b hb
    simp only [beq_eq_false_iff_ne]
    tauto
  have hP : ∀ b ∈ c.sign ++ quoted c.post, (b == 48) = false ∧ (b == 46) = false := by
    intro b hb
    rcases List.mem_append.1 hb with hb | hb
    · rw [sign_mem hb]; decide
    · have := plain_quoted hpost b hb
      simp only [beq_eq_false_iff_ne]
      tauto
  have hQa : ∀ b ∈ quoted c.pre ++ a, (b == 48) = false ∧ (b == 46) = false := by
    intro b hb
    rcases List.mem_append.1 hb with hb | hb
    · exact hQ b hb
    · exact ha b hb
  unfold numberFmt
  by_cases hk : c.decimals = 0
  · have hno : hasAny (lit ".Ee") c.text = false := by
      refine hasAny_false (fun b hb => ?_)
      have h1 := text_mem hpre hpost hb
      have h2 : b ≠ 46 := by
        rintro rfl
        unfold NumCode.text at hb
        simp only [List.mem_append] at hb
        rcases hb with ((h | h) | h) | h
        · exact absurd rfl (plain_quoted hpre _ h).2.2.2.2.2.2.2.2.2.2.1
        · unfold NumCode.digits at h
          rw [if_pos hk, List.append_nil] at h
          split at h <;> simp at h
        · exact absurd (sign_mem h) (by decide)
        · exact absurd rfl (plain_quoted hpost _ h).2.2.2.2.2.2.2.2.2.2.1
      have : lit ".Ee" = [46, 69, 101] := by decide +kernel
      rw [this]
      simp only [List.contains_cons, List.contains_nil, Bool.or_false, Bool.or_eq_false_iff, beq_eq_false_iff_ne]
      tauto
    rw [if_neg (by rw [hno]; simp)]
    simp only
    rw [hmul, hfilter, if_pos hk, ← List.append_assoc,
      firstIndex_append (· == 48) _ _ 48 (fun x hx => (hQa x hx).1) rfl,
      lastIndex_append (fun b => b == 48 || b == 46) _ _ 48 (fun x hx => by
        have := hP x (by simpa using hx)
        simp [this.1, this.2]) rfl]
    unfold numInner
    rw [if_pos hk, if_pos hk]
    simp
  · have hyes : hasAny (lit ".Ee") c.text = true := by
      refine hasAny_true (b := 46) ?_ (by decide +kernel)
      unfold NumCode.text NumCode.digits
      simp [hk]
    have hE : hasAny (lit "Ee") c.text = false := by
      refine hasAny_false (fun b hb => ?_)
      have h1 := text_mem hpre hpost hb
      have : lit "Ee" = [69, 101] := by decide +kernel
      rw [this]
      simp only [List.contains_cons, List.contains_nil, Bool.or_false, Bool.or_eq_false_iff, beq_eq_false_iff_ne]
      tauto
    rw [if_pos hyes, dropExp_id _ _ (fun b hb => ⟨(text_mem hpre hpost hb).2.2.2.2.2.1, (text_mem hpre hpost hb).2.2.2.2.2.2⟩)]
    simp only [hE, Bool.false_eq_true, if_false]
    rw [hmul, hfilter, if_neg hk]
    have e1 : firstIndex (· == 48) (quoted c.pre ++ (a ++ 48 :: ((46 :: List.replicate c.decimals 48) ++
        (c.sign ++ quoted c.post)))) = ((quoted c.pre ++ a).length : Int) := by
      rw [← List.append_assoc]
      exact firstIndex_append (· == 48) _ _ 48 (fun x hx => (hQa x hx).1) rfl
    have e2 : firstIndex (· == 46) (quoted c.pre ++ (a ++ 48 :: ((46 :: List.replicate c.decimals 48) ++
        (c.sign ++ quoted c.post)))) = ((quoted c.pre ++ a ++ [48]).length : Int) := by
      have : quoted c.pre ++ (a ++ 48 :: ((46 :: List.replicate c.decimals 48) ++
        (c.sign ++ quoted c.post))) = (quoted c.pre ++ a ++ [48]) ++ 46 :: (List.replicate c.decimals 48 ++
        (c.sign ++ quoted c.post)) := by simp
      rw [this]
      refine firstIndex_append (· == 46) _ _ 46 (fun x hx => ?_) rfl
      rcases List.mem_append.1 hx with hx | hx
      · exact (hQa x hx).2
      · rw [List.mem_singleton.1 hx]; rfl
    have e3 : lastIndex (fun b => b == 48 || b == 46) (quoted c.pre ++ (a ++ 48 :: ((46 :: List.replicate c.decimals 48) ++
        (c.sign ++ quoted c.post)))) = ((quoted c.pre ++ a ++ [48]).length + c.decimals : Int) := by
      obtain ⟨k, hk'⟩ := Nat.exists_eq_succ_of_ne_zero hk
      have : quoted c.pre ++ (a ++ 48 :: ((46 :: List.replicate c.decimals 48) ++
        (c.sign ++ quoted c.post))) = (quoted c.pre ++ a ++ [48, 46] ++ List.replicate k 48) ++ 48 ::
        (c.sign ++ quoted c.post) := by
        rw [hk', List.replicate_succ']
        simp
      rw [this, lastIndex_append (fun b => b == 48 || b == 46) _ _ 48 (fun x hx => by
        have := hP x hx
        simp [this.1, this.2]) rfl, hk']
      simp
      omega
    rw [e1, e2, e3]
    unfold numInner
    rw [if_neg hk, if_neg hk]
    have d1 : ((quoted c.pre ++ a ++ [48]).length + c.decimals : Int) - ((quoted c.pre ++ a).length : Int) =
        (c.decimals : Int) + 1 := by simp; omega
    have d2 : ((quoted c.pre ++ a ++ [48]).length + c.decimals : Int) - ((quoted c.pre ++ a ++ [48]).length : Int) =
        (c.decimals : Int) := by omega
    rw [d1, d2]

theorem makeFormatter_num (c : NumCode) (hpre : PlainText c.pre) (hpost : PlainText c.post) :
    makeFormatter c.text = (numCompiled c, if c.decimals = 0 then .integer else .float) := by
  have h91 : dropSpans 91 93 c.text = c.text := dropSpansGo_id 91 93 _ (fun b hb => (text_mem hpre hpost hb).1)
  have h59 : c.text.contains 59 = false := by
    rw [Bool.eq_false_iff]
    intro h
    exact (text_mem hpre hpost (List.contains_iff_mem.1 h)).2.1 rfl
  have h34 : dropSpans 34 34 c.text = c.digits ++ c.sign := by
    unfold dropSpans NumCode.text
    rw [List.append_assoc, List.append_assoc, dropQuoted _ _ (fun b hb => (hpre b hb).1), ← List.append_assoc,
      dropSpansGo_append]
    · have := dropQuoted c.post [] (fun b hb => (hpost b hb).1)
      rw [List.append_nil] at this
      rw [this]
      simp [dropSpansGo]
    · intro b hb
      rcases List.mem_append.1 hb with hb | hb
      · rcases digits_mem hb with rfl | rfl | rfl | rfl <;> decide
      · rw [sign_mem hb]; decide
  have hdate : hasAny (lit "ymdhs") (c.digits ++ c.sign) = false := by
    refine hasAny_false (fun b hb => ?_)
    have : lit "ymdhs" = [121, 109, 100, 104, 115] := by decide +kernel
    rw [this]
    rcases List.mem_append.1 hb with hb | hb
    · rcases digits_mem hb with rfl | rfl | rfl | rfl <;> decide
    · rw [sign_mem hb]; decide
  have hcomma : c.text.contains 44 = c.group := by
    rw [Bool.eq_iff_iff, List.contains_iff_mem]
    constructor
    · intro h
      unfold NumCode.text at h
      simp only [List.mem_append] at h
      rcases h with ((h | h) | h) | h
      · exact absurd rfl (plain_quoted hpre _ h).2.2.2.2.2.2.2.2.2.1
      · unfold NumCode.digits at h
        rcases List.mem_append.1 h with h | h
        · by_contra hg
          rw [if_neg hg] at h
          simp at h
        · split at h
          · simp at h
          · simp [List.mem_replicate] at h
      · exact absurd (sign_mem h) (by decide)
      · exact absurd rfl (plain_quoted hpost _ h).2.2.2.2.2.2.2.2.2.1
    · intro hg
      unfold NumCode.text NumCode.digits
      simp [hg]
  have hpreClean : (if (quoted c.pre).isEmpty then quoted c.pre else cleanText (quoted c.pre)) = c.pre := by
    by_cases he : c.pre = []
    · rw [he]; rfl
    · have : (quoted c.pre).isEmpty = false := by
        unfold quoted
        rw [if_neg he]
        rfl
      rw [this]
      simp only [Bool.false_eq_true, if_false]
      refine cleanText_of ?_ (fun b hb => ?_)
      · have := unquoteGo_quoted c.pre [] (fun b hb => (hpre b hb).1) (fun q => by cases q <;> rfl)
        simpa [unquoteGo] using this
      · have := hpre b hb
        tauto
  have hpostClean : cleanText (c.sign ++ quoted c.post) = c.sign ++ c.post := by
    refine cleanText_of (unquote_post c hpost) (fun b hb => ?_)
    rcases List.mem_append.1 hb with hb | hb
    · rw [sign_mem hb]; decide
    · have := hpost b hb
      tauto
  unfold makeFormatter
  simp only [h91, h59, Bool.false_eq_true, if_false]
  unfold makeSection
  rw [h34, hdate]
  simp only [Bool.false_eq_true, if_false]
  rw [numberFmt_num c hpre hpost]
  simp only [hcomma, splitDigits_num c hpre hpost, hpreClean, hpostClean]
  unfold numCompiled numBody
  have hcond : (!c.pre.isEmpty || !(c.sign ++ quoted c.post).isEmpty) = true ↔
      ¬ (c.pre = [] ∧ c.sign = [] ∧ c.post = []) := by
    have : (quoted c.post).isEmpty = c.post.isEmpty := by
      unfold quoted
      split
      · next h => rw [h]
      · next h => cases hp : c.post with
        | nil => exact absurd hp h
        | cons => rfl
    have e : (c.sign ++ quoted c.post).isEmpty = (c.sign.isEmpty && c.post.isEmpty) := by
      rw [← this]
      cases c.sign <;> simp
    rw [e]
    cases c.pre <;> cases c.sign <;> cases c.post <;> simp
  by_cases hc : c.pre = [] ∧ c.sign = [] ∧ c.post = []
  · rw [if_neg (fun h => hcond.1 h hc), if_pos hc]
  · rw [if_pos (hcond.2 hc), if_neg hc]

end Grate
