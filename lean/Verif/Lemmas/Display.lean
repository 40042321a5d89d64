import Verif.Spec.Display
import Verif.Props.Fraction
import Verif.Props.MakeFormat
import Verif.Props.Sheet

/-! # Lemmas for displayed text: which formats can crash -/

namespace Grate.Display

open Grate Grate.Spec Grate.Props

theorem decNat_ne_nil (n : Nat) : decNat n ≠ [] := (decNat_isDigits n).1

theorem decInt_ne_nil (n : Int) : decInt n ≠ [] := by
  unfold decInt
  split
  · simp
  · exact decNat_ne_nil _

theorem sprint_ne_nil {ext : Ext} (hp : Prints ext) {v : Val} (hv : v ≠ .str []) : sprint ext v ≠ [] := by
  cases v with
  | nil => exact show lit "<nil>" ≠ [] by decide +kernel
  | bool b =>
    cases b
    · exact show lit "false" ≠ [] by decide +kernel
    · exact show lit "true" ≠ [] by decide +kernel
  | int n => exact decInt_ne_nil n
  | float x => exact hp.float x
  | str s => intro h; exact hv (congrArg _ h)
  | time t => exact hp.time t

/-- Formats that print something for every value that is not the empty text. -/
def Solid : Fmt → Prop
  | .sprintf (.d _ _) _ => True
  | .sprintf (.f text) _ => text ≠ []
  | .commas f => Solid f
  | .negParens f => Solid f
  | _ => False

/-- Formats that do not crash on values that are not the empty text. -/
def Safe : Fmt → Prop
  | .surround _ f _ => Safe f
  | .negParens f => Solid f
  | .commas f => Solid f
  | .zeroDash f => Safe f
  | .frac n => 1 ≤ n ∧ n ≤ 2
  | .switch4 a b c d => Safe a ∧ Safe b ∧ Safe c ∧ Safe d
  | _ => True

theorem sprintf_ne_nil {ext : Ext} (hp : Prints ext) {verb : Verb} {mul : Nat} (hs : Solid (.sprintf verb mul))
    {v : Val} (hv : v ≠ .str []) : sprintfFmt ext verb mul v ≠ [] := by
  have hw : ∀ (w : Nat) (suf : Bytes), (37 :: decNat w ++ 100 :: suf : Bytes) ≠ [] := by simp
  cases v with
  | int n =>
    cases verb with
    | d w suf =>
      simp only [sprintfFmt]
      intro h
      exact decInt_ne_nil n (List.append_eq_nil_iff.1 (List.append_eq_nil_iff.1 h).1).2
    | f text => exact hp.sprintfInt _ _ hs
  | float x =>
    cases verb with
    | d w suf =>
      cases w with
      | zero =>
        simp only [sprintfFmt]
        intro h
        exact decInt_ne_nil _ (List.append_eq_nil_iff.1 h).1
      | succ w =>
        simp only [sprintfFmt]
        exact hp.sprintfFloat _ _ (hw _ _)
    | f text =>
      simp only [sprintfFmt]
      exact hp.sprintfFloat _ _ hs
  | nil => exact sprint_ne_nil hp hv
  | bool b => exact sprint_ne_nil hp hv
  | str s => exact sprint_ne_nil hp hv
  | time t => exact sprint_ne_nil hp hv

theorem commaLoop_ne_nil : ∀ (fuel e : Nat) (s : Bytes), s ≠ [] → commaLoop fuel e s ≠ []
  | 0, _, _, h => h
  | fuel + 1, e, s, h => by
    unfold commaLoop
    split
    · exact commaLoop_ne_nil fuel _ _ (by simp)
    · exact h

theorem addCommas_ok {s : Bytes} (h : s ≠ []) : ∃ r, addCommas s = .ok r ∧ r ≠ [] := by
  cases s with
  | nil => exact absurd rfl h
  | cons c cs =>
    unfold addCommas
    simp only
    split
    · exact ⟨_, rfl, by simp⟩
    · exact ⟨_, rfl, commaLoop_ne_nil _ _ _ (by simp)⟩

theorem addNegParens_ok {s : Bytes} (h : s ≠ []) : ∃ r, addNegParens s = .ok r ∧ r ≠ [] := by
  cases s with
  | nil => exact absurd rfl h
  | cons c cs =>
    unfold addNegParens
    simp only
    split
    · exact ⟨_, rfl, by simp⟩
    · exact ⟨_, rfl, by simp⟩

theorem solid_eval {ext : Ext} (hp : Prints ext) (m : Bool) {v : Val} (hv : v ≠ .str []) :
    ∀ f : Fmt, Solid f → ∃ s, f.eval ext m v = .ok s ∧ s ≠ []
  | .sprintf verb mul, h => ⟨_, rfl, sprintf_ne_nil hp h hv⟩
  | .commas f, h => by
    obtain ⟨s, e, hs⟩ := solid_eval hp m hv f h
    rw [Fmt.eval, e]
    exact addCommas_ok hs
  | .negParens f, h => by
    obtain ⟨s, e, hs⟩ := solid_eval hp m hv f h
    rw [Fmt.eval, e]
    exact addNegParens_ok hs
  | .ident, h => h.elim
  | .static _, h => h.elim
  | .surround _ _ _, h => h.elim
  | .zeroDash _, h => h.elim
  | .frac _, h => h.elim
  | .switch4 _ _ _ _, h => h.elim
  | .time _, h => h.elim
  | .cnTime _, h => h.elim

theorem safe_eval {ext : Ext} (hp : Prints ext) (m : Bool) {v : Val} (hv : v ≠ .str []) :
    ∀ f : Fmt, Safe f → ∃ s, f.eval ext m v = .ok s
  | .sprintf _ _, _ => ⟨_, rfl⟩
  | .ident, _ => ⟨_, rfl⟩
  | .static _, _ => ⟨_, rfl⟩
  | .commas f, h => by
    obtain ⟨s, e, _⟩ := solid_eval hp m hv (.commas f) h
    exact ⟨s, e⟩
  | .negParens f, h => by
    obtain ⟨s, e, _⟩ := solid_eval hp m hv (.negParens f) h
    exact ⟨s, e⟩
  | .surround pre f post, h => by
    obtain ⟨s, e⟩ := safe_eval hp m hv f h
    exact ⟨pre ++ s ++ post, by rw [Fmt.eval, e]; rfl⟩
  | .zeroDash f, h => by
    obtain ⟨s, e⟩ := safe_eval hp m hv f h
    rw [Fmt.eval]
    split
    · exact ⟨_, rfl⟩
    · split
      · exact ⟨_, rfl⟩
      · exact ⟨s, e⟩
  | .frac n, h => by
    rw [Fmt.eval, fracFmt]
    split
    · exact ⟨_, rfl⟩
    · rename_i x _
      have h10 : 10 ^ n + 1 ≤ fracFuel := by
        have : 10 ^ n ≤ 10 ^ 2 := Nat.pow_le_pow_right (by omega) h.2
        unfold fracFuel
        omega
      obtain ⟨⟨a, b, c⟩, e⟩ := C32_ends x n n h.1 (by have := h.2; omega) h.1 (by have := h.2; omega) fracFuel h10
      rw [e]
      simp only
      split
      · exact ⟨_, rfl⟩
      · split <;> exact ⟨_, rfl⟩
  | .switch4 a b c d, h => by
    rw [Fmt.eval]
    split
    · exact safe_eval hp m hv d h.2.2.2
    · split
      · exact safe_eval hp m hv c h.2.2.1
      · split
        · exact safe_eval hp m hv b h.2.1
        · exact safe_eval hp m hv a h.1
  | .time _, _ => by
    rw [Fmt.eval.eq_def]
    dsimp only
    split
    · exact ⟨_, rfl⟩
    · split <;> exact ⟨_, rfl⟩
  | .cnTime _, _ => by
    rw [Fmt.eval.eq_def]
    dsimp only
    split
    · exact ⟨_, rfl⟩
    · split <;> exact ⟨_, rfl⟩

theorem safe_builtin (n : Nat) (f : Fmt) (h : goFormatters n = some f) : Safe f := by
  unfold goFormatters at h
  split at h <;> first
    | (cases h; done)
    | (cases h; trivial)
    | (cases h; show Solid _; simp only [Solid]; decide +kernel)
    | (cases h; simp only [Safe, Solid, switchFmt]; decide +kernel)

theorem safe_section (s : Bytes) : Safe (makeSection s).1 := by
  unfold makeSection
  split
  · trivial
  · have hn : Solid (numberFmt s).2.1 := by
      unfold numberFmt
      split
      · simp [Solid]
      · trivial
    have hc : ∀ t : Bytes, Solid (if t.contains 44 then .commas (numberFmt s).2.1 else (numberFmt s).2.1) := by
      intro t
      split
      · exact hn
      · exact hn
    have hsafe : ∀ f, Solid f → Safe f := by
      intro f h
      cases f <;> trivial
    simp only
    split
    · generalize (if List.isEmpty (numberFmt s).1 = true then (numberFmt s).1 else cleanText (numberFmt s).1) = pre
      split <;> trivial
    · rename_i pre post _
      generalize (if List.isEmpty pre = true then pre else cleanText pre) = pre
      split
      · show Safe (Fmt.surround _ _ _)
        show Safe (if List.contains (numberFmt s).1 44 = true then _ else _)
        exact hsafe _ (hc (numberFmt s).1)
      · exact hsafe _ (hc _)

theorem safe_make (s : Bytes) : Safe (makeFormatter s).1 := by
  unfold makeFormatter
  simp only
  split
  · split
    · trivial
    · rename_i p ps h
      have hall : ∀ q ∈ p :: ps, Safe q.1 := by
        intro q hq
        rw [← h] at hq
        obtain ⟨x, _, rfl⟩ := List.mem_map.1 hq
        exact safe_section _
      have hp := hall p List.mem_cons_self
      have ho : ∀ x ∈ ps.map (·.1), Safe x := by
        intro x hx
        obtain ⟨q, hq, rfl⟩ := List.mem_map.1 hx
        exact hall q (List.mem_cons_of_mem _ hq)
      generalize ps.map (·.1) = others at ho
      unfold switchFmt
      refine ⟨hp, ?_, ?_, ?_⟩
      · split
        · exact ho _ (by simp)
        · exact hp
      · split
        · exact ho _ (by simp)
        · exact hp
      · split
        · exact ho _ (by simp)
        · trivial
  · exact safe_section _

theorem safe_codes {f : Formatter} (h : Made f) : ∀ n x, f.codes n = some x → Safe x := by
  induction h with
  | new => intro n x hx; cases hx
  | mode b _ ih => exact ih
  | @add x id code _ ih =>
    intro n y hy
    unfold Formatter.add at hy
    split at hy
    · simp only [upd] at hy
      split at hy
      · cases hy; trivial
      · exact ih _ _ hy
    · split at hy
      · exact ih _ _ hy
      · split at hy
        · exact ih _ _ hy
        · simp only [upd] at hy
          split at hy
          · cases hy; exact safe_make code
          · exact ih _ _ hy

/-- The format found for a known number. -/
theorem known_format {f : Formatter} (hf : Made f) {n : Nat} (hn : Known f n) :
    ∃ x, Safe x ∧ ∀ ext v, f.apply ext n v = (x.eval ext f.mode1904 v >>= fun s => pure (s, true)) := by
  unfold Known Formatter.get at hn
  unfold Formatter.apply
  cases hg : goFormatters n with
  | some x => exact ⟨x, safe_builtin n x hg, fun _ _ => rfl⟩
  | none =>
    rw [hg] at hn
    simp only at hn
    cases hc : f.codes n with
    | some x => exact ⟨x, safe_codes hf n x hc, fun _ _ => rfl⟩
    | none => rw [hc] at hn; cases hn

theorem utf8Rune_ne_nil (r : Nat) : utf8Rune r ≠ [] := by
  unfold utf8Rune
  repeat' split
  all_goals simp

theorem utf8Encode_ne_nil {rs : List Nat} (h : rs ≠ []) : utf8Encode rs ≠ [] := by
  cases rs with
  | nil => exact absurd rfl h
  | cons r rs =>
    unfold utf8Encode
    rw [List.flatMap_cons]
    intro hc
    exact utf8Rune_ne_nil r (List.append_eq_nil_iff.1 hc).1

theorem utf16Decode_ne_nil {us : List Nat} (h : us ≠ []) : utf16Decode us ≠ [] := by
  match us with
  | [] => exact absurd rfl h
  | [u] => unfold utf16Decode; split <;> simp
  | u :: v :: rest =>
    unfold utf16Decode
    split
    · simp
    · split <;> simp

/-- No cell is made with the empty text as its value. -/
theorem newCell_value {v : GoVal} {x : Val} {t : CellType} {o : Option Nat} {u : List Bytes}
    (h : newCell v = .ok (.full x t o u)) : x ≠ .str [] := by
  have ht : ∀ s, textCell s = .full x t o u → x ≠ .str [] := by
    intro s hs
    unfold textCell at hs
    split at hs
    · cases hs; simp
    · rename_i hne
      cases hs
      simpa using hne
  cases v <;> simp only [newCell] at h <;> first
    | (cases h; done)
    | (cases h; simp)
    | exact ht _ (GoRes.ok.inj h)
    | skip
  · split at h <;> cases h <;> simp
  · split at h <;> cases h <;> simp
  · split at h
    · cases h; simp
    · rename_i hne
      cases h
      simpa using utf8Encode_ne_nil (utf16Decode_ne_nil hne)
  · split at h
    · cases h; simp
    · rename_i hne
      cases h
      simpa using utf8Encode_ne_nil hne

theorem coerce_value {ext : Ext} (hp : Prints ext) (m : Bool) (t : CellType) {v : Val} (ty : CellType) (hv : v ≠ .str []) :
    (coerce ext m t v ty).1 ≠ .str [] := by
  have hb : (coerceBool t v ty).1 ≠ .str [] := by
    unfold coerceBool
    split
    · split
      · simp
      · simp
      · have h1 : lit "FALSE" ≠ [] := by decide +kernel
        have h2 : lit "TRUE" ≠ [] := by decide +kernel
        split <;> simp [h1, h2]
      · exact hv
    · exact hv
  have hf : ∀ a b, a ≠ .str [] → (coerceFloat t a b).1 ≠ .str [] := by
    intro a b h
    unfold coerceFloat
    split
    · split <;> first | exact h | simp
    · exact h
  have hi : ∀ a b, a ≠ .str [] → (coerceInt t a b).1 ≠ .str [] := by
    intro a b h
    unfold coerceInt
    split
    · split <;> first | exact h | simp
    · exact h
  have hs : ∀ a b, a ≠ .str [] → (coerceStr ext t a b).1 ≠ .str [] := by
    intro a b h
    unfold coerceStr
    split
    · split <;> first | exact h | simp
    · exact h
  have hl : ∀ a b, a ≠ .str [] → (coerceLast ext m t a b).1 ≠ .str [] := by
    intro a b h
    unfold coerceLast
    split
    · simpa using sprint_ne_nil hp h
    · split <;> first | exact h | simp
    · exact h
  unfold coerce
  simp only
  exact hl _ _ (hs _ _ (hi _ _ (hf _ _ hb)))

/-- What `Put` stores is a marker or a value other than the empty text under its format number. -/
theorem putCell_shape {ext : Ext} (hp : Prints ext) {f : Formatter} {v : GoVal} {n : Nat} {c : Cell}
    (h : putCell ext f v n = .ok c) :
    (∃ s, c = .full (.str s) .static none []) ∨ (c.value ≠ .str [] ∧ c.formatNo = n ∧ c.type ≠ .static) := by
  have hcs := putCell_cases h
  unfold putCell at h
  cases hm : v.marker with
  | true =>
    rw [hm] at h
    cases v with
    | str s =>
      left
      simp only [cond_true, staticCell, newCell, textCell, GoRes.ok_bind] at h
      split at h
      · cases h
      · rename_i heq
        split at heq
        · rename_i hs
          subst hs
          exact absurd hm (by decide +kernel)
        · cases heq
          cases h
          exact ⟨s, rfl⟩
    | _ => cases hm
  | false =>
    right
    rw [hm] at h hcs
    rcases hcs with ⟨hc, _⟩ | ⟨_, x, t, hx, hcs⟩
    · cases hc
    have hxv := newCell_value hx
    have hT : t ≠ .static := by
      have := newCell_truthful hx
      rintro rfl
      cases x <;> exact this
    refine ⟨?_, ?_, ?_⟩
    · rcases hcs with ⟨hv, _⟩ | ⟨ct, hv, _⟩
      · rw [hv]; exact hxv
      · rw [hv]; exact coerce_value hp _ _ _ hxv
    · simp only [cond_false] at h
      rw [GoRes.bind_eq_ok] at h
      obtain ⟨c0, h0, h1⟩ := h
      have key : ∃ a b, c0 = .full a b none [] := by
        unfold typedCell at h0
        split at h0
        · rw [hx] at h0; cases h0; exact ⟨_, _, rfl⟩
        · split at h0
          · rw [hx] at h0; cases h0; exact ⟨_, _, rfl⟩
          · unfold newCellWithType at h0
            rw [hx] at h0
            simp only [GoRes.ok_bind, GoRes.pure_eq] at h0
            split at h0
            · cases h0; exact ⟨_, _, rfl⟩
            · cases h0; exact ⟨_, _, rfl⟩
      obtain ⟨a, b, rfl⟩ := key
      simp only [Cell.setFormatNumber] at h1
      split at h1
      · rename_i h0; cases h1; exact h0.symm
      · cases h1; rfl
    · rcases hcs with ⟨_, ht⟩ | ⟨ct, _, ht⟩
      · rw [ht]; exact hT
      · rw [ht]
        have h1 : ∀ a b, b ≠ .static → (coerceBool ct a b).2 ≠ .static := by
          intro a b hb
          unfold coerceBool
          split
          · split <;> first | exact hb | simp
          · exact hb
        have h2 : ∀ a b, b ≠ .static → (coerceFloat ct a b).2 ≠ .static := by
          intro a b hb
          unfold coerceFloat
          split
          · split <;> first | exact hb | simp
          · exact hb
        have h3 : ∀ a b, b ≠ .static → (coerceInt ct a b).2 ≠ .static := by
          intro a b hb
          unfold coerceInt
          split
          · split <;> first | exact hb | simp
          · exact hb
        have h4 : ∀ a b, b ≠ .static → (coerceStr ext ct a b).2 ≠ .static := by
          intro a b hb
          unfold coerceStr
          split
          · split <;> first | exact hb | simp
          · exact hb
        have h5 : ∀ a b, b ≠ .static → (coerceLast ext f.mode1904 ct a b).2 ≠ .static := by
          intro a b hb
          unfold coerceLast
          split
          · simp
          · split <;> simp
          · exact hb
        unfold coerce
        exact h5 _ _ (h4 _ _ (h3 _ _ (h2 _ _ (h1 _ _ hT))))

/-- A cell under a known format with a value other than the empty text is shown. -/
theorem cellString_ok {ext : Ext} (hp : Prints ext) {f : Formatter} (hf : Made f) {c : Cell} (hn : Known f c.formatNo)
    (hv : c.value ≠ .str []) (ht : c.type ≠ .static) : ∃ s, cellString ext f c = .ok s := by
  obtain ⟨x, hx, ha⟩ := known_format hf hn
  obtain ⟨s, e⟩ := safe_eval hp f.mode1904 hv x hx
  have key : ∃ s, (do
      let (s, ok) ← f.apply ext c.formatNo c.value
      pure (if ok then s else sprint ext c.value) : GoRes Bytes) = .ok s := by
    rw [ha, e]
    exact ⟨s, rfl⟩
  unfold cellString
  cases h : c.type with
  | blank => exact ⟨_, rfl⟩
  | static => exact absurd h ht
  | _ => exact key

theorem builds_ok {ext : Ext} (hp : Prints ext) {f : Formatter} (hf : Made f) {v : GoVal} {n : Nat} (hn : Known f n)
    {c : Cell} (h : Builds ext f v n c) : ∃ s, cellString ext f c = .ok s := by
  rw [builds_iff] at h
  rcases putCell_shape hp h with ⟨s, rfl⟩ | ⟨h1, h2, h3⟩
  · exact ⟨s, rfl⟩
  · exact cellString_ok hp hf (by rw [h2]; exact hn) h1 h3

end Grate.Display
