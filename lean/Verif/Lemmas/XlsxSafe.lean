import Verif.Lemmas.XlsSafe
import Verif.Lemmas.XlsxSheet
import Verif.Spec.XlsxSafe

/-! # Lemmas: worksheet parts that do not panic -/

namespace Grate.Xlsx

open Grate Grate.Spec
open Grate.Xls (Safe Keeps Full put_keeps)

/-! ### References -/

theorem isDigit_iff (b : UInt8) : isDigit b = true ↔ IsDig b := by
  unfold isDigit IsDig
  simp only [Bool.and_eq_true, decide_eq_true_eq, UInt8.le_iff_toNat_le]
  exact Iff.rfl

theorem indexDigit_append {pre : Bytes} {d : UInt8} {t : Bytes} (hp : ∀ b ∈ pre, ¬ IsDig b) (hd : IsDig d) :
    indexDigit (pre ++ d :: t) = some pre.length := by
  unfold indexDigit
  rw [List.findIdx?_eq_some_iff_getElem]
  refine ⟨by simp, by simpa [isDigit_iff] using hd, ?_⟩
  intro j hj
  rw [List.getElem_append_left hj, isDigit_iff]
  exact hp _ (List.getElem_mem hj)

/-- References that do not panic. -/
theorem ref_safe_iff (s : Bytes) : refToIndexes s ≠ .panic ↔ PlainRef s := by
  constructor
  · intro h pre d mid post hs hp hd hm
    subst hs
    cases pre with
    | nil => simp
    | cons x pre =>
      have hl : ¬ (x :: pre ++ (d :: mid ++ 67 :: post)).length < 2 := by simp; omega
      have hi : indexByte 67 ((x :: pre ++ (d :: mid ++ 67 :: post)).drop (pre.length + 1)) = some (mid.length + 1) := by
        rw [show pre.length + 1 = (x :: pre).length from rfl, List.drop_left]
        unfold indexByte
        rw [List.findIdx?_eq_some_iff_getElem]
        refine ⟨by simp, by simp, ?_⟩
        intro j hj
        cases j with
        | zero =>
          simp only [List.cons_append, List.getElem_cons_zero, beq_iff_eq]
          rintro rfl
          exact absurd hd.2 (by decide)
        | succ j =>
          simp only [List.cons_append, List.getElem_cons_succ, beq_iff_eq]
          rw [List.getElem_append_left (by omega)]
          intro e
          exact hm (e ▸ List.getElem_mem _)
      unfold refToIndexes at h
      have hx : indexDigit (x :: pre ++ (d :: mid ++ 67 :: post)) = some (pre.length + 1) := indexDigit_append hp hd
      rw [if_neg hl, hx] at h
      simp only [hi] at h
      unfold strSub at h
      by_cases hc : pre.length + 1 ≤ mid.length + 1
      · simpa using hc
      · rw [if_neg (fun hh => hc hh.1)] at h
        exact absurd rfl h
  · intro h
    unfold refToIndexes
    split
    · simp
    · cases hi : indexDigit s with
      | none => simp
      | some i =>
        cases i with
        | zero => simp
        | succ i =>
          simp only
          unfold indexDigit at hi
          rw [List.findIdx?_eq_some_iff_getElem] at hi
          obtain ⟨hlt, hd, hno⟩ := hi
          cases hb : indexByte 67 (s.drop (i + 1)) with
          | none => simp
          | some k =>
            unfold indexByte at hb
            rw [List.findIdx?_eq_some_iff_getElem] at hb
            obtain ⟨hk, hkc, hkn⟩ := hb
            have hdrop : s.drop (i + 1) = s[i + 1] :: s.drop (i + 2) := by rw [List.getElem_cons_drop]
            have hd' := (isDigit_iff _).1 hd
            have hkl : k < s.length - (i + 1) := by simpa using hk
            cases k with
            | zero =>
              exfalso
              simp only [List.getElem_drop, Nat.add_zero, beq_iff_eq] at hkc
              rw [hkc] at hd'
              exact absurd hd'.2 (by decide)
            | succ k =>
              have hk2 : k < (s.drop (i + 2)).length := by simp; omega
              have e1 : s.drop (i + 2) = (s.drop (i + 2)).take k ++ 67 :: (s.drop (i + 2)).drop (k + 1) := by
                have : (s.drop (i + 2))[k] = 67 := by
                  simp only [List.getElem_drop, beq_iff_eq] at hkc ⊢
                  rw [← hkc]
                  congr 1
                  omega
                rw [← this, List.getElem_cons_drop, List.take_append_drop]
              have hs : s = s.take (i + 1) ++ (s[i + 1] :: (s.drop (i + 2)).take k ++ 67 :: (s.drop (i + 2)).drop (k + 1)) := by
                rw [List.cons_append, ← e1, List.getElem_cons_drop, List.take_append_drop]
              have := h _ _ _ _ hs (by
                intro b hb hdb
                obtain ⟨j, hj, rfl⟩ := List.mem_iff_getElem.1 hb
                rw [List.length_take] at hj
                rw [List.getElem_take] at hdb
                exact hno j (by omega) ((isDigit_iff _).2 hdb)) hd' (by
                intro hm
                obtain ⟨j, hj, hj2⟩ := List.mem_iff_getElem.1 hm
                rw [List.length_take] at hj
                apply hkn (j + 1) (by omega)
                rw [List.getElem_take] at hj2
                simp only [List.getElem_drop, beq_iff_eq] at hj2 ⊢
                rw [← hj2]
                congr 1
                omega)
              simp only [List.length_take, List.length_drop] at this
              unfold strSub
              dsimp only
              rw [if_pos (by omega)]
              simp only [GoRes.ok_bind]
              rw [if_pos (by omega)]
              simp [GoRes.pure_eq]

theorem plain_ref {s : Bytes} (h : PlainRef s) : ∃ c r, refToIndexes s = .ok (c, r) := by
  have := (ref_safe_iff s).2 h
  cases hr : refToIndexes s with
  | ok x => exact ⟨x.1, x.2, rfl⟩
  | panic => exact absurd hr this
  | err e =>
    exfalso
    unfold refToIndexes at hr
    split at hr
    · cases hr
    · split at hr
      · cases hr
      · cases hr
      · simp only at hr
        split at hr
        · cases hr
        · unfold strSub at hr
          split at hr
          · rw [GoRes.ok_bind] at hr
            split at hr <;> cases hr
          · cases hr

/-! ### Sheets -/

/-- A sheet without rows can get any size. -/
theorem inv_resize_fresh {s : Sheet} (h : s.rows = []) (R C : Int) : SheetInv (s.resize R C) where
  nr := by simp only [Sheet.resize]; split <;> omega
  nc := by simp only [Sheet.resize]; split <;> omega
  wide := by
    intro i hi
    have hi' : (i : Int) < (if R ≤ 0 then 1 else R) := hi
    rw [resize_row, h]
    simp only [List.getElem?_nil]
    rw [if_pos (by omega)]
    refine ⟨_, rfl, ?_⟩
    have hcols : (s.resize R C).numCols = (if C ≤ 0 then 1 else C) := rfl
    rw [hcols]
    simp; omega
  pos := by
    intro i row hrow
    rw [resize_row, h] at hrow
    simp only [List.getElem?_nil] at hrow
    by_cases hb : i < ((if R ≤ 0 then 1 else R) + 1).toNat
    · rw [if_pos hb] at hrow; cases hrow
      rw [List.length_replicate]; split <;> omega
    · rw [if_neg hb] at hrow; cases hrow

theorem put_safe (ext : Ext) {s : Sheet} (h : SheetInv s) {r c : Int} (hr : 0 ≤ r) (hc : 0 ≤ c) {v : GoVal} (hv : Supported v)
    (n : Nat) : Safe (s.put ext r c v n) (fun s' => SheetInv s' ∧ Full s' r.toNat c.toNat) := by
  have := put_keeps ext h r.toNat c.toNat hv n
  rw [show ((r.toNat : Nat) : Int) = r from by omega, show ((c.toNat : Nat) : Int) = c from by omega] at this
  exact this.mono fun s' hs => ⟨hs.1.1, hs.2⟩

theorem setURL_safe {s : Sheet} (h : SheetInv s) {r c : Int} (hr : 0 ≤ r) (hc : 0 ≤ c) (hf : Full s r.toNat c.toNat)
    (link : Bytes) : Safe (s.setURL r c link) SheetInv := by
  unfold Sheet.setURL
  split
  · exact h
  · obtain ⟨v, t, f, u, hf⟩ := hf
    rw [cell?_of_nonneg s hr hc, hf]
    simp only
    have : ∃ x, Cell.setURL (.full v t f u) link = .ok x := by
      cases f <;> exact ⟨_, rfl⟩
    obtain ⟨x, hx⟩ := this
    rw [hx, GoRes.ok_bind]
    cases hs : s.store r c x with
    | err e => trivial
    | ok s' => exact inv_store h hs
    | panic =>
      exfalso
      unfold Sheet.store at hs
      rw [cell?_of_nonneg s hr hc, hf] at hs
      cases hs

/-! ### Elements -/

/-- The state of the loop. -/
structure WsOk (fresh : Bool) (cell : Option (List (Bytes × Bytes))) (st : WsSt) : Prop where
  inv : SheetInv st.sheet
  rows : fresh = true → st.sheet.rows = []
  none : cell = none → st.cell = []
  typ : ∀ a, cell = some a → st.typ = (if attr a (lit "t") = [] then lit "n" else attr a (lit "t"))
  ref : ∀ a, cell = some a → st.cell = attr a (lit "r")
  good : ∀ a, cell = some a → Distinct a ∧ ∀ r, Has a "r" r → PlainRef r

theorem WsOk.with {fresh : Bool} {cell : Option (List (Bytes × Bytes))} {st : WsSt} (h : WsOk fresh cell st) {s : Sheet}
    (hs : SheetInv s) : WsOk false cell { st with sheet := s } :=
  ⟨hs, fun e => (by cases e), h.none, h.typ, h.ref, h.good⟩

theorem WsOk.stale {fresh : Bool} {cell : Option (List (Bytes × Bytes))} {st : WsSt} (h : WsOk fresh cell st) :
    WsOk false cell st := ⟨h.inv, fun e => (by cases e), h.none, h.typ, h.ref, h.good⟩

theorem empty_plain : PlainRef [] := by
  intro pre d mid post e
  simp at e

theorem attr_plain {a : List (Bytes × Bytes)} {k : String} (hd : Distinct a) (h : ∀ r, Has a k r → PlainRef r) :
    PlainRef (attr a (lit k)) := by
  rcases has_or_lacks a k with ⟨v, hv⟩ | hl
  · rw [attr_has hd hv]; exact h v hv
  · rw [attr_lacks hl]; exact empty_plain

theorem index_safe {α : Type} (s : List α) (i : Int) (h0 : 0 ≤ i) (h : i < s.length) : Safe (index s i) (fun _ => True) := by
  unfold index
  rw [if_pos h0, List.getElem?_eq_getElem (by omega)]
  trivial

theorem parseInt_other {v : Bytes} (h : v = [] ∨ ∃ b rest, v = b :: rest ∧ ¬ IsDig b ∧ b ≠ 43 ∧ b ≠ 45) :
    (parseInt 64 v).1 = 0 := by
  rcases h with rfl | ⟨b, rest, rfl, hd, h43, h45⟩
  · rfl
  · have e1 : (b == 43) = false := beq_false_of_ne h43
    have e2 : (b == 45) = false := beq_false_of_ne h45
    have e3 : isDigit b = false := by
      cases hx : isDigit b with
      | false => rfl
      | true => exact absurd ((isDigit_iff b).1 hx) hd
    unfold parseInt
    simp only [e1, e2, Bool.or_self, Bool.false_eq_true, if_false]
    unfold parseUint
    rw [if_neg (by simp), parseUintLoop]
    simp only [e3, Bool.false_eq_true, if_false]

theorem parseInt_lt (v : Bytes) : (parseInt 64 v).1 < 2 ^ 63 := by
  unfold parseInt
  split
  · decide
  · simp only
    split
    · decide
    · rename_i c cs _ un e _ _
      split
      · decide
      · split
        · decide
        · rename_i h1 h2
          split
          · omega
          · rename_i h3
            simp only [h3, Bool.not_false, Bool.true_and, decide_eq_true_eq] at h1
            omega

theorem value_safe (ext : Ext) (strings : List Bytes) {a : List (Bytes × Bytes)} (hd : Distinct a) {v : Bytes}
    (h : TextFits strings.length a v) :
    Safe (cellValue ext strings (if attr a (lit "t") = [] then lit "n" else attr a (lit "t")) v)
      (fun o => ∀ x, o = some x → Supported x) := by
  have hhas : ∀ t, attr a (lit "t") = t → t ≠ [] → Has a "t" t := by
    intro t ht h0
    rcases has_or_lacks a "t" with ⟨w, hw⟩ | hl
    · rw [attr_has hd hw] at ht; rw [← ht]; exact hw
    · rw [attr_lacks hl] at ht; exact absurd ht.symm h0
  have hn : ∀ t, (if attr a (lit "t") = [] then lit "n" else attr a (lit "t")) = t → t ≠ lit "n" → t ≠ [] → Has a "t" t := by
    intro t ht h1 h2
    split at ht
    · exact absurd ht.symm h1
    · exact hhas t ht h2
  revert hn
  generalize (if attr a (lit "t") = [] then lit "n" else attr a (lit "t")) = typ
  intro hn
  unfold cellValue
  split
  · rename_i e
    have := h.1 (hn _ e (by decide +kernel) (by decide +kernel))
    cases v with
    | nil => exact absurd rfl this
    | cons b v => intro x hx; cases hx; trivial
  · split
    · split
      · intro x hx; cases hx; trivial
      · intro x hx; cases hx; trivial
    · split
      · rename_i e
        have hs := h.2 (hn _ e (by decide +kernel) (by decide +kernel))
        have : Safe (index strings (parseInt 64 v).1) (fun _ => True) := by
          rcases hs with ⟨h1, h2⟩ | ⟨h1, h2⟩
          · refine index_safe _ _ (parseInt_nonneg h1) ?_
            by_cases hlt : digitsVal v < 2 ^ 63
            · rw [parseInt_digits 64 (by decide) h1 (by simpa using hlt)]
              omega
            · have := parseInt_lt v
              omega
          · rw [parseInt_other h2]
            exact index_safe _ _ (by omega) (by omega)
        refine this.bind fun s _ => ?_
        intro x hx; cases hx; trivial
      · split
        · intro x hx; cases hx
        · intro x hx; cases hx; trivial

theorem chars_safe (ext : Ext) (d : Doc) (v : Bytes) {fresh : Bool} {a : List (Bytes × Bytes)} {st : WsSt}
    (h : WsOk fresh (some a) st) (hv : TextFits d.strings.length a v) :
    Safe (charsTok ext d v st) (WsOk false (some a)) := by
  unfold charsTok
  split
  · exact h.stale
  · obtain ⟨hd, hp⟩ := h.good a rfl
    rw [h.ref a rfl]
    obtain ⟨c, r, hr⟩ := plain_ref (attr_plain hd hp)
    rw [hr, GoRes.ok_bind]
    simp only
    split
    · rename_i hcr
      rw [h.typ a rfl]
      refine (value_safe ext d.strings hd hv).bind fun o ho => ?_
      cases o with
      | none => exact h.stale
      | some x =>
        simp only
        rw [← h.typ a rfl, ← h.ref a rfl]
        exact (put_safe ext h.inv hcr.2 hcr.1 (ho x rfl) _).bind fun s hs => h.with hs.1
    · exact h.stale

theorem range_split {ref s : Bytes} (h : RangeEnd ref s) :
    splitByte 58 ref = [s] ∨ ∃ a, splitByte 58 ref = [a, s] := by
  obtain ⟨hs, rfl | ⟨a, ha, rfl⟩⟩ := h
  · left; exact Simple.splitByte_noSep 58 _ hs
  · right; exact ⟨a, by rw [Simple.splitByte_append 58 a s ha, Simple.splitByte_noSep 58 s hs]⟩

theorem range_unique {ref s t : Bytes} (h : RangeEnd ref s) (h' : RangeEnd ref t) : s = t := by
  rcases range_split h with e | ⟨a, e⟩ <;> rcases range_split h' with e' | ⟨b, e'⟩ <;> rw [e] at e' <;> cases e' <;> rfl

theorem dim_eq {a : List (Bytes × Bytes)} {ref s : Bytes} (hr : attr a (lit "ref") = ref) (h : RangeEnd ref s) (st : WsSt) :
    dimElem a st = (if ref = lit "A1" then .ok { st with maxCol := 1, maxRow := 1, sheet := st.sheet.resize 1 1 }
      else do
        let (c, r) ← refToIndexes s
        pure { st with maxCol := c, maxRow := r, sheet := st.sheet.resize r c }) := by
  unfold dimElem
  simp only [hr]
  split
  · rfl
  · rcases range_split h with e | ⟨b, e⟩ <;> rw [e]

theorem dim_safe {fresh : Bool} {cell : Option (List (Bytes × Bytes))} {a : List (Bytes × Bytes)} {ref s : Bytes}
    (hr : attr a (lit "ref") = ref) (h : RangeEnd ref s) {st : WsSt} (hst : WsOk fresh cell st) {c r : Int}
    (hs : refToIndexes s = .ok (c, r)) (hok : SheetInv (st.sheet.resize r c)) : Safe (dimElem a st) (WsOk false cell) := by
  rw [dim_eq hr h]
  split
  · exact ⟨inv_resize hst.inv (by omega) (by omega), fun e => (by cases e), hst.none, hst.typ, hst.ref, hst.good⟩
  · rw [hs, GoRes.ok_bind]
    exact ⟨hok, fun e => (by cases e), hst.none, hst.typ, hst.ref, hst.good⟩

theorem mergeCell_safe (ext : Ext) (r0 r1 c0 c1 : Int) {r c : Int} (hr : 0 ≤ r) (hc : 0 ≤ c) {s : Sheet} (h : SheetInv s) :
    Safe (mergeCell ext r0 r1 c0 c1 r c s) SheetInv := by
  unfold mergeCell
  split
  · exact h
  · exact (put_safe ext h hr hc (by trivial) 0).mono fun _ hs => hs.1

theorem mergeRow_safe (ext : Ext) (r0 r1 c0 c1 : Int) {r : Int} (hr : 0 ≤ r) : ∀ (n : Nat) (c : Int) (s : Sheet), 0 ≤ c →
    SheetInv s → Safe (mergeRow ext r0 r1 c0 c1 r n c s) SheetInv
  | 0, _, _, _, h => by rw [mergeRow]; exact h
  | n + 1, c, s, hc, h => by
    rw [mergeRow]
    exact (mergeCell_safe ext r0 r1 c0 c1 hr hc h).bind fun s' hs => mergeRow_safe ext r0 r1 c0 c1 hr n (c + 1) s' (by omega) hs

theorem mergeRows_safe (ext : Ext) (r0 r1 c0 c1 : Int) (hc : 0 ≤ c0) : ∀ (n : Nat) (r : Int) (s : Sheet), 0 ≤ r →
    SheetInv s → Safe (mergeRows ext r0 r1 c0 c1 n r s) SheetInv
  | 0, _, _, _, h => by rw [mergeRows]; exact h
  | n + 1, r, s, hr, h => by
    rw [mergeRows]
    exact (mergeRow_safe ext r0 r1 c0 c1 hr _ c0 s hc h).bind fun s' hs => mergeRows_safe ext r0 r1 c0 c1 hc n (r + 1) s' (by omega) hs

theorem merge_safe (ext : Ext) {fresh : Bool} {cell : Option (List (Bytes × Bytes))} {a : List (Bytes × Bytes)} {ref s : Bytes}
    {c r : Nat} (hr : attr a (lit "ref") = ref) (hs : A1 c r s) (hc : c < 2 ^ 63 - 1) (hrr : r < 2 ^ 63 - 1)
    (h : ref = s ∨ ∃ t, 58 ∉ t ∧ PlainRef t ∧ ref = s ++ 58 :: t) {st : WsSt} (hst : WsOk fresh cell st) :
    Safe (mergeElem ext a st) (WsOk false cell) := by
  unfold mergeElem
  rw [hr]
  rcases h with rfl | ⟨t, ht, hp, rfl⟩
  · rw [Simple.splitByte_noSep 58 _ (a1_no_colon hs)]
    simp only [refToIndexes_a1 hs hc hrr, GoRes.ok_bind]
    exact (mergeRows_safe ext _ _ _ _ (by omega) _ _ _ (by omega) hst.inv).bind fun s' hs' => hst.with hs'
  · obtain ⟨c', r', ht'⟩ := plain_ref hp
    rw [Simple.splitByte_append 58 _ _ (a1_no_colon hs), Simple.splitByte_noSep 58 _ ht]
    simp only [refToIndexes_a1 hs hc hrr, GoRes.ok_bind, ht']
    exact (mergeRows_safe ext _ _ _ _ (by omega) _ _ _ (by omega) hst.inv).bind fun s' hs' => hst.with hs'

theorem link_safe (ext : Ext) (links : Bytes → Bytes) {fresh : Bool} {cell : Option (List (Bytes × Bytes))}
    {a : List (Bytes × Bytes)} {s : Bytes} {c r : Nat} (hr : attr a (lit "ref") = s) (hs : A1 c r s) (hc : c < 2 ^ 63 - 1)
    (hrr : r < 2 ^ 63 - 1) {st : WsSt} (hst : WsOk fresh cell st) : Safe (linkElem ext links a st) (WsOk false cell) := by
  unfold linkElem
  rw [hr, refToIndexes_a1 hs hc hrr, GoRes.ok_bind]
  simp only
  refine (put_safe ext hst.inv (by omega) (by omega) (by trivial) 0).bind fun s1 h1 => ?_
  exact (setURL_safe h1.1 (by omega) (by omega) h1.2 _).bind fun s2 h2 => hst.with h2

theorem c_safe (d : Doc) {fresh : Bool} {old : Option (List (Bytes × Bytes))} {a : List (Bytes × Bytes)} {n : Nat}
    (hd : Distinct a) (hn : NumAttr a "s" 0 n) (hp : ∀ ref, Has a "r" ref → PlainRef ref) {st : WsSt}
    (hst : WsOk fresh old st) : Safe (cElem d a st) (WsOk fresh (some a)) := by
  unfold cElem
  have h0 : 0 ≤ (parseInt 64 (attr a (lit "s"))).1 := by
    rcases hn with ⟨h, _⟩ | ⟨s, h, h1, _⟩
    · rw [attr_lacks h]; decide
    · rw [attr_has hd h]; exact parseInt_nonneg h1
  have : Safe (if (d.xfs.length : Int) > (parseInt 64 (attr a (lit "s"))).1 then index d.xfs (parseInt 64 (attr a (lit "s"))).1
      else .ok 0) (fun _ => True) := by
    split
    · rename_i hlt; exact index_safe _ _ h0 hlt
    · trivial
  refine this.bind fun fno _ => ?_
  exact ⟨hst.inv, hst.rows, fun e => (by cases e), fun b e => (by cases e; rfl), fun b e => (by cases e; rfl),
    fun b e => (by cases e; exact ⟨hd, hp⟩)⟩

theorem sheetLoop_safe (ext : Ext) (d : Doc) (links : Bytes → Bytes) {fresh : Bool}
    {cell : Option (List (Bytes × Bytes))} {ts : List Tok} (h : SafeWs d.strings.length fresh cell ts) :
    ∀ st, WsOk fresh cell st → Safe (sheetLoop ext d links ts st) (fun st' => SheetInv st'.sheet) := by
  induction h with
  | nil => intro st hst; rw [sheetLoop]; exact hst.inv
  | other fresh cell t ts h1 h2 h3 _ ih =>
    intro st hst
    have : sheetTok ext d links t st = .ok st := by
      unfold sheetTok
      cases t with
      | chars v => exact absurd rfl (h3 v)
      | other => rfl
      | stop n =>
        simp only
        rw [if_neg (by intro e; exact h2 (by simp [Stops, e]))]
      | start n a =>
        simp only
        have hn : ∀ x ∈ wsNames, n ≠ x := fun x hx e => h1 (by simp only [Starts]; rw [e]; exact hx)
        rw [if_neg (hn _ (by simp [wsNames])), if_neg (hn _ (by simp [wsNames])), if_neg (hn _ (by simp [wsNames])),
          if_neg (hn _ (by simp [wsNames]))]
    rw [sheetLoop, this, GoRes.ok_bind]
    exact ih st hst
  | outside fresh v ts _ ih =>
    intro st hst
    have : sheetTok ext d links (.chars v) st = .ok st := by
      unfold sheetTok charsTok
      simp only
      rw [if_pos (hst.none rfl)]
    rw [sheetLoop, this, GoRes.ok_bind]
    exact ih st hst
  | text fresh a v ts hv _ ih =>
    intro st hst
    rw [sheetLoop]
    exact (chars_safe ext d v hst hv).bind fun st' h' => ih st' h'
  | cell fresh old a n ts hd hn hp _ ih =>
    intro st hst
    rw [sheetLoop]
    have e : sheetTok ext d links (.start (lit "c") a) st = cElem d a st := by
      unfold sheetTok
      dsimp only
      rw [if_neg (by decide +kernel), if_pos rfl]
    rw [e]
    exact (c_safe d hd hn hp hst).bind fun st' h' => ih st' h'
  | cellEnd fresh old ts _ ih =>
    intro st hst
    rw [sheetLoop]
    have e : sheetTok ext d links (.stop (lit "c")) st = .ok { st with cell := [] } := by
      unfold sheetTok
      dsimp only
      rw [if_pos rfl]
    rw [e, GoRes.ok_bind]
    exact ih _ ⟨hst.inv, hst.rows, fun _ => rfl, fun b e => (by cases e), fun b e => (by cases e), fun b e => (by cases e)⟩
  | dimension fresh cell a ref s c r ts hd hr he hs hc hrr _ ih =>
    intro st hst
    rw [sheetLoop]
    have e : sheetTok ext d links (.start (lit "dimension") a) st = dimElem a st := by
      unfold sheetTok
      dsimp only
      rw [if_pos rfl]
    rw [e]
    exact (dim_safe (attr_has hd hr) he hst (refToIndexes_a1 hs hc hrr) (inv_resize hst.inv (by omega) (by omega))).bind
      fun st' h' => ih st' h'
  | dimensionFirst cell a ts hd hr _ ih =>
    intro st hst
    rw [sheetLoop]
    have e : sheetTok ext d links (.start (lit "dimension") a) st = dimElem a st := by
      unfold sheetTok
      dsimp only
      rw [if_pos rfl]
    rw [e]
    obtain ⟨s, hs, hp⟩ : ∃ s, RangeEnd (attr a (lit "ref")) s ∧ PlainRef s := by
      rcases has_or_lacks a "ref" with ⟨v, hv⟩ | hl
      · rw [attr_has hd hv]; exact hr v hv
      · rw [attr_lacks hl]; exact ⟨[], ⟨by simp, Or.inl rfl⟩, empty_plain⟩
    obtain ⟨c, r, hcr⟩ := plain_ref hp
    exact (dim_safe rfl hs hst hcr (inv_resize_fresh (hst.rows rfl) r c)).bind fun st' h' => ih st' h'
  | merge fresh cell a ref s c r ts hd hr hs hc hrr hx _ ih =>
    intro st hst
    rw [sheetLoop]
    have e : sheetTok ext d links (.start (lit "mergeCell") a) st = mergeElem ext a st := by
      unfold sheetTok
      dsimp only
      rw [if_neg (by decide +kernel), if_neg (by decide +kernel), if_pos rfl]
    rw [e]
    exact (merge_safe ext (attr_has hd hr) hs hc hrr hx hst).bind fun st' h' => ih st' h'
  | link fresh cell a s c r ts hd hr hs hc hrr _ ih =>
    intro st hst
    rw [sheetLoop]
    have e : sheetTok ext d links (.start (lit "hyperlink") a) st = linkElem ext links a st := by
      unfold sheetTok
      dsimp only
      rw [if_neg (by decide +kernel), if_neg (by decide +kernel), if_neg (by decide +kernel), if_pos rfl]
    rw [e]
    exact (link_safe ext links (attr_has hd hr) hs hc hrr hst).bind fun st' h' => ih st' h'

end Grate.Xlsx
