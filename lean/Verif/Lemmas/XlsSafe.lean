import Verif.Lemmas.XlsPasses
import Verif.Spec.XlsSafe

/-! # Lemmas: steps that do not panic -/

namespace Grate.Xls

open Grate Grate.Spec

/-- A value with the property, or an error. -/
def Safe {α : Type} (x : GoRes α) (P : α → Prop) : Prop :=
  match x with
  | .ok a => P a
  | .err _ => True
  | .panic => False

theorem Safe.bind {α β : Type} {x : GoRes α} {f : α → GoRes β} {P : α → Prop} {Q : β → Prop} (h : Safe x P)
    (h' : ∀ a, P a → Safe (f a) Q) : Safe (x >>= f) Q := by
  cases x with
  | ok a => exact h' a h
  | err e => trivial
  | panic => exact h.elim

theorem Safe.mono {α : Type} {x : GoRes α} {P Q : α → Prop} (h : Safe x P) (h' : ∀ a, P a → Q a) : Safe x Q := by
  cases x with
  | ok a => exact h' a h
  | err e => trivial
  | panic => exact h.elim

theorem Safe.no_panic {α : Type} {x : GoRes α} {P : α → Prop} (h : Safe x P) : x ≠ .panic := by
  rintro rfl
  exact h

theorem safe_ok {α : Type} {a : α} {P : α → Prop} (h : P a) : Safe (.ok a) P := h

theorem safe_of_eq {α : Type} {x : GoRes α} {a : α} (h : x = .ok a) : Safe x (fun b => b = a) := by
  rw [h]; rfl

theorem safe_sub (s : Slice) (lo hi : Nat) (h1 : lo ≤ hi) (h2 : hi ≤ s.val.length) :
    Safe (s.sub lo hi) (fun t => t.val = (s.val.take hi).drop lo) := by
  unfold Slice.sub
  rw [if_pos ⟨h1, by omega⟩]
  show ((s.val ++ s.rest).take hi).drop lo = _
  rw [List.take_append_of_le_length h2]

theorem safe_drop (s : Slice) (lo : Nat) (h : lo ≤ s.val.length) :
    Safe (s.dropFrom lo) (fun t => t.val = s.val.drop lo) := by
  unfold Slice.dropFrom
  rw [if_pos h]
  rfl

theorem safe_idx (s : Slice) (i : Nat) (h : i < s.val.length) : Safe (s.idx i) (fun b => s.val[i]? = some b) := by
  unfold Slice.idx
  rw [List.getElem?_eq_getElem h]
  rfl

theorem safe_u16 (s : Slice) (h : 2 ≤ s.val.length) : Safe s.u16 (fun n => n < 65536) := by
  unfold Slice.u16
  match s.val, h with
  | a :: b :: _, _ =>
    have := a.toNat_lt
    have := b.toNat_lt
    show le16 a b < 65536
    unfold le16
    omega

theorem safe_u32 (s : Slice) (h : 4 ≤ s.val.length) : Safe s.u32 (fun _ => True) := by
  unfold Slice.u32
  match s.val, h with
  | _ :: _ :: _ :: _ :: _, _ => trivial

theorem safe_u64 (s : Slice) (h : 8 ≤ s.val.length) : Safe s.u64 (fun _ => True) := by
  unfold Slice.u64
  match s.val, h with
  | _ :: _ :: _ :: _ :: _ :: _ :: _ :: _ :: _, _ => trivial

theorem take_drop_len {α : Type} (l : List α) {lo hi : Nat} (h : hi ≤ l.length) : ((l.take hi).drop lo).length = hi - lo := by
  rw [List.length_drop, List.length_take]
  omega

/-- A 16-bit field. -/
theorem safe_field (s : Slice) (lo : Nat) (h : lo + 2 ≤ s.val.length) :
    Safe (s.sub lo (lo + 2) >>= Slice.u16) (fun n => n < 65536) :=
  (safe_sub s lo (lo + 2) (by omega) h).bind (fun t ht => safe_u16 t (by rw [ht, take_drop_len _ h]; omega))

/-- A 32-bit field. -/
theorem safe_field32 (s : Slice) (lo : Nat) (h : lo + 4 ≤ s.val.length) :
    Safe (s.sub lo (lo + 4) >>= Slice.u32) (fun _ => True) :=
  (safe_sub s lo (lo + 4) (by omega) h).bind (fun t ht => safe_u32 t (by rw [ht, take_drop_len _ h]; omega))

theorem safe_from16 (s : Slice) (lo : Nat) (h : lo + 2 ≤ s.val.length) :
    Safe (s.dropFrom lo >>= Slice.u16) (fun n => n < 65536) :=
  (safe_drop s lo (by omega)).bind (fun t ht => safe_u16 t (by rw [ht, List.length_drop]; omega))

theorem safe_from32 (s : Slice) (lo : Nat) (h : lo + 4 ≤ s.val.length) :
    Safe (s.dropFrom lo >>= Slice.u32) (fun _ => True) :=
  (safe_drop s lo (by omega)).bind (fun t ht => safe_u32 t (by rw [ht, List.length_drop]; omega))

theorem safe_from64 (s : Slice) (lo : Nat) (h : lo + 8 ≤ s.val.length) :
    Safe (s.dropFrom lo >>= Slice.u64) (fun _ => True) :=
  (safe_drop s lo (by omega)).bind (fun t ht => safe_u64 t (by rw [ht, List.length_drop]; omega))

/-! ### Sheets that keep their cells -/

/-- There is a value in the cell. -/
def Full (s : Sheet) (r c : Nat) : Prop := ∃ v t f u, s.at? r c = some (.full v t f u)

/-- The sheet can be written to, and the cells that had values in `s` have values. -/
def Keeps (s s' : Sheet) : Prop := SheetInv s' ∧ ∀ r c, Full s r c → Full s' r c

theorem Keeps.refl {s : Sheet} (h : SheetInv s) : Keeps s s := ⟨h, fun _ _ h => h⟩

theorem Keeps.trans {s1 s2 s3 : Sheet} (h : Keeps s1 s2) (h' : Keeps s2 s3) : Keeps s1 s3 :=
  ⟨h'.1, fun r c f => h'.2 r c (h.2 r c f)⟩

theorem put_keeps (ext : Ext) {s : Sheet} (h : SheetInv s) (row col : Nat) {v : GoVal} (hv : Supported v) (n : Nat) :
    Safe (s.put ext row col v n) (fun s' => Keeps s s' ∧ Full s' row col) := by
  obtain ⟨s', hp, hi⟩ := inv_put (ext := ext) h (r := row) (c := col) (by omega) (by omega) hv n
  obtain ⟨y, hy, _, _, hat, hother⟩ := put_at hp
  obtain ⟨x, t, o, hx⟩ := putCell_ok ext s.fmtr hv n
  rw [hx] at hy
  cases hy
  rw [hp]
  have hfull : Full s' row col := ⟨x, t, o, [], by simpa using hat⟩
  refine ⟨⟨hi, fun r c hf => ?_⟩, hfull⟩
  by_cases he : r = row ∧ c = col
  · obtain ⟨rfl, rfl⟩ := he
    exact hfull
  · obtain ⟨v', t', f', u', hf⟩ := hf
    rcases hother r c (by omega) with ⟨z, h1, h2⟩ | ⟨h1, _⟩
    · rw [hf] at h1
      cases h1
      exact ⟨v', t', f', u', h2⟩
    · rw [hf] at h1
      cases h1

theorem set_keeps {s : Sheet} (h : SheetInv s) {row col : Nat} (hf : Full s row col) (v : Val) :
    Safe (s.set row col v) (fun s' => Keeps s s') := by
  unfold Sheet.set
  split
  · exact Keeps.refl h
  · obtain ⟨v', t', f', u', hf⟩ := hf
    rw [cell?_nat, hf]
    simp only
    cases hs : s.store row col (.full v .string f' u') with
    | err e => trivial
    | panic =>
      exfalso
      unfold Sheet.store at hs
      rw [cell?_nat, hf] at hs
      cases hs
    | ok s' =>
      obtain ⟨_, _, hat, hother⟩ := store_at hs
      refine ⟨inv_store h hs, fun r c hfc => ?_⟩
      by_cases he : (r : Int) = row ∧ (c : Int) = col
      · obtain ⟨h1, h2⟩ := he
        have h1 : r = row := by omega
        have h2 : c = col := by omega
        subst h1 h2
        exact ⟨v, .string, f', u', by simpa using hat⟩
      · obtain ⟨v2, t2, f2, u2, hfc⟩ := hfc
        exact ⟨v2, t2, f2, u2, by rw [hother r c he, hfc]⟩

/-! ### The records -/

theorem boolErr_safe (ext : Ext) (b : Book) (d : Slice) {s : Sheet} (h : SheetInv s) (hd : 8 ≤ d.val.length) :
    Safe (boolErrRec ext b d s) (Keeps s) := by
  unfold boolErrRec
  refine (safe_sub d 0 2 (by omega) (by omega)).bind fun t ht => ?_
  refine (safe_u16 t (by rw [ht, take_drop_len _ (by omega)]; omega)).bind fun row _ => ?_
  refine (safe_sub d 2 4 (by omega) (by omega)).bind fun t ht => ?_
  refine (safe_u16 t (by rw [ht, take_drop_len _ (by omega)]; omega)).bind fun col _ => ?_
  refine (safe_sub d 4 6 (by omega) (by omega)).bind fun t ht => ?_
  refine (safe_u16 t (by rw [ht, take_drop_len _ (by omega)]; omega)).bind fun ixfe _ => ?_
  refine (safe_idx d 7 (by omega)).bind fun k _ => ?_
  refine (safe_idx d 6 (by omega)).bind fun v _ => ?_
  split
  · exact Safe.mono (put_keeps ext h row col (by trivial) _) fun _ h => h.1
  · exact Safe.mono (put_keeps ext h row col (by trivial) _) fun _ h => h.1

theorem rkValue_ok (r : Nat) : Supported (rkValue r) := by
  unfold rkValue
  split <;> trivial

theorem mulRkLoop_safe (ext : Ext) (b : Book) (d : Slice) (row col : Nat) : ∀ (n i : Nat) {s : Sheet}, SheetInv s →
    4 + (i + n) * 6 ≤ d.val.length → Safe (mulRkLoop ext b d row col n i s) (Keeps s)
  | 0, i, s, h, _ => Keeps.refl h
  | n + 1, i, s, h, hd => by
    rw [mulRkLoop]
    refine (safe_drop d (4 + i * 6) (by omega)).bind fun t ht => ?_
    refine (safe_u16 t (by rw [ht, List.length_drop]; omega)).bind fun ixfe _ => ?_
    refine (safe_drop d (4 + i * 6 + 2) (by omega)).bind fun t ht => ?_
    refine (safe_u32 t (by rw [ht, List.length_drop]; omega)).bind fun v _ => ?_
    refine (put_keeps ext h row (col + i) (rkValue_ok v) _).bind fun s1 h1 => ?_
    exact (mulRkLoop_safe ext b d row col n (i + 1) h1.1.1 (by omega)).mono fun s2 h2 => h1.1.trans h2

theorem mulRk_safe (ext : Ext) (b : Book) (d : Slice) {s : Sheet} (h : SheetInv s) (hd : 6 ≤ d.val.length)
    (hu : d.val.length < 65536) : Safe (mulRkRec ext b d.val.length d s) (Keeps s) := by
  unfold mulRkRec
  refine (safe_sub d 0 2 (by omega) (by omega)).bind fun t ht => ?_
  refine (safe_u16 t (by rw [ht, take_drop_len _ (by omega)]; omega)).bind fun row _ => ?_
  refine (safe_sub d 2 4 (by omega) (by omega)).bind fun t ht => ?_
  refine (safe_u16 t (by rw [ht, take_drop_len _ (by omega)]; omega)).bind fun col _ => ?_
  exact mulRkLoop_safe ext b d row col _ 0 h (by omega)

theorem number_safe (ext : Ext) (b : Book) (d : Slice) {s : Sheet} (h : SheetInv s) (hd : 14 ≤ d.val.length) :
    Safe (numberRec ext b d s) (Keeps s) := by
  unfold numberRec
  refine (safe_sub d 0 2 (by omega) (by omega)).bind fun t ht => ?_
  refine (safe_u16 t (by rw [ht, take_drop_len _ (by omega)]; omega)).bind fun row _ => ?_
  refine (safe_sub d 2 4 (by omega) (by omega)).bind fun t ht => ?_
  refine (safe_u16 t (by rw [ht, take_drop_len _ (by omega)]; omega)).bind fun col _ => ?_
  refine (safe_sub d 4 6 (by omega) (by omega)).bind fun t ht => ?_
  refine (safe_u16 t (by rw [ht, take_drop_len _ (by omega)]; omega)).bind fun ixfe _ => ?_
  refine (safe_drop d 6 (by omega)).bind fun t ht => ?_
  refine (safe_u64 t (by rw [ht, List.length_drop]; omega)).bind fun x _ => ?_
  exact Safe.mono (put_keeps ext h row col (by trivial) _) fun _ h => h.1

theorem rk_safe (ext : Ext) (b : Book) (d : Slice) {s : Sheet} (h : SheetInv s) (hd : 10 ≤ d.val.length) :
    Safe (rkRec ext b d s) (Keeps s) := by
  unfold rkRec
  refine (safe_sub d 0 2 (by omega) (by omega)).bind fun t ht => ?_
  refine (safe_u16 t (by rw [ht, take_drop_len _ (by omega)]; omega)).bind fun row _ => ?_
  refine (safe_sub d 2 4 (by omega) (by omega)).bind fun t ht => ?_
  refine (safe_u16 t (by rw [ht, take_drop_len _ (by omega)]; omega)).bind fun col _ => ?_
  refine (safe_drop d 4 (by omega)).bind fun t ht => ?_
  refine (safe_u16 t (by rw [ht, List.length_drop]; omega)).bind fun ixfe _ => ?_
  refine (safe_drop d 6 (by omega)).bind fun t ht => ?_
  refine (safe_u32 t (by rw [ht, List.length_drop]; omega)).bind fun v _ => ?_
  exact (put_keeps ext h row col (rkValue_ok v) _).mono fun _ h => h.1

theorem label_safe (ext : Ext) (b : Book) (d : Slice) {s : Sheet} (h : SheetInv s)
    (hd : ∃ head i tail, head.length = 6 ∧ i < 2 ^ 32 ∧ i ≠ b.strings.length ∧ d.val = head ++ (leBytes 4 i ++ tail)) :
    Safe (labelRec ext b d s) (Keeps s) := by
  obtain ⟨head, i, tail, hh, hi, hne, he⟩ := hd
  have hlen : d.val.length = 10 + tail.length := by rw [he, List.length_append, List.length_append, leBytes_length]; omega
  unfold labelRec
  refine (safe_sub d 0 2 (by omega) (by omega)).bind fun t ht => ?_
  refine (safe_u16 t (by rw [ht, take_drop_len _ (by omega)]; omega)).bind fun row _ => ?_
  refine (safe_sub d 2 4 (by omega) (by omega)).bind fun t ht => ?_
  refine (safe_u16 t (by rw [ht, take_drop_len _ (by omega)]; omega)).bind fun col _ => ?_
  refine (safe_sub d 4 6 (by omega) (by omega)).bind fun t ht => ?_
  refine (safe_u16 t (by rw [ht, take_drop_len _ (by omega)]; omega)).bind fun ixfe _ => ?_
  refine (safe_drop d 6 (by omega)).bind fun t ht => ?_
  have hu : t.u32 = .ok i := by
    rw [show t = ⟨leBytes 4 i ++ tail, t.rest⟩ from by
      rw [← show t.val = leBytes 4 i ++ tail from by rw [ht, he, ← hh, List.drop_left]]]
    exact u32_here i hi tail t.rest
  rw [hu, GoRes.ok_bind]
  split
  · trivial
  · split
    · rename_i h1 h2
      rw [List.getElem?_eq_none_iff] at h2
      omega
    · split
      · exact Keeps.refl h
      · exact Safe.mono (put_keeps ext h row col (by trivial) _) fun _ h => h.1

theorem regionCell_safe (ext : Ext) (top : Option Bytes) (r0 r1 c0 c1 rn cn : Nat) {s : Sheet} (h : SheetInv s) :
    Safe (putRegionCell ext top r0 r1 c0 c1 rn cn s) (Keeps s) := by
  unfold putRegionCell
  split
  · exact Keeps.refl h
  · exact Safe.mono (put_keeps ext h rn cn (by trivial) _) fun _ h => h.1

theorem regionRow_safe (ext : Ext) (top : Option Bytes) (r0 r1 c0 c1 rn : Nat) : ∀ (n cn : Nat) {s : Sheet}, SheetInv s →
    Safe (putRegionRow ext top r0 r1 c0 c1 rn n cn s) (Keeps s)
  | 0, _, _, h => Keeps.refl h
  | n + 1, cn, _, h => by
    rw [putRegionRow]
    refine (regionCell_safe ext top r0 r1 c0 c1 rn cn h).bind fun s1 h1 => ?_
    exact (regionRow_safe ext top r0 r1 c0 c1 rn n (cn + 1) h1.1).mono fun s2 h2 => h1.trans h2

theorem regionRows_safe (ext : Ext) (top : Option Bytes) (r0 r1 c0 c1 : Nat) : ∀ (n rn : Nat) {s : Sheet}, SheetInv s →
    Safe (putRegionRows ext top r0 r1 c0 c1 n rn s) (Keeps s)
  | 0, _, _, h => Keeps.refl h
  | n + 1, rn, _, h => by
    rw [putRegionRows]
    refine (regionRow_safe ext top r0 r1 c0 c1 rn _ _ h).bind fun s1 h1 => ?_
    exact (regionRows_safe ext top r0 r1 c0 c1 n (rn + 1) h1.1).mono fun s2 h2 => h1.trans h2

theorem region_safe (ext : Ext) (top : Option Bytes) (r0 r1 c0 c1 : Nat) {s : Sheet} (h : SheetInv s) :
    Safe (putRegion ext top r0 r1 c0 c1 s) (Keeps s) := regionRows_safe ext top r0 r1 c0 c1 _ _ h

theorem mergeLoop_safe (ext : Ext) (mr mc : Nat) : ∀ (n : Nat) (raw : Slice) {s : Sheet}, SheetInv s →
    8 * n ≤ raw.val.length → Safe (mergeLoop ext mr mc n raw s) (Keeps s)
  | 0, _, _, h, _ => Keeps.refl h
  | n + 1, raw, s, h, hl => by
    rw [mergeLoop]
    refine (safe_sub raw 0 2 (by omega) (by omega)).bind fun t ht => ?_
    refine (safe_u16 t (by rw [ht, take_drop_len _ (by omega)]; omega)).bind fun r0 _ => ?_
    refine (safe_sub raw 2 4 (by omega) (by omega)).bind fun t ht => ?_
    refine (safe_u16 t (by rw [ht, take_drop_len _ (by omega)]; omega)).bind fun r1 _ => ?_
    refine (safe_sub raw 4 6 (by omega) (by omega)).bind fun t ht => ?_
    refine (safe_u16 t (by rw [ht, take_drop_len _ (by omega)]; omega)).bind fun c0 _ => ?_
    refine (safe_drop raw 6 (by omega)).bind fun t ht => ?_
    refine (safe_u16 t (by rw [ht, List.length_drop]; omega)).bind fun c1 _ => ?_
    refine (safe_drop raw 8 (by omega)).bind fun raw' ht => ?_
    refine (region_safe ext none r0 _ c0 _ h).bind fun s1 h1 => ?_
    exact (mergeLoop_safe ext mr mc n raw' h1.1 (by rw [ht, List.length_drop]; omega)).mono fun s2 h2 => h1.trans h2

theorem merge_safe (ext : Ext) (mr mc : Nat) (d : Slice) {s : Sheet} (h : SheetInv s)
    (hd : ∃ n regions tail, n < 65536 ∧ regions.length = 8 * n ∧ d.val = leBytes 2 n ++ (regions ++ tail)) :
    Safe (mergeRec ext mr mc d s) (Keeps s) := by
  obtain ⟨n, regions, tail, hn, hr, he⟩ := hd
  obtain ⟨dv, dr⟩ := d
  simp only at he
  subst he
  unfold mergeRec
  rw [sub_here (leBytes 2 n) (regions ++ tail) dr 2 (by rw [leBytes_length]), GoRes.ok_bind]
  have := u16_here n hn [] ((regions ++ tail) ++ dr)
  rw [List.append_nil] at this
  rw [this, GoRes.ok_bind, drop_here (leBytes 2 n) (regions ++ tail) dr 2 (by rw [leBytes_length]), GoRes.ok_bind]
  exact mergeLoop_safe ext mr mc n _ h (by simp only [List.length_append]; omega)

/-! ### Formulas and their texts -/

/-- The state of the second pass: `ready` tells that there is a cell for the text of a formula. -/
structure StOk (ready : Bool) (st : CellSt) : Prop where
  inv : SheetInv st.sheet
  cap : 8224 ≤ st.usCap
  full : ready = true → Full st.sheet st.formulaRow st.formulaCol

theorem StOk.keep {ready : Bool} {st : CellSt} (h : StOk ready st) {s : Sheet} (hk : Keeps st.sheet s) :
    StOk ready { st with sheet := s } := ⟨hk.1, h.cap, fun e => hk.2 _ _ (h.full e)⟩

theorem with_safe {ready : Bool} {st : CellSt} (h : StOk ready st) {x : GoRes Sheet} (hx : Safe x (Keeps st.sheet)) :
    Safe (st.with x) (StOk ready) := hx.bind fun _ hs => h.keep hs

theorem formulaValue_safe (ext : Ext) (row col fno : Nat) (fd : Slice) {s : Sheet} (h : SheetInv s) (hl : 8 ≤ fd.val.length) :
    Safe (formulaValue ext row col fno fd s) (fun s' => Keeps s s' ∧
      ((¬ (fd.val[6]? = some 0xFF ∧ fd.val[7]? = some 0xFF) ∨ fd.val[0]? = some 0 ∨ fd.val[0]? = some 1 ∨
        fd.val[0]? = some 2) → Full s' row col)) := by
  have hput : ∀ (v : GoVal) (n : Nat), Supported v → Safe (s.put ext row col v n) (fun s' => Keeps s s' ∧
      ((¬ (fd.val[6]? = some 0xFF ∧ fd.val[7]? = some 0xFF) ∨ fd.val[0]? = some 0 ∨ fd.val[0]? = some 1 ∨
        fd.val[0]? = some 2) → Full s' row col)) := fun v n hv =>
    (put_keeps ext h row col hv n).mono fun s' hs => ⟨hs.1, fun _ => hs.2⟩
  unfold formulaValue
  have hspec : Safe (formulaSpecial fd) (fun b => b = true → fd.val[6]? = some 0xFF ∧ fd.val[7]? = some 0xFF) := by
    unfold formulaSpecial
    refine (safe_idx fd 6 (by omega)).bind fun x6 h6 => ?_
    split
    · rename_i e6
      refine (safe_idx fd 7 (by omega)).bind fun x7 h7 => ?_
      intro e7
      simp only [decide_eq_true_eq] at e7
      rw [h6, h7, e6, e7]
      exact ⟨rfl, rfl⟩
    · intro e; cases e
  refine hspec.bind fun sp hsp => ?_
  split
  · rename_i he
    have hsp := hsp he
    refine (safe_idx fd 0 (by omega)).bind fun x0 h0 => ?_
    split
    · exact hput _ _ trivial
    · split
      · exact (safe_idx fd 2 (by omega)).bind fun x2 _ => hput _ _ trivial
      · split
        · exact (safe_idx fd 2 (by omega)).bind fun x2 _ => hput _ _ trivial
        · rename_i n0 n1 n2
          refine ⟨Keeps.refl h, fun hk => ?_⟩
          exfalso
          rw [h0] at hk
          rcases hk with hk | hk | hk | hk
          · exact hk hsp
          · cases hk; exact n0 rfl
          · cases hk; exact n1 rfl
          · cases hk; exact n2 rfl
  · exact (safe_u64 fd hl).bind fun x _ => hput _ _ trivial

theorem formula_safe (ext : Ext) (b : Book) (d : Slice) {ready : Bool} {st : CellSt} (h : StOk ready st)
    (hd : 14 ≤ d.val.length) : Safe (formulaRec ext b d st) (fun st' => StOk false st' ∧
      (KnownResult d.val → StOk true st')) := by
  unfold formulaRec
  refine (safe_sub d 0 2 (by omega) (by omega)).bind fun t ht => ?_
  refine (safe_u16 t (by rw [ht, take_drop_len _ (by omega)]; omega)).bind fun row _ => ?_
  refine (safe_sub d 2 4 (by omega) (by omega)).bind fun t ht => ?_
  refine (safe_u16 t (by rw [ht, take_drop_len _ (by omega)]; omega)).bind fun col _ => ?_
  refine (safe_sub d 4 6 (by omega) (by omega)).bind fun t ht => ?_
  refine (safe_u16 t (by rw [ht, take_drop_len _ (by omega)]; omega)).bind fun ixfe _ => ?_
  refine (safe_drop d 6 (by omega)).bind fun fd hfd => ?_
  refine (formulaValue_safe ext row col _ fd h.inv (by rw [hfd, List.length_drop]; omega)).bind fun s hs => ?_
  refine ⟨⟨hs.1.1, h.cap, fun e => by cases e⟩, fun hk => ⟨hs.1.1, h.cap, fun _ => hs.2 ?_⟩⟩
  unfold KnownResult at hk
  rw [hfd]
  simp only [List.getElem?_drop]
  exact hk

theorem read16u_safe : ∀ (n : Nat) (raw : Slice), 2 * n ≤ raw.val.length →
    Safe (read16u n raw) (fun x => x.2.val = raw.val.drop (2 * n))
  | 0, _, _ => by rw [read16u]; rfl
  | n + 1, raw, h => by
    rw [read16u]
    refine (safe_u16 raw (by omega)).bind fun u _ => ?_
    refine (safe_drop raw 2 (by omega)).bind fun raw' hr => ?_
    refine (read16u_safe n raw' (by rw [hr, List.length_drop]; omega)).bind fun x hx => ?_
    show x.2.val = _
    rw [hx, hr, List.drop_drop]
    congr 1
    omega

theorem bit0_eq (f : UInt8) : bit f 0 = true ↔ ¬ f &&& 1 = 0 := by
  rw [flag0]
  cases bit f 0 <;> simp

theorem stringCont_safe (cap : Nat) (hc : 8224 ≤ cap) : ∀ (recs : List Rec),
    (∀ c ∈ (recs.map Rec.view).takeWhile (fun c => c.type = 0x3C), ContFits c) → Safe (stringCont cap recs) (fun _ => True)
  | [], _ => by rw [stringCont]; trivial
  | r :: rs, h => by
    rw [stringCont]
    split
    · trivial
    · rename_i ht
      have ht : r.type = recContinue := by simpa using ht
      have hv : r.view.type = 0x3C := ht
      rw [List.map_cons, List.takeWhile_cons, if_pos (by simp [hv])] at h
      obtain ⟨h1, h2⟩ := h r.view (by simp)
      have h1 : 1 ≤ r.data.val.length := h1
      have h2 : r.data.val.length ≤ 16448 := h2
      refine (safe_idx r.data 0 (by omega)).bind fun f _ => ?_
      refine (safe_drop r.data 1 (by omega)).bind fun raw hraw => ?_
      have hl : raw.val.length = r.data.val.length - 1 := by rw [hraw, List.length_drop]
      have hp : Safe (stringPart cap f raw) (fun _ => True) := by
        unfold stringPart
        split
        · trivial
        · split
          · rename_i hlt
            unfold Slice.len at hlt
            omega
          · exact (read16u_safe _ raw (by unfold Slice.len; omega)).bind fun _ _ => trivial
      refine hp.bind fun part _ => ?_
      exact (stringCont_safe cap hc rs (fun c hc' => h c (by simp [hc']))).bind fun _ _ => trivial

theorem string_safe (d : Slice) (later : List Rec) {st : CellSt} (h : StOk true st) (hd : StringFits d.val)
    (hl : ∀ c ∈ (later.map Rec.view).takeWhile (fun c => c.type = 0x3C), ContFits c) :
    Safe (stringRec d later st) (StOk true) := by
  obtain ⟨n, flags, chars, hn, he, hw⟩ := hd
  obtain ⟨dv, dr⟩ := d
  simp only at he
  subst he
  unfold stringRec
  rw [sub_here (leBytes 2 n) (flags :: chars) dr 2 (by rw [leBytes_length]), GoRes.ok_bind]
  have hu := u16_here n hn [] ((flags :: chars) ++ dr)
  rw [List.append_nil] at hu
  rw [hu, GoRes.ok_bind, show (⟨leBytes 2 n ++ flags :: chars, dr⟩ : Slice).idx 2 = .ok flags from rfl, GoRes.ok_bind]
  have hdrop : (⟨leBytes 2 n ++ flags :: chars, dr⟩ : Slice).dropFrom 3 = .ok ⟨chars, dr⟩ := by
    have := drop_here (leBytes 2 n ++ [flags]) chars dr 3 (by simp [leBytes_length])
    simpa using this
  rw [hdrop, GoRes.ok_bind]
  have hhead : Safe (stringHead n flags ⟨chars, dr⟩) (fun _ => True) := by
    unfold stringHead
    split
    · trivial
    · rename_i hf
      exact (read16u_safe n ⟨chars, dr⟩ (hw ((bit0_eq flags).2 hf))).bind fun _ _ => trivial
  have hcap : 8224 ≤ (if flags &&& 1 = 0 then st.usCap else max st.usCap n) := by
    have := h.cap
    split <;> omega
  refine hhead.bind fun fstr _ => ?_
  refine (stringCont_safe _ hcap later hl).bind fun more _ => ?_
  refine (set_keeps h.inv (h.full rfl) _).bind fun s hs => ?_
  exact ⟨hs.1, hcap, fun e => hs.2 _ _ (h.full e)⟩

/-! ### Hyperlinks -/

theorem textAt_safe {raw : Slice} {rest : Bytes} (h : TextAt raw.val rest) :
    Safe (hyperString raw) (fun x => x.2.val = rest) ∧ Safe (framePart (2 ^ 7) raw) (fun x => x.val = rest) := by
  obtain ⟨n, chars, hn, hc, he⟩ := h
  obtain ⟨dv, dr⟩ := raw
  simp only at he
  subst he
  have hu := u32_here n (by omega) [] ((chars ++ rest) ++ dr)
  rw [List.append_nil] at hu
  have hs : (⟨leBytes 4 n ++ (chars ++ rest), dr⟩ : Slice).sub 0 4 = .ok ⟨leBytes 4 n, (chars ++ rest) ++ dr⟩ :=
    sub_here _ _ _ 4 (by rw [leBytes_length])
  constructor
  · unfold hyperString
    rw [hs, GoRes.ok_bind, hu, GoRes.ok_bind, drop_here _ _ _ 4 (by rw [leBytes_length]), GoRes.ok_bind]
    refine (read16u_safe n ⟨chars ++ rest, dr⟩ (by simp only [List.length_append]; omega)).bind fun x hx => ?_
    show x.2.val = rest
    rw [hx, ← hc]
    simp
  · unfold framePart
    rw [if_pos (by decide), hs, GoRes.ok_bind, hu, GoRes.ok_bind, Nat.mod_eq_of_lt (by omega)]
    refine (safe_drop _ _ (by simp only [List.length_append, leBytes_length]; omega)).mono fun x hx => ?_
    rw [hx, show leBytes 4 n ++ (chars ++ rest) = (leBytes 4 n ++ chars) ++ rest from by simp, List.drop_left']
    simp only [List.length_append, leBytes_length]; omega

theorem urlId_eq : urlId = urlClass := rfl

theorem fileId_eq : fileId = fileClass := rfl

theorem fileId_ne : ¬ fileId = urlClass := by decide

theorem moniker_safe {raw : Slice} {rest : Bytes} (h : MonikerAt raw.val rest) :
    Safe (parseMoniker raw) (fun x => x.2.val = rest) := by
  obtain ⟨dv, dr⟩ := raw
  simp only at h
  cases h with
  | url n chars _ hn hc =>
    unfold parseMoniker
    rw [sub_here urlId _ dr 16 rfl, GoRes.ok_bind, if_pos urlId_eq, drop_here urlId _ dr 16 rfl, GoRes.ok_bind]
    unfold urlMoniker
    rw [u32_here n hn, GoRes.ok_bind, drop_here _ _ _ 4 (by rw [leBytes_length]), GoRes.ok_bind]
    refine (read16u_safe (n / 2) ⟨chars ++ rest, dr⟩ (by simp only [List.length_append]; omega)).bind fun x hx => ?_
    show x.2.val = rest
    rw [hx, show 2 * (n / 2) = chars.length from by omega, List.drop_left]
  | file anti n path fixed _ ha hn hp hf =>
    unfold parseMoniker
    rw [sub_here fileId _ dr 16 rfl, GoRes.ok_bind, if_neg fileId_ne, if_pos fileId_eq, drop_here fileId _ dr 16 rfl, GoRes.ok_bind]
    unfold fileMoniker
    rw [drop_here anti _ dr 2 ha.symm, GoRes.ok_bind, u32_here n hn, GoRes.ok_bind]
    have e1 := Crypto.sub_mid (anti ++ leBytes 4 n) path (fixed ++ (leBytes 4 0 ++ rest)) dr 6 (6 + n)
      (by simp [leBytes_length, ha]) (by simp [leBytes_length, ha, hp])
    rw [List.append_assoc] at e1
    rw [e1, GoRes.ok_bind]
    have e2 := drop_here (anti ++ (leBytes 4 n ++ (path ++ fixed))) (leBytes 4 0 ++ rest) dr (6 + n + 24)
      (by simp [leBytes_length, ha, hp, hf]; omega)
    simp only [List.append_assoc] at e2
    rw [e2, GoRes.ok_bind, u32_here 0 (by omega), GoRes.ok_bind, drop_here _ _ _ 4 (by rw [leBytes_length]), GoRes.ok_bind,
      if_neg (by omega)]
    rfl
  | fileUni anti n m path fixed head chars _ ha hn hp hf hm hm2 hh hc =>
    unfold parseMoniker
    rw [sub_here fileId _ dr 16 rfl, GoRes.ok_bind, if_neg fileId_ne, if_pos fileId_eq, drop_here fileId _ dr 16 rfl, GoRes.ok_bind]
    unfold fileMoniker
    rw [drop_here anti _ dr 2 ha.symm, GoRes.ok_bind, u32_here n hn, GoRes.ok_bind]
    have e1 := Crypto.sub_mid (anti ++ leBytes 4 n) path (fixed ++ (leBytes 4 m ++ (head ++ (chars ++ rest)))) dr 6 (6 + n)
      (by simp [leBytes_length, ha]) (by simp [leBytes_length, ha, hp])
    rw [List.append_assoc] at e1
    rw [e1, GoRes.ok_bind]
    have e2 := drop_here (anti ++ (leBytes 4 n ++ (path ++ fixed))) (leBytes 4 m ++ (head ++ (chars ++ rest))) dr (6 + n + 24)
      (by simp [leBytes_length, ha, hp, hf]; omega)
    simp only [List.append_assoc] at e2
    rw [e2, GoRes.ok_bind, u32_here m hm2, GoRes.ok_bind, drop_here _ _ _ 4 (by rw [leBytes_length]), GoRes.ok_bind,
      if_pos (by omega), drop_here head _ dr 6 hh.symm, GoRes.ok_bind,
      show (m + 4294967296 - 6) % 4294967296 / 2 = (m - 6) / 2 from by omega]
    refine (read16u_safe ((m - 6) / 2) ⟨chars ++ rest, dr⟩ (by simp only [List.length_append]; omega)).bind fun x hx => ?_
    show x.2.val = rest
    rw [hx, show 2 * ((m - 6) / 2) = chars.length from by omega, List.drop_left]

theorem framePart_on {flags : Nat} (h : flags.testBit 7 = true) (raw : Slice) : framePart flags raw = framePart (2 ^ 7) raw := by
  unfold framePart
  rw [if_pos h, if_pos (by decide)]

theorem display_safe {flags : Nat} {raw : Slice} {rest : Bytes} (h : OptAt (flags.testBit 4) TextAt raw.val rest) :
    Safe (displayPart flags raw) (fun x => x.2.val = rest) := by
  unfold displayPart
  unfold OptAt at h
  split
  · rename_i e; rw [if_pos e] at h; exact (textAt_safe h).1
  · rename_i e; rw [if_neg e] at h; exact h

theorem frame_safe {flags : Nat} {raw : Slice} {rest : Bytes} (h : OptAt (flags.testBit 7) TextAt raw.val rest) :
    Safe (framePart flags raw) (fun x => x.val = rest) := by
  unfold OptAt at h
  split at h
  · rename_i e; rw [framePart_on e]; exact (textAt_safe h).2
  · rename_i e; unfold framePart; rw [if_neg e]; exact h

theorem location_safe {flags : Nat} {raw : Slice} {rest : Bytes} (h : OptAt (flags.testBit 3) TextAt raw.val rest)
    (link : Bytes) : Safe (locationPart flags link raw) (fun _ => True) := by
  unfold locationPart
  unfold OptAt at h
  split
  · rename_i e; rw [if_pos e] at h; exact (textAt_safe h).1.bind fun _ _ => trivial
  · trivial

theorem monikerPart_safe {flags : Nat} {raw : Slice} {rest : Bytes}
    (h : OptAt (flags.testBit 0) (fun d r => if flags.testBit 8 then TextAt d r else MonikerAt d r) raw.val rest) :
    Safe (monikerPart flags raw) (fun x => x.2.val = rest) := by
  unfold monikerPart
  unfold OptAt at h
  split
  · rename_i e
    rw [if_pos e] at h
    split
    · rename_i e8; simp only [if_pos e8] at h; exact (textAt_safe h).1
    · rename_i e8; simp only [if_neg e8] at h; exact moniker_safe h
  · rename_i e; rw [if_neg e] at h; exact h

theorem hyper_safe {raw : Slice} (h : HyperFits raw.val) : Safe (decodeHyperlinks raw) (fun _ => True) := by
  obtain ⟨dv, dr⟩ := raw
  simp only at h
  have start : ∀ (cls : Bytes) (v : Nat) (rest : Bytes), cls.length = 16 → v < 2 ^ 32 →
      decodeHyperlinks ⟨cls ++ (leBytes 4 v ++ rest), dr⟩ =
        (if v ≠ 2 then .err (.msg "xls: unknown hyperlink version")
        else do
          let flags ← (← (⟨leBytes 4 v ++ rest, dr⟩ : Slice).sub 4 8).u32
          let raw ← (⟨leBytes 4 v ++ rest, dr⟩ : Slice).dropFrom 8
          let (display, raw) ← displayPart flags raw
          let raw ← framePart flags raw
          let (link, raw) ← monikerPart flags raw
          let link ← locationPart flags link raw
          pure (trim display, trim link)) := by
    intro cls v rest hc hv
    unfold decodeHyperlinks
    rw [drop_here cls _ dr 16 hc.symm, GoRes.ok_bind, sub_here (leBytes 4 v) rest dr 4 (by rw [leBytes_length]), GoRes.ok_bind]
    have hu := u32_here v hv [] (rest ++ dr)
    rw [List.append_nil] at hu
    rw [hu, GoRes.ok_bind]
  have flagsAt : ∀ (flags : Nat) (d0 : Bytes), flags < 2 ^ 32 →
      ((⟨leBytes 4 2 ++ (leBytes 4 flags ++ d0), dr⟩ : Slice).sub 4 8 >>= Slice.u32) = .ok flags ∧
      (⟨leBytes 4 2 ++ (leBytes 4 flags ++ d0), dr⟩ : Slice).dropFrom 8 = .ok ⟨d0, dr⟩ := by
    intro flags d0 hf
    have e1 := Crypto.sub_mid (leBytes 4 2) (leBytes 4 flags) d0 dr 4 8 (by rw [leBytes_length])
      (by rw [leBytes_length, leBytes_length])
    have hu := u32_here flags hf [] (d0 ++ dr)
    rw [List.append_nil] at hu
    have e2 := drop_here (leBytes 4 2 ++ leBytes 4 flags) d0 dr 8 (by simp [leBytes_length])
    rw [List.append_assoc] at e2
    exact ⟨by rw [e1, GoRes.ok_bind, hu], e2⟩
  cases h with
  | version cls v rest hc hv hne =>
    rw [start cls v rest hc hv, if_pos hne]
    trivial
  | unknown cls flags d0 d1 id rest hc hf h4 h7 h0 h8 hid hn1 hn2 =>
    rw [start cls 2 _ hc (by omega), if_neg (by simp)]
    obtain ⟨e1, e2⟩ := flagsAt flags d0 hf
    rw [← bind_assoc, e1, GoRes.ok_bind, e2, GoRes.ok_bind]
    refine (display_safe (raw := ⟨d0, dr⟩) h4).bind fun x hx => ?_
    rw [← hx] at h7
    refine (frame_safe h7).bind fun y hy => ?_
    have hm : monikerPart flags y = .err (.msg "xls: unknown moniker classid") := by
      unfold monikerPart
      rw [if_pos h0, if_neg (by rw [h8]; simp)]
      unfold parseMoniker
      rw [show y = ⟨id ++ rest, y.rest⟩ from by rw [← hy], sub_here id rest _ 16 hid.symm, GoRes.ok_bind, if_neg (by rw [← urlId_eq]; exact hn1),
        if_neg (by rw [← fileId_eq]; exact hn2)]
    rw [hm]
    trivial
  | object cls flags d0 d1 d2 d3 d4 hc hf h4 h7 h0 h3 =>
    rw [start cls 2 _ hc (by omega), if_neg (by simp)]
    obtain ⟨e1, e2⟩ := flagsAt flags d0 hf
    rw [← bind_assoc, e1, GoRes.ok_bind, e2, GoRes.ok_bind]
    refine (display_safe (raw := ⟨d0, dr⟩) h4).bind fun x hx => ?_
    rw [← hx] at h7
    refine (frame_safe h7).bind fun y hy => ?_
    rw [← hy] at h0
    refine (monikerPart_safe h0).bind fun z hz => ?_
    rw [← hz] at h3
    exact (location_safe h3 z.1).bind fun _ _ => trivial

theorem hlink_safe (ext : Ext) (mr mc : Nat) (d : Slice) {s : Sheet} (h : SheetInv s)
    (hd : ∃ region link, region.length = 8 ∧ d.val = region ++ link ∧ HyperFits link) :
    Safe (hlinkRec ext mr mc d s) (Keeps s) := by
  obtain ⟨region, link, hr, he, hf⟩ := hd
  have hlen : 8 ≤ d.val.length := by rw [he, List.length_append]; omega
  unfold hlinkRec
  refine (safe_sub d 0 2 (by omega) (by omega)).bind fun t ht => ?_
  refine (safe_u16 t (by rw [ht, take_drop_len _ (by omega)]; omega)).bind fun r0 _ => ?_
  refine (safe_sub d 2 4 (by omega) (by omega)).bind fun t ht => ?_
  refine (safe_u16 t (by rw [ht, take_drop_len _ (by omega)]; omega)).bind fun r1 _ => ?_
  refine (safe_sub d 4 6 (by omega) (by omega)).bind fun t ht => ?_
  refine (safe_u16 t (by rw [ht, take_drop_len _ (by omega)]; omega)).bind fun c0 _ => ?_
  refine (safe_drop d 6 (by omega)).bind fun t ht => ?_
  refine (safe_u16 t (by rw [ht, List.length_drop]; omega)).bind fun c1 _ => ?_
  split
  · exact Keeps.refl h
  · split
    · exact Keeps.refl h
    · refine (safe_drop d 8 hlen).bind fun t ht => ?_
      have hh : Safe (decodeHyperlinks t) (fun _ => True) :=
        hyper_safe (by rw [ht, he, ← hr, List.drop_left]; exact hf)
      split
      · rename_i e; rw [e] at hh; exact hh.elim
      · exact Keeps.refl h
      · exact region_safe ext _ _ _ _ _ h

end Grate.Xls
