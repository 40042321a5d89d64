import Verif.Lemmas.XlsPasses
import Verif.Props.XlsStream

/-! # Lemmas about loaded workbooks, whatever their bytes -/

namespace Grate.Props

open Grate Grate.Spec Grate.Xls

/-- Records of a loaded workbook have the size of their data. -/
theorem nextRecord_sized {raw : Slice} {nr : Rec} {no : Nat} (h : nextRecord raw = .ok (nr, no)) :
    nr.size = nr.data.val.length := by
  unfold nextRecord at h
  split at h
  · cases h
  · simp only [GoRes.bind_eq_ok] at h
    obtain ⟨_, _, _, _, h2, h2', size, hsz, b, hb, h⟩ := h
    have hlt : size < 65536 := by
      unfold Slice.u16 at hsz
      split at hsz
      · cases hsz
        unfold le16
        rename_i a b _ _
        have := a.toNat_lt
        have := b.toNat_lt
        omega
      · cases hsz
    split at h
    · cases h
    · rw [GoRes.bind_eq_ok] at h
      obtain ⟨d, hd, h⟩ := h
      cases h
      unfold Slice.sub at hd
      split at hd
      · cases hd
        rename_i hc
        simp only [List.length_take, List.length_drop, List.length_append]
        omega
      · cases hd

theorem place_sized {g g' : Groups} {nr : Rec} (h : g.place nr = .ok g') (hn : nr.size = nr.data.val.length)
    (hg : ∀ recs ∈ g.subs, Sized recs) : ∀ recs ∈ g'.subs, Sized recs := by
  unfold Groups.place at h
  split at h
  · cases h
    intro recs hr
    obtain ⟨k, hk⟩ := List.mem_iff_getElem?.1 hr
    simp only [List.getElem?_modify] at hk
    cases hq : g.subs[k]? with
    | none => rw [hq] at hk; cases hk
    | some q =>
      rw [hq] at hk
      have hqs := hg q (List.mem_of_getElem? hq)
      simp only [Option.map_eq_map, Option.map_some, Option.some.injEq] at hk
      subst hk
      split
      · intro r hr
        rcases List.mem_append.1 hr with hr | hr
        · exact hqs r hr
        · rw [List.mem_singleton] at hr; subst hr; exact hn
      · exact hqs
  · cases h

theorem count_sized {g : Groups} (nr : Rec) (hg : ∀ recs ∈ g.subs, Sized recs) :
    ∀ recs ∈ (g.count nr).subs, Sized recs := by
  intro recs hr
  have : recs ∈ g.subs ∨ recs = [] := by
    unfold Groups.count at hr
    split at hr
    · exact .inl hr
    · split at hr
      · split at hr
        · simpa using hr
        · exact .inl hr
      · exact .inl hr
  rcases this with h | h
  · exact hg recs h
  · subst h; intro r hr; cases hr

theorem gather_sized (d : Bool) : ∀ (n : Nat) (raw : Slice) (g g' : Groups), raw.len ≤ n →
    (∀ recs ∈ g.subs, Sized recs) → gather d raw g = .ok (.done g') → ∀ recs ∈ g'.subs, Sized recs := by
  intro n
  induction n with
  | zero =>
    intro raw g g' hl hg h
    rw [gather] at h
    split at h
    · cases h; exact hg
    · cases h
    · cases h
    · rename_i hn
      exfalso
      unfold nextRecord at hn
      rw [if_pos (by omega)] at hn
      cases hn
  | succ n ih =>
    intro raw g g' hl hg h
    rw [gather] at h
    split at h
    · cases h; exact hg
    · cases h
    · cases h
    · rename_i nr no hn
      split at h
      · rename_i raw' hr'
        have hlt := nextRecord_pos hn hr'
        simp only at h
        split at h
        · cases h
        · split at h
          · rename_i g1 hp
            exact ih raw' g1 g' (by omega) (place_sized hp (nextRecord_sized hn) (count_sized nr hg)) h
          · cases h
          · cases h
      · cases h
      · cases h

theorem load_sized (p : Crypto.Prims) (mk : Bytes → Fmt × CellType) (spare : Bytes) (raw : Slice) (b : Book)
    (h : loadStream p mk spare raw = .ok b) : ∀ recs ∈ b.subs, Sized recs := by
  have key : ∀ (d : Bool) (raw : Slice) (g : Groups), gather d raw Groups.init = .ok (.done g) →
      processSubs mk g.subs g.book = .ok b → ∀ recs ∈ b.subs, Sized recs := by
    intro d raw g h1 h2
    rw [(processSubs_keeps mk _ _ _ h2).1]
    exact gather_sized d raw.len raw Groups.init g (Nat.le_refl _) (fun _ h => by cases h) h1
  unfold loadStream at h
  rw [GoRes.bind_eq_ok] at h
  obtain ⟨x, hx, h⟩ := h
  cases x with
  | done g => exact key false raw g hx h
  | filePass data =>
    simp only [GoRes.bind_eq_ok] at h
    obtain ⟨t, _, h⟩ := h
    split at h
    · simp only [GoRes.bind_eq_ok] at h
      obtain ⟨_, _, _, _, all, _, h⟩ := h
      unfold loadDecrypted at h
      rw [GoRes.bind_eq_ok] at h
      obtain ⟨y, hy, h⟩ := h
      cases y with
      | done g => exact key true _ g hy h
      | filePass _ => cases h
    · split at h <;> cases h

/-! ### The date system -/

theorem add_mode (mk : Bytes → Fmt × CellType) (f : Formatter) (no : Nat) (code : Bytes) :
    (f.add mk no code).1.mode1904 = f.mode1904 := by
  unfold Formatter.add
  repeat' split
  all_goals rfl

theorem processRec_mode (mk : Bytes → Fmt × CellType) (nr : Rec) (later : List Rec) (b b' : Book)
    (h : processRec mk nr later b = .ok b') : b'.nfmt.mode1904 = b.nfmt.mode1904 := by
  unfold processRec at h
  repeat' split at h
  all_goals first
    | (cases h; rfl)
    | (simp only [GoRes.bind_eq_ok] at h
       obtain ⟨_, _, h⟩ := h
       cases h
       rfl)
    | (simp only [GoRes.bind_eq_ok] at h
       obtain ⟨_, _, _, _, h⟩ := h
       cases h
       rfl)
    | (simp only [GoRes.bind_eq_ok] at h
       obtain ⟨_, _, _, _, _, _, h⟩ := h
       cases h
       exact add_mode _ _ _ _)

theorem processSub_mode (mk : Bytes → Fmt × CellType) : ∀ (rs : List Rec) (b b' : Book),
    processSub mk rs b = .ok b' → b'.nfmt.mode1904 = b.nfmt.mode1904 := by
  intro rs
  induction rs with
  | nil => intro b b' h; cases h; rfl
  | cons r rs ih =>
    intro b b' h
    rw [processSub, GoRes.bind_eq_ok] at h
    obtain ⟨b1, h1, h2⟩ := h
    exact (ih b1 b' h2).trans (processRec_mode mk r rs b b1 h1)

theorem processSubs_mode (mk : Bytes → Fmt × CellType) : ∀ (ss : List (List Rec)) (b b' : Book),
    processSubs mk ss b = .ok b' → b'.nfmt.mode1904 = b.nfmt.mode1904 := by
  intro ss
  induction ss with
  | nil => intro b b' h; cases h; rfl
  | cons s ss ih =>
    intro b b' h
    rw [processSubs, GoRes.bind_eq_ok] at h
    obtain ⟨b1, h1, h2⟩ := h
    exact (ih b1 b' h2).trans (processSub_mode mk s b b1 h1)

theorem load_mode (p : Crypto.Prims) (mk : Bytes → Fmt × CellType) (spare : Bytes) (raw : Slice) (b : Book)
    (h : loadStream p mk spare raw = .ok b) : b.nfmt.mode1904 = false := by
  have key : ∀ (g : Groups), processSubs mk g.subs g.book = .ok b → b.nfmt.mode1904 = false :=
    fun g h2 => processSubs_mode mk _ _ _ h2
  unfold loadStream at h
  rw [GoRes.bind_eq_ok] at h
  obtain ⟨x, hx, h⟩ := h
  cases x with
  | done g => exact key g h
  | filePass data =>
    simp only [GoRes.bind_eq_ok] at h
    obtain ⟨t, _, h⟩ := h
    split at h
    · simp only [GoRes.bind_eq_ok] at h
      obtain ⟨_, _, _, _, all, _, h⟩ := h
      unfold loadDecrypted at h
      rw [GoRes.bind_eq_ok] at h
      obtain ⟨y, hy, h⟩ := h
      cases y with
      | done g => exact key g h
      | filePass _ => cases h
    · split at h <;> cases h

/-! ### Splitting short streams -/

theorem nextRecord_no_panic (raw : Slice) (h : raw.len < 65536) : nextRecord raw ≠ .panic := by
  unfold nextRecord
  split
  · intro h; cases h
  · rename_i h4
    have hl : 4 ≤ raw.val.length := by unfold Slice.len at h4; omega
    have hlen : raw.val.length < 65536 := h
    obtain ⟨a, b, c, d, t, ht⟩ : ∃ a b c d t, raw.val = a :: b :: c :: d :: t := by
      match hv : raw.val with
      | a :: b :: c :: d :: t => exact ⟨a, b, c, d, t, rfl⟩
      | [] | [_] | [_, _] | [_, _, _] => rw [hv] at hl; simp at hl
    obtain ⟨val, rest⟩ := raw
    simp only at ht
    subst ht
    have s1 : (⟨a :: b :: c :: d :: t, rest⟩ : Slice).sub 0 2 = .ok ⟨[a, b], c :: d :: t ++ rest⟩ :=
      sub_here [a, b] (c :: d :: t) rest 2 rfl
    have s2 : (⟨a :: b :: c :: d :: t, rest⟩ : Slice).sub 2 4 = .ok ⟨[c, d], t ++ rest⟩ :=
      sub_second [a, b] [c, d] t rest 2 4 rfl rfl
    have s3 : (⟨a :: b :: c :: d :: t, rest⟩ : Slice).dropFrom 4 = .ok ⟨t, rest⟩ := by
      unfold Slice.dropFrom
      rw [if_pos (by simp)]
      rfl
    rw [s1, GoRes.ok_bind, s2, s3]
    show (GoRes.ok (le16 a b) >>= _) ≠ _
    rw [GoRes.ok_bind, GoRes.ok_bind]
    show (GoRes.ok (le16 c d) >>= _) ≠ _
    rw [GoRes.ok_bind, GoRes.ok_bind]
    split
    · intro h; cases h
    · rename_i hs
      unfold Slice.len at hs
      simp only at hs
      simp only [List.length_cons] at hlen
      unfold Slice.sub
      rw [if_pos (by
        simp only [List.length_cons]
        omega)]
      intro h; cases h

theorem drop_no_panic {raw : Slice} {nr : Rec} {no : Nat} (hn : nextRecord raw = .ok (nr, no)) :
    raw.dropFrom no ≠ .panic := by
  intro hd
  unfold nextRecord at hn
  split at hn
  · cases hn
  · simp only [GoRes.bind_eq_ok] at hn
    obtain ⟨_, _, _, _, _, _, sz, _, b, hb, hn⟩ := hn
    split at hn
    · cases hn
    · rename_i hlt
      rw [GoRes.bind_eq_ok] at hn
      obtain ⟨dd, hdd, hn⟩ := hn
      cases hn
      unfold Slice.dropFrom at hb hd
      split at hb
      · cases hb
        unfold Slice.len at *
        simp only [List.length_drop] at hlt
        rw [if_pos (by omega)] at hd
        cases hd
      · cases hb

theorem gather_no_panic (d : Bool) : ∀ (n : Nat) (raw : Slice) (g : Groups), raw.len ≤ n → raw.len < 65536 → Open g →
    gather d raw g ≠ .panic := by
  intro n
  induction n with
  | zero =>
    intro raw g hl _ _
    rw [gather]
    split
    · intro h; cases h
    · intro h; cases h
    · rename_i hn; unfold nextRecord at hn; rw [if_pos (by omega)] at hn; cases hn
    · rename_i hn; unfold nextRecord at hn; rw [if_pos (by omega)] at hn; cases hn
  | succ n ih =>
    intro raw g hl hl' hg
    rw [gather]
    split
    · intro h; cases h
    · intro h; cases h
    · rename_i hn; exact absurd hn (nextRecord_no_panic raw hl')
    · rename_i nr no hn
      split
      · rename_i raw' hr'
        have hlt := nextRecord_pos hn hr'
        simp only
        split
        · intro h; cases h
        · obtain ⟨h1, h2⟩ := count_open g nr (Or.inl hg)
          obtain ⟨g1, e1, h3, _⟩ := place_flatten _ h1 nr
          rw [e1]
          simp only
          exact ih raw' g1 (by omega) (by omega) h3
      · intro h; cases h
      · rename_i hd
        exact absurd hd (drop_no_panic hn)

end Grate.Props
