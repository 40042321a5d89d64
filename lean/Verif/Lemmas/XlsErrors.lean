import Verif.Model.XlsSheet

/-! # The errors of loading a workbook stream

None of them says that the file is of another format. -/

namespace Grate.Xls

open Grate

/-- If there is an error, it does not call the file one of another format. -/
def Own (x : GoRes α) : Prop := ∀ e, x = .err e → e.isNotInFormat = false

theorem own_ok (a : α) : Own (.ok a) := fun _ h => by cases h
theorem own_pure (a : α) : Own (pure a : GoRes α) := fun _ h => by cases h
theorem own_panic : Own (.panic : GoRes α) := fun _ h => by cases h
theorem own_msg (m : String) : Own (.err (.msg m) : GoRes α) := fun _ h => by cases h; rw [GoErr.isNotInFormat] <;> first | rfl | (intro h; cases h)
theorem own_eof : Own (.err .eof : GoRes α) := fun _ h => by cases h; rw [GoErr.isNotInFormat] <;> first | rfl | (intro h; cases h)
theorem own_unexpected : Own (.err .unexpectedEOF : GoRes α) := fun _ h => by cases h; rw [GoErr.isNotInFormat] <;> first | rfl | (intro h; cases h)

theorem own_bind {x : GoRes α} {f : α → GoRes β} (h : Own x) (hf : ∀ a, Own (f a)) : Own (x >>= f) := by
  cases x with
  | ok a => exact hf a
  | err e => intro e' he; cases he; exact h e rfl
  | panic => exact own_panic

theorem own_sub (s : Slice) (lo hi : Nat) : Own (s.sub lo hi) := by
  unfold Slice.sub; split
  · exact own_ok _
  · exact own_panic
theorem own_drop (s : Slice) (lo : Nat) : Own (s.dropFrom lo) := by
  unfold Slice.dropFrom; split
  · exact own_ok _
  · exact own_panic
theorem own_idx (s : Slice) (i : Nat) : Own (s.idx i) := by
  unfold Slice.idx; split
  · exact own_ok _
  · exact own_panic
theorem own_u16 (s : Slice) : Own s.u16 := by
  unfold Slice.u16; split
  · exact own_ok _
  · exact own_panic
theorem own_u32 (s : Slice) : Own s.u32 := by
  unfold Slice.u32; split
  · exact own_ok _
  · exact own_panic
theorem own_u64 (s : Slice) : Own s.u64 := by
  unfold Slice.u64; split
  · exact own_ok _
  · exact own_panic

/-- Step through a computation. -/
macro "own" : tactic => `(tactic| repeat' first
  | exact own_ok _ | exact own_pure _ | exact own_panic | exact own_msg _ | exact own_eof | exact own_unexpected
  | exact own_sub _ _ _ | exact own_drop _ _ | exact own_idx _ _ | exact own_u16 _ | exact own_u32 _ | exact own_u64 _
  | assumption
  | (refine own_bind ?_ (fun _ => ?_))
  | split
  | dsimp only
  | fail "no step")

theorem own_nextRecord (raw : Slice) : Own (nextRecord raw) := by
  unfold nextRecord
  own

theorem own_place (g : Groups) (r : Rec) : Own (g.place r) := by
  unfold Groups.place
  own

theorem own_gather (d : Bool) : ∀ (n : Nat) (raw : Slice) (g : Groups), raw.len ≤ n → Own (gather d raw g) := by
  intro n
  induction n with
  | zero =>
    intro raw g hn
    rw [gather]
    split
    · exact own_ok _
    · rename_i e _ he
      intro e' h
      cases h
      exact own_nextRecord raw _ he
    · exact own_panic
    · rename_i nr no he
      split
      · rename_i raw' hd
        have := nextRecord_pos he hd
        omega
      · rename_i e hd
        intro e' h
        cases h
        exact own_drop raw no _ hd
      · exact own_panic
  | succ n ih =>
    intro raw g hn
    rw [gather]
    split
    · exact own_ok _
    · rename_i e _ he
      intro e' h
      cases h
      exact own_nextRecord raw _ he
    · exact own_panic
    · rename_i nr no he
      split
      · rename_i raw' hd
        have := nextRecord_pos he hd
        simp only
        split
        · exact own_ok _
        · split
          · exact ih _ _ (by omega)
          · rename_i e hp
            intro e' h
            cases h
            exact own_place _ _ _ hp
          · exact own_panic
      · rename_i e hd
        intro e' h
        cases h
        exact own_drop raw no _ hd
      · exact own_panic

theorem own_read16s : ∀ (n : Nat) (raw : Slice), Own (read16s n raw)
  | 0, _ => own_ok _
  | n + 1, raw => by
    unfold read16s
    refine own_bind (own_sub _ _ _) (fun _ => own_bind (own_u16 _) (fun _ => own_bind (own_drop _ _) (fun _ => ?_)))
    exact own_bind (own_read16s n _) (fun _ => own_pure _)

theorem own_decodeChars (cch : Nat) (f : UInt8) (head : Nat) (raw : Slice) : Own (decodeChars cch f head raw) := by
  unfold decodeChars
  split
  · own
  · exact own_bind (own_read16s _ _) (fun _ => own_pure _)

theorem own_decodeShort (raw : Slice) : Own (decodeShort raw) := by
  unfold decodeShort
  have := own_decodeChars
  refine own_bind (own_idx _ _) (fun _ => own_bind (own_idx _ _) (fun _ => own_bind (own_drop _ _) (fun _ => ?_)))
  exact own_decodeChars _ _ _ _

theorem own_decodeLong (raw : Slice) : Own (decodeLong raw) := by
  unfold decodeLong
  refine own_bind (own_sub _ _ _) (fun _ => own_bind (own_u16 _) (fun _ => own_bind (own_idx _ _) (fun _ =>
    own_bind (own_drop _ _) (fun _ => ?_))))
  exact own_decodeChars _ _ _ _

theorem own_nextChars (f : UInt8) (later : List Slice) : Own (nextChars f later) := by
  unfold nextChars
  own

theorem own_readChar (f : UInt8) (buf : Slice) : Own (readChar f buf) := by
  unfold readChar
  own

theorem own_readChars : ∀ (n : Nat) (f : UInt8) (buf : Slice) (later : List Slice), Own (readChars n f buf later)
  | 0, _, _, _ => own_ok _
  | n + 1, f, buf, later => by
    unfold readChars
    have key : ∀ (f : UInt8) (buf : Slice) (later : List Slice), Own (do
        let (c, buf) ← readChar f buf
        let (cs, buf, later) ← readChars n f buf later
        pure (c :: cs, buf, later)) := fun f buf later =>
      own_bind (own_readChar _ _) (fun _ => own_bind (own_readChars n _ _ _) (fun _ => own_pure _))
    dsimp only
    split
    · exact own_bind (own_nextChars _ _) (fun x => key _ _ _)
    · exact key _ _ _

theorem own_skipData : ∀ (later : List Slice) (n : Nat) (buf : Slice), Own (skipData n buf later)
  | [], n, buf => by unfold skipData; own
  | r :: later, n, buf => by
    unfold skipData
    split
    · exact own_ok _
    · split
      · own
      · exact own_skipData later _ _

theorem own_readString (buf : Slice) (later : List Slice) : Own (readString buf later) := by
  unfold readString runBytes extBytes
  refine own_bind (own_u16 _) (fun _ => own_bind (own_drop _ _) (fun _ => own_bind (own_idx _ _) (fun _ =>
    own_bind (own_drop _ _) (fun _ => own_bind (by own) (fun _ => own_bind (by own) (fun _ =>
    own_bind (own_readChars _ _ _ _) (fun _ => own_bind (own_skipData _ _ _) (fun _ => own_bind (own_skipData _ _ _)
    (fun _ => own_pure _)))))))))

theorem own_sstLoop : ∀ (fuel : Nat) (buf : Slice) (later : List Slice) (x : GoRes (List Bytes)),
    sstLoop fuel buf later = some x → Own x
  | 0, _, _, _, h => by cases h
  | fuel + 1, buf, later, x, h => by
    unfold sstLoop at h
    split at h
    · split at h
      · split at h
        · cases h
          exact own_ok _
        · rename_i y hy
          exact own_sstLoop fuel _ _ _ h
      · rename_i e he
        cases h
        intro e' h'
        cases h'
        exact own_readString _ _ _ he
      · cases h
        exact own_panic
    · split at h
      · cases h
        exact own_ok _
      · exact own_sstLoop fuel _ _ _ h

theorem own_parseSST (recs : List Slice) : Own (parseSST recs) := by
  unfold parseSST
  split
  · exact own_panic
  · refine own_bind (own_sub _ _ _) (fun _ => own_bind (own_u32 _) (fun _ => own_bind (own_drop _ _) (fun buf => ?_)))
    rename_i r later _ _
    cases h : sstLoop (sstFuel buf later) buf later with
    | none => exact own_panic
    | some x => exact own_sstLoop _ _ _ _ h

theorem own_checkBOF (d : Slice) : Own (checkBOF d) := by
  unfold checkBOF
  own

theorem own_boundSheet (d : Slice) : Own (boundSheet d) := by
  unfold boundSheet
  refine own_bind (own_sub _ _ _) (fun _ => own_bind (own_u32 _) (fun _ => own_bind (own_idx _ _) (fun _ =>
    own_bind (own_idx _ _) (fun _ => own_bind (own_drop _ _) (fun _ => own_bind (own_decodeShort _) (fun _ => own_pure _))))))

theorem own_processRec (mk : Bytes → Fmt × CellType) (r : Rec) (later : List Rec) (b : Book) : Own (processRec mk r later b) := by
  unfold processRec
  split
  · exact own_ok _
  split
  · exact own_bind (own_parseSST _) (fun _ => own_pure _)
  split
  · exact own_bind (own_checkBOF _) (fun _ => own_pure _)
  split
  · own
  split
  · own
  split
  · exact own_bind (own_u16 _) (fun _ => own_bind (own_drop _ _) (fun _ => own_bind (own_decodeLong _) (fun _ => own_pure _)))
  split
  · own
  split
  · exact own_bind (own_boundSheet _) (fun _ => own_pure _)
  · exact own_ok _

theorem own_processSub (mk : Bytes → Fmt × CellType) : ∀ (rs : List Rec) (b : Book), Own (processSub mk rs b)
  | [], _ => own_ok _
  | r :: rs, b => by
    unfold processSub
    exact own_bind (own_processRec mk r rs b) (fun b => own_processSub mk rs b)

theorem own_processSubs (mk : Bytes → Fmt × CellType) : ∀ (ss : List (List Rec)) (b : Book), Own (processSubs mk ss b)
  | [], _ => own_ok _
  | s :: ss, b => by
    unfold processSubs
    exact own_bind (own_processSub mk s b) (fun b => own_processSubs mk ss b)

open Crypto in
theorem own_startBlock (p : Prims) (d : Rc4) : Own (startBlock p d) := by
  unfold startBlock setPassword generateStd97Key
  own

open Crypto in
theorem own_flush (p : Prims) (d : Rc4) : Own (flush p d) := by
  unfold flush
  split
  · exact own_panic
  · exact own_bind (own_startBlock p d) (fun _ => own_pure _)

open Crypto in
theorem own_write (p : Prims) : ∀ (fuel : Nat) (d : Rc4) (data : Bytes) (x : GoRes Rc4), write p fuel d data = some x → Own x
  | 0, _, _, _, h => by cases h
  | fuel + 1, d, data, x, h => by
    unfold write at h
    split at h
    · cases h
      exact own_ok _
    · split at h
      · cases h
        exact own_panic
      · simp only at h
        split at h
        · split at h
          · exact own_write p fuel _ _ _ h
          · rename_i e he
            cases h
            intro e' h'
            cases h'
            exact own_flush p _ _ he
          · cases h
            exact own_panic
        · exact own_write p fuel _ _ _ h

open Crypto in
theorem own_writeAll (p : Prims) (d : Rc4) (data : Bytes) : Own (writeAll p d data) := by
  unfold writeAll
  cases h : write p (data.length + 2) d data with
  | none => exact own_panic
  | some x => exact own_write p _ _ _ _ h

open Crypto in
theorem own_newBasicRC4 (p : Prims) (data : Bytes) : Own (newBasicRC4 p data) := by
  unfold newBasicRC4 verify
  split
  · exact own_eof
  split
  · exact own_unexpected
  split
  · exact own_msg _
  split
  · exact own_msg _
  · refine own_bind (own_startBlock _ _) (fun _ => ?_)
    own

open Crypto in
theorem own_decryptLoop (p : Prims) (raw : Slice) : ∀ (n pos : Nat) (dec : Rc4), raw.len - pos ≤ n → Own (decryptLoop p raw pos dec) := by
  intro n
  induction n with
  | zero =>
    intro pos dec h
    unfold decryptLoop
    split
    · exact own_panic
    · rw [if_pos (by omega)]
      exact own_ok _
  | succ n ih =>
    intro pos dec h
    unfold decryptLoop
    split
    · exact own_panic
    · split
      · exact own_ok _
      · refine own_bind (own_sub _ _ _) (fun _ => own_bind (own_u16 _) (fun t => own_bind (own_sub _ _ _) (fun _ =>
          own_bind (own_u16 _) (fun k => own_bind (own_writeAll _ _ _) (fun _ => own_bind (own_writeAll _ _ _) (fun _ => ?_))))))
        split
        · refine own_bind (own_sub _ _ _) (fun _ => ?_)
          split
          · exact own_panic
          · exact own_bind (own_writeAll _ _ _) (fun _ => own_bind (ih _ _ (by omega)) (fun _ => own_pure _))
        · split
          · refine own_bind (own_sub _ _ _) (fun _ => own_bind (own_writeAll _ _ _) (fun _ => ?_))
            split
            · exact own_bind (own_sub _ _ _) (fun _ => own_bind (own_writeAll _ _ _) (fun _ => own_bind (ih _ _ (by omega))
                (fun _ => own_pure _)))
            · exact own_bind (ih _ _ (by omega)) (fun _ => own_pure _)
          · exact own_bind (own_sub _ _ _) (fun _ => own_bind (own_writeAll _ _ _) (fun _ => own_bind (ih _ _ (by omega))
              (fun _ => own_pure _)))

open Crypto in
theorem own_applyOverlays : ∀ (os : List Overlay) (all : Bytes), Own (applyOverlays all os)
  | [], _ => own_ok _
  | o :: os, all => by
    unfold applyOverlays
    split
    · exact own_panic
    · exact own_applyOverlays os _

open Crypto in
theorem own_decryptStream (p : Prims) (raw : Slice) (dec : Rc4) : Own (decryptStream p raw dec) := by
  unfold decryptStream
  exact own_bind (own_decryptLoop p raw _ 0 dec (Nat.le_refl _)) (fun _ => own_bind (own_flush _ _) (fun _ => own_applyOverlays _ _))

theorem own_loadStream (p : Crypto.Prims) (mk : Bytes → Fmt × CellType) (spare : Bytes) (raw : Slice) :
    Own (loadStream p mk spare raw) := by
  unfold loadStream
  refine own_bind (own_gather false _ raw _ (Nat.le_refl _)) (fun g => ?_)
  split
  · exact own_processSubs _ _ _
  · refine own_bind (own_u16 _) (fun t => ?_)
    split
    · refine own_bind (own_drop _ _) (fun _ => own_bind (own_newBasicRC4 _ _) (fun _ => own_bind (own_decryptStream _ _ _)
        (fun all => ?_)))
      unfold loadDecrypted
      refine own_bind (own_gather true _ _ _ (Nat.le_refl _)) (fun g => ?_)
      split
      · exact own_processSubs _ _ _
      · exact own_panic
    · split
      · exact own_msg _
      · exact own_msg _

end Grate.Xls
