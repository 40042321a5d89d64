import Verif.Spec.Cfb
import Verif.Spec.Text
import Verif.Model.Unicode

/-! # Specification: a stream in a compound file, and what the command `grater` prints -/

namespace Grate.Spec

open Grate

/-- The name of an entry as text. -/
def Entry.label (e : Entry) : Bytes := utf8Encode (utf16Decode e.name)

/-- `file` is a compound document whose stream called `name` has the bytes `b`. The entry is among the first four of
the directory and the others before it are in use. Streams of 4096 bytes or more are chains of sectors; shorter ones
are chains of mini sectors, described by a mini FAT of one sector. -/
inductive StreamIn (file name : Bytes) : Bytes → Prop where
  | large (h : Head) (fat : List Nat) (us post : List Slot) (e : Entry) (mid : Bytes) (mf ids : List Nat) :
      Doc file h fat (us ++ .used e mid :: post) → MiniLoaded file h mf →
      (∀ s ∈ us, ∃ x m, s = .used x m) → us.length < 4 →
      (∀ x ∈ entries us, x.objType = 2 → x.label ≠ name) → e.label = name → e.objType = 2 →
      4096 ≤ e.size → Run fat e.start ids → (∀ i ∈ ids, Regular i ∧ HasSector file 9 i) →
      e.size ≤ ids.length * 512 → (ids.length - 1) * 512 < e.size →
      StreamIn file name (((ids.map (sector file 9)).flatten).take e.size)
  | small (h : Head) (fat : List Nat) (root : Entry) (rmid : Bytes) (us post : List Slot) (e : Entry) (mid : Bytes)
      (fids mids : List Nat) (M : Bytes) :
      Doc file h fat (.used root rmid :: us ++ .used e mid :: post) →
      Regular h.firstMiniFAT → HasSector file 9 h.firstMiniFAT → h.numMiniFAT ≤ 128 →
      (∀ s ∈ us, ∃ x m, s = .used x m) → us.length < 3 →
      (∀ x ∈ entries us, x.objType = 2 → x.label ≠ name) → e.label = name → e.objType = 2 →
      e.size < 4096 → Chain fat root.start fids → (∀ i ∈ fids, Regular i ∧ HasSector file 9 i) →
      fids.length ≤ 1 + root.size / 512 → M = (fids.map (sector file 9)).flatten →
      Chain (words (sector file 9 h.firstMiniFAT)) e.start mids → mids.length ≤ 1 + e.size / 64 →
      (∀ i ∈ mids, Regular i ∧ (i + 1) * 64 ≤ M.length) →
      StreamIn file name (((mids.map (miniSector M)).flatten).take e.size)

/-- Lines, each with a line feed. -/
def printed (lines : List Bytes) : Bytes := lines.flatMap (fun l => l ++ [10])

end Grate.Spec
