import Verif.Model.Base

/-! # Model of `/repo/xls/cfb/slicereader.go` -/

namespace Grate

/-- `SliceReader`, `/repo/xls/cfb/slicereader.go:10-15`. `Index` and `Offset` are Go `uint`; decrementing
index 0 wraps to a number that is out of range of every slice, which the model reports where it is used. -/
structure SliceReader where
  csize : List Int
  data : List Bytes
  index : Nat
  offset : Nat

namespace SliceReader

/-- A reader as built by `getStreamReader` (`&SliceReader{Data: streamData}`),
`/repo/xls/cfb/cfb.go:313, 362`. -/
def mk' (data : List Bytes) : SliceReader := ⟨[], data, 0, 0⟩

/-- `Read(b)` with `len(b) = k`, `/repo/xls/cfb/slicereader.go:18-33`. The delivered bytes and the new
state; an error leaves the state as it is. -/
def read (s : SliceReader) (k : Nat) : GoRes (Bytes × SliceReader) :=
  match s.data[s.index]? with
  | none => .err .eof
  | some d =>
    if d.length < s.offset then .panic
    else
      let b := (d.drop s.offset).take k
      if 0 < b.length then
        if s.offset + b.length = d.length then .ok (b, { s with offset := 0, index := s.index + 1 })
        else .ok (b, { s with offset := s.offset + b.length })
      else .err .eof

/-- `io.ReadAll(s)` (standard library): reads with buffers of some positive sizes `ks` until an error;
EOF ends the data, other errors are passed on. `none` if the sizes run out first. -/
def readAll (s : SliceReader) : List Nat → Option (GoRes Bytes)
  | [] => none
  | k :: ks =>
    match s.read k with
    | .ok (b, s') => (readAll s' ks).map (fun r => (b ++ ·) <$> r)
    | .err .eof => some (.ok [])
    | .err e => some (.err e)
    | .panic => some .panic

/-- The cumulative sizes, `/repo/xls/cfb/slicereader.go:41-46`. -/
def cumul : Int → List Bytes → List Int
  | _, [] => []
  | sz, d :: ds => sz :: cumul (sz + d.length) ds

/-- `io.SeekStart`, `io.SeekCurrent` and `io.SeekEnd`. -/
inductive Whence where
  | start
  | current
  | fromEnd

/-- The loop of `Seek`, `/repo/xls/cfb/slicereader.go:82-100`; `none` when the fuel runs out. -/
def seekLoop (want : Int) : Nat → SliceReader → Int → Option (GoRes (Int × SliceReader))
  | 0, _, _ => none
  | fuel + 1, s, trueOffset =>
    if trueOffset = want then some (.ok (want, s))
    else
      match s.csize[s.index]?, s.data[s.index]? with
      | some lo, some d =>
        let hi := lo + d.length
        if lo < want ∧ want < hi then some (.ok (want, { s with offset := (want - lo).toNat }))
        else if want < trueOffset then
          if s.index = 0 then some .panic
          else
            match s.csize[s.index - 1]? with
            | some c => seekLoop want fuel { s with index := s.index - 1, offset := 0 } c
            | none => some .panic
        else
          match s.csize[s.index + 1]? with
          | some c => seekLoop want fuel { s with index := s.index + 1, offset := 0 } c
          | none => some .panic
      | _, _ => some .panic

/-- The cumulative sizes are computed on first use, `/repo/xls/cfb/slicereader.go:39-47`. -/
def cached (s : SliceReader) : SliceReader :=
  if s.csize.length ≠ s.data.length then { s with csize := cumul 0 s.data } else s

/-- An index past the end becomes the end of the last slice, `/repo/xls/cfb/slicereader.go:48-51`; `none`
is a crash (no slices at all). -/
def clamped (s : SliceReader) : Option SliceReader :=
  if s.csize.length ≤ s.index then
    match s.data.getLast? with
    | none => none
    | some d => some { s with index := s.csize.length - 1, offset := d.length }
  else some s

/-- `Seek`, `/repo/xls/cfb/slicereader.go:38-101`: the reported position (or error) and the new state.
After an error the state is the one of before, up to the normalisation of lines 39-51. `none` when the
fuel of the loop runs out (it never does with enough fuel, see `C34_terminates`). -/
def seek (fuel : Nat) (s : SliceReader) (offset : Int) (whence : Whence) :
    Option (GoRes (Int × SliceReader)) :=
  match s.cached.clamped with
  | none => some .panic
  | some s =>
    match s.csize[s.index]? with
    | none => some .panic
    | some c =>
      let trueOffset := (s.offset : Int) + c
      match whence with
      | .current =>
        if offset = 0 then some (.ok (trueOffset, s))
        else seekLoop (offset + trueOffset) fuel s trueOffset
      | .start =>
        if offset < 0 then some (.err (.msg "xls: invalid seek offset"))
        else seekLoop offset fuel { s with index := 0, offset := 0 } 0
      | .fromEnd =>
        if 0 < offset then some (.err (.msg "xls: invalid seek offset"))
        else
          match s.data.getLast?, s.csize.getLast? with
          | some d, some c' =>
            seekLoop (offset + ((d.length : Int) + c')) fuel
              { s with index := s.data.length - 1, offset := d.length } ((d.length : Int) + c')
          | _, _ => some .panic

end SliceReader

end Grate
