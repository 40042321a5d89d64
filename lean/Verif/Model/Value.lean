import Verif.Model.Unicode

/-! # Cell values and the external (standard library) functions they are printed / parsed with -/

namespace Grate

/-- `time.Time` in UTC: nanoseconds since 1970-01-01T00:00:00Z. -/
abbrev Time := Int

/-- Dynamic types that occur in `Cell[0]` (`/repo/commonxl/cell.go:50-55`). `int` is `int64`. -/
inductive Val where
  | nil
  | bool (b : Bool)
  | int (n : Int)
  | float (x : Float)
  | str (s : Bytes)
  | time (t : Time)

/-- Standard library functions whose exact text/number conversion is not modelled. -/
structure Ext where
  /-- `strconv.ParseFloat(s, 64)` -/
  parseFloat : Bytes → Float × Option NumErr
  /-- `strconv.FormatFloat(x, 'f', -1, 64)` -/
  floatF : Float → Bytes
  /-- `strconv.FormatFloat(x, 'g', 6, 64)` -/
  floatG6 : Float → Bytes
  /-- `fmt.Sprint(x)` of a `float64` -/
  floatV : Float → Bytes
  /-- `fmt.Sprintf(fs, x)` of a `float64` with a format string -/
  sprintfFloat : Bytes → Float → Bytes
  /-- `fmt.Sprintf(fs, n)` of an `int64` with a non-`%d` format string -/
  sprintfInt : Bytes → Int → Bytes
  /-- `t.Format(layout)` -/
  timeFormat : Bytes → Time → Bytes
  /-- `t.String()` -/
  timeString : Time → Bytes
  /-- `fmt.Sscanf(s, "%g", &x)` : the value when it succeeds -/
  scanG : Bytes → Option Float
  /-- `fmt.Sscanf(s, "%d", &x)` : the value when it succeeds -/
  scanD : Bytes → Option Int

/-- `fmt.Sprint(v)` (standard library) for the dynamic types above. -/
def sprint (ext : Ext) : Val → Bytes
  | .nil => lit "<nil>"
  | .bool true => lit "true"
  | .bool false => lit "false"
  | .int n => decInt n
  | .float x => ext.floatV x
  | .str s => s
  | .time t => ext.timeString t

/-- Integer part of a finite float (towards zero), as an unbounded integer; 0 for NaN and
infinities. -/
def f64TruncInt (x : Float) : Int := x.toModel.unpack.toInt 0 0

/-- Go conversion `int64(x)` / `int(x)` on amd64: truncation, and -2^63 when the value is NaN or does
not fit (the Go specification leaves this case implementation-defined). -/
def f64ToInt (x : Float) : Int :=
  if x.isFinite then
    let n := f64TruncInt x
    if -(2 ^ 63) ≤ n ∧ n < 2 ^ 63 then n else -(2 ^ 63)
  else -(2 ^ 63)

end Grate
