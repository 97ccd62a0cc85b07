import Verif.Model.Tools

/-! # `types/scaleBytes/scaleBytes.go` -/

namespace ScaleGo

/-- `scaleBytes.ScaleBytes` (types/scaleBytes/scaleBytes.go:7-10). `Offset` is never negative in the code. -/
structure Cur where
  data : Str
  off : Nat
  deriving DecidableEq, Repr

/-- `GetNextBytes` (types/scaleBytes/scaleBytes.go:19-28). `length` is a Go `int`; the sum wraps; a slice expression
with bounds out of order panics. -/
def getNextBytes (len : Int) (c : Cur) : Res (Str × Cur) :=
  let e := wrap64 ((c.off : Int) + len)
  if e > c.data.length then
    if c.off ≤ c.data.length then .ok (c.data.drop c.off, { c with off := c.data.length }) else .panic
  else if (c.off : Int) ≤ e then
    .ok ((c.data.drop c.off).take (e.toNat - c.off), { c with off := e.toNat })
  else .panic

/-- `GetRemainingLength` (types/scaleBytes/scaleBytes.go:30-32). -/
def remaining (c : Cur) : Int := (c.data.length : Int) - c.off

/-- `Reset` (types/scaleBytes/scaleBytes.go:38-40). -/
def Cur.reset (c : Cur) : Cur := { c with off := 0 }

end ScaleGo
