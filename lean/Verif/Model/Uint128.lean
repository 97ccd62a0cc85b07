import Verif.Model.Tools

/-! # `utiles/uint128/uint128.go`

64-bit words are `BitVec 64`: `+ - *` wrap, and `<<<`/`>>>` by 64 or more give 0, as in Go. -/

namespace ScaleGo

/-- `uint128.Uint128` (utiles/uint128/uint128.go:13-15). -/
structure U128 where
  lo : BitVec 64
  hi : BitVec 64
  deriving DecidableEq, Repr

namespace U128

/-- `Zero` (utiles/uint128/uint128.go:10). -/
def zero : U128 := ⟨0, 0⟩

/-- `IsZero` (utiles/uint128/uint128.go:18-20). -/
def isZero (u : U128) : Bool := u == zero

/-- `Equals` (utiles/uint128/uint128.go:26-28). -/
def equals (u v : U128) : Bool := u == v

/-- `Equals64` (utiles/uint128/uint128.go:31-33). -/
def equals64 (u : U128) (v : BitVec 64) : Bool := u.lo == v && u.hi == 0

/-- `Cmp` (utiles/uint128/uint128.go:41-49). -/
def cmp (u v : U128) : Int :=
  if u = v then 0
  else if u.hi.toNat < v.hi.toNat ∨ (u.hi = v.hi ∧ u.lo.toNat < v.lo.toNat) then -1
  else 1

/-- `Cmp64` (utiles/uint128/uint128.go:57-65). -/
def cmp64 (u : U128) (v : BitVec 64) : Int :=
  if u.hi.toNat > 0 ∨ u.lo.toNat > v.toNat then 1
  else if u.lo = v then 0
  else -1

/-- `And` (utiles/uint128/uint128.go:68-70). -/
def and (u v : U128) : U128 := ⟨u.lo &&& v.lo, u.hi &&& v.hi⟩
/-- `And64` (utiles/uint128/uint128.go:73-75). -/
def and64 (u : U128) (v : BitVec 64) : U128 := ⟨u.lo &&& v, u.hi &&& 0⟩
/-- `Or` (utiles/uint128/uint128.go:78-80). -/
def or (u v : U128) : U128 := ⟨u.lo ||| v.lo, u.hi ||| v.hi⟩
/-- `Or64` (utiles/uint128/uint128.go:83-85). -/
def or64 (u : U128) (v : BitVec 64) : U128 := ⟨u.lo ||| v, u.hi ||| 0⟩
/-- `Xor` (utiles/uint128/uint128.go:88-90). -/
def xor (u v : U128) : U128 := ⟨u.lo ^^^ v.lo, u.hi ^^^ v.hi⟩
/-- `Xor64` (utiles/uint128/uint128.go:93-95). -/
def xor64 (u : U128) (v : BitVec 64) : U128 := ⟨u.lo ^^^ v, u.hi ^^^ 0⟩

/-- `bits.Add64` (Go `math/bits`): sum and carry out.  See utiles/uint128/uint128.go:99-106. -/
def add64 (x y carry : BitVec 64) : BitVec 64 × BitVec 64 :=
  let s := x.toNat + y.toNat + carry.toNat
  (BitVec.ofNat 64 s, BitVec.ofNat 64 (s / 2 ^ 64))

/-- `bits.Sub64` (Go `math/bits`): difference and borrow out.  See utiles/uint128/uint128.go:113-120. -/
def sub64 (x y borrow : BitVec 64) : BitVec 64 × BitVec 64 :=
  (x - y - borrow, if x.toNat < y.toNat + borrow.toNat then 1 else 0)

/-- `bits.Mul64` (Go `math/bits`): (hi, lo) of the full product.  See utiles/uint128/uint128.go:127-134. -/
def mul64w (x y : BitVec 64) : BitVec 64 × BitVec 64 :=
  let p := x.toNat * y.toNat
  (BitVec.ofNat 64 (p / 2 ^ 64), BitVec.ofNat 64 p)

/-- `bits.Div64(hi, lo, y)` (Go `math/bits`): panics when `y = 0` or `y ≤ hi`.  See utiles/uint128/uint128.go:163, 183-186. -/
def div64w (hi lo y : BitVec 64) : Res (BitVec 64 × BitVec 64) :=
  if y.toNat = 0 ∨ y.toNat ≤ hi.toNat then .panic
  else
    let n := hi.toNat * 2 ^ 64 + lo.toNat
    .ok (BitVec.ofNat 64 (n / y.toNat), BitVec.ofNat 64 (n % y.toNat))

/-- `bits.LeadingZeros64` (Go `math/bits`).  See utiles/uint128/uint128.go:160. -/
def leadingZeros64 (x : BitVec 64) : Nat := if x.toNat = 0 then 64 else 63 - x.toNat.log2

/-- `Add` (utiles/uint128/uint128.go:98-102). -/
def add (u v : U128) : U128 :=
  let (lo, carry) := add64 u.lo v.lo 0
  let (hi, _) := add64 u.hi v.hi carry
  ⟨lo, hi⟩

/-- `Add64` (utiles/uint128/uint128.go:105-109). -/
def addW (u : U128) (v : BitVec 64) : U128 :=
  let (lo, carry) := add64 u.lo v 0
  ⟨lo, u.hi + carry⟩

/-- `Sub` (utiles/uint128/uint128.go:112-116). -/
def sub (u v : U128) : U128 :=
  let (lo, borrow) := sub64 u.lo v.lo 0
  let (hi, _) := sub64 u.hi v.hi borrow
  ⟨lo, hi⟩

/-- `Sub64` (utiles/uint128/uint128.go:119-123). -/
def subW (u : U128) (v : BitVec 64) : U128 :=
  let (lo, borrow) := sub64 u.lo v 0
  ⟨lo, u.hi - borrow⟩

/-- `Mul` (utiles/uint128/uint128.go:126-130). -/
def mul (u v : U128) : U128 :=
  let (hi, lo) := mul64w u.lo v.lo
  ⟨lo, hi + (u.hi * v.lo + u.lo * v.hi)⟩

/-- `Mul64` (utiles/uint128/uint128.go:133-137). -/
def mulW (u : U128) (v : BitVec 64) : U128 :=
  let (hi, lo) := mul64w u.lo v
  ⟨lo, hi + u.hi * v⟩

/-- `From64` (utiles/uint128/uint128.go:255-257). -/
def from64 (v : BitVec 64) : U128 := ⟨v, 0⟩

/-- `Lsh` (utiles/uint128/uint128.go:192-201). -/
def lsh (u : U128) (n : Nat) : U128 :=
  if n > 64 then ⟨0, u.lo <<< (n - 64)⟩
  else ⟨u.lo <<< n, (u.hi <<< n) ||| (u.lo >>> (64 - n))⟩

/-- `Rsh` (utiles/uint128/uint128.go:204-213). -/
def rsh (u : U128) (n : Nat) : U128 :=
  if n > 64 then ⟨u.hi >>> (n - 64), 0⟩
  else ⟨(u.lo >>> n) ||| (u.hi <<< (64 - n)), u.hi >>> n⟩

/-- `QuoRem64` (utiles/uint128/uint128.go:181-189). -/
def quoRem64 (u : U128) (v : BitVec 64) : Res (U128 × BitVec 64) :=
  if u.hi.toNat < v.toNat then do
    let (q, r) ← div64w u.hi u.lo v
    pure (⟨q, 0⟩, r)
  else do
    let (qhi, r) ← div64w 0 u.hi v
    let (qlo, r) ← div64w r u.lo v
    pure (⟨qlo, qhi⟩, r)

/-- `QuoRem` (utiles/uint128/uint128.go:152-178), with the trial quotient and single correction. -/
def quoRem (u v : U128) : Res (U128 × U128) :=
  if v.hi = 0 then do
    let (q, r64) ← quoRem64 u v.lo
    pure (q, from64 r64)
  else do
    let n := leadingZeros64 v.hi
    let v1 := v.lsh n
    let u1 := u.rsh 1
    let (tq, _) ← div64w u1.hi u1.lo v1.hi
    let tq := tq >>> (63 - n)
    let tq := if tq ≠ 0 then tq - 1 else tq
    let q := from64 tq
    let r := u.sub (v.mulW tq)
    if r.cmp v ≥ 0 then pure (q.addW 1, r.sub v) else pure (q, r)

/-- `Div` (utiles/uint128/uint128.go:140-143). -/
def div (u v : U128) : Res U128 := do
  let (q, _) ← quoRem u v
  pure q

/-- `Div64` (utiles/uint128/uint128.go:146-149). -/
def divW (u : U128) (v : BitVec 64) : Res U128 := do
  let (q, _) ← quoRem64 u v
  pure q

/-- Inner digit loop of `String` (utiles/uint128/uint128.go:224-227): writes the digits of `r` right-aligned before
index `i`, returns the buffer and the number `n` of digits written. `fuel` bounds the loop (20 suffices for 64 bits). -/
def writeDigits : Nat → Str → Nat → Nat → Nat → Str × Nat
  | 0, buf, _, _, n => (buf, n)
  | fuel + 1, buf, i, r, n =>
    if r ≠ 0 then writeDigits fuel (buf.set (i - (n + 1)) (digitByte (r % 10))) i (r / 10) (n + 1)
    else (buf, n)

/-- Outer loop of `String` (utiles/uint128/uint128.go:221-233). An index `i - n` below 0 would panic. -/
def stringLoop : Nat → Str → Int → U128 → Res Str
  | 0, _, _, _ => .diverge
  | fuel + 1, buf, i, u => do
    let (q, r) ← quoRem64 u (BitVec.ofNat 64 (10 ^ 19))
    let (buf, n) := writeDigits 20 buf i.toNat r.toNat 0
    if i < n then .panic
    else if q.isZero then pure (buf.drop (i.toNat - n))
    else stringLoop fuel buf (i - 19) q

/-- `String` (utiles/uint128/uint128.go:216-233). -/
def toString (u : U128) : Res Str :=
  if u.isZero then .ok b!"0" else stringLoop 4 (List.replicate 40 48) 40 u

/-- `PutBytes` (utiles/uint128/uint128.go:236-239) into a 16-byte slice. -/
def putBytes (u : U128) : Str := lePut 8 u.lo.toNat ++ lePut 8 u.hi.toNat

/-- `Big` (utiles/uint128/uint128.go:242-247). -/
def big (u : U128) : Nat := (u.hi.toNat <<< 64) ^^^ u.lo.toNat

/-- `FromBytes` (utiles/uint128/uint128.go:260-265); `b[:8]` and `Uint64` panic on fewer than 16 bytes. -/
def fromBytes (b : Str) : Res U128 :=
  if b.length < 16 then .panic
  else .ok ⟨BitVec.ofNat 64 (leNat (b.take 8)), BitVec.ofNat 64 (leNat ((b.drop 8).take 8))⟩

/-- `FromBig` (utiles/uint128/uint128.go:269-278): panics on negative numbers and on more than 128 bits. -/
def fromBig (i : Int) : Res U128 :=
  if i < 0 then .panic
  else if i ≥ 2 ^ 128 then .panic
  else .ok ⟨BitVec.ofNat 64 i.toNat, BitVec.ofNat 64 (i.toNat >>> 64)⟩

/-- The number a pair of words stands for.  See utiles/uint128/uint128.go. -/
def val (u : U128) : Nat := u.hi.toNat * 2 ^ 64 + u.lo.toNat

end U128

end ScaleGo
