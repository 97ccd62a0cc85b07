import Verif.Model.Encode
import Verif.Model.Uint128

/-!
# `utiles/crypto/ethereum/common/math`

`*big.Int` is `Int`; the functions that write into their argument return its new value as well.  Two arguments that are
the same pointer are not modelled.  A machine word (`big.Word`) has 64 bits.
-/

namespace ScaleGo.EthMath

open ScaleGo

/-- `big.Int.Bits`: the words of the absolute value, least significant first, no leading zero word.  See
utiles/crypto/ethereum/common/math/big.go:179, 207. -/
def wordsAux : Nat → Nat → List Nat
  | 0, _ => []
  | fuel + 1, n => if n = 0 then [] else n % 2 ^ 64 :: wordsAux fuel (n / 2 ^ 64)

/-- `big.Int.Bits` of a natural number, see `wordsAux`; utiles/crypto/ethereum/common/math/big.go:179, 207. -/
def words (n : Nat) : List Nat := wordsAux n n

/-- `big.Int.BitLen`.  See utiles/crypto/ethereum/common/math/big.go:117, 167. -/
def bitLen (n : Nat) : Nat := if n = 0 then 0 else n.log2 + 1

/-- `SafeSub` (utiles/crypto/ethereum/common/math/integer.go:82-85). -/
def safeSub (x y : BitVec 64) : BitVec 64 × Bool :=
  let (diff, borrowOut) := U128.sub64 x y 0
  (diff, borrowOut != 0)

/-- `SafeAdd` (utiles/crypto/ethereum/common/math/integer.go:88-91). -/
def safeAdd (x y : BitVec 64) : BitVec 64 × Bool :=
  let (sum, carryOut) := U128.add64 x y 0
  (sum, carryOut != 0)

/-- `SafeMul` (utiles/crypto/ethereum/common/math/integer.go:94-97). -/
def safeMul (x y : BitVec 64) : BitVec 64 × Bool :=
  let (hi, lo) := U128.mul64w x y
  (lo, hi != 0)

/-- `BigMax` (utiles/crypto/ethereum/common/math/big.go:139-144). -/
def bigMax (x y : Int) : Int := if x < y then y else x

/-- `BigMin` (utiles/crypto/ethereum/common/math/big.go:147-152). -/
def bigMin (x y : Int) : Int := if x > y then y else x

/-- `big.Int.Bit` (two's complement for negative numbers).  See utiles/crypto/ethereum/common/math/big.go:249. -/
def bigBit (x : Int) (i : Nat) : Bool := x / 2 ^ i % 2 = 1

/-- The loop of `FirstBitSet` (utiles/crypto/ethereum/common/math/big.go:155-162) with `k` passes left. -/
def firstBitLoop (v : Int) : Nat → Nat → Nat
  | 0, i => i
  | k + 1, i => if bigBit v i then i else firstBitLoop v k (i + 1)

/-- `FirstBitSet` (utiles/crypto/ethereum/common/math/big.go:155-162). -/
def firstBitSet (v : Int) : Nat := firstBitLoop v (bitLen v.natAbs) 0

/-- `bigEndianByteAt` (utiles/crypto/ethereum/common/math/big.go:178-190), for positions `n ≥ 0`. -/
def byteAt (x : Int) (n : Nat) : UInt8 :=
  let ws := words x.natAbs
  if ws.length ≤ n / 8 then 0 else UInt8.ofNat (ws.getD (n / 8) 0 / 2 ^ (8 * (n % 8)) % 256)

/-- `Byte` (utiles/crypto/ethereum/common/math/big.go:196-201). -/
def byte (x : Int) (padlength n : Int) : UInt8 :=
  if n ≥ padlength then 0 else byteAt x (padlength - 1 - n).toNat

/-- The inner loop of `ReadBits` (utiles/crypto/ethereum/common/math/big.go:208-212): `j` passes left. -/
def readWord : Nat → Str → Nat → Nat → Str × Nat
  | 0, buf, i, _ => (buf, i)
  | _ + 1, buf, 0, _ => (buf, 0)
  | j + 1, buf, i + 1, d => readWord j (buf.set i (UInt8.ofNat (d % 256))) i (d / 256)

/-- The outer loop of `ReadBits` (utiles/crypto/ethereum/common/math/big.go:207-213). -/
def readWords : List Nat → Str → Nat → Str
  | [], buf, _ => buf
  | d :: ds, buf, i => let (buf, i) := readWord 8 buf i d; readWords ds buf i

/-- `ReadBits` (utiles/crypto/ethereum/common/math/big.go:205-214). -/
def readBits (x : Int) (buf : Str) : Str := readWords (words x.natAbs) buf buf.length

/-- `PaddedBigBytes` (utiles/crypto/ethereum/common/math/big.go:166-173). -/
def paddedBigBytes (x : Int) (n : Int) : Str :=
  if ((bitLen x.natAbs / 8 : Nat) : Int) ≥ n then beMin x.natAbs
  else readBits x (List.replicate n.toNat 0)

/-- `U256` (utiles/crypto/ethereum/common/math/big.go:217-219): `And` with 2^256-1 in two's complement. -/
def u256 (x : Int) : Int := x % 2 ^ 256

/-- `U256Bytes` (utiles/crypto/ethereum/common/math/big.go:223-225). -/
def u256Bytes (x : Int) : Str := paddedBigBytes (u256 x) 32

/-- `S256` (utiles/crypto/ethereum/common/math/big.go:234-239). -/
def s256 (x : Int) : Int := if x < 2 ^ 255 then x else x - 2 ^ 256

/-- The inner loop of `Exp` (utiles/crypto/ethereum/common/math/big.go:250-256): passes left, result, base, word. -/
def expWord : Nat → Int → Int → Nat → Int × Int
  | 0, result, base, _ => (result, base)
  | k + 1, result, base, word =>
    let result := if word % 2 = 1 then u256 (result * base) else result
    expWord k result (u256 (base * base)) (word / 2)

/-- The outer loop of `Exp` (utiles/crypto/ethereum/common/math/big.go:249-257). -/
def expWords : List Nat → Int → Int → Int × Int
  | [], result, base => (result, base)
  | w :: ws, result, base => let (result, base) := expWord 64 result base w; expWords ws result base

/-- `Exp` (utiles/crypto/ethereum/common/math/big.go:246-259): the result and the value `base` points to afterwards. -/
def exp (base exponent : Int) : Int × Int := expWords (words exponent.natAbs) 1 base

/-- Value of a hex digit string (`none` if empty or another byte occurs).  See utiles/crypto/ethereum/common/math/big.go:113,
integer.go:66. -/
def hexToNat? (s : Str) : Option Nat :=
  if s.isEmpty || !(s.all fun b => (unhexDigit b).isSome) then none
  else some (s.foldl (fun acc b => acc * 16 + (unhexDigit b).getD 0) 0)

/-- `big.Int.SetString(_, 16)`: an optional sign and digits.  See utiles/crypto/ethereum/common/math/big.go:113. -/
def hexToInt? : Str → Option Int
  | 43 :: rest => (hexToNat? rest).map Int.ofNat
  | 45 :: rest => (hexToNat? rest).map (fun n => - Int.ofNat n)
  | s => (hexToNat? s).map Int.ofNat

/-- The test for `0x` or `0X` at the start (utiles/crypto/ethereum/common/math/big.go:111, integer.go:62). -/
def hexMarked (s : Str) : Bool := s.take 2 == b!"0x" || s.take 2 == b!"0X"

/-- `strconv.ParseUint(_, _, 64)` for a text with value `v`: out of range is an error.  See
utiles/crypto/ethereum/common/math/integer.go:66-69. -/
def inUint64 (v : Option Nat) : Option Nat := v.filter (· < 2 ^ 64)

/-- `ParseUint64` (utiles/crypto/ethereum/common/math/integer.go:58-68); `none` when the flag is false. -/
def parseUint64 (s : Str) : Option Nat :=
  if s = [] then some 0
  else if hexMarked s then inUint64 (hexToNat? (s.drop 2))
  else inUint64 (decToNat? s)

/-- `MustParseUint64` (utiles/crypto/ethereum/common/math/integer.go:71-77). -/
def mustParseUint64 (s : Str) : Res Nat := match parseUint64 s with
  | some v => .ok v
  | none => .panic

/-- `ParseBig256` (utiles/crypto/ethereum/common/math/big.go:105-121); `none` when the flag is false. -/
def parseBig256 (s : Str) : Option Int :=
  if s = [] then some 0
  else (if hexMarked s then hexToInt? (s.drop 2) else decToInt? s).filter fun x => bitLen x.natAbs ≤ 256

/-- `MustParseBig256` (utiles/crypto/ethereum/common/math/big.go:124-130). -/
def mustParseBig256 (s : Str) : Res Int := match parseBig256 s with
  | some v => .ok v
  | none => .panic

/-- `HexOrDecimal64.MarshalText` (utiles/crypto/ethereum/common/math/integer.go:52-54). -/
def marshal64 (n : Nat) : Str := b!"0x" ++ natToHex n

/-- `HexOrDecimal256.MarshalText` (utiles/crypto/ethereum/common/math/big.go:62-67): `%#x` puts the sign in front of the mark. -/
def marshalHex256 (x : Option Int) : Str := match x with
  | none => b!"0x0"
  | some x => if x < 0 then 45 :: b!"0x" ++ natToHex x.natAbs else b!"0x" ++ natToHex x.natAbs

/-- `Decimal256.MarshalText`, `String` (utiles/crypto/ethereum/common/math/big.go:91-101). -/
def marshalDec256 (x : Option Int) : Str := match x with
  | none => b!"0"
  | some x => intToDec x

end ScaleGo.EthMath
