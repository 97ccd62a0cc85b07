import Verif.Model.Decode

/-!
# `utiles/encointer/parserFixPoint.go`

The sum of powers of two is kept as an exact fraction: a `big.Float` of 53 bits holds up to 52 of the bits exactly, and
`decimal.NewFromFloat` (shortest digits) is exact up to 15 of them.  Callers ask for 9.  The functions below are meant
for precisions up to 15 only.
-/

namespace ScaleGo

/-- Worker of `natToBin`.  Go library, see `natToBin`. -/
def binAux : Nat → Nat → Str → Str
  | 0, _, acc => acc
  | fuel + 1, n, acc => if n < 2 then digitByte n :: acc else binAux fuel (n / 2) (digitByte (n % 2) :: acc)

/-- `fmt.Sprintf("%b", n)` for a natural number.  See utiles/encointer/parserFixPoint.go:58-64. -/
def natToBin (n : Nat) : Str := binAux (n + 1) n []

/-- `fmt.Sprintf("%b", i)`: a sign in front of negative numbers.  See utiles/encointer/parserFixPoint.go:58-64. -/
def intToBin (i : Int) : Str := if i < 0 then 45 :: natToBin i.natAbs else natToBin i.natAbs

/-- `big.Int.SetString(_, 2)` on a string of `0` and `1`.  See utiles/encointer/parserFixPoint.go:83. -/
def binValue (s : Str) : Nat := s.foldl (fun acc c => acc * 2 + (c.toNat - 48)) 0

/-- `assertLength` (utiles/encointer/parserFixPoint.go:40-49): `length&(length-1) == 0` means a power of two. -/
def assertLength (upper lower : Nat) : Option Nat :=
  let length := upper + lower
  if length < 8 ∨ length > 128 then none
  else if length &&& (length - 1) ≠ 0 then none
  else some length

/-- `substr` (utiles/encointer/parserFixPoint.go:92-98), for at least `length` digits. -/
def substr (input : Str) (length : Nat) (endIndex : Int) : Str :=
  if endIndex > 0 then (input.drop (input.length - length)).take (length - endIndex.toNat)
  else input.drop (input.length - length)

/-- The loop adding 1/2^(k+1) for every digit `1` (utiles/encointer/parserFixPoint.go:73-78): the numerator over 2^len. -/
def halves (s : Str) : Nat := s.foldl (fun acc c => acc * 2 + if c = 49 then 1 else 0) 0

/-- `decimal.NewFromFloat` of `num/2^k`: coefficient without trailing zeros and exponent.  See
utiles/encointer/parserFixPoint.go:86-88. -/
def dyadicDec : Nat → Nat → Int × Int
  | num, 0 => (num, 0)
  | num, k + 1 => if num % 2 = 0 then dyadicDec (num / 2) k else ((num * 5 ^ (k + 1) : Nat), -((k : Int) + 1))

/-- `parserFixPoint` (utiles/encointer/parserFixPoint.go:51-90) on an integer; `RightJustify` pads with zeros. -/
def parserFixPoint (value : Int) (precision : Int) (upper lower : Nat) : Int × Int :=
  match assertLength upper lower with
  | none => (value, 0)
  | some length =>
    if (intToBin value).length > length then (value, 0)
    else
      let bits := if value < 0 then rightJustify0 ((intToBin value).drop 1) length else rightJustify0 (intToBin value) length
      let lowerBits := if lower > bits.length then rightJustify0 bits lower else substr bits lower (lower - precision)
      let f := dyadicDec (halves lowerBits) lowerBits.length
      let upperBits := bits.take (bits.length - lower)
      let decimalPart : Int := if upperBits ≠ [] then binValue upperBits else 0
      if value > 0 then (decimalPart * 10 ^ (-f.2).toNat + f.1, f.2)
      else (-decimalPart * 10 ^ (-f.2).toNat - f.1, f.2)

/-- `ParseI32F32` (32) and `ParseI64F64` (64) with the precision 9 the callers use (types/specType.go:20, 29). -/
def fixPoint9 (half : Nat) (value : Int) : Int × Int := parserFixPoint value 9 half half

end ScaleGo
