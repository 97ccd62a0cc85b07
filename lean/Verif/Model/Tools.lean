import Verif.Model.Basic

/-! # `utiles/tools.go` -/

namespace ScaleGo

/-- Lower-case hex digit of `n < 16` (`encoding/hex` table).  See utiles/tools.go:53-54. -/
def hexDigit (n : Nat) : UInt8 := if n < 10 then UInt8.ofNat (48 + n) else UInt8.ofNat (87 + n)

/-- Value of a hex digit (`encoding/hex.fromHexChar`), both cases.  See utiles/tools.go:47-48. -/
def unhexDigit (b : UInt8) : Option Nat :=
  let n := b.toNat
  if 48 ≤ n ∧ n ≤ 57 then some (n - 48)
  else if 97 ≤ n ∧ n ≤ 102 then some (n - 87)
  else if 65 ≤ n ∧ n ≤ 70 then some (n - 55)
  else none

/-- `utiles.BytesToHex` (utiles/tools.go:52-56). -/
def bytesToHex : Str → Str
  | [] => []
  | b :: bs => hexDigit (b.toNat / 16) :: hexDigit (b.toNat % 16) :: bytesToHex bs

/-- `utiles.TrimHex` (utiles/tools.go:95-97): drops one leading `0x`. -/
def trimHex (s : Str) : Str := trimPrefix s b!"0x"

/-- `utiles.AddHex` (utiles/tools.go:31-36). -/
def addHex (s : Str) : Str := if hasPrefix s b!"0x" then s else b!"0x" ++ s

/-- `hex.Decode` into a zeroed buffer of length `len(s)/2`: stops at the first invalid pair, leaving zeros.  See
utiles/tools.go:45-49. -/
def hexDecode : Str → Str
  | a :: b :: rest =>
    match unhexDigit a, unhexDigit b with
    | some x, some y => UInt8.ofNat (x * 16 + y) :: hexDecode rest
    | _, _ => List.replicate ((rest.length) / 2 + 1) 0
  | _ => []

/-- `utiles.HexToBytes` (utiles/tools.go:45-50). -/
def hexToBytes (s : Str) : Str := hexDecode (trimHex s)

/-- The loop of `utiles.ReverseBytes` (utiles/tools.go:75-77) itself: indices `i`, `j` moving towards each other. -/
def reverseLoop (b : Str) : Nat → Nat → Nat → Str → Str
  | 0, _, _, a => a
  | fuel + 1, i, j, a =>
    if i < j then reverseLoop b fuel (i + 1) (j - 1) ((a.set i (b.getD j 0)).set j (b.getD i 0)) else a

/-- `utiles.ReverseBytes` (utiles/tools.go:73-79): the loop fills a zeroed slice of the same length. -/
def reverseBytes (b : Str) : Str := reverseLoop b b.length 0 (b.length - 1) (List.replicate b.length 0)

/-- Loop of `types.Reverse` (types/Compact.go:115-119), swapping in place from both ends. -/
def reverseInPlace (b : Str) : Nat → Nat → Nat → Str
  | 0, _, _ => b
  | fuel + 1, i, j =>
    if i < j then reverseInPlace ((b.set i (b.getD j 0)).set j (b.getD i 0)) fuel (i + 1) (j - 1) else b

/-- `types.Reverse` (types/Compact.go:115-119). -/
def reverseSlice (b : Str) : Str := reverseInPlace b b.length 0 (b.length - 1)

/-- Big-endian value of bytes.  See utiles/tools.go:38-42. -/
def beNat (b : Str) : Nat := b.foldl (fun acc x => acc * 256 + x.toNat) 0

/-- Little-endian value of bytes (`binary.LittleEndian.UintN`).  See types/Uint.go:62, 101, 136. -/
def leNat : Str → Nat
  | [] => 0
  | b :: bs => b.toNat + 256 * leNat bs

/-- `n` little-endian bytes of `v` (`binary.LittleEndian.PutUintN`).  See types/Uint.go:82, 117, 154. -/
def lePut : Nat → Nat → Str
  | 0, _ => []
  | n + 1, v => UInt8.ofNat (v % 256) :: lePut n (v / 256)

/-- `utiles.IsASCII` (utiles/tools.go:123-130). -/
def isASCII (b : Str) : Bool :=
  b.all (fun c => !(127 < c.toNat || (c.toNat < 32 && !(c.toNat == 9 || c.toNat == 10 || c.toNat == 13))))

/-- `utiles.U8Encode` (utiles/tools.go:148-152): `byte(i)`. -/
def u8Encode (i : Int) : Str := bytesToHex [UInt8.ofNat (toUint 8 i)]

/-- `utiles.SliceIndex` (utiles/tools.go:132-139), `none` for -1. -/
def sliceIndex (a : Str) : List Str → Option Nat
  | [] => none
  | b :: bs => if b = a then some 0 else (sliceIndex a bs).map (· + 1)

/-- `utiles.UniqueSlice` (utiles/tools.go:62-71); `seen` is the key map. -/
def uniqueSliceAux (seen : List Str) : List Str → List Str
  | [] => []
  | x :: xs => if x ∈ seen then uniqueSliceAux seen xs else x :: uniqueSliceAux (x :: seen) xs

/-- `UniqueSlice` (utiles/tools.go:62-71). -/
def uniqueSlice (l : List Str) : List Str := uniqueSliceAux [] l

/-- `utiles.U256` (utiles/tools.go:38-43) on the output of `BytesToHex`: the big-endian number, `nil` for empty text. -/
def u256OfBytes (b : Str) : Option Nat := if b.isEmpty then none else some (beNat b)

/-- `xstrings.RightJustify(s, n, "0")`: pad with zeros on the left up to length `n`.  See types/v14.go:75, 99,
types/types.go:183. -/
def rightJustify0 (s : Str) (n : Nat) : Str := List.replicate (n - s.length) 48 ++ s

/-- `xstrings.LeftJustify(s, n, "0")`: pad with zeros on the right up to length `n`.  See types/Uint.go:169. -/
def leftJustify0 (s : Str) (n : Nat) : Str := s ++ List.replicate (n - s.length) 48

end ScaleGo
