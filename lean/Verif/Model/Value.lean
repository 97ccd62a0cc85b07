import Verif.Model.Cursor

/-! # Go `interface{}` values, `decimal.Decimal`, external functions -/

namespace ScaleGo

/-- The dynamic values that reach or leave the codec.  The constructor is the dynamic Go type; go struct types that the
codec does not inspect are `other`.  A map is an association list in some iteration order.  The field `Value`,
types/base.go:55. -/
inductive Val where
  | nil
  | bool (b : Bool)
  | int (i : Int)
  /-- `int8`..`int64`, width in bytes -/
  | sint (w : Nat) (i : Int)
  /-- `uint8`..`uint64`, width in bytes -/
  | uint (w : Nat) (n : Nat)
  /-- `float32` (4) / `float64` (8) by its bit pattern -/
  | float (w : Nat) (bits : Nat)
  | str (s : Str)
  | bytes (s : Str)
  /-- `decimal.Decimal`: coefficient and exponent -/
  | dec (coef exp : Int)
  /-- non-nil `*big.Int` -/
  | big (i : Int)
  /-- non-nil `[]interface{}` -/
  | slice (l : List Val)
  /-- nil slice inside a non-nil interface -/
  | nilSlice
  /-- `[]string` -/
  | strs (l : List Str)
  | map (l : List (Str × Val))
  /-- `[]ExtrinsicParam` (types/metadata.go:167-171): name, type, value -/
  | params (l : List (Str × Str × Val))
  /-- `BoxCall` (types/Call.go:33-37): call index, values of `params`, values of `call_args` -/
  | boxCall (idx : Str) (params args : List Val)
  /-- any other Go value; `tag` only distinguishes them -/
  | other (tag : Nat)
  deriving Inhabited

/-- `m[k] = v` on a Go map.  See types/Struct.go:18-24, types/Enum.go:61-68. -/
def mapSet (m : List (Str × Val)) (k : Str) (v : Val) : List (Str × Val) :=
  match m with
  | [] => [(k, v)]
  | (k', v') :: rest => if k' = k then (k, v) :: rest else (k', v') :: mapSet rest k v

/-- `m[k]`, `none` when the key is absent.  See types/Struct.go:27-35, types/Enum.go:106. -/
def mapGet (m : List (Str × Val)) (k : Str) : Option Val :=
  match m with
  | [] => none
  | (k', v) :: rest => if k' = k then some v else mapGet rest k

/-- A `[]interface{}` built by `append` from a nil slice.  See types/Vectors.go:27-34. -/
def mkSlice (l : List Val) : Val := if l.isEmpty then .nilSlice else .slice l

/-- Elements seen by `reflect` when the value has kind `Slice`.  See types/Vectors.go:43-49. -/
def Val.elems? : Val → Option (List Val)
  | .slice l => some l
  | .nilSlice => some []
  | .bytes s => some (s.map (fun b => .uint 1 b.toNat))
  | .strs l => some (l.map .str)
  | .params l => some (l.map (fun p => p.2.2))
  | _ => none

/-- `utiles.IsNil` (utiles/tools.go:154-163). A nil `[]string` is `.strs []` here: the decoder only builds such slices with `append`. -/
def Val.isNil : Val → Bool
  | .nil => true
  | .nilSlice => true
  | .strs [] => true
  | .params [] => true
  | _ => false

/-! ## `shopspring/decimal` v1.2.0 -/

/-- Truncation towards zero (`rescale(0)`), the value behind `BigInt()`.  See types/Compact.go:64-103, types/Int.go:54-60. -/
def decTrunc (coef exp : Int) : Int :=
  if 0 ≤ exp then coef * 10 ^ exp.toNat else coef.tdiv (10 ^ (-exp).toNat)

/-- `Decimal.IntPart`: low 64 bits of the truncated value.  See types/Uint.go:32, 71, 110, 145. -/
def decIntPart (coef exp : Int) : Int := wrap64 (decTrunc coef exp)

/-- `strings.IndexAny(s, "Ee")`: split at the first exponent mark.  Go library, see `decParse`. -/
def splitExp : Str → Str × Option Str
  | [] => ([], none)
  | c :: cs => if c = 69 ∨ c = 101 then ([], some cs) else
    let (a, b) := splitExp cs
    (c :: a, b)

/-- The exponent text of a decimal (`strconv.ParseInt(_, 10, 32)`); no exponent is 0.  Go library, see `decParse`. -/
def expPart : Option Str → Option Int
  | none => some 0
  | some t => (decToInt? t).filter (fun i => decide (-(2 ^ 31 : Int) ≤ i ∧ i < 2 ^ 31))

/-- The part of a decimal before the exponent: digits with at most one point; second component minus the number of places.  Go
library, see `decParse`. -/
def coefPart (value : Str) : Option (Int × Int) :=
  match splitSep value b!"." with
  | [a] => (decToInt? a).map (fun c => (c, 0))
  | [a, b] => (decToInt? (a ++ b)).map (fun c => (c, -(b.length : Int)))
  | _ => none

/-- `decimal.NewFromString`; `none` is the error.  See utiles/tools.go:203-205. -/
def decParse (s : Str) : Option (Int × Int) :=
  match expPart (splitExp s).2, coefPart (splitExp s).1 with
  | some e, some (c, p) => if -(2 ^ 31 : Int) ≤ e + p ∧ e + p < 2 ^ 31 then some (c, e + p) else none
  | _, _ => none

/-- `d.Div(decimal.New(k, 0)).Floor()` for `k > 0`: quotient rounded half away from zero to 16 places, then floored.
The result has exponent 0.  See types/Compact.go:64-66. -/
def decDivFloor (coef exp : Int) (k : Nat) : Int :=
  let e := exp + 16
  let num : Nat := coef.natAbs * 10 ^ e.toNat
  let den : Nat := k * 10 ^ (-e).toNat
  let q : Nat := num / den
  let r : Nat := num % den
  let q' : Nat := if 2 * r < den then q else q + 1
  (if coef < 0 then -(q' : Int) else (q' : Int)).fdiv (10 ^ 16)

/-! ## Functions outside the model -/

/-- Library behaviour left arbitrary.  Theorems quantify over it.  The callers are in types/types.go, utiles/tools.go,
extrinsic.go. -/
structure Ext where
  /-- `json.Marshal` -/
  json : Val → Str
  /-- `json.Unmarshal` into `[][]string`; `none` on error -/
  rows : Str → Option (List (List Str))
  /-- JSON round trip of a map into `BoxCall` (types/Call.go:47-51) -/
  boxCall : List (Str × Val) → Option (Str × List Val × List Val)
  /-- Keccak-256 -/
  keccak : Str → Str
  /-- `encointer.ParseI32F32` (32) / `ParseI64F64` (64) with precision 9, on an integer -/
  fixPoint : Nat → Int → Int × Int
  /-- `decimal.NewFromFloat` on float64 bits; `none` panics (NaN, infinities) -/
  decOfFloat : Nat → Option (Int × Int)
  /-- conversion `int(f)` -/
  floatToInt : Nat → Int
  /-- conversion `uintN(f)`, first argument the number of bits -/
  floatToUint : Nat → Nat → Nat
  /-- bytes written by `binary.Write` for a value of another fixed-size type; `none` on error -/
  binWrite : Val → Option Str

/-- `utiles.ToString` (utiles/tools.go:81-93). -/
def Ext.toStr (ext : Ext) : Val → Str
  | .str s => s
  | .bytes s => s
  | v => ext.json v

/-- `utf8.Valid` (Go `unicode/utf8`): shortest-form UTF-8 without surrogates. `cont` continuation bytes are still expected;
`lo..hi` bounds the next one.  See types/types.go:361. -/
def utf8Aux : Nat → Nat → Nat → Str → Bool
  | 0, _, _, [] => true
  | _ + 1, _, _, [] => false
  | k + 1, lo, hi, c :: cs => decide (lo ≤ c.toNat ∧ c.toNat ≤ hi) && utf8Aux k 128 191 cs
  | 0, _, _, c :: cs =>
    let n := c.toNat
    if n < 128 then utf8Aux 0 0 0 cs
    else if 194 ≤ n ∧ n ≤ 223 then utf8Aux 1 128 191 cs
    else if n = 224 then utf8Aux 2 160 191 cs
    else if n = 237 then utf8Aux 2 128 159 cs
    else if 225 ≤ n ∧ n ≤ 239 then utf8Aux 2 128 191 cs
    else if n = 240 then utf8Aux 3 144 191 cs
    else if 241 ≤ n ∧ n ≤ 243 then utf8Aux 3 128 191 cs
    else if n = 244 then utf8Aux 3 128 143 cs
    else false

/-- `utf8.Valid`, see `utf8Aux` (types/types.go:361). -/
def utf8Valid (s : Str) : Bool := utf8Aux 0 0 0 s

/-- Upper case of an ASCII letter.  See utiles/crypto/ethereum/encode.go:18-26. -/
def upperByte (b : UInt8) : UInt8 := if 97 ≤ b.toNat ∧ b.toNat ≤ 122 then UInt8.ofNat (b.toNat - 32) else b

/-- Digit loop of `ethereum.Encode` (utiles/crypto/ethereum/encode.go:18-26): `hash[index]` out of range panics. -/
def ethLoop : Str → Str → Res Str
  | [], _ => .ok []
  | _ :: _, [] => .panic
  | a :: as, h :: hs => do
    let d ← match unhexDigit h with
      | some d => Res.ok d
      | none => Res.panic
    let rest ← ethLoop as hs
    .ok ((if d > 7 then upperByte a else a) :: rest)

/-- `ethereum.Encode` (utiles/crypto/ethereum/encode.go:10-28). After the length test the trimmed address has 40 or 41
characters; the loop uses the first 40. -/
def ethEncode (keccak : Str → Str) (address : Str) : Res Str :=
  if (hexToBytes address).length ≠ 20 then .ok []
  else do
    let a := trimHex address
    let r ← ethLoop (a.take 40) (bytesToHex (keccak a))
    .ok (addHex r)

end ScaleGo
