import Verif.Model.Extrinsic

/-! # Values that are written as JSON and read back

`GenericExtrinsic.ToMap` (extrinsic.go:316-325) and everybody who stores decoded values does this: `json.Marshal`, then
`json.Unmarshal` into an `interface{}`.  The standard library is modelled as documented: numbers come back as `float64`, nil slices as
nil, decimals (which are written in quotes) as text. -/

namespace ScaleGo

/-- Bits of the `float64` next to an integer, ties to even (`strconv.ParseFloat` on the digits, below 2^1024).  Go library, see
extrinsic.go:319-323. -/
def floatBits (i : Int) : Nat :=
  let m := i.natAbs
  let sign := if i < 0 then 2 ^ 63 else 0
  if m = 0 then 0
  else
    let k := m.log2
    let q :=
      if k ≤ 52 then m * 2 ^ (52 - k)
      else
        let d := 2 ^ (k - 52)
        let q := m / d
        let r := m % d
        if 2 * r < d ∨ (2 * r = d ∧ q % 2 = 0) then q else q + 1
    sign + (k + 1022) * 2 ^ 52 + q

/-- Length of the first character of a text in UTF-8, 0 if it is not valid.  Go library, see extrinsic.go:319-323. -/
def runeLen (s : Str) : Nat :=
  match [1, 2, 3, 4].find? (fun k => decide (k ≤ s.length) && utf8Valid (s.take k)) with
  | some k => k
  | none => 0

/-- Invalid bytes of a text become U+FFFD.  Go library, see extrinsic.go:319-323. -/
def replaceInvalid : Nat → Str → Str
  | 0, _ => []
  | _, [] => []
  | fuel + 1, c :: cs =>
    match runeLen (c :: cs) with
    | 0 => [239, 191, 189] ++ replaceInvalid fuel cs
    | k + 1 => (c :: cs).take (k + 1) ++ replaceInvalid fuel (cs.drop k)

/-- A text written as JSON and read back.  Go library, see extrinsic.go:319-323. -/
def jsonText' (s : Str) : Str := if utf8Valid s then s else replaceInvalid s.length s

/-- `decimal.Decimal.String` of shopspring/decimal v1.2.0, which `MarshalJSON` puts in quotes.  Go library, see
extrinsic.go:87. -/
def decimalText (c e : Int) : Str :=
  if 0 ≤ e then intToDec (c * 10 ^ e.toNat)
  else
    let str := natToDec c.natAbs
    let places := (-e).toNat
    let int := if str.length > places then str.take (str.length - places) else b!"0"
    let frac := if str.length > places then str.drop (str.length - places) else List.replicate (places - str.length) 48 ++ str
    let frac := (frac.reverse.dropWhile (· = 48)).reverse
    let number := if frac = [] then int else int ++ b!"." ++ frac
    if c < 0 then 45 :: number else number

mutual

/-- What a value is after it was written as JSON and read back into an `interface{}`; maps keep their order here, which Go maps do not
have.  `none`: `json.Marshal` fails (NaN, infinities), or the Go type is not described here (`float32`, byte slices, Go structs).
Go library, see extrinsic.go:317-325. -/
def jsonBack : Val → Option Val
  | .nil => some .nil
  | .bool b => some (.bool b)
  | .int i => some (.float 8 (floatBits i))
  | .sint _ i => some (.float 8 (floatBits i))
  | .uint _ n => some (.float 8 (floatBits n))
  | .float w b => if w = 8 ∧ b / 2 ^ 52 % 2048 ≠ 2047 then some (.float 8 b) else none
  | .str s => some (.str (jsonText' s))
  | .dec c e => some (.str (decimalText c e))
  | .big i => some (.float 8 (floatBits i))
  | .slice l => (jsonBackList l).map .slice
  | .nilSlice => some .nil
  | .strs l => if l = [] then some .nil else some (.slice (l.map fun s => .str (jsonText' s)))
  | .map m => (jsonBackMap m).map .map
  | _ => none

/-- The elements of a slice.  Go library, see `jsonBack` (extrinsic.go:317-325). -/
def jsonBackList : List Val → Option (List Val)
  | [] => some []
  | v :: vs => do
    let w ← jsonBack v
    let ws ← jsonBackList vs
    some (w :: ws)

/-- The members of a map.  Go library, see `jsonBack` (extrinsic.go:317-325). -/
def jsonBackMap : List (Str × Val) → Option (List (Str × Val))
  | [] => some []
  | (k, v) :: ms => do
    let w ← jsonBack v
    let ws ← jsonBackMap ms
    some ((jsonText' k, w) :: ws)

end

/-- `GenericExtrinsic` (extrinsic.go:83-102) written as JSON and read back: fields with a Go type of their own keep it, the values of
`interface{}` fields become what `jsonBack` says. -/
def reload (g : ExtrinsicIn) : Option ExtrinsicIn := do
  let signer ← jsonBack g.signer
  let signatureRaw ← jsonBack g.signatureRaw
  let extensions ← jsonBackMap g.extensions
  let params ← jsonBackList g.params
  let tip ← decParse (decimalText g.tip.1 g.tip.2)
  some { version := jsonText' g.version, signer := signer, signatureRaw := signatureRaw, era := jsonText' g.era, nonce := g.nonce, tip := tip,
         extensions := extensions, callCode := jsonText' g.callCode, params := params }

end ScaleGo
