import Verif.Model.Json

/-! # `GenericExtrinsic.ToMap` (extrinsic.go:316-325)

`json.Marshal` of the whole extrinsic, then `json.Unmarshal` into a map.  `jsonBack` says what comes back of a value; here it is
continued to all values the decoder returns (`jsonAny`).  Nesting beyond 10000 levels, which `json.Unmarshal` refuses, and integers
from 2^1024 on are left out.  Type names of parameters, which are only copied, are a parameter. -/

namespace ScaleGo

/-- Digit of base 64 (`encoding/base64`, which `json.Marshal` uses for byte slices).  Go library, see extrinsic.go:319. -/
def b64Digit (n : Nat) : UInt8 :=
  if n < 26 then UInt8.ofNat (65 + n) else if n < 52 then UInt8.ofNat (71 + n) else if n < 62 then UInt8.ofNat (n - 4)
  else if n = 62 then 43 else 47

/-- Base 64 with padding.  Go library, see extrinsic.go:319. -/
def base64 : Str → Str
  | [] => []
  | [a] => [b64Digit (a.toNat / 4), b64Digit (a.toNat % 4 * 16), 61, 61]
  | [a, b] => [b64Digit (a.toNat / 4), b64Digit (a.toNat % 4 * 16 + b.toNat / 16), b64Digit (b.toNat % 16 * 4), 61]
  | a :: b :: c :: r => [b64Digit (a.toNat / 4), b64Digit (a.toNat % 4 * 16 + b.toNat / 16), b64Digit (b.toNat % 16 * 4 + c.toNat / 64),
      b64Digit (c.toNat % 64)] ++ base64 r

mutual

/-- What a decoded value is after it was written as JSON and read back into an `interface{}` (extrinsic.go:317-325); `f32` gives the
double that comes back of a finite `float32` (its shortest numeral, read as a double).  `none`: `json.Marshal` fails, or the value is
not one the decoder returns. -/
def jsonAny (f32 : Nat → Nat) : Val → Option Val
  | .nil => some .nil
  | .bool b => some (.bool b)
  | .int i => some (.float 8 (floatBits i))
  | .sint _ i => some (.float 8 (floatBits i))
  | .uint _ n => some (.float 8 (floatBits n))
  | .float w b =>
    if w = 8 then if b / 2 ^ 52 % 2048 ≠ 2047 then some (.float 8 b) else none
    else if b / 2 ^ 23 % 256 ≠ 255 then some (.float 8 (f32 b)) else none
  | .str s => some (.str (jsonText' s))
  | .bytes s => some (.str (base64 s))
  | .dec c e => some (.str (decimalText c e))
  | .big i => some (.float 8 (floatBits i))
  | .slice l => (jsonAnyList f32 l).map .slice
  | .nilSlice => some .nil
  | .strs l => if l = [] then some .nil else some (.slice (l.map fun s => .str (jsonText' s)))
  | .map m => (jsonAnyMap f32 m).map .map
  | .params [] => some .nil
  | .params (p :: l) => (jsonAnyParams f32 (p :: l)).map .slice
  | .boxCall _ _ _ => none
  | .other _ => none

/-- The elements of a slice (extrinsic.go:317-325). -/
def jsonAnyList (f32 : Nat → Nat) : List Val → Option (List Val)
  | [] => some []
  | v :: vs => do
    let w ← jsonAny f32 v
    let ws ← jsonAnyList f32 vs
    some (w :: ws)

/-- The members of a map (extrinsic.go:317-325). -/
def jsonAnyMap (f32 : Nat → Nat) : List (Str × Val) → Option (List (Str × Val))
  | [] => some []
  | (k, v) :: ms => do
    let w ← jsonAny f32 v
    let ws ← jsonAnyMap f32 ms
    some ((jsonText' k, w) :: ws)

/-- The arguments of a call within a value (types/metadata.go:167-171). -/
def jsonAnyParams (f32 : Nat → Nat) : List (Str × Str × Val) → Option (List Val)
  | [] => some []
  | (n, t, v) :: ps => do
    let w ← jsonAny f32 v
    let ws ← jsonAnyParams f32 ps
    some (.map [(b!"name", .str (jsonText' n)), (b!"type", .str (jsonText' t)), (b!"value", w)] :: ws)

end

/-- The parameters of an extrinsic from number `i` on (extrinsic.go:15-20); `tn` gives their type names. -/
def jsonArgs (f32 : Nat → Nat) (tn : Nat → Str) : Nat → List (Str × Str × Val) → Option (List Val)
  | _, [] => some []
  | i, (n, t, v) :: ps => do
    let w ← jsonAny f32 v
    let ws ← jsonArgs f32 tn (i + 1) ps
    some (.map [(b!"name", .str (jsonText' n)), (b!"type", .str (jsonText' t)), (b!"type_name", .str (jsonText' (tn i))), (b!"value", w)] :: ws)

/-- The fields of the signed part; without it they have their zero values (extrinsic.go:83-102, 236-243). -/
def signedFields (x : Extrinsic) : Signed :=
  x.signed.getD ⟨.nil, .nil, [], 0, [], 0, (0, 0), []⟩

/-- `ToMap` (extrinsic.go:316-325) of a decoded extrinsic with the given hash: `none` for the nil map. -/
def toMap (f32 : Nat → Nat) (tn : Nat → Str) (hash : Str) (x : Extrinsic) : Option (List (Str × Val)) := do
  let s := signedFields x
  let exts ← jsonAnyMap f32 s.extensions
  let account ← jsonAny f32 (addressOf s.signer).2
  let signer ← jsonAny f32 s.signer
  let signature ← jsonAny f32 s.signatureRaw
  let params ← jsonArgs f32 tn 0 x.params
  some [(b!"version_info", .str (jsonText' x.version)), (b!"extrinsic_length", .float 8 (floatBits x.length)),
    (b!"address_type", .str (jsonText' (addressOf s.signer).1)), (b!"tip", .str (decimalText s.tip.1 s.tip.2)),
    (b!"signed_extensions", if x.signed.isSome then .map exts else .nil), (b!"account_id", account), (b!"signer", signer),
    (b!"signature", .str (jsonText' s.signature)), (b!"signature_raw", signature), (b!"nonce", .float 8 (floatBits s.nonce)),
    (b!"era", .str (jsonText' s.era)), (b!"extrinsic_hash", .str (jsonText' hash)),
    (b!"call_module_function", .str (jsonText' x.callFunction)), (b!"call_code", .str (jsonText' x.callCode)),
    (b!"call_module", .str (jsonText' x.callModule)), (b!"params", if x.params = [] then .nil else .slice params),
    (b!"params_raw", .str (jsonText' x.paramsRaw)), (b!"transaction_extension_version", .float 8 (floatBits s.extVersion))]

end ScaleGo
