import Verif.Model.Extrinsic

/-! # The extrinsic hash of `extrinsic.go`

`blake` stands for blake2b with 32 bytes of output and no key (golang.org/x/crypto), an arbitrary function here. -/

namespace ScaleGo

/-- `ContainsTransaction` (extrinsic.go:113): the version read as a hexadecimal number is at least 80. -/
def containsTransaction (version : Str) : Bool := decide (80 ≤ beNat (hexToBytes version))

/-- The bytes left in a fresh `CompactU32` by `Encode(n)` (types/Compact.go:149-179): none from 2^30 on. -/
def lengthBytes (n : Nat) : Str := (compactShort n).getD []

/-- `generateHash` (extrinsic.go:65-81) for the length `len` kept by the decoder and the whole buffer `data`. -/
def generateHash (blake : Str → Str) (version : Str) (len : Int) (data : Str) : Str :=
  if !containsTransaction version then []
  else bytesToHex (blake (if len > 0 then data else lengthBytes data.length ++ data))

/-- `ExtrinsicHash` of the decoded extrinsic (extrinsic.go:175, 216, 242).  The buffer does not change while decoding, so the hash
is taken from its initial contents. -/
def decodeWithHash (blake : Str → Str) (env : Env) (fuel : Nat) (md : MD) (opt : ExtOpt) (data : Str) :
    Res (Extrinsic × Str × St) := do
  let (x, st) ← decodeExtrinsic env fuel md opt data
  .ok (x, generateHash blake x.version x.length data, st)

end ScaleGo
