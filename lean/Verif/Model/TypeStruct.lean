import Verif.Model.Decode

/-! # Structural type text

`getTypeStructString`, `Eq` and `EqTypeStringWithTypeStruct` of `types/base.go` and the `TypeStructString` methods. -/

namespace ScaleGo

/-- `limitRecursiveTime` (types/base.go:14). -/
def limitRecursiveTime : Nat := 5

/-- The loop over member types shared by `Struct.TypeStructString` (types/Struct.go:40-47) and
`Enum.TypeStructString` (types/Enum.go:133-141), `n` being the already incremented `RecursiveTime`. -/
def membersText (rec : Str → Nat → Res Str) (n : Nat) : List Str → Res (List Str)
  | [] => .ok []
  | t :: ts => do
    let a ← rec t n
    let rest ← membersText rec n ts
    .ok (a :: rest)

/-- `Struct.TypeStructString`/`Enum.TypeStructString` with a type mapping; `word` is `Struct` or `Enum`.  See
types/Struct.go:37-48, types/Enum.go:131-145. -/
def mappingText (rec : Str → Nat → Res Str) (word : Str) (rt : Nat) (types : List Str) : Res Str :=
  if types ≠ [] ∧ rt + 1 > limitRecursiveTime then .ok (word ++ b!"(...)")
  else do
    let l ← membersText rec (rt + 1) types
    .ok (word ++ b!"(" ++ joinSep b!"," l ++ b!")")

/-- `TypeStructString` of `BTreeMap` (types/BTreeMap.go:28-33) and `Result` (types/Results.go:43-46): the argument text
split at every comma; the second piece is indexed, so a text without comma panics (after the first lookup). -/
def pairText (rec : Str → Nat → Res Str) (word sub : Str) : Res Str :=
  match splitSep sub b!"," with
  | a :: b :: _ => do
    let x ← rec a 0
    let y ← rec b 0
    .ok (word ++ b!"<" ++ x ++ b!"," ++ y ++ b!">")
  | a :: [] => do
    let _ ← rec a 0
    .panic
  | [] => .panic

/-- `TypeStructString` of `H160`, `H256`, `H512` (types/types.go:54, 70, 86). -/
def hashText (n : Nat) : Str := b!"H" ++ natToDec (n * 8)

/-- `Init` followed by `TypeStructString` of the class: `rt` is `RecursiveTime`, `name` is `TypeName` and `opt` the generic
argument.  A class without own method uses `ScaleDecoder.TypeStructString` (types/base.go:106-108), that is `name`.  An empty
value list is treated as nil (types/Enum.go:143). -/
def classText (rec : Str → Nat → Res Str) (rt : Nat) (name : Str) (cls : Cls) (opt : Str) : Res Str :=
  match cls with
  | .null => .ok b!"NULL"
  | .u8 => .ok b!"U8"
  | .u16 => .ok b!"U16"
  | .u32 => .ok b!"U32"
  | .u64 => .ok b!"U64"
  | .u128 => .ok b!"U128"
  | .float64 => .ok b!"Float64"
  | .float32 => .ok b!"Float32"
  | .hash n => .ok (hashText n)
  | .option t => do
    let x ← rec (effSub t opt) rt
    .ok (b!"Option<" ++ x ++ b!">")
  | .struct (some tm) => mappingText rec b!"Struct" rt (tm.map (·.2))
  | .struct none => .ok []
  | .enum _ (some tm) => mappingText rec b!"Enum" rt (tm.map (·.2))
  | .enum vs none => .ok (if vs = [] then [] else b!"Enum(" ++ joinSep b!"," vs ++ b!")")
  | .bytes | .hexBytes | .opaqueCall => .ok b!"Bytes"
  | .string => .ok b!"String"
  | .vec t => do
    let x ← rec (if t = [] then opt else t) rt
    .ok (b!"Vec<" ++ x ++ b!">")
  | .boundedVec t => do
    let x ← rec (boundedSub t opt) rt
    .ok (b!"Vec<" ++ x ++ b!">")
  | .authoritiesChange => do
    let x ← rec b!"AccountId" rt
    .ok (b!"Vec<" ++ x ++ b!">")
  | .compact t => .ok (b!"Compact<" ++ effSub t opt ++ b!">")
  | .compactU32 | .compactMoment => .ok b!"Compact<u32>"
  | .bool => .ok b!"Bool"
  | .moment | .fixedU64 => .ok b!"U64"
  | .balance => .ok b!"U128"
  | .accountId => .ok b!"AccountId"
  | .call => .ok b!"Call"
  | .logDigest => .ok (b!"Enum(" ++ joinSep b!"," logDigestValues ++ b!")")
  | .ethereumAddress => .ok b!"H160"
  | .data => mappingText rec b!"Enum" rt (dataTM.map (·.2))
  | .bitVec => .ok b!"BitVec"
  | .btreeMap t => pairText rec b!"BTreeMap" (effSub t opt)
  | .result t => pairText rec b!"Results" (effSub t opt)
  | .intFixed n => .ok (b!"Int<" ++ intToDec (n * 8) ++ b!">")
  | .fixedU8 n => .ok (b!"[" ++ intToDec n ++ b!";U8]")
  | .fixedArray n t => do
    let x ← rec t 0
    .ok (b!"[" ++ intToDec n ++ b!";" ++ x ++ b!"]")
  | .empty | .u256 | .address | .genericAddress | .set .. | .era | .lockIdentifier | .ecdsaSignature | .lookupSource
  | .box _ | .wrapperOpaque _ | .range _ | .fixedI128 => .ok name

/-- `getTypeStructString` (types/base.go:250-264). The first argument bounds the Go call depth; `diverge` when exhausted. -/
def typeStructText (env : Env) : Nat → Str → Nat → Res Str
  | 0, _, _ => .diverge
  | fuel + 1, ty, rt => do
    let c ← getCodecClass env [] 0 ty
    match c with
    | none => .ok []
    | some (cls, opt) => classText (typeStructText env fuel) rt ty cls opt

/-- `Eq` (types/base.go:267-269). -/
def eqTypes (env : Env) (fuel : Nat) (a b : Str) : Res Bool := do
  let x ← typeStructText env fuel a 0
  let y ← typeStructText env fuel b 0
  .ok (equalFold x y)

end ScaleGo
