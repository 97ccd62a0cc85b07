import Verif.Model.Value

/-! # Type names, registry and class lookup

`types/registry.go`, `types/convert/convert.go`, `types/override/override.go`, `buildStruct` of `types/base.go`. -/

namespace ScaleGo

/-- The Go struct a registry entry points to, together with the fields of that template value which influence decoding.
Go types that embed another codec without changing its methods share its constructor (for example `Signature` is `h512`,
`BTreeSet` is `vec`).  The metadata decoders registered under names such as `MetadataV14Module` are not codec classes here.
See types/registry.go:42-192. -/
inductive Cls where
  /-- `Null`, `RuntimeEnvironmentUpdated` -/
  | null
  | empty
  | u8 | u16 | u32 | u64 | u128 | u256
  | float64 | float32
  /-- `H160`, `H256`, `H512` and types embedding them; size in bytes -/
  | hash (n : Nat)
  | address | genericAddress
  | option (sub : Str)
  /-- `TypeMapping` as (name, type) pairs; `none` is the nil pointer -/
  | struct (tm : Option (List (Str × Str)))
  | enum (values : List Str) (tm : Option (List (Str × Str)))
  | bytes
  /-- `HexBytes`, `Other`, `ChangesTrieRoot` -/
  | hexBytes
  | string
  | vec (sub : Str)
  /-- `BoundedVec`, `WeakBoundedVec` -/
  | boundedVec (sub : Str)
  | set (values : List Str) (bits : Int)
  | compact (sub : Str)
  | compactU32 | compactMoment
  | bool
  | moment
  | accountId
  /-- `Call`, `BoxProposal` -/
  | call
  | era
  | balance
  | logDigest
  | authoritiesChange
  | lockIdentifier | ecdsaSignature | ethereumAddress
  | data
  | opaqueCall
  | bitVec
  | lookupSource
  | btreeMap (sub : Str)
  | box (sub : Str)
  | result (sub : Str)
  | wrapperOpaque (sub : Str)
  /-- `Range`, `RangeInclusive` -/
  | range (sub : Str)
  | fixedU64 | fixedI128
  | intFixed (n : Int)
  | fixedU8 (n : Int)
  | fixedArray (n : Int) (sub : Str)
  deriving DecidableEq, Inhabited

/-- `TypeRegistry` and `specialRegistry` (types/registry.go:26-33) plus the external functions.  Keys are lower case in
`reg` when written through `RegCustomTypes`; arbitrary contents are allowed. -/
structure Env where
  reg : Str → Option Cls
  special : Str → List (Int × Int × Cls)
  ext : Ext

/-! ## `convert.ConvertType` -/

/-- `convert.ConvertType` (types/convert/convert.go:5-37). -/
def convertType (name : Str) : Str :=
  let name := trimSpace name
  let name := replaceAll name b!"T::" []
  let name := replaceAll name b!"VecDeque<" b!"Vec<"
  let name := replaceAll name b!"<T>" []
  let name := replaceAll name b!"<T as Trait>::" []
  let name := replaceAll name b!"<T, I>" []
  let name := replaceAll name b!"\n" b!" "
  let name := replaceAll name b!"&'static[u8]" b!"Bytes"
  let name := if hasPrefix name b!"BoundedBTreeSet" then replaceAll name b!"BoundedBTreeSet" b!"BTreeSet" else name
  let name := if equalFold name b!"Vec<u8>" then b!"Bytes" else name
  if name = b!"()" ∨ name = b!"<InherentOfflineReport as InherentOfflineReport>::Inherent" then b!"Null"
  else if name = b!"<Lookup as StaticLookup>::Source" then b!"Address"
  else if name = b!"<Balance as HasCompact>::Type" then b!"Compact<Balance>"
  else if name = b!"<BlockNumber as HasCompact>::Type" then b!"Compact<BlockNumber>"
  else if name = b!"<Moment as HasCompact>::Type" then b!"Compact<Moment>"
  else if name = b!"<T as Trait<I>>::Proposal" then b!"Proposal"
  else if name = b!"wasm::PrefabWasmModule" then b!"PrefabWasmModule"
  else name

/-! ## `override.ModuleType` -/

/-- `typesModules` (types/override/override.go:7-52). -/
def typesModules : List (Str × List (Str × Str)) :=
  [ (b!"parasInclusion", [(b!"validatorindex", b!"ParaValidatorIndex")]),
    (b!"inclusion", [(b!"validatorindex", b!"ParaValidatorIndex")]),
    (b!"parasScheduler", [(b!"validatorindex", b!"ParaValidatorIndex")]),
    (b!"parasShared", [(b!"validatorindex", b!"ParaValidatorIndex")]),
    (b!"scheduler", [(b!"validatorindex", b!"ParaValidatorIndex")]),
    (b!"paraDisputes", [(b!"validatorindex", b!"ParaValidatorIndex")]),
    (b!"parasDisputes", [(b!"validatorindex", b!"ParaValidatorIndex")]),
    (b!"shared", [(b!"validatorindex", b!"ParaValidatorIndex")]),
    (b!"assets", [(b!"approval", b!"AssetApproval"), (b!"approvalkey", b!"AssetApprovalKey"),
      (b!"balance", b!"TAssetBalance"), (b!"destroywitness", b!"AssetDestroyWitness")]),
    (b!"beefy", [(b!"authorityid", b!"BeefyId")]),
    (b!"ethereum", [(b!"block", b!"EthBlock"), (b!"header", b!"EthHeader"), (b!"receipt", b!"EthReceipt"),
      (b!"transaction", b!"EthTransaction"), (b!"transactionstatus", b!"EthTransactionStatus")]),
    (b!"bridgemultisig", [(b!"timepoint", b!"BridgeTimepoint")]) ]

/-- Go map lookup in a literal table (keys are distinct).  See types/registry.go:35-40. -/
def tableGet {α : Type} (m : List (Str × α)) (k : Str) : Option α :=
  match m with
  | [] => none
  | (k', v) :: rest => if k' = k then some v else tableGet rest k

/-- `override.ModuleType` (types/override/override.go:54-66). -/
def moduleType (t module : Str) : Str :=
  if module = [] then t
  else match tableGet typesModules (toLower module) with
    | none => t
    | some m => (tableGet m t).getD t

/-! ## Tuples: `buildStruct` -/

/-- Worker of `findParts`: the text after an opening bracket up to and including the first closing one, and the rest.  See
types/base.go:138-141. -/
def takeToClose : Str → Option (Str × Str)
  | [] => none
  | c :: cs =>
    if c = 62 ∨ c = 41 then some ([c], cs)
    else if c = 10 then none
    else (takeToClose cs).map (fun p => (c :: p.1, p.2))

/-- `regexp.MustCompile("[\<\(](.*?)[\>\)]").FindAllString(s, -1)` (types/base.go:138-140): leftmost, non-overlapping,
shortest matches; `.` does not match a newline.  The budget is the length of the text. -/
def findPartsAux : Nat → Str → List Str
  | 0, _ => []
  | _ + 1, [] => []
  | fuel + 1, c :: cs =>
    if c = 60 ∨ c = 40 then
      match takeToClose cs with
      | some (part, rest) => (c :: part) :: findPartsAux fuel rest
      | none => findPartsAux fuel cs
    else findPartsAux fuel cs

/-- `reg.FindAllString(s, -1)` (types/base.go:138-141, types/v14.go:331-334). -/
def findParts (s : Str) : List Str := findPartsAux (s.length + 1) s

/-- The text of a tuple with the commas inside brackets replaced (types/base.go:140-143). -/
def hideCommas (inner : Str) : Str :=
  (findParts inner).foldl (fun t part => replaceAll t part (replaceAll part b!"," b!"#")) inner

/-- Loop of `buildStruct` (types/base.go:145-152); `k` is the loop index. -/
def buildFields : Nat → List Str → List (Str × Str)
  | _, [] => []
  | k, v :: vs =>
    let v := trimSpace v
    if v = [] then buildFields (k + 1) vs
    else (b!"col" ++ natToDec (k + 1), replaceAll v b!"#" b!",") :: buildFields (k + 1) vs

/-- `buildStruct` (types/base.go:134-156) on a type text `(...)`. -/
def buildStruct (typeString : Str) : List (Str × Str) :=
  buildFields 0 (splitSep (hideCommas (typeString.drop 1).dropLast) b!",")

/-! ## Class lookup -/

/-- `specialVersionCodec` (types/registry.go:270-285): first range containing `spec`. -/
def findSpecial (spec : Int) : List (Int × Int × Cls) → Option Cls
  | [] => none
  | (lo, hi, c) :: rest => if spec ≥ lo ∧ spec ≤ hi then some c else findSpecial spec rest

/-- The fixed-array text branch of `getCodecInstant` (types/registry.go:202-211) on a text `[...]`. -/
def fixedArrayText (t : Str) : Option Cls :=
  let parts := splitSep (t.drop 1).dropLast b!";"
  if 2 ≤ parts.length then
    some (.fixedArray (stringToInt (trimSpace (lastPiece parts))) (trimSpace (joinSep b!";" parts.dropLast)))
  else none

/-- `getCodecInstant` (types/registry.go:193-224). `t[0]` on an empty text panics. -/
def getCodecInstant (env : Env) (module : Str) (t : Str) (spec : Int) : Res (Option Cls) :=
  let t := moduleType (toLower t) module
  match findSpecial spec (env.special t) with
  | some c => .ok (some c)
  | none =>
    match env.reg (toLower t) with
    | some c => .ok (some c)
    | none =>
      if t = b!"[]" then .ok none
      else match t with
        | [] => .panic
        | c :: _ => if c = 91 ∧ endsWith t 93 then .ok (fixedArrayText t) else .ok none

/-- `regexp.MustCompile("^([^<]*)<(.+)>$").FindStringSubmatch` (types/registry.go:236-237) on a text ending in `>`:
the text before the first `<`, and the non-empty, newline-free text between it and the final `>`. -/
def genericParts (t : Str) : Option (Str × Str) :=
  let head := t.takeWhile (· ≠ 60)
  match t.drop head.length with
  | [] => none
  | _ :: rest =>
    let arg := rest.dropLast
    if endsWith rest 62 && !arg.isEmpty && !(arg.contains 10) then some (head, arg) else none

/-- First lookup of `GetCodecClass` (types/registry.go:230-235): the whole text, when it ends in `>`. -/
def lookupWhole (env : Env) (module : Str) (spec : Int) (t : Str) : Res (Option Cls) :=
  if endsWith t 62 then getCodecInstant env module t spec else .ok none

/-- Generic parts looked at by `GetCodecClass` (types/registry.go:227, 236-237). -/
def partsOf (t : Str) : Option (Str × Str) := if endsWith t 62 then genericParts t else none

/-- Second lookup of `GetCodecClass` (types/registry.go:240-250): the wrapper with its argument, or the whole text. -/
def lookupParts (env : Env) (module : Str) (spec : Int) (t : Str) : Res (Option (Cls × Str)) :=
  match partsOf t with
  | some (h, arg) => do
    let c ← getCodecInstant env module h spec
    .ok (c.map (fun c => (c, arg)))
  | none => do
    let c ← getCodecInstant env module t spec
    .ok (c.map (fun c => (c, [])))

/-- The tuple branch of `GetCodecClass` (types/registry.go:252-259): `rc.Interface().(*Struct)` panics when `Struct` is
registered as something else. -/
def lookupTuple (env : Env) (module : Str) (spec : Int) (t : Str) : Res (Option (Cls × Str)) := do
  let c ← getCodecInstant env module b!"Struct" spec
  match c with
  | some (.struct _) => .ok (some (.struct (some (buildStruct t)), []))
  | _ => .panic

/-- `GetCodecClass` (types/registry.go:226-268). The budget bounds the namespace recursion, each step of which shortens
the text, so `length + 1` suffices (`getCodecClass`). Result `none` is the nil class. -/
def getCodecClassAux (env : Env) (module : Str) (spec : Int) : Nat → Str → Res (Option (Cls × Str))
  | 0, _ => .diverge
  | fuel + 1, ty =>
    let t := convertType ty
    if t = [] then .panic
    else do
      let whole ← lookupWhole env module spec t
      match whole with
      | some c => .ok (some (c, []))
      | none => do
        let found ← lookupParts env module spec t
        match found with
        | some r => .ok (some r)
        | none =>
          if t ≠ b!"()" ∧ t.head? = some 40 ∧ endsWith t 41 then lookupTuple env module spec t
          else if contains t b!"::" ∧ t ≠ b!"::" then
            getCodecClassAux env module spec fuel (lastPiece (splitSep t b!"::"))
          else .ok none

/-- `GetCodecClass` (types/registry.go:226-268): class and generic argument, `none` when not found. -/
def getCodecClass (env : Env) (module : Str) (spec : Int) (ty : Str) : Res (Option (Cls × Str)) :=
  getCodecClassAux env module spec (ty.length + 1) ty

end ScaleGo
