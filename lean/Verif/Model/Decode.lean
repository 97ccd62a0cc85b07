import Verif.Model.Registry
import Verif.Model.Uint128

/-! # Decoding: the `Process` methods and `ProcessAndUpdateData`

Go recursion runs through `ProcessAndUpdateData`.  Here every `Process` method is a non-recursive function that gets
`ProcessAndUpdateData` as its argument `rec`; `pau` ties the knot with a recursion budget. -/

namespace ScaleGo

/-- What the decoder uses of `CallIndex` (types/metadata.go:140-143): call name, module name, (name, type) of the arguments. -/
structure CallEntry where
  callName : Str
  moduleName : Str
  args : List (Str × Str)

/-- What the decoder uses of `EventIndex` (types/metadata.go:145-148): event name, module name, argument types, names. -/
structure EventEntry where
  eventName : Str
  moduleName : Str
  args : List Str
  argsName : List Str
  argsTypeName : List Str

/-- What the decoder uses of `ExtrinsicMetadata` (types/metadata.go:119-128): identifiers and (identifier, type) of extensions. -/
structure ExtrinsicMeta where
  signedIdentifier : List Str
  signedExtensions : List (Str × Str)

/-- What the decoder uses of `MetadataStruct` (types/metadata.go:87-97). -/
structure MD where
  version : Int
  callIndex : Str → Option CallEntry
  eventIndex : Str → Option EventEntry
  extrinsic : Option ExtrinsicMeta

/-- The fields of a `ScaleDecoder` that are handed to child decoders (types/base.go:174). -/
structure Ctx where
  module : Str
  spec : Int
  md : Option MD

/-- Mutable part of a decoder: data with offset, and `InternalCall`. Children append to the parent's list
(types/base.go:181-183), so one list is threaded through. -/
structure St where
  cur : Cur
  calls : List Str

/-- A state-changing decoding step.  The receiver fields changed by `Process`, types/base.go:51-67. -/
abbrev Dec (α : Type) := St → Res (α × St)

/-- `ProcessAndUpdateData` as seen by a `Process` method.  See types/base.go:158-190. -/
abbrev Rec := Ctx → Str → Dec Val

/-- The context of a `ScaleDecoder` literal without options (types/Compact.go:48). -/
def Ctx.fresh : Ctx := ⟨[], 0, none⟩

/-- `NextBytes` (types/base.go:110-114). -/
def nextBytes (n : Int) : Dec Str := fun st => do
  let (b, c) ← getNextBytes n st.cur
  .ok (b, { st with cur := c })

/-- `GetNextU8` (types/base.go:116-122). -/
def getNextU8 : Dec Nat := fun st => do
  let (b, st) ← nextBytes 1 st
  .ok ((b.headD 0).toNat, st)

/-- A buffer of `n` zero bytes into which `b` is read (`bytes.Buffer.Read`).  See types/Uint.go:61, 100, 135,
types/Compact.go:137, types/Int.go:48. -/
def readInto (n : Nat) (b : Str) : Str := b.take n ++ List.replicate (n - b.length) 0

/-- A type assertion `.(int)`.  See types/Vectors.go:26, types/Bytes.go:12. -/
def asInt : Val → Res Int
  | .int i => .ok i
  | _ => .panic

/-- Repeated `ProcessAndUpdateData(ty)`, values in order.  See types/Vectors.go:32-34, types/FixedArray.go. -/
def procN (rec : Rec) (ctx : Ctx) (ty : Str) : Nat → Dec (List Val)
  | 0, st => .ok ([], st)
  | n + 1, st => do
    let (v, st) ← rec ctx ty st
    let (vs, st) ← procN rec ctx ty n st
    .ok (v :: vs, st)

/-- `result[name] = ProcessAndUpdateData(type)` over a field list.  See types/Struct.go:20-22. -/
def procFields (rec : Rec) (ctx : Ctx) : List (Str × Str) → List (Str × Val) → Dec (List (Str × Val))
  | [], acc, st => .ok (acc, st)
  | (n, t) :: rest, acc, st => do
    let (v, st) ← rec ctx t st
    procFields rec ctx rest (mapSet acc n v) st

/-! ## Integers, compacts -/

/-- `U8.Process` (types/Uint.go:22-24): the value has Go type `int`. -/
def processU8 : Dec Val := fun st => do
  let (n, st) ← getNextU8 st
  .ok (.int n, st)

/-- `U16/U32/U64.Process` (types/Uint.go:56-63, 95-102, 130-137). -/
def processUint (w : Nat) : Dec Val := fun st => do
  let (b, st) ← nextBytes w st
  .ok (.uint w (leNat (readInto w b)), st)

/-- `U128.Process` (types/Uint.go:166-172). -/
def processU128 : Dec Val := fun st => do
  let (b, st) ← nextBytes 16 st
  let b := if b.length < 16 then hexToBytes (leftJustify0 (bytesToHex b) 32) else b
  let u ← U128.fromBytes b
  let s ← u.toString
  .ok (.str s, st)

/-- `U256.Process` (types/Uint.go:204-207): `U256("")` is nil and panics inside `NewFromBigInt`. -/
def processU256 : Dec Val := fun st => do
  let (b, st) ← nextBytes 32 st
  match u256OfBytes (reverseBytes b) with
  | some n => .ok (.dec n 0, st)
  | none => .panic

/-- `IntFixed.Process` (types/Int.go:28-38). -/
def processIntFixed (n : Int) : Dec Val := fun st => do
  let (b, st) ← nextBytes n st
  match u256OfBytes (reverseBytes b) with
  | none => .panic
  | some v =>
    if (v : Int) > 2 ^ (n * 8 - 1).toNat then .ok (.big ((v : Int) - 2 ^ (n * 8).toNat), st)
    else .ok (.big v, st)

/-- `ProcessCompactBytes` (types/Compact.go:20-40): length and bytes. -/
def processCompactBytes : Dec (Int × Str) := fun st => do
  let (b, st) ← nextBytes 1 st
  let b0 := (b.headD 0).toNat
  match b0 % 4 with
  | 0 => .ok ((1, b), st)
  | 1 => do
    let (r, st) ← nextBytes 1 st
    .ok ((2, b ++ r), st)
  | 2 => do
    let (r, st) ← nextBytes 3 st
    .ok ((4, b ++ r), st)
  | _ => do
    let len : Int := 5 + (b0 - 3) / 4
    let (r, st) ← nextBytes (len - 1) st
    .ok ((len, r), st)

/-- The `switch` of `Compact.Process` (types/Compact.go:50-69). -/
def compactDivide (len : Int) (v : Val) : Res Val :=
  let div : Nat := if len ≤ 4 then 4 else 1
  match v with
  | .uint 8 n => .ok (.uint 8 (n / div))
  | .uint 2 n => .ok (.uint 8 (n / div))
  | .uint 4 n => .ok (.uint 8 (n / div))
  | .int i => .ok (.uint 8 (toUint 64 i / div))
  | .dec c e => .ok (.dec (decDivFloor c e div) 0)
  | .str s => match decParse s with
    | some (c, e) => .ok (.dec (decDivFloor c e div) 0)
    | none => .panic
  | v => .ok v

/-- `Compact.Process` (types/Compact.go:42-70): the inner decoder is a fresh one on the compact bytes. -/
def processCompact (rec : Rec) (sub : Str) : Dec Val := fun st => do
  let ((len, cb), st) ← processCompactBytes st
  if sub = [] then .ok (.bytes cb, st)
  else do
    let (v, _) ← rec Ctx.fresh sub ⟨⟨cb, 0⟩, []⟩
    let r ← compactDivide len v
    .ok (r, st)

/-- `CompactU32.Process` (types/Compact.go:131-143). -/
def processCompactU32 : Dec Val := fun st => do
  let ((len, cb), st) ← processCompactBytes st
  let v := wrap64 (leNat (readInto 8 cb))
  .ok (.int (if len ≤ 4 then v.tdiv 4 else v), st)

/-- `CompactMoment.Process` (types/types.go:113-118). -/
def processCompactMoment : Dec Val := fun st => do
  let (v, st) ← processCompactU32 st
  let i ← asInt v
  .ok (.int (if i > 10000000000 then i.tdiv 1000 else i), st)

/-- `Moment.Process` (types/types.go:124-129). -/
def processMoment : Dec Val := fun st => do
  let (b, st) ← nextBytes 8 st
  let n := leNat (readInto 8 b)
  .ok (.uint 8 (if n > 10000000000 then n / 1000 else n), st)

/-- `Balance.Process` (types/types.go:199-210). -/
def processBalance : Dec Val := fun st => do
  let (b, st) ← nextBytes 16 st
  let c := readInto 16 b
  if bytesToHex c = b!"ffffffffffffffffffffffffffffffff" then .ok (.dec (-1) 0, st)
  else do
    let u ← U128.fromBytes c
    .ok (.dec u.big 0, st)

/-- `SubstrateFixedU64.Process` (types/specType.go:17-21): `int64(uint64)` wraps. -/
def processFixedU64 (ext : Ext) : Dec Val := fun st => do
  let (b, st) ← nextBytes 8 st
  let r := ext.fixPoint 32 (wrap64 (leNat (readInto 8 b)))
  .ok (.dec r.1 r.2, st)

/-- `SubstrateFixedI128.Process` (types/specType.go:27-30). -/
def processFixedI128 (ext : Ext) (rec : Rec) (ctx : Ctx) : Dec Val := fun st => do
  let (v, st) ← rec ctx b!"i128" st
  match v with
  | .big i =>
    let r := ext.fixPoint 64 i
    .ok (.dec r.1 r.2, st)
  | _ => .panic

/-- `Float64/Float32.Process` (types/Float.go:26-34, 50-58): reads from the start of the data, does not advance. -/
def processFloat (w : Nat) : Dec Val := fun st =>
  if st.cur.data.length < w then .panic else .ok (.float w (leNat (st.cur.data.take w)), st)

/-! ## Bytes, text, hashes -/

/-- Text when printable ASCII, otherwise `0x` hex (types/Bytes.go:13-17, FixedU8.go:17-21, FixedArray.go:29-33). -/
def asciiOrHex (b : Str) : Str := if isASCII b then b else addHex (bytesToHex b)

/-- `Bytes.Process` (types/Bytes.go:11-18), also `String`. -/
def processBytes (rec : Rec) (ctx : Ctx) : Dec Val := fun st => do
  let (v, st) ← rec ctx b!"Compact<u32>" st
  let n ← asInt v
  let (b, st) ← nextBytes n st
  .ok (.str (asciiOrHex b), st)

/-- `HexBytes.Process` (types/Bytes.go:40-42). -/
def processHexBytes (rec : Rec) (ctx : Ctx) : Dec Val := fun st => do
  let (v, st) ← rec ctx b!"Compact<u32>" st
  let n ← asInt v
  let (b, st) ← nextBytes n st
  .ok (.str (addHex (bytesToHex b)), st)

/-- `FixedU8.Process` (types/FixedU8.go:15-22). -/
def processFixedU8 (n : Int) : Dec Val := fun st => do
  let (b, st) ← nextBytes n st
  .ok (.str (asciiOrHex b), st)

/-- `0x` hex of `n` bytes: `H160/H256/H512` (types/types.go:46-48, 62-64, 78-80), `LockIdentifier` (318-320),
`EcdsaSignature` (326-328). -/
def processHash (n : Nat) : Dec Val := fun st => do
  let (b, st) ← nextBytes n st
  .ok (.str (addHex (bytesToHex b)), st)

/-- `AccountId.Process` (types/types.go:182-184). -/
def processAccountId : Dec Val := fun st => do
  let (b, st) ← nextBytes 32 st
  .ok (.str (addHex (rightJustify0 (bytesToHex b) 64)), st)

/-- `EthereumAddress.Process` (types/types.go:334-336). -/
def processEthereumAddress (ext : Ext) : Dec Val := fun st => do
  let (b, st) ← nextBytes 20 st
  let s ← ethEncode ext.keccak (bytesToHex b)
  .ok (.str s, st)

/-- `Bool.Process` (types/Bool.go:7-9, base.go:124-127). -/
def processBool : Dec Val := fun st => do
  let (b, st) ← nextBytes 1 st
  .ok (.bool (bytesToHex b = b!"01"), st)

/-- `Era.Process` (types/types.go:94-101). -/
def processEra : Dec Val := fun st => do
  let (b, st) ← nextBytes 1 st
  if bytesToHex b = b!"00" then .ok (.str (bytesToHex b), st)
  else do
    let (c, st) ← nextBytes 1 st
    .ok (.str (bytesToHex b ++ bytesToHex c), st)

/-- `Address.Process` (types/types.go:140-148). -/
def processAddress : Dec Val := fun st => do
  let (b, st) ← nextBytes 1 st
  if bytesToHex b = b!"ff" then do
    let (c, st) ← nextBytes 32 st
    .ok (.str (bytesToHex c), st)
  else do
    let (c, st) ← nextBytes 31 st
    .ok (.str (bytesToHex (b ++ c)), st)

/-- `GenericAddress.Process` (types/types.go:155-172): the index forms skip bytes and leave the value nil. -/
def processGenericAddress : Dec Val := fun st => do
  let (b, st) ← nextBytes 1 st
  let h := bytesToHex b
  if h = b!"ff" then do
    let (c, st) ← nextBytes 32 st
    .ok (.str (bytesToHex c), st)
  else if h = b!"fc" then do
    let (_, st) ← nextBytes 2 st
    .ok (.nil, st)
  else if h = b!"fd" then do
    let (_, st) ← nextBytes 4 st
    .ok (.nil, st)
  else if h = b!"fe" then do
    let (_, st) ← nextBytes 8 st
    .ok (.nil, st)
  else do
    let (c, st) ← nextBytes 31 st
    .ok (.str (bytesToHex (b ++ c)), st)

/-- `Data` names and types (types/types.go:343-346). -/
def dataTM : List (Str × Str) :=
  [(b!"None", b!"Null"), (b!"Raw", b!"String"), (b!"BlakeTwo256", b!"H256"), (b!"Sha256", b!"H256"),
   (b!"Keccak256", b!"H256"), (b!"ShaThree256", b!"H256")]

/-- `Data.Process` (types/types.go:350-372). -/
def processData (rec : Rec) (ctx : Ctx) : Dec Val := fun st => do
  let (b, st) ← nextBytes 1 st
  let i := (b.headD 0).toNat
  if b.isEmpty || i == 0 then .ok (.map [(b!"None", .nil)], st)
  else if i ≤ 33 then do
    let (d, st) ← nextBytes ((i : Int) - 1) st
    .ok (.map [(b!"Raw" ++ natToDec (i - 1), .str (if utf8Valid d then d else bytesToHex d))], st)
  else if i ≤ 37 then do
    match dataTM[i - 32]? with
    | some (n, t) => do
      let (v, st) ← rec ctx t st
      .ok (.map [(n, v)], st)
    | none => .panic
  else .ok (.nil, st)

/-! ## Composite classes -/

/-- `Vec.Process` (types/Vectors.go:25-36). -/
def processVec (rec : Rec) (ctx : Ctx) (sub : Str) : Dec Val := fun st => do
  let (v, st) ← rec ctx b!"Compact<u32>" st
  let n ← asInt v
  if n > 524288 then .panic
  else do
    let (vs, st) ← procN rec ctx sub n.toNat st
    .ok (mkSlice vs, st)

/-- Effective element type of `BoundedVec` (types/Vectors.go:66-75): the text from the last comma on is removed by
`strings.Replace(_, _, "", 1)`, that is at its first occurrence. -/
def boundedSub (tmpl opt : Str) : Str :=
  let parts := splitSep opt b!","
  if 2 ≤ parts.length then replaceOne (b!"," ++ lastPiece parts) [] opt
  else if opt = [] then tmpl else opt

/-- `Option.Process` (types/Option.go:13-22). -/
def processOption (rec : Rec) (ctx : Ctx) (sub : Str) : Dec Val := fun st => do
  let (b, st) ← nextBytes 1 st
  if sub ≠ [] ∧ bytesToHex b ≠ b!"00" then
    if sub = b!"bool" then .ok (.bool (bytesToHex b = b!"01"), st)
    else rec ctx sub st
  else .ok (.nil, st)

/-- `Struct.Process` (types/Struct.go:17-25). -/
def processStruct (rec : Rec) (ctx : Ctx) (tm : Option (List (Str × Str))) : Dec Val := fun st => do
  let (m, st) ← procFields rec ctx (tm.getD []) [] st
  .ok (.map m, st)

/-- `^[0-9]+$` (types/Enum.go:41). -/
def isNumber (s : Str) : Bool := !s.isEmpty && s.all isDigit

/-- C-like test (types/Enum.go:39-45, 81-87). -/
def isCLike (tm : List (Str × Str)) : Bool := tm.all (fun p => isNumber p.2)

/-- `rustEnum[index]` (types/Enum.go:47-51): later names replace earlier ones with the same number; absent is `""`. -/
def cLikeName (tm : List (Str × Str)) (i : Int) : Str :=
  match tm.reverse.find? (fun p => stringToInt p.2 == i) with
  | some p => p.1
  | none => []

/-- The struct-variant test (types/Enum.go:59-60, 102): more than 4 bytes, `[[` prefix, valid JSON rows, first row a pair. -/
def variantRows (ext : Ext) (sub : Str) : Option (List (List Str)) :=
  if sub.length > 4 ∧ hasPrefix sub b!"[[" then
    match ext.rows sub with
    | some (r :: rs) => if r.length = 2 then some (r :: rs) else none
    | _ => none
  else none

/-- Rows `v[0]`, `v[1]` of a struct variant; shorter rows panic when used.  See types/Enum.go:62-64. -/
def procRows (rec : Rec) (ctx : Ctx) : List (List Str) → List (Str × Val) → Dec (List (Str × Val))
  | [], acc, st => .ok (acc, st)
  | (n :: t :: _) :: rest, acc, st => do
    let (v, st) ← rec ctx t st
    procRows rec ctx rest (mapSet acc n v) st
  | _ :: _, _, _ => .panic

/-- `Enum.Process` (types/Enum.go:32-75). -/
def processEnum (ext : Ext) (rec : Rec) (ctx : Ctx) (values : List Str) (tm : Option (List (Str × Str))) : Dec Val :=
  fun st => do
  let (b, st) ← nextBytes 1 st
  let i := (b.headD 0).toNat
  let fromValues : Res (Val × St) := match values[i]? with
    | some v => .ok (if v = [] then .nil else .str v, st)
    | none => .panic
  match tm with
  | none => fromValues
  | some tm =>
    if isCLike tm then .ok (.str (cLikeName tm i), st)
    else match tm[i]? with
      | none => .panic
      | some (name, sub) =>
        if sub = [] then fromValues
        else match variantRows ext sub with
          | some rows => do
            let (m, st) ← procRows rec ctx rows [] st
            .ok (.map [(name, .map m)], st)
          | none => do
            let (v, st) ← rec ctx sub st
            .ok (.map [(name, v)], st)

/-- `LogDigest` values (types/types.go:215). -/
def logDigestValues : List Str :=
  [b!"Other", b!"AuthoritiesChange", b!"ChangesTrieRoot", b!"SealV0", b!"Consensus", b!"Seal", b!"PreRuntime",
   b!"ChangesTrieSignal", b!"RuntimeEnvironmentUpdated"]

/-- `LogDigest.Process` (types/types.go:219-232). -/
def processLogDigest (rec : Rec) (ctx : Ctx) : Dec Val := fun st => do
  let (b, st) ← nextBytes 1 st
  match logDigestValues[(b.headD 0).toNat]? with
  | none => .panic
  | some t => do
    let (v, st) ← rec ctx t st
    .ok (.map [(b!"type", .str t), (b!"value", v)], st)

/-- Bits selected by `SetValue & int(math.Pow(2, k)) > 0` (types/Set.go:40): bit `k` of a positive value; from 63 on the
conversion of 2^k overflows to the minimal `int64` (amd64), whose only bit a positive value does not have. -/
def setNames (v : Nat) : Nat → List Str → List Str
  | _, [] => []
  | k, s :: ss => if k < 63 && v.testBit k then s :: setNames v (k + 1) ss else setNames v (k + 1) ss

/-- `Set.Process` (types/Set.go:25-46): `int(v)` wraps; other value types leave the set value 0. -/
def processSet (rec : Rec) (ctx : Ctx) (values : List Str) (bits : Int) : Dec Val := fun st => do
  let (v, st) ← rec ctx (b!"U" ++ intToDec bits) st
  let sv : Int := match v with
    | .uint _ n => wrap64 n
    | _ => 0
  .ok (.strs (if sv > 0 then setNames sv.toNat 0 values else []), st)

/-- `FixedArray.Process` (types/FixedArray.go:25-44). -/
def processFixedArray (rec : Rec) (ctx : Ctx) (n : Int) (sub : Str) : Dec Val := fun st =>
  if n > 0 then
    if equalFold sub b!"u8" then do
      let (b, st) ← nextBytes n st
      .ok (.str (asciiOrHex b), st)
    else do
      let (vs, st) ← procN rec ctx sub n.toNat st
      .ok (.slice vs, st)
  else do
    let (_, st) ← getNextU8 st
    .ok (.nil, st)

/-- Loop of `BTreeMap.Process` (types/BTreeMap.go:18-24); `subType[1]` panics without a comma. -/
def procPairs (ext : Ext) (rec : Rec) (ctx : Ctx) (parts : List Str) : Nat → Dec (List Val)
  | 0, st => .ok ([], st)
  | n + 1, st => do
    let (k, st) ← rec ctx (parts.headD []) st
    match parts with
    | _ :: t :: _ => do
      let (v, st) ← rec ctx t st
      let (vs, st) ← procPairs ext rec ctx parts n st
      .ok (.map [(ext.toStr k, v)] :: vs, st)
    | _ => .panic

/-- `BTreeMap.Process` (types/BTreeMap.go:12-26). -/
def processBTreeMap (ext : Ext) (rec : Rec) (ctx : Ctx) (sub : Str) : Dec Val := fun st => do
  let (v, st) ← rec ctx b!"Compact<u32>" st
  let n ← asInt v
  if n > 1000 then .panic
  else do
    let (vs, st) ← procPairs ext rec ctx (splitSep sub b!",") n.toNat st
    .ok (mkSlice vs, st)

/-- `Result.Process` (types/Results.go:14-27). -/
def processResult (rec : Rec) (ctx : Ctx) (sub : Str) : Dec Val := fun st => do
  let (b, st) ← nextBytes 1 st
  match splitSep sub b!"," with
  | [a, e] =>
    let h := bytesToHex b
    if h = b!"00" ∨ h = [] then do
      let (v, st) ← rec ctx a st
      .ok (.map [(b!"Ok", v)], st)
    else if h = b!"01" then do
      let (v, st) ← rec ctx e st
      .ok (.map [(b!"Error", v)], st)
    else .panic
  | _ => .panic

/-- `WrapperOpaque.Process` (types/types.go:457-460). -/
def processWrapper (rec : Rec) (ctx : Ctx) (sub : Str) : Dec Val := fun st => do
  let (_, st) ← rec ctx b!"Compact<u32>" st
  rec ctx sub st

/-- Start and end types of a range (types/types.go:466-472). -/
def rangeTypes (sub : Str) : Str × Str :=
  match splitSep sub b!"," with
  | [x, y] => (x, y)
  | _ => (sub, sub)

/-- `Range.Process` (types/types.go:465-477). -/
def processRange (rec : Rec) (ctx : Ctx) (sub : Str) : Dec Val := fun st => do
  let (s, st) ← rec ctx (rangeTypes sub).1 st
  let (e, st) ← rec ctx (rangeTypes sub).2 st
  .ok (.map [(b!"start", s), (b!"end", e)], st)

/-- Conversion `float64(i)`: nearest value with a 53-bit significand, ties to even.  See types/Set.go:40, types/types.go:485. -/
def roundF64 (i : Int) : Int :=
  let n := i.natAbs
  if n < 2 ^ 53 then i
  else
    let sh := n.log2 - 52
    let q := n / 2 ^ sh
    let r := n % 2 ^ sh
    let q' := if 2 * r < 2 ^ sh then q else if 2 * r > 2 ^ sh then q + 1 else q + q % 2
    if i < 0 then -((q' * 2 ^ sh : Nat) : Int) else ((q' * 2 ^ sh : Nat) : Int)

/-- `%08b` of a byte.  See types/types.go:488. -/
def bits8 (b : UInt8) : Str := (List.range 8).map (fun k => if b.toNat.testBit (7 - k) then 49 else 48)

/-- `BitVec.Process` (types/types.go:483-491). -/
def processBitVec (rec : Rec) (ctx : Ctx) : Dec Val := fun st => do
  let (v, st) ← rec ctx b!"Compact<u32>" st
  let n ← asInt v
  let (b, st) ← nextBytes (-((-(roundF64 n)).fdiv 8)) st
  .ok (.str (b!"0b" ++ joinSep b!"_" (b.map bits8)), st)

/-- Arguments of a call (types/Call.go:25-27). -/
def procArgs (rec : Rec) (ctx : Ctx) : List (Str × Str) → Dec (List (Str × Str × Val))
  | [], st => .ok ([], st)
  | (n, t) :: rest, st => do
    let (v, st) ← rec ctx t st
    let (ps, st) ← procArgs rec ctx rest st
    .ok ((n, t, v) :: ps, st)

/-- `Call.Process` (types/Call.go:14-31): nil metadata panics; an unknown index is the zero `CallIndex`. -/
def processCall (rec : Rec) (ctx : Ctx) : Dec Val := fun st => do
  let start := st.cur.off
  let (b, st) ← nextBytes 2 st
  match ctx.md with
  | none => .panic
  | some md => do
    let e := (md.callIndex (bytesToHex b)).getD ⟨[], [], []⟩
    let (ps, st) ← procArgs rec { ctx with module := e.moduleName } e.args st
    let raw := bytesToHex ((st.cur.data.drop start).take (st.cur.off - start))
    .ok (.map [(b!"call_index", .str (bytesToHex b)), (b!"call_name", .str e.callName),
      (b!"call_module", .str e.moduleName), (b!"params", .params ps)], { st with calls := st.calls ++ [raw] })

/-- `OpaqueCall.Process` (types/types.go:408-416). -/
def processOpaqueCall (rec : Rec) (ctx : Ctx) : Dec Val := fun st => do
  let (v, st) ← processBytes rec ctx st
  match v with
  | .str s => do
    let (r, st') ← rec ⟨[], ctx.spec, ctx.md⟩ b!"Call" ⟨⟨hexToBytes s, 0⟩, []⟩
    .ok (r, { st with calls := st.calls ++ st'.calls })
  | _ => .panic

/-- First lines of `GenericLookupSource.Process` (types/types.go:423-425). -/
def lookupSkip (st : St) : Res (Unit × St) :=
  if st.cur.data.length = 32 then do
    let (_, st) ← nextBytes 32 st
    .ok ((), st)
  else .ok ((), st)

/-- Offset and length chosen by the first byte (types/types.go:432-443). -/
def lookupSpan (first : UInt8) : Nat × Nat :=
  if first = 252 then (1, 2) else if first = 253 then (1, 4) else if first = 254 then (1, 8) else (0, 1)

/-- `GenericLookupSource.Process` (types/types.go:422-447). Slicing is bounded by the length here, by the capacity in Go. -/
def processLookupSource (rec : Rec) : Dec Val := fun st => do
  let (_, st) ← lookupSkip st
  let (b, st) ← nextBytes 1 st
  match b with
  | [] => .panic
  | first :: _ =>
    if first = 255 then do
      let (c, st) ← nextBytes 32 st
      .ok (.str (bytesToHex c), st)
    else if st.cur.data.length < (lookupSpan first).1 + (lookupSpan first).2 then .panic
    else do
      let (v, _) ← rec Ctx.fresh b!"U32" ⟨⟨(st.cur.data.drop (lookupSpan first).1).take (lookupSpan first).2, 0⟩, []⟩
      match v with
      | .uint 4 n => .ok (.str (natToDec n), st)
      | _ => .panic

/-! ## Dispatch -/

/-- Effective `SubType` after `ScaleDecoder.Init` (types/base.go:74-76): the generic argument when there is one. -/
def effSub (tmpl opt : Str) : Str := if opt = [] then tmpl else opt

/-- `Init` followed by `Process` of the class.  See types/base.go:165-178. -/
def process (ext : Ext) (rec : Rec) (ctx : Ctx) (cls : Cls) (opt : Str) : Dec Val :=
  match cls with
  | .null => fun st => .ok (.nil, st)
  | .empty => fun st => .ok (.str b!"NULL", st)
  | .u8 => processU8
  | .u16 => processUint 2
  | .u32 => processUint 4
  | .u64 => processUint 8
  | .u128 => processU128
  | .u256 => processU256
  | .float64 => processFloat 8
  | .float32 => processFloat 4
  | .hash n => processHash n
  | .address => processAddress
  | .genericAddress => processGenericAddress
  | .option t => processOption rec ctx (effSub t opt)
  | .struct tm => processStruct rec ctx tm
  | .enum vs tm => processEnum ext rec ctx vs tm
  | .bytes => processBytes rec ctx
  | .hexBytes => processHexBytes rec ctx
  | .string => processBytes rec ctx
  | .vec t => processVec rec ctx (if t = [] then opt else t)
  | .boundedVec t => processVec rec ctx (boundedSub t opt)
  | .set vs bits => processSet rec ctx vs bits
  | .compact t => processCompact rec (effSub t opt)
  | .compactU32 => processCompactU32
  | .compactMoment => processCompactMoment
  | .bool => processBool
  | .moment => processMoment
  | .accountId => processAccountId
  | .call => processCall rec ctx
  | .era => processEra
  | .balance => processBalance
  | .logDigest => processLogDigest rec ctx
  | .authoritiesChange => processVec rec ctx b!"AccountId"
  | .lockIdentifier => processHash 8
  | .ecdsaSignature => processHash 65
  | .ethereumAddress => processEthereumAddress ext
  | .data => processData rec ctx
  | .opaqueCall => processOpaqueCall rec ctx
  | .bitVec => processBitVec rec ctx
  | .lookupSource => processLookupSource rec
  | .btreeMap t => processBTreeMap ext rec ctx (effSub t opt)
  | .box t => rec ctx (effSub t opt)
  | .result t => processResult rec ctx (effSub t opt)
  | .wrapperOpaque t => processWrapper rec ctx (effSub t opt)
  | .range t => processRange rec ctx (effSub t opt)
  | .fixedU64 => processFixedU64 ext
  | .fixedI128 => processFixedI128 ext rec ctx
  | .intFixed n => processIntFixed n
  | .fixedU8 n => processFixedU8 n
  | .fixedArray n t => processFixedArray rec ctx n t

/-- `ProcessAndUpdateData` (types/base.go:158-187) without the raw value, which is a function of the two offsets
(`rawValue`). A nil class panics. -/
def pau (env : Env) : Nat → Rec
  | 0, _, _, _ => .diverge
  | fuel + 1, ctx, ty, st => do
    let r ← getCodecClass env ctx.module ctx.spec ty
    match r with
    | none => .panic
    | some (cls, sub) => process env.ext (pau env fuel) ctx cls sub st

/-- `RawValue` after `ProcessAndUpdateData` (types/base.go:186): `Data[offsetStart:Offset]`; bounds out of order or beyond
the data panic. -/
def rawValue (before after : Cur) : Res Str :=
  if before.off ≤ after.off ∧ after.off ≤ after.data.length then
    .ok (bytesToHex ((after.data.drop before.off).take (after.off - before.off)))
  else .panic

/-- `ProcessAndUpdateData` with its raw value, as called from outside.  See types/base.go:158-190. -/
def pauRaw (env : Env) (fuel : Nat) (ctx : Ctx) (ty : Str) (st : St) : Res (Val × Str × St) := do
  let (v, st') ← pau env fuel ctx ty st
  let raw ← rawValue st.cur st'.cur
  .ok (v, raw, st')

end ScaleGo
