import Verif.Model.Decode

/-! # Encoding: the `Encode` methods and `EncodeWithOpt`

Results are hex text.  As for decoding, every `Encode` method gets `EncodeWithOpt` as its argument `rec`. -/

namespace ScaleGo

/-- The options handed down by `EncodeWithOpt` (types/base.go:193-220): spec version and metadata. -/
structure ECtx where
  spec : Int
  md : Option MD

/-- `EncodeWithOpt` as seen by an `Encode` method.  See types/base.go:193-220. -/
abbrev ERec := ECtx → Str → Val → Res Str

/-- Options of `Encode` without options (types/base.go:189-191, 198-200). -/
def ECtx.none : ECtx := ⟨-1, Option.none⟩

/-- Number of bytes of `big.Int.Bytes()`.  See types/Int.go:88, types/Compact.go:104. -/
def byteLen (n : Nat) : Nat := if n = 0 then 0 else n.log2 / 8 + 1

/-- `big.Int.Bytes()`: minimal big-endian bytes of the absolute value.  See types/Int.go:88, types/Compact.go:104. -/
def beMin (n : Nat) : Str := (lePut (byteLen n) n).reverse

/-- Reflection call with a parameter of type `string`: anything else panics.  See types/base.go:215. -/
def asStr : Val → Res Str
  | .str s => .ok s
  | _ => .panic

/-- Reflection call with a parameter of type `map[string]interface{}`.  See types/base.go:215. -/
def asMap : Val → Res (List (Str × Val))
  | .map m => .ok m
  | _ => .panic

/-- The argument passed by `EncodeWithOpt` for `data` (types/base.go:209-214): nil becomes the empty string. -/
def argOf : Val → Val
  | .nil => .str []
  | v => v

/-! ## Integers -/

/-- `U8.Encode` (types/Uint.go:26-45): other types leave 0. -/
def encodeU8 (ext : Ext) (v : Val) : Res Str :=
  let i : Int := match v with
    | .int i => i
    | .dec c e => decIntPart c e
    | .uint 4 n => n
    | .sint 8 i => i
    | .uint 2 n => n
    | .float 8 b => ext.floatToInt b
    | .uint 1 n => n
    | _ => 0
  .ok (u8Encode i)

/-- `U16.Encode` (types/Uint.go:65-84). -/
def encodeU16 (ext : Ext) (v : Val) : Res Str :=
  let n : Nat := match v with
    | .int i => toUint 16 i
    | .dec c e => toUint 16 (decIntPart c e)
    | .uint 4 n => toUint 16 n
    | .sint 8 i => toUint 16 i
    | .uint 2 n => n
    | .float 8 b => ext.floatToUint 16 b
    | _ => 0
  .ok (bytesToHex (lePut 2 n))

/-- `U32.Encode` (types/Uint.go:104-119). -/
def encodeU32 (ext : Ext) (v : Val) : Res Str :=
  let n : Nat := match v with
    | .int i => toUint 32 i
    | .dec c e => toUint 32 (decIntPart c e)
    | .uint 4 n => n
    | .float 8 b => ext.floatToUint 32 b
    | _ => 0
  .ok (bytesToHex (lePut 4 n))

/-- `U64.Encode` (types/Uint.go:139-156). -/
def encodeU64 (ext : Ext) (v : Val) : Res Str :=
  let n : Nat := match v with
    | .int i => toUint 64 i
    | .dec c e => toUint 64 (decIntPart c e)
    | .uint 4 n => n
    | .uint 8 n => n
    | .float 8 b => ext.floatToUint 64 b
    | _ => 0
  .ok (bytesToHex (lePut 8 n))

/-- The input `switch` of `U128.Encode` (types/Uint.go:176-188). -/
def u128Input : Val → Res Int
  | .big i => .ok i
  | .dec c e => .ok (decTrunc c e)
  | .str s => match decParse s with
    | some (c, e) => .ok (decTrunc c e)
    | none => .panic
  | .sint 8 i => .ok i
  | .int i => .ok i
  | _ => .panic

/-- `U128.Encode` (types/Uint.go:174-194), also `Balance`. -/
def encodeU128 (v : Val) : Res Str := do
  let i ← u128Input v
  let u ← U128.fromBig i
  .ok (bytesToHex u.putBytes)

/-- Lower-case hex digits of a natural number without leading zeros, `0` for zero (`big.Int.Text(16)`).  Go library, see
`natToHex`. -/
def hexAux : Nat → Nat → Str → Str
  | 0, _, acc => acc
  | fuel + 1, n, acc => if n < 16 then hexDigit n :: acc else hexAux fuel (n / 16) (hexDigit (n % 16) :: acc)

/-- `big.Int.Text(16)`, `%x` of a natural number (used in utiles/tools.go:59, types/Uint.go:235). -/
def natToHex (n : Nat) : Str := hexAux (n + 1) n []

/-- `%x` of an integer (used in utiles/tools.go:59). -/
def intToHex (i : Int) : Str := if i < 0 then 45 :: natToHex i.natAbs else natToHex i.natAbs

/-- `U256.Encode` (types/Uint.go:209-240). `reflect.TypeOf(value).String()` is never `"slice"`, so slices panic. -/
def encodeU256 (v : Val) : Res Str :=
  let ofInt (i : Int) : Res Str := .ok (bytesToHex (reverseBytes (hexToBytes (rightJustify0 (intToHex i) 64))))
  match v with
  | .str s => if s = [] then .ok [] else if hasPrefix s b!"0x" then .ok (trimHex s) else .ok (bytesToHex s)
  | .dec c e => ofInt (decTrunc c e)
  | .big i => ofInt i
  | _ => .panic

/-- `BigIntToIntBytes` (types/Int.go:76-110); the error makes `IntFixed.Encode` panic. -/
def bigIntToIntBytes (i : Int) (n : Nat) : Res Str :=
  let padTo (b : Str) : Str := List.replicate (n - b.length) 0 ++ b
  if 0 ≤ i then
    if i > 2 ^ (n * 8 - 1) - 1 then .panic else .ok (padTo (beMin i.natAbs))
  else
    if i.natAbs > 2 ^ (n * 8 - 1) then .panic
    else .ok ((padTo (beMin (i + 1).natAbs)).map (fun b => ~~~ b))

/-- `binary.Write(buffer, LittleEndian, value)` (types/Int.go:43): `int`, strings and non-fixed types are errors. -/
def binaryWrite (ext : Ext) : Val → Option Str
  | .bool b => some [if b then 1 else 0]
  | .sint w i => some (lePut w (toUint (8 * w) i))
  | .uint w n => some (lePut w n)
  | .float w b => some (lePut w b)
  | .bytes s => some s
  | .other k => ext.binWrite (.other k)
  | _ => none

/-- The input `switch` of `IntFixed.Encode` (types/Int.go:51-63) for 16 bytes and more. -/
def intFixedInput (ext : Ext) : Val → Res Int
  | .float 8 b => match ext.decOfFloat b with
    | some (c, e) => .ok (decTrunc c e)
    | none => .panic
  | .dec c e => .ok (decTrunc c e)
  | .big i => .ok i
  | .str s => match decParse s with
    | some (c, e) => .ok (decTrunc c e)
    | none => .panic
  | _ => .panic

/-- `IntFixed.Encode` (types/Int.go:40-69). -/
def encodeIntFixed (ext : Ext) (n : Int) (v : Val) : Res Str :=
  if n < 16 then
    match binaryWrite ext v with
    | none => .panic
    | some b => if n < 0 then .panic else .ok (bytesToHex (readInto n.toNat b))
  else do
    let i ← intFixedInput ext v
    let b ← bigIntToIntBytes i n.toNat
    .ok (bytesToHex b)

/-- The three short forms shared by `Compact.Encode` (types/Compact.go:92-101) and `CompactU32.Encode` (165-177). -/
def compactShort (i : Int) : Option Str :=
  if i ≤ 63 then some ((lePut 4 (toUint 32 (i * 4))).take 1)
  else if i ≤ 16383 then some ((lePut 4 (toUint 32 (i * 4) ||| 1)).take 2)
  else if i ≤ 1073741823 then some (lePut 4 (toUint 32 (i * 4) ||| 2))
  else none

/-- The input `switch` of `Compact.Encode` (types/Compact.go:77-91): unsupported types leave the zero decimal. -/
def compactInput (ext : Ext) : Val → Res (Int × Int)
  | .uint 8 n => .ok (wrap64 n, 0)
  | .dec c e => .ok (c, e)
  | .sint 8 i => .ok (i, 0)
  | .int i => .ok (i, 0)
  | .float 8 b => match ext.decOfFloat b with
    | some r => .ok r
    | none => .panic
  | .str s => match decParse s with
    | some r => .ok r
    | none => .panic
  | _ => .ok (0, 0)

/-- `Compact.Encode` (types/Compact.go:76-113). -/
def encodeCompact (ext : Ext) (v : Val) : Res Str := do
  let (c, e) ← compactInput ext v
  match compactShort (decIntPart c e) with
  | some b => .ok (bytesToHex b)
  | none =>
    let b := beMin (decTrunc c e).natAbs
    let k := toUint 8 ((b.length : Int) - 4)
    if b.length > 255 ∨ k > 63 then .ok []
    else .ok (bytesToHex (UInt8.ofNat (k * 4 + 3) :: reverseSlice b))

/-- `CompactU32.Encode` (types/Compact.go:149-179): above 2^30-1 no bytes are produced. -/
def encodeCompactU32 (ext : Ext) (v : Val) : Res Str :=
  let i : Int := match v with
    | .int i => i
    | .dec c e => decIntPart c e
    | .uint 4 n => n
    | .sint 8 i => i
    | .uint 2 n => n
    | .float 8 b => ext.floatToInt b
    | _ => 0
  .ok (bytesToHex ((compactShort i).getD []))

/-! ## Bytes, text, hashes -/

/-- Odd-length hex text gets a trailing `0` (types/Bytes.go:24-26, 46-48). -/
def evenHex (s : Str) : Str := if s.length % 2 = 1 then s ++ b!"0" else s

/-- `Bytes.Encode` (types/Bytes.go:20-32). -/
def encodeBytes (rec : ERec) (v : Val) : Res Str := do
  let s ← asStr v
  let h := if hasPrefix s b!"0x" then evenHex (trimHex s) else bytesToHex s
  let l ← rec ECtx.none b!"Compact<u32>" (.int (hexToBytes h).length)
  .ok (l ++ h)

/-- `HexBytes.Encode` (types/Bytes.go:44-51). -/
def encodeHexBytes (rec : ERec) (v : Val) : Res Str := do
  let s ← asStr v
  let h := evenHex (trimHex s)
  let l ← rec ECtx.none b!"Compact<u32>" (.int (hexToBytes h).length)
  .ok (l ++ h)

/-- `String.Encode` (types/Bytes.go:59-62). -/
def encodeString (rec : ERec) (v : Val) : Res Str := do
  let s ← asStr v
  let l ← rec ECtx.none b!"Compact<u32>" (.int s.length)
  .ok (l ++ bytesToHex s)

/-- `0x` text is taken as hex, other text as its bytes (types/FixedU8.go:27-32, FixedArray.go:66-72). -/
def hexOrText (s : Str) : Str := if hasPrefix s b!"0x" then trimHex s else bytesToHex s

/-- `FixedU8.Encode` (types/FixedU8.go:24-38). -/
def encodeFixedU8 : Val → Res Str
  | .str s => .ok (hexOrText s)
  | .bytes s => .ok (trimHex (bytesToHex s))
  | _ => .panic

/-- `H160/H256/H512.Encode` (types/types.go:50-52, 66-68, 82-84). -/
def encodeHash (v : Val) : Res Str := do
  let s ← asStr v
  .ok (addHex (toLower s))

/-- `Bool.Encode` (types/Bool.go:11-16). -/
def encodeBool : Val → Res Str
  | .bool b => .ok (if b then b!"01" else b!"00")
  | _ => .panic

/-- Optional sign of a number read by `fmt.Sscanf`: negative, rest.  See types/types.go:388. -/
def scanSign : Str → Bool × Str
  | 45 :: r => (true, r)
  | 43 :: r => (false, r)
  | r => (false, r)

/-- `fmt.Sscanf(key, "Raw%d", &l)` after the prefix (types/types.go:388): optional spaces and sign, decimal digits, rest ignored. -/
def scanInt (s : Str) : Option Int :=
  let p := scanSign (s.dropWhile (· = 32))
  match decToNat? (p.2.takeWhile isDigit) with
  | none => none
  | some n =>
    let i : Int := if p.1 then -(n : Int) else n
    if -(2 ^ 63 : Int) ≤ i ∧ i < 2 ^ 63 then some i else none

/-- `Data.Encode` (types/types.go:374-400): the first key of the map decides. -/
def encodeData (rec : ERec) (v : Val) : Res Str := do
  let m ← asMap v
  match m with
  | [] => .panic
  | (key, val) :: _ =>
    match sliceIndex key (dataTM.map Prod.fst) with
    | some i =>
      if key = b!"None" then rec ECtx.none b!"U8" (.int 0)
      else do
        let a ← rec ECtx.none b!"U8" (.int (i + 32))
        let s ← asStr val
        let b ← rec ECtx.none ((dataTM.map Prod.snd).getD i []) (.str s)
        .ok (a ++ b)
    | none =>
      if hasPrefix key b!"Raw" then
        match scanInt (key.drop 3) with
        | none => .panic
        | some l => do
          let l := wrap64 (l + 1)
          let a ← rec ECtx.none b!"U8" (.int l)
          let s ← asStr val
          if l = s.length then .ok (a ++ s) else .ok (a ++ bytesToHex s)
      else .panic

/-- `strconv.ParseUint(v, 2, 8)` with the error ignored (types/types.go:502): a value too large gives 255, text that is
not binary gives 0. -/
def parseBin (s : Str) : Nat :=
  if s.isEmpty || !(s.all (fun b => b = 48 || b = 49)) then 0
  else min 255 (s.foldl (fun acc b => acc * 2 + (b.toNat - 48)) 0)

/-- `BitVec.Encode` (types/types.go:497-506). -/
def encodeBitVec (rec : ERec) (v : Val) : Res Str := do
  let s ← asStr v
  let u8a := (splitSep (trimPrefix s b!"0b") b!"_").map (fun p => UInt8.ofNat (parseBin p))
  let l ← rec ECtx.none b!"Compact<u32>" (.int u8a.length)
  .ok (l ++ bytesToHex u8a)

/-! ## Composite classes -/

/-- Concatenation of element encodings.  See types/Vectors.go:47-49. -/
def encList (rec : ERec) (ctx : ECtx) (ty : Str) (f : Str → Str) : List Val → Res Str
  | [] => .ok []
  | v :: vs => do
    let a ← rec ctx ty v
    let b ← encList rec ctx ty f vs
    .ok (f a ++ b)

/-- `Vec.Encode` (types/Vectors.go:38-54). -/
def encodeVec (rec : ERec) (ctx : ECtx) (sub : Str) (v : Val) : Res Str :=
  match v with
  | .str [] => rec ECtx.none b!"Compact<u32>" (.int 0)
  | v => match v.elems? with
    | some l => do
      let a ← rec ECtx.none b!"Compact<u32>" (.int l.length)
      let b ← encList rec ctx sub trimHex l
      .ok (a ++ b)
    | none => .panic

/-- `FixedArray.Encode` (types/FixedArray.go:50-76). -/
def encodeFixedArray (rec : ERec) (ctx : ECtx) (n : Int) (sub : Str) (v : Val) : Res Str :=
  match v with
  | .str s => if s = [] then .ok [] else .ok (hexOrText s)
  | v => match v.elems? with
    | some l => if (l.length : Int) ≠ n then .panic else encList rec ctx sub id l
    | none => .panic

/-- `Option.Encode` (types/Option.go:24-38). -/
def encodeOption (rec : ERec) (ctx : ECtx) (sub : Str) (v : Val) : Res Str :=
  match v with
  | .str [] => .ok b!"00"
  | v =>
    if v.isNil then .ok b!"00"
    else if sub = b!"bool" then
      match v with
      | .bool b => .ok (if b then b!"01" else b!"02")
      | _ => .panic
    else do
      let r ← rec ctx sub v
      .ok (b!"01" ++ r)

/-- Fields of a struct in declared order (types/Struct.go:30-32); a missing key is nil. -/
def encFields (rec : ERec) (ctx : ECtx) (m : List (Str × Val)) : List (Str × Str) → Res Str
  | [] => .ok []
  | (n, t) :: rest => do
    let a ← rec ctx t ((mapGet m n).getD .nil)
    let b ← encFields rec ctx m rest
    .ok (a ++ b)

/-- `Struct.Encode` (types/Struct.go:27-35). -/
def encodeStruct (rec : ERec) (ctx : ECtx) (tm : Option (List (Str × Str))) (v : Val) : Res Str := do
  let m ← asMap v
  encFields rec ctx m (tm.getD [])

/-- Fields of a struct variant (types/Enum.go:105-107); `st[0]`, `st[1]` of a shorter row panic. -/
def encRows (rec : ERec) (ctx : ECtx) (m : List (Str × Val)) : List (List Str) → Res Str
  | [] => .ok []
  | (n :: t :: _) :: rest => do
    let a ← rec ctx t ((mapGet m n).getD .nil)
    let b ← encRows rec ctx m rest
    .ok (a ++ b)
  | _ :: _ => .panic

/-- Position of the first variant with this name, with its type.  See types/Enum.go:97-112. -/
def findVariant (key : Str) : Nat → List (Str × Str) → Option (Nat × Str)
  | _, [] => none
  | i, (n, t) :: rest => if n = key then some (i, t) else findVariant key (i + 1) rest

/-- First entry of the map (in iteration order) that names a variant (types/Enum.go:96-114). -/
def findEntry (tm : List (Str × Str)) : List (Str × Val) → Option (Nat × Str × Val)
  | [] => none
  | (k, v) :: rest => match findVariant k 0 tm with
    | some (i, t) => some (i, t, v)
    | none => findEntry tm rest

/-- `Enum.Encode` (types/Enum.go:77-129); a value that names no variant gives the empty text. -/
def encodeEnum (ext : Ext) (rec : ERec) (ctx : ECtx) (values : List Str) (tm : Option (List (Str × Str))) (v : Val) :
    Res Str :=
  let fromValues : Res Str := match sliceIndex (ext.toStr v) values with
    | some i => .ok (u8Encode i)
    | none => .ok []
  match tm with
  | none => fromValues
  | some tm =>
    match (if isCLike tm then findVariant (ext.toStr v) 0 tm else none) with
    | some (_, t) => .ok (u8Encode (stringToInt t))
    | none =>
      match v with
      | .map m =>
        match findEntry tm m with
        | some (i, sub, val) =>
          match variantRows ext sub with
          | some rows => do
            let vm ← asMap val
            let r ← encRows rec ctx vm rows
            .ok (u8Encode i ++ r)
          | none => do
            let r ← rec ctx sub val
            .ok (u8Encode i ++ r)
        | none => fromValues
      | .str s =>
        match findVariant s 0 tm with
        | some (i, _) => .ok (u8Encode i)
        | none => fromValues
      | _ => fromValues

/-- `Result.Encode` (types/Results.go:29-41). -/
def encodeResult (rec : ERec) (ctx : ECtx) (sub : Str) (v : Val) : Res Str := do
  let m ← asMap v
  match splitSep sub b!"," with
  | [a, e] =>
    match mapGet m b!"Ok" with
    | some d => do
      let r ← rec ctx a d
      .ok (b!"00" ++ r)
    | none =>
      match mapGet m b!"Error" with
      | some d => do
        let r ← rec ctx e d
        .ok (b!"01" ++ r)
      | none => .panic
  | _ => .panic

/-- Arguments of a call (types/Call.go:64-66); too few parameters panic, extra ones are ignored. -/
def encArgs (rec : ERec) (ctx : ECtx) : List (Str × Str) → List Val → Res Str
  | [], _ => .ok []
  | _ :: _, [] => .panic
  | (_, t) :: rest, v :: vs => do
    let a ← rec ctx t v
    let b ← encArgs rec ctx rest vs
    .ok (a ++ b)

/-- The `BoxCall` given to `Call.Encode` (types/Call.go:43-54). -/
def boxCallOf (ext : Ext) : Val → Res (Str × List Val × List Val)
  | .boxCall i p a => .ok (i, p, a)
  | .map m => match ext.boxCall m with
    | some r => .ok r
    | none => .panic
  | _ => .panic

/-- `Call.Encode` (types/Call.go:39-68). -/
def encodeCall (ext : Ext) (rec : ERec) (ctx : ECtx) (v : Val) : Res Str :=
  match ctx.md with
  | none => .panic
  | some md => do
    let (idx, ps, as) ← boxCallOf ext v
    let ps := if as.isEmpty then ps else as
    let idx := trimHex idx
    match md.callIndex idx with
    | none => .panic
    | some e => do
      let r ← encArgs rec ctx e.args ps
      .ok (idx ++ r)

/-! ## Dispatch -/

/-- `Encode` of the class after `Init`; classes without an `Encode` method inherit the panicking one (types/base.go:101-103). -/
def encodeCls (ext : Ext) (rec : ERec) (ctx : ECtx) (cls : Cls) (opt : Str) (v : Val) : Res Str :=
  match cls with
  | .null => .panic
  | .empty => .ok []
  | .u8 => encodeU8 ext v
  | .u16 => encodeU16 ext v
  | .u32 => encodeU32 ext v
  | .u64 | .moment | .fixedU64 => encodeU64 ext v
  | .u128 | .balance => encodeU128 v
  | .u256 => encodeU256 v
  | .float64 | .float32 => .panic
  | .hash _ | .ethereumAddress => encodeHash v
  | .address | .genericAddress => .panic
  | .option t => encodeOption rec ctx (effSub t opt) v
  | .struct tm => encodeStruct rec ctx tm v
  | .enum vs tm => encodeEnum ext rec ctx vs tm v
  | .logDigest => encodeEnum ext rec ctx logDigestValues none v
  | .bytes | .opaqueCall => encodeBytes rec v
  | .hexBytes => encodeHexBytes rec v
  | .string => encodeString rec v
  | .vec t => encodeVec rec ctx (if t = [] then opt else t) v
  | .boundedVec t => encodeVec rec ctx (boundedSub t opt) v
  | .authoritiesChange => encodeVec rec ctx b!"AccountId" v
  | .set _ _ => .panic
  | .compact _ => encodeCompact ext v
  | .compactU32 | .compactMoment => encodeCompactU32 ext v
  | .bool => encodeBool v
  | .accountId | .era => asStr v
  | .call => encodeCall ext rec ctx v
  | .lockIdentifier | .ecdsaSignature => .panic
  | .data => encodeData rec v
  | .bitVec => encodeBitVec rec v
  | .lookupSource | .btreeMap _ | .box _ | .wrapperOpaque _ | .range _ | .fixedI128 => .panic
  | .result t => encodeResult rec ctx (effSub t opt) v
  | .intFixed n => encodeIntFixed ext n v
  | .fixedU8 n => let _ := n; encodeFixedU8 v
  | .fixedArray n t => encodeFixedArray rec ctx n t v

/-- `EncodeWithOpt` (types/base.go:193-220). -/
def enc (env : Env) : Nat → ERec
  | 0, _, _, _ => .diverge
  | fuel + 1, ctx, ty, v =>
    if equalFold ty b!"Null" then .ok []
    else do
      let r ← getCodecClass env [] ctx.spec ty
      match r with
      | none => .panic
      | some (cls, sub) => do
        let out ← encodeCls env.ext (enc env fuel) ctx cls sub (argOf v)
        .ok (trimHex (toLower out))

end ScaleGo
