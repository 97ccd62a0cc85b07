import Verif.Model.Metadata

/-! # Portable type registry

`types/scaleInfo.go` and `overriderTypesName` of `types/specType.go`: the types described by metadata (or by a contract ABI)
are named and registered. -/

namespace ScaleGo

/-! ## Portable types -/

/-- `SiField` (types/scaleInfo.go:75-80), without the documentation. -/
structure SiField where
  name : Str
  type : Nat
  typeName : Str := []
  deriving DecidableEq

/-- `SiVariant` (types/scaleInfo.go:92-97), without the documentation. -/
structure SiVariant where
  name : Str
  fields : List SiField
  index : Nat
  deriving DecidableEq

/-- `SiTypeDef` (types/scaleInfo.go:57-69).  The Go struct has one pointer per kind; at most one of them is set, because the value
comes from a decoded enum.  `none` is the value with all pointers nil: historic types, a missing id, and the empty tuple (an
empty slice is written as JSON null).  Only what is used later is kept of bit sequences and ranges. -/
inductive SiDef where
  | composite (fields : List SiField)
  | variant (variants : List SiVariant)
  | sequence (type : Nat)
  | array (len type : Nat)
  | tuple (types : List Nat)
  | primitive (name : Str)
  | compact (type : Nat)
  | bitSequence
  | range
  | none
  deriving DecidableEq

/-- `SiType` (types/scaleInfo.go:19-24); parameters are (name, type), an absent parameter type being read as 0. -/
structure SiType where
  path : List Str := []
  params : List (Str × Nat) := []
  typ : SiDef := .none
  deriving DecidableEq

/-- What `ProcessSiType` reads and does not change after counting names: the map `id2Portable` (`types`, giving the zero value
for a missing id, with `count` entries), `DuplicateName` (`dup`), `PathPrefix`, `V14`, `Spec`.  `eqFuel` bounds the call depth of
the structural comparison in `RegCustomTypes`.  See types/scaleInfo.go:139-143. -/
structure SiCfg where
  types : Nat → SiType
  count : Nat
  dup : Str → Nat := fun _ => 0
  pathPrefix : Str := []
  v14 : Bool := true
  spec : Int := 0
  eqFuel : Nat := 1000

/-- The global tables and `RegisteredSiType`.  See types/registry.go:26-33; types/base.go:64. -/
structure SiState where
  reg : RegState
  ids : Nat → Option Str

/-- `s.RegisteredSiType[id] = t`.  For example types/scaleInfo.go:252, 304. -/
def SiState.setId (st : SiState) (id : Nat) (t : Str) : SiState :=
  { st with ids := fun i => if i = id then some t else st.ids i }

/-- `RegCustomTypes(map[string]source.TypeStruct{key: d})`.  For example types/scaleInfo.go:221, 272, 288. -/
def SiState.register (cfg : SiCfg) (st : SiState) (key : Str) (d : TypeDef) : Res SiState := do
  let r ← regCustomTypes cfg.eqFuel st.reg [(key, d)]
  .ok { st with reg := r }

/-! ## Names -/

/-- `pathName` (types/scaleInfo.go:183-186). -/
def pathName (cfg : SiCfg) (t : SiType) : Str :=
  if cfg.pathPrefix = [] then joinSep b!":" t.path else cfg.pathPrefix ++ b!":" ++ joinSep b!":" t.path

/-- `generateName` (types/scaleInfo.go:182-191); `none` stands for the id -1. -/
def generateName (cfg : SiCfg) (t : SiType) (id : Option Nat) : Str :=
  match id with
  | none => pathName cfg t
  | some id => if cfg.dup (pathName cfg t) > 1 then pathName cfg t ++ b!"@" ++ natToDec id else pathName cfg t

/-- `SiTyp.Path[len(SiTyp.Path)-1]` of a path that is known not to be empty.  See types/scaleInfo.go:200-205, 250, 257. -/
def lastOf (p : List Str) : Str := p.getLastD []

/-- The last two segments are `pallet`, `Call` (types/scaleInfo.go:200, 489). -/
def palletCall (p : List Str) : Bool := match p.reverse with
  | a :: b :: _ => b == b!"pallet" && a == b!"Call"
  | _ => false

/-- `nameSiType` (types/scaleInfo.go:181-209).  `Path[0]` of a variant type without path panics. -/
def nameSiType (cfg : SiCfg) (t : SiType) (id : Option Nat) : Res Str :=
  match t.typ with
  | .composite _ => .ok (generateName cfg t id)
  | .variant _ =>
    match t.path with
    | [] => .panic
    | p :: ps =>
      if equalFold p b!"Option" || equalFold p b!"Result" then .ok []
      else if palletCall (p :: ps) then .ok []
      else if (sliceIndex (lastOf (p :: ps)) [b!"Call", b!"Event"]).isSome then .ok []
      else .ok (generateName cfg t id)
  | _ => .ok []

/-- `overriderTypesName` (types/specType.go:32-45). -/
def overriderTypesName (t : SiType) : Str :=
  match t.typ with
  | .composite [f] =>
    if joinSep b!":" t.path = b!"substrate_fixed:FixedU64" ∧ f.typeName = b!"u64" then b!"SubstrateFixedU64"
    else if joinSep b!":" t.path = b!"substrate_fixed:FixedI128" ∧ f.typeName = b!"i128" then b!"SubstrateFixedI128"
    else []
  | _ => []

/-! ## JSON text of type rows -/

/-- One byte of a JSON string as written by `encoding/json` with HTML escaping.  Bytes from 128 on are copied (valid UTF-8
other than U+2028, U+2029 is).  See utiles/tools.go:88-91. -/
def jsonByte (b : UInt8) : Str :=
  if b = 34 then [92, 34]
  else if b = 92 then [92, 92]
  else if b = 10 then [92, 110]
  else if b = 13 then [92, 114]
  else if b = 9 then [92, 116]
  else if b.toNat < 32 ∨ b = 60 ∨ b = 62 ∨ b = 38 then
    b!"\\u00" ++ [hexDigit (b.toNat / 16), hexDigit (b.toNat % 16)]
  else [b]

/-- A JSON string.  See utiles/tools.go:88-91. -/
def jsonStr (s : Str) : Str := 34 :: ((s.map jsonByte).flatten ++ [34])

/-- A JSON array of already written elements.  See utiles/tools.go:88-91. -/
def jsonArr (l : List Str) : Str := 91 :: (joinSep b!"," l ++ [93])

/-- `utiles.ToString` of a `[][]string` (utiles/tools.go:88-91). -/
def jsonRows (l : List (List Str)) : Str := jsonArr (l.map (fun r => jsonArr (r.map jsonStr)))

/-! ## Expansion of one type

The Go functions call each other through `dealOneSiType`; here each takes the recursive call `rec recursive id state` as an
argument. -/

/-- `dealOneSiType(id, id2Portable[id], id2Portable, opts)`.  See types/scaleInfo.go:446-509. -/
abbrev SiRec := Bool → Nat → SiState → Res (Str × SiState)

/-- `subType, ok := s.RegisteredSiType[id]; if !ok { subType = s.dealOneSiType(..., RecursiveOption()) }`
(types/scaleInfo.go:276-279, 299-302, 309-312, 325-328, 340-343, 350-353, 362-369, 396-399, 403-406). -/
def subTypeOf (rec : SiRec) (id : Nat) (st : SiState) : Res (Str × SiState) :=
  match st.ids id with
  | some t => .ok (t, st)
  | none => rec true id st

/-- `subTypeOf` for a list of ids, in order.  See types/scaleInfo.go:275-285, 322-331. -/
def subTypesOf (rec : SiRec) : List Nat → SiState → Res (List Str × SiState)
  | [], st => .ok ([], st)
  | i :: is, st => do
    let a ← subTypeOf rec i st
    let r ← subTypesOf rec is a.2
    .ok (a.1 :: r.1, r.2)

/-- `col%d` from the given number on.  See types/scaleInfo.go:329. -/
def colNames : Nat → Nat → List Str
  | _, 0 => []
  | i, n + 1 => (b!"col" ++ natToDec i) :: colNames (i + 1) n

/-- The name of a field, or `col%d` (types/scaleInfo.go:280-283, 407-409). -/
def fieldNames : Nat → List SiField → List Str
  | _, [] => []
  | i, f :: fs => (if f.name = [] then b!"col" ++ natToDec i else f.name) :: fieldNames (i + 1) fs

/-- Rows of two columns.  See types/scaleInfo.go:285, 329, 408. -/
def zipRows (a b : List Str) : List (List Str) := List.zipWith (fun x y => [x, y]) a b

/-- `{Type: "string", TypeString: t, V14: s.V14, SpecVec: s.Spec}`.  See types/scaleInfo.go:221, 235, 272. -/
def aliasDef (cfg : SiCfg) (t : Str) : TypeDef := { kind := b!"string", typeString := t, v14 := cfg.v14, specVec := cfg.spec }

/-- `{Type: "struct", TypeMapping: rows, V14: s.V14, SpecVec: s.Spec}`.  See types/scaleInfo.go:288, 333. -/
def structDef (cfg : SiCfg) (rows : List (List Str)) : TypeDef :=
  { kind := b!"struct", mapping := rows, v14 := cfg.v14, specVec := cfg.spec }

/-- `{Type: "enum", TypeMapping: rows, V14: s.V14, SpecVec: s.Spec}`.  See types/scaleInfo.go:433. -/
def enumDef (cfg : SiCfg) (rows : List (List Str)) : TypeDef :=
  { kind := b!"enum", mapping := rows, v14 := cfg.v14, specVec := cfg.spec }

/-- `SiTyp.FindParameter` (types/scaleInfo.go:26-33). -/
def findParameter (name : Str) : List (Str × Nat) → Option Nat
  | [] => none
  | (n, t) :: rest => if equalFold n name then some t else findParameter name rest

/-- `RegCustomTypes(... {key: {Type: "string", TypeString: s.dealOneSiType(param.Type, ...)}})` when the parameter exists
(types/scaleInfo.go:242-247). -/
def registerParam (cfg : SiCfg) (rec : SiRec) (key name : Str) (t : SiType) (st : SiState) : Res SiState :=
  match findParameter name t.params with
  | none => .ok st
  | some i => do
    let r ← rec false i st
    r.2.register cfg key { kind := b!"string", typeString := r.1 }

/-- The special treatment of `sp_runtime:...:UncheckedExtrinsic` (types/scaleInfo.go:241-248). -/
def expandExtrinsicParams (cfg : SiCfg) (rec : SiRec) (t : SiType) (st : SiState) : Res SiState :=
  if 2 ≤ t.path.length ∧ t.path.head? = some b!"sp_runtime" ∧ lastOf t.path = b!"UncheckedExtrinsic" then do
    let st ← registerParam cfg rec b!"ExtrinsicSignature" b!"Signature" t st
    registerParam cfg rec b!"ExtrinsicSigner" b!"Address" t st
  else .ok st

/-- The type of the only field (types/scaleInfo.go:262-270). -/
def newtypeSub (rec : SiRec) (id : Nat) (f : SiField) (st : SiState) : Res (Str × SiState) :=
  match st.ids f.type with
  | some s => .ok (s, st)
  | none => if f.type = id then .ok (b!"NULL", st) else rec false f.type st

/-- A composite with one field stands for that field's type (types/scaleInfo.go:256-273). -/
def expandNewtype (cfg : SiCfg) (rec : SiRec) (id : Nat) (t : SiType) (f : SiField) (st : SiState) : Res (Str × SiState) :=
  if t.path ≠ [] ∧ lastOf t.path = b!"AccountId32" then .ok (b!"AccountId", st.setId id b!"AccountId")
  else do
    let r ← newtypeSub rec id f st
    let name ← nameSiType cfg t (some id)
    let st ← (r.2.setId id r.1).register cfg name (aliasDef cfg r.1)
    .ok (r.1, st)

/-- A composite with no or several fields (types/scaleInfo.go:274-290). -/
def expandStruct (cfg : SiCfg) (rec : SiRec) (id : Nat) (t : SiType) (fields : List SiField) (st : SiState) :
    Res (Str × SiState) := do
  let r ← subTypesOf rec (fields.map SiField.type) st
  let name ← nameSiType cfg t (some id)
  let st ← r.2.register cfg name (structDef cfg (zipRows (fieldNames 1 fields) r.1))
  .ok (name, st.setId id name)

/-- `expandComposite` (types/scaleInfo.go:239-291).  `Params[0]` panics without parameters. -/
def expandComposite (cfg : SiCfg) (rec : SiRec) (id : Nat) (t : SiType) (fields : List SiField) (st : SiState) :
    Res (Str × SiState) := do
  let st ← expandExtrinsicParams cfg rec t st
  if 2 ≤ t.path.length ∧ (sliceIndex (lastOf t.path) [b!"WrapperKeepOpaque", b!"WrapperOpaque"]).isSome then
    match t.params with
    | [] => .panic
    | (_, p) :: _ => do
      let r ← rec false p st
      let s := b!"WrapperOpaque<" ++ r.1 ++ b!">"
      .ok (s, r.2.setId id s)
  else match fields with
    | [f] => expandNewtype cfg rec id t f st
    | _ => expandStruct cfg rec id t fields st

/-- `expandArray` (types/scaleInfo.go:293-305). -/
def expandArray (rec : SiRec) (id len type : Nat) (st : SiState) : Res (Str × SiState) :=
  if len = 0 then .ok (b!"NULL", st.setId id b!"NULL")
  else do
    let r ← subTypeOf rec type st
    let s := b!"[" ++ r.1 ++ b!"; " ++ natToDec len ++ b!"]"
    .ok (s, r.2.setId id s)

/-- `expandSequence` (types/scaleInfo.go:307-315), `expandCompact` (338-346) and, on the first parameter, `expandOption`
(348-356): `word<sub type>`. -/
def expandGeneric (rec : SiRec) (word : Str) (id type : Nat) (st : SiState) : Res (Str × SiState) := do
  let r ← subTypeOf rec type st
  let s := word ++ b!"<" ++ r.1 ++ b!">"
  .ok (s, r.2.setId id s)

/-- `expandTuple` (types/scaleInfo.go:317-336). -/
def expandTuple (cfg : SiCfg) (rec : SiRec) (id : Nat) (types : List Nat) (st : SiState) : Res (Str × SiState) :=
  if types = [] then .ok (b!"NULL", st.setId id b!"NULL")
  else do
    let r ← subTypesOf rec types st
    let name := b!"Tuple:" ++ r.1.flatten
    let st ← r.2.register cfg name (structDef cfg (zipRows (colNames 1 types.length) r.1))
    .ok (name, st.setId id name)

/-- `expandOption` (types/scaleInfo.go:348-356). -/
def expandOption (rec : SiRec) (id : Nat) (t : SiType) (st : SiState) : Res (Str × SiState) :=
  match t.params with
  | [] => .panic
  | (_, p) :: _ => expandGeneric rec b!"option" id p st

/-- `expandResult` (types/scaleInfo.go:358-372). -/
def expandResult (rec : SiRec) (id : Nat) (t : SiType) (st : SiState) : Res (Str × SiState) :=
  match t.params with
  | (_, p) :: (_, q) :: _ => do
    let a ← subTypeOf rec p st
    let b ← subTypeOf rec q a.2
    let s := b!"Result<" ++ a.1 ++ b!"," ++ b.1 ++ b!">"
    .ok (s, b.2.setId id s)
  | _ => .panic

/-- The type text of one variant (types/scaleInfo.go:387-415). -/
def variantType (rec : SiRec) (v : SiVariant) (st : SiState) : Res (Str × SiState) :=
  match v.fields with
  | [] => .ok (b!"empty", st)
  | [f] => subTypeOf rec f.type st
  | fs => do
    let r ← subTypesOf rec (fs.map SiField.type) st
    .ok (jsonRows (zipRows (fieldNames 0 fs) (r.1.map convertType)), r.2)

/-- `[]string{"empty", "NULL"}`, repeated (types/scaleInfo.go:422-429). -/
def gapRows (n : Nat) : List (List Str) := List.replicate n [b!"empty", b!"NULL"]

/-- The loop over the sorted variants (types/scaleInfo.go:385-431); `prev` is the index of the previous variant.  The Go
`interval` of two equal indices is -1, which fills nothing, as 0 does. -/
def enumRows (rec : SiRec) : Option Nat → List SiVariant → SiState → Res (List (List Str) × SiState)
  | _, [], st => .ok ([], st)
  | prev, v :: vs, st => do
    let a ← variantType rec v st
    let r ← enumRows rec (some v.index) vs a.2
    let interval := match prev with
      | none => v.index
      | some p => v.index - p - 1
    .ok (gapRows interval ++ [v.name, a.1] :: r.1, r.2)

/-- `enumValueList` (types/scaleInfo.go:391). -/
def valueRows (vs : List SiVariant) : List (List Str) :=
  (vs.filter (fun v => v.fields = [])).map (fun v => [v.name, natToDec v.index])

/-- `expandEnum` (types/scaleInfo.go:374-436).  Sorting in place also sorts the variants in the portable registry, which
only matters for the order in which later code meets them. -/
def expandEnum (cfg : SiCfg) (rec : SiRec) (id : Nat) (t : SiType) (variants : List SiVariant) (st : SiState) :
    Res (Str × SiState) := do
  let vs := sortBy SiVariant.index variants
  let r ← enumRows rec none vs st
  let rows := if vs.any (fun v => v.fields ≠ []) then r.1 else valueRows vs
  let name ← nameSiType cfg t (some id)
  let st ← r.2.register cfg name (enumDef cfg rows)
  .ok (name, st.setId id name)

/-- The variant branch of `dealOneSiType` (types/scaleInfo.go:478-504). -/
def dealVariant (cfg : SiCfg) (rec : SiRec) (id : Nat) (t : SiType) (variants : List SiVariant) (st : SiState) :
    Res (Str × SiState) :=
  match t.path with
  | [] => .panic
  | p :: ps =>
    if equalFold p b!"Option" then expandOption rec id t st
    else if equalFold p b!"Result" then expandResult rec id t st
    else if palletCall (p :: ps) then .ok (b!"Call", st.setId id b!"Call")
    else if (sliceIndex (lastOf (p :: ps)) [b!"Call", b!"Event"]).isSome then .ok (b!"Call", st.setId id b!"Call")
    else if (sliceIndex (lastOf (p :: ps)) [b!"RuntimeCall"]).isSome then do
      let name ← nameSiType cfg t (some id)
      let st ← (st.setId id b!"Call").register cfg name { kind := b!"string", typeString := b!"Call" }
      .ok (b!"Call", st)
    else expandEnum cfg rec id t variants st

/-- The part of `dealOneSiType` after the first two checks (types/scaleInfo.go:459-508). -/
def dealDef (cfg : SiCfg) (rec : SiRec) (id : Nat) (t : SiType) (st : SiState) : Res (Str × SiState) :=
  match t.typ with
  | .composite fields => expandComposite cfg rec id t fields st
  | .array len type => expandArray rec id len type st
  | .sequence type => expandGeneric rec b!"Vec" id type st
  | .tuple types => expandTuple cfg rec id types st
  | .compact type => expandGeneric rec b!"compact" id type st
  | .bitSequence => .ok (b!"BitVec", st.setId id b!"BitVec")
  | .range => .ok ([], st)
  | .variant variants => dealVariant cfg rec id t variants st
  | .primitive _ | .none => .ok (b!"NULL", st.setId id b!"NULL")

/-- `dealOneSiType` (types/scaleInfo.go:446-509).  The first number bounds the Go call depth. -/
def dealOneSiType (cfg : SiCfg) : Nat → SiRec
  | 0, _, _, _ => .diverge
  | fuel + 1, recursive, id, st =>
    let t := cfg.types id
    let ot := overriderTypesName t
    if ot ≠ [] then .ok (ot, st.setId id ot)
    else if recursive then do
      let name ← nameSiType cfg t (some id)
      if name ≠ [] then .ok (name, st) else dealDef cfg (dealOneSiType cfg fuel) id t st
    else dealDef cfg (dealOneSiType cfg fuel) id t st

/-! ## The whole registry -/

/-- The first loop of `ProcessSiType` (types/scaleInfo.go:147-151): the value of `DuplicateName` after looking at the ids
`i, i+1, ...` (`n` of them). -/
def countNames (cfg : SiCfg) : Nat → Nat → (Str → Nat) → Res (Str → Nat)
  | _, 0, dup => .ok dup
  | i, n + 1, dup => do
    let name ← nameSiType cfg (cfg.types i) none
    countNames cfg (i + 1) n (if name = [] then dup else fun k => if k = name then dup k + 1 else dup k)

/-- `dealPrimitiveSiType` (types/scaleInfo.go:225-237) and `expandPrimitiveTypes` (211-223), which differ in where the text
comes from. -/
def registerPrimitive (cfg : SiCfg) (id : Nat) (text : Str) (st : SiState) : Res SiState :=
  match st.reg.env.reg (toLower text) with
  | none => .panic
  | some _ => (st.setId id text).register cfg (b!"primitive_types:" ++ text) (aliasDef cfg text)

/-- One turn of the second loop (types/scaleInfo.go:154-158). -/
def passPrimitive (cfg : SiCfg) (i : Nat) (st : SiState) : Res SiState :=
  match (cfg.types i).typ with
  | .primitive p => registerPrimitive cfg i p st
  | _ => .ok st

/-- One turn of the third loop (types/scaleInfo.go:160-164). -/
def passPrimitiveTypes (cfg : SiCfg) (i : Nat) (st : SiState) : Res SiState :=
  if (cfg.types i).path.head? = some b!"primitive_types" then registerPrimitive cfg i (lastOf (cfg.types i).path) st
  else .ok st

/-- One turn of the fourth loop (types/scaleInfo.go:167-171). -/
def passSpCore (cfg : SiCfg) (fuel i : Nat) (st : SiState) : Res SiState :=
  if (cfg.types i).path.head? = some b!"sp_core" then do
    let r ← dealOneSiType cfg fuel false i st
    .ok r.2
  else .ok st

/-- One turn of the fifth loop (types/scaleInfo.go:172-177). -/
def passRest (cfg : SiCfg) (fuel i : Nat) (st : SiState) : Res SiState :=
  match st.ids i with
  | some _ => .ok st
  | none => do
    let r ← dealOneSiType cfg fuel false i st
    .ok r.2

/-- A loop `for i := 0; i < n; i++`.  See types/scaleInfo.go:147-177. -/
def siLoop (f : Nat → SiState → Res SiState) : Nat → Nat → SiState → Res SiState
  | _, 0, st => .ok st
  | i, n + 1, st => do
    let st ← f i st
    siLoop f (i + 1) n st

/-- The four registration loops (types/scaleInfo.go:152-177). -/
def registerTypes (cfg : SiCfg) (fuel : Nat) (st : SiState) : Res SiState := do
  let st ← siLoop (passPrimitive cfg) 0 cfg.count st
  let st ← siLoop (passPrimitiveTypes cfg) 0 cfg.count st
  let st ← siLoop (passSpCore cfg fuel) 0 cfg.count st
  siLoop (passRest cfg fuel) 0 cfg.count st

/-- `ProcessSiType` (types/scaleInfo.go:145-179), started with an empty, non-nil `DuplicateName`. -/
def processSiType (cfg : SiCfg) (fuel : Nat) (reg : RegState) : Res SiState := do
  let dup ← countNames cfg 0 cfg.count (fun _ => 0)
  registerTypes { cfg with dup := dup } fuel ⟨reg, fun _ => none⟩

/-! ## Calls and events from the portable registry -/

/-- A slice built by `append` from nothing: nil when nothing is appended.  See types/v14.go:56-96. -/
def appended {α : Type} (l : List α) : Option (List α) := if l.isEmpty then none else some l

/-- The calls of a module (types/v14.go:56-73, types/v15.go:51-69): `none` for a module without calls; a type that is not a
variant type panics. -/
def portableCalls (cfg : SiCfg) (ids : Nat → Option Str) (type : Option Nat) : Res (Option (List MetaCall)) :=
  match type with
  | none => .ok none
  | some i => match (cfg.types i).typ with
    | .variant vs => .ok (appended (vs.map (fun v =>
        ⟨v.name, v.fields.map (fun f => (f.name, (ids f.type).getD [])), v.index⟩)))
    | _ => .panic

/-- The events of a module (types/v14.go:80-96, types/v15.go:77-92). -/
def portableEvents (cfg : SiCfg) (ids : Nat → Option Str) (type : Option Nat) : Res (Option (List MetaEvent)) :=
  match type with
  | none => .ok none
  | some i => match (cfg.types i).typ with
    | .variant vs => .ok (appended (vs.map (fun v =>
        ⟨v.name, v.fields.map (fun f => (ids f.type).getD []), v.fields.map SiField.name,
          v.fields.map (fun f => convertType f.typeName), v.index⟩)))
    | _ => .panic

end ScaleGo
