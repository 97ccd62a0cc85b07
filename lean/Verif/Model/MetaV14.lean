import Verif.Model.Portable

/-! # Decoding of V14 and V15 metadata

`types/v14.go`, `types/v15.go`.  The decoder classes of the metadata parts (`MetadataV14Module`, `MetadataV14ModuleStorage`, …) are
not in `Cls`; where the code asks for one of them by name the model calls its `Process` directly, which leaves out the lookup of
these names.  Everything else goes through `ProcessAndUpdateData` (`rec`).  The JSON round trip from the decoded module to
`MetadataModules` (types/v14.go:43-46) keeps the fields used here: all of them are texts, numbers and lists of them. -/

namespace ScaleGo

/-- `f` repeated, values in order.  See types/Vectors.go:28-33. -/
def readMany {α : Type} (f : Dec α) : Nat → Dec (List α)
  | 0, st => .ok ([], st)
  | n + 1, st => do
    let (v, st) ← f st
    let (vs, st) ← readMany f n st
    .ok (v :: vs, st)

/-- `Vec<T>` for a metadata class `T` (types/Vectors.go, see `processVec`). -/
def readVec {α : Type} (rec : Rec) (ctx : Ctx) (f : Dec α) : Dec (List α) := fun st => do
  let (v, st) ← rec ctx b!"Compact<u32>" st
  let n ← asInt v
  if n > 524288 then .panic else readMany f n.toNat st

/-- `ProcessAndUpdateData(ty).(string)`.  See types/v14.go, types/v15.go, for example types/v14.go:287-290. -/
def readText (rec : Rec) (ctx : Ctx) (ty : Str) : Dec Str := fun st => do
  let (v, st) ← rec ctx ty st
  let s ← goStr v
  .ok (s, st)

/-- `ProcessAndUpdateData(ty).(int)`; negative numbers do not occur.  See types/v14.go:228, 267, 281-282, 310. -/
def readInt (rec : Rec) (ctx : Ctx) (ty : Str) : Dec Nat := fun st => do
  let (v, st) ← rec ctx ty st
  let i ← asInt v
  .ok (i.toNat, st)

/-- `ProcessAndUpdateData("bool").(bool)`.  See types/v14.go:198, 206, 212. -/
def readBool (rec : Rec) (ctx : Ctx) : Dec Bool := fun st => do
  let (v, st) ← rec ctx b!"bool" st
  match v with
  | .bool b => .ok (b, st)
  | _ => .panic

/-- The elements of `v.([]interface{})`, each `.(string)`.  See types/v14.go:287-290, 312-315. -/
def goStrs : Val → Res (List Str)
  | .nilSlice => .ok []
  | .slice l => jsonEach goStr l
  | _ => .panic

/-- `ProcessAndUpdateData(ty).([]interface{})` with texts.  See types/v14.go:287-290, 312-315. -/
def readStrs (rec : Rec) (ctx : Ctx) (ty : Str) : Dec (List Str) := fun st => do
  let (v, st) ← rec ctx ty st
  let l ← goStrs v
  .ok (l, st)

/-- `StorageType` as far as V14 fills it (types/metadata.go:35-42, types/v14.go:265-285). -/
inductive StorageKind where
  | plain (type : Nat)
  | map (hashers : List Str) (keys value : Nat)
  | other
  deriving DecidableEq

/-- `MetadataStorage` (types/metadata.go:26-33). -/
structure StorageEntry where
  name : Str
  modifier : Str
  kind : StorageKind
  fallback : Str
  docs : List Str
  deriving DecidableEq

/-- `MetadataConstants` (types/metadata.go:159-165) without the text of the type. -/
structure ConstEntry where
  name : Str
  type : Nat
  value : Str
  docs : List Str
  deriving DecidableEq

/-- `MetadataV14Module` (types/v14.go:173-190); `docs` is the addition of `MetadataV15Module` (types/v15.go:183-186). -/
structure Pallet where
  name : Str
  pfx : Str
  storage : List StorageEntry
  calls : Option Nat
  events : Option Nat
  constants : List ConstEntry
  errors : Option Nat
  index : Nat
  docs : List Str := []
  deriving DecidableEq

/-- The type of a storage entry (types/v14.go:263-285). -/
def readStorageKind (rec : Rec) (ctx : Ctx) : Dec StorageKind := fun st => do
  let (kind, st) ← readText rec ctx b!"StorageFunctionTypeV14" st
  if kind = b!"PlainType" then do
    let (t, st) ← readInt rec ctx b!"SiLookupTypeId" st
    .ok (.plain t, st)
  else if kind = b!"Map" then do
    let (hashers, st) ← readStrs rec ctx b!"Vec<StorageHasher>" st
    let (k, st) ← readInt rec ctx b!"SiLookupTypeId" st
    let (v, st) ← readInt rec ctx b!"SiLookupTypeId" st
    .ok (.map hashers k v, st)
  else .ok (.other, st)

/-- `MetadataV14ModuleStorageEntry.Process` (types/v14.go:260-298). -/
def readStorageEntry (rec : Rec) (ctx : Ctx) : Dec StorageEntry := fun st => do
  let (name, st) ← readText rec ctx b!"String" st
  let (modifier, st) ← readText rec ctx b!"StorageModify" st
  let (kind, st) ← readStorageKind rec ctx st
  let (fallback, st) ← readText rec ctx b!"HexBytes" st
  let (docs, st) ← readStrs rec ctx b!"Vec<String>" st
  .ok (⟨name, modifier, kind, fallback, docs⟩, st)

/-- `MetadataV14ModuleStorage.Process` (types/v14.go:238-248): prefix and entries. -/
def readStorage (rec : Rec) (ctx : Ctx) : Dec (Str × List StorageEntry) := fun st => do
  let (pfx, st) ← readText rec ctx b!"String" st
  let (items, st) ← readVec rec ctx (readStorageEntry rec ctx) st
  .ok ((pfx, items), st)

/-- `PalletConstantMetadataV14.Process` (types/v14.go:308-323). -/
def readConstant (rec : Rec) (ctx : Ctx) : Dec ConstEntry := fun st => do
  let (name, st) ← readText rec ctx b!"String" st
  let (type, st) ← readInt rec ctx b!"SiLookupTypeId" st
  let (value, st) ← readText rec ctx b!"HexBytes" st
  let (docs, st) ← readStrs rec ctx b!"Vec<String>" st
  .ok (⟨name, type, trimHex value, docs⟩, st)

/-- A value of the class `ty` as a map, read back into `PalletLookUp` (types/v14.go:24-26). -/
def readLookUp (rec : Rec) (ctx : Ctx) (ty : Str) : Dec Nat := fun st => do
  let (v, st) ← rec ctx ty st
  match v with
  | .map m => do
    let t ← jsonInt (member m b!"type")
    .ok (t, st)
  | _ => .panic

/-- `f` when the flag read before is set (types/v14.go:198, 206, 212, 225). -/
def readIf {α : Type} (rec : Rec) (ctx : Ctx) (f : Dec α) : Dec (Option α) := fun st => do
  let (b, st) ← readBool rec ctx st
  if b then do
    let (a, st) ← f st
    .ok (some a, st)
  else .ok (none, st)

/-- `MetadataV14Module.Process` (types/v14.go:192-230). -/
def readPallet (rec : Rec) (ctx : Ctx) : Dec Pallet := fun st => do
  let (name, st) ← readText rec ctx b!"String" st
  let (storage, st) ← readIf rec ctx (readStorage rec ctx) st
  let (calls, st) ← readIf rec ctx (readLookUp rec ctx b!"PalletCallMetadataV14") st
  let (events, st) ← readIf rec ctx (readLookUp rec ctx b!"PalletEventMetadataV14") st
  let (constants, st) ← readVec rec ctx (readConstant rec ctx) st
  let (errors, st) ← readIf rec ctx (readLookUp rec ctx b!"PalletErrorMetadataV14") st
  let (index, st) ← readInt rec ctx b!"U8" st
  let s := storage.getD ([], [])
  .ok ({ name := name, pfx := s.1, storage := s.2, calls := calls, events := events, constants := constants, errors := errors,
         index := index }, st)

/-- `MetadataV15Module.Process` (types/v15.go:188-194). -/
def readPallet15 (rec : Rec) (ctx : Ctx) : Dec Pallet := fun st => do
  let (p, st) ← readPallet rec ctx st
  let (docs, st) ← readStrs rec ctx b!"Vec<Text>" st
  .ok ({ p with docs := docs }, st)

/-! ## Texts for the types -/

/-- `TupleDisassemble` (types/v14.go:325-344); the commas in brackets are hidden as in `buildStruct`. -/
def tupleDisassemble (s : Str) : Res (List Str) :=
  if s = [] then .panic
  else if s.head? = some 40 ∧ s.getLast? = some 41 then
    .ok ((splitSep (hideCommas (s.drop 1).dropLast) b!",").map fun v => replaceAll (trimSpace v) b!"#" b!",")
  else .ok [s]

/-- What `metadataSiType[id]` gives.  See types/v14.go:50-157. -/
def siText (ids : Nat → Option Str) (id : Nat) : Str := (ids id).getD []

/-- `StorageType` after the lookup (types/v14.go:131-157). -/
inductive StorageText where
  | plain (text : Str)
  | map (hashers keys : List Str) (value : Str)
  | other
  deriving DecidableEq

/-- The storage loop (types/v14.go:131-157); with `check` (V14) a tuple with more members than hashers stays one key, without
(types/v15.go:138-141) it does not.  A tuple definition is nil when empty (see `SiDef.none`). -/
def storageText (check : Bool) (cfg : SiCfg) (ids : Nat → Option Str) : StorageKind → Res StorageText
  | .plain t => .ok (.plain (siText ids t))
  | .map hashers keys value =>
    match (cfg.types keys).typ with
    | .tuple ts =>
      if check ∧ hashers.length < ts.length then .ok (.map hashers [siText ids keys] (siText ids value))
      else .ok (.map hashers (ts.map (siText ids)) (siText ids value))
    | _ => do
      let ks ← tupleDisassemble (siText ids keys)
      .ok (.map hashers ks (siText ids value))
  | .other => .ok .other

/-- `MetadataModuleError` (types/metadata.go:738-749): name and (type name, type) of the fields. -/
abbrev ErrorText := Str × List (Str × Str)

/-- Types that `expandEnum` is called for (types/scaleInfo.go:446-504). -/
def sortsVariants (t : SiType) : Bool :=
  overriderTypesName t = [] && match t.path with
  | [] => false
  | p :: ps => !equalFold p b!"Option" && !equalFold p b!"Result" && !palletCall (p :: ps) &&
      (sliceIndex (lastOf (p :: ps)) [b!"Call", b!"Event", b!"RuntimeCall"]).isNone

/-- The errors of a module (types/v14.go:104-119).  When the type is not a variant type the code panics either way.  `expandEnum`
has sorted the variants in place (types/scaleInfo.go:380-382); the index of an error is not kept. -/
def portableErrors (cfg : SiCfg) (ids : Nat → Option Str) (type : Option Nat) : Res (List ErrorText) :=
  match type with
  | none => .ok []
  | some i => match (cfg.types i).typ with
    | .variant vs => .ok ((if sortsVariants (cfg.types i) then sortBy SiVariant.index vs else vs).map fun v =>
        (v.name, v.fields.map fun f => (f.typeName, siText ids f.type)))
    | _ => .panic

/-- A module after the lookups: what the call and event tables are made from, and the rest with texts for types.  See
types/v14.go:51-158. -/
structure PalletText where
  mod : MetaModule
  errors : List ErrorText
  constants : List (ConstEntry × Str)
  storage : List (StorageEntry × StorageText)

/-- `f` on every element, in order.  See types/v14.go:51, 122. -/
def eachRes {α β : Type} (f : α → Res β) : List α → Res (List β)
  | [] => .ok []
  | a :: l => do
    let b ← f a
    let bs ← eachRes f l
    .ok (b :: bs)

/-- A constant (types/v14.go:122-128): an unknown type panics. -/
def constText (ids : Nat → Option Str) (c : ConstEntry) : Res (ConstEntry × Str) :=
  if siText ids c.type = [] then .panic else .ok (c, siText ids c.type)

/-- The body of the loop over modules (types/v14.go:51-158, types/v15.go:47-147). -/
def palletText (check : Bool) (cfg : SiCfg) (ids : Nat → Option Str) (p : Pallet) : Res PalletText := do
  let calls ← portableCalls cfg ids p.calls
  let events ← portableEvents cfg ids p.events
  let errors ← portableErrors cfg ids p.errors
  let constants ← eachRes (constText ids) p.constants
  let storage ← eachRes (fun s => do
    let t ← storageText check cfg ids s.kind
    .ok (s, t)) p.storage
  .ok ⟨⟨p.name, p.index, calls, events⟩, errors, constants, storage⟩

/-- An element of `signedExtensions` (types/metadata.go:904-909), read back from JSON. -/
def readExtension (v : Val) : Res (Str × Nat) := do
  let m ← jsonObject v
  let id ← jsonText (member m b!"identifier")
  let type ← jsonInt (member m b!"type")
  let _ ← jsonInt (member m b!"additionalSigned")
  .ok (id, type)

/-- The extrinsic part (types/v14.go:161-168, types/v15.go:149-156): the extensions with the texts of their types.  JSON errors,
which the code ignores, are panics here; they do not occur with the library's own definitions. -/
def readExtrinsicMeta (rec : Rec) (ctx : Ctx) (ty : Str) (ids : Nat → Option Str) : Dec ExtrinsicMeta := fun st => do
  let (v, st) ← rec ctx ty st
  match v with
  | .map m => do
    let exts ← jsonList readExtension (member m b!"signedExtensions")
    .ok (⟨exts.map Prod.fst, exts.map fun e => (e.1, siText ids e.2)⟩, st)
  | _ => .panic

/-- What comes of V14 metadata: the modules, call and event tables and extensions, and the tables of the library afterwards.
See types/metadata.go:87-97. -/
structure V14Out where
  pallets : List PalletText
  callIndex : Index CallEntry
  eventIndex : Index EventEntry
  extrinsic : ExtrinsicMeta
  reg : RegState

/-- The part that V14 and V15 have in common (types/v14.go:28-171, types/v15.go:24-158).  The type registry is global: what is
read after `ProcessSiType` uses the changed one.  `ProcessSiType` is given the recursion budget `fuel`. -/
def processCommon (check : Bool) (pallet : Rec → Ctx → Dec Pallet) (extrinsic : Str) (fuel : Nat) (reg : RegState) (ctx : Ctx) :
    Dec (V14Out × (Nat → Option Str)) := fun st => do
  let (raw, st) ← pau reg.env fuel ctx b!"PortableRegistry" st
  let portable ← initPortable raw
  let cfg := { portableCfg portable with spec := ctx.spec }
  let si ← processSiType cfg fuel reg
  let (pallets, st) ← readVec (pau si.reg.env fuel) ctx (pallet (pau si.reg.env fuel) ctx) st
  let texts ← eachRes (palletText check cfg si.ids) pallets
  let mods := texts.map PalletText.mod
  let (ext, st) ← readExtrinsicMeta (pau si.reg.env fuel) ctx extrinsic si.ids st
  let env := registerOriginCaller si.reg.env (pallets.map fun p => (p.name, p.index))
  .ok ((⟨texts, callsV14 mods (fun _ => none), eventsV14 mods (fun _ => none), ext, { si.reg with env := env }⟩, si.ids), st)

/-- `MetadataV14Decoder.Process` (types/v14.go:28-171). -/
def processV14 (fuel : Nat) (reg : RegState) (ctx : Ctx) : Dec V14Out := fun st => do
  let (o, st) ← processCommon true readPallet b!"ExtrinsicMetadataV14" fuel reg ctx st
  .ok (o.1, st)

/-- `RuntimeApiMethodMetadata` (types/metadata.go:105-111): name, (name, id, text) of the inputs, id and text of the output, docs. -/
structure ApiMethod where
  name : Str
  inputs : List (Str × Nat × Str)
  output : Nat × Str
  docs : List Str

/-- `RuntimeApiMethodMetadataV15.Process` (types/v15.go:225-244), with the texts put in later (types/v15.go:166-173). -/
def readApiMethod (rec : Rec) (ctx : Ctx) (ids : Nat → Option Str) : Dec ApiMethod := fun st => do
  let (name, st) ← readText rec ctx b!"Text" st
  let (inputs, st) ← readVec rec ctx (fun st => do
    let (n, st) ← readText rec ctx b!"Text" st
    let (t, st) ← readInt rec ctx b!"SiLookupTypeId" st
    .ok ((n, t, siText ids t), st)) st
  let (out, st) ← readInt rec ctx b!"SiLookupTypeId" st
  let (docs, st) ← readStrs rec ctx b!"Vec<Text>" st
  .ok (⟨name, inputs, (out, siText ids out), docs⟩, st)

/-- `RuntimeApiMetadataV15.Process` (types/v15.go:207-213): name, methods, docs. -/
def readApi (rec : Rec) (ctx : Ctx) (ids : Nat → Option Str) : Dec (Str × List ApiMethod × List Str) := fun st => do
  let (name, st) ← readText rec ctx b!"Text" st
  let (methods, st) ← readVec rec ctx (readApiMethod rec ctx ids) st
  let (docs, st) ← readStrs rec ctx b!"Vec<Text>" st
  .ok ((name, methods, docs), st)

/-- What comes of V15 metadata in addition; the custom values are kept as decoded.  See types/metadata.go:87-97. -/
structure V15Out extends V14Out where
  type : Nat
  apis : List (Str × List ApiMethod × List Str)
  outer : Nat × Nat × Nat
  custom : Val

/-- `MetadataV15Decoder.Process` (types/v15.go:24-181).  The parts behind the extrinsic are read after `registerOriginCaller`. -/
def processV15 (fuel : Nat) (reg : RegState) (ctx : Ctx) : Dec V15Out := fun st => do
  let (o, st) ← processCommon false readPallet15 b!"ExtrinsicMetadataV15" fuel reg ctx st
  let rec' := pau o.1.reg.env fuel
  let (type, st) ← readInt rec' ctx b!"SiLookupTypeId" st
  let (apis, st) ← readVec rec' ctx (readApi rec' ctx o.2) st
  let (call, st) ← readInt rec' ctx b!"SiLookupTypeId" st
  let (event, st) ← readInt rec' ctx b!"SiLookupTypeId" st
  let (error, st) ← readInt rec' ctx b!"SiLookupTypeId" st
  let (custom, st) ← rec' ctx b!"BTreeMap<Text, CustomValueMetadata15>" st
  .ok ({ o.1 with type := type, apis := apis, outer := (call, event, error), custom := custom }, st)

end ScaleGo
