import Verif.Model.MetaV14

/-! # Decoding of V9 to V13 metadata

`types/metadata.go`, `types/v13.go`.  As in `Model/MetaV14.lean` the model calls `Process` of the decoder classes of the metadata
parts directly.  The JSON round trip from the decoded modules to `MetadataModules` keeps texts, numbers and lists of them; the
embedded `ScaleDecoder` is not written (`json:"-"` on its fields, types/base.go:52-67).  An empty list stays an empty list and nil
stays nil.  The decoders of versions 6 to 8 are not in the registry (types/registry.go:122-129) and cannot be reached by name. -/

namespace ScaleGo

/-- `StorageType` as versions 7 to 13 fill it (types/metadata.go:35-67). -/
inductive OldKind where
  | plain (type : Str)
  | map (hasher key value : Str) (linked : Bool)
  | double (hasher key key2 value key2Hasher : Str)
  | nmap (hashers keys : List Str) (value : Str)
  | other
  deriving DecidableEq

/-- `MetadataStorage` (types/metadata.go:26-33). -/
structure OldEntry where
  name : Str
  modifier : Str
  kind : OldKind
  fallback : Str
  docs : List Str
  deriving DecidableEq

/-- `MetadataConstants` (types/metadata.go:159-165). -/
structure OldConst where
  name : Str
  type : Str
  value : Str
  docs : List Str
  deriving DecidableEq

/-- `MetadataModuleCall` (types/metadata.go:173-178): the arguments are (name, type). -/
structure OldCall where
  name : Str
  args : List (Str × Str)
  docs : List Str
  deriving DecidableEq

/-- `MetadataModuleEvent` (types/metadata.go:216-221). -/
structure OldEvent where
  name : Str
  args : List Str
  docs : List Str
  deriving DecidableEq

/-- `MetadataV8Module`, `MetadataV12Module` and `MetadataV13Module` (types/metadata.go:668-681, 958-972; types/v13.go:103-117);
`none` is a nil slice.  Errors are name and documentation. -/
structure OldModule where
  name : Str
  pfx : Str
  storage : List OldEntry
  calls : Option (List OldCall)
  events : Option (List OldEvent)
  constants : List OldConst
  errors : List (Str × List Str)
  index : Nat
  deriving DecidableEq

/-- `convert.ConvertType(ProcessAndUpdateData("String").(string))`.  See types/metadata.go:209, 359, 400-401. -/
def readType9 (rec : Rec) (ctx : Ctx) : Dec Str := fun st => do
  let (s, st) ← readText rec ctx b!"String" st
  .ok (convertType s, st)

/-- `MetadataModuleCallArgument.Process` (types/metadata.go:207-214). -/
def readArg (rec : Rec) (ctx : Ctx) : Dec (Str × Str) := fun st => do
  let (name, st) ← readText rec ctx b!"String" st
  let (type, st) ← readType9 rec ctx st
  .ok ((name, type), st)

/-- `MetadataModuleCall.Process` (types/metadata.go:180-198). -/
def readOldCall (rec : Rec) (ctx : Ctx) : Dec OldCall := fun st => do
  let (name, st) ← readText rec ctx b!"String" st
  let (args, st) ← readVec rec ctx (readArg rec ctx) st
  let (docs, st) ← readStrs rec ctx b!"Vec<String>" st
  .ok (⟨name, args, docs⟩, st)

/-- `MetadataModuleEvent.Process` (types/metadata.go:223-238): the types of the arguments are kept as they are. -/
def readOldEvent (rec : Rec) (ctx : Ctx) : Dec OldEvent := fun st => do
  let (name, st) ← readText rec ctx b!"String" st
  let (args, st) ← readStrs rec ctx b!"Vec<String>" st
  let (docs, st) ← readStrs rec ctx b!"Vec<String>" st
  .ok (⟨name, args, docs⟩, st)

/-- The type of a storage entry (types/metadata.go:572-604; types/v13.go:206-255); `nmap` is set for version 13. -/
def readOldKind (nmap : Bool) (rec : Rec) (ctx : Ctx) : Dec OldKind := fun st => do
  let (kind, st) ← readText rec ctx b!"StorageFunctionType" st
  if kind = b!"MapType" then do
    let (hasher, st) ← readText rec ctx b!"StorageHasher" st
    let (key, st) ← readType9 rec ctx st
    let (value, st) ← readType9 rec ctx st
    let (linked, st) ← readBool rec ctx st
    .ok (.map hasher key value linked, st)
  else if kind = b!"DoubleMapType" then do
    let (hasher, st) ← readText rec ctx b!"StorageHasher" st
    let (key, st) ← readType9 rec ctx st
    let (key2, st) ← readType9 rec ctx st
    let (value, st) ← readType9 rec ctx st
    let (hasher2, st) ← readText rec ctx b!"StorageHasher" st
    .ok (.double hasher key key2 value hasher2, st)
  else if kind = b!"PlainType" then do
    let (type, st) ← readType9 rec ctx st
    .ok (.plain type, st)
  else if nmap = true ∧ kind = b!"NMap" then do
    let (keys, st) ← readStrs rec ctx b!"Vec<String>" st
    let (hashers, st) ← readStrs rec ctx b!"Vec<StorageHasher>" st
    let (value, st) ← readType9 rec ctx st
    .ok (.nmap (hashers.map convertType) (keys.map convertType) value, st)
  else .ok (.other, st)

/-- `MetadataV7ModuleStorageEntry.Process` and `MetadataV13ModuleStorageEntry.Process` (types/metadata.go:569-617;
types/v13.go:203-270). -/
def readOldEntry (nmap : Bool) (rec : Rec) (ctx : Ctx) : Dec OldEntry := fun st => do
  let (name, st) ← readText rec ctx b!"String" st
  let (modifier, st) ← readText rec ctx b!"StorageModify" st
  let (kind, st) ← readOldKind nmap rec ctx st
  let (fallback, st) ← readText rec ctx b!"HexBytes" st
  let (docs, st) ← readStrs rec ctx b!"Vec<String>" st
  .ok (⟨name, modifier, kind, fallback, docs⟩, st)

/-- `MetadataV7ModuleStorage.Process` and `MetadataV13ModuleStorage.Process` (types/metadata.go:543-553; types/v13.go:177-187). -/
def readOldStorage (nmap : Bool) (rec : Rec) (ctx : Ctx) : Dec (Str × List OldEntry) := fun st => do
  let (pfx, st) ← readText rec ctx b!"String" st
  let (items, st) ← readVec rec ctx (readOldEntry nmap rec ctx) st
  .ok ((pfx, items), st)

/-- `MetadataV7ModuleConstants`, that is `MetadataV6ModuleConstants.Process` (types/metadata.go:357-373, 533-535). -/
def readOldConst (rec : Rec) (ctx : Ctx) : Dec OldConst := fun st => do
  let (name, st) ← readText rec ctx b!"String" st
  let (type, st) ← readType9 rec ctx st
  let (value, st) ← readText rec ctx b!"HexBytes" st
  let (docs, st) ← readStrs rec ctx b!"Vec<String>" st
  .ok (⟨name, type, value, docs⟩, st)

/-- `MetadataModuleError.Process` (types/metadata.go:757-767). -/
def readOldError (rec : Rec) (ctx : Ctx) : Dec (Str × List Str) := fun st => do
  let (name, st) ← readText rec ctx b!"String" st
  let (docs, st) ← readStrs rec ctx b!"Vec<String>" st
  .ok ((name, docs), st)

/-- `MetadataV8Module.Process` (types/metadata.go:687-736), `MetadataV12Module.Process` (types/metadata.go:974-1024) and
`MetadataV13Module.Process` (types/v13.go:119-169).  Only the last two have an index; only the first keeps an empty list of calls
or events apart from nil. -/
def readOldModule (version : Nat) (rec : Rec) (ctx : Ctx) : Dec OldModule := fun st => do
  let (name, st) ← readText rec ctx b!"String" st
  let (storage, st) ← readIf rec ctx (readOldStorage (version == 13) rec ctx) st
  let (calls, st) ← readIf rec ctx (readVec rec ctx (readOldCall rec ctx)) st
  let (events, st) ← readIf rec ctx (readVec rec ctx (readOldEvent rec ctx)) st
  let (constants, st) ← readVec rec ctx (readOldConst rec ctx) st
  let (errors, st) ← readVec rec ctx (readOldError rec ctx) st
  let s := storage.getD ([], [])
  if version < 12 then .ok (⟨name, s.1, s.2, calls, events, constants, errors, 0⟩, st)
  else do
    let (index, st) ← readInt rec ctx b!"U8" st
    .ok (⟨name, s.1, s.2, calls.bind appended, events.bind appended, constants, errors, index⟩, st)

/-- What the tables are made from.  See types/metadata.go:777-956; types/v13.go:36-70. -/
def OldModule.mod (m : OldModule) : MetaModule where
  name := m.name
  index := m.index
  calls := m.calls.map fun l => l.map fun c => ⟨c.name, c.args, 0⟩
  events := m.events.map fun l => l.map fun e => { name := e.name, args := e.args }

/-- `ExtrinsicMetadata` of versions 12 and 13 (types/metadata.go:950-954; types/v13.go:72-79): only the identifiers are kept. -/
def readExtrinsic12 (rec : Rec) (ctx : Ctx) : Dec ExtrinsicMeta := fun st => do
  let (v, st) ← rec ctx b!"ExtrinsicMetadata" st
  match v with
  | .map m => do
    let ids ← jsonList jsonText (member m b!"signedExtensions")
    .ok (⟨ids, []⟩, st)
  | _ => .panic

/-- What comes of V9 to V13 metadata.  See types/metadata.go:87-97. -/
structure OldOut where
  modules : List OldModule
  callIndex : Index CallEntry
  eventIndex : Index EventEntry
  extrinsic : Option ExtrinsicMeta
  reg : RegState

/-- `MetadataV9Decoder.Process` to `MetadataV13Decoder.Process` (types/metadata.go:777-810, 820-854, 864-898, 919-956;
types/v13.go:41-81). -/
def processOld (version fuel : Nat) (reg : RegState) (ctx : Ctx) : Dec OldOut := fun st => do
  let rec' := pau reg.env fuel
  let (modules, st) ← readVec rec' ctx (readOldModule version rec' ctx) st
  let mods := modules.map OldModule.mod
  if version < 12 then
    .ok (⟨modules, callsV11 0 mods (fun _ => none), eventsV11 0 mods (fun _ => none), none, reg⟩, st)
  else do
    let (ext, st) ← readExtrinsic12 rec' ctx st
    let env := if version < 13 then reg.env else registerOriginCaller reg.env (modules.map fun m => (m.name, m.index))
    .ok (⟨modules, callsV12 mods (fun _ => none), eventsV12 mods (fun _ => none), some ext, { reg with env := env }⟩, st)

end ScaleGo
