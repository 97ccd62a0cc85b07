import Verif.Model.MetaOld

/-! # Decoding of V6 to V8 metadata

`types/metadata.go`.  The decoders of these versions can be used from Go, but are not in the registry (types/registry.go:114-129), so
that `MetadataDecoder` does not reach them.  Of the parts of V6 and V7 metadata the registry has only those that later versions use
as well: the names `MetadataV6Module`, `MetadataV6ModuleStorage`, `MetadataV6ModuleConstants` and `MetadataV7Module` are looked up as
any other name of a type. -/

namespace ScaleGo

/-- The list for which the code asks by a name that is not in the registry.  Elements can only come from a type that was registered
under this name; they are not metadata, so that the type assertions of types/metadata.go:317, 343 panic.  Simplification: structs
under these names would pass types/metadata.go:343 and the JSON conversion of types/metadata.go:260-262, 452-454. -/
def readForeign (rec : Rec) (ctx : Ctx) (ty : Str) : Dec Unit := fun st => do
  let (v, st) ← rec ctx ty st
  match v with
  | .nilSlice => .ok ((), st)
  | .slice l => if l = [] then .ok ((), st) else .panic
  | _ => .panic

/-- `MetadataV6ModuleStorage.Process` (types/metadata.go:389-431): every line of the documentation is appended to `m.Docs`, which
stays empty, so that the last one remains. -/
def readEntry6 (rec : Rec) (ctx : Ctx) : Dec OldEntry := fun st => do
  let (e, st) ← readOldEntry false rec ctx st
  .ok ({ e with docs := e.docs.getLast?.toList }, st)

/-- `MetadataV6Module.Process` (types/metadata.go:308-347). -/
def readModule6 (rec : Rec) (ctx : Ctx) : Dec OldModule := fun st => do
  let (name, st) ← readText rec ctx b!"String" st
  let (pfx, st) ← readText rec ctx b!"String" st
  let (_, st) ← readIf rec ctx (readForeign rec ctx b!"Vec<MetadataV6ModuleStorage>") st
  let (calls, st) ← readIf rec ctx (readVec rec ctx (readOldCall rec ctx)) st
  let (events, st) ← readIf rec ctx (readVec rec ctx (readOldEvent rec ctx)) st
  let (_, st) ← readForeign rec ctx b!"Vec<MetadataV6ModuleConstants>" st
  .ok (⟨name, pfx, [], calls.bind appended, events.bind appended, [], [], 0⟩, st)

/-- `MetadataV7Module.Process` (types/metadata.go:496-531). -/
def readModule7 (rec : Rec) (ctx : Ctx) : Dec OldModule := fun st => do
  let (name, st) ← readText rec ctx b!"String" st
  let (storage, st) ← readIf rec ctx (readOldStorage false rec ctx) st
  let (calls, st) ← readIf rec ctx (readVec rec ctx (readOldCall rec ctx)) st
  let (events, st) ← readIf rec ctx (readVec rec ctx (readOldEvent rec ctx)) st
  let (constants, st) ← readVec rec ctx (readOldConst rec ctx) st
  let s := storage.getD ([], [])
  .ok (⟨name, s.1, s.2, calls.bind appended, events.bind appended, constants, [], 0⟩, st)

/-- `MetadataV6Decoder.Process`, `MetadataV7Decoder.Process` and `MetadataV8Decoder.Process` (types/metadata.go:248-288, 441-480,
627-666).  The last one is that of version 9. -/
def processEarly (version fuel : Nat) (reg : RegState) (ctx : Ctx) : Dec OldOut := fun st =>
  if version = 8 then processOld 8 fuel reg ctx st
  else do
    let (_, st) ← readForeign (pau reg.env fuel) ctx (if version = 6 then b!"Vec<MetadataV6Module>" else b!"Vec<MetadataV7Module>") st
    .ok (⟨[], fun _ => none, fun _ => none, none, reg⟩, st)

end ScaleGo
