import Verif.Model.Register
import Verif.Model.Extrinsic

/-! # Metadata: call and event tables, origin caller, comparison

`types/metadata.go`, `types/v13.go`, `types/v14.go`, `types/v15.go`, `types/compare.go`.  The modules are taken as they are after
decoding and the JSON round trip of the metadata decoders (for example types/v13.go:47-51). -/

namespace ScaleGo

/-- The lookup text of a call or event (types/v13.go:60, 66; types/v14.go:75, 99; types/metadata.go:882, 889). -/
def indexKey (m c : Nat) : Str := rightJustify0 (intToHex m) 2 ++ rightJustify0 (intToHex c) 2

/-- What is used of `MetadataCalls` (types/metadata.go:69-75): name, (name, type) of the arguments, `LookupIndex`. -/
structure MetaCall where
  name : Str
  args : List (Str × Str)
  lookupIndex : Nat := 0
  deriving DecidableEq

/-- What is used of `MetadataEvents` (types/metadata.go:77-85). -/
structure MetaEvent where
  name : Str
  args : List Str
  argsName : List Str := []
  argsTypeName : List Str := []
  lookupIndex : Nat := 0
  deriving DecidableEq

/-- What is used of `MetadataModules` (types/metadata.go:12-24); `none` is a nil slice. -/
structure MetaModule where
  name : Str
  index : Nat := 0
  calls : Option (List MetaCall)
  events : Option (List MetaEvent)
  deriving DecidableEq

/-- A Go map from lookup texts.  See types/metadata.go:90-91. -/
abbrev Index (α : Type) := Str → Option α

/-- `m[key] = v`.  See types/v14.go:75, 99. -/
def Index.put {α : Type} (m : Index α) (key : Str) (v : α) : Index α := fun k => if k = key then some v else m k

/-- `CallIndex{Module: ..., Call: call}` (types/v13.go:61): the parts the decoder uses. -/
def callEntry (mod : MetaModule) (c : MetaCall) : CallEntry := ⟨c.name, mod.name, c.args⟩

/-- `EventIndex{Module: ..., Call: event}` (types/v13.go:67): the parts the decoder uses. -/
def eventEntry (mod : MetaModule) (e : MetaEvent) : EventEntry := ⟨e.name, mod.name, e.args, e.argsName, e.argsTypeName⟩

/-- The loop over one list of calls or events, numbered by position (types/v13.go:59-62, 65-68; types/metadata.go:881-884,
888-891): `mi` is the module number, `i` the current position. -/
def putByPosition {α β : Type} (entry : α → β) (mi : Nat) : Nat → List α → Index β → Index β
  | _, [], m => m
  | i, x :: xs, m => putByPosition entry mi (i + 1) xs (m.put (indexKey mi i) (entry x))

/-- The loop over one list of calls or events, numbered by their own index (types/v14.go:74-77, 98-101;
types/v15.go:70-73, 94-97). -/
def putByIndex {α β : Type} (entry : α → β) (idx : α → Nat) (mi : Nat) : List α → Index β → Index β
  | [], m => m
  | x :: xs, m => putByIndex entry idx mi xs (m.put (indexKey mi (idx x)) (entry x))

/-- Call table of `MetadataV12Decoder` and `MetadataV13Decoder` (types/metadata.go:934-940, types/v13.go:56-63). -/
def callsV12 : List MetaModule → Index CallEntry → Index CallEntry
  | [], m => m
  | mod :: rest, m => callsV12 rest (putByPosition (callEntry mod) mod.index 0 (mod.calls.getD []) m)

/-- Event table of `MetadataV12Decoder` and `MetadataV13Decoder` (types/metadata.go:941-946, types/v13.go:64-69). -/
def eventsV12 : List MetaModule → Index EventEntry → Index EventEntry
  | [], m => m
  | mod :: rest, m => eventsV12 rest (putByPosition (eventEntry mod) mod.index 0 (mod.events.getD []) m)

/-- Call table of `MetadataV14Decoder` and `MetadataV15Decoder` (types/v14.go:74-77, types/v15.go:70-73). -/
def callsV14 : List MetaModule → Index CallEntry → Index CallEntry
  | [], m => m
  | mod :: rest, m => callsV14 rest (putByIndex (callEntry mod) MetaCall.lookupIndex mod.index (mod.calls.getD []) m)

/-- Event table of `MetadataV14Decoder` and `MetadataV15Decoder` (types/v14.go:97-102, types/v15.go:93-98). -/
def eventsV14 : List MetaModule → Index EventEntry → Index EventEntry
  | [], m => m
  | mod :: rest, m => eventsV14 rest (putByIndex (eventEntry mod) MetaEvent.lookupIndex mod.index (mod.events.getD []) m)

/-- Call table of `MetadataV9Decoder` to `MetadataV11Decoder` (types/metadata.go:791-806, 834-850, 879-894): `n` is
`callModuleIndex`, which counts the modules with a non-nil call list. -/
def callsV11 : Nat → List MetaModule → Index CallEntry → Index CallEntry
  | _, [], m => m
  | n, mod :: rest, m =>
    match mod.calls with
    | none => callsV11 n rest m
    | some l => callsV11 (n + 1) rest (putByPosition (callEntry mod) n 0 l m)

/-- Event table of `MetadataV9Decoder` to `MetadataV11Decoder`; `n` is `eventModuleIndex`.  See types/metadata.go:794-801,
837-845, 882-889. -/
def eventsV11 : Nat → List MetaModule → Index EventEntry → Index EventEntry
  | _, [], m => m
  | n, mod :: rest, m =>
    match mod.events with
    | none => eventsV11 n rest m
    | some l => eventsV11 (n + 1) rest (putByPosition (eventEntry mod) n 0 l m)

/-! ## Origin caller -/

/-- Insertion into a list sorted by `key`.  For the sorting in types/v13.go:85, types/scaleInfo.go:380. -/
def insertBy {α : Type} (key : α → Nat) (x : α) : List α → List α
  | [] => [x]
  | y :: ys => if key x < key y then x :: y :: ys else y :: insertBy key x ys

/-- `sort.Slice` by an integer key (types/v13.go:85, types/scaleInfo.go:380-382).  The order of elements with equal keys is
unspecified in Go; here they keep their order. -/
def sortBy {α : Type} (key : α → Nat) : List α → List α
  | [] => []
  | x :: xs => insertBy key x (sortBy key xs)

/-- `KnownOrigins` (types/v13.go:24-34). -/
def knownOrigins : List (Str × Str) :=
  [(b!"Council", b!"CollectiveOrigin"), (b!"System", b!"SystemOrigin"), (b!"TechnicalCommittee", b!"CollectiveOrigin"),
   (b!"Xcm", b!"XcmOrigin"), (b!"XcmPallet", b!"XcmOrigin"), (b!"Authority", b!"AuthorityOrigin"),
   (b!"GeneralCouncil", b!"CollectiveOrigin")]

/-- The inner loop (types/v13.go:89-92): placeholders `EMPTYi` for `i` from the current length up to the index. -/
def fillEmpty (upto : Nat) : Nat → Nat → List (Str × Str)
  | 0, _ => []
  | fuel + 1, i => if i < upto then (b!"EMPTY" ++ natToDec i, b!"NULL") :: fillEmpty upto fuel (i + 1) else []

/-- The outer loop (types/v13.go:88-99) over (name, index) pairs. -/
def originRows : List (Str × Nat) → List (Str × Str) → List (Str × Str)
  | [], acc => acc
  | (name, idx) :: rest, acc =>
    let acc := acc ++ fillEmpty idx (idx - acc.length) acc.length
    originRows rest (acc ++ [(name, (tableGet knownOrigins name).getD b!"NULL")])

/-- `registerOriginCaller` (types/v13.go:84-101). -/
def registerOriginCaller (env : Env) (l : List (Str × Nat)) : Env :=
  regCustomKey env b!"origincaller" (.enum [] (some (originRows (sortBy (·.2) l) [])))

/-! ## Comparison -/

/-- `CompareChanges` (types/compare.go:26-29). -/
structure CompareChange where
  prev : Str
  current : Str
  deriving DecidableEq

/-- `ChangesList` (types/compare.go:21-24). -/
structure ChangesList where
  new : List Str
  changes : List CompareChange
  deriving DecidableEq

/-- `ModuleChanges` (types/compare.go:16-19); `none` is the nil pointer. -/
structure ModuleChange where
  calls : Option ChangesList
  events : Option ChangesList
  deriving DecidableEq

/-- `MetadataCompareResult` (types/compare.go:11-14); the map is an association list in order of insertion. -/
structure CompareResult where
  newModules : List Str
  moduleChanges : List (Str × ModuleChange)
  deriving DecidableEq

/-- `m[k] = v` on an association list.  See types/compare.go. -/
def assocSet {α : Type} (m : List (Str × α)) (k : Str) (v : α) : List (Str × α) :=
  match m with
  | [] => [(k, v)]
  | (k', v') :: rest => if k' = k then (k, v) :: rest else (k', v') :: assocSet rest k v

/-- A call or event as compared: its name and the types of its arguments.  See types/compare.go:58-72. -/
abbrev Sig := Str × List Str

/-- Calls as compared (types/compare.go:59-65). -/
def callSig (c : MetaCall) : Sig := (c.name, c.args.map (·.2))

/-- Events as compared (types/compare.go:67-69). -/
def eventSig (e : MetaEvent) : Sig := (e.name, e.args)

/-- `buildCallArgs`, `buildEventArgs` (types/compare.go:59-69). -/
def sigText (s : Sig) : Str := s.1 ++ b!"(" ++ joinSep b!"," s.2 ++ b!")"

/-- `getCallByName`, `getEventByName` (types/compare.go:41-57): the first one. -/
def findSig (name : Str) : List Sig → Option Sig
  | [] => none
  | s :: rest => if s.1 = name then some s else findSig name rest

/-- The loop over the arguments (types/compare.go:98-108, 130-139): one change per pair of unequal types. Both lists have the
same length when it is called. -/
def compareArgs (env : Env) (fuel : Nat) (ch : CompareChange) : List Str → List Str → Res (List CompareChange)
  | a :: as, b :: bs => do
    let same ← eqTypes env fuel a b
    let rest ← compareArgs env fuel ch as bs
    .ok (if same then rest else ch :: rest)
  | _, _ => .ok []

/-- The loops over calls (types/compare.go:83-109) and events (115-140). -/
def compareSigs (env : Env) (fuel : Nat) (dest : List Sig) : List Sig → Res ChangesList
  | [] => .ok ⟨[], []⟩
  | s :: rest =>
    match findSig s.1 dest with
    | none => do
      let r ← compareSigs env fuel dest rest
      .ok { r with new := sigText s :: r.new }
    | some d =>
      if s.2.length ≠ d.2.length then do
        let r ← compareSigs env fuel dest rest
        .ok { r with changes := ⟨sigText d, sigText s⟩ :: r.changes }
      else do
        let c ← compareArgs env fuel ⟨sigText d, sigText s⟩ s.2 d.2
        let r ← compareSigs env fuel dest rest
        .ok { r with changes := c ++ r.changes }

/-- A nil pointer unless something was found (types/compare.go:110-112, 141-143). -/
def orNil (c : ChangesList) : Option ChangesList := if c.new = [] ∧ c.changes = [] then none else some c

/-- `getModuleByName` (types/compare.go:32-39): the first one. -/
def findModule (name : Str) : List MetaModule → Option MetaModule
  | [] => none
  | m :: rest => if m.name = name then some m else findModule name rest

/-- Calls and events of a module that is present on both sides (types/compare.go:81-143). -/
def compareModule (env : Env) (fuel : Nat) (m d : MetaModule) : Res ModuleChange := do
  let c ← compareSigs env fuel ((d.calls.getD []).map callSig) ((m.calls.getD []).map callSig)
  let e ← compareSigs env fuel ((d.events.getD []).map eventSig) ((m.events.getD []).map eventSig)
  .ok ⟨orNil c, orNil e⟩

/-- The loop of `Compare` (types/compare.go:73-148). -/
def compareLoop (env : Env) (fuel : Nat) (dest : List MetaModule) : List MetaModule → CompareResult → Res CompareResult
  | [], r => .ok r
  | m :: rest, r =>
    match findModule m.name dest with
    | none => compareLoop env fuel dest rest { r with newModules := r.newModules ++ [m.name] }
    | some d => do
      let c ← compareModule env fuel m d
      compareLoop env fuel dest rest
        (if c.calls.isSome || c.events.isSome then { r with moduleChanges := assocSet r.moduleChanges m.name c } else r)

/-- `MetadataTag.Compare` (types/compare.go:31-150); `fuel` bounds the call depth of the structural type text. -/
def compareMetadata (env : Env) (fuel : Nat) (m dest : List MetaModule) : Res CompareResult :=
  compareLoop env fuel dest m ⟨[], []⟩

end ScaleGo
