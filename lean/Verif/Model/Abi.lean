import Verif.Model.ScaleInfo

/-! # Contract ABIs

`contract/ABI.go`: the types of an ink! contract are registered like the types of metadata, with a prefix before their names.

Left out: reading the JSON (`InitAbi`), the parts of the ABI that are not types (`Spec`), documentation.  Ids are natural
numbers (a negative id would be counted but never looked at). -/

namespace ScaleGo

/-- `contract.SiTypeDef` (contract/ABI.go:67-77): one pointer per kind, any number of them set.  Of bit sequences and ranges only
their presence is kept. -/
structure AbiDef where
  composite : Option (List SiField) := none
  variant : Option (List SiVariant) := none
  sequence : Option Nat := none
  array : Option (Nat × Nat) := none
  tuple : Option (List Nat) := none
  primitive : Option Str := none
  compact : Option Nat := none
  bitSequence : Bool := false
  range : Bool := false

/-- `contract.AbiType` with `contract.AbiSiType` (contract/ABI.go:55-65). -/
structure AbiType where
  id : Nat
  path : List Str := []
  params : List (Str × Nat) := []
  typ : AbiDef := {}

/-- The switch in `ToScalePortableType` (contract/ABI.go:93-112). -/
def AbiDef.toScale (d : AbiDef) : SiDef :=
  match d.array with
  | some (len, type) => .array len type
  | none => match d.composite with
    | some fields => .composite fields
    | none => match d.variant with
      | some variants => .variant variants
      | none => match d.sequence with
        | some type => .sequence type
        | none => match d.tuple with
          | some types => .tuple types
          | none => match d.primitive with
            | some name => .primitive name
            | none => match d.compact with
              | some type => .compact type
              | none => if d.bitSequence then .bitSequence else if d.range then .range else .none

/-- `ToScalePortableType().Type` (contract/ABI.go:88-121). -/
def AbiType.toScale (a : AbiType) : SiType := ⟨a.path, a.params, a.typ.toScale⟩

/-- The map `id2Portable` built by `Register` (contract/ABI.go:124-127); a later type replaces an earlier one of the same id, a
missing id gives the zero value. -/
def abiTypes : List AbiType → Nat → SiType
  | [], _ => {}
  | a :: rest, i => if rest.any (·.id == i) then abiTypes rest i else if a.id = i then a.toScale else {}

/-- `len(id2Portable)`.  See contract/ABI.go:124-127; its use as a bound is types/scaleInfo.go:147. -/
def abiCount : List AbiType → Nat
  | [] => 0
  | a :: rest => if rest.any (·.id == a.id) then abiCount rest else abiCount rest + 1

/-- The fields of `ScaleDecoder` that `ProcessSiType` uses (types/base.go:60, 62, 64): `Spec`, `DuplicateName` (`none` is nil),
`RegisteredSiType`. -/
structure SiDecoder where
  spec : Int := 0
  dup : Option (Str → Nat) := none
  ids : Nat → Option Str := fun _ => none

/-- `ScaleDecoder.Init` as far as `DuplicateName` is concerned (types/base.go:88-90).  A map that is not nil has an entry for
some name or is empty already. -/
def SiDecoder.init (dec : SiDecoder) : SiDecoder := { dec with dup := some (dec.dup.getD fun _ => 0) }

/-- The first loop of `ProcessSiType` (types/scaleInfo.go:147-151) on a nil map, to which nothing can be assigned. -/
def countNamesNil (cfg : SiCfg) : Nat → Nat → Res Unit
  | _, 0 => .ok ()
  | i, n + 1 => do
    let name ← nameSiType cfg (cfg.types i) none
    if name = [] then countNamesNil cfg (i + 1) n else .panic

/-- The first loop of `ProcessSiType` on any map.  Reading a nil map gives 0.  See types/scaleInfo.go:147-151. -/
def countNamesOn (cfg : SiCfg) : Option (Str → Nat) → Res (Str → Nat)
  | some d => countNames cfg 0 cfg.count d
  | none => (countNamesNil cfg 0 cfg.count).bind fun _ => .ok fun _ => 0

/-- `ProcessSiType` (types/scaleInfo.go:145-179) on a decoder in any state; `processSiType` is the case of an empty
`DuplicateName`.  Afterwards `DuplicateName` is nil. -/
def processOn (cfg : SiCfg) (fuel : Nat) (dec : SiDecoder) (reg : RegState) : Res (SiDecoder × RegState) := do
  let dup ← countNamesOn cfg dec.dup
  let st ← registerTypes { cfg with dup := dup } fuel ⟨reg, fun _ => none⟩
  .ok ({ dec with dup := none, ids := st.ids }, st.reg)

/-- The configuration of `ScaleInfo` in `Register` (contract/ABI.go:128-131): no V14 mark, the decoder's version. -/
def abiCfg (types : List AbiType) (pathPrefix : Str) (spec : Int) (eqFuel : Nat) : SiCfg :=
  { types := abiTypes types, count := abiCount types, pathPrefix := pathPrefix, v14 := false, spec := spec, eqFuel := eqFuel }

/-- `MetadataAbi.Register` (contract/ABI.go:123-134).  The ABI's `RegisteredSiType` is the decoder's. -/
def abiRegister (types : List AbiType) (pathPrefix : Str) (eqFuel fuel : Nat) (dec : SiDecoder) (reg : RegState) : Res (SiDecoder × RegState) :=
  processOn (abiCfg types pathPrefix dec.spec eqFuel) fuel dec reg

/-- `GetTypeNames` (contract/ABI.go:136-138). -/
def abiTypeName (dec : SiDecoder) (id : Nat) : Str := (dec.ids id).getD []

end ScaleGo
