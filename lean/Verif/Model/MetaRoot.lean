import Verif.Model.MetaOld

/-! # `metadata.go`: the decoder of metadata as a whole -/

namespace ScaleGo

/-- `MetadataStruct` by version.  See types/metadata.go:87-97. -/
inductive MetaBody where
  | old (out : OldOut)
  | v14 (out : V14Out)
  | v15 (out : V15Out)

/-- What `Process` leaves in the decoder: `Version`, `Metadata.MetadataVersion` and the rest of `Metadata`.  See
metadata.go:11-15, 31-33. -/
structure MetaRoot where
  version : Str
  number : Nat
  body : MetaBody

/-- The classes of `registry` that give metadata (types/registry.go:123-129): names are compared in lower case, see
`GetCodecClass`. -/
def metadataClass (name : Str) : Option Nat :=
  let n := toLower name
  if n = b!"metadatav9decoder" then some 9
  else if n = b!"metadatav10decoder" then some 10
  else if n = b!"metadatav11decoder" then some 11
  else if n = b!"metadatav12decoder" then some 12
  else if n = b!"metadatav13decoder" then some 13
  else if n = b!"metadatav14decoder" then some 14
  else if n = b!"metadatav15decoder" then some 15
  else none

/-- The method `Process` of the class for version `v`.  See types/registry.go:123-129. -/
def processBody (v fuel : Nat) (reg : RegState) (ctx : Ctx) : Dec MetaBody := fun st =>
  if v = 14 then do
    let (o, st) ← processV14 fuel reg ctx st
    .ok (.v14 o, st)
  else if v = 15 then do
    let (o, st) ← processV15 fuel reg ctx st
    .ok (.v15 o, st)
  else do
    let (o, st) ← processOld v fuel reg ctx st
    .ok (.old o, st)

/-- Whether the magic bytes are there (metadata.go:23-29, 41-47): at the start, or behind an `Option<Compact<u32>>`. -/
def readMagic (env : Env) (fuel : Nat) (ctx : Ctx) : Dec Bool := fun st => do
  let (b, st) ← nextBytes 4 st
  if b = b!"meta" then .ok (true, st)
  else do
    let (_, st) ← pau env fuel ctx b!"Option<Compact<u32>>" { st with cur := st.cur.reset }
    let (b, st) ← nextBytes 4 st
    .ok (b == b!"meta", st)

/-- The byte at the offset and the name of the version (metadata.go:30-31, 48-49).  Without a byte the slice expression panics: the
capacity of the slice is taken to be its length. -/
def readVersion (env : Env) (fuel : Nat) (ctx : Ctx) : Dec (Nat × Str) := fun st =>
  match st.cur.data[st.cur.off]? with
  | none => .panic
  | some n => do
    let (v, st) ← pau env fuel ctx b!"MetadataVersion" st
    match v with
    | .str name => .ok ((n.toNat, name), st)
    | _ => .panic

/-- `m.ProcessAndUpdateData(m.Version).(types.MetadataStruct)` (metadata.go:32).  The classes of metadata are not among the
classes of this model: a name found there belongs to another class, whose values are not metadata. -/
def readBody (fuel : Nat) (reg : RegState) (ctx : Ctx) (name : Str) : Dec MetaBody := fun st => do
  let r ← getCodecClass reg.env ctx.module ctx.spec name
  match r with
  | some _ => do
    let _ ← pau reg.env fuel ctx name st
    .panic
  | none =>
    match metadataClass name with
    | none => .panic
    | some v => processBody v fuel reg ctx st

/-- `MetadataDecoder.Process` (metadata.go:22-38); `none` is the error "not metadata". -/
def processMetadata (fuel : Nat) (reg : RegState) (ctx : Ctx) : Dec (Option MetaRoot) := fun st => do
  let (found, st) ← readMagic reg.env fuel ctx st
  if found then do
    let ((n, name), st) ← readVersion reg.env fuel ctx st
    let (body, st) ← readBody fuel reg ctx name st
    .ok (some ⟨name, n, body⟩, st)
  else .ok (none, st)

/-- `MetadataDecoder.Process` after `Init` (metadata.go:17-20). -/
def decodeMetadata (fuel : Nat) (reg : RegState) (ctx : Ctx) (data : Str) : Res (Option MetaRoot) := do
  let (r, _) ← processMetadata fuel reg ctx ⟨⟨data, 0⟩, []⟩
  .ok r

/-- The results of `PortableRegistry`: the entries, or one of the two errors.  See metadata.go:40-62. -/
inductive PortableOut where
  | types (l : List (Nat × SiType))
  | unsupported
  | notMetadata

/-- `MetadataDecoder.PortableRegistry` (metadata.go:40-62) after `Init`.  The entries of the map are given in the order of the
metadata, later ones replacing earlier ones with the same number (`portableType`); documentation is not kept in this model, so
that `RemoveDocs` has nothing to do. -/
def portableRegistry (fuel : Nat) (env : Env) (ctx : Ctx) (data : Str) : Res PortableOut := do
  let (found, st) ← readMagic env fuel ctx ⟨⟨data, 0⟩, []⟩
  if found then do
    let ((n, _), st) ← readVersion env fuel ctx st
    if n < 14 then .ok .unsupported
    else do
      let (raw, _) ← pau env fuel ctx b!"PortableRegistry" st
      let l ← initPortable raw
      .ok (.types l)
  else .ok .notMetadata

end ScaleGo
