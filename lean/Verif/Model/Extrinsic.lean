import Verif.Model.Encode

/-! # `extrinsic.go` and `event.go`

The extrinsic hash is in `Model/ExtrinsicHash.lean`.  `ToMap` is left out, so are the type names of parameters, which are only copied
from the metadata. -/

namespace ScaleGo

/-- `utiles.DecimalFromInterface` (utiles/tools.go:194-213): coefficient and exponent. -/
def decFromVal (ext : Ext) : Val → Res (Int × Int)
  | .int i => .ok (i, 0)
  | .sint 8 i => .ok (i, 0)
  | .uint 8 n => .ok (wrap64 n, 0)
  | .float 8 b => match ext.decOfFloat b with
    | some d => .ok d
    | none => .panic
  | .str s => .ok ((decParse s).getD (0, 0))
  | .dec c e => .ok (c, e)
  | .big i => .ok (i, 0)
  | _ => .ok (0, 0)

/-- `signedExts` (extrinsic.go:41-52): the identifiers with value `true`. -/
def enabledExts : List Str := [b!"ChargeTransactionPayment", b!"ChargeAssetTxPayment", b!"CheckMetadataHash"]

/-- The options of the extrinsic decoder (types/base.go:17-27): module, spec version, `SignedExtensions` (name and additional
(name, type) pairs) and `AdditionalCheck`. -/
structure ExtOpt where
  module : Str
  spec : Int
  signedExtensions : List (Str × List (Str × Str))
  additionalCheck : List Str

/-- What the signed part of an extrinsic gives (extrinsic.go:83-102). -/
structure Signed where
  signer : Val
  signatureRaw : Val
  signature : Str
  extVersion : Int
  era : Str
  nonce : Int
  tip : Int × Int
  extensions : List (Str × Val)

/-- `GenericExtrinsic` (extrinsic.go:83-102) as filled by the decoder; `signed` is absent for bare extrinsics. `AddressType` and
`AccountId` are functions of the signer (`addressOf`). -/
structure Extrinsic where
  length : Int
  version : Str
  signed : Option Signed
  callCode : Str
  callModule : Str
  callFunction : Str
  params : List (Str × Str × Val)
  paramsRaw : Str

/-- `AddressType` and `Address` from the signer (extrinsic.go:123-132): of a map the entry iterated last, here the last one. -/
def addressOf : Val → Str × Val
  | .str s => (b!"AccountId", .str s)
  | .map m => match m.getLast? with
    | some (n, v) => (n, v)
    | none => ([], .nil)
  | _ => ([], .nil)

/-- `Signature` from `SignatureRaw` (extrinsic.go:135-142): a map value that is not a string panics. -/
def signatureOf : Val → Res Str
  | .str s => .ok s
  | .map m => sigLoop [] m
  | _ => .ok []
where
  sigLoop (acc : Str) : List (Str × Val) → Res Str
    | [] => .ok acc
    | (_, .str s) :: rest => sigLoop s rest
    | _ :: _ => .panic

/-- Type assertion `.(string)`.  See extrinsic.go:140-143, 200-203. -/
def goStr : Val → Res Str
  | .str s => .ok s
  | _ => .panic

/-- `int(v.(uint64))` (extrinsic.go:144). -/
def goNonce : Val → Res Int
  | .uint 8 n => .ok (wrap64 n)
  | _ => .panic

/-- Type of the signer (extrinsic.go:122, 181). -/
def signerType (env : Env) (md : MD) : Str :=
  if md.version ≥ 14 ∧ (env.reg (toLower b!"ExtrinsicSigner")).isSome then b!"ExtrinsicSigner" else b!"Address"

/-- `Compact<Balance>` as a tip (extrinsic.go:147). -/
def readTip (ext : Ext) (rec : Rec) (ctx : Ctx) : Dec (Int × Int) := fun st => do
  let (v, st) ← rec ctx b!"Compact<Balance>" st
  let d ← decFromVal ext v
  .ok (d, st)

/-- Additional values of one configured extension (extrinsic.go:157-159). -/
def readAdditional (rec : Rec) (ctx : Ctx) : List (Str × Str) → List (Str × Val) → Dec (List (Str × Val)) := procFields rec ctx

/-- Loop over the configured extensions (extrinsic.go:155-161). -/
def readConfigured (rec : Rec) (ctx : Ctx) (ids : List Str) : List (Str × List (Str × Str)) → List (Str × Val) →
    Dec (List (Str × Val))
  | [], acc, st => .ok (acc, st)
  | (n, fs) :: rest, acc, st =>
    if (sliceIndex n ids).isSome then do
      let (acc, st) ← readAdditional rec ctx fs acc st
      readConfigured rec ctx ids rest acc st
    else readConfigured rec ctx ids rest acc st

/-- Loop over the extensions of the metadata (extrinsic.go:164-172, 207-215): tip and map. -/
def readMetaExts (ext : Ext) (rec : Rec) (ctx : Ctx) (check : List Str) : List (Str × Str) → (Int × Int) → List (Str × Val) →
    Dec ((Int × Int) × List (Str × Val))
  | [], tip, acc, st => .ok ((tip, acc), st)
  | (n, t) :: rest, tip, acc, st =>
    if n ∈ enabledExts ∨ (sliceIndex n check).isSome then
      if n = b!"ChargeTransactionPayment" then do
        let (tip, st) ← readTip ext rec ctx st
        readMetaExts ext rec ctx check rest tip acc st
      else do
        let (v, st) ← rec ctx t st
        readMetaExts ext rec ctx check rest tip (mapSet acc n v) st
    else readMetaExts ext rec ctx check rest tip acc st

/-- Tip of a version-4 extrinsic outside the extension list (extrinsic.go:145-151). -/
def readTip4 (ext : Ext) (rec : Rec) (ctx : Ctx) (md : MD) : Dec (Int × Int) := fun st =>
  match md.extrinsic with
  | some x => if md.version < 14 ∧ (sliceIndex b!"ChargeTransactionPayment" x.signedIdentifier).isSome then readTip ext rec ctx st
    else .ok ((0, 0), st)
  | none => readTip ext rec ctx st

/-- Extensions of a version-4 extrinsic (extrinsic.go:153-174); nil extrinsic metadata panics. -/
def readExts4 (ext : Ext) (rec : Rec) (ctx : Ctx) (md : MD) (opt : ExtOpt) (tip : Int × Int) : Dec ((Int × Int) × List (Str × Val)) :=
  fun st =>
  if opt.signedExtensions ≠ [] then
    match md.extrinsic with
    | none => .panic
    | some x => do
      let (acc, st) ← readConfigured rec ctx x.signedIdentifier opt.signedExtensions [] st
      .ok ((tip, acc), st)
  else if md.version ≥ 14 then
    match md.extrinsic with
    | none => .panic
    | some x => readMetaExts ext rec ctx opt.additionalCheck x.signedExtensions tip [] st
  else .ok ((tip, []), st)

/-- Signed part of version 4 (extrinsic.go:121-174). -/
def readSigned4 (env : Env) (rec : Rec) (ctx : Ctx) (md : MD) (opt : ExtOpt) : Dec Signed := fun st => do
  let (signer, st) ← rec ctx (signerType env md) st
  let (sigRaw, st) ← rec ctx b!"ExtrinsicSignature" st
  let sig ← signatureOf sigRaw
  let (era, st) ← rec ctx b!"EraExtrinsic" st
  let era ← goStr era
  let (nonce, st) ← rec ctx b!"Compact<U64>" st
  let nonce ← goNonce nonce
  let (tip, st) ← readTip4 env.ext rec ctx md st
  let ((tip, exts), st) ← readExts4 env.ext rec ctx md opt tip st
  .ok (⟨signer, sigRaw, sig, 0, era, nonce, tip, exts⟩, st)

/-- Extensions of a version-5 extrinsic (extrinsic.go:207-215). -/
def readExts5 (ext : Ext) (rec : Rec) (ctx : Ctx) (md : MD) (opt : ExtOpt) : Dec ((Int × Int) × List (Str × Val)) := fun st =>
  match md.extrinsic with
  | none => .panic
  | some x => readMetaExts ext rec ctx opt.additionalCheck x.signedExtensions (0, 0) [] st

/-- Signed part of version 5 (extrinsic.go:180-215). -/
def readSigned5 (env : Env) (rec : Rec) (ctx : Ctx) (md : MD) (opt : ExtOpt) : Dec Signed := fun st => do
  let (signer, st) ← rec ctx (signerType env md) st
  let (sigRaw, st) ← rec ctx b!"ExtrinsicSignature" st
  let (ev, st) ← rec ctx b!"U8" st
  let ev ← asInt ev
  let sig ← signatureOf sigRaw
  let (era, st) ← rec ctx b!"EraExtrinsic" st
  let era ← goStr era
  let (nonce, st) ← rec ctx b!"Compact<U64>" st
  let nonce ← goNonce nonce
  let ((tip, exts), st) ← readExts5 env.ext rec ctx md opt st
  .ok (⟨signer, sigRaw, sig, ev, era, nonce, tip, exts⟩, st)

/-- Length prefix (extrinsic.go:105-109): kept when it equals the number of remaining bytes, otherwise reading restarts at 0. -/
def readLength (rec : Rec) (ctx : Ctx) : Dec Int := fun st => do
  let (v, st) ← rec ctx b!"Compact<u32>" st
  let n ← asInt v
  if n ≠ remaining st.cur then .ok (0, { st with cur := st.cur.reset }) else .ok (n, st)

/-- Call index, arguments and raw arguments (extrinsic.go:177, 218, 222-235): an empty or unknown index panics. -/
def readCall (rec : Rec) (ctx : Ctx) (md : MD) : Dec (Str × CallEntry × List (Str × Str × Val) × Str) := fun st => do
  let (b, st) ← nextBytes 2 st
  let idx := bytesToHex b
  if idx = [] then .panic
  else match md.callIndex idx with
    | none => .panic
    | some e => do
      let start := st.cur.off
      let (ps, st) ← procArgs rec { ctx with module := e.moduleName } e.args st
      .ok ((idx, e, ps, bytesToHex ((st.cur.data.drop start).take (st.cur.off - start))), st)

/-- The part selected by the version byte (extrinsic.go:111-221): 04, 84, 05, 85; nothing left or another version panics. -/
def readSigned (env : Env) (rec : Rec) (ctx : Ctx) (md : MD) (opt : ExtOpt) (version : Str) : Dec (Option Signed) := fun st =>
  if version = b!"04" ∨ version = b!"05" then .ok (none, st)
  else if version = b!"84" then do
    let (s, st) ← readSigned4 env rec ctx md opt st
    .ok (some s, st)
  else if version = b!"85" then do
    let (s, st) ← readSigned5 env rec ctx md opt st
    .ok (some s, st)
  else .panic

/-- `ExtrinsicDecoder.Process` (extrinsic.go:104-250). -/
def processExtrinsic (env : Env) (rec : Rec) (md : MD) (opt : ExtOpt) : Dec Extrinsic := fun st => do
  let ctx : Ctx := ⟨opt.module, opt.spec, some md⟩
  let (len, st) ← readLength rec ctx st
  let (b, st) ← nextBytes 1 st
  let (s, st) ← readSigned env rec ctx md opt (bytesToHex b) st
  let ((idx, e, ps, raw), st) ← readCall rec ctx md st
  .ok (⟨len, bytesToHex b, s, idx, e.moduleName, e.callName, ps, raw⟩, st)

/-- Decoding an extrinsic from bytes: `Init` and `Process`.  See extrinsic.go:54-63, 104-250. -/
def decodeExtrinsic (env : Env) (fuel : Nat) (md : MD) (opt : ExtOpt) (data : Str) : Res (Extrinsic × St) :=
  processExtrinsic env (pau env fuel) md opt ⟨⟨data, 0⟩, []⟩

/-! ## Encoding -/

/-- An error return of Go next to panics.  See extrinsic.go, event.go: functions with an `error` result. -/
inductive EncErr
  | metadata
  | unknownCall
  | paramCount
  deriving DecidableEq, Repr

/-- What `GenericExtrinsic.Encode` reads of the receiver (extrinsic.go:276-314). The extension map is given in iteration order. -/
structure ExtrinsicIn where
  version : Str
  signer : Val
  signatureRaw : Val
  era : Str
  nonce : Int
  tip : Int × Int
  extensions : List (Str × Val)
  callCode : Str
  params : List Val

/-- Inner loop (extrinsic.go:290-294): all metadata extensions with this identifier. -/
def encExt (rec : ERec) (id : Str) (v : Val) : List (Str × Str) → Res Str
  | [] => .ok []
  | (n, t) :: rest =>
    if n = id then do
      let a ← rec ECtx.none t v
      let b ← encExt rec id v rest
      .ok (a ++ b)
    else encExt rec id v rest

/-- Outer loop (extrinsic.go:289-295), in map iteration order. -/
def encExts (rec : ERec) (meta_ : List (Str × Str)) : List (Str × Val) → Res Str
  | [] => .ok []
  | (id, v) :: rest => do
    let a ← encExt rec id v meta_
    let b ← encExts rec meta_ rest
    .ok (a ++ b)

/-- Type of the signer when encoding (extrinsic.go:282). -/
def encSignerType (env : Env) (md : MD) : Str :=
  if md.version ≥ 14 ∧ (env.reg (toLower b!"ExtrinsicSigner")).isSome then b!"ExtrinsicSigner" else b!"AccountId"

/-- Tip (extrinsic.go:286-288), written when the metadata lists the payment extension. -/
def encTip (rec : ERec) (x : ExtrinsicMeta) (tip : Int × Int) : Res Str :=
  if (sliceIndex b!"ChargeTransactionPayment" x.signedIdentifier).isSome
  then rec ECtx.none b!"Compact<Balance>" (.dec tip.1 tip.2) else .ok []

/-- Signed part (extrinsic.go:281-296); nil extrinsic metadata panics. -/
def encSigned (env : Env) (rec : ERec) (md : MD) (g : ExtrinsicIn) : Res Str := do
  let a ← rec ECtx.none (encSignerType env md) g.signer
  let b ← rec ECtx.none b!"ExtrinsicSignature" g.signatureRaw
  let c ← rec ECtx.none b!"EraExtrinsic" (.str g.era)
  let d ← rec ECtx.none b!"Compact<U64>" (.int g.nonce)
  match md.extrinsic with
  | none => .panic
  | some x => do
    let e ← encTip rec x g.tip
    let f ← encExts rec x.signedExtensions g.extensions
    .ok (a ++ b ++ c ++ d ++ e ++ f)

/-- Arguments (extrinsic.go:309-311). -/
def encParams (rec : ERec) (ctx : ECtx) : List (Str × Str) → List Val → Res Str
  | (_, t) :: ts, v :: vs => do
    let a ← rec ctx t v
    let b ← encParams rec ctx ts vs
    .ok (trimHex a ++ b)
  | _, _ => .ok []

/-- What precedes the call (extrinsic.go:280-296): only version 84 has a signed part. -/
def encSignedPart (env : Env) (rec : ERec) (md : MD) (g : ExtrinsicIn) : Res Str :=
  if g.version = b!"84" then encSigned env rec md g else .ok []

/-- `GenericExtrinsic.Encode` (extrinsic.go:276-314) with the given spec version and metadata: hex text or an error. -/
def encodeExtrinsic (env : Env) (fuel : Nat) (spec : Int) (md : Option MD) (g : ExtrinsicIn) : Res (Except EncErr Str) :=
  match md with
  | none => .ok (.error .metadata)
  | some m => do
    let s ← encSignedPart env (enc env fuel) m g
    match m.callIndex g.callCode with
    | none => .ok (.error .unknownCall)
    | some e =>
      if g.params.length ≠ e.args.length then .ok (.error .paramCount)
      else do
        let p ← encParams (enc env fuel) ⟨spec, md⟩ e.args g.params
        let data := g.version ++ s ++ g.callCode ++ p
        let l ← enc env fuel ECtx.none b!"Compact<u32>" (.int (hexToBytes data).length)
        .ok (.ok (l ++ data))

/-! ## Events -/

/-- One decoded event (event.go:107-116) with its number (event.go:42); parameters are type, name and value. -/
structure Event where
  idx : Nat
  phase : Nat
  extrinsicIdx : Int
  type : Str
  moduleId : Str
  eventId : Str
  params : List (Str × Str × Val)
  topics : List Str
  paramsRaw : Str

/-- The arguments of an event (event.go:85-95); names only when there are as many as arguments. -/
def readEventArgs (rec : Rec) (ctx : Ctx) : List Str → List Str → Dec (List (Str × Str × Val))
  | [], _, st => .ok ([], st)
  | t :: ts, ns, st => do
    let (v, st) ← rec ctx t st
    let (ps, st) ← readEventArgs rec ctx ts ns.tail st
    .ok ((t, ns.headD [], v) :: ps, st)

/-- `v.(string)` for every topic (event.go:101-103). -/
def topicStrs : List Val → Res (List Str)
  | [] => .ok []
  | .str s :: vs => do
    let r ← topicStrs vs
    .ok (s :: r)
  | _ :: _ => .panic

/-- Topics of a decoded `Vec<Hash>` (event.go:99-104): nil gives none, another type than a slice panics. -/
def topicsOf : Val → Res (List Str)
  | .nil => .ok []
  | .nilSlice => .ok []
  | .slice vs => topicStrs vs
  | _ => .panic

/-- Phase and extrinsic index (event.go:65-74). -/
def readPhase (rec : Rec) (ctx : Ctx) : Dec (Nat × Int) := fun st => do
  let (p, st) ← getNextU8 st
  if p = 0 then do
    let (v, st) ← rec ctx b!"U32" st
    match v with
    | .uint 4 n => .ok ((p, (n : Int)), st)
    | _ => .panic
  else .ok ((p, 0), st)

/-- Topics (event.go:98-105). -/
def readTopics (rec : Rec) (ctx : Ctx) (md : MD) : Dec (List Str) := fun st =>
  if md.version ≥ 5 then do
    let (v, st) ← rec ctx b!"Vec<Hash>" st
    let ts ← topicsOf v
    .ok (ts, st)
  else .ok ([], st)

/-- `EventRecord.Process` (event.go:60-118). The module of the previous event is still set while phase and index are read;
it is returned for the next one. An unknown event index panics. -/
def processEvent (rec : Rec) (spec : Int) (md : MD) (module : Str) (i : Nat) : Dec (Event × Str) := fun st => do
  let ((p, x), st) ← readPhase rec ⟨module, spec, some md⟩ st
  let (b, st) ← nextBytes 2 st
  match md.eventIndex (bytesToHex b) with
  | none => .panic
  | some e => do
    let ctx : Ctx := ⟨e.moduleName, spec, some md⟩
    let start := st.cur.off
    let (ps, st) ← readEventArgs rec ctx e.args (if e.argsName.length = e.args.length then e.argsName else []) st
    let raw := bytesToHex ((st.cur.data.drop start).take (st.cur.off - start))
    let (ts, st) ← readTopics rec ctx md st
    .ok ((⟨i, p, x, bytesToHex b, e.moduleName, e.eventName, ps, ts, raw⟩, e.moduleName), st)

/-- The loop of `EventsDecoder.Process` (event.go:40-44). -/
def processEvents (rec : Rec) (spec : Int) (md : MD) : Nat → Nat → Str → Dec (List Event)
  | _, 0, _, st => .ok ([], st)
  | i, n + 1, module, st => do
    let ((e, module), st) ← processEvent rec spec md module i st
    let (es, st) ← processEvents rec spec md (i + 1) n module st
    .ok (e :: es, st)

/-- `EventsDecoder.Process` (event.go:32-46) with the option's module and spec version. The returned state is that of the event
record decoder; the outer decoder itself stays behind the length. -/
def decodeEvents (env : Env) (fuel : Nat) (spec : Int) (md : MD) (module data : Str) : Res (List Event × St) := do
  let (v, st) ← pau env fuel ⟨module, spec, some md⟩ b!"Compact<u32>" ⟨⟨data, 0⟩, []⟩
  let n ← asInt v
  processEvents (pau env fuel) spec md 0 n.toNat [] st

end ScaleGo
