import Verif.Props.C94
import Verif.Props.C96

/-! # C97: signed extrinsics of chains with metadata of versions 9 to 13 are read

English claim: once metadata of version 9 to 13 has been read, a signed extrinsic of the chain is read as its parts. The bytes are those
which the chain's node writes: length, version, signer (an account or an account index), signature, the extensions in the order of the
metadata, and the call. The metadata does not tell types of extensions; besides era, nonce and tip only those extensions have data
for which the options of the decoder list fields. Metadata before version 11 does not list extensions; there they are era, nonce and tip. -/

namespace ScaleGo
open _root_.Spec (Shape Scale Names Means Sugar RustType OModule OCall FOld EncOld)
open ScaleGo.Spec

/-! ## What the chain writes -/

/-- Kinds of signatures in the order of their numbers, with the number of bytes. -/
def sigKinds : List (Str × Nat) := [(b!"Ed25519", 64), (b!"Sr25519", 64), (b!"Ecdsa", 65)]

/-- How a signature is shown: as hex text; one of 65 bytes as bytes are. -/
def sigShown (b : Str) : Str := if b.length = 65 then shown .bytes b else b!"0x" ++ _root_.Spec.hexText b

/-- How a signer is shown and written: accounts as destinations of transfers are, indices of accounts in one, three, five or nine bytes. -/
inductive SignerCoded : Str → Str → Prop
  | account {a : Str} : a.length = 32 → SignerCoded (_root_.Spec.hexText a) (255 :: a)
  | small {i : Nat} : i < 240 → SignerCoded (natToDec i) [UInt8.ofNat i]
  | index {p : UInt8 × Nat} {i : Nat} : p ∈ indexForms → i < 2 ^ (8 * p.2) → SignerCoded (natToDec i) (p.1 :: _root_.Spec.leBytes p.2 i)

/-- What an extension says. -/
inductive OldSays
  | era (b : Str)
  | nonce (n : Nat)
  | tip (n : Nat)
  | data (fs : List (Str × Val))
  | nothing

/-- The names with a meaning of their own. -/
def ownNames : List Str := eraNames ++ [b!"CheckNonce", payment]

/-- The fields which the options list for extensions. -/
abbrev Listed := List (Str × List (Str × Str))

/-- The bytes of the extension `x`: an era is one or two bytes, nonce and tip are compact integers, fields are values of their types. -/
inductive OldExtCoded (V : TextRel) (conf : Listed) : Str → OldSays → Str → Prop
  | era {x b} : keptText x ∈ eraNames → (b = [0] ∨ ∃ c d, c ≠ 0 ∧ b = [c, d]) → OldExtCoded V conf x (.era b) b
  | nonce {x n b} : keptText x = b!"CheckNonce" → n < 2 ^ 63 → _root_.Spec.IsCompact n b → OldExtCoded V conf x (.nonce n) b
  | tip {x n b} : keptText x = payment → n < 2 ^ 128 - 1 → _root_.Spec.IsCompact n b → OldExtCoded V conf x (.tip n) b
  | data {x} (gs : List Field) : keptText x ∉ ownNames → (keptText x, declOf gs) ∈ conf →
      (∀ f ∈ gs, f.calls = [] ∧ ∃ w, V f.ty w f.val f.bytes) → OldExtCoded V conf x (.data (valuesOf gs)) (bytesOf gs)
  | nothing {x} : keptText x ∉ ownNames → keptText x ∉ conf.map Prod.fst → OldExtCoded V conf x .nothing []

/-- A signed extrinsic without its call: text and bytes of the signer, number and bytes of the signature, and what every extension says
with its bytes. -/
structure OldSigned where
  signer : Str
  signerB : Str
  kind : UInt8
  sig : Str
  exts : List (Str × OldSays × Str)

/-- The bytes between version and call. -/
def OldSigned.bytes (q : OldSigned) : Str := q.signerB ++ q.kind :: q.sig ++ (q.exts.map fun e => e.2.2).flatten

/-- The names of the extensions of a chain whose metadata of version `v` lists `exts`. -/
def namesOf (v : Nat) (exts : List Str) : List Str := if v < 11 then [b!"CheckEra", b!"CheckNonce", payment] else exts

/-- The parts are encoded as the chain demands. -/
structure OldSignedOK (V : TextRel) (v : Nat) (exts : List Str) (conf : Listed) (q : OldSigned) : Prop where
  signer : SignerCoded q.signer q.signerB
  sig : ∃ name, sigKinds[q.kind.toNat]? = some (name, q.sig.length)
  listed : q.exts.map (fun e => e.1) = namesOf v exts
  coded : ∀ e ∈ q.exts, OldExtCoded V conf e.1 e.2.1 e.2.2

/-- The decoded signature tells what the extrinsic says. -/
structure OldTells (q : OldSigned) (s : Signed) : Prop where
  signer : s.signer = .str q.signer
  raw : ∃ name, sigKinds[q.kind.toNat]? = some (name, q.sig.length) ∧ s.signatureRaw = .map [(name, .str (sigShown q.sig))]
  text : s.signature = sigShown q.sig
  era : ∀ x b c, (x, .era b, c) ∈ q.exts → s.era = _root_.Spec.hexText b
  nonce : ∀ x (n : Nat) c, (x, .nonce n, c) ∈ q.exts → s.nonce = n
  tip : ∀ x (n : Nat) c, (x, .tip n, c) ∈ q.exts → s.tip = ((n : Int), 0)
  untipped : (∀ x n c, (x, OldSays.tip n, c) ∉ q.exts) → s.tip = (0, 0)
  data : ∀ p : Str × Val, p ∈ s.extensions ↔ ∃ x fs c, (x, OldSays.data fs, c) ∈ q.exts ∧ p ∈ fs

/-- The bytes of an extrinsic behind its length. -/
def OldSigned.body (q : OldSigned) (i j : UInt8) (as : List Arg) : Str := [0x84] ++ q.bytes ++ [i, j] ++ argBytes as

/-- Extrinsics with the signature `q` and the call `i`, `j` with the arguments `as` are read to their end. -/
def IsReadOld (env : Env) (md : MD) (opt : ExtOpt) (q : OldSigned) (i j : UInt8) (e : CallEntry) (as : List Arg) : Prop :=
  ∀ c, _root_.Spec.IsCompact (q.body i j as).length c →
    ∃ N, ∀ n, N ≤ n → ∃ x st s, decodeExtrinsic env n md opt (c ++ q.body i j as) = .ok (x, st) ∧
      st.cur.off = st.cur.data.length ∧ x.length = (q.body i j as).length ∧
      x.version = b!"84" ∧ x.signed = some s ∧ OldTells q s ∧ x.callCode = _root_.Spec.hexText [i, j] ∧
      x.callModule = e.moduleName ∧ x.callFunction = e.callName ∧
      x.params = (e.args.zip (as.map fun a => a.2.1)).map (fun a => (a.1.1, a.1.2, a.2)) ∧ x.paramsRaw = _root_.Spec.hexText (argBytes as)

/-- The signed extrinsics with calls of the modules with `ok` and extensions with `okX` are read, under versions of the runtime with `S`. -/
def ReadsOldChain (S : Int → Prop) (V R : TextRel) (v : Nat) (l : List OModule) (exts : List Str) (ok : OModule → Prop) (okS : Str → Prop)
    (okX : Listed → List (Str × OldSays × Str) → Prop) (env : Env) (md : MD) : Prop :=
  ∀ x c i j as, IsOldCall v l x c i j → ok x → OldArguments R (c.args.map Prod.snd) as → ∀ opt q, S opt.spec → opt.module = [] →
    (opt.signedExtensions.map Prod.fst).Nodup → (opt.signedExtensions.flatMap fun e => e.2.map Prod.fst).Nodup →
    OldSignedOK V v exts opt.signedExtensions q → okS q.signerB → okX opt.signedExtensions q.exts → q.bytes.length + (argBytes as).length < 2 ^ 61 →
    IsReadOld env md opt q i j (oldCallEntry x c) as

/-- The metadata as used afterwards, with the extensions. -/
def UsesOldAll (v : Nat) (md : MD) (out : OldOut) : Prop := UsesOld v md out ∧ md.extrinsic = out.extrinsic

/-- Words for the parts of signed extrinsics. -/
def signWords : List Str := [b!"ExtrinsicSignature", b!"Ed25519Signature", b!"Sr25519Signature", b!"EcdsaSignature", b!"EraExtrinsic"]

/-- Registries with the built-in entries of these words as well. -/
structure OldSignReady (env : Env) : Prop extends OldReady env where
  sign : ∀ w ∈ signWords, Held env w

/-- Any value or account. -/
def AnyValue : TextRel := fun t y r b => TextValue (fun _ => True) (fun _ => True) (fun _ => True) (fun _ _ _ _ => True) t y r b ∨ AccountValue t y r b

/-- The full claim. -/
def C97Claim : Prop :=
  ∀ (v : Nat) (reg : RegState) (spec : Int) (md0 : Option MD) (l : List OModule) (xv : Nat) (exts : List Str) (b : Str), 9 ≤ v → v ≤ 13 →
    ReadsOld reg.env ⟨[], spec, md0⟩ → OldSignReady reg.env → FOld v l xv exts → DistinctIndex v l → (exts.map keptText).Nodup → EncOld v l xv exts b →
    b.length < 2 ^ 63 →
    ∃ out, Gives (fun n => processOld v n reg ⟨[], spec, md0⟩) b out ∧ ∀ md, UsesOldAll v md out →
      ReadsOldChain (fun _ => True) AnyValue AnyValue v l exts (fun _ => True) (fun _ => True) (fun _ _ => True) out.reg.env md

/-! ## What holds -/

/-- The extension has nothing to say. -/
def OldSays.silent : OldSays → Bool
  | .nothing => true
  | _ => false

/-- Which extensions the reader gets right: first one for the era, then one for the nonce, then a tip, which must be there in version 11, then
those with fields, in the order of the options, and none of these before version 12. Extensions without data may be anywhere. -/
def InOldOrder (v : Nat) (conf : Listed) (es : List (Str × OldSays × Str)) : Prop :=
  (∃ xe be ce xn n cn tips rest, es.filter (fun e => !e.2.1.silent) = (xe, .era be, ce) :: (xn, .nonce n, cn) :: (tips ++ rest) ∧
    (tips = [] ∧ v ≠ 11 ∨ ∃ xt m ct, tips = [(xt, .tip m, ct)]) ∧ (∀ e ∈ rest, ∃ fs, e.2.1 = .data fs) ∧
    rest.map (fun e => keptText e.1) = (conf.map Prod.fst).filter (· ∈ es.map fun e => keptText e.1)) ∧ (v < 12 → conf = [])

theorem loadedSign (ext : Ext) : OldSignReady (loadedEnv ext) := { loaded_oldReady ext with sign := fun _ _ => held_loaded ext _ }

theorem sign_origin {env : Env} (h : OldSignReady env) (o : List (Str × Nat)) : OldSignReady (registerOriginCaller env o) :=
  { ready_origin h.toOldReady o with
    sign := fun w hw => held_origin (h.sign w hw) ((by decide : ∀ w ∈ signWords, toLower w ≠ b!"origincaller") w hw) }

/-- Registries with the built-in entries of the words which signed extrinsics need, whatever else they say. -/
structure SignHeld (env : Env) : Prop where
  sign : ∀ w ∈ signWords, Held env w
  ints : ∀ w ∈ [b!"Compact", b!"Compact<u64>", b!"u64", b!"Compact<Balance>", b!"Balance", b!"AccountId"], Held env w
  address : Held env b!"Address"

theorem OldSignReady.held {env : Env} (h : OldSignReady env) : SignHeld env where
  sign := h.sign
  address := h.address
  ints w hw := by
    simp only [List.mem_cons, List.not_mem_nil, or_false] at hw
    rcases hw with rfl | rfl | rfl | rfl | rfl | rfl
    · exact h.words _ (by simp)
    · exact h.types _ (.compact (w := b!"u64") (n := 2 ^ 64) (d := false) (by simp [_root_.Spec.substrate, _root_.Spec.compactTypes]))
    · exact h.types _ (.name (sh := .uint 8) (by simp [_root_.Spec.substrate, _root_.Spec.runtimeTypes]))
    · exact h.types _ (.compact (w := b!"Balance") (n := 2 ^ 128) (d := true) (by simp [_root_.Spec.substrate, _root_.Spec.compactTypes]))
    · exact h.types _ (.name (sh := .balance) (by simp [_root_.Spec.substrate, _root_.Spec.runtimeTypes]))
    · exact h.types _ (.name (sh := .account) (by simp [_root_.Spec.substrate, _root_.Spec.runtimeTypes]))

theorem signHeld_origin {env : Env} (h : SignHeld env) (o : List (Str × Nat)) : SignHeld (registerOriginCaller env o) where
  sign w hw := held_origin (h.sign w hw) ((by decide : ∀ w ∈ signWords, toLower w ≠ b!"origincaller") w hw)
  ints w hw := held_origin (h.ints w hw)
    ((by decide : ∀ w ∈ [b!"Compact", b!"Compact<u64>", b!"u64", b!"Compact<Balance>", b!"Balance", b!"AccountId"], toLower w ≠ b!"origincaller") w hw)
  address := held_origin h.address (by decide)

section
variable {env : Env}

theorem held_lower {a t : Str} (h : Held env a) (e : toLower t = toLower a) : Held env t := by
  unfold Held
  rw [e]
  exact h

theorem old_sign (hS : SignHeld env) {t : Str} {c : Cls} (ht : t ∈ signWords) (h1 : loadedReg (toLower t) = some c) (m : Str) (spec : Int) :
    Resolves env m spec t c [] :=
  old_word (hS.sign t ht) h1 ((by decide +kernel : ∀ t ∈ signWords, convertType t = t) t ht)
    ((by decide +kernel : ∀ t ∈ signWords, NeverOverridden t) t ht) ((by decide : ∀ t ∈ signWords, t ≠ []) t ht) m spec

/-- Signatures are read. -/
theorem old_signature (hS : SignHeld env) (ctx : Ctx) {k : UInt8} {name sig : Str} (h : sigKinds[k.toNat]? = some (name, sig.length)) :
    Decodes env ctx b!"ExtrinsicSignature" (k :: sig) (.map [(name, .str (sigShown sig))]) [] := by
  have hs : Resolves env ctx.module ctx.spec b!"ExtrinsicSignature" (.enum [] (some [(b!"Ed25519", b!"Ed25519Signature"),
      (b!"Sr25519", b!"Sr25519Signature"), (b!"Ecdsa", b!"EcdsaSignature")])) [] :=
    old_sign hS (by decide) (by rw [loadedReg_fast]; kernel_rfl) _ _
  have h1 : Resolves env ctx.module ctx.spec b!"Ed25519Signature" (.hash 64) [] := old_sign hS (by decide) (by rw [loadedReg_fast]; kernel_rfl) _ _
  have h2 : Resolves env ctx.module ctx.spec b!"Sr25519Signature" (.hash 64) [] := old_sign hS (by decide) (by rw [loadedReg_fast]; kernel_rfl) _ _
  have h3 : Resolves env ctx.module ctx.spec b!"EcdsaSignature" (.fixedU8 65) [] := old_sign hS (by decide) (by rw [loadedReg_fast]; kernel_rfl) _ _
  have hc : ¬ CLike [(b!"Ed25519", b!"Ed25519Signature"), (b!"Sr25519", b!"Sr25519Signature"), (b!"Ecdsa", b!"EcdsaSignature")] := fun h =>
    absurd (h _ List.mem_cons_self) (by unfold IsNumberText; decide)
  have hrows : ∀ t ∈ signWords, ¬ LooksLikeRows t := by
    rintro t ht ⟨r, e⟩
    exact (by decide : ∀ t ∈ signWords, t.head? ≠ some 91) t ht (by rw [e]; rfl)
  have hlt : k.toNat < 3 := (List.getElem?_eq_some_iff.1 h).1
  have hk : k = 0 ∨ k = 1 ∨ k = 2 :=
    forall_byte (P := fun k => k.toNat < 3 → k = 0 ∨ k = 1 ∨ k = 2) (by decide +kernel) k hlt
  have key : ∀ t : Str, t ∈ signWords → [(b!"Ed25519", b!"Ed25519Signature"), (b!"Sr25519", b!"Sr25519Signature"), (b!"Ecdsa", b!"EcdsaSignature")][k.toNat]? = some (name, t) →
      Decodes env ctx t sig (.str (sigShown sig)) [] → Decodes env ctx b!"ExtrinsicSignature" (k :: sig) (.map [(name, .str (sigShown sig))]) [] :=
    fun t ht e d => C23_decode_data env ctx _ [] [] _ k name t sig _ [] hc e ((by decide : ∀ t ∈ signWords, t ≠ []) t ht) (hrows t ht) hs d
  rcases hk with rfl | rfl | rfl
  · obtain ⟨rfl, hl⟩ := Prod.mk.inj (Option.some.inj h)
    refine key b!"Ed25519Signature" (by decide) rfl ?_
    rw [show sigShown sig = b!"0x" ++ _root_.Spec.hexText sig from if_neg (by omega)]
    exact C50_decode_hash env ctx _ [] 64 sig hl.symm h1
  · obtain ⟨rfl, hl⟩ := Prod.mk.inj (Option.some.inj h)
    refine key b!"Sr25519Signature" (by decide) rfl ?_
    rw [show sigShown sig = b!"0x" ++ _root_.Spec.hexText sig from if_neg (by omega)]
    exact C50_decode_hash env ctx _ [] 64 sig hl.symm h2
  · obtain ⟨rfl, hl⟩ := Prod.mk.inj (Option.some.inj h)
    refine key b!"EcdsaSignature" (by decide) rfl ?_
    rw [show sigShown sig = shown .bytes sig from if_pos hl.symm]
    exact C25_decode_u8 env ctx _ [] [] sig (.fixedU8 65) (.inl (by rw [← hl]; rfl)) h3

/-- Compact integers under the texts of the reader. -/
theorem old_compacts (hS : SignHeld env) (m : Str) (spec : Int) :
    Resolves env m spec b!"Compact<U64>" (.compact []) b!"U64" ∧ Resolves env m spec b!"Compact<Balance>" (.compact []) b!"Balance" ∧
      Resolves env [] 0 b!"U64" .u64 [] ∧ Resolves env [] 0 b!"Balance" .balance [] := by
  have hw := hS.ints b!"Compact" (by simp)
  have g1 := old_wrapper (w := b!"Compact") (a := b!"U64") (c := .compact []) (S := fun _ => True) (held_lower (t := b!"Compact<U64>") (hS.ints b!"Compact<u64>" (by simp)) (by decide)).at hw (by decide +kernel) (by decide +kernel) (by simp)
    ⟨⟨⟨67, b!"ompact<U64>", rfl, rfl⟩, 62, b!"Compact<U64", rfl, rfl⟩, by decide, by decide, by decide, by decide⟩
    (by rw [loadedReg_fast]; kernel_rfl) (by rw [loadedReg_fast]; kernel_rfl)
  have g2 := old_wrapper (w := b!"Compact") (a := b!"Balance") (c := .compact []) (S := fun _ => True) (hS.ints b!"Compact<Balance>" (by simp)).at hw (by decide +kernel) (by decide +kernel) (by simp)
    ⟨⟨⟨67, b!"ompact<Balance>", rfl, rfl⟩, 62, b!"Compact<Balance", rfl, rfl⟩, by decide, by decide, by decide, by decide⟩
    (by rw [loadedReg_fast]; kernel_rfl) (by rw [loadedReg_fast]; kernel_rfl)
  exact ⟨g1 _ _ trivial ((by decide +kernel : NeverOverridden (convertType b!"Compact<U64>")).apply _),
    g2 _ _ trivial ((by decide +kernel : NeverOverridden (convertType b!"Compact<Balance>")).apply _),
    old_word (held_lower (hS.ints b!"u64" (by simp)) (by decide)) (by rw [loadedReg_fast]; kernel_rfl) (by kernel_rfl) (by decide +kernel) (by simp) _ _,
    resolves_converted (by kernel_rfl) (by simp) (notOverridden_nil _) (old_entered (hS.ints b!"Balance" (by simp)) (by rw [loadedReg_fast]; kernel_rfl))⟩

/-- The fields which the options list, of the extensions in `ids`. -/
theorem decAt_configured {rec : Rec} {ctx : Ctx} {ids : List Str} : ∀ (conf : Listed) (ds : List (Str × List Field)) (acc : List (Str × Val)),
    conf.filter (fun e => decide (e.1 ∈ ids)) = ds.map (fun d => (d.1, declOf d.2)) →
    (acc.map Prod.fst ++ ds.flatMap fun d => d.2.map (·.name)).Nodup →
    (∀ d ∈ ds, ∀ f ∈ d.2, f.calls = [] ∧ DecAt (rec ctx f.ty) f.bytes f.val []) →
    DecAt (readConfigured rec ctx ids conf acc) (ds.flatMap fun d => bytesOf d.2) (acc ++ ds.flatMap fun d => valuesOf d.2) [] := by
  intro conf
  induction conf with
  | nil =>
    intro ds acc h _ _
    obtain rfl : ds = [] := by simpa using h.symm
    simpa [readConfigured] using DecAt.pure acc
  | cons e conf ih =>
    intro ds acc h hn hd
    obtain ⟨n, fs⟩ := e
    by_cases hi : n ∈ ids
    · rw [List.filter_cons_of_pos (by simpa using hi)] at h
      cases ds with
      | nil => cases h
      | cons d ds =>
        rw [List.map_cons, List.cons.injEq, Prod.mk.injEq] at h
        obtain ⟨⟨rfl, rfl⟩, h⟩ := h
        rw [List.flatMap_cons] at hn
        have hd1 := hd d List.mem_cons_self
        have k1 := decAt_fields (rec := rec) (ctx := ctx) d.2 acc (hn.sublist (by
          rw [← List.append_assoc]
          exact List.sublist_append_left _ _)) fun f hf => by rw [(hd1 f hf).1]; exact (hd1 f hf).2
        have hc : callsOf d.2 = [] := by
          unfold callsOf
          rw [List.flatten_eq_nil_iff]
          intro y hy
          obtain ⟨f, hf, rfl⟩ := List.mem_map.1 hy
          exact (hd1 f hf).1
        rw [hc] at k1
        have k2 := ih ds (acc ++ valuesOf d.2) h (by simpa [valuesOf, Function.comp_def] using hn) fun d hd' => hd d (List.mem_cons_of_mem _ hd')
        have e : readConfigured rec ctx ids ((d.1, declOf d.2) :: conf) acc = fun st => procFields rec ctx (declOf d.2) acc st >>= fun p =>
            readConfigured rec ctx ids conf p.1 p.2 := by
          funext st
          rw [readConfigured, if_pos ((sliceIndex_isSome _ _).2 hi)]
          rfl
        rw [e, List.flatMap_cons, List.flatMap_cons, ← List.append_assoc]
        exact DecAt.step0 k1 k2
    · rw [List.filter_cons_of_neg (by simpa using hi)] at h
      have k := ih ds acc h hn hd
      have e : readConfigured rec ctx ids ((n, fs) :: conf) acc = readConfigured rec ctx ids conf acc := by
        funext st
        rw [readConfigured, if_neg (fun h => hi ((sliceIndex_isSome _ _).1 h))]
      rw [e]
      exact k

/-- The fields of the extensions. -/
theorem coded_fields {V : TextRel} {conf : Listed} (es : List (Str × OldSays × Str)) (hd : ∀ e ∈ es, ∃ fs, e.2.1 = .data fs)
    (hc : ∀ e ∈ es, OldExtCoded V conf e.1 e.2.1 e.2.2) :
    ∃ ds : List (Str × List Field), ds.map Prod.fst = es.map (fun e => keptText e.1) ∧ (∀ d ∈ ds, (d.1, declOf d.2) ∈ conf) ∧
      (∀ d ∈ ds, ∀ f ∈ d.2, f.calls = [] ∧ ∃ w, V f.ty w f.val f.bytes) ∧ (ds.flatMap fun d => bytesOf d.2) = (es.map fun e => e.2.2).flatten ∧
      ∀ p, (p ∈ ds.flatMap fun d => valuesOf d.2) ↔ ∃ x fs c, (x, OldSays.data fs, c) ∈ es ∧ p ∈ fs := by
  induction es with
  | nil => exact ⟨[], rfl, by simp, by simp, rfl, by simp⟩
  | cons e es ih =>
    obtain ⟨ds, h1, h2, h3, h4, h5⟩ := ih (fun e he => hd e (List.mem_cons_of_mem _ he)) fun e he => hc e (List.mem_cons_of_mem _ he)
    obtain ⟨fs, hfs⟩ := hd e List.mem_cons_self
    have hce := hc e List.mem_cons_self
    obtain ⟨x, w, b⟩ := e
    dsimp only at hfs hce
    subst hfs
    cases hce with
    | data gs k1 k2 k3 =>
      refine ⟨(keptText x, gs) :: ds, by simp [h1], ?_, ?_, by simp [h4], ?_⟩
      · intro d hd
        rcases List.mem_cons.1 hd with rfl | hd
        · exact k2
        · exact h2 d hd
      · intro d hd
        rcases List.mem_cons.1 hd with rfl | hd
        · exact k3
        · exact h3 d hd
      · intro p
        rw [List.flatMap_cons, List.mem_append, h5]
        constructor
        · rintro (h | ⟨y, fs, c, h, h'⟩)
          · exact ⟨x, _, _, List.mem_cons_self, h⟩
          · exact ⟨y, fs, c, List.mem_cons_of_mem _ h, h'⟩
        · rintro ⟨y, fs, c, h, h'⟩
          rcases List.mem_cons.1 h with e | h
          · cases e; exact .inl h'
          · exact .inr ⟨y, fs, c, h, h'⟩

/-- Lists of entries of a table without repeated keys are known by their keys. -/
theorem eq_of_keys {α : Type} {t : List (Str × α)} (ht : (t.map Prod.fst).Nodup) : ∀ {a b : List (Str × α)}, (∀ x ∈ a, x ∈ t) → (∀ x ∈ b, x ∈ t) →
    a.map Prod.fst = b.map Prod.fst → a = b
  | [], [], _, _, _ => rfl
  | [], _ :: _, _, _, h => by cases h
  | _ :: _, [], _, _, h => by cases h
  | x :: a, y :: b, ha, hb, h => by
    rw [List.map_cons, List.map_cons, List.cons.injEq] at h
    obtain rfl : x = y := List.inj_on_of_nodup_map ht (ha x List.mem_cons_self) (hb y List.mem_cons_self) h.1
    rw [eq_of_keys ht (fun z hz => ha z (List.mem_cons_of_mem _ hz)) (fun z hz => hb z (List.mem_cons_of_mem _ hz)) h.2]

theorem silent_bytes {V : TextRel} {conf : Listed} {es : List (Str × OldSays × Str)} (hc : ∀ e ∈ es, OldExtCoded V conf e.1 e.2.1 e.2.2) :
    (es.map fun e => e.2.2).flatten = ((es.filter fun e => !e.2.1.silent).map fun e => e.2.2).flatten := by
  induction es with
  | nil => rfl
  | cons e es ih =>
    have k := ih fun e he => hc e (List.mem_cons_of_mem _ he)
    have he := hc e List.mem_cons_self
    obtain ⟨x, w, b⟩ := e
    dsimp only at he
    cases he <;> simp [OldSays.silent, k]

theorem flatMap_sub {α β : Type} {f : α → List β} {a b : List α} (h : a.Sublist b) : (a.flatMap f).Sublist (b.flatMap f) := by
  induction h with
  | slnil => exact List.Sublist.refl _
  | cons x _ ih => exact ih.trans (List.sublist_append_right _ _)
  | cons_cons x _ ih => exact (List.Sublist.refl _).append ih

/-- What is read before the call. -/
theorem old_chain_signed (hS : SignHeld env) {V : TextRel} {v : Nat} {exts : List Str} {md : MD} {opt : ExtOpt} {q : OldSigned} (h9 : 9 ≤ v) (hv : v ≤ 13)
    (hver : md.version = v) (hx : md.extrinsic = if v < 12 then none else some ⟨exts.map keptText, []⟩) (hmod : opt.module = [])
    (hn1 : (opt.signedExtensions.map Prod.fst).Nodup) (hn2 : (opt.signedExtensions.flatMap fun e => e.2.map Prod.fst).Nodup)
    (hV : ∀ t y r b, V t y r b → Decodes env ⟨[], opt.spec, some md⟩ t b r [])
    (hq : OldSignedOK V v exts opt.signedExtensions q) (hs : q.signerB.head? = some 255) (ho : InOldOrder v opt.signedExtensions q.exts) :
    ∃ s, OldTells q s ∧ ∃ N, ∀ k, N ≤ k →
      DecAt (readSigned env (pau env k) ⟨opt.module, opt.spec, some md⟩ md opt (_root_.Spec.hexText [0x84])) q.bytes (some s) [] := by
  obtain ⟨⟨xe, be, ce, xn, n, cn, tips, rest, hes, htips, hrest, hkeys⟩, hconf⟩ := ho
  have hmem : ∀ e ∈ (xe, OldSays.era be, ce) :: (xn, .nonce n, cn) :: (tips ++ rest), e ∈ q.exts := by
    intro e he
    rw [← hes] at he
    exact (List.mem_filter.1 he).1
  have hbytes := silent_bytes hq.coded
  rw [hes] at hbytes
  -- signer and signature
  obtain ⟨a, ha, hsb, hst⟩ : ∃ a : Str, a.length = 32 ∧ q.signerB = 255 :: a ∧ q.signer = _root_.Spec.hexText a := by
    have := hq.signer
    revert this hs
    generalize q.signer = t
    generalize q.signerB = b
    intro hs this
    cases this with
    | account h => exact ⟨_, h, rfl, rfl⟩
    | @small i h =>
      rw [List.head?_cons, Option.some.injEq] at hs
      have := congrArg UInt8.toNat hs
      simp at this
      omega
    | index hp =>
      rw [List.head?_cons, Option.some.injEq] at hs
      simp only [indexForms, List.mem_cons, List.not_mem_nil, or_false] at hp
      rcases hp with rfl | rfl | rfl <;> exact absurd hs (by decide)
  obtain ⟨name, hname⟩ := hq.sig
  have e2 : signerType env md = b!"Address" := if_neg (fun h => by have := h.1; omega)
  have hsigner : Decodes env ⟨opt.module, opt.spec, some md⟩ (signerType env md) q.signerB (.str q.signer) [] := by
    rw [e2, hsb, hst]
    exact C62_partial env _ _ [] .address (by simp)
      (old_word hS.address (by rw [loadedReg_fast]; kernel_rfl) (by kernel_rfl) (by decide +kernel) (by simp) _ _) a ha
  have hsig := old_signature hS ⟨opt.module, opt.spec, some md⟩ hname
  -- era and nonce
  obtain ⟨c1, c2, c3, c4⟩ := old_compacts hS opt.module opt.spec
  have hera : ce = be ∧ Decodes env ⟨opt.module, opt.spec, some md⟩ b!"EraExtrinsic" be (.str (_root_.Spec.hexText be)) [] := by
    have he := old_sign hS (t := b!"EraExtrinsic") (c := .era) (by decide) (by rw [loadedReg_fast]; kernel_rfl) opt.module opt.spec
    have := hq.coded _ (hmem (xe, .era be, ce) (by simp))
    dsimp only at this
    cases this with
    | era _ h =>
      refine ⟨rfl, ?_⟩
      rcases h with rfl | ⟨x, y, hne, rfl⟩
      · exact C48_decode_immortal _ _ _ [] he
      · exact C48_decode_mortal _ _ _ [] x y hne he
  obtain ⟨rfl, hera⟩ := hera
  have hnonce : n < 2 ^ 63 ∧ Decodes env ⟨opt.module, opt.spec, some md⟩ b!"Compact<U64>" cn (.uint 8 (n : Int).toNat) [] := by
    have := hq.coded _ (hmem (xn, .nonce n, cn) (by simp))
    cases this with
    | nonce _ h1 h2 => exact ⟨h1, C16_decode env _ b!"Compact<U64>" [] b!"U64" [] .u64 n cn _ c1 (by decide) c3 ⟨by omega, rfl⟩ h2 (fun h => by cases h)⟩
  -- the tip
  have hlist : ∀ x, x ∈ namesOf v exts ↔ ∃ w c, (x, w, c) ∈ q.exts := by
    intro x
    rw [← hq.listed, List.mem_map]
    exact ⟨fun ⟨e, he, h⟩ => ⟨e.2.1, e.2.2, by rw [← h]; exact he⟩, fun ⟨w, c, h⟩ => ⟨_, h, rfl⟩⟩
  have hpay : (∃ x ∈ namesOf v exts, keptText x = payment) ↔ tips ≠ [] := by
    constructor
    · rintro ⟨x, hx1, hx2⟩
      obtain ⟨w, c, hw⟩ := (hlist x).1 hx1
      have hc := hq.coded _ hw
      have own : payment ∈ ownNames := by decide
      rintro rfl
      have hin : ∀ m : Nat, w ≠ .tip m := by
        rintro m rfl
        have : (x, OldSays.tip m, c) ∈ q.exts.filter fun e => !e.2.1.silent := List.mem_filter.2 ⟨hw, rfl⟩
        rw [hes] at this
        simp only [List.nil_append, List.mem_cons, Prod.mk.injEq, reduceCtorEq, false_and, and_false, false_or] at this
        obtain ⟨fs, h⟩ := hrest _ this
        cases h
      dsimp only at hc
      cases hc with
      | era h => rw [hx2] at h; exact absurd h (by decide)
      | nonce h => rw [hx2] at h; exact absurd h (by decide)
      | tip _ => exact hin _ rfl
      | data _ h => rw [hx2] at h; exact h own
      | nothing h => rw [hx2] at h; exact h own
    · intro h
      rcases htips with ⟨h', -⟩ | ⟨xt, m, ct, rfl⟩
      · exact absurd h' h
      · have hin := hmem (xt, .tip m, ct) (by simp)
        have hc := hq.coded _ hin
        cases hc with
        | tip h => exact ⟨xt, (hlist xt).2 ⟨_, _, hin⟩, h⟩
  obtain ⟨t0, htip, ht1, ht2⟩ : ∃ t0 : Int × Int, (∃ N, ∀ k, N ≤ k → DecAt (readTip4 env.ext (pau env k) ⟨opt.module, opt.spec, some md⟩ md)
      (tips.map fun e => e.2.2).flatten t0 []) ∧ (∀ xt m ct, tips = [(xt, .tip m, ct)] → t0 = ((m : Int), 0)) ∧ (tips = [] → t0 = (0, 0)) := by
    rcases htips with ⟨rfl, h11⟩ | ⟨xt, m, ct, rfl⟩
    · have hno : ¬ ∃ x ∈ namesOf v exts, keptText x = payment := fun h => hpay.1 h rfl
      have h12 : ¬ v < 12 := by
        intro h12
        have : v < 11 := by omega
        refine hno ⟨payment, ?_, by decide +kernel⟩
        unfold namesOf
        rw [if_pos this]
        simp
      refine ⟨(0, 0), ⟨0, fun k _ => ?_⟩, (fun _ _ _ h => by cases h), fun _ => rfl⟩
      have : readTip4 env.ext (pau env k) ⟨opt.module, opt.spec, some md⟩ md = fun st => .ok ((0, 0), st) := by
        funext st
        unfold readTip4
        rw [hx, if_neg h12]
        refine if_neg (fun h => hno ?_)
        obtain ⟨x, h1, h2⟩ := List.mem_map.1 ((sliceIndex_isSome _ _).1 h.2)
        refine ⟨x, ?_, h2⟩
        unfold namesOf
        rw [if_neg (by omega)]
        exact h1
      rw [this]
      exact DecAt.pure _
    · have hc := hq.coded _ (hmem (xt, .tip m, ct) (by simp))
      cases hc with
      | tip h1 h2 h3 =>
        obtain ⟨N, hN⟩ := C16_decode env ⟨opt.module, opt.spec, some md⟩ b!"Compact<Balance>" [] b!"Balance" [] .balance m ct _ c2
          (by decide) c4 ⟨by omega, rfl⟩ h3 (fun _ => by omega)
        refine ⟨((m : Int), 0), ⟨N, fun k hk => ?_⟩, (fun _ _ _ h => by cases h; rfl), (fun h => by cases h)⟩
        have : readTip4 env.ext (pau env k) ⟨opt.module, opt.spec, some md⟩ md = readTip env.ext (pau env k) ⟨opt.module, opt.spec, some md⟩ := by
          funext st
          unfold readTip4
          rw [hx]
          split
          · next x hx' =>
            by_cases h12 : v < 12
            · rw [if_pos h12] at hx'; cases hx'
            rw [if_neg h12] at hx'
            cases hx'
            refine if_pos ⟨by omega, (sliceIndex_isSome _ _).2 ?_⟩
            obtain ⟨x, g1, g2⟩ := hpay.2 (by simp)
            unfold namesOf at g1
            rw [if_neg (by omega)] at g1
            exact List.mem_map.2 ⟨x, g1, g2⟩
          · rfl
        rw [this]
        simpa using decAt_readTip (hN k hk) rfl
  -- the fields
  obtain ⟨ds, d1, d2, d3, d4, d5⟩ := coded_fields rest hrest fun e he => hq.coded e (hmem e (by simp [he]))
  have hfield : ∃ N, ∀ k, N ≤ k → ∀ f ∈ ds.flatMap (fun d => d.2), DecAt (pau env k ⟨opt.module, opt.spec, some md⟩ f.ty) f.bytes f.val [] := by
    refine uniform_bound _ fun f hf => ?_
    obtain ⟨d, hd, hf⟩ := List.mem_flatMap.1 hf
    obtain ⟨-, w, g⟩ := d3 d hd f hf
    have := hV _ _ _ _ g
    rw [← hmod] at this
    exact this
  obtain ⟨M, hM⟩ := hfield
  have hexts : ∀ k, M ≤ k → DecAt (readExts4 env.ext (pau env k) ⟨opt.module, opt.spec, some md⟩ md opt t0) (rest.map fun e => e.2.2).flatten
      (t0, ds.flatMap fun d => valuesOf d.2) [] := by
    intro k hk
    by_cases hcn : opt.signedExtensions = []
    · have hd0 : ds = [] := by
        rw [hkeys, hcn] at d1
        simpa using d1
      have hr0 : (rest.map fun e => e.2.2).flatten = [] := by rw [← d4, hd0]; rfl
      have : readExts4 env.ext (pau env k) ⟨opt.module, opt.spec, some md⟩ md opt t0 = fun st => .ok ((t0, []), st) := by
        funext st
        unfold readExts4
        rw [if_neg (not_not.2 hcn), if_neg (by omega)]
      rw [this, hr0, hd0]
      exact DecAt.pure _
    · have h12 : ¬ v < 12 := fun h => hcn (hconf h)
      have hids : (q.exts.map fun e => keptText e.1) = exts.map keptText := by
        have := hq.listed
        unfold namesOf at this
        rw [if_neg (by omega)] at this
        rw [← this, List.map_map]
        rfl
      have hf : opt.signedExtensions.filter (fun e => decide (e.1 ∈ exts.map keptText)) = ds.map fun d => (d.1, declOf d.2) := by
        refine eq_of_keys hn1 (fun x hx => (List.mem_filter.1 hx).1) ?_ ?_
        · intro x hx
          obtain ⟨d, hd, rfl⟩ := List.mem_map.1 hx
          exact d2 d hd
        · rw [List.map_map]
          have : (Prod.fst ∘ fun d : Str × List Field => (d.1, declOf d.2)) = Prod.fst := rfl
          rw [this, d1, hkeys, hids, List.filter_map]
          rfl
      have key := decAt_configured (rec := pau env k) (ctx := ⟨opt.module, opt.spec, some md⟩) (ids := exts.map keptText) opt.signedExtensions ds [] hf (by
        rw [List.map_nil, List.nil_append]
        have e : (ds.flatMap fun d => d.2.map (·.name)) = (ds.map fun d => (d.1, declOf d.2)).flatMap fun e => e.2.map Prod.fst := by
          simp [List.flatMap_map, declOf, Function.comp_def]
        rw [e, ← hf]
        exact hn2.sublist (flatMap_sub List.filter_sublist)) fun d hd f hf => ⟨(d3 d hd f hf).1, hM k hk f (List.mem_flatMap.2 ⟨d, hd, hf⟩)⟩
      have e : readExts4 env.ext (pau env k) ⟨opt.module, opt.spec, some md⟩ md opt t0 = fun st =>
          readConfigured (pau env k) ⟨opt.module, opt.spec, some md⟩ (exts.map keptText) opt.signedExtensions [] st >>= fun p => .ok ((t0, p.1), p.2) := by
        funext st
        unfold readExts4
        rw [if_pos hcn, hx, if_neg h12]
      rw [e, ← d4]
      exact key.map (fun acc => (t0, acc))
  obtain ⟨N1, k1⟩ := hsigner
  obtain ⟨N2, k2⟩ := hsig
  obtain ⟨N3, k3⟩ := hera
  obtain ⟨N4, k4⟩ := hnonce.2
  obtain ⟨N5, k5⟩ := htip
  refine ⟨⟨.str q.signer, .map [(name, .str (sigShown q.sig))], sigShown q.sig, 0, _root_.Spec.hexText ce, n, t0, ds.flatMap fun d => valuesOf d.2⟩, ?_,
    N1 + N2 + N3 + N4 + N5 + M, fun k hk => ?_⟩
  · have hcase : ∀ e ∈ q.exts, e.2.1 ≠ .nothing → e = (xe, .era ce, ce) ∨ e = (xn, .nonce n, cn) ∨ e ∈ tips ∨ e ∈ rest := by
      intro e he hne
      have : e ∈ q.exts.filter fun e => !e.2.1.silent := by
        refine List.mem_filter.2 ⟨he, ?_⟩
        revert hne
        cases e.2.1 <;> simp [OldSays.silent]
      rw [hes] at this
      simpa [List.mem_append] using this
    have htip : ∀ e ∈ tips, ∃ xt m ct, e = (xt, OldSays.tip m, ct) ∧ tips = [(xt, .tip m, ct)] := by
      intro e he
      rcases htips with ⟨rfl, -⟩ | ⟨xt, m, ct, rfl⟩
      · cases he
      · exact ⟨xt, m, ct, by simpa using he, rfl⟩
    refine ⟨rfl, ⟨name, hname, rfl⟩, rfl, ?_, ?_, ?_, ?_, ?_⟩
    · intro x b c h
      rcases hcase _ h (by simp) with e | e | h | h
      · cases e; rfl
      · cases e
      · obtain ⟨_, _, _, e, -⟩ := htip _ h; cases e
      · obtain ⟨_, e⟩ := hrest _ h; cases e
    · intro x b c h
      rcases hcase _ h (by simp) with e | e | h | h
      · cases e
      · cases e; rfl
      · obtain ⟨_, _, _, e, -⟩ := htip _ h; cases e
      · obtain ⟨_, e⟩ := hrest _ h; cases e
    · intro x b c h
      rcases hcase _ h (by simp) with e | e | h | h
      · cases e
      · cases e
      · obtain ⟨_, _, _, e, h⟩ := htip _ h
        cases e
        exact ht1 _ _ _ h
      · obtain ⟨_, e⟩ := hrest _ h; cases e
    · intro h
      rcases htips with ⟨h', -⟩ | ⟨xt, m, ct, rfl⟩
      · exact ht2 h'
      · exact absurd (hmem (xt, .tip m, ct) (by simp)) (h _ _ _)
    · intro p
      dsimp only
      rw [d5]
      constructor
      · rintro ⟨x, fs, c, h, h'⟩
        exact ⟨x, fs, c, hmem _ (by simp [h]), h'⟩
      · rintro ⟨x, fs, c, h, h'⟩
        rcases hcase _ h (by simp) with e | e | h | h
        · cases e
        · cases e
        · obtain ⟨_, _, _, e, -⟩ := htip _ h; cases e
        · exact ⟨x, fs, c, h, h'⟩
  · have d := decAt_signed4 (env := env) (md := md) (opt := opt) (p := ⟨.str q.signer, q.signerB, .map [(name, .str (sigShown q.sig))], sigShown q.sig, q.kind :: q.sig, ce, cn, .nil, []⟩)
      (k1 k (by omega)) (k2 k (by omega)) rfl (k3 k (by omega)) (k4 k (by omega)) (by have := hnonce.1; omega) (k5 k (by omega)) (hexts k (by omega))
    have e : readSigned env (pau env k) ⟨opt.module, opt.spec, some md⟩ md opt (_root_.Spec.hexText [0x84]) = fun st' =>
        readSigned4 env (pau env k) ⟨opt.module, opt.spec, some md⟩ md opt st' >>= fun p => .ok (some p.1, p.2) := by
      funext st'
      unfold readSigned
      rw [if_neg (by decide), if_pos (by decide)]
    rw [e]
    refine (d.map some).cast ?_
    unfold OldSigned.bytes
    rw [hbytes]
    simp

end

/-- Values are read under a type text as it stands. -/
theorem over_reads {env : Env} {S : Int → Prop} {N : Names} (hN : Wordy N) (hB : Speaks env S N) {ctx : Ctx} (hs : S ctx.spec) (hm : Foreign N ctx.module) {raw : Str}
    {v r : Val} {b : Str} (h : GoodOver N raw v r b) : Decodes env ctx raw b r [] := by
  obtain ⟨t, hsu, h⟩ := h
  obtain ⟨-, M, h2⟩ := over_partial hN hB ctx ⟨ctx.spec, none⟩ t t v r b hs hs hm h (.inl rfl)
  have e := C93_words_partial N hN env raw t hsu
  exact ⟨M, fun n hn pre suf cs hl => by rw [e.decode]; exact h2 n hn pre suf cs hl⟩

/-- Whatever describes the metadata in the output, the extrinsics of the chain are read. -/
theorem readsOver_of {v : Nat} {names : List Str} {l : List OModule} {exts : List Str} {out : OldOut} {S : Int → Prop} {N : Names} (hN : Wordy N) (h9 : 9 ≤ v) (hv : v ≤ 13)
    (hD : DescribedOld v names l (if v < 12 then none else some exts) out) (hR : ReadyOver out.reg.env S N) (hS : SignHeld out.reg.env) (md : MD) (hm : UsesOldAll v md out) :
    ReadsOldChain S (GoodOver N) (fun t y r b => GoodOver N t y r b ∨ AccountValue t y r b) v l exts (fun x => Foreign N (keptText x.name))
      (fun b => b.head? = some 255) (InOldOrder v) out.reg.env md := by
  obtain ⟨⟨hver, hc, -⟩, hx⟩ := hm
  intro x c i j as hcall hok ha opt q hsp hmod hn1 hn2 hq hs ho hlen
  have hx' : md.extrinsic = if v < 12 then none else some ⟨exts.map keptText, []⟩ := by
    rw [hx, hD.extrinsic]
    split <;> rfl
  obtain ⟨s, hs, hread⟩ := old_chain_signed hS h9 hv hver hx' hmod hn1 hn2 (fun t y r b h => over_reads hN hR.toSpeaks (ctx := ⟨[], opt.spec, some md⟩) hsp (foreign_nil N) h) hq hs ho
  have hkn : md.callIndex (_root_.Spec.hexText [i, j]) = some (oldCallEntry x c) := by
    rw [hc]
    exact (hD.calls i j _).2 ⟨x, c, hcall.1, hcall.2, rfl⟩
  have hab : ((as.map Arg.item).map (·.2.1)).flatten = argBytes as := by simp [Arg.item, argBytes, Function.comp_def]
  intro cl hcl
  obtain ⟨N, hN⟩ := reads_of (suf := []) (speaks_ready hR.toSpeaks _).1 0x84 q.bytes (some s) [] hkn (args_over hN hR c.args as hok ha hsp (some md))
    (by rw [hab]; simp only [List.length_nil]; omega) hread (c := cl) (by rw [List.append_nil, hab]; exact hcl)
  refine ⟨N, fun k hk => ?_⟩
  obtain ⟨st', h1, h2⟩ := hN k hk
  rw [List.append_nil, hab] at h1
  refine ⟨_, st', _, h1, by simpa using h2, rfl, (show _root_.Spec.hexText [0x84] = b!"84" by decide), rfl, hs, rfl, rfl, rfl, ?_, rfl⟩
  simp [Arg.item, Function.comp_def]

/-- Signed extrinsics of accounts are read if the extensions are in order. -/
theorem C97_partial (v : Nat) (reg : RegState) (spec : Int) (md0 : Option MD) (l : List OModule) (xv : Nat) (exts : List Str) (b : Str) (h9 : 9 ≤ v)
    (hv : v ≤ 13) (hr : ReadsOld reg.env ⟨[], spec, md0⟩) (hS : OldSignReady reg.env) (hf : FOld v l xv exts) (hd : DistinctIndex v l)
    (hw : EncOld v l xv exts b) (hl : b.length < 2 ^ 63) :
    ∃ out, Gives (fun n => processOld v n reg ⟨[], spec, md0⟩) b out ∧ ∀ md, UsesOldAll v md out →
      ReadsOldChain (fun _ => True) GoodValue (fun t y r b => GoodValue t y r b ∨ AccountValue t y r b) v l exts
        (fun x => ∀ n ∈ ownModules, ¬ SameName (keptText x.name) n) (fun b => b.head? = some 255) (InOldOrder v) out.reg.env md := by
  obtain ⟨out, read, rest, rfl, -, h1, h2, h3⟩ := C82_exact v reg ⟨[], spec, md0⟩ l xv exts b hr hf hd hw
  have hS' : OldSignReady out.reg.env := by
    rw [h3]
    split
    · exact hS
    · exact sign_origin hS _
  refine ⟨out, h1.gives hl, fun md hm x c i j as hc ho => readsOver_of (S := fun _ => True) substrate_wordy h9 hv h2 hS'.toOldReady.over hS'.held md hm x c i j as hc (foreign_substrate ho)⟩

/-! ## What does not -/

/-- A signature of zeros. -/
def zeroSig : Str := List.replicate 64 0

/-- An extrinsic of the account with the given text and bytes, with an immortal era, nonce 1 and tip 2. -/
def plainSigned (t b : Str) : OldSigned :=
  ⟨t, b, 1, zeroSig, [(b!"CheckEra", .era [0], [0]), (b!"CheckNonce", .nonce 1, [4]), (payment, .tip 2, [8])]⟩

theorem plain_ok {t b : Str} (h : SignerCoded t b) (V : TextRel) (exts : List Str) : OldSignedOK V 9 exts [] (plainSigned t b) where
  signer := h
  sig := ⟨b!"Sr25519", rfl⟩
  listed := rfl
  coded := by
    have k : keptText b!"CheckEra" = b!"CheckEra" ∧ keptText b!"CheckNonce" = b!"CheckNonce" ∧ keptText payment = payment := by decide +kernel
    intro e he
    simp only [plainSigned, List.mem_cons, List.not_mem_nil, or_false] at he
    rcases he with rfl | rfl | rfl
    · exact .era (by rw [k.1]; decide) (.inl rfl)
    · exact .nonce k.2.1 (by decide) (.inl ⟨by decide, by decide⟩)
    · exact .tip k.2.2 (by decide) (.inl ⟨by decide, by decide⟩)

/-- The full claim is false: the index of an account is taken for the beginning of an account. -/
theorem C97_claim_false : ¬ C97Claim := by
  intro h
  have hr := loaded_readsOld dummyExt 0 none
  obtain ⟨b, hb, hl⟩ := transfer_written
  obtain ⟨out, h1, h2⟩ := h 9 ⟨loadedEnv dummyExt, fun _ => none⟩ 0 none _ 0 [] b (by decide) (by decide) hr (loadedSign _) transfer_fits
    (fun h => absurd h (by decide)) List.nodup_nil hb hl
  obtain ⟨out2, read, rest, rfl, -, h3, h4, h5⟩ := C82_exact 9 ⟨loadedEnv dummyExt, fun _ => none⟩ ⟨[], 0, none⟩ _ 0 [] b hr transfer_fits
    (fun h => absurd h (by decide)) hb
  obtain rfl := gives_unique h1 (h3.gives hl)
  let md : MD := ⟨9, out.callIndex, out.eventIndex, none⟩
  have hm : UsesOldAll 9 md out := ⟨⟨rfl, rfl, rfl⟩, by rw [h4.extrinsic]; rfl⟩
  have burn : IsOldCall 9 [transferModule] transferModule ⟨b!"burn", [(b!"value", b!"Compact<T::Balance>")], []⟩ 0 1 := ⟨⟨[], [], rfl, rfl, rfl⟩, rfl⟩
  have e1 := h2 md hm _ _ 0 1 [(.dec 5 0, .dec 5 0, [20])] burn trivial (.cons (.inl (C94_values transfer_value)) .nil) ⟨[], 0, [], []⟩
    (plainSigned (natToDec 5) [UInt8.ofNat 5]) trivial rfl List.nodup_nil List.nodup_nil (plain_ok (.small (by decide)) _ _) trivial trivial (by decide +kernel)
  obtain ⟨N, hN⟩ := e1 [0x25, 0x01] (.inr (.inl ⟨by decide +kernel, by decide +kernel, by decide +kernel⟩))
  obtain ⟨x, st, s, g, -⟩ := hN (N + 40) (by omega)
  have e2 : decodeExtrinsic (loadedEnv dummyExt) 40 md ⟨[], 0, [], []⟩
      ([0x25, 0x01] ++ (plainSigned (natToDec 5) [UInt8.ofNat 5]).body 0 1 [(.dec 5 0, .dec 5 0, [20])]) = .panic := by
    unfold loadedEnv
    rw [loadedReg_fast]
    kernel_rfl
  have e3 := (decodeExtrinsic_mono (loadedEnv dummyExt) (show 40 ≤ N + 40 by omega) md ⟨[], 0, [], []⟩ _).panic e2
  rw [h5, if_pos (by decide)] at g
  rw [e3] at g
  cases g

/-! ## An example -/

/-- A module with one call. -/
def burnModule : OModule := ⟨b!"Balances", none, some [⟨b!"burn", [(b!"value", b!"Compact<T::Balance>")], []⟩], none, [], [], 7⟩

/-- Extensions without data, with the usual data, and with data of their own. -/
def burnExts : List Str := [b!"CheckSpecVersion", b!"CheckEra", b!"CheckNonce", b!"CheckWeight", payment, b!"Extra"]

theorem burn_fits : FOld 13 [burnModule] 4 burnExts := by
  have t : ∀ s : Str, s.length ≤ 40 → _root_.Spec.FText s := fun s h => Nat.lt_of_le_of_lt h (by decide)
  have nil : ∀ {α : Type} (P : α → Prop), _root_.Spec.FList P [] := fun P => ⟨by simp, by simp⟩
  have one : ∀ {α : Type} (P : α → Prop) (a : α), P a → _root_.Spec.FList P [a] := fun P a h => ⟨by simp, by simpa using h⟩
  refine ⟨one _ _ ⟨t _ (by decide), nofun, ?_, nofun, nil _, nil _, by decide⟩, by decide, by decide, fun s hs => t s ?_⟩
  · rintro s ⟨⟩
    exact one _ _ ⟨t _ (by decide), one _ _ ⟨t _ (by decide), t _ (by decide)⟩, nil _⟩
  · exact (by decide : ∀ s ∈ burnExts, s.length ≤ 40) s hs

open _root_.Spec (WText WList EncOArg EncOCall EncOModule) in
theorem burn_written : ∃ b, EncOld 13 [burnModule] 4 burnExts b ∧ b.length < 2 ^ 63 := by
  have zero : _root_.Spec.IsCompact 0 [0] := .inl ⟨by decide, by decide⟩
  have one : _root_.Spec.IsCompact 1 [4] := .inl ⟨by decide, by decide⟩
  have six : _root_.Spec.IsCompact 6 [24] := .inl ⟨by decide, by decide⟩
  have text : ∀ (s : Str) (c : UInt8), s.length < 64 → [c] = _root_.Spec.leBytes 1 (4 * s.length) → WText s ([c] ++ s) := fun s c h e =>
    ⟨[c], .inl ⟨h, e⟩, rfl⟩
  have nil : ∀ {α : Type} (P : α → Str → Prop), WList P [] [0] := fun P => ⟨[0], [], zero, rfl, rfl⟩
  have value : EncOArg (b!"value", b!"Compact<T::Balance>") _ := ⟨_, _, text _ 20 (by decide) (by decide), text _ 76 (by decide) (by decide), rfl⟩
  have call : EncOCall ⟨b!"burn", [(b!"value", b!"Compact<T::Balance>")], []⟩ _ :=
    ⟨_, _, _, text _ 16 (by decide) (by decide), ⟨[4], _, one, ⟨_, _, value, rfl, rfl⟩, rfl⟩, nil _, rfl⟩
  have mod : EncOModule 13 burnModule _ :=
    ⟨_, [0], _, [0], [0], [0], text _ 32 (by decide) (by decide), rfl, ⟨_, ⟨[4], _, one, ⟨_, _, call, rfl, rfl⟩, rfl⟩, rfl⟩, rfl, nil _, nil _, rfl⟩
  exact ⟨_, ⟨_, _, ⟨[4], _, one, ⟨_, [], mod, rfl, rfl⟩, rfl⟩, ⟨[24], _, six, ⟨_, _, text b!"CheckSpecVersion" 64 (by decide) (by decide),
    ⟨_, _, text b!"CheckEra" 32 (by decide) (by decide), ⟨_, _, text b!"CheckNonce" 40 (by decide) (by decide),
    ⟨_, _, text b!"CheckWeight" 44 (by decide) (by decide), ⟨_, _, text payment 96 (by decide) (by decide), ⟨_, _, text b!"Extra" 20 (by decide) (by decide),
    rfl, rfl⟩, rfl⟩, rfl⟩, rfl⟩, rfl⟩, rfl⟩, rfl⟩, rfl⟩, by decide +kernel⟩

/-- The field of the extension. -/
def burnField : Field := ⟨b!"level", b!"u16", .uint 2 258, [2, 1], []⟩

/-- Signed by the account `0101…` with an Ecdsa signature; tip 2, level 258. -/
def burnSigned : OldSigned :=
  ⟨_root_.Spec.hexText (List.replicate 32 1), 255 :: List.replicate 32 1, 2, List.replicate 65 9,
    [(b!"CheckSpecVersion", .nothing, []), (b!"CheckEra", .era [5, 1], [5, 1]), (b!"CheckNonce", .nonce 1, [4]), (b!"CheckWeight", .nothing, []),
      (payment, .tip 2, [8]), (b!"Extra", .data [(b!"level", .uint 2 258)], [2, 1])]⟩

theorem burn_signed : OldSignedOK GoodValue 13 burnExts [(b!"Extra", [(b!"level", b!"u16")])] burnSigned where
  signer := .account (by decide)
  sig := ⟨b!"Ecdsa", rfl⟩
  listed := rfl
  coded := by
    have k : ∀ x ∈ burnExts, keptText x = x := by decide +kernel
    intro e he
    simp only [burnSigned, List.mem_cons, List.not_mem_nil, or_false] at he
    rcases he with rfl | rfl | rfl | rfl | rfl | rfl
    · exact .nothing (by rw [k _ (by decide)]; decide) (by rw [k _ (by decide)]; decide)
    · exact .era (by rw [k _ (by decide)]; decide) (.inr ⟨5, 1, by decide, rfl⟩)
    · exact .nonce (k _ (by decide)) (by decide) (.inl ⟨by decide, by decide⟩)
    · exact .nothing (by rw [k _ (by decide)]; decide) (by rw [k _ (by decide)]; decide)
    · exact .tip (k _ (by decide)) (by decide) (.inl ⟨by decide, by decide⟩)
    · refine .data [burnField] (by rw [k _ (by decide)]; decide) (by rw [k _ (by decide)]; decide) ?_
      intro f hf
      obtain rfl : f = burnField := by simpa using hf
      exact ⟨rfl, .uint 2 258, b!"u16", .name (sh := .uint 2) (by simp [_root_.Spec.substrate, _root_.Spec.runtimeTypes]) ⟨[], [], .inl rfl, .inl rfl, rfl⟩,
        .leaf (sh := .uint 2) (.name (by simp [_root_.Spec.substrate, _root_.Spec.runtimeTypes])) ⟨258, by decide, rfl, rfl, rfl, by decide⟩ trivial⟩

theorem burn_order : InOldOrder 13 [(b!"Extra", [(b!"level", b!"u16")])] burnSigned.exts := by
  refine ⟨⟨b!"CheckEra", [5, 1], [5, 1], b!"CheckNonce", 1, [4], [(payment, .tip 2, [8])], [(b!"Extra", .data [(b!"level", .uint 2 258)], [2, 1])], rfl,
    .inr ⟨_, _, _, rfl⟩, ?_, by decide +kernel⟩, fun h => absurd h (by decide)⟩
  intro e he
  obtain rfl : e = _ := by simpa using he
  exact ⟨_, rfl⟩

/-- The extrinsic above with a call that burns 5 is read. -/
example : ∃ b out, Gives (fun n => processOld 13 n ⟨loadedEnv dummyExt, fun _ => none⟩ ⟨[], 0, none⟩) b out ∧ ∀ md, UsesOldAll 13 md out →
    IsReadOld out.reg.env md ⟨[], 0, [(b!"Extra", [(b!"level", b!"u16")])], []⟩ burnSigned 7 0
      ⟨b!"burn", b!"Balances", [(b!"value", b!"Compact<Balance>")]⟩ [(.dec 5 0, .dec 5 0, [20])] := by
  obtain ⟨b, hb, hl⟩ := burn_written
  obtain ⟨out, h1, h2⟩ := C97_partial 13 ⟨loadedEnv dummyExt, fun _ => none⟩ 0 none _ 4 _ b (by decide) (by decide) (loaded_readsOld dummyExt 0 none)
    (loadedSign _) burn_fits (fun _ => by simp [burnModule]) hb hl
  refine ⟨b, out, h1, fun md hm => ?_⟩
  have burn : IsOldCall 13 [burnModule] burnModule ⟨b!"burn", [(b!"value", b!"Compact<T::Balance>")], []⟩ 7 0 := ⟨⟨by simp, rfl⟩, rfl⟩
  have e : oldCallEntry burnModule ⟨b!"burn", [(b!"value", b!"Compact<T::Balance>")], []⟩ = ⟨b!"burn", b!"Balances", [(b!"value", b!"Compact<Balance>")]⟩ := by
    kernel_rfl
  rw [← e]
  exact h2 md hm _ _ 7 0 _ burn (by decide +kernel) (.cons (.inl transfer_value) .nil) _ _ trivial rfl (by decide) (by decide) burn_signed rfl burn_order
    (by decide +kernel)

/-- Extrinsics of accounts with metadata of version 9, where the tip is not listed. -/
example : ∃ b out, Gives (fun n => processOld 9 n ⟨loadedEnv dummyExt, fun _ => none⟩ ⟨[], 0, none⟩) b out ∧ ∀ md, UsesOldAll 9 md out →
    IsReadOld out.reg.env md ⟨[], 0, [], []⟩ (plainSigned (_root_.Spec.hexText (List.replicate 32 1)) (255 :: List.replicate 32 1)) 0 1
      (oldCallEntry transferModule ⟨b!"burn", [(b!"value", b!"Compact<T::Balance>")], []⟩) [(.dec 5 0, .dec 5 0, [20])] := by
  obtain ⟨b, hb, hl⟩ := transfer_written
  obtain ⟨out, h1, h2⟩ := C97_partial 9 ⟨loadedEnv dummyExt, fun _ => none⟩ 0 none _ 0 _ b (by decide) (by decide) (loaded_readsOld dummyExt 0 none)
    (loadedSign _) transfer_fits (fun h => absurd h (by decide)) hb hl
  refine ⟨b, out, h1, fun md hm => ?_⟩
  have burn : IsOldCall 9 [transferModule] transferModule ⟨b!"burn", [(b!"value", b!"Compact<T::Balance>")], []⟩ 0 1 := ⟨⟨[], [], rfl, rfl, rfl⟩, rfl⟩
  exact h2 md hm _ _ 0 1 _ burn (by decide +kernel) (.cons (.inl transfer_value) .nil) _ _ trivial rfl (by decide) (by decide)
    (plain_ok (.account (by decide)) _ _) rfl ⟨⟨_, _, _, _, _, _, [_], [], rfl, .inr ⟨_, _, _, rfl⟩, by simp, rfl⟩, fun _ => rfl⟩ (by decide +kernel)

end ScaleGo
