import Verif.Lemmas.ExtrinsicMono
import Verif.Props.C15
import Verif.Props.C16
import Verif.Props.C44
import Verif.Props.C45
import Verif.Props.C48
import Verif.Props.C50

/-! # C43: encoding and decoding an extrinsic -/

namespace ScaleGo

open ScaleGo.Spec

namespace Spec

/-- Names of the metadata extensions that carry data in the decoder. -/
def Enabled (opt : ExtOpt) (n : Str) : Prop :=
  n ∈ [b!"ChargeTransactionPayment", b!"ChargeAssetTxPayment", b!"CheckMetadataHash"] ∨ n ∈ opt.additionalCheck

instance (opt : ExtOpt) (n : Str) : Decidable (Enabled opt n) := by unfold Enabled; exact inferInstance

/-- The call of `g` is the metadata entry `e`, and every argument can be encoded to bytes that decode to a value; the items are
these values with their bytes. -/
structure CallOK (env : Env) (spec : Int) (md : MD) (opt : ExtOpt) (g : ExtrinsicIn) (i j : UInt8) (e : CallEntry) (items : List Item) :
    Prop where
  code : g.callCode = _root_.Spec.hexText [i, j]
  known : md.callIndex g.callCode = some e
  count : g.params.length = e.args.length
  args : List.Forall₂ (fun (p : (Str × Str) × Val) (x : Item) => Encodes env ⟨spec, some md⟩ p.1.2 p.2 x.2.1 ∧
    Decodes env ⟨e.moduleName, opt.spec, some md⟩ p.1.2 x.2.1 x.1 x.2.2) (e.args.zip g.params) items

/-- Decoded values and bytes of the parts of a signature. -/
structure SignedParts where
  signer : Val
  signerB : Str
  sig : Val
  sigText : Str
  sigB : Str
  eraB : Str
  nonceB : Str
  tipV : Val
  tipB : Str

/-- Every part of the signature can be encoded to bytes which, the signer apart, decode to the listed value. -/
structure SignedOK (env : Env) (md : MD) (opt : ExtOpt) (g : ExtrinsicIn) (p : SignedParts) : Prop where
  signer : Encodes env ECtx.none (encSignerType env md) g.signer p.signerB
  sig : Encodes env ECtx.none b!"ExtrinsicSignature" g.signatureRaw p.sigB
  sig' : Decodes env ⟨opt.module, opt.spec, some md⟩ b!"ExtrinsicSignature" p.sigB p.sig []
  text : signatureOf p.sig = .ok p.sigText
  era : Encodes env ECtx.none b!"EraExtrinsic" (.str g.era) p.eraB
  era' : Decodes env ⟨opt.module, opt.spec, some md⟩ b!"EraExtrinsic" p.eraB (.str g.era) []
  nonce : Encodes env ECtx.none b!"Compact<U64>" (.int g.nonce) p.nonceB
  nonce' : Decodes env ⟨opt.module, opt.spec, some md⟩ b!"Compact<U64>" p.nonceB (.uint 8 g.nonce.toNat) []
  nonceR : 0 ≤ g.nonce ∧ g.nonce < 2 ^ 63
  tip : Encodes env ECtx.none b!"Compact<Balance>" (.dec g.tip.1 g.tip.2) p.tipB
  tip' : Decodes env ⟨opt.module, opt.spec, some md⟩ b!"Compact<Balance>" p.tipB p.tipV []
  tipD : decFromVal env.ext p.tipV = .ok g.tip

/-- A supplied extension: name, metadata type, supplied value, bytes, decoded value. -/
structure ExtItem where
  name : Str
  type : Str
  value : Val
  bytes : Str
  decoded : Val

/-- The supplied extensions are the items, and each one can be encoded to bytes that decode to the listed value. -/
structure ExtsOK (env : Env) (md : MD) (opt : ExtOpt) (g : ExtrinsicIn) (xs : List ExtItem) : Prop where
  supplied : g.extensions = xs.map fun x => (x.name, x.value)
  enc : ∀ x ∈ xs, Encodes env ECtx.none x.type x.value x.bytes
  dec : ∀ x ∈ xs, Decodes env ⟨opt.module, opt.spec, some md⟩ x.type x.bytes x.decoded []

/-- The bytes between version and call: signer, signature, era, nonce, the tip if the metadata lists the payment extension, extensions. -/
def signedBytes (md : MD) : Option (SignedParts × List ExtItem) → Str
  | none => []
  | some (p, xs) => p.signerB ++ (p.sigB ++ (p.eraB ++ (p.nonceB ++ ((match md.extrinsic with
      | some x => if b!"ChargeTransactionPayment" ∈ x.signedIdentifier then p.tipB else []
      | none => []) ++ (xs.map (·.bytes)).flatten))))

/-- `h` is the text of version, `sb`, call and arguments, after their number as a compact integer if it is below 2^30. -/
def Laid (g : ExtrinsicIn) (sb : Str) (items : List Item) (h : Str) : Prop :=
  ∃ c body, h = _root_.Spec.hexText (c ++ body) ∧
    _root_.Spec.hexText body = g.version ++ _root_.Spec.hexText sb ++ g.callCode ++ _root_.Spec.hexText (items.map (·.2.1)).flatten ∧
    (body.length < 2 ^ 30 → _root_.Spec.IsCompact body.length c)

/-- `g` encodes to the bytes of its parts, and these decode to an extrinsic with the same version, call, arguments and, if `signed`,
the same signature. -/
def RoundTrips (env : Env) (spec : Int) (md : MD) (opt : ExtOpt) (g : ExtrinsicIn) (e : CallEntry) (items : List Item)
    (signed : Option (SignedParts × List ExtItem)) : Prop :=
  ∃ h N, Laid g (signedBytes md signed) items h ∧ (∀ n, N ≤ n → encodeExtrinsic env n spec (some md) g = .ok (.ok h)) ∧
    ∀ n, N ≤ n → ∃ x st, decodeExtrinsic env n md opt (hexToBytes h) = .ok (x, st) ∧ x.version = g.version ∧ x.callCode = g.callCode ∧
      x.callModule = e.moduleName ∧ x.callFunction = e.callName ∧
      x.params = (e.args.zip (items.map (·.1))).map (fun a => (a.1.1, a.1.2, a.2)) ∧
      x.paramsRaw = _root_.Spec.hexText (items.map (·.2.1)).flatten ∧
      (match signed with
        | none => x.signed = none
        | some (p, xs) => ∃ s, x.signed = some s ∧ s.signer = p.signer ∧ s.signatureRaw = p.sig ∧ s.signature = p.sigText ∧
          s.era = g.era ∧ s.nonce = g.nonce ∧ s.tip = g.tip ∧ s.extensions = xs.map fun y => (y.name, y.decoded))

/-- The environment writes and reads lengths. -/
def LensOK (env : Env) (md : MD) (opt : ExtOpt) : Prop := LenOK env ⟨opt.module, opt.spec, some md⟩ ∧ LenEncOK env

end Spec

/-- C43 for unsigned extrinsics of one version. -/
def C43Bare (v : Str) : Prop := ∀ (env : Env) (spec : Int) (md : MD) (opt : ExtOpt) (g : ExtrinsicIn) (i j : UInt8) (e : CallEntry)
  (items : List Item), LensOK env md opt → g.version = v → CallOK env spec md opt g i j e items →
  (items.map (·.2.1)).flatten.length < 2 ^ 61 → RoundTrips env spec md opt g e items none

/-- C43 for signed extrinsics of one version: the supplied extensions are those which the metadata asks for. -/
def C43Signed (v : Str) : Prop := ∀ (env : Env) (spec : Int) (md : MD) (opt : ExtOpt) (g : ExtrinsicIn) (i j : UInt8) (e : CallEntry)
  (items : List Item) (p : SignedParts) (xs : List ExtItem) (x : ExtrinsicMeta), LensOK env md opt → g.version = v →
  CallOK env spec md opt g i j e items → SignedOK env md opt g p →
  Decodes env ⟨opt.module, opt.spec, some md⟩ (encSignerType env md) p.signerB p.signer [] → ExtsOK env md opt g xs → md.extrinsic = some x →
  x.signedIdentifier = x.signedExtensions.map (·.1) → (x.signedExtensions.map (·.1)).Nodup → opt.signedExtensions = [] →
  b!"ChargeTransactionPayment" ∈ x.signedIdentifier →
  (xs.map fun y => (y.name, y.type)).Perm
    (x.signedExtensions.filter fun y => decide (Enabled opt y.1 ∧ y.1 ≠ b!"ChargeTransactionPayment")) →
  (items.map (·.2.1)).flatten.length + p.signerB.length + p.sigB.length + p.eraB.length + p.nonceB.length + p.tipB.length +
    (xs.map (·.bytes)).flatten.length < 2 ^ 61 → RoundTrips env spec md opt g e items (some (p, xs))

/-- C43 in full. -/
def C43Claim : Prop := C43Bare b!"04" ∧ C43Bare b!"05" ∧ C43Signed b!"84" ∧ C43Signed b!"85"

theorem sliceIndex_isSome (s : Str) (l : List Str) : (sliceIndex s l).isSome = true ↔ s ∈ l := by
  induction l with
  | nil => simp [sliceIndex]
  | cons b bs ih =>
    by_cases h : b = s
    · simp [sliceIndex, h]
    · simp only [sliceIndex, if_neg h, Option.isSome_map, ih, List.mem_cons]
      exact ⟨.inr, fun h' => h'.resolve_left fun e => h e.symm⟩

theorem decAt_procArgs {rec : Rec} {ctx : Ctx} : ∀ (args : List (Str × Str)) (items : List Item),
    List.Forall₂ (fun a x => DecAt (rec ctx a.2) x.2.1 x.1 x.2.2) args items →
    DecAt (procArgs rec ctx args) (items.map (·.2.1)).flatten ((args.zip (items.map (fun x : Item => x.1))).map (fun a => (a.1.1, a.1.2, a.2)))
      (items.map (·.2.2)).flatten := by
  intro args items h
  induction h with
  | nil => exact DecAt.pure _
  | @cons t x ts xs h1 h2 ih =>
    have := DecAt.bind (g := fun v st => procArgs rec ctx ts st >>= fun p => .ok ((t.1, t.2, v) :: p.1, p.2)) h1
      (ih.map (fun ps => (t.1, t.2, x.1) :: ps))
    simpa [procArgs] using this

theorem decAt_readCall {rec : Rec} {ctx : Ctx} {md : MD} {i j : UInt8} {e : CallEntry} {items : List Item}
    (hk : md.callIndex (_root_.Spec.hexText [i, j]) = some e)
    (h : List.Forall₂ (fun a x => DecAt (rec { ctx with module := e.moduleName } a.2) x.2.1 x.1 x.2.2) e.args items) :
    DecAt (readCall rec ctx md) ([i, j] ++ (items.map (·.2.1)).flatten) (_root_.Spec.hexText [i, j], e,
      (e.args.zip (items.map (fun x : Item => x.1))).map (fun a => (a.1.1, a.1.2, a.2)), _root_.Spec.hexText (items.map (·.2.1)).flatten)
      (items.map (·.2.2)).flatten := by
  intro pre suf cs hl
  have d := decAt_procArgs e.args items h
  have l2 := nextBytes_at pre [i, j] ((items.map (·.2.1)).flatten ++ suf) cs 2 rfl (by simp only [List.length_append] at hl ⊢; omega)
  have l3 := d (pre ++ [i, j]) suf cs (by simp only [List.length_append] at hl ⊢; omega)
  have hraw : ((pre ++ ([i, j] ++ ((items.map (·.2.1)).flatten ++ suf))).drop (pre.length + [i, j].length)).take
      (pre.length + [i, j].length + (items.map (·.2.1)).flatten.length - (pre.length + [i, j].length)) = (items.map (·.2.1)).flatten := by
    rw [← List.append_assoc, show pre.length + [i, j].length = (pre ++ [i, j]).length by simp only [List.length_append],
      List.drop_left, Nat.add_sub_cancel_left, List.take_left]
  simp only [List.append_assoc, List.length_append, Nat.add_assoc] at l2 l3 hraw ⊢
  unfold readCall
  rw [l2, Res.ok_bind]
  rw [← bytesToHex_eq_spec] at hk
  dsimp only
  rw [if_neg (by rw [bytesToHex]; exact List.cons_ne_nil _ _), hk]
  dsimp only
  rw [l3, Res.ok_bind]
  dsimp only
  rw [hraw, bytesToHex_eq_spec, bytesToHex_eq_spec]

theorem forall2_args {env : Env} {ectx : ECtx} {ctx : Ctx} {args : List (Str × Str)} {ps : List Val} {items : List Item}
    (hc : ps.length = args.length) (h : List.Forall₂ (fun (p : (Str × Str) × Val) (x : Item) => Encodes env ectx p.1.2 p.2 x.2.1 ∧
      Decodes env ctx p.1.2 x.2.1 x.1 x.2.2) (args.zip ps) items) :
    ∃ N, ∀ n, N ≤ n → List.Forall₂ (fun a x => DecAt (pau env n ctx a.2) x.2.1 x.1 x.2.2) args items ∧
      encParams (enc env n) ectx args ps = .ok (_root_.Spec.hexText (items.map (·.2.1)).flatten) := by
  induction args generalizing ps items with
  | nil => cases h; exact ⟨0, fun _ _ => ⟨.nil, rfl⟩⟩
  | cons a args ih =>
    cases ps with
    | nil => simp at hc
    | cons v ps =>
      rw [List.zip_cons_cons] at h
      cases h with
      | @cons _ x _ xs h1 h2 =>
        obtain ⟨N, hN⟩ := ih (by simpa using hc) h2
        obtain ⟨⟨N1, e1⟩, N2, e2⟩ := h1
        refine ⟨max N (max N1 N2), fun n hn => ?_⟩
        obtain ⟨k1, k2⟩ := hN n (by omega)
        refine ⟨.cons (e2 n (by omega)) k1, ?_⟩
        obtain ⟨an, at'⟩ := a
        rw [encParams, e1 n (by omega), k2]
        simp only [Res.ok_bind, trimHex_hexText, List.map_cons, List.flatten_cons]
        rw [← bytesToHex_eq_spec, ← bytesToHex_eq_spec, ← bytesToHex_eq_spec, bytesToHex_append]

/-- Where the decoder goes on after the length written by the encoder. -/
theorem readLength_written {env : Env} {md : MD} {opt : ExtOpt} (hl : LensOK env md opt) {v : UInt8} (hv : v ∈ [4, 5, 132, 133])
    (rest : Str) (hr : 3 ≤ (v :: rest).length) (hlen : (v :: rest).length < 2 ^ 62) : ∃ c N, c.length ≤ 5 ∧
      ((v :: rest).length < 2 ^ 30 → _root_.Spec.IsCompact (v :: rest).length c) ∧
      (∀ n, N ≤ n → enc env n ECtx.none b!"Compact<u32>" (.int (v :: rest).length) = .ok (_root_.Spec.hexText c)) ∧
      ∃ len, ∀ n, N ≤ n → readLength (pau env n) ⟨opt.module, opt.spec, some md⟩ ⟨⟨c ++ (v :: rest), 0⟩, []⟩ =
        .ok (len, ⟨⟨c ++ (v :: rest), c.length⟩, []⟩) := by
  by_cases h30 : (v :: rest).length < 2 ^ 30
  · obtain ⟨c, hc⟩ := isCompact_exists (v :: rest).length (Nat.lt_of_lt_of_le h30 (by decide))
    obtain ⟨N1, e1⟩ := len_encodes hl.2 h30 hc
    obtain ⟨N2, e2⟩ := len_decodes hl.1 (by omega) hc
    have hcl : c.length ≤ 5 := by
      rcases hc with ⟨_, rfl⟩ | ⟨_, _, rfl⟩ | ⟨_, _, rfl⟩ | ⟨h, _⟩
      · rw [leBytes_length]; omega
      · rw [leBytes_length]; omega
      · rw [leBytes_length]; omega
      · omega
    refine ⟨c, max N1 N2, hcl, fun _ => hc, fun n hn => e1 n (by omega), (v :: rest).length, fun n hn => ?_⟩
    have := e2 n (by omega) [] (v :: rest) [] (by simp only [List.length_nil]; omega)
    simp only [List.nil_append, List.length_nil, Nat.zero_add, List.append_nil] at this
    unfold readLength
    rw [this, Res.ok_bind]
    dsimp only [asInt]
    rw [Res.ok_bind, if_neg]
    simp only [remaining, List.length_append, ne_eq, not_not]
    omega
  · obtain ⟨s, hs⟩ := hl.2
    obtain ⟨N1, e1⟩ := C15_encodes_nothing env ECtx.none _ s (.int (v :: rest).length) (v :: rest).length (by omega) (by omega) hs rfl rfl
    refine ⟨[], max N1 1, by decide, fun h => absurd h h30, fun n hn => e1 n (by omega), 0, fun n hn => ?_⟩
    have : ∃ m k, compactAt (v :: rest) = some (m, k) ∧ m < 2 ^ 14 ∧ k ≤ 2 := by
      match rest, hr with
      | x :: y :: r, _ =>
        have hx := x.toNat_lt
        simp only [List.mem_cons, List.not_mem_nil, or_false] at hv
        rcases hv with rfl | rfl | rfl | rfl
        · exact ⟨1, 1, by simp [compactAt, _root_.Spec.compactLen, leValue], by decide, by decide⟩
        · refine ⟨(5 + 256 * x.toNat) / 4, 2, ?_, by omega, by decide⟩
          simp [compactAt, _root_.Spec.compactLen, leValue]
        · exact ⟨33, 1, by simp [compactAt, _root_.Spec.compactLen, leValue], by decide, by decide⟩
        · refine ⟨(133 + 256 * x.toNat) / 4, 2, ?_, by omega, by decide⟩
          simp [compactAt, _root_.Spec.compactLen, leValue]
    obtain ⟨m, k, hc, hm, hk⟩ := this
    obtain ⟨w, hw, hk', e⟩ := readLength_at hl.1 hc (by omega)
    have := e n (by omega)
    rw [List.nil_append, this, hw (by omega), wrap64_nat (by omega), if_pos]
    · rfl
    · simp only [ne_eq]
      omega

/-- Common part: what precedes the call is written as `sb` and read as `s`. -/
theorem roundTrips_of {env : Env} {spec : Int} {md : MD} {opt : ExtOpt} {g : ExtrinsicIn} {i j : UInt8} {e : CallEntry}
    {items : List Item} (hl : LensOK env md opt) (v : UInt8) (hv : v ∈ [4, 5, 132, 133]) (hver : g.version = _root_.Spec.hexText [v])
    (hc : CallOK env spec md opt g i j e items) (sb : Str) (s : Option Signed) (ics : List Str)
    (hlen : (items.map (·.2.1)).flatten.length + sb.length < 2 ^ 61 + 2 ^ 60)
    (hs : ∃ N, ∀ n, N ≤ n → encSignedPart env (enc env n) md g = .ok (_root_.Spec.hexText sb) ∧
      DecAt (readSigned env (pau env n) ⟨opt.module, opt.spec, some md⟩ md opt g.version) sb s ics) :
    ∃ h N, Laid g sb items h ∧ (∀ n, N ≤ n → encodeExtrinsic env n spec (some md) g = .ok (.ok h)) ∧
      ∀ n, N ≤ n → ∃ x st, decodeExtrinsic env n md opt (hexToBytes h) = .ok (x, st) ∧ x.version = g.version ∧ x.callCode = g.callCode ∧
        x.callModule = e.moduleName ∧ x.callFunction = e.callName ∧
        x.params = (e.args.zip (items.map (·.1))).map (fun a => (a.1.1, a.1.2, a.2)) ∧
        x.paramsRaw = _root_.Spec.hexText (items.map (·.2.1)).flatten ∧ x.signed = s := by
  obtain ⟨N1, h1⟩ := hs
  obtain ⟨N2, h2⟩ := forall2_args hc.count hc.args
  obtain ⟨c, N3, hcl, hci, h3, len, h4⟩ := readLength_written hl hv (sb ++ ([i, j] ++ (items.map (·.2.1)).flatten))
    (by simp only [List.length_cons, List.length_append, List.length_nil]; omega)
    (by simp only [List.length_cons, List.length_append, List.length_nil]; omega)
  have hbody : g.version ++ _root_.Spec.hexText sb ++ g.callCode ++ _root_.Spec.hexText (items.map (·.2.1)).flatten =
      bytesToHex (v :: (sb ++ ([i, j] ++ (items.map (·.2.1)).flatten))) := by
    rw [hver, hc.code]
    simp only [← bytesToHex_eq_spec, ← bytesToHex_append, List.append_assoc, List.cons_append, List.nil_append]
  have hk := hc.known
  rw [hc.code] at hk
  refine ⟨bytesToHex (c ++ v :: (sb ++ ([i, j] ++ (items.map (·.2.1)).flatten))), max N1 (max N2 N3),
    ⟨c, _, by rw [bytesToHex_eq_spec], by rw [hbody, bytesToHex_eq_spec], hci⟩, fun n hn => ?_, fun n hn => ?_⟩
  · unfold encodeExtrinsic
    dsimp only
    rw [(h1 n (by omega)).1, Res.ok_bind, hc.known]
    dsimp only
    rw [if_neg (not_not.2 hc.count), (h2 n (by omega)).2, Res.ok_bind]
    rw [hbody, hexToBytes_bytesToHex, h3 n (by omega), Res.ok_bind, ← bytesToHex_eq_spec, bytesToHex_append]
  · rw [hexToBytes_bytesToHex]
    have d1 := h4 n (by omega)
    have d2 := nextBytes_at c [v] (sb ++ ([i, j] ++ (items.map (·.2.1)).flatten)) [] 1 rfl
      (by simp only [List.length_append, List.length_cons, List.length_nil]; omega)
    have d3 := (h1 n (by omega)).2 (c ++ [v]) ([i, j] ++ (items.map (·.2.1)).flatten) []
      (by simp only [List.length_append, List.length_cons, List.length_nil]; omega)
    have d4 := decAt_readCall (ctx := ⟨opt.module, opt.spec, some md⟩) hk (h2 n (by omega)).1 (c ++ [v] ++ sb) [] ([] ++ ics)
      (by simp only [List.length_append, List.length_cons, List.length_nil]; omega)
    simp only [List.append_assoc, List.cons_append, List.nil_append, List.append_nil, List.length_append, List.length_cons,
      List.length_nil, Nat.zero_add, Nat.add_assoc] at d1 d2 d3 d4 ⊢
    rw [Nat.add_comm (List.length sb) 1] at d4
    unfold decodeExtrinsic processExtrinsic
    dsimp only
    rw [d1, Res.ok_bind]
    dsimp only
    rw [d2, Res.ok_bind]
    dsimp only
    rw [bytesToHex_eq_spec, ← hver, d3, Res.ok_bind]
    dsimp only
    rw [d4, Res.ok_bind]
    exact ⟨_, _, rfl, rfl, hc.code.symm, rfl, rfl, rfl, rfl, rfl⟩

/-- Unsigned extrinsics of versions 4 and 5 round-trip, without any restriction on the metadata. -/
theorem C43_bare (v : Str) (hv : v = b!"04" ∨ v = b!"05") : C43Bare v := by
  intro env spec md opt g i j e items hl hver hc hlen
  have hr : ∀ n, encSignedPart env (enc env n) md g = .ok (_root_.Spec.hexText []) ∧
      DecAt (readSigned env (pau env n) ⟨opt.module, opt.spec, some md⟩ md opt g.version) [] none [] := by
    intro n
    constructor
    · unfold encSignedPart
      rw [if_neg (by rw [hver]; rcases hv with rfl | rfl <;> decide)]
      rfl
    · have : readSigned env (pau env n) ⟨opt.module, opt.spec, some md⟩ md opt g.version = fun st => .ok (none, st) := by
        funext st
        unfold readSigned
        rw [hver, if_pos hv]
      rw [this]
      exact DecAt.pure _
  have key : ∀ b : UInt8, b ∈ [4, 5, 132, 133] → g.version = _root_.Spec.hexText [b] → RoundTrips env spec md opt g e items none := by
    intro b hb hgb
    obtain ⟨h, N, k0, k1, k2⟩ := roundTrips_of hl b hb hgb hc [] none [] (by simp only [List.length_nil]; omega) ⟨0, fun n _ => hr n⟩
    exact ⟨h, N, k0, k1, k2⟩
  rcases hv with rfl | rfl
  · exact key 4 (by decide) (hver.trans (by decide))
  · exact key 5 (by decide) (hver.trans (by decide))

theorem DecAt.value {α β : Type} {r : Res α} {k : α → Dec β} {b : Str} {a : α} {c : β} {ic : List Str} (h : r = .ok a)
    (h2 : DecAt (k a) b c ic) : DecAt (fun st => r >>= fun x => k x st) b c ic := by
  subst h
  exact h2

theorem DecAt.cast {α : Type} {f : Dec α} {b b' : Str} {a : α} {ic : List Str} (h : DecAt f b a ic) (e : b = b') : DecAt f b' a ic := e ▸ h

theorem decAt_readTip {ext : Ext} {rec : Rec} {ctx : Ctx} {b : Str} {v : Val} {t : Int × Int}
    (h : DecAt (rec ctx b!"Compact<Balance>") b v []) (hd : decFromVal ext v = .ok t) : DecAt (readTip ext rec ctx) b t [] := by
  unfold readTip
  refine DecAt.last h fun st => ?_
  dsimp only
  rw [hd, Res.ok_bind]

theorem enabled_iff (opt : ExtOpt) (n : Str) : (n ∈ enabledExts ∨ (sliceIndex n opt.additionalCheck).isSome = true) ↔ Enabled opt n := by
  rw [sliceIndex_isSome]; rfl

/-- Reading the enabled extensions other than the tip. -/
theorem decAt_metaExts {ext : Ext} {rec : Rec} {ctx : Ctx} {opt : ExtOpt} : ∀ (l : List (Str × Str)) (xs : List ExtItem) (tip : Int × Int)
    (acc : List (Str × Val)), l.filter (fun y => decide (Enabled opt y.1)) = xs.map (fun y => (y.name, y.type)) →
    (∀ y ∈ xs, y.name ≠ b!"ChargeTransactionPayment") → (∀ y ∈ xs, DecAt (rec ctx y.type) y.bytes y.decoded []) →
    (acc.map (·.1) ++ xs.map (·.name)).Nodup →
    DecAt (readMetaExts ext rec ctx opt.additionalCheck l tip acc) (xs.map (·.bytes)).flatten
      (tip, acc ++ xs.map fun y => (y.name, y.decoded)) [] := by
  intro l
  induction l with
  | nil =>
    intro xs tip acc hf _ _ _
    cases xs with
    | nil => simpa [readMetaExts] using DecAt.pure (tip, acc)
    | cons y ys => simp at hf
  | cons m l ih =>
    intro xs tip acc hf hne hd hn
    obtain ⟨n, t⟩ := m
    by_cases he : Enabled opt n
    · rw [List.filter_cons_of_pos (by simpa using he)] at hf
      cases xs with
      | nil => simp at hf
      | cons y ys =>
        rw [List.map_cons] at hf
        obtain ⟨h1, h2⟩ := List.cons.inj hf
        obtain ⟨rfl, rfl⟩ := Prod.mk.inj h1
        have hfresh : y.name ∉ acc.map (·.1) := by
          intro hm
          rw [List.map_cons, List.nodup_append] at hn
          exact hn.2.2 _ hm _ (by simp) rfl
        have k := ih ys tip (acc ++ [(y.name, y.decoded)]) h2 (fun z hz => hne z (by simp [hz])) (fun z hz => hd z (by simp [hz]))
          (by simpa using hn)
        have e : readMetaExts ext rec ctx opt.additionalCheck ((y.name, y.type) :: l) tip acc = fun st => rec ctx y.type st >>= fun p =>
            readMetaExts ext rec ctx opt.additionalCheck l tip (mapSet acc y.name p.1) p.2 := by
          funext st
          rw [readMetaExts, if_pos ((enabled_iff opt _).2 he), if_neg (hne y (by simp))]
        rw [e, List.map_cons, List.flatten_cons]
        refine DecAt.step0 (hd y (by simp)) ?_
        dsimp only
        rw [mapSet_fresh hfresh]
        simpa using k
    · rw [List.filter_cons_of_neg (by simpa using he)] at hf
      have e : readMetaExts ext rec ctx opt.additionalCheck ((n, t) :: l) tip acc = readMetaExts ext rec ctx opt.additionalCheck l tip acc := by
        funext st
        rw [readMetaExts, if_neg (fun h => he ((enabled_iff opt _).1 h))]
      rw [e]
      exact ih xs tip acc hf hne hd hn

/-- The same with the tip first. -/
theorem decAt_metaExts_tip {ext : Ext} {rec : Rec} {ctx : Ctx} {opt : ExtOpt} (l : List (Str × Str)) (xs : List ExtItem) (tip tip' : Int × Int)
    (tt tb : Str) (tv : Val)
    (hf : l.filter (fun y => decide (Enabled opt y.1)) = (b!"ChargeTransactionPayment", tt) :: xs.map (fun y => (y.name, y.type)))
    (hne : ∀ y ∈ xs, y.name ≠ b!"ChargeTransactionPayment") (hd : ∀ y ∈ xs, DecAt (rec ctx y.type) y.bytes y.decoded [])
    (hn : (xs.map (·.name)).Nodup) (ht : DecAt (rec ctx b!"Compact<Balance>") tb tv []) (htd : decFromVal ext tv = .ok tip') :
    DecAt (readMetaExts ext rec ctx opt.additionalCheck l tip []) (tb ++ (xs.map (·.bytes)).flatten)
      (tip', xs.map fun y => (y.name, y.decoded)) [] := by
  induction l with
  | nil => simp at hf
  | cons m l ih =>
    obtain ⟨n, t⟩ := m
    by_cases he : Enabled opt n
    · rw [List.filter_cons_of_pos (by simpa using he)] at hf
      obtain ⟨h1, h2⟩ := List.cons.inj hf
      obtain ⟨rfl, rfl⟩ := Prod.mk.inj h1
      have e : readMetaExts ext rec ctx opt.additionalCheck ((b!"ChargeTransactionPayment", t) :: l) tip [] = fun st =>
          readTip ext rec ctx st >>= fun p => readMetaExts ext rec ctx opt.additionalCheck l p.1 [] p.2 := by
        funext st
        rw [readMetaExts, if_pos ((enabled_iff opt _).2 he), if_pos rfl]
      rw [e]
      refine DecAt.step0 (decAt_readTip ht htd) ?_
      simpa using decAt_metaExts (ext := ext) l xs tip' [] h2 hne hd (by simpa using hn)
    · rw [List.filter_cons_of_neg (by simpa using he)] at hf
      have e : readMetaExts ext rec ctx opt.additionalCheck ((n, t) :: l) tip [] = readMetaExts ext rec ctx opt.additionalCheck l tip [] := by
        funext st
        rw [readMetaExts, if_neg (fun h => he ((enabled_iff opt _).1 h))]
      rw [e]
      exact ih hf

/-- Reading the signed part of version 4. -/
theorem decAt_signed4 {env : Env} {rec : Rec} {ctx : Ctx} {md : MD} {opt : ExtOpt} {p : SignedParts} {era : Str} {nonce : Int}
    {b1 b2 : Str} {t0 tip : Int × Int} {exts : List (Str × Val)}
    (h1 : DecAt (rec ctx (signerType env md)) p.signerB p.signer []) (h2 : DecAt (rec ctx b!"ExtrinsicSignature") p.sigB p.sig [])
    (h3 : signatureOf p.sig = .ok p.sigText) (h4 : DecAt (rec ctx b!"EraExtrinsic") p.eraB (.str era) [])
    (h5 : DecAt (rec ctx b!"Compact<U64>") p.nonceB (.uint 8 nonce.toNat) []) (h6 : 0 ≤ nonce ∧ nonce < 2 ^ 63)
    (h7 : DecAt (readTip4 env.ext rec ctx md) b1 t0 []) (h8 : DecAt (readExts4 env.ext rec ctx md opt t0) b2 (tip, exts) []) :
    DecAt (readSigned4 env rec ctx md opt) (p.signerB ++ (p.sigB ++ (p.eraB ++ (p.nonceB ++ (b1 ++ b2)))))
      ⟨p.signer, p.sig, p.sigText, 0, era, nonce, tip, exts⟩ [] := by
  have hn : goNonce (.uint 8 nonce.toNat) = .ok nonce := by
    rw [goNonce, wrap64_nat (by omega), Int.toNat_of_nonneg h6.1]
  unfold readSigned4
  refine DecAt.step0 h1 (DecAt.step0 h2 (DecAt.value h3 (DecAt.step0 h4 (DecAt.value (a := era) rfl (DecAt.step0 h5
    (DecAt.value hn (DecAt.step0 h7 (DecAt.last h8 fun st => rfl))))))))

/-- What the encoder writes for the signed part. -/
theorem encSigned_eq {env : Env} {n : Nat} {md : MD} {g : ExtrinsicIn} {p : SignedParts} {x : ExtrinsicMeta} {tb eb : Str}
    (hv : g.version = b!"84") (hx : md.extrinsic = some x)
    (h1 : enc env n ECtx.none (encSignerType env md) g.signer = .ok (_root_.Spec.hexText p.signerB))
    (h2 : enc env n ECtx.none b!"ExtrinsicSignature" g.signatureRaw = .ok (_root_.Spec.hexText p.sigB))
    (h3 : enc env n ECtx.none b!"EraExtrinsic" (.str g.era) = .ok (_root_.Spec.hexText p.eraB))
    (h4 : enc env n ECtx.none b!"Compact<U64>" (.int g.nonce) = .ok (_root_.Spec.hexText p.nonceB))
    (h5 : encTip (enc env n) x g.tip = .ok (_root_.Spec.hexText tb))
    (h6 : encExts (enc env n) x.signedExtensions g.extensions = .ok (_root_.Spec.hexText eb)) :
    encSignedPart env (enc env n) md g =
      .ok (_root_.Spec.hexText (p.signerB ++ (p.sigB ++ (p.eraB ++ (p.nonceB ++ (tb ++ eb)))))) := by
  unfold encSignedPart encSigned
  rw [if_pos hv, h1, Res.ok_bind, h2, Res.ok_bind, h3, Res.ok_bind, h4, Res.ok_bind, hx]
  dsimp only
  rw [h5, Res.ok_bind, h6, Res.ok_bind]
  simp only [← bytesToHex_eq_spec, ← bytesToHex_append, List.append_assoc]

/-- Common part of the signed theorems: `tb` and `eb` are written for tip and extensions, and read as `g.tip` and `exts`. -/
theorem signed_core {env : Env} {spec : Int} {md : MD} {opt : ExtOpt} {g : ExtrinsicIn} {i j : UInt8} {e : CallEntry}
    {items : List Item} {p : SignedParts} {xs : List ExtItem} {x : ExtrinsicMeta} (hl : LensOK env md opt) (hver : g.version = b!"84")
    (hc : CallOK env spec md opt g i j e items) (hs : SignedOK env md opt g p)
    (hsig : Decodes env ⟨opt.module, opt.spec, some md⟩ (signerType env md) p.signerB p.signer []) (hx : md.extrinsic = some x)
    (tb eb b1 b2 : Str) (t0 : Int × Int) (hb : b1 ++ b2 = tb ++ eb)
    (htb : tb = if b!"ChargeTransactionPayment" ∈ x.signedIdentifier then p.tipB else []) (heb : eb = (xs.map (·.bytes)).flatten)
    (hT : ∃ M, ∀ n, M ≤ n → encTip (enc env n) x g.tip = .ok (_root_.Spec.hexText tb) ∧
      encExts (enc env n) x.signedExtensions g.extensions = .ok (_root_.Spec.hexText eb) ∧
      DecAt (readTip4 env.ext (pau env n) ⟨opt.module, opt.spec, some md⟩ md) b1 t0 [] ∧
      DecAt (readExts4 env.ext (pau env n) ⟨opt.module, opt.spec, some md⟩ md opt t0) b2 (g.tip, xs.map fun y => (y.name, y.decoded)) [])
    (hlen : (items.map (·.2.1)).flatten.length + p.signerB.length + p.sigB.length + p.eraB.length + p.nonceB.length + tb.length +
      eb.length < 2 ^ 61) : RoundTrips env spec md opt g e items (some (p, xs)) := by
  obtain ⟨A1, a1⟩ := hs.signer
  obtain ⟨A2, a2⟩ := hsig
  obtain ⟨A3, a3⟩ := hs.sig
  obtain ⟨A4, a4⟩ := hs.sig'
  obtain ⟨A5, a5⟩ := hs.era
  obtain ⟨A6, a6⟩ := hs.era'
  obtain ⟨A7, a7⟩ := hs.nonce
  obtain ⟨A8, a8⟩ := hs.nonce'
  obtain ⟨M, hT⟩ := hT
  obtain ⟨h, N, k0, k1, k2⟩ := roundTrips_of hl 132 (by decide) (hver.trans (by decide)) hc
    (p.signerB ++ (p.sigB ++ (p.eraB ++ (p.nonceB ++ (tb ++ eb)))))
    (some ⟨p.signer, p.sig, p.sigText, 0, g.era, g.nonce, g.tip, xs.map fun y => (y.name, y.decoded)⟩) []
    (by simp only [List.length_append]; omega)
    ⟨A1 + A2 + A3 + A4 + A5 + A6 + A7 + A8 + M, fun n hn => by
      obtain ⟨t1, t2, t3, t4⟩ := hT n (by omega)
      refine ⟨encSigned_eq hver hx (a1 n (by omega)) (a3 n (by omega)) (a5 n (by omega)) (a7 n (by omega)) t1 t2, ?_⟩
      have d := decAt_signed4 (opt := opt) (env := env) (p := p) (a2 n (by omega)) (a4 n (by omega)) hs.text
        (a6 n (by omega)) (a8 n (by omega)) hs.nonceR t3 t4
      rw [hb] at d
      have e : readSigned env (pau env n) ⟨opt.module, opt.spec, some md⟩ md opt g.version = fun st =>
          readSigned4 env (pau env n) ⟨opt.module, opt.spec, some md⟩ md opt st >>= fun q => .ok (some q.1, q.2) := by
        funext st
        unfold readSigned
        rw [hver, if_neg (by decide), if_pos rfl]
      rw [e]
      exact d.map some⟩
  refine ⟨h, N, ?_, k1, fun n hn => ?_⟩
  · unfold signedBytes
    dsimp only
    rw [hx]
    dsimp only
    rw [← htb, ← heb]
    exact k0
  obtain ⟨y, st, q1, q2, q3, q4, q5, q6, q7, q8⟩ := k2 n hn
  exact ⟨y, st, q1, q2, q3, q4, q5, q6, q7, _, q8, rfl, rfl, rfl, rfl, rfl, rfl, rfl⟩

/-- Signed extrinsics of version 84 with metadata 14 or later. Missing from the full claim: the metadata lists the payment extension
before the other data-carrying ones (or not at all, then the tip is zero), the map is iterated in metadata order, and the type by
which the decoder reads the signer gives the signer back. -/
theorem C43_signed_partial (env : Env) (spec : Int) (md : MD) (opt : ExtOpt) (g : ExtrinsicIn) (i j : UInt8) (e : CallEntry)
    (items : List Item) (p : SignedParts) (xs : List ExtItem) (x : ExtrinsicMeta) (hl : LensOK env md opt) (hver : g.version = b!"84")
    (hc : CallOK env spec md opt g i j e items) (hs : SignedOK env md opt g p) (hxs : ExtsOK env md opt g xs)
    (hx : md.extrinsic = some x) (hids : x.signedIdentifier = x.signedExtensions.map (·.1))
    (hnd : (x.signedExtensions.map (·.1)).Nodup) (hopt : opt.signedExtensions = []) (h14 : 14 ≤ md.version)
    (hsig : Decodes env ⟨opt.module, opt.spec, some md⟩ (signerType env md) p.signerB p.signer []) (tt : Str)
    (hord : (b!"ChargeTransactionPayment" ∈ x.signedIdentifier ∧ x.signedExtensions.filter (fun y => decide (Enabled opt y.1)) =
        (b!"ChargeTransactionPayment", tt) :: xs.map fun y => (y.name, y.type)) ∨
      (b!"ChargeTransactionPayment" ∉ x.signedIdentifier ∧ g.tip = (0, 0) ∧
        x.signedExtensions.filter (fun y => decide (Enabled opt y.1)) = xs.map fun y => (y.name, y.type)))
    (hlen : (items.map (·.2.1)).flatten.length + p.signerB.length + p.sigB.length + p.eraB.length + p.nonceB.length + p.tipB.length +
      (xs.map (·.bytes)).flatten.length < 2 ^ 61) : RoundTrips env spec md opt g e items (some (p, xs)) := by
  have hmem : ∀ y ∈ xs, (y.name, y.type) ∈ x.signedExtensions := by
    intro y hy
    have : (y.name, y.type) ∈ x.signedExtensions.filter (fun y => decide (Enabled opt y.1)) := by
      rcases hord with ⟨_, h⟩ | ⟨_, _, h⟩
      · rw [h]; exact List.mem_cons_of_mem _ (List.mem_map.2 ⟨y, hy, rfl⟩)
      · rw [h]; exact List.mem_map.2 ⟨y, hy, rfl⟩
    exact (List.mem_filter.1 this).1
  have hfn : ((x.signedExtensions.filter (fun y => decide (Enabled opt y.1))).map (·.1)).Nodup :=
    hnd.sublist (List.filter_sublist.map _)
  obtain ⟨M1, hE⟩ := uniform_bound (l := xs) (P := fun (y : ExtItem) n => enc env n ECtx.none y.type y.value = .ok (_root_.Spec.hexText y.bytes)) hxs.enc
  obtain ⟨M2, hD⟩ := uniform_bound (l := xs) (P := fun (y : ExtItem) n => DecAt (pau env n ⟨opt.module, opt.spec, some md⟩ y.type) y.bytes y.decoded [])
    hxs.dec
  obtain ⟨A9, a9⟩ := hs.tip
  obtain ⟨A0, a0⟩ := hs.tip'
  have hexts : ∀ n, M1 ≤ n → encExts (enc env n) x.signedExtensions g.extensions = .ok (_root_.Spec.hexText (xs.map (·.bytes)).flatten) := by
    intro n hn
    have := C44_iteration_order env n x.signedExtensions hnd (xs.map fun y => (y.name, y.value, y.type, y.bytes))
      (fun z hz => by obtain ⟨y, hy, rfl⟩ := List.mem_map.1 hz; exact hmem y hy)
      (fun z hz => by obtain ⟨y, hy, rfl⟩ := List.mem_map.1 hz; exact hE n hn y hy)
    rw [hxs.supplied]
    simpa [List.map_map, Function.comp_def] using this
  -- what is written and read between the nonce and the call
  obtain ⟨tb, htb, htl, hT⟩ : ∃ tb : Str, (tb = if b!"ChargeTransactionPayment" ∈ x.signedIdentifier then p.tipB else []) ∧
      tb.length ≤ p.tipB.length ∧ ∀ n, A9 + A0 + M1 + M2 ≤ n →
      encTip (enc env n) x g.tip = .ok (_root_.Spec.hexText tb) ∧
      DecAt (readExts4 env.ext (pau env n) ⟨opt.module, opt.spec, some md⟩ md opt (0, 0)) (tb ++ (xs.map (·.bytes)).flatten)
        (g.tip, xs.map fun y => (y.name, y.decoded)) [] := by
    have e4 : ∀ n, readExts4 env.ext (pau env n) ⟨opt.module, opt.spec, some md⟩ md opt (0, 0) =
        readMetaExts env.ext (pau env n) ⟨opt.module, opt.spec, some md⟩ opt.additionalCheck x.signedExtensions (0, 0) [] := by
      intro n
      funext st
      unfold readExts4
      rw [if_neg (not_not.2 hopt), if_pos h14, hx]
    rcases hord with ⟨hin, hf⟩ | ⟨hin, ht0, hf⟩
    · rw [hf, List.map_cons, List.nodup_cons, List.map_map] at hfn
      refine ⟨p.tipB, (if_pos hin).symm, Nat.le_refl _, fun n hn => ⟨?_, ?_⟩⟩
      · unfold encTip
        rw [if_pos ((sliceIndex_isSome _ _).2 hin)]
        exact a9 n (by omega)
      · rw [e4]
        exact decAt_metaExts_tip _ xs _ _ tt p.tipB p.tipV hf
          (fun y hy hye => hfn.1 (List.mem_map.2 ⟨y, hy, hye⟩)) (hD n (by omega)) hfn.2 (a0 n (by omega)) hs.tipD
    · rw [hf, List.map_map] at hfn
      refine ⟨[], (if_neg hin).symm, Nat.zero_le _, fun n hn => ⟨?_, ?_⟩⟩
      · unfold encTip
        rw [if_neg (fun h => hin ((sliceIndex_isSome _ _).1 h))]
        rfl
      · rw [e4, ht0]
        have := decAt_metaExts (ext := env.ext) (opt := opt) x.signedExtensions xs (0, 0) [] hf
          (fun y hy hye => hin (by rw [hids, ← hye]; exact List.mem_map.2 ⟨_, hmem y hy, rfl⟩)) (hD n (by omega)) hfn
        simpa using this
  refine signed_core hl hver hc hs hsig hx tb (xs.map (·.bytes)).flatten [] (tb ++ (xs.map (·.bytes)).flatten) (0, 0) rfl htb rfl
    ⟨A9 + A0 + M1 + M2, fun n hn => ⟨(hT n hn).1, hexts n (by omega), ?_, (hT n hn).2⟩⟩ (by omega)
  have : readTip4 env.ext (pau env n) ⟨opt.module, opt.spec, some md⟩ md = fun st => .ok ((0, 0), st) := by
    funext st
    unfold readTip4
    rw [hx]
    exact if_neg (fun h => by omega)
  rw [this]
  exact DecAt.pure _

/-- Signed extrinsics of version 84 with metadata before 14, where no supplied extension is listed with a type. -/
theorem C43_signed_old_partial (env : Env) (spec : Int) (md : MD) (opt : ExtOpt) (g : ExtrinsicIn) (i j : UInt8) (e : CallEntry)
    (items : List Item) (p : SignedParts) (x : ExtrinsicMeta) (hl : LensOK env md opt) (hver : g.version = b!"84")
    (hc : CallOK env spec md opt g i j e items) (hs : SignedOK env md opt g p) (hx : md.extrinsic = some x)
    (hun : ∀ y ∈ g.extensions, y.1 ∉ x.signedExtensions.map (·.1)) (hopt : opt.signedExtensions = []) (h14 : md.version < 14)
    (hsig : Decodes env ⟨opt.module, opt.spec, some md⟩ (signerType env md) p.signerB p.signer [])
    (htip : b!"ChargeTransactionPayment" ∈ x.signedIdentifier ∨ g.tip = (0, 0))
    (hlen : (items.map (·.2.1)).flatten.length + p.signerB.length + p.sigB.length + p.eraB.length + p.nonceB.length + p.tipB.length <
      2 ^ 61) : RoundTrips env spec md opt g e items (some (p, [])) := by
  have hex : ∀ n, encExts (enc env n) x.signedExtensions g.extensions = .ok (_root_.Spec.hexText []) := by
    intro n
    rw [encExts_filter, List.filter_eq_nil_iff.2 (fun y hy => by simpa using hun y hy)]
    rfl
  have e4 : ∀ n t, DecAt (readExts4 env.ext (pau env n) ⟨opt.module, opt.spec, some md⟩ md opt t) [] (t, []) [] := by
    intro n t
    have : readExts4 env.ext (pau env n) ⟨opt.module, opt.spec, some md⟩ md opt t = fun st => .ok ((t, []), st) := by
      funext st
      unfold readExts4
      rw [if_neg (not_not.2 hopt), if_neg (by omega)]
    rw [this]
    exact DecAt.pure _
  obtain ⟨A9, a9⟩ := hs.tip
  obtain ⟨A0, a0⟩ := hs.tip'
  by_cases hin : b!"ChargeTransactionPayment" ∈ x.signedIdentifier
  · refine signed_core hl hver hc hs hsig hx p.tipB [] p.tipB [] g.tip rfl (if_pos hin).symm rfl
      ⟨A9 + A0, fun n hn => ⟨?_, hex n, ?_, e4 n _⟩⟩ (by simp only [List.length_nil]; omega)
    · unfold encTip
      rw [if_pos ((sliceIndex_isSome _ _).2 hin)]
      exact a9 n (by omega)
    · have : readTip4 env.ext (pau env n) ⟨opt.module, opt.spec, some md⟩ md = readTip env.ext (pau env n) ⟨opt.module, opt.spec, some md⟩ := by
        funext st
        unfold readTip4
        rw [hx]
        exact if_pos ⟨h14, (sliceIndex_isSome _ _).2 hin⟩
      rw [this]
      exact decAt_readTip (a0 n (by omega)) hs.tipD
  · have ht0 := htip.resolve_left hin
    refine signed_core hl hver hc hs hsig hx [] [] [] [] (0, 0) rfl (if_neg hin).symm rfl
      ⟨0, fun n hn => ⟨?_, hex n, ?_, ht0 ▸ e4 n _⟩⟩ (by simp only [List.length_nil]; omega)
    · unfold encTip
      rw [if_neg (fun h => hin ((sliceIndex_isSome _ _).1 h))]
      rfl
    · have : readTip4 env.ext (pau env n) ⟨opt.module, opt.spec, some md⟩ md = fun st => .ok ((0, 0), st) := by
        funext st
        unfold readTip4
        rw [hx]
        exact if_neg (fun h => hin ((sliceIndex_isSome _ _).1 h.2))
      rw [this]
      exact DecAt.pure _

/-! ## Where it fails -/

/-- The base registry with a signer and a signature of two bytes. -/
def rtEnv : Env := addTypes (baseEnv dummyExt) [(b!"extrinsicsignature", .hash 2), (b!"extrinsicsigner", .hash 2)]

/-- The call of the examples. -/
def rtEntry : CallEntry := ⟨b!"c", b!"M", [(b!"x", b!"u8")]⟩

/-- The argument: 7. -/
def rtItem : Item := (.int 7, [7], [])

/-- Metadata 14 with one call with one argument and the given extensions. -/
def rtMD (l : List (Str × Str)) : MD where
  version := 14
  callIndex := fun k => if k = b!"0000" then some rtEntry else none
  eventIndex := fun _ => none
  extrinsic := some ⟨l.map (·.1), l⟩

def rtOpt : ExtOpt := ⟨[], 0, [], []⟩

/-- A signed extrinsic with tip 1. -/
def rtG (v : Str) (l : List (Str × Val)) : ExtrinsicIn := ⟨v, .str b!"aaaa", .str b!"bbbb", b!"00", 0, (1, 0), l, b!"0000", [.int 7]⟩

def rtParts : SignedParts := ⟨.str b!"0xaaaa", [170, 170], .str b!"0xbbbb", b!"0xbbbb", [187, 187], [0], [0], .dec 1 0, [4]⟩

/-- The asset payment with value 8. -/
def rtAsset : ExtItem := ⟨b!"ChargeAssetTxPayment", b!"u8", .int 8, [8], .int 8⟩

/-- The asset payment before the tip. -/
def rtBad : List (Str × Str) := [(b!"ChargeAssetTxPayment", b!"u8"), (b!"ChargeTransactionPayment", b!"u8")]

/-- The tip before the asset payment. -/
def rtGood : List (Str × Str) := [(b!"ChargeTransactionPayment", b!"u8"), (b!"CheckNonce", b!"Compact<u32>"), (b!"ChargeAssetTxPayment", b!"u8")]

theorem encodes_of_eval {env : Env} {ctx : ECtx} {ty b : Str} {v : Val} (N : Nat) (h : enc env N ctx ty v = .ok (_root_.Spec.hexText b)) :
    Encodes env ctx ty v b := ⟨N, fun _ hn => (enc_mono env hn _ _ _).ok h⟩

theorem rt_lens (l : List (Str × Str)) : LensOK rtEnv (rtMD l) rtOpt :=
  ⟨⟨[], by unfold Resolves; kernel_rfl⟩, [], by unfold Resolves; kernel_rfl, by decide⟩

theorem rt_call (l : List (Str × Str)) (v : Str) (m : List (Str × Val)) :
    CallOK rtEnv 0 (rtMD l) rtOpt (rtG v m) 0 0 rtEntry [rtItem] :=
  ⟨rfl, rfl, rfl, .cons ⟨encodes_of_eval 9 (by kernel_rfl), C07_decode rtEnv _ b!"u8" 1 7 [] (by decide) (by decide)
    (by unfold Resolves; kernel_rfl)⟩ .nil⟩

theorem rt_signed (l : List (Str × Str)) (v : Str) (m : List (Str × Val)) : SignedOK rtEnv (rtMD l) rtOpt (rtG v m) rtParts where
  signer := encodes_of_eval 9 (by kernel_rfl)
  sig := encodes_of_eval 9 (by kernel_rfl)
  sig' := C50_decode_hash rtEnv _ b!"ExtrinsicSignature" [] 2 [187, 187] rfl (by unfold Resolves; kernel_rfl)
  text := rfl
  era := encodes_of_eval 9 (by kernel_rfl)
  era' := C48_decode_immortal rtEnv _ _ [] (by unfold Resolves; kernel_rfl)
  nonce := encodes_of_eval 9 (by kernel_rfl)
  nonce' := C16_decode rtEnv _ _ [] b!"U64" [] .u64 0 [0] _ (by unfold Resolves; kernel_rfl) (by decide) (by unfold Resolves; kernel_rfl)
    ⟨by decide, rfl⟩ (.inl (by decide)) (by intro h; cases h)
  nonceR := ⟨Int.le_refl 0, (by decide : (0 : Int) < 2 ^ 63)⟩
  tip := encodes_of_eval 9 (by kernel_rfl)
  tip' := C16_decode rtEnv _ _ [] b!"Balance" [] .balance 1 [4] _ (by unfold Resolves; kernel_rfl) (by decide) (by unfold Resolves; kernel_rfl)
    ⟨by decide, rfl⟩ (.inl (by decide)) (by intro _; decide)
  tipD := rfl

theorem rt_signer (l : List (Str × Str)) :
    Decodes rtEnv ⟨rtOpt.module, rtOpt.spec, some (rtMD l)⟩ b!"ExtrinsicSigner" rtParts.signerB rtParts.signer [] :=
  C50_decode_hash rtEnv _ b!"ExtrinsicSigner" [] 2 [170, 170] rfl (by unfold Resolves; kernel_rfl)

theorem rt_exts (l : List (Str × Str)) (v : Str) : ExtsOK rtEnv (rtMD l) rtOpt (rtG v [(b!"ChargeAssetTxPayment", .int 8)]) [rtAsset] where
  supplied := rfl
  enc := fun x hx => by
    rw [List.mem_singleton.1 hx]
    exact encodes_of_eval 9 (by kernel_rfl)
  dec := fun x hx => by
    rw [List.mem_singleton.1 hx]
    exact C07_decode rtEnv _ b!"u8" 1 8 [] (by decide) (by decide) (by unfold Resolves; kernel_rfl)

/-- The tip of a decoded extrinsic. -/
def tipOf : Res (Extrinsic × St) → Option (Int × Int)
  | .ok (x, _) => x.signed.map (·.tip)
  | _ => none

/-- With the asset payment listed first the encoder writes the tip and then the asset payment, the decoder reads them the other way
round: tip 1 comes back as tip 2. -/
theorem C43_signed84_false : ¬ C43Signed b!"84" := by
  intro hc
  obtain ⟨h, N, -, h1, h2⟩ := hc rtEnv 0 (rtMD rtBad) rtOpt (rtG b!"84" [(b!"ChargeAssetTxPayment", .int 8)]) 0 0 rtEntry [rtItem]
    rtParts [rtAsset] ⟨rtBad.map (·.1), rtBad⟩ (rt_lens _) rfl (rt_call _ _ _) (rt_signed _ _ _) (rt_signer _) (rt_exts _ _) rfl rfl (by decide) rfl
    (by decide) (by rw [show rtBad.filter _ = [(b!"ChargeAssetTxPayment", b!"u8")] by decide]; exact .refl _) (by decide)
  have e : encodeExtrinsic rtEnv 9 0 (some (rtMD rtBad)) (rtG b!"84" [(b!"ChargeAssetTxPayment", .int 8)]) =
      .ok (.ok b!"3084aaaabbbb00000408000007") := by kernel_rfl
  have d : tipOf (decodeExtrinsic rtEnv 9 (rtMD rtBad) rtOpt (hexToBytes b!"3084aaaabbbb00000408000007")) = some (2, 0) := by kernel_rfl
  have e' := (h1 (max N 9) (by omega)).symm.trans ((encodeExtrinsic_mono rtEnv (Nat.le_max_right N 9) 0 _ _).ok e)
  obtain rfl := Except.ok.inj (Res.ok.inj e')
  obtain ⟨x, st, hd, _, _, _, _, _, _, s, hs, _, _, _, _, _, ht, _⟩ := h2 (max N 9) (by omega)
  rcases decodeExtrinsic_mono rtEnv (Nat.le_max_right N 9) (rtMD rtBad) rtOpt (hexToBytes b!"3084aaaabbbb00000408000007") with hm | hm
  · rw [hm] at d; cases d
  · rw [hm, hd] at d
    simp only [tipOf, hs, Option.map_some, Option.some.injEq] at d
    rw [ht] at d
    exact absurd d (by decide)

/-- For version 5 the signed part is not written at all, and the decoder panics. -/
theorem C43_signed85_false : ¬ C43Signed b!"85" := by
  intro hc
  obtain ⟨h, N, -, h1, h2⟩ := hc rtEnv 0 (rtMD rtGood) rtOpt (rtG b!"85" [(b!"ChargeAssetTxPayment", .int 8)]) 0 0 rtEntry [rtItem]
    rtParts [rtAsset] ⟨rtGood.map (·.1), rtGood⟩ (rt_lens _) rfl (rt_call _ _ _) (rt_signed _ _ _) (rt_signer _) (rt_exts _ _) rfl rfl (by decide) rfl
    (by decide) (by rw [show rtGood.filter _ = [(b!"ChargeAssetTxPayment", b!"u8")] by decide]; exact .refl _) (by decide)
  have e : encodeExtrinsic rtEnv 9 0 (some (rtMD rtGood)) (rtG b!"85" [(b!"ChargeAssetTxPayment", .int 8)]) = .ok (.ok b!"1085000007") := by
    kernel_rfl
  have d : decodeExtrinsic rtEnv 9 (rtMD rtGood) rtOpt (hexToBytes b!"1085000007") = .panic := by kernel_rfl
  have e' := (h1 (max N 9) (by omega)).symm.trans ((encodeExtrinsic_mono rtEnv (Nat.le_max_right N 9) 0 _ _).ok e)
  obtain rfl := Except.ok.inj (Res.ok.inj e')
  obtain ⟨x, st, hd, _⟩ := h2 (max N 9) (by omega)
  have := (decodeExtrinsic_mono rtEnv (Nat.le_max_right N 9) (rtMD rtGood) rtOpt (hexToBytes b!"1085000007")).panic d
  rw [this] at hd
  cases hd

/-- The full claim is false. -/
theorem C43_claim_false : ¬ C43Claim := fun h => C43_signed84_false h.2.2.1

/-- Exactly what version 5 writes: as if the extrinsic were unsigned. -/
theorem C43_signed85_written (env : Env) (fuel : Nat) (spec : Int) (md : MD) (g : ExtrinsicIn) (hv : g.version = b!"85")
    (s sig : Val) (era : Str) (nonce : Int) (tip : Int × Int) (l : List (Str × Val)) :
    encodeExtrinsic env fuel spec (some md) { g with signer := s, signatureRaw := sig, era := era, nonce := nonce, tip := tip, extensions := l } =
      encodeExtrinsic env fuel spec (some md) g := by
  unfold encodeExtrinsic encSignedPart
  dsimp only
  rw [hv]
  rw [if_neg (by decide), if_neg (by decide)]

/-- All hypotheses of the signed theorem hold for metadata with the tip, a nonce check and an asset payment; the unsigned ones for the
same call. -/
example : RoundTrips rtEnv 0 (rtMD rtGood) rtOpt (rtG b!"84" [(b!"ChargeAssetTxPayment", .int 8)]) rtEntry [rtItem]
      (some (rtParts, [rtAsset])) ∧
    RoundTrips rtEnv 0 (rtMD rtGood) rtOpt (rtG b!"05" []) rtEntry [rtItem] none :=
  ⟨C43_signed_partial rtEnv 0 (rtMD rtGood) rtOpt _ 0 0 _ [rtItem] rtParts [rtAsset] ⟨rtGood.map (·.1), rtGood⟩ (rt_lens _) rfl (rt_call _ _ _)
    (rt_signed _ _ _) (rt_exts _ _) rfl rfl (by decide) rfl (by decide) (rt_signer _) b!"u8" (.inl ⟨by decide, by decide⟩) (by decide),
   C43_bare b!"05" (.inr rfl) rtEnv 0 (rtMD rtGood) rtOpt _ 0 0 _ [rtItem] (rt_lens _) rfl (rt_call _ _ _) (by decide)⟩

/-! ## Metadata before 14: written as `AccountId`, read as `Address` -/

/-- An account id that does not begin with ff is read back as `Address`, without `0x`. -/
theorem C43_old_signer (env : Env) (ctx : Ctx) (ty sub : Str) (a : UInt8) (b : Str) (ha : a ≠ 255) (hb : b.length = 31)
    (h : Resolves env ctx.module ctx.spec ty .address sub) : Decodes env ctx ty (a :: b) (.str (_root_.Spec.hexText (a :: b))) [] := by
  refine decodes_of_decAt h ⟨0, fun n _ => ?_⟩
  show DecAt processAddress _ _ _
  unfold processAddress
  refine DecAt.byte ?_
  have hne : bytesToHex [a] ≠ b!"ff" := fun e => ha (by
    have := bytesToHex_injective (e.trans (show b!"ff" = bytesToHex [255] by decide))
    exact (List.cons.inj this).1)
  dsimp only
  simp only [if_neg hne]
  refine DecAt.last (decAt_next b 31 (by rw [hb]; rfl)) fun st => ?_
  dsimp only
  rw [bytesToHex_eq_spec]
  rfl

/-- An account id that begins with ff is not: that byte is dropped and the next byte, of the signature, is taken for the account. -/
theorem C43_old_signer_ff (env : Env) (ctx : Ctx) (ty sub : Str) (b : Str) (y : UInt8) (hb : b.length = 31)
    (h : Resolves env ctx.module ctx.spec ty .address sub) :
    Decodes env ctx ty (255 :: (b ++ [y])) (.str (_root_.Spec.hexText (b ++ [y]))) [] := by
  refine decodes_of_decAt h ⟨0, fun n _ => ?_⟩
  show DecAt processAddress _ _ _
  unfold processAddress
  refine DecAt.byte ?_
  dsimp only
  simp only [if_pos (show bytesToHex [255] = b!"ff" by decide)]
  refine DecAt.last (decAt_next (b ++ [y]) 32 (by rw [List.length_append, hb]; rfl)) fun st => ?_
  dsimp only
  rw [bytesToHex_eq_spec]

/-- Metadata 13 that lists the payment extension. -/
def oldMD : MD := { rtMD [] with version := 13, extrinsic := some ⟨[b!"CheckNonce", b!"ChargeTransactionPayment"], []⟩ }

def oldG : ExtrinsicIn := { rtG b!"84" [(b!"CheckMetadataHash", .int 8)] with signer := .str (_root_.Spec.hexText (List.replicate 32 18)) }

def oldParts : SignedParts :=
  { rtParts with signer := .str (_root_.Spec.hexText (List.replicate 32 18)), signerB := List.replicate 32 18 }

/-- All hypotheses of the theorem for old metadata hold: account 1212…12, tip 1. -/
example : RoundTrips rtEnv 0 oldMD rtOpt oldG rtEntry [rtItem] (some (oldParts, [])) :=
  have hs := rt_signed [] b!"84" []
  C43_signed_old_partial rtEnv 0 oldMD rtOpt oldG 0 0 rtEntry [rtItem] oldParts ⟨[b!"CheckNonce", b!"ChargeTransactionPayment"], []⟩
    ⟨⟨[], by unfold Resolves; kernel_rfl⟩, [], by unfold Resolves; kernel_rfl, by decide⟩ rfl
    ⟨rfl, rfl, rfl, .cons ⟨encodes_of_eval 9 (by kernel_rfl), C07_decode rtEnv _ b!"u8" 1 7 [] (by decide) (by decide)
      (by unfold Resolves; kernel_rfl)⟩ .nil⟩
    { signer := encodes_of_eval 9 (by kernel_rfl)
      sig := hs.sig
      sig' := C50_decode_hash rtEnv _ b!"ExtrinsicSignature" [] 2 [187, 187] rfl (by unfold Resolves; kernel_rfl)
      text := rfl
      era := hs.era
      era' := C48_decode_immortal rtEnv _ _ [] (by unfold Resolves; kernel_rfl)
      nonce := hs.nonce
      nonce' := C16_decode rtEnv _ _ [] b!"U64" [] .u64 0 [0] _ (by unfold Resolves; kernel_rfl) (by decide)
        (by unfold Resolves; kernel_rfl) ⟨by decide, rfl⟩ (.inl (by decide)) (by intro h; cases h)
      nonceR := hs.nonceR
      tip := hs.tip
      tip' := C16_decode rtEnv _ _ [] b!"Balance" [] .balance 1 [4] _ (by unfold Resolves; kernel_rfl) (by decide)
        (by unfold Resolves; kernel_rfl) ⟨by decide, rfl⟩ (.inl (by decide)) (by intro _; decide)
      tipD := rfl }
    rfl (by intro y _ hm; cases hm) rfl (by decide)
    (C43_old_signer rtEnv _ b!"Address" [] 18 (List.replicate 31 18) (by decide) rfl (by unfold Resolves; kernel_rfl))
    (.inl (by decide)) (by decide)

end ScaleGo
