import Verif.Props.C97

/-! # C98: signed extrinsics are written as chains with metadata of versions 9 to 13 expect them

English claim: once metadata of version 9 to 13 has been read, the parts of a signed extrinsic, as C97 reads them, are written as the
bytes which the chain's node writes. -/

namespace ScaleGo
open _root_.Spec (Shape Scale Names Means Sugar RustType OModule OCall FOld EncOld)
open ScaleGo.Spec

/-! ## The claim -/

/-- The input of the encoder says what the extrinsic says; how its signer is spelled is left open. -/
structure OldGiven (q : OldSigned) (i j : UInt8) (as : List Arg) (g : ExtrinsicIn) : Prop where
  version : g.version = b!"84"
  raw : ∃ name, sigKinds[q.kind.toNat]? = some (name, q.sig.length) ∧ g.signatureRaw = .map [(name, .str (sigShown q.sig))]
  era : ∀ x b c, (x, .era b, c) ∈ q.exts → g.era = _root_.Spec.hexText b
  nonce : ∀ x (n : Nat) c, (x, .nonce n, c) ∈ q.exts → g.nonce = n
  tip : ∀ x (n : Nat) c, (x, .tip n, c) ∈ q.exts → g.tip = ((n : Int), 0)
  data : ∀ p : Str × Val, p ∈ g.extensions ↔ ∃ x fs c, (x, OldSays.data fs, c) ∈ q.exts ∧ p ∈ fs
  code : g.callCode = _root_.Spec.hexText [i, j]
  params : g.params = as.map fun a => a.1

/-- `g` is written as its length and `body`. -/
def IsWritten (env : Env) (spec : Int) (md : MD) (g : ExtrinsicIn) (body : Str) : Prop :=
  ∃ c, _root_.Spec.IsCompact body.length c ∧ ∃ N, ∀ n, N ≤ n → encodeExtrinsic env n spec (some md) g = .ok (.ok (_root_.Spec.hexText (c ++ body)))

/-- The full claim: signers are given as they are read. -/
def C98Claim : Prop :=
  ∀ (v : Nat) (reg : RegState) (spec : Int) (md0 : Option MD) (l : List OModule) (xv : Nat) (exts : List Str) (b : Str), 9 ≤ v → v ≤ 13 →
    ReadsOld reg.env ⟨[], spec, md0⟩ → OldSignReady reg.env → FOld v l xv exts → DistinctIndex v l → (exts.map keptText).Nodup → EncOld v l xv exts b →
    b.length < 2 ^ 63 →
    ∃ out, Gives (fun n => processOld v n reg ⟨[], spec, md0⟩) b out ∧ ∀ md, UsesOldAll v md out →
      ∀ x c i j as, IsOldCall v l x c i j → OldArguments AnyValue (c.args.map Prod.snd) as → ∀ conf q g spec', (conf.map Prod.fst).Nodup →
        OldSignedOK AnyValue v exts conf q → OldGiven q i j as g → g.signer = .str q.signer → (q.body i j as).length < 2 ^ 61 →
        IsWritten out.reg.env spec' md g (q.body i j as)

/-! ## What holds -/

/-- Tips that are written correctly. -/
def TipFits (m : Nat) : Prop := m < 2 ^ 30 ∨ (2 ^ 30 ≤ m % 2 ^ 64 ∧ m % 2 ^ 64 < 2 ^ 63)

/-- Signatures of 65 bytes that are a text which begins with `0x` are not written correctly. -/
def SigFits (b : Str) : Prop := b.length = 65 → ¬ (_root_.Spec.IsText b ∧ ∃ t, b = b!"0x" ++ t)

section
variable {env : Env}

/-- Signatures are written. -/
theorem old_signature_written (hS : SignHeld env) {k : UInt8} {name sig : Str} (h : sigKinds[k.toNat]? = some (name, sig.length)) (hf : SigFits sig) :
    Encodes env ECtx.none b!"ExtrinsicSignature" (.map [(name, .str (sigShown sig))]) (k :: sig) := by
  have hs : EncResolves env ECtx.none b!"ExtrinsicSignature" (.enum [] (some [(b!"Ed25519", b!"Ed25519Signature"),
      (b!"Sr25519", b!"Sr25519Signature"), (b!"Ecdsa", b!"EcdsaSignature")])) [] :=
    ⟨old_sign hS (by decide) (by rw [loadedReg_fast]; kernel_rfl) _ _, by decide⟩
  have h1 : EncResolves env ECtx.none b!"Ed25519Signature" (.hash 64) [] := ⟨old_sign hS (by decide) (by rw [loadedReg_fast]; kernel_rfl) _ _, by decide⟩
  have h2 : EncResolves env ECtx.none b!"Sr25519Signature" (.hash 64) [] := ⟨old_sign hS (by decide) (by rw [loadedReg_fast]; kernel_rfl) _ _, by decide⟩
  have h3 : EncResolves env ECtx.none b!"EcdsaSignature" (.fixedU8 65) [] := ⟨old_sign hS (by decide) (by rw [loadedReg_fast]; kernel_rfl) _ _, by decide⟩
  have hc : ¬ CLike [(b!"Ed25519", b!"Ed25519Signature"), (b!"Sr25519", b!"Sr25519Signature"), (b!"Ecdsa", b!"EcdsaSignature")] := fun h =>
    absurd (h _ List.mem_cons_self) (by unfold IsNumberText; decide)
  have hrows : ∀ t ∈ signWords, ¬ LooksLikeRows t := by
    rintro t ht ⟨r, e⟩
    exact (by decide : ∀ t ∈ signWords, t.head? ≠ some 91) t ht (by rw [e]; rfl)
  have hlt : k.toNat < 3 := (List.getElem?_eq_some_iff.1 h).1
  have hk : k = 0 ∨ k = 1 ∨ k = 2 :=
    forall_byte (P := fun k => k.toNat < 3 → k = 0 ∨ k = 1 ∨ k = 2) (by decide +kernel) k hlt
  have key : ∀ t : Str, t ∈ signWords → [(b!"Ed25519", b!"Ed25519Signature"), (b!"Sr25519", b!"Sr25519Signature"), (b!"Ecdsa", b!"EcdsaSignature")][k.toNat]? = some (name, t) →
      Encodes env ECtx.none t (.str (sigShown sig)) sig → Encodes env ECtx.none b!"ExtrinsicSignature" (.map [(name, .str (sigShown sig))]) (k :: sig) := by
    intro t ht e d
    have := C23_encode_data env ECtx.none _ [] [] _ k.toNat name t sig [(name, .str (sigShown sig))] _ hc (by decide) (by decide) e (hrows t ht)
      List.mem_cons_self (by intro p hp _; simpa using hp) hs d
    rwa [UInt8.ofNat_toNat] at this
  rcases hk with rfl | rfl | rfl
  · obtain ⟨rfl, hl⟩ := Prod.mk.inj (Option.some.inj h)
    refine key b!"Ed25519Signature" (by decide) rfl ?_
    rw [show sigShown sig = b!"0x" ++ _root_.Spec.hexText sig from if_neg (by omega)]
    exact C50_encode_hash env _ _ [] 64 _ sig (isHexOf_decoded sig) h1
  · obtain ⟨rfl, hl⟩ := Prod.mk.inj (Option.some.inj h)
    refine key b!"Sr25519Signature" (by decide) rfl ?_
    rw [show sigShown sig = b!"0x" ++ _root_.Spec.hexText sig from if_neg (by omega)]
    exact C50_encode_hash env _ _ [] 64 _ sig (isHexOf_decoded sig) h2
  · obtain ⟨rfl, hl⟩ := Prod.mk.inj (Option.some.inj h)
    refine key b!"EcdsaSignature" (by decide) rfl ?_
    rw [show sigShown sig = shown .bytes sig from if_pos hl.symm]
    exact C25_encode_u8_partial env _ _ [] [] sig (.fixedU8 65) _ (.inl rfl) h3 (hf hl.symm)

theorem args_written {ectx : ECtx} {args : List (Str × Str)} {as : List Arg}
    (h : List.Forall₂ (fun (a : Str × Str) (x : Arg) => Encodes env ectx a.2 x.1 x.2.2) args as) :
    ∃ N, ∀ n, N ≤ n → encParams (enc env n) ectx args (as.map fun a => a.1) = .ok (_root_.Spec.hexText (argBytes as)) := by
  induction h with
  | nil => exact ⟨0, fun _ _ => rfl⟩
  | @cons a x args as h _ ih =>
    obtain ⟨N, hN⟩ := h
    obtain ⟨M, hM⟩ := ih
    refine ⟨N + M, fun n hn => ?_⟩
    obtain ⟨an, at'⟩ := a
    rw [List.map_cons, encParams, hN n (by omega), hM n (by omega)]
    simp only [Res.ok_bind, trimHex_hexText, argBytes, List.map_cons, List.flatten_cons]
    rw [← bytesToHex_eq_spec, ← bytesToHex_eq_spec, ← bytesToHex_eq_spec, bytesToHex_append]

/-- An extrinsic is written as the parts of its body. -/
theorem written_of {spec : Int} {md : MD} {g : ExtrinsicIn} {i j : UInt8} {e : CallEntry} {as : List Arg} {sb : Str} (hl : LenEncOK env)
    (hv : g.version = b!"84") (hcode : g.callCode = _root_.Spec.hexText [i, j]) (hp : g.params = as.map fun a => a.1)
    (hk : md.callIndex (_root_.Spec.hexText [i, j]) = some e)
    (ha : List.Forall₂ (fun (a : Str × Str) (x : Arg) => Encodes env ⟨spec, some md⟩ a.2 x.1 x.2.2) e.args as)
    (hs : ∃ N, ∀ n, N ≤ n → encSignedPart env (enc env n) md g = .ok (_root_.Spec.hexText sb))
    (hlen : ([0x84] ++ sb ++ [i, j] ++ argBytes as).length < 2 ^ 30) : IsWritten env spec md g ([0x84] ++ sb ++ [i, j] ++ argBytes as) := by
  obtain ⟨c, hc⟩ := isCompact_exists ([0x84] ++ sb ++ [i, j] ++ argBytes as).length (Nat.lt_of_lt_of_le hlen (by decide))
  obtain ⟨N1, e1⟩ := len_encodes hl hlen hc
  obtain ⟨N2, e2⟩ := hs
  obtain ⟨N3, e3⟩ := args_written ha
  refine ⟨c, hc, N1 + N2 + N3, fun n hn => ?_⟩
  have hbody : g.version ++ _root_.Spec.hexText sb ++ g.callCode ++ _root_.Spec.hexText (argBytes as) = bytesToHex ([0x84] ++ sb ++ [i, j] ++ argBytes as) := by
    rw [hcode, show g.version = _root_.Spec.hexText [0x84] from hv]
    simp only [← bytesToHex_eq_spec, ← bytesToHex_append, List.append_assoc]
  unfold encodeExtrinsic
  dsimp only
  rw [e2 n (by omega), Res.ok_bind, hcode, hk]
  dsimp only
  rw [if_neg (by rw [hp, List.length_map, ha.length_eq]; simp), hp, e3 n (by omega), Res.ok_bind, ← hcode, hbody, hexToBytes_bytesToHex, e1 n (by omega), Res.ok_bind,
    ← bytesToHex_eq_spec, ← bytesToHex_append, bytesToHex_eq_spec]

/-- What is written before the call. -/
theorem old_signed_written (hS : SignHeld env) {V : TextRel} {v : Nat} {exts : List Str} {md : MD} {q : OldSigned} {i j : UInt8} {as : List Arg} {g : ExtrinsicIn}
    {t sb : Str} (h12 : 12 ≤ v) (hv : v ≤ 13) (hver : md.version = v) (hx : md.extrinsic = some ⟨exts.map keptText, []⟩)
    (hq : OldSignedOK V v exts [] q) (ho : InOldOrder v [] q.exts) (hg : OldGiven q i j as g) (hsig : SigFits q.sig)
    (htip : ∀ x m c, (x, OldSays.tip m, c) ∈ q.exts → TipFits m) (hs : g.signer = .str t) (ht : IsHexOf t sb) :
    ∃ N, ∀ n, N ≤ n → encSignedPart env (enc env n) md g = .ok (_root_.Spec.hexText ({ q with signerB := sb }).bytes) := by
  obtain ⟨⟨xe, be, ce, xn, n, cn, tips, rest, hes, htips, hrest, hkeys⟩, -⟩ := ho
  obtain rfl : rest = [] := by simpa using hkeys
  have hmem : ∀ e ∈ (xe, OldSays.era be, ce) :: (xn, .nonce n, cn) :: (tips ++ []), e ∈ q.exts := by
    intro e he
    rw [← hes] at he
    exact (List.mem_filter.1 he).1
  have hbytes := silent_bytes hq.coded
  rw [hes] at hbytes
  obtain ⟨name, hname, hraw⟩ := hg.raw
  have e0 : encSignerType env md = b!"AccountId" := if_neg (fun h => by have := h.1; omega)
  have k1 : Encodes env ECtx.none (encSignerType env md) g.signer sb := by
    rw [e0, hs]
    exact C50_encode_account env _ _ [] t sb ht ⟨old_word (hS.ints b!"AccountId" (by simp))
      (by rw [loadedReg_fast]; kernel_rfl) (by kernel_rfl) (by decide +kernel) (by simp) _ _, by decide⟩
  have k2 := old_signature_written hS hname hsig
  rw [← hraw] at k2
  have k3 : ce = be ∧ Encodes env ECtx.none b!"EraExtrinsic" (.str g.era) be := by
    refine ⟨?_, ?_⟩
    · have := hq.coded _ (hmem (xe, .era be, ce) (by simp))
      dsimp only at this
      cases this; rfl
    · rw [hg.era _ _ _ (hmem (xe, .era be, ce) (by simp))]
      exact C48_encode env _ _ [] be ⟨old_sign hS (by decide) (by rw [loadedReg_fast]; kernel_rfl) _ _, by decide⟩
  obtain ⟨rfl, k3⟩ := k3
  obtain ⟨c1, c2, -, -⟩ := old_compacts hS [] ECtx.none.spec
  have k4 : Encodes env ECtx.none b!"Compact<U64>" (.int g.nonce) cn := by
    have hm := hmem (xn, .nonce n, cn) (by simp)
    rw [hg.nonce _ _ _ hm]
    have := hq.coded _ hm
    dsimp only at this
    cases this with
    | nonce _ h1 h2 =>
      obtain ⟨b, hb, he⟩ := C16_encode_partial env ECtx.none b!"Compact<U64>" [] b!"U64" n (.int n) ⟨c1, by decide⟩ rfl (fun m h => by cases h)
        (Nat.lt_of_lt_of_le h1 (by decide)) (by
          by_cases h : n < 2 ^ 30
          · exact .inl h
          · refine .inr ?_
            unfold wrap64
            rw [Int.bmod_eq_of_le (by omega) (by omega)]
            omega)
      rwa [isCompact_unique h2 hb]
  have k5 : ∃ N, ∀ k, N ≤ k → encTip (enc env k) ⟨exts.map keptText, []⟩ g.tip = .ok (_root_.Spec.hexText (tips.map fun e => e.2.2).flatten) := by
    have hl : q.exts.map (fun e => e.1) = exts := by
      rw [hq.listed]
      unfold namesOf
      rw [if_neg (by omega)]
    have hpay : (∃ x ∈ exts, keptText x = payment) ↔ tips ≠ [] := by
      constructor
      · rintro ⟨x, hx1, hx2⟩ rfl
        rw [← hl] at hx1
        obtain ⟨⟨x', w, c⟩, hw, rfl⟩ := List.mem_map.1 hx1
        have hc := hq.coded _ hw
        dsimp only at hc hx2
        have own : payment ∈ ownNames := by decide
        cases hc with
        | era h => rw [hx2] at h; exact absurd h (by decide)
        | nonce h => rw [hx2] at h; exact absurd h (by decide)
        | @tip m _ _ =>
          have : (x', OldSays.tip _, c) ∈ q.exts.filter fun e => !e.2.1.silent := List.mem_filter.2 ⟨hw, rfl⟩
          rw [hes] at this
          simp at this
        | data _ h => rw [hx2] at h; exact h own
        | nothing h => rw [hx2] at h; exact h own
      · intro h
        rcases htips with ⟨h', -⟩ | ⟨xt, m, ct, rfl⟩
        · exact absurd h' h
        · have hin := hmem (xt, .tip m, ct) (by simp)
          have hc := hq.coded _ hin
          dsimp only at hc
          cases hc with
          | tip h => exact ⟨xt, by rw [← hl]; exact List.mem_map.2 ⟨_, hin, rfl⟩, h⟩
    have hmemp : payment ∈ exts.map keptText ↔ tips ≠ [] := by
      rw [← hpay, List.mem_map]
    rcases htips with ⟨rfl, -⟩ | ⟨xt, m, ct, rfl⟩
    · refine ⟨0, fun k _ => ?_⟩
      unfold encTip
      exact if_neg (fun h => (hmemp.1 ((sliceIndex_isSome _ _).1 h)) rfl)
    · have hin := hmem (xt, .tip m, ct) (by simp)
      have hc := hq.coded _ hin
      dsimp only at hc
      cases hc with
      | tip h1 h2 h3 =>
        have hf := htip _ _ _ hin
        obtain ⟨b, hb, N, hN⟩ := C16_encode_partial env ECtx.none b!"Compact<Balance>" [] b!"Balance" m (.dec m 0) ⟨c2, by decide⟩
          (show Denotes (.dec m 0) m by simp [Denotes]) (fun m h => by cases h)
          (Nat.lt_of_lt_of_le h2 (by decide)) (by
            rcases hf with h | h
            · exact .inl h
            · refine .inr ?_
              unfold wrap64
              rw [Int.bmod_def]
              have e : ((m : Int) % (2 ^ 64 : Nat)) = ((m % 2 ^ 64 : Nat) : Int) := by omega
              rw [e, if_pos (by omega)]
              omega)
        refine ⟨N, fun k hk => ?_⟩
        unfold encTip
        rw [hg.tip _ _ _ hin, hN k hk, isCompact_unique h3 hb]
        refine (if_pos ((sliceIndex_isSome _ _).2 (hmemp.2 (by simp)))).trans ?_
        simp
  obtain ⟨N1, k1⟩ := k1
  obtain ⟨N2, k2⟩ := k2
  obtain ⟨N3, k3⟩ := k3
  obtain ⟨N4, k4⟩ := k4
  obtain ⟨N5, k5⟩ := k5
  refine ⟨N1 + N2 + N3 + N4 + N5, fun k hk => ?_⟩
  have h6 : encExts (enc env k) [] g.extensions = .ok (_root_.Spec.hexText []) := by
    rw [encExts_filter, List.filter_eq_nil_iff.2 (fun y hy => by simp)]
    rfl
  have := encSigned_eq (p := ⟨.nil, sb, .nil, [], q.kind :: q.sig, ce, cn, .nil, []⟩) hg.version hx (k1 k (by omega)) (k2 k (by omega)) (k3 k (by omega)) (k4 k (by omega))
    (k5 k (by omega)) h6
  rw [this]
  unfold OldSigned.bytes
  dsimp only
  rw [hbytes]
  simp

end

/-- The parts of an extrinsic that are written correctly: extensions in the order era, nonce, tip, and nothing else. -/
structure OldFits (v : Nat) (exts : List Str) (q : OldSigned) : Prop where
  ok : OldSignedOK GoodValue v exts [] q
  order : InOldOrder v [] q.exts
  sig : SigFits q.sig
  tip : ∀ x m c, (x, OldSays.tip m, c) ∈ q.exts → TipFits m

/-- Whatever describes the metadata in the output, signed extrinsics are written by it. -/
theorem writtenOver_of {v : Nat} {names : List Str} {l : List OModule} {exts : List Str} {out : OldOut} {S : Int → Prop} {N : Names} (hN : Wordy N) (h12 : 12 ≤ v) (hv : v ≤ 13)
    (hD : DescribedOld v names l (if v < 12 then none else some exts) out) (hR : ReadyOver out.reg.env S N) (hS : SignHeld out.reg.env) (md : MD) (hm : UsesOldAll v md out)
    (x : OModule) (c : OCall) (i j : UInt8) (as : List Arg) (hcall : IsOldCall v l x c i j) (ha : OldArguments (GoodOver N) (c.args.map Prod.snd) as) (q : OldSigned)
    (g : ExtrinsicIn) (spec : Int) (t sb : Str) (hsp : S spec) (hq : OldFits v exts q) (hg : OldGiven q i j as g) (hs : g.signer = .str t) (ht : IsHexOf t sb)
    (hlen : (OldSigned.body { q with signerB := sb } i j as).length < 2 ^ 30) : IsWritten out.reg.env spec md g (OldSigned.body { q with signerB := sb } i j as) := by
  obtain ⟨⟨hver, hc, -⟩, hx⟩ := hm
  have hx' : md.extrinsic = some ⟨exts.map keptText, []⟩ := by
    rw [hx, hD.extrinsic, if_neg (by omega)]
    rfl
  have hkn : md.callIndex (_root_.Spec.hexText [i, j]) = some (oldCallEntry x c) := by
    rw [hc]
    exact (hD.calls i j _).2 ⟨x, c, hcall.1, hcall.2, rfl⟩
  have hsw := old_signed_written hS h12 hv hver hx' hq.ok hq.order hg hq.sig hq.tip hs ht
  unfold OldSigned.body at hlen ⊢
  refine written_of (speaks_ready hR.toSpeaks ⟨[], 0, none⟩).2 hg.version hg.code hg.params hkn ?_ hsw hlen
  unfold OldArguments at ha
  rw [List.forall₂_map_left_iff] at ha
  rw [oldCallEntry]
  dsimp only
  rw [List.forall₂_map_left_iff]
  refine ha.imp ?_
  intro a y h
  dsimp only
  have := over_call hN hR.toSpeaks h ⟨spec, some md⟩ (ctx := ⟨[], spec, none⟩) hsp hsp (foreign_nil N)
  exact this.1

/-- Exactly what versions 12 and 13 write: the bytes of the node, except that the signer is the bytes whose hex text was given. -/
theorem C98_exact (v : Nat) (reg : RegState) (spec : Int) (md0 : Option MD) (l : List OModule) (xv : Nat) (exts : List Str) (b : Str) (h12 : 12 ≤ v)
    (hv : v ≤ 13) (hr : ReadsOld reg.env ⟨[], spec, md0⟩) (hS : OldSignReady reg.env) (hf : FOld v l xv exts) (hd : DistinctIndex v l)
    (hw : EncOld v l xv exts b) (hl : b.length < 2 ^ 63) :
    ∃ out, Gives (fun n => processOld v n reg ⟨[], spec, md0⟩) b out ∧ ∀ md, UsesOldAll v md out →
      ∀ x c i j as, IsOldCall v l x c i j → OldArguments GoodValue (c.args.map Prod.snd) as → ∀ q g spec' t sb, OldFits v exts q → OldGiven q i j as g →
        g.signer = .str t → IsHexOf t sb → (OldSigned.body { q with signerB := sb } i j as).length < 2 ^ 30 →
        IsWritten out.reg.env spec' md g (OldSigned.body { q with signerB := sb } i j as) := by
  obtain ⟨out, read, rest, rfl, -, h1, hD, h3⟩ := C82_exact v reg ⟨[], spec, md0⟩ l xv exts b hr hf hd hw
  refine ⟨out, h1.gives hl, fun md hm x c i j as hcall ha q g spec' t sb hq hg hs ht hlen => ?_⟩
  have hS' : OldSignReady out.reg.env := by
    rw [h3]
    split
    · exact hS
    · exact sign_origin hS _
  exact writtenOver_of (S := fun _ => True) substrate_wordy h12 hv hD hS'.toOldReady.over hS'.held md hm x c i j as hcall ha q g spec' t sb trivial hq hg hs ht hlen

/-- Signers whose bytes are given as hex text, so accounts with the byte `ff` in front, are written as the node writes them. -/
theorem C98_partial (v : Nat) (reg : RegState) (spec : Int) (md0 : Option MD) (l : List OModule) (xv : Nat) (exts : List Str) (b : Str) (h12 : 12 ≤ v)
    (hv : v ≤ 13) (hr : ReadsOld reg.env ⟨[], spec, md0⟩) (hS : OldSignReady reg.env) (hf : FOld v l xv exts) (hd : DistinctIndex v l)
    (hw : EncOld v l xv exts b) (hl : b.length < 2 ^ 63) :
    ∃ out, Gives (fun n => processOld v n reg ⟨[], spec, md0⟩) b out ∧ ∀ md, UsesOldAll v md out →
      ∀ x c i j as, IsOldCall v l x c i j → OldArguments GoodValue (c.args.map Prod.snd) as → ∀ q g spec' t, OldFits v exts q → OldGiven q i j as g →
        g.signer = .str t → IsHexOf t q.signerB → (q.body i j as).length < 2 ^ 30 → IsWritten out.reg.env spec' md g (q.body i j as) := by
  obtain ⟨out, h1, h2⟩ := C98_exact v reg spec md0 l xv exts b h12 hv hr hS hf hd hw hl
  exact ⟨out, h1, fun md hm x c i j as hcall ha q g spec' t hq hg hs ht hlen => h2 md hm x c i j as hcall ha q g spec' t q.signerB hq hg hs ht hlen⟩

/-! ## What does not -/

/-- Before version 12 nothing signed is ever written, whatever is given. -/
theorem C98_before12 (env : Env) (spec : Int) (v : Nat) (names : List Str) (l : List OModule) (out : OldOut) (md : MD) (g : ExtrinsicIn) (h12 : v < 12)
    (exts : List Str) (hD : DescribedOld v names l (if v < 12 then none else some exts) out) (hm : UsesOldAll v md out) (hv : g.version = b!"84") (n : Nat)
    (r : Except EncErr Str) : encodeExtrinsic env n spec (some md) g ≠ .ok r := by
  intro h
  have hx : md.extrinsic = none := by
    rw [hm.2, hD.extrinsic, if_pos h12]
    rfl
  unfold encodeExtrinsic at h
  dsimp only at h
  rw [Res.bind_eq_ok] at h
  obtain ⟨s, hs, -⟩ := h
  unfold encSignedPart encSigned at hs
  rw [if_pos hv] at hs
  simp only [Res.bind_eq_ok] at hs
  obtain ⟨_, _, _, _, _, _, _, _, hs⟩ := hs
  rw [hx] at hs
  cases hs

/-- Accounts given as they are read are written without the byte `ff`, so the bytes are not those of the node. -/
theorem C98_account (v : Nat) (reg : RegState) (spec : Int) (md0 : Option MD) (l : List OModule) (xv : Nat) (exts : List Str) (b : Str) (h12 : 12 ≤ v)
    (hv : v ≤ 13) (hr : ReadsOld reg.env ⟨[], spec, md0⟩) (hS : OldSignReady reg.env) (hf : FOld v l xv exts) (hd : DistinctIndex v l)
    (hw : EncOld v l xv exts b) (hl : b.length < 2 ^ 63) :
    ∃ out, Gives (fun n => processOld v n reg ⟨[], spec, md0⟩) b out ∧ ∀ md, UsesOldAll v md out →
      ∀ x c i j as, IsOldCall v l x c i j → OldArguments GoodValue (c.args.map Prod.snd) as → ∀ q g spec' a, OldFits v exts q → OldGiven q i j as g →
        q.signerB = 255 :: a → g.signer = .str (_root_.Spec.hexText a) → (q.body i j as).length < 2 ^ 30 →
        IsWritten out.reg.env spec' md g (OldSigned.body { q with signerB := a } i j as) ∧ ¬ IsWritten out.reg.env spec' md g (q.body i j as) := by
  obtain ⟨out, h1, h2⟩ := C98_exact v reg spec md0 l xv exts b h12 hv hr hS hf hd hw hl
  refine ⟨out, h1, fun md hm x c i j as hcall ha q g spec' a hq hg hb hs hlen => ?_⟩
  have hb1 : (q.body i j as).length = (OldSigned.body { q with signerB := a } i j as).length + 1 := by
    unfold OldSigned.body OldSigned.bytes
    rw [hb]
    simp only [List.length_append, List.length_cons, List.length_nil]
    omega
  have hx : IsHexOf (_root_.Spec.hexText a) a := by
    refine ⟨_, .inl rfl, ?_⟩
    rw [← toLower_eq_spec, ← bytesToHex_eq_spec, toLower_bytesToHex]
  have w := h2 md hm x c i j as hcall ha q g spec' _ a hq hg hs hx (by omega)
  refine ⟨w, ?_⟩
  rintro ⟨c', hc', M, hM⟩
  obtain ⟨c, hc, N, hN⟩ := w
  have e := (hM (M + N) (by omega)).symm.trans (hN (M + N) (by omega))
  rw [Res.ok.injEq, Except.ok.injEq, ← bytesToHex_eq_spec, ← bytesToHex_eq_spec] at e
  have e := bytesToHex_injective e
  have := isCompact_prefix hc' hc e
  omega

/-- The full claim is false: with metadata of version 9 no signed extrinsic is written. -/
theorem C98_claim_false : ¬ C98Claim := by
  intro h
  have hr := loaded_readsOld dummyExt 0 none
  obtain ⟨b, hb, hl⟩ := transfer_written
  obtain ⟨out, h1, h2⟩ := h 9 ⟨loadedEnv dummyExt, fun _ => none⟩ 0 none _ 0 [] b (by decide) (by decide) hr (loadedSign _) transfer_fits
    (fun h => absurd h (by decide)) List.nodup_nil hb hl
  obtain ⟨out2, read, rest, rfl, -, h3, h4, h5⟩ := C82_exact 9 ⟨loadedEnv dummyExt, fun _ => none⟩ ⟨[], 0, none⟩ _ 0 [] b hr transfer_fits
    (fun h => absurd h (by decide)) hb
  obtain rfl := gives_unique h1 (h3.gives hl)
  let md : MD := ⟨9, out.callIndex, out.eventIndex, none⟩
  have hm : UsesOldAll 9 md out := ⟨⟨rfl, rfl, rfl⟩, by rw [h4.extrinsic]; rfl⟩
  have burn : IsOldCall 9 [transferModule] transferModule ⟨b!"burn", [(b!"value", b!"Compact<T::Balance>")], []⟩ 0 1 := ⟨⟨[], [], rfl, rfl, rfl⟩, rfl⟩
  let a : Str := List.replicate 32 1
  let g : ExtrinsicIn := ⟨b!"84", .str (_root_.Spec.hexText a), .map [(b!"Sr25519", .str (sigShown zeroSig))], _root_.Spec.hexText [0], 1, (2, 0), [], _root_.Spec.hexText [0, 1], [.dec 5 0]⟩
  have hg : OldGiven (plainSigned (_root_.Spec.hexText a) (255 :: a)) 0 1 [(.dec 5 0, .dec 5 0, [20])] g :=
    ⟨rfl, ⟨b!"Sr25519", rfl, rfl⟩, by simp [plainSigned, g]; rintro _ _ _ - rfl -; rfl, by simp [plainSigned, g]; rintro _ _ _ - rfl -; rfl,
      by simp [plainSigned, g]; rintro _ _ _ - rfl -; rfl, by simp [plainSigned, g], rfl, rfl⟩
  obtain ⟨c, hc, N, hN⟩ := h2 md hm _ _ 0 1 [(.dec 5 0, .dec 5 0, [20])] burn (.cons (.inl (C94_values transfer_value)) .nil) []
    (plainSigned (_root_.Spec.hexText a) (255 :: a)) g 0 List.nodup_nil (plain_ok (.account (by decide)) _ _) hg rfl (by decide +kernel)
  exact C98_before12 _ 0 9 _ _ _ md g (by decide) [] h4 hm rfl N _ (hN N (by omega))

/-! ## An example -/

/-- As `burnSigned`, without the field. -/
def burnPlain : OldSigned :=
  ⟨_root_.Spec.hexText (List.replicate 32 1), 255 :: List.replicate 32 1, 2, List.replicate 65 9,
    [(b!"CheckSpecVersion", .nothing, []), (b!"CheckEra", .era [5, 1], [5, 1]), (b!"CheckNonce", .nonce 1, [4]), (b!"CheckWeight", .nothing, []),
      (payment, .tip 2, [8]), (b!"Extra", .nothing, [])]⟩

theorem burn_plain : OldFits 13 burnExts burnPlain where
  ok := { signer := .account (by decide)
          sig := ⟨b!"Ecdsa", rfl⟩
          listed := rfl
          coded := by
            have k : ∀ x ∈ burnExts, keptText x = x := by decide +kernel
            intro e he
            simp only [burnPlain, List.mem_cons, List.not_mem_nil, or_false] at he
            rcases he with rfl | rfl | rfl | rfl | rfl | rfl
            · exact .nothing (by rw [k _ (by decide)]; decide) (by simp)
            · exact .era (by rw [k _ (by decide)]; decide) (.inr ⟨5, 1, by decide, rfl⟩)
            · exact .nonce (k _ (by decide)) (by decide) (.inl ⟨by decide, by decide⟩)
            · exact .nothing (by rw [k _ (by decide)]; decide) (by simp)
            · exact .tip (k _ (by decide)) (by decide) (.inl ⟨by decide, by decide⟩)
            · exact .nothing (by rw [k _ (by decide)]; decide) (by simp) }
  order := ⟨⟨_, _, _, _, _, _, [_], [], rfl, .inr ⟨_, _, _, rfl⟩, by simp, rfl⟩, fun _ => rfl⟩
  sig := by
    rintro - ⟨-, t, h⟩
    cases h
  tip := by
    intro x m c h
    simp only [burnPlain, List.mem_cons, Prod.mk.injEq, reduceCtorEq, false_and, and_false, false_or, List.not_mem_nil, or_false, OldSays.tip.injEq] at h
    obtain ⟨-, rfl, -⟩ := h
    exact .inl (by decide)

/-- What is given to the encoder, with the signer `s`. -/
def burnGiven (s : Str) : ExtrinsicIn :=
  ⟨b!"84", .str s, .map [(b!"Ecdsa", .str (sigShown (List.replicate 65 9)))], b!"0501", 1, (2, 0), [], b!"0700", [.dec 5 0]⟩

theorem burn_given (s : Str) : OldGiven burnPlain 7 0 [(.dec 5 0, .dec 5 0, [20])] (burnGiven s) where
  version := rfl
  raw := ⟨b!"Ecdsa", rfl, rfl⟩
  era := by
    simp only [burnPlain, List.mem_cons, Prod.mk.injEq, reduceCtorEq, false_and, and_false, false_or, List.not_mem_nil, or_false, OldSays.era.injEq]
    rintro _ _ _ ⟨-, rfl, -⟩
    exact (by decide : b!"0501" = _root_.Spec.hexText [5, 1])
  nonce := by
    simp only [burnPlain, List.mem_cons, Prod.mk.injEq, reduceCtorEq, false_and, and_false, false_or, List.not_mem_nil, or_false, OldSays.nonce.injEq]
    rintro _ _ _ ⟨-, rfl, -⟩
    rfl
  tip := by
    simp only [burnPlain, List.mem_cons, Prod.mk.injEq, reduceCtorEq, false_and, and_false, false_or, List.not_mem_nil, or_false, OldSays.tip.injEq]
    rintro _ _ _ ⟨-, rfl, -⟩
    rfl
  data := by simp [burnPlain, burnGiven]
  code := (by decide : b!"0700" = _root_.Spec.hexText [7, 0])
  params := rfl

/-- With `ff` before the account the extrinsic is written as the node writes it, with the account alone it is not. -/
example : ∃ b out, Gives (fun n => processOld 13 n ⟨loadedEnv dummyExt, fun _ => none⟩ ⟨[], 0, none⟩) b out ∧ ∀ md, UsesOldAll 13 md out →
    IsWritten out.reg.env 0 md (burnGiven (_root_.Spec.hexText (255 :: List.replicate 32 1))) (burnPlain.body 7 0 [(.dec 5 0, .dec 5 0, [20])]) ∧
    ¬ IsWritten out.reg.env 0 md (burnGiven burnPlain.signer) (burnPlain.body 7 0 [(.dec 5 0, .dec 5 0, [20])]) := by
  obtain ⟨b, hb, hl⟩ := burn_written
  have hr := loaded_readsOld dummyExt 0 none
  obtain ⟨out, h1, h2⟩ := C98_partial 13 ⟨loadedEnv dummyExt, fun _ => none⟩ 0 none _ 4 _ b (by decide) (by decide) hr
    (loadedSign _) burn_fits (fun _ => by simp [burnModule]) hb hl
  obtain ⟨out', h3, h4⟩ := C98_account 13 ⟨loadedEnv dummyExt, fun _ => none⟩ 0 none _ 4 _ b (by decide) (by decide) hr
    (loadedSign _) burn_fits (fun _ => by simp [burnModule]) hb hl
  obtain rfl := gives_unique h1 h3
  have burn : IsOldCall 13 [burnModule] burnModule ⟨b!"burn", [(b!"value", b!"Compact<T::Balance>")], []⟩ 7 0 := ⟨⟨by simp, rfl⟩, rfl⟩
  exact ⟨b, out, h1, fun md hm => ⟨h2 md hm _ _ 7 0 _ burn (.cons transfer_value .nil) burnPlain _ 0 _ burn_plain (burn_given _) rfl ⟨_, .inl rfl, by decide +kernel⟩
    (by decide +kernel), (h4 md hm _ _ 7 0 _ burn (.cons transfer_value .nil) burnPlain _ 0 _ burn_plain (burn_given _) rfl rfl (by decide +kernel)).2⟩⟩

end ScaleGo
