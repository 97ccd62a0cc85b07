import Verif.Props.C104

/-! # C105: block headers

English claim: a block header, with the type `Header`, is read as its parent, its number, its roots and all items of its digest, and what was read is written as the
same bytes. -/

namespace ScaleGo
open _root_.Spec (leBytes IsCompact hexText DigestItem Prefixed hexShown listShown)
open ScaleGo.Spec

namespace Spec

/-- A block header (primitives/runtime/src/generic/header.rs): each item of the digest with its bytes. -/
structure BlockHeader where
  parent : Str
  number : Nat
  state : Str
  extrinsics : Str
  digest : List (DigestItem × Str)

/-- Hashes are of 32 bytes, the number of 32 bits; items are encoded as their kinds say. -/
structure BlockHeader.Proper (h : BlockHeader) : Prop where
  parent : h.parent.length = 32
  state : h.state.length = 32
  extrinsics : h.extrinsics.length = 32
  number : h.number < 2 ^ 32
  digest : ∀ x ∈ h.digest, x.1.Bytes x.2
  count : h.digest.length ≤ 524288

/-- The bytes of a header. -/
def BlockHeader.Bytes (h : BlockHeader) (b : Str) : Prop :=
  ∃ n c, IsCompact h.number n ∧ IsCompact h.digest.length c ∧
    b = h.parent ++ n ++ h.state ++ h.extrinsics ++ c ++ (h.digest.map (·.2)).flatten

end Spec

/-- An item in a header: the contents under the name of the kind. -/
def itemValue (i : DigestItem) : Val := .map [(i.kind, i.contents textShown textShown)]

/-- The result for a header. -/
def headerValue (h : BlockHeader) : Val :=
  .map [(b!"parent_hash", hexShown h.parent), (b!"number", .uint 8 h.number), (b!"state_root", hexShown h.state),
    (b!"extrinsics_root", hexShown h.extrinsics), (b!"digest", .map [(b!"logs", listShown (h.digest.map fun x => itemValue x.1))])]

/-- The full claim. -/
def C105Claim : Prop :=
  ∀ (ext : Ext) (spec : Int) (md : Option MD) (ectx : ECtx) (h : BlockHeader) (b : Str), h.Proper → h.Bytes b →
    Decodes (loadedEnv ext) ⟨[], spec, md⟩ b!"Header" b (headerValue h) [] ∧ Encodes (loadedEnv ext) ectx b!"Header" (headerValue h) b

/-- Items whose byte strings are not texts that begin with `0x`. -/
def Unmarked : DigestItem → Prop
  | .other d => ¬ Marked d
  | .consensus _ d => ¬ Marked d
  | _ => True

variable (ext : Ext)

theorem item_variant (i : Nat) {name u b : Str} {v : Val} (ht : itemVariants[i]? = some (name, u)) (hne : u ≠ []) (hrows : hasPrefix u b!"[[" = false) :
    (Shows ext [] u b v → Shows ext [] b!"DigestItem<Hash>" (UInt8.ofNat i :: b) (.map [(name, v)])) ∧
    (Writes ext u b v → Writes ext b!"DigestItem<Hash>" (UInt8.ofNat i :: b) (.map [(name, v)])) :=
  shows_variant ext i (s := b!"Hash") (tm := itemVariants) (found_all (by decide)) (not_cLike (by decide)) (by decide) (by decide) ht hne hrows

/-- Every item of a digest is read, and written unless it has a text that begins with `0x`. -/
theorem C105_item (i : DigestItem) (b : Str) (h : i.Bytes b) :
    Shows ext [] b!"DigestItem<Hash>" b (itemValue i) ∧ (Unmarked i → Writes ext b!"DigestItem<Hash>" b (itemValue i)) := by
  cases i with
  | other d =>
    obtain ⟨p, hp, rfl⟩ := h
    have := shows_bytes (m := []) ext (t := b!"Vec<u8>") (kind := .bytes) (by simp) hp (found_all (by decide))
    rw [shown_text] at this
    have hv := item_variant ext 0 (b := p) (v := textShown d) (by rfl) (by decide) (by decide)
    exact ⟨hv.1 this.1, fun hu => hv.2 (this.2 fun h => hu h.2)⟩
  | authorities ids =>
    obtain ⟨hl, h32, c, hc, rfl⟩ := h
    have hf : Found [] b!"Vec<AuthorityId>" (.vec []) b!"AuthorityId" := found_all (by decide)
    have hi : ∀ x ∈ ids.map fun x => (hexShown x, x), Shows ext [] b!"AuthorityId" x.2 x.1 ∧ Writes ext b!"AuthorityId" x.2 x.1 := by
      intro x hx
      obtain ⟨y, hy, rfl⟩ := List.mem_map.1 hx
      exact shows_hash ext (h32 y hy) (.inr ⟨rfl, by decide⟩)
    have h1 := shows_list ext hf rfl (ids.map fun x => (hexShown x, x)) (c := c) (by simpa using hl) (by simpa using hc) fun x hx => (hi x hx).1
    have h2 := writes_list ext hf rfl (ids.map fun x => (hexShown x, x)) (c := c) (by simpa using hl) (by simpa using hc) fun x hx => (hi x hx).2
    simp only [List.map_map, Function.comp_def, List.map_id'] at h1 h2
    have hv := item_variant ext 1 (b := c ++ ids.flatten) (v := listShown (ids.map hexShown)) (by rfl) (by decide) (by decide)
    exact ⟨hv.1 h1, fun _ => hv.2 h2⟩
  | trieRoot r =>
    obtain ⟨hr, rfl⟩ := h
    have := shows_hash (m := []) ext (t := b!"Hash") hr (found_all (by decide))
    have hv := item_variant ext 2 (b := r) (v := hexShown r) (by rfl) (by decide) (by decide)
    exact ⟨hv.1 this.1, fun _ => hv.2 this.2⟩
  | sealV0 slot sig =>
    obtain ⟨h1, h2, rfl⟩ := h
    have := shows_sealV0 (m := []) ext h1 h2
    have hv := item_variant ext 3 (b := leBytes 8 slot ++ sig) (v := (DigestItem.sealV0 slot sig).contents textShown textShown) (by rfl) (by decide) (by decide)
    exact ⟨hv.1 this.1, fun _ => hv.2 this.2⟩
  | consensus e d =>
    obtain ⟨he, p, hp, rfl⟩ := h
    have := shows_engine (m := []) ext (t := b!"Consensus") (el := b!"Vec<u8>") (kind := .bytes) he hp (by simp) (by decide) (by decide)
    rw [shown_text] at this
    have hv := item_variant ext 4 (b := leBytes 4 e ++ p) (v := (DigestItem.consensus e d).contents textShown textShown) (by rfl) (by decide) (by decide)
    exact ⟨hv.1 this.1, fun hu => hv.2 (this.2 fun h => hu h.2)⟩
  | sealed e d =>
    obtain ⟨he, p, hp, rfl⟩ := h
    have := shows_engine (m := []) ext (t := b!"Seal") (el := b!"HexBytes") (kind := .hexBytes) he hp (by simp) (by decide) (by decide)
    rw [shown_hex] at this
    have hv := item_variant ext 5 (b := leBytes 4 e ++ p) (v := (DigestItem.sealed e d).contents textShown textShown) (by rfl) (by decide) (by decide)
    exact ⟨hv.1 this.1, fun hu => hv.2 (this.2 (by simp))⟩
  | preRuntime e d =>
    obtain ⟨he, p, hp, rfl⟩ := h
    have := shows_engine (m := []) ext (t := b!"PreRuntime") (el := b!"HexBytes") (kind := .hexBytes) he hp (by simp) (by decide) (by decide)
    rw [shown_hex] at this
    have hv := item_variant ext 6 (b := leBytes 4 e ++ p) (v := (DigestItem.preRuntime e d).contents textShown textShown) (by rfl) (by decide) (by decide)
    exact ⟨hv.1 this.1, fun hu => hv.2 (this.2 (by simp))⟩
  | signal c =>
    obtain ⟨p, rfl⟩ : ∃ p, b = 7 :: p := by
      cases c with
      | none => exact ⟨_, h⟩
      | some c => exact ⟨_, h.2.2⟩
    have := shows_signal (m := []) ext h
    have hv := item_variant ext 7 (b := p) (v := (DigestItem.signal c).contents textShown textShown) (by rfl) (by decide) (by decide)
    exact ⟨hv.1 this.1, fun hu => hv.2 this.2⟩
  | environment =>
    obtain rfl : b = [8] := h
    have hv := item_variant ext 8 (b := []) (v := .nil) (by rfl) (by decide) (by decide)
    exact ⟨hv.1 fun spec md => null_decodes (null_resolves ext spec).1, fun _ => hv.2 fun ectx => null_encodes _ (by decide)⟩

/-- The fields of a header and of its digest. -/
def digestField (h : BlockHeader) (c : Str) : Field :=
  ⟨b!"logs", b!"Vec<DigestItem<Hash>>", listShown (h.digest.map fun x => itemValue x.1), c ++ (h.digest.map (·.2)).flatten, []⟩

def headerFields (h : BlockHeader) (n c : Str) : List Field :=
  [⟨b!"parent_hash", b!"H256", hexShown h.parent, h.parent, []⟩, ⟨b!"number", b!"Compact<BlockNumber>", .uint 8 h.number, n, []⟩,
    ⟨b!"state_root", b!"H256", hexShown h.state, h.state, []⟩, ⟨b!"extrinsics_root", b!"H256", hexShown h.extrinsics, h.extrinsics, []⟩,
    ⟨b!"digest", b!"Digest", .map (valuesOf [digestField h c]), bytesOf [digestField h c], []⟩]

theorem header_bytes {h : BlockHeader} {b : Str} (hp : h.Proper) (hb : h.Bytes b) :
    Shows ext [] b!"Header" b (headerValue h) ∧ ((∀ x ∈ h.digest, Unmarked x.1) → Writes ext b!"Header" b (headerValue h)) := by
  obtain ⟨n, c, hn, hc, rfl⟩ := hb
  have h1 := shows_hash (m := []) ext (t := b!"H256") hp.parent (found_all (by decide))
  have h2 := shows_hash (m := []) ext (t := b!"H256") hp.state (found_all (by decide))
  have h3 := shows_hash (m := []) ext (t := b!"H256") hp.extrinsics (found_all (by decide))
  have hcf : Found [] b!"Compact<BlockNumber>" (.compact []) b!"BlockNumber" := found_all (by decide)
  have hbf : Found [] b!"BlockNumber" .u32 [] := found_all (by decide)
  have h4 : Shows ext [] b!"Compact<BlockNumber>" n (.uint 8 h.number) := fun spec md =>
    C16_decode _ _ _ [] b!"BlockNumber" [] .u32 h.number n _ (digest_resolves ext hcf _) (by decide) (digest_resolves ext hbf _) ⟨hp.number, rfl⟩ hn (by simp)
  have hf : Found [] b!"Vec<DigestItem<Hash>>" (.vec []) b!"DigestItem<Hash>" := found_all (by decide)
  have h5 := shows_list ext hf rfl (h.digest.map fun x => (itemValue x.1, x.2)) (c := c) (by simpa using hp.count) (by simpa using hc) (by
    intro x hx
    obtain ⟨y, hy, rfl⟩ := List.mem_map.1 hx
    exact (C105_item ext _ _ (hp.digest y hy)).1)
  simp only [List.map_map, Function.comp_def] at h5
  have hd : Found [] b!"Digest" (.struct (some [(b!"logs", b!"Vec<DigestItem<Hash>>")])) [] := found_all (by decide)
  have hh : Found [] b!"Header" (.struct (some [(b!"parent_hash", b!"H256"), (b!"number", b!"Compact<BlockNumber>"), (b!"state_root", b!"H256"),
      (b!"extrinsics_root", b!"H256"), (b!"digest", b!"Digest")])) [] := .inr ⟨rfl, by decide⟩
  constructor
  · intro spec md
    have h6 := C22_decode (loadedEnv ext) ⟨[], spec, md⟩ b!"Digest" [] [digestField h c] (by simp) (digest_resolves ext hd _)
      (by simpa [digestField] using h5 spec md)
    have h7 := C22_decode (loadedEnv ext) ⟨[], spec, md⟩ b!"Header" [] (headerFields h n c) (by simp [headerFields])
      (digest_resolves ext hh _) (by
        simp only [headerFields, List.mem_cons, List.not_mem_nil, or_false, forall_eq_or_imp, forall_eq]
        exact ⟨h1.1 spec md, h4 spec md, h2.1 spec md, h3.1 spec md, h6⟩)
    simpa [bytesOf, valuesOf, callsOf, headerValue, headerFields, digestField, List.append_assoc] using h7
  · intro hu ectx
    have h4' : Writes ext b!"Compact<BlockNumber>" n (.uint 8 h.number) := fun ectx => by
      obtain ⟨n', hn', he⟩ := C16_encode_partial (loadedEnv ext) ectx b!"Compact<BlockNumber>" [] b!"BlockNumber" h.number (.uint 8 h.number)
        (digest_encResolves ext hcf _) ⟨rfl, rfl⟩ (fun _ _ => Nat.lt_trans hp.number (by decide)) (Nat.lt_trans hp.number (by decide)) (by
          have := hp.number
          rw [wrap64_nat (by omega)]
          omega)
      rwa [isCompact_unique hn hn']
    have h5' := writes_list ext hf rfl (h.digest.map fun x => (itemValue x.1, x.2)) (c := c) (by simpa using hp.count) (by simpa using hc) (by
      intro x hx
      obtain ⟨y, hy, rfl⟩ := List.mem_map.1 hx
      exact (C105_item ext _ _ (hp.digest y hy)).2 (hu y hy))
    simp only [List.map_map, Function.comp_def] at h5'
    have h6 := C22_encode (loadedEnv ext) ectx b!"Digest" [] [digestField h c]
      [(b!"logs", listShown (h.digest.map fun x => itemValue x.1))] (by simp) (by simp [digestField]) (digest_encResolves ext hd _) (by simpa [digestField] using h5' ectx)
    have h7 := C22_encode (loadedEnv ext) ectx b!"Header" [] (headerFields h n c)
      [(b!"parent_hash", hexShown h.parent), (b!"number", .uint 8 h.number), (b!"state_root", hexShown h.state),
        (b!"extrinsics_root", hexShown h.extrinsics), (b!"digest", .map [(b!"logs", listShown (h.digest.map fun x => itemValue x.1))])] (by simp) (by simp [headerFields, valuesOf, digestField])
      (digest_encResolves ext hh _) (by
        simp only [headerFields, List.mem_cons, List.not_mem_nil, or_false, forall_eq_or_imp, forall_eq]
        exact ⟨h1.2 ectx, h4' ectx, h2.2 ectx, h3.2 ectx, h6⟩)
    simpa [bytesOf, headerValue, headerFields, digestField, List.append_assoc] using h7

/-- Every header is read. -/
theorem C105_decode (spec : Int) (md : Option MD) (h : BlockHeader) (b : Str) (hp : h.Proper) (hb : h.Bytes b) :
    Decodes (loadedEnv ext) ⟨[], spec, md⟩ b!"Header" b (headerValue h) [] := (header_bytes ext hp hb).1 spec md

/-- A header without texts that begin with `0x` is written as it was. -/
theorem C105_partial (ectx : ECtx) (h : BlockHeader) (b : Str) (hp : h.Proper) (hb : h.Bytes b) (hu : ∀ x ∈ h.digest, Unmarked x.1) :
    Encodes (loadedEnv ext) ectx b!"Header" (headerValue h) b := (header_bytes ext hp hb).2 hu ectx

/-- A header with a text that begins with `0x` in its digest. -/
def markedHeader : BlockHeader :=
  ⟨List.replicate 32 1, 2, List.replicate 32 3, List.replicate 32 4, [(.consensus 5 b!"0x", [4, 5, 0, 0, 0, 8, 48, 120])]⟩

def markedBytes : Str :=
  List.replicate 32 1 ++ [8] ++ List.replicate 32 3 ++ List.replicate 32 4 ++ [4] ++ [4, 5, 0, 0, 0, 8, 48, 120]

theorem marked_proper : markedHeader.Proper where
  parent := by decide
  state := by decide
  extrinsics := by decide
  number := by decide
  digest := by
    simp only [markedHeader, List.mem_singleton, forall_eq]
    exact ⟨by decide, [8, 48, 120], ⟨by decide, [8], .inl ⟨by decide, by decide⟩, rfl⟩, by decide⟩
  count := by decide

theorem marked_bytes : markedHeader.Bytes markedBytes := ⟨[8], [4], .inl ⟨by decide, by decide⟩, .inl ⟨by decide, by decide⟩, by decide⟩

theorem C105_claim_false : ¬ C105Claim := by
  intro hc
  have h1 := (hc dummyExt 0 none ⟨0, none⟩ _ _ marked_proper marked_bytes).2
  have h2 : Encodes (loadedEnv dummyExt) ⟨0, none⟩ b!"Header" (headerValue markedHeader)
      (List.replicate 32 1 ++ [8] ++ List.replicate 32 3 ++ List.replicate 32 4 ++ [4] ++ [4, 5, 0, 0, 0, 0]) := by
    refine ⟨20, fun n hn => (enc_mono _ hn _ _ _).ok ?_⟩
    show enc _ 20 _ _ _ = .ok _
    unfold loadedEnv
    rw [loadedReg_fast]
    kernel_rfl
  have := encodes_unique h1 h2
  revert this
  decide

/-- A header with two items. -/
example (ectx : ECtx) : Decodes (loadedEnv ext) ⟨[], 0, none⟩ b!"Header"
      (List.replicate 32 1 ++ [8] ++ List.replicate 32 3 ++ List.replicate 32 4 ++ [8] ++ [6, 5, 0, 0, 0, 8, 48, 120] ++ [8])
      (headerValue ⟨List.replicate 32 1, 2, List.replicate 32 3, List.replicate 32 4, [(.preRuntime 5 b!"0x", [6, 5, 0, 0, 0, 8, 48, 120]), (.environment, [8])]⟩) [] ∧
    Encodes (loadedEnv ext) ectx b!"Header"
      (headerValue ⟨List.replicate 32 1, 2, List.replicate 32 3, List.replicate 32 4, [(.preRuntime 5 b!"0x", [6, 5, 0, 0, 0, 8, 48, 120]), (.environment, [8])]⟩)
      (List.replicate 32 1 ++ [8] ++ List.replicate 32 3 ++ List.replicate 32 4 ++ [8] ++ [6, 5, 0, 0, 0, 8, 48, 120] ++ [8]) := by
  have hp : BlockHeader.Proper ⟨List.replicate 32 1, 2, List.replicate 32 3, List.replicate 32 4,
      [(.preRuntime 5 b!"0x", [6, 5, 0, 0, 0, 8, 48, 120]), (.environment, [8])]⟩ := by
    refine ⟨by decide, by decide, by decide, by decide, ?_, by decide⟩
    simp only [List.mem_cons, List.not_mem_nil, or_false, forall_eq_or_imp, forall_eq]
    exact ⟨⟨by decide, [8, 48, 120], ⟨by decide, [8], .inl ⟨by decide, by decide⟩, rfl⟩, by decide⟩, rfl⟩
  have hb : BlockHeader.Bytes ⟨List.replicate 32 1, 2, List.replicate 32 3, List.replicate 32 4,
      [(.preRuntime 5 b!"0x", [6, 5, 0, 0, 0, 8, 48, 120]), (.environment, [8])]⟩
      (List.replicate 32 1 ++ [8] ++ List.replicate 32 3 ++ List.replicate 32 4 ++ [8] ++ [6, 5, 0, 0, 0, 8, 48, 120] ++ [8]) :=
    ⟨[8], [8], .inl ⟨by decide, by decide⟩, .inl ⟨by decide, by decide⟩, by decide⟩
  exact ⟨C105_decode ext 0 none _ _ hp hb, C105_partial ext ectx _ _ hp hb (by simp [Unmarked])⟩

end ScaleGo
