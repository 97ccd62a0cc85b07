import Verif.Spec.Digest
import Verif.Props.C100
import Verif.Props.C50

/-! # Types of block headers and digests

The types of header digests in the registry of the library as loaded, in any module and for any runtime version; values of the parts of digest
items. -/

namespace ScaleGo
open _root_.Spec (leBytes IsCompact hexText DigestItem Prefixed hexShown listShown)
open ScaleGo.Spec

/-- The variants of `DigestItem` (source/base). -/
def itemVariants : List (Str × Str) :=
  [(b!"Other", b!"Vec<u8>"), (b!"AuthoritiesChange", b!"Vec<AuthorityId>"), (b!"ChangesTrieRoot", b!"Hash"), (b!"SealV0", b!"SealV0"),
    (b!"Consensus", b!"Consensus"), (b!"Seal", b!"Seal"), (b!"PreRuntime", b!"PreRuntime"), (b!"ChangesTrieSignal", b!"ChangesTrieSignal"),
    (b!"RuntimeEnvironmentUpdated", b!"NULL")]

/-- The variants of `RawBabePreDigest` (source/base). -/
def babeVariants : List (Str × Str) :=
  [(b!"isPhantom", b!"bool"), (b!"Primary", b!"RawBabePreDigestPrimary"), (b!"Secondary", b!"RawBabePreDigestSecondary"),
    (b!"VRF", b!"RawBabePreDigestSecondaryVRF")]

/-- What the texts of digests are looked up as. -/
def digestTypes : List (Str × Cls × Str) :=
  [(b!"LogDigest", .logDigest, []), (b!"Vec<LogDigest>", .vec [], b!"LogDigest"), (b!"Other", .hexBytes, []), (b!"AuthoritiesChange", .authoritiesChange, []),
    (b!"ChangesTrieRoot", .hexBytes, []), (b!"SealV0", .struct (some [(b!"slot", b!"u64"), (b!"signature", b!"Signature")]), []),
    (b!"Consensus", .struct (some [(b!"engine", b!"u32"), (b!"data", b!"Vec<u8>")]), []),
    (b!"Seal", .struct (some [(b!"engine", b!"u32"), (b!"data", b!"HexBytes")]), []),
    (b!"PreRuntime", .struct (some [(b!"engine", b!"u32"), (b!"data", b!"HexBytes")]), []),
    (b!"ChangesTrieSignal", .enum [] (some [(b!"NewConfiguration", b!"Option<ChangesTrieConfiguration>")]), []),
    (b!"Option<ChangesTrieConfiguration>", .option [], b!"ChangesTrieConfiguration"),
    (b!"ChangesTrieConfiguration", .struct (some [(b!"digestInterval", b!"u32"), (b!"digestLevels", b!"u32")]), []),
    (b!"u32", .u32, []), (b!"u64", .u64, []), (b!"Vec<u8>", .bytes, []), (b!"HexBytes", .hexBytes, []), (b!"Signature", .hash 64, []),
    (b!"AccountId", .accountId, []), (b!"Vec<AuthorityId>", .vec [], b!"AuthorityId"), (b!"Hash", .hash 32, []),
    (b!"H256", .hash 32, []), (b!"BlockNumber", .u32, []), (b!"Compact<BlockNumber>", .compact [], b!"BlockNumber"),
    (b!"DigestItem", .enum [] (some itemVariants), []), (b!"DigestItem<Hash>", .enum [] (some itemVariants), b!"Hash"),
    (b!"Vec<DigestItem<Hash>>", .vec [], b!"DigestItem<Hash>"), (b!"Digest", .struct (some [(b!"logs", b!"Vec<DigestItem<Hash>>")]), []), (b!"Compact<u32>", .compactU32, []),
    (b!"SlotNumber", .u64, []), (b!"BabeBlockWeight", .u32, []), (b!"VrfData", .fixedU8 32, []), (b!"VrfProof", .fixedU8 64, []),
    (b!"RawAuraPreDigest", .struct (some [(b!"slotNumber", b!"u64")]), []),
    (b!"RawBabePreDigest", .enum [] (some babeVariants), []),
    (b!"RawBabePreDigestPrimary", .struct (some [(b!"authorityIndex", b!"u32"), (b!"slotNumber", b!"SlotNumber"), (b!"weight", b!"BabeBlockWeight"),
      (b!"vrfOutput", b!"H256"), (b!"vrfProof", b!"H256")]), []),
    (b!"RawBabePreDigestSecondary", .struct (some [(b!"authorityIndex", b!"u32"), (b!"slotNumber", b!"SlotNumber"), (b!"weight", b!"BabeBlockWeight")]), []),
    (b!"RawBabePreDigestSecondaryVRF", .struct (some [(b!"authorityIndex", b!"u32"), (b!"slotNumber", b!"SlotNumber"), (b!"vrfOutput", b!"VrfData"),
      (b!"vrfProof", b!"VrfProof")]), [])]

/-- The same for texts that some modules override. -/
def headerTypes : List (Str × Cls × Str) :=
  [(b!"AuthorityId", .hash 32, []),
    (b!"Header", .struct (some [(b!"parent_hash", b!"H256"), (b!"number", b!"Compact<BlockNumber>"), (b!"state_root", b!"H256"),
      (b!"extrinsics_root", b!"H256"), (b!"digest", b!"Digest")]), [])]

theorem digest_table : ∀ p ∈ digestTypes, getCodecClass { loadedEnv dummyExt with reg := fastReg } [] 0 p.1 = .ok (some p.2) ∧
    (∀ w ∈ consulted (p.1.length + 1) p.1, NeverOverridden w) ∧ toLower p.1 ≠ b!"null" := by
  decide +kernel

theorem header_table : ∀ p ∈ headerTypes, getCodecClass { loadedEnv dummyExt with reg := fastReg } [] 0 p.1 = .ok (some p.2) ∧ PlainName p.1 ∧
    hasPrefix p.1 b!"BoundedBTreeSet" = false ∧ toLower p.1 ≠ b!"null" := by
  decide +kernel

variable (ext : Ext) (m : Str)

/-- In module `m` the text `t` is looked up as `c` with arguments `s`. -/
def Found (t : Str) (c : Cls) (s : Str) : Prop := (t, c, s) ∈ digestTypes ∨ m = [] ∧ (t, c, s) ∈ headerTypes

variable {m}

theorem found_all {t : Str} {c : Cls} {s : Str} (h : (t, c, s) ∈ digestTypes) : Found m t c s := .inl h

theorem digest_resolves {t : Str} {c : Cls} {s : Str} (h : Found m t c s) (spec : Int) : Resolves (loadedEnv ext) m spec t c s := by
  rcases h with h | ⟨rfl, h⟩
  · obtain ⟨h1, h2, -⟩ := digest_table _ h
    rw [fast_loaded] at h1
    exact (lookup_held dummyExt m spec _ t fun w hw => ⟨held_loaded ext w, h2 w hw⟩).trans h1
  · obtain ⟨h1, h2, h3, -⟩ := header_table _ h
    rw [fast_loaded, getCodecClass_plain _ 0 h2 h3 (moduleType_nil _)] at h1
    exact (getCodecClass_plain _ spec h2 h3 (moduleType_nil _)).trans h1

theorem digest_encResolves {t : Str} {c : Cls} {s : Str} (h : Found m t c s) (ectx : ECtx) : EncResolves (loadedEnv ext) ectx t c s := by
  have h' : Found [] t c s := h.imp id fun h => ⟨rfl, h.2⟩
  refine ⟨digest_resolves ext h' _, ?_⟩
  rw [← toLower_eq_spec]
  rcases h with h | ⟨-, h⟩
  · exact (digest_table _ h).2.2
  · exact (header_table _ h).2.2.2

theorem null_resolves (spec : Int) : Resolves (loadedEnv ext) m spec b!"NULL" .null [] ∧
    Resolves (loadedEnv ext) m spec b!"RuntimeEnvironmentUpdated" .null [] := by
  have h : ∀ t ∈ [b!"NULL", b!"RuntimeEnvironmentUpdated"], getCodecClass { loadedEnv dummyExt with reg := fastReg } [] 0 t = .ok (some (.null, [])) ∧
      ∀ w ∈ consulted (t.length + 1) t, NeverOverridden w := by decide +kernel
  rw [fast_loaded] at h
  constructor
  · exact (lookup_held dummyExt m spec _ _ fun w hw => ⟨held_loaded ext w, (h _ (by simp)).2 w hw⟩).trans (h _ (by simp)).1
  · exact (lookup_held dummyExt m spec _ _ fun w hw => ⟨held_loaded ext w, (h b!"RuntimeEnvironmentUpdated" (by simp)).2 w hw⟩).trans (h _ (by simp)).1

theorem digest_lenOK (ctx : Ctx) : LenOK (loadedEnv ext) ctx := ⟨_, digest_resolves ext (c := .compactU32) (s := []) (found_all (by decide)) _⟩

theorem digest_lenEncOK : LenEncOK (loadedEnv ext) :=
  ⟨_, digest_encResolves ext (m := []) (c := .compactU32) (s := []) (found_all (by decide)) _⟩

variable (m)

/-- Bytes `b` of type `t` are read as `v` in module `m`. -/
abbrev Shows (t b : Str) (v : Val) : Prop := ∀ spec md, Decodes (loadedEnv ext) ⟨m, spec, md⟩ t b v []

/-- `v` is written as bytes `b` of type `t`. -/
abbrev Writes (t b : Str) (v : Val) : Prop := ∀ ectx, Encodes (loadedEnv ext) ectx t v b

variable {m}

theorem shows_uint {t : Str} {w n : Nat} (hw : w ∈ [4, 8]) (hn : n < 2 ^ (8 * w)) (h : Found m t (uintClass w) []) :
    Shows ext m t (leBytes w n) (.uint w n) ∧ Writes ext t (leBytes w n) (.uint w n) := by
  have hw' : w ∈ [1, 2, 4, 8] := by
    rcases (by simpa using hw : w = 4 ∨ w = 8) with rfl | rfl <;> simp
  have e : uintValue w n = .uint w n := by
    rcases (by simpa using hw : w = 4 ∨ w = 8) with rfl | rfl <;> rfl
  refine ⟨fun spec md => ?_, fun ectx => ?_⟩
  · have := C07_decode (loadedEnv ext) ⟨m, spec, md⟩ t w n [] hw' hn (digest_resolves ext h _)
    rwa [e] at this
  · refine C07_encode (loadedEnv ext) ectx t w n [] _ hw' hn (digest_encResolves ext h _) ?_ ?_
    · rcases (by simpa using hw : w = 4 ∨ w = 8) with rfl | rfl <;> rfl
    · rfl

theorem shows_hash {t : Str} {n : Nat} {b : Str} (hb : b.length = n) (h : Found m t (.hash n) []) :
    Shows ext m t b (hexShown b) ∧ Writes ext t b (hexShown b) :=
  ⟨fun spec md => C50_decode_hash _ ⟨m, spec, md⟩ t [] n b hb (digest_resolves ext h _),
    fun ectx => C50_encode_hash _ ectx t [] n _ b (isHexOf_decoded b) (digest_encResolves ext h _)⟩

theorem shows_bytes {t : Str} {kind : Cls} {d p : Str} (hk : kind ∈ [.bytes, .hexBytes]) (hp : Prefixed d p) (h : Found m t (kind) []) :
    Shows ext m t p (.str (shown kind d)) ∧ (¬ (kind = .bytes ∧ Spec.IsText d ∧ ∃ u, d = b!"0x" ++ u) → Writes ext t p (.str (shown kind d))) := by
  obtain ⟨hl, c, hc, rfl⟩ := hp
  have hk' : kind ∈ [.bytes, .hexBytes, .string] := by simp only [List.mem_cons, List.not_mem_nil, or_false] at hk ⊢; tauto
  refine ⟨fun spec md => C19_decode _ ⟨m, spec, md⟩ t [] kind d c hk' (digest_resolves ext h _) (digest_lenOK ext _) hl hc, fun h0 ectx => ?_⟩
  refine (C19_roundtrip_partial _ ⟨m, 0, none⟩ ectx t [] [] kind d c hk' (digest_resolves ext h _) (digest_encResolves ext h _)
    (digest_lenOK ext _) (digest_lenEncOK ext) hl hc h0 ?_).2
  rintro ⟨rfl, -⟩
  simp at hk

theorem shown_hex (d : Str) : Val.str (shown .hexBytes d) = hexShown d := by simp [shown, hexShown]

/-- Structs of two fields. -/
theorem shows_pair {t a b ta tb x y : Str} {v w : Val} (hab : a ≠ b) (h : Found m t (.struct (some [(a, ta), (b, tb)])) [])
    (hx : Shows ext m ta x v) (hy : Shows ext m tb y w) : Shows ext m t (x ++ y) (.map [(a, v), (b, w)]) := by
  intro spec md
  have := C22_decode (loadedEnv ext) ⟨m, spec, md⟩ t [] [⟨a, ta, v, x, []⟩, ⟨b, tb, w, y, []⟩] (by simpa using hab) (digest_resolves ext h _)
    (by simpa using ⟨hx spec md, hy spec md⟩)
  simpa [bytesOf, valuesOf, callsOf] using this

theorem writes_pair {t a b ta tb x y : Str} {v w : Val} (hab : a ≠ b) (h : Found m t (.struct (some [(a, ta), (b, tb)])) [])
    (hx : Writes ext ta x v) (hy : Writes ext tb y w) : Writes ext t (x ++ y) (.map [(a, v), (b, w)]) := by
  intro ectx
  have := C22_encode (loadedEnv ext) ectx t [] [⟨a, ta, v, x, []⟩, ⟨b, tb, w, y, []⟩] [(a, v), (b, w)] (by simpa using hab) (by simp)
    (digest_encResolves ext h _) (by simpa using ⟨hx ectx, hy ectx⟩)
  simpa [bytesOf] using this

theorem mkSlice_shown (l : List Val) : mkSlice l = listShown l := by cases l <;> rfl

/-- Lists. -/
theorem shows_list {t el s : Str} {cls : Cls} (h : Found m t cls s) (hv : vecElem cls s = some el) (items : List (Val × Str)) {c : Str}
    (hl : items.length ≤ 524288) (hc : IsCompact items.length c) (hi : ∀ x ∈ items, Shows ext m el x.2 x.1) :
    Shows ext m t (c ++ (items.map (·.2)).flatten) (listShown (items.map (·.1))) := by
  intro spec md
  have := C20_decode (loadedEnv ext) ⟨m, spec, md⟩ t s el cls (items.map fun x => (x.1, x.2, [])) c hv (digest_resolves ext h _) (digest_lenOK ext _)
    (by simpa using hl) (by simpa using hc) (by
      rintro x hx
      obtain ⟨y, hy, rfl⟩ := List.mem_map.1 hx
      exact hi y hy spec md)
  simpa [List.map_map, Function.comp_def, mkSlice_shown] using this

theorem writes_list {t el s : Str} {cls : Cls} (h : Found m t cls s) (hv : vecElem cls s = some el) (items : List (Val × Str)) {c : Str}
    (hl : items.length ≤ 524288) (hc : IsCompact items.length c) (hi : ∀ x ∈ items, Writes ext el x.2 x.1) :
    Writes ext t (c ++ (items.map (·.2)).flatten) (listShown (items.map (·.1))) := by
  intro ectx
  cases items with
  | nil =>
    have e : c = [0] := by
      have h0 : IsCompact 0 c := hc
      simpa [IsCompact, leBytes] using h0
    subst e
    exact C20_encode_empty (loadedEnv ext) ectx t s el cls .nilSlice hv (digest_encResolves ext h _) (digest_lenEncOK ext) (by simp)
  | cons x items =>
    exact C20_encode (loadedEnv ext) ectx t s el cls (x :: items) c hv (digest_encResolves ext h _) (digest_lenEncOK ext) (by omega) hc
      fun y hy => hi y hy ectx

/-! ## Contents of items -/

/-- A text whose letters begin as hexadecimal digits are marked. -/
def Marked (d : Str) : Prop := Spec.IsText d ∧ ∃ u, d = b!"0x" ++ u

theorem shows_sealV0 {slot : Nat} {sig : Str} (h : slot < 2 ^ 64) (hs : sig.length = 64) :
    Shows ext m b!"SealV0" (leBytes 8 slot ++ sig) (.map [(b!"slot", .uint 8 slot), (b!"signature", hexShown sig)]) ∧
    Writes ext b!"SealV0" (leBytes 8 slot ++ sig) (.map [(b!"slot", .uint 8 slot), (b!"signature", hexShown sig)]) := by
  have hx := shows_uint (m := m) ext (t := b!"u64") (w := 8) (n := slot) (by simp) h (found_all (by decide))
  have hy := shows_hash (m := m) ext (t := b!"Signature") hs (found_all (by decide))
  exact ⟨shows_pair ext (by decide) (found_all (by decide)) hx.1 hy.1,
    writes_pair (m := m) ext (by decide) (found_all (by decide)) hx.2 hy.2⟩

theorem shows_engine {t el : Str} {kind : Cls} {e : Nat} {d p : Str} (he : e < 2 ^ 32) (hp : Prefixed d p) (hk : kind ∈ [.bytes, .hexBytes])
    (ht : (t, .struct (some [(b!"engine", b!"u32"), (b!"data", el)]), []) ∈ digestTypes) (hel : (el, kind, []) ∈ digestTypes) :
    Shows ext m t (leBytes 4 e ++ p) (.map [(b!"engine", .uint 4 e), (b!"data", .str (shown kind d))]) ∧
    (¬ (kind = .bytes ∧ Marked d) → Writes ext t (leBytes 4 e ++ p) (.map [(b!"engine", .uint 4 e), (b!"data", .str (shown kind d))])) := by
  have hx := shows_uint (m := m) ext (t := b!"u32") (w := 4) (n := e) (by simp) he (found_all (by decide))
  have hy := shows_bytes (m := m) ext hk hp (found_all hel)
  exact ⟨shows_pair ext (by decide) (found_all ht) hx.1 hy.1,
    fun h => writes_pair (m := m) ext (by decide) (found_all ht) hx.2 (hy.2 h)⟩

/-- The configuration of a signal. -/
theorem shows_conf {i l : Nat} (hi : i < 2 ^ 32) (hl : l < 2 ^ 32) :
    Shows ext m b!"ChangesTrieConfiguration" (leBytes 4 i ++ leBytes 4 l) (.map [(b!"digestInterval", .uint 4 i), (b!"digestLevels", .uint 4 l)]) ∧
    Writes ext b!"ChangesTrieConfiguration" (leBytes 4 i ++ leBytes 4 l) (.map [(b!"digestInterval", .uint 4 i), (b!"digestLevels", .uint 4 l)]) := by
  have hx := shows_uint (m := m) ext (t := b!"u32") (w := 4) (n := i) (by simp) hi (found_all (by decide))
  have hy := shows_uint (m := m) ext (t := b!"u32") (w := 4) (n := l) (by simp) hl (found_all (by decide))
  exact ⟨shows_pair ext (by decide) (found_all (by decide)) hx.1 hy.1,
    writes_pair (m := m) ext (by decide) (found_all (by decide)) hx.2 hy.2⟩

theorem rows_not {t : Str} (h : hasPrefix t b!"[[" = false) : ¬ LooksLikeRows t := by
  rintro ⟨r, rfl⟩
  simp [hasPrefix, List.isPrefixOf] at h

/-- Variants of enums. -/
theorem shows_variant {t s : Str} {tm : List (Str × Str)} (i : Nat) {name u b : Str} {v : Val} (h : Found m t (.enum [] (some tm)) s) (hnc : ¬ CLike tm)
    (hd : (tm.map Prod.fst).Nodup) (hl : tm.length ≤ 256) (ht : tm[i]? = some (name, u)) (hne : u ≠ []) (hrows : hasPrefix u b!"[[" = false) :
    (Shows ext m u b v → Shows ext m t (UInt8.ofNat i :: b) (.map [(name, v)])) ∧
    (Writes ext u b v → Writes ext t (UInt8.ofNat i :: b) (.map [(name, v)])) := by
  have hi : i < 256 := by
    have := (List.getElem?_eq_some_iff.mp ht).1
    omega
  refine ⟨fun hv spec md => ?_, fun hv ectx => ?_⟩
  · exact C23_decode_data (loadedEnv ext) ⟨m, spec, md⟩ t s [] tm (UInt8.ofNat i) name u b v [] hnc (by rw [byte_toNat hi]; exact ht) hne
      (rows_not hrows) (digest_resolves ext h _) (hv spec md)
  · exact C23_encode_data (loadedEnv ext) ectx t s [] tm i name u b [(name, v)] v hnc hd hl ht (rows_not hrows) (by simp) (by simp)
      (digest_encResolves ext h _) (hv ectx)

theorem not_cLike {tm : List (Str × Str)} (h : isCLike tm = false) : ¬ CLike tm := fun hc => by
  rw [(isCLike_iff tm).2 hc] at h
  exact Bool.noConfusion h

/-- Signals. -/
theorem shows_signal {c : Option (Nat × Nat)} {b : Str} (hb : (DigestItem.signal c).Bytes (7 :: b)) :
    Shows ext m b!"ChangesTrieSignal" b ((DigestItem.signal c).contents hexShown hexShown) ∧
    Writes ext b!"ChangesTrieSignal" b ((DigestItem.signal c).contents hexShown hexShown) := by
  have key : ∀ {b : Str} {v : Val}, Shows ext m b!"Option<ChangesTrieConfiguration>" b v ∧ Writes ext b!"Option<ChangesTrieConfiguration>" b v →
      Shows ext m b!"ChangesTrieSignal" (0 :: b) (.map [(b!"NewConfiguration", v)]) ∧
      Writes ext b!"ChangesTrieSignal" (0 :: b) (.map [(b!"NewConfiguration", v)]) := by
    intro b v h
    have := shows_variant (m := m) ext (b := b) (v := v) 0 (t := b!"ChangesTrieSignal") (s := [])
      (tm := [(b!"NewConfiguration", b!"Option<ChangesTrieConfiguration>")]) (found_all (by decide)) (not_cLike (by decide)) (by decide) (by decide)
      (by rfl) (by decide) (by decide)
    exact ⟨this.1 h.1, this.2 h.2⟩
  have ho : Found m b!"Option<ChangesTrieConfiguration>" (.option []) b!"ChangesTrieConfiguration" := found_all (by decide)
  cases c with
  | none =>
    obtain rfl : b = [0, 0] := by simpa [DigestItem.Bytes] using hb
    exact key ⟨fun spec md => C21_decode_none _ _ _ [] _ (digest_resolves ext ho _),
      fun ectx => C21_encode_none _ ectx _ [] _ _ (digest_encResolves ext ho _) (.inl rfl)⟩
  | some c =>
    obtain ⟨i, l⟩ := c
    obtain ⟨hi, hl, hb⟩ := hb
    obtain rfl : b = 0 :: 1 :: (leBytes 4 i ++ leBytes 4 l) := by simpa using hb
    have hc := shows_conf (m := m) ext hi hl
    refine key ⟨fun spec md => ?_, fun ectx => ?_⟩
    · exact C21_decode_some _ _ _ [] _ b!"ChangesTrieConfiguration" _ 1 _ _ rfl (by decide) (by decide) (by decide) (digest_resolves ext ho _) (hc.1 spec md)
    · exact C21_encode_some_partial _ ectx _ [] _ b!"ChangesTrieConfiguration" _ _ rfl (by decide) (digest_encResolves ext ho _)
        (by simp [CountsAsNone]) (hc.2 ectx)

end ScaleGo
