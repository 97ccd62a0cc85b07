import Verif.Lemmas.Digest
import Verif.Lemmas.Mono

/-! # C104: digest items of block headers as `LogDigest`

English claim: with the type `LogDigest`, which the library offers for the digest items of block headers, every item is read as its kind and its contents, and
items of unknown kinds are refused. -/

namespace ScaleGo
open _root_.Spec (leBytes IsCompact hexText DigestItem Prefixed hexShown listShown)
open ScaleGo.Spec

/-- Byte strings that may be text: shown as text if they are, otherwise in hexadecimal digits. -/
def textShown (d : Str) : Val := .str (if Spec.IsText d then d else b!"0x" ++ hexText d)

/-- The result for an item: its kind and its contents. -/
def logValue (i : DigestItem) : Val := .map [(b!"type", .str i.kind), (b!"value", i.contents hexShown textShown)]

/-- The full claim. -/
def C104Claim : Prop :=
  (∀ (ext : Ext) (ctx : Ctx) (i : DigestItem) (b : Str), i.Bytes b → Decodes (loadedEnv ext) ctx b!"LogDigest" b (logValue i) []) ∧
  ∀ (ext : Ext) (ctx : Ctx) (k : UInt8), 9 ≤ k.toNat → DecodeRefuses (loadedEnv ext) ctx b!"LogDigest" [k]

variable (ext : Ext)

theorem shown_text (d : Str) : Val.str (shown .bytes d) = textShown d := by simp [shown, textShown]

/-- The contents are read as a value of the type that is named like the kind. -/
theorem log_decodes {ctx : Ctx} (k : UInt8) {t b : Str} {v : Val} (hk : logDigestValues[k.toNat]? = some t) (h : Shows ext ctx.module t b v) :
    Decodes (loadedEnv ext) ctx b!"LogDigest" (k :: b) (.map [(b!"type", .str t), (b!"value", v)]) [] := by
  obtain ⟨m, spec, md⟩ := ctx
  obtain ⟨N, hN⟩ := h spec md
  refine decodes_of_decAt (digest_resolves ext (c := .logDigest) (s := []) (found_all (by decide)) spec) ⟨N, fun n hn => ?_⟩
  show DecAt (processLogDigest _ _) _ _ _
  unfold processLogDigest
  refine DecAt.byte ?_
  simp only [List.headD_cons, hk]
  exact DecAt.last (hN n hn) fun _ => rfl

/-- Every kind but that of roots of changes tries. -/
theorem C104_partial (ctx : Ctx) (i : DigestItem) (b : Str) (h : i.Bytes b) (hr : ∀ r, i ≠ .trieRoot r) :
    Decodes (loadedEnv ext) ctx b!"LogDigest" b (logValue i) [] := by
  cases i with
  | other d =>
    obtain ⟨p, hp, rfl⟩ := h
    have := (shows_bytes (m := ctx.module) ext (t := b!"Other") (kind := .hexBytes) (by simp) hp (found_all (by decide))).1
    rw [shown_hex] at this
    exact log_decodes ext 0 rfl this
  | authorities ids =>
    obtain ⟨hl, h32, c, hc, rfl⟩ := h
    have := shows_list (m := ctx.module) ext (t := b!"AuthoritiesChange") (el := b!"AccountId") (s := []) (cls := .authoritiesChange) (found_all (by decide)) rfl
      (ids.map fun x => (hexShown x, x)) (c := c) (by simpa using hl) (by simpa using hc) (by
        intro x hx spec md
        obtain ⟨y, hy, rfl⟩ := List.mem_map.1 hx
        exact C50_decode_account _ _ _ [] y (h32 y hy) (digest_resolves ext (found_all (by decide)) _))
    simp only [List.map_map, Function.comp_def, List.map_id'] at this
    exact log_decodes ext 1 rfl this
  | trieRoot r => exact absurd rfl (hr r)
  | sealV0 slot sig =>
    obtain ⟨h1, h2, rfl⟩ := h
    exact log_decodes ext 3 rfl (shows_sealV0 ext h1 h2).1
  | consensus e d =>
    obtain ⟨he, p, hp, rfl⟩ := h
    have := (shows_engine (m := ctx.module) ext (t := b!"Consensus") (el := b!"Vec<u8>") (kind := .bytes) he hp (by simp) (by decide) (by decide)).1
    rw [shown_text] at this
    exact log_decodes ext 4 rfl this
  | sealed e d =>
    obtain ⟨he, p, hp, rfl⟩ := h
    have := (shows_engine (m := ctx.module) ext (t := b!"Seal") (el := b!"HexBytes") (kind := .hexBytes) he hp (by simp) (by decide) (by decide)).1
    rw [shown_hex] at this
    exact log_decodes ext 5 rfl this
  | preRuntime e d =>
    obtain ⟨he, p, hp, rfl⟩ := h
    have := (shows_engine (m := ctx.module) ext (t := b!"PreRuntime") (el := b!"HexBytes") (kind := .hexBytes) he hp (by simp) (by decide) (by decide)).1
    rw [shown_hex] at this
    exact log_decodes ext 6 rfl this
  | signal c =>
    obtain ⟨p, rfl⟩ : ∃ p, b = 7 :: p := by
      cases c with
      | none => exact ⟨_, h⟩
      | some c => exact ⟨_, h.2.2⟩
    exact log_decodes ext 7 rfl (shows_signal ext h).1
  | environment =>
    obtain rfl : b = [8] := h
    exact log_decodes ext 8 rfl fun spec md => null_decodes (null_resolves ext spec).2

/-- The items of the kinds that block headers of current chains have, in a list. -/
theorem C104_list_partial (ctx : Ctx) (items : List (DigestItem × Str)) (c : Str) (hl : items.length ≤ 524288) (hc : IsCompact items.length c)
    (h : ∀ x ∈ items, x.1.Bytes x.2 ∧ ∀ r, x.1 ≠ .trieRoot r) :
    Decodes (loadedEnv ext) ctx b!"Vec<LogDigest>" (c ++ (items.map (·.2)).flatten) (listShown (items.map fun x => logValue x.1)) [] := by
  obtain ⟨m, spec, md⟩ := ctx
  have := shows_list (m := m) ext (t := b!"Vec<LogDigest>") (el := b!"LogDigest") (s := b!"LogDigest") (cls := .vec []) (found_all (by decide)) rfl
    (items.map fun x => (logValue x.1, x.2)) (c := c) (by simpa using hl) (by simpa using hc) (by
      intro x hx spec md
      obtain ⟨y, hy, rfl⟩ := List.mem_map.1 hx
      exact C104_partial ext _ _ _ (h y hy).1 (h y hy).2) spec md
  simpa only [List.map_map, Function.comp_def] using this

/-- A root of a changes trie is taken for a byte string: its first bytes are read as a length, and only so many bytes are read as the root; the decoder
then stands within or behind the root. -/
theorem C104_root (ctx : Ctx) (d p : Str) (h : Prefixed d p) :
    Decodes (loadedEnv ext) ctx b!"LogDigest" (2 :: p) (.map [(b!"type", .str b!"ChangesTrieRoot"), (b!"value", hexShown d)]) [] := by
  have := (shows_bytes (m := ctx.module) ext (t := b!"ChangesTrieRoot") (kind := .hexBytes) (by simp) h (found_all (by decide))).1
  rw [shown_hex] at this
  exact log_decodes ext 2 rfl this

/-- Kinds that do not exist are refused. -/
theorem C104_unknown_refused (ctx : Ctx) (k : UInt8) (hk : 9 ≤ k.toNat) : DecodeRefuses (loadedEnv ext) ctx b!"LogDigest" [k] := by
  obtain ⟨m, spec, md⟩ := ctx
  refine decodeRefuses_of_panicAt (digest_resolves ext (c := .logDigest) (s := []) (found_all (by decide)) spec) ⟨0, fun n _ => ?_⟩
  show PanicAt (processLogDigest _ _) _
  have hn : logDigestValues[k.toNat]? = none := List.getElem?_eq_none (by simpa [logDigestValues] using hk)
  intro pre suf cs hl
  unfold processLogDigest
  rw [nextBytes_at pre [k] suf cs 1 rfl hl]
  simp only [Res.ok_bind, List.headD_cons, hn]

/-- Writing looks at the text of the value only: of an item as it is read, which is a Go map, nothing is written, unless its text happens to be the name of a
kind. -/
theorem C104_not_written (ectx : ECtx) (l : List (Str × Val)) (h : ext.toStr (.map l) ∉ logDigestValues) :
    Encodes (loadedEnv ext) ectx b!"LogDigest" (.map l) [] := by
  have hr := digest_encResolves ext (m := []) (t := b!"LogDigest") (c := .logDigest) (s := []) (found_all (by decide)) ectx
  refine encodes_of_cls hr fun r => ?_
  show encodeEnum ext r ectx logDigestValues none (.map l) = _
  unfold encodeEnum
  have : sliceIndex (ext.toStr (.map l)) logDigestValues = none :=
    Option.not_isSome_iff_eq_none.1 fun h' => h (sliceIndex_mem_iff.1 h')
  simp only [this]
  rfl

theorem C104_claim_false : ¬ C104Claim := by
  intro hc
  have h1 := hc.1 dummyExt ⟨[], 0, none⟩ (.trieRoot (4 :: 7 :: List.replicate 30 0)) (2 :: 4 :: 7 :: List.replicate 30 0) ⟨by decide, rfl⟩
  have h2 := C104_root dummyExt ⟨[], 0, none⟩ [7] [4, 7] ⟨by decide, [4], .inl ⟨by decide, by decide⟩, rfl⟩
  obtain ⟨N, h1⟩ := h1
  obtain ⟨M, h2⟩ := h2
  have e1 := h1 (max N M) (by omega) [] [] [] (by decide)
  have e2 := h2 (max N M) (by omega) [] (List.replicate 30 0) [] (by decide)
  simp only [List.nil_append, List.append_nil, List.cons_append] at e1 e2
  rw [show ([] : Str).length = 0 from rfl] at e1 e2
  rw [e1] at e2
  simp at e2

/-- A list of four items: a slot of Aura, a consensus message that is text, a seal, and a signal. -/
example (ctx : Ctx) : Decodes (loadedEnv ext) ctx b!"Vec<LogDigest>"
    ([16] ++ [6, 0x61, 0x75, 0x72, 0x61, 8, 1, 2] ++ [4, 0x46, 0x52, 0x4e, 0x4b, 8, 104, 105] ++ [5, 0x61, 0x75, 0x72, 0x61, 4, 255] ++ [7, 0, 0])
    (.slice [.map [(b!"type", .str b!"PreRuntime"), (b!"value", .map [(b!"engine", .uint 4 0x61727561), (b!"data", .str b!"0x0102")])],
      .map [(b!"type", .str b!"Consensus"), (b!"value", .map [(b!"engine", .uint 4 0x4b4e5246), (b!"data", .str b!"hi")])],
      .map [(b!"type", .str b!"Seal"), (b!"value", .map [(b!"engine", .uint 4 0x61727561), (b!"data", .str b!"0xff")])],
      .map [(b!"type", .str b!"ChangesTrieSignal"), (b!"value", .map [(b!"NewConfiguration", .nil)])]]) [] := by
  have ht : Spec.IsText b!"hi" := by decide
  have := C104_list_partial ext ctx [(.preRuntime 0x61727561 [1, 2], [6, 0x61, 0x75, 0x72, 0x61, 8, 1, 2]),
    (.consensus 0x4b4e5246 b!"hi", [4, 0x46, 0x52, 0x4e, 0x4b, 8, 104, 105]), (.sealed 0x61727561 [255], [5, 0x61, 0x75, 0x72, 0x61, 4, 255]),
    (.signal none, [7, 0, 0])] [16] (by decide) (.inl ⟨by decide, by decide⟩) (by
      simp only [List.mem_cons, List.not_mem_nil, or_false, forall_eq_or_imp, forall_eq]
      refine ⟨⟨?_, by simp⟩, ⟨?_, by simp⟩, ⟨?_, by simp⟩, ⟨rfl, by simp⟩⟩
      · exact ⟨by decide, [8, 1, 2], ⟨by decide, [8], .inl ⟨by decide, by decide⟩, rfl⟩, by decide⟩
      · exact ⟨by decide, [8, 104, 105], ⟨by decide, [8], .inl ⟨by decide, by decide⟩, rfl⟩, by decide⟩
      · exact ⟨by decide, [4, 255], ⟨by decide, [4], .inl ⟨by decide, by decide⟩, rfl⟩, by decide⟩)
  simpa [logValue, DigestItem.kind, DigestItem.contents, listShown, textShown, ht, hexShown, hexText, _root_.Spec.hexChars] using this

end ScaleGo
