import Verif.Lemmas.Comp
import Verif.Lemmas.Strings

/-! # C19: byte strings and text

`Bytes` and `String` show text where all bytes are text bytes, otherwise `0x` hex; `HexBytes` always shows hex.  Encoding
what was decoded fails to give back the bytes in exactly two cases: `Bytes` whose content is itself text beginning with
`0x`, and `String` with non-text content. -/

namespace Spec

/-- ASCII characters and tab, line feed, carriage return; no other control characters. -/
def IsText (b : List UInt8) : Prop := ∀ c ∈ b, c.toNat ≤ 127 ∧ (32 ≤ c.toNat ∨ c.toNat = 9 ∨ c.toNat = 10 ∨ c.toNat = 13)

instance (b : List UInt8) : Decidable (IsText b) := by unfold IsText; infer_instance

end Spec

namespace ScaleGo

theorem isASCII_iff (b : Str) : isASCII b = true ↔ Spec.IsText b := by
  unfold isASCII Spec.IsText
  rw [List.all_eq_true]
  refine forall_congr' fun c => forall_congr' fun _ => ?_
  simp only [Bool.not_eq_true', Bool.or_eq_false_iff, decide_eq_false_iff_not, Bool.and_eq_false_iff, beq_iff_eq,
    Bool.not_eq_false', Bool.or_eq_true]
  omega

/-- What a byte string is shown as. -/
def shown (cls : Cls) (b : Str) : Str :=
  if (cls = .bytes ∨ cls = .string) ∧ Spec.IsText b then b else b!"0x" ++ Spec.hexText b

/-- The full claim: the length-prefixed bytes decode to the shown text, which encodes to the same bytes. -/
def C19Claim : Prop :=
  ∀ (env : Env) (ctx : Ctx) (ectx : ECtx) (ty sub sub' : Str) (cls : Cls) (b c : Str), cls ∈ [.bytes, .hexBytes, .string] →
    Resolves env ctx.module ctx.spec ty cls sub → EncResolves env ectx ty cls sub' → LenOK env ctx → LenEncOK env →
    b.length < 2 ^ 30 → Spec.IsCompact b.length c →
    Decodes env ctx ty (c ++ b) (.str (shown cls b)) [] ∧ Encodes env ectx ty (.str (shown cls b)) (c ++ b)

/-- Decoding. -/
theorem C19_decode (env : Env) (ctx : Ctx) (ty sub : Str) (cls : Cls) (b c : Str) (hc : cls ∈ [.bytes, .hexBytes, .string])
    (h : Resolves env ctx.module ctx.spec ty cls sub) (hL : LenOK env ctx) (hb : b.length < 2 ^ 30)
    (hcb : Spec.IsCompact b.length c) : Decodes env ctx ty (c ++ b) (.str (shown cls b)) [] := by
  refine decodes_of_decAt h ?_
  obtain ⟨N, hN⟩ := len_decodes hL (Nat.lt_trans hb (by decide)) hcb
  refine ⟨N, fun n hn => ?_⟩
  have hb2 : ∀ f : Str → Str, DecAt (fun st => nextBytes (b.length : Int) st >>= fun p => .ok (Val.str (f p.1), p.2)) b (.str (f b)) [] :=
    fun f => DecAt.map (decAt_next b (b.length : Int) rfl) (fun x => Val.str (f x))
  have hcls : cls = .bytes ∨ cls = .hexBytes ∨ cls = .string := by simpa using hc
  have key : ∀ f : Str → Str, DecAt (fun st => pau env n ctx b!"Compact<u32>" st >>= fun p => asInt p.1 >>= fun k =>
      nextBytes k p.2 >>= fun q => .ok (Val.str (f q.1), q.2)) (c ++ b) (.str (f b)) [] :=
    fun f => decAt_len (k := fun i st => nextBytes i st >>= fun q => .ok (Val.str (f q.1), q.2)) (hN n hn) (hb2 f)
  have hbs : processBytes (pau env n) ctx = (fun st => pau env n ctx b!"Compact<u32>" st >>= fun p => asInt p.1 >>= fun k =>
      nextBytes k p.2 >>= fun q => .ok (Val.str (asciiOrHex q.1), q.2)) := rfl
  have hhs : processHexBytes (pau env n) ctx = (fun st => pau env n ctx b!"Compact<u32>" st >>= fun p => asInt p.1 >>= fun k =>
      nextBytes k p.2 >>= fun q => .ok (Val.str (addHex (bytesToHex q.1)), q.2)) := rfl
  have e1 : ∀ cls, cls = Cls.bytes ∨ cls = Cls.string → shown cls b = asciiOrHex b := by
    intro cls hcls
    unfold shown asciiOrHex
    by_cases ht : Spec.IsText b
    · rw [if_pos ⟨hcls, ht⟩, if_pos ((isASCII_iff b).mpr ht)]
    · rw [if_neg (fun h => ht h.2), if_neg (fun h => ht ((isASCII_iff b).mp h)), addHex_bytesToHex, bytesToHex_eq_spec]
  rcases hcls with rfl | rfl | rfl
  · rw [e1 _ (.inl rfl)]
    show DecAt (processBytes _ _) _ _ _
    rw [hbs]; exact key _
  · have : shown .hexBytes b = addHex (bytesToHex b) := by
      rw [addHex_bytesToHex, bytesToHex_eq_spec]
      simp [shown]
    rw [this]
    show DecAt (processHexBytes _ _) _ _ _
    rw [hhs]; exact key fun x => addHex (bytesToHex x)
  · rw [e1 _ (.inr rfl)]
    show DecAt (processBytes _ _) _ _ _
    rw [hbs]; exact key _

theorem argOf_str (s : Str) : argOf (.str s) = .str s := rfl

/-- Encoding text that does not begin with `0x` as `Bytes`, any text as `String`, hex of any bytes as `Bytes` or `HexBytes`
(also without `0x` there, and in any letter case). -/
theorem encode_bytes_of {env : Env} {ectx : ECtx} {ty sub' : Str} {cls : Cls} {b c s : Str}
    (h : EncResolves env ectx ty cls sub') (hL : LenEncOK env) (hb : b.length < 2 ^ 30) (hcb : Spec.IsCompact b.length c)
    (hs : (cls = .bytes ∧ (s = b ∧ hasPrefix s b!"0x" = false ∨ s = b!"0x" ++ Spec.hexText b)) ∨
      (cls = .hexBytes ∧ (s = Spec.hexText b ∨ s = b!"0x" ++ Spec.hexText b)) ∨ (cls = .string ∧ s = b)) :
    Encodes env ectx ty (.str s) (c ++ b) := by
  obtain ⟨N, hN⟩ := len_encodes hL hb hcb
  refine encodes_of_enc h ⟨N, fun n hn => ?_⟩
  have e := hN n hn
  rw [bytesToHex_append, bytesToHex_eq_spec c]
  have hev : evenHex (bytesToHex b) = bytesToHex b := by
    unfold evenHex
    rw [if_neg (by rw [bytesToHex_length]; omega)]
  rcases hs with ⟨rfl, hs⟩ | ⟨rfl, hs⟩ | ⟨rfl, rfl⟩
  · show encodeBytes _ _ = _
    rcases hs with ⟨rfl, hp⟩ | rfl
    · simp only [argOf_str, encodeBytes, asStr, Res.ok_bind, hp, Bool.false_eq_true, if_false, hexToBytes_bytesToHex, e]
    · have hp : hasPrefix (b!"0x" ++ Spec.hexText b) b!"0x" = true := by simp [hasPrefix, List.isPrefixOf]
      simp only [argOf_str, encodeBytes, asStr, Res.ok_bind, hp, if_true, trimHex_0x]
      rw [← bytesToHex_eq_spec b, hev, hexToBytes_bytesToHex, e]
      rfl
  · show encodeHexBytes _ _ = _
    have : trimHex s = bytesToHex b := by
      rcases hs with rfl | rfl
      · rw [← bytesToHex_eq_spec, trimHex_bytesToHex]
      · rw [trimHex_0x, bytesToHex_eq_spec]
    simp only [argOf_str, encodeHexBytes, asStr, Res.ok_bind, this, hev, hexToBytes_bytesToHex, e]
  · show encodeString _ _ = _
    simp only [argOf_str, encodeString, asStr, Res.ok_bind, e]

/-- The decoded value encodes back to the same bytes in all cases but the two named above. -/
theorem C19_roundtrip_partial (env : Env) (ctx : Ctx) (ectx : ECtx) (ty sub sub' : Str) (cls : Cls) (b c : Str)
    (hc : cls ∈ [.bytes, .hexBytes, .string])
    (h : Resolves env ctx.module ctx.spec ty cls sub) (h' : EncResolves env ectx ty cls sub') (hL : LenOK env ctx)
    (hL' : LenEncOK env) (hb : b.length < 2 ^ 30) (hcb : Spec.IsCompact b.length c)
    (h0x : ¬ (cls = .bytes ∧ Spec.IsText b ∧ ∃ t, b = b!"0x" ++ t)) (hst : ¬ (cls = .string ∧ ¬ Spec.IsText b)) :
    Decodes env ctx ty (c ++ b) (.str (shown cls b)) [] ∧ Encodes env ectx ty (.str (shown cls b)) (c ++ b) := by
  refine ⟨C19_decode env ctx ty sub cls b c hc h hL hb hcb, encode_bytes_of h' hL' hb hcb ?_⟩
  have hcls : cls = .bytes ∨ cls = .hexBytes ∨ cls = .string := by simpa using hc
  rcases hcls with rfl | rfl | rfl
  · refine .inl ⟨rfl, ?_⟩
    by_cases ht : Spec.IsText b
    · left
      have e : shown .bytes b = b := by simp [shown, ht]
      refine ⟨e, ?_⟩
      rw [e]
      cases hp : hasPrefix b b!"0x" with
      | false => rfl
      | true =>
        obtain ⟨t, ht'⟩ := List.isPrefixOf_iff_prefix.mp hp
        exact absurd ⟨rfl, ht, t, ht'.symm⟩ h0x
    · right; simp [shown, ht]
  · right; left; exact ⟨rfl, .inr (by simp [shown])⟩
  · refine .inr (.inr ⟨rfl, ?_⟩)
    have ht : Spec.IsText b := Classical.byContradiction fun ht => hst ⟨rfl, ht⟩
    simp [shown, ht]

theorem hexDecode_length (s : Str) : 2 * (hexDecode s).length ≤ s.length := by
  induction s using hexDecode.induct with
  | case1 a b rest x y hx hy ih => rw [hexDecode, hx, hy]; simp; omega
  | case2 a b rest h =>
    rw [hexDecode]
    split
    · simp_all
    · simp; omega
  | case3 s h => rw [hexDecode]; · simp
                 · exact h

theorem compact_length_mono {m n : Nat} {x y : Str} (hx : Spec.IsCompact m x) (hy : Spec.IsCompact n y) (h : m ≤ n)
    (hn : n < 2 ^ 30) : x.length ≤ y.length := by
  rw [C14_length m x (by omega) hx, C14_length n y hn hy]
  (repeat' split) <;> omega

theorem hexText_length (b : Str) : (Spec.hexText b).length = 2 * b.length := by
  rw [← bytesToHex_eq_spec, bytesToHex_length]

theorem trimHex_length (s : Str) : (trimHex s).length ≤ s.length := by
  unfold trimHex trimPrefix
  split <;> simp

/-- Every text that begins with `0x` is taken for hex by `Bytes.Encode`, and does not give its own bytes. -/
theorem C19_text_0x_wrong (env : Env) (ectx : ECtx) (ty sub' : Str) (b c t : Str) (h' : EncResolves env ectx ty .bytes sub')
    (hL' : LenEncOK env) (hb : b.length < 2 ^ 30) (hcb : Spec.IsCompact b.length c) (h0x : b = b!"0x" ++ t) :
    ¬ Encodes env ectx ty (.str b) (c ++ b) := by
  rintro ⟨M, hM⟩
  have hp : hasPrefix b b!"0x" = true := by rw [h0x]; simp [hasPrefix, List.isPrefixOf]
  have htb : trimHex b = t := by rw [h0x, trimHex_0x]
  have hev : (evenHex t).length ≤ t.length + 1 := by unfold evenHex; split <;> simp
  have hlb : b.length = t.length + 2 := by rw [h0x]; simp
  have hlen : (hexToBytes (evenHex t)).length ≤ b.length := by
    have h1 := hexDecode_length (trimHex (evenHex t))
    have h2 := trimHex_length (evenHex t)
    unfold hexToBytes
    omega
  obtain ⟨x, hx⟩ := isCompact_exists (hexToBytes (evenHex t)).length (Nat.lt_of_lt_of_le (Nat.lt_of_le_of_lt hlen hb) (by decide))
  obtain ⟨N, hN⟩ := len_encodes hL' (by omega) hx
  have hxc := compact_length_mono hx hcb hlen hb
  have e := hM (max M N + 1) (by omega)
  rw [enc_resolves _ _ h'] at e
  have e2 : encodeCls env.ext (enc env (max M N)) ectx .bytes sub' (argOf (.str b)) = .ok (Spec.hexText x ++ evenHex t) := by
    show encodeBytes _ _ = _
    simp only [argOf_str, encodeBytes, asStr, Res.ok_bind, hp, if_true, htb, hN (max M N) (by omega)]
  rw [e2] at e
  simp only [Res.ok_bind] at e
  injection e with e
  have := congrArg List.length e
  have h3 := trimHex_length (toLower (Spec.hexText x ++ evenHex t))
  rw [toLower_length, List.length_append, hexText_length] at h3
  rw [hexText_length, List.length_append] at this
  omega

/-- Non-text content of a `String` is never given back. -/
theorem C19_string_wrong (env : Env) (ectx : ECtx) (ty sub' : Str) (b c : Str) (h' : EncResolves env ectx ty .string sub')
    (hL' : LenEncOK env) (hb : 2 * b.length + 2 < 2 ^ 30) (hcb : Spec.IsCompact b.length c) (ht : ¬ Spec.IsText b) :
    ¬ Encodes env ectx ty (.str (shown .string b)) (c ++ b) := by
  intro h
  have e : shown .string b = b!"0x" ++ Spec.hexText b := by simp [shown, ht]
  rw [e] at h
  have hl : (b!"0x" ++ Spec.hexText b).length = 2 * b.length + 2 := by rw [List.length_append, hexText_length]; simp; omega
  obtain ⟨x, hx⟩ := isCompact_exists (b!"0x" ++ Spec.hexText b).length (Nat.lt_of_lt_of_le (by rw [hl]; exact hb) (by decide))
  have h2 := encode_bytes_of h' hL' (b := b!"0x" ++ Spec.hexText b) (by rw [hl]; exact hb) hx (.inr (.inr ⟨rfl, rfl⟩))
  have := congrArg List.length (encodes_unique h h2)
  have hm := compact_length_mono hcb hx (by rw [hl]; omega) (by rw [hl]; exact hb)
  rw [List.length_append, List.length_append, hl] at this
  omega

/-- The full claim is false: the two bytes `0x` as `Bytes` encode to the empty byte string. -/
theorem C19_claim_false : ¬ C19Claim := by
  intro hc
  have hr : Resolves (baseEnv dummyExt) [] 0 b!"Bytes" .bytes [] := by unfold Resolves; kernel_rfl
  have he : EncResolves (baseEnv dummyExt) ECtx.none b!"Bytes" .bytes [] := ⟨by unfold Resolves; kernel_rfl, by decide⟩
  have hL : LenOK (baseEnv dummyExt) ⟨[], 0, none⟩ := ⟨[], by unfold Resolves; kernel_rfl⟩
  have hL' : LenEncOK (baseEnv dummyExt) := ⟨[], by unfold Resolves; kernel_rfl, by decide⟩
  have h8 : Spec.IsCompact (b!"0x" : Str).length [8] := .inl ⟨by decide, by decide⟩
  have := (hc _ ⟨[], 0, none⟩ _ _ _ _ .bytes b!"0x" [8] (by decide) hr he hL hL' (by decide) h8).2
  have e : shown .bytes b!"0x" = b!"0x" := by decide
  rw [e] at this
  exact C19_text_0x_wrong _ _ _ _ _ _ [] he hL' (by decide) h8 rfl this

/-- A text, a non-text and a hex example. -/
example (ext : Ext) : Resolves (baseEnv ext) [] 0 b!"Bytes" .bytes [] ∧ EncResolves (baseEnv ext) ECtx.none b!"String" .string [] ∧
    EncResolves (baseEnv ext) ECtx.none b!"HexBytes" .hexBytes [] ∧ LenOK (baseEnv ext) ⟨[], 0, none⟩ ∧ LenEncOK (baseEnv ext) ∧
    shown .bytes b!"hi!" = b!"hi!" ∧ shown .bytes [1, 255] = b!"0x01ff" ∧ shown .hexBytes b!"hi" = b!"0x6869" ∧
    Spec.IsCompact (b!"hi!" : Str).length [12] :=
  ⟨by unfold Resolves; kernel_rfl, ⟨by unfold Resolves; kernel_rfl, by decide⟩, ⟨by unfold Resolves; kernel_rfl, by decide⟩,
    ⟨[], by unfold Resolves; kernel_rfl⟩, ⟨[], by unfold Resolves; kernel_rfl, by decide⟩, by decide, by decide, by decide,
    .inl ⟨by decide, by decide⟩⟩

end ScaleGo
