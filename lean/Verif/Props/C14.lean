import Verif.Lemmas.Compact
import Verif.Lemmas.KernelRfl
import Verif.Model.Base

/-! # C14: Compact<u32> below 2^30 -/

namespace ScaleGo

/-- Dynamic Go types of integers and decimals that `CompactU32.Encode` reads. -/
def compactU32Accepts : Val → Bool
  | .int _ => true
  | .dec _ _ => true
  | .uint 4 _ => true
  | .uint 2 _ => true
  | .sint 8 _ => true
  | _ => false

theorem compactU32_input (ext : Ext) {v : Val} {n : Nat} (hn : n < 2 ^ 63) (hv : compactU32Accepts v = true) (hd : Denotes v n) :
    encodeCompactU32 ext (argOf v) = .ok (bytesToHex ((compactShort (n : Int)).getD [])) := by
  unfold compactU32Accepts at hv
  split at hv <;> first | (simp at hv; done) | skip
  case h_2 c e =>
    simp only [argOf, encodeCompactU32]
    rw [decIntPart, denotes_dec_trunc hd, wrap64_nat hn]
  all_goals
    simp only [Denotes] at hd
    simp only [argOf, encodeCompactU32, hd]

/-- Encoding produces the SCALE compact bytes. -/
theorem C14_encode (env : Env) (ctx : ECtx) (ty sub : Str) (v : Val) (n : Nat) (hn : n < 2 ^ 30)
    (h : EncResolves env ctx ty .compactU32 sub) (hv : compactU32Accepts v = true) (hd : Denotes v n) :
    ∃ b, Spec.IsCompact n b ∧ Encodes env ctx ty v b := by
  obtain ⟨b, hb, hc⟩ := compactShort_spec hn
  refine ⟨b, hc, encodes_of_cls h fun r => ?_⟩
  show encodeCompactU32 _ _ = _
  rw [compactU32_input env.ext (by omega) hv hd, hb]
  rfl

theorem compact_cb_length {n : Nat} {cb : Str} {j : Nat} (h1 : 256 ^ (cb.length - 1) ≤ n) (h2 : n < 256 ^ j) : cb.length ≤ j := by
  have : cb.length - 1 < j := (Nat.pow_lt_pow_iff_right (by decide : 1 < 256)).mp (Nat.lt_of_le_of_lt h1 h2)
  omega

/-- Decoding the SCALE compact bytes of any number below 2^63 returns it and consumes exactly them. -/
theorem C14_decode (env : Env) (ctx : Ctx) (ty sub : Str) (n : Nat) (b : Str) (hn : n < 2 ^ 63) (hb : Spec.IsCompact n b)
    (h : Resolves env ctx.module ctx.spec ty .compactU32 sub) : Decodes env ctx ty b (.int n) [] := by
  obtain ⟨len, cb, hf, hp⟩ := processCompactBytes_at hb
  refine decodes_of_read h fun r pre suf cs hl => ?_
  show processCompactU32 _ = _
  unfold processCompactU32
  rw [hp pre suf cs hl]
  simp only [Res.ok_bind]
  rcases hf with ⟨h4, hn30, _, hv, hlen⟩ | ⟨h4, hv, hlen, hmin, _⟩
  · have hlt : leNat cb < 2 ^ 63 := by omega
    rw [readInto_short (by omega), leNat_pad, wrap64_nat hlt, if_pos (by omega)]
    have e : ((leNat cb : Nat) : Int).tdiv 4 = ((leNat cb / 4 : Nat) : Int) := rfl
    rw [e, hv]
  · have hl8 : cb.length ≤ 8 := compact_cb_length hmin (j := 8) (by rw [pow256]; omega)
    rw [readInto_short hl8, leNat_pad, hv, wrap64_nat hn, if_neg (by omega)]

/-- Below 2^30 the encoding has 1, 2 or 4 bytes. -/
theorem C14_length (n : Nat) (b : Str) (hn : n < 2 ^ 30) (hb : Spec.IsCompact n b) :
    b.length = if n < 2 ^ 6 then 1 else if n < 2 ^ 14 then 2 else 4 := by
  rcases hb with ⟨h, rfl⟩ | ⟨h1, h2, rfl⟩ | ⟨h1, h2, rfl⟩ | ⟨h1, _⟩
  · rw [leBytes_length, if_pos h]
  · rw [leBytes_length, if_neg (by omega), if_pos h2]
  · rw [leBytes_length, if_neg (by omega), if_neg (by omega)]
  · omega

/-- Two different numbers never share an encoding, and no encoding is a prefix of another. -/
theorem C14_prefix_free (m n : Nat) (b c x y : Str) (hb : Spec.IsCompact m b) (hc : Spec.IsCompact n c) (h : b ++ x = c ++ y) :
    m = n ∧ b = c ∧ x = y := isCompact_prefix hb hc h

/-- The bytes are determined by the number. -/
theorem C14_unique (n : Nat) (b c : Str) (hb : Spec.IsCompact n b) (hc : Spec.IsCompact n c) : b = c := isCompact_unique hb hc

/-- Encode, then decode in any surroundings. -/
theorem C14_roundtrip (env : Env) (ectx : ECtx) (ctx : Ctx) (ty sub sub' : Str) (v : Val) (n : Nat) (hn : n < 2 ^ 30)
    (h : EncResolves env ectx ty .compactU32 sub) (h' : Resolves env ctx.module ctx.spec ty .compactU32 sub')
    (hv : compactU32Accepts v = true) (hd : Denotes v n) :
    ∃ b, Encodes env ectx ty v b ∧ Decodes env ctx ty b (.int n) [] := by
  obtain ⟨b, hb, he⟩ := C14_encode env ectx ty sub v n hn h hv hd
  exact ⟨b, he, C14_decode env ctx ty sub' n b (by omega) hb h'⟩

/-- 16384 is the first number with four bytes. -/
example (ext : Ext) : EncResolves (baseEnv ext) ECtx.none b!"Compact<u32>" .compactU32 [] ∧
    Resolves (baseEnv ext) [] 7 b!"Compact<u32>" .compactU32 [] ∧ Spec.IsCompact 16384 [2, 0, 1, 0] ∧
    Spec.IsCompact 63 [252] ∧ Spec.IsCompact 64 [1, 1] ∧ Denotes (.uint 4 16384) ((16384 : Nat) : Int) :=
  ⟨⟨by unfold Resolves; kernel_rfl, by decide⟩, by unfold Resolves; kernel_rfl, .inr (.inr (.inl (by decide))),
    .inl (by decide), .inr (.inl (by decide)), rfl⟩

end ScaleGo
