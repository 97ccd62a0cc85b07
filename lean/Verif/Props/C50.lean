import Verif.Lemmas.Dec
import Verif.Lemmas.KernelRfl
import Verif.Model.Base

/-! # C50: hashes and account ids -/

namespace ScaleGo

/-- A hash of `n` bytes decodes to `0x` and the hex text of exactly these bytes. -/
theorem C50_decode_hash (env : Env) (ctx : Ctx) (ty sub : Str) (n : Nat) (b : Str) (hb : b.length = n)
    (h : Resolves env ctx.module ctx.spec ty (.hash n) sub) : Decodes env ctx ty b (.str (b!"0x" ++ Spec.hexText b)) [] := by
  refine decodes_of_read h fun r pre suf cs hl => ?_
  show processHash n _ = _
  unfold processHash
  rw [nextBytes_at pre b suf cs n (by rw [hb]) hl]
  simp only [Res.ok_bind, addHex_bytesToHex]
  rw [bytesToHex_eq_spec]

/-- An account id decodes to `0x` and the hex text of its 32 bytes. -/
theorem C50_decode_account (env : Env) (ctx : Ctx) (ty sub : Str) (b : Str) (hb : b.length = 32)
    (h : Resolves env ctx.module ctx.spec ty .accountId sub) : Decodes env ctx ty b (.str (b!"0x" ++ Spec.hexText b)) [] := by
  refine decodes_of_read h fun r pre suf cs hl => ?_
  show processAccountId _ = _
  unfold processAccountId
  rw [nextBytes_at pre b suf cs 32 (by rw [hb]; rfl) hl]
  have e : rightJustify0 (bytesToHex b) 64 = bytesToHex b := by simp [rightJustify0, hb]
  simp only [Res.ok_bind, e, addHex_bytesToHex]
  rw [bytesToHex_eq_spec]

/-- Hex text of `b` in any letter case, with or without `0x`. -/
def IsHexOf (s b : Str) : Prop := ∃ t, (s = t ∨ s = b!"0x" ++ t) ∧ Spec.asciiLower t = Spec.hexText b

theorem isHexOf_trim {s b : Str} (h : IsHexOf s b) : trimHex (toLower s) = Spec.hexText b := by
  obtain ⟨t, ht, hb⟩ := h
  rw [← toLower_eq_spec] at hb
  rcases ht with rfl | rfl
  · rw [hb, ← bytesToHex_eq_spec, trimHex_bytesToHex]
  · rw [← hb]
    have : toLower (b!"0x" ++ t) = b!"0x" ++ toLower t := by simp [toLower]; decide
    rw [this, trimHex_0x]

theorem isHexOf_add {s b : Str} (h : IsHexOf s b) : addHex (toLower s) = b!"0x" ++ bytesToHex b := by
  obtain ⟨t, ht, hb⟩ := h
  rw [← toLower_eq_spec, ← bytesToHex_eq_spec] at hb
  rcases ht with rfl | rfl
  · rw [hb, addHex_bytesToHex]
  · have : toLower (b!"0x" ++ t) = b!"0x" ++ toLower t := by simp [toLower]; decide
    rw [this, hb]
    simp [addHex, hasPrefix, List.isPrefixOf]

/-- Encoding hex text of the bytes `b`, in any letter case, with or without prefix, gives `b`. -/
theorem C50_encode_hash (env : Env) (ctx : ECtx) (ty sub : Str) (n : Nat) (s b : Str) (hs : IsHexOf s b)
    (h : EncResolves env ctx ty (.hash n) sub) : Encodes env ctx ty (.str s) b := by
  refine ⟨1, fun m hm => ?_⟩
  obtain ⟨m, rfl⟩ : ∃ k, m = k + 1 := ⟨m - 1, by omega⟩
  rw [enc_resolves m _ h]
  show (encodeHash (.str s) >>= _) = _
  simp only [encodeHash, asStr, Res.ok_bind, isHexOf_add hs, trimHex_lower_0x]

theorem C50_encode_account (env : Env) (ctx : ECtx) (ty sub : Str) (s b : Str) (hs : IsHexOf s b)
    (h : EncResolves env ctx ty .accountId sub) : Encodes env ctx ty (.str s) b := by
  refine ⟨1, fun m hm => ?_⟩
  obtain ⟨m, rfl⟩ : ∃ k, m = k + 1 := ⟨m - 1, by omega⟩
  rw [enc_resolves m _ h]
  show (asStr (.str s) >>= _) = _
  simp only [asStr, Res.ok_bind, isHexOf_trim hs]

theorem isHexOf_decoded (b : Str) : IsHexOf (b!"0x" ++ Spec.hexText b) b := by
  refine ⟨_, .inr rfl, ?_⟩
  rw [← toLower_eq_spec, ← bytesToHex_eq_spec, toLower_bytesToHex]

/-- What was decoded encodes back to the same bytes. -/
theorem C50_roundtrip (env : Env) (ctx : Ctx) (ectx : ECtx) (ty sub sub' : Str) (cls : Cls) (b : Str)
    (hc : cls = .hash b.length ∨ (cls = .accountId ∧ b.length = 32))
    (h : Resolves env ctx.module ctx.spec ty cls sub) (h' : EncResolves env ectx ty cls sub') :
    ∃ v, Decodes env ctx ty b v [] ∧ Encodes env ectx ty v b := by
  rcases hc with rfl | ⟨rfl, hb⟩
  · exact ⟨_, C50_decode_hash env ctx ty sub _ b rfl h, C50_encode_hash env ectx ty sub' _ _ b (isHexOf_decoded b) h'⟩
  · exact ⟨_, C50_decode_account env ctx ty sub b hb h, C50_encode_account env ectx ty sub' _ b (isHexOf_decoded b) h'⟩

/-- Different byte strings decode to different texts. -/
theorem C50_injective (b c : Str) (h : b!"0x" ++ Spec.hexText b = b!"0x" ++ Spec.hexText c) : b = c := by
  rw [← bytesToHex_eq_spec, ← bytesToHex_eq_spec] at h
  exact bytesToHex_injective (List.append_cancel_left h)

example (ext : Ext) : Resolves (baseEnv ext) [] 0 b!"H160" (.hash 20) [] ∧ Resolves (baseEnv ext) [] 0 b!"H256" (.hash 32) [] ∧
    Resolves (baseEnv ext) [] 0 b!"H512" (.hash 64) [] ∧ EncResolves (baseEnv ext) ECtx.none b!"AccountId" .accountId [] ∧
    IsHexOf b!"0xABcd" [0xab, 0xcd] :=
  ⟨by unfold Resolves; kernel_rfl, by unfold Resolves; kernel_rfl, by unfold Resolves; kernel_rfl,
    ⟨by unfold Resolves; kernel_rfl, by decide⟩, _, .inr rfl, by decide⟩

end ScaleGo
