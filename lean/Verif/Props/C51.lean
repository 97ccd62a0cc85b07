import Verif.Props.C10
import Verif.Props.C13

/-! # C51: balances

The full claim fails for exactly one value, 2^128 - 1, which decodes to -1 and cannot be encoded back. -/

namespace ScaleGo

/-- The full claim. -/
def C51Claim : Prop :=
  ∀ (env : Env) (ctx : Ctx) (ectx : ECtx) (ty sub sub' : Str) (n : Nat), n < 2 ^ 128 →
    Resolves env ctx.module ctx.spec ty .balance sub → EncResolves env ectx ty .balance sub' →
    Decodes env ctx ty (Spec.leBytes 16 n) (.dec n 0) [] ∧ Encodes env ectx ty (.dec n 0) (Spec.leBytes 16 n)

/-- Encoding is right for every value and every accepted Go type. -/
theorem C51_encode (env : Env) (ctx : ECtx) (ty : Str) (sub : Str) (v : Val) (n : Nat) (hn : n < 2 ^ 128)
    (h : EncResolves env ctx ty .balance sub) (hv : U128Input v n) : Encodes env ctx ty v (Spec.leBytes 16 n) := by
  refine encodes_of_cls h fun r => ?_
  have hne : v ≠ .nil := by rintro rfl; simp [U128Input, Denotes] at hv
  show encodeU128 _ = _
  rw [argOf_eq hne, encodeU128, u128Input_eq hv]
  obtain ⟨u, hu, hval⟩ := U128.fromBig_spec n hn
  simp only [Res.ok_bind, hu, U128.putBytes_eq, hval, lePut_eq_spec]

theorem all_ff (n : Nat) (hn : n < 2 ^ 128) :
    bytesToHex (Spec.leBytes 16 n) = b!"ffffffffffffffffffffffffffffffff" ↔ n = 2 ^ 128 - 1 := by
  have e : b!"ffffffffffffffffffffffffffffffff" = bytesToHex (Spec.leBytes 16 (2 ^ 128 - 1)) := by decide +kernel
  rw [e]
  constructor
  · intro h
    have := congrArg leNat (bytesToHex_injective h)
    rw [leNat_leBytes (by rw [pow256]; exact hn), leNat_leBytes (by rw [pow256]; decide)] at this
    exact this
  · rintro rfl; rfl

/-- Decoding is right for every value but 2^128 - 1. -/
theorem C51_decode_partial (env : Env) (ctx : Ctx) (ty sub : Str) (n : Nat) (hn : n < 2 ^ 128) (hmax : n ≠ 2 ^ 128 - 1)
    (h : Resolves env ctx.module ctx.spec ty .balance sub) : Decodes env ctx ty (Spec.leBytes 16 n) (.dec n 0) [] := by
  refine decodes_of_read h fun r pre suf cs hl => ?_
  show processBalance _ = _
  unfold processBalance
  rw [nextBytes_at pre _ suf cs 16 (by rw [leBytes_length]; rfl) hl]
  simp only [Res.ok_bind]
  rw [readInto_self (leBytes_length 16 n), if_neg (by rw [all_ff n hn]; exact hmax)]
  obtain ⟨u, hu, hval⟩ := U128.fromBytes_spec (Spec.leBytes 16 n) (leBytes_length _ _)
  rw [leNat_leBytes (by rw [pow256]; exact hn)] at hval
  simp only [hu, Res.ok_bind, U128.big_eq, hval]

/-- 2^128 - 1 decodes to -1. -/
theorem C51_maximum_wrong (env : Env) (ctx : Ctx) (ty sub : Str) (h : Resolves env ctx.module ctx.spec ty .balance sub) :
    Decodes env ctx ty (Spec.leBytes 16 (2 ^ 128 - 1)) (.dec (-1) 0) [] := by
  refine decodes_of_read h fun r pre suf cs hl => ?_
  show processBalance _ = _
  unfold processBalance
  rw [nextBytes_at pre _ suf cs 16 (by rw [leBytes_length]; rfl) hl]
  simp only [Res.ok_bind]
  rw [readInto_self (leBytes_length 16 _), if_pos ((all_ff _ (by decide)).mpr rfl)]

/-- The value decoded from 2^128 - 1 is refused by the encoder. -/
theorem C51_maximum_refused (env : Env) (ctx : ECtx) (ty sub : Str) (h : EncResolves env ctx ty .balance sub) :
    EncodeRefuses env ctx ty (.dec (-1) 0) :=
  encodeRefuses_of_cls h fun _ => rfl

/-- The full claim is false. -/
theorem C51_claim_false : ¬ C51Claim := by
  intro hc
  have hr : Resolves (baseEnv dummyExt) [] 0 b!"Balance" .balance [] := by unfold Resolves; kernel_rfl
  have he : EncResolves (baseEnv dummyExt) ECtx.none b!"Balance" .balance [] := ⟨by unfold Resolves; kernel_rfl, by decide⟩
  obtain ⟨N, h1⟩ := (hc (baseEnv dummyExt) ⟨[], 0, none⟩ ECtx.none b!"Balance" [] [] (2 ^ 128 - 1) (by decide) hr he).1
  obtain ⟨M, h2⟩ := C51_maximum_wrong (baseEnv dummyExt) ⟨[], 0, none⟩ b!"Balance" [] hr
  have e1 := h1 (N + M) (by omega) [] [] [] (by simp [leBytes_length])
  rw [h2 (N + M) (by omega) [] [] [] (by simp [leBytes_length])] at e1
  simp at e1

example (ext : Ext) : Resolves (baseEnv ext) [] 0 b!"Balance" .balance [] ∧ (1000000000000 : Nat) ≠ 2 ^ 128 - 1 :=
  ⟨by unfold Resolves; kernel_rfl, by decide⟩

end ScaleGo
