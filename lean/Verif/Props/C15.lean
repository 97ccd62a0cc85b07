import Verif.Props.C14

/-! # C15: Compact<u32> over the whole 32-bit range

False of the code: from 2^30 on `CompactU32.Encode` produces no bytes. -/

namespace ScaleGo

/-- The full claim. -/
def C15Claim : Prop :=
  ∀ (env : Env) (ectx : ECtx) (ctx : Ctx) (ty sub sub' : Str) (v : Val) (n : Nat), n < 2 ^ 32 →
    EncResolves env ectx ty .compactU32 sub → Resolves env ctx.module ctx.spec ty .compactU32 sub' →
    compactU32Accepts v = true → Denotes v n →
    ∃ b, Encodes env ectx ty v b ∧ Decodes env ctx ty b (.int n) []

/-- Holds below 2^30; decoding holds for the whole range (`C14_decode`). Missing: encoding of 2^30 .. 2^32 - 1. -/
theorem C15_partial (env : Env) (ectx : ECtx) (ctx : Ctx) (ty sub sub' : Str) (v : Val) (n : Nat) (hn : n < 2 ^ 32)
    (h : EncResolves env ectx ty .compactU32 sub) (h' : Resolves env ctx.module ctx.spec ty .compactU32 sub')
    (hv : compactU32Accepts v = true) (hd : Denotes v n) :
    (∃ b, Spec.IsCompact n b ∧ Decodes env ctx ty b (.int n) []) ∧
    (n < 2 ^ 30 → ∃ b, Spec.IsCompact n b ∧ Encodes env ectx ty v b) := by
  refine ⟨?_, fun hn30 => C14_encode env ectx ty sub v n hn30 h hv hd⟩
  obtain ⟨b, hb⟩ := isCompact_exists n (Nat.lt_of_lt_of_le hn (by decide))
  exact ⟨b, hb, C14_decode env ctx ty sub' n b (by omega) hb h'⟩

/-- From 2^30 on nothing is written. -/
theorem C15_encodes_nothing (env : Env) (ctx : ECtx) (ty sub : Str) (v : Val) (n : Nat) (hlo : 2 ^ 30 ≤ n) (hn : n < 2 ^ 63)
    (h : EncResolves env ctx ty .compactU32 sub) (hv : compactU32Accepts v = true) (hd : Denotes v n) : Encodes env ctx ty v [] := by
  refine encodes_of_cls h fun r => ?_
  show encodeCompactU32 _ _ = _
  rw [compactU32_input env.ext hn hv hd, compactShort_none (by omega)]
  rfl

/-- Two different numbers with the same encoding: the claim is false. -/
theorem C15_claim_false : ¬ C15Claim := by
  intro hc
  have he : EncResolves (baseEnv dummyExt) ECtx.none b!"Compact<u32>" .compactU32 [] := ⟨by unfold Resolves; kernel_rfl, by decide⟩
  have hr : Resolves (baseEnv dummyExt) [] 0 b!"Compact<u32>" .compactU32 [] := by unfold Resolves; kernel_rfl
  have key : ∀ n : Nat, 2 ^ 30 ≤ n → n < 2 ^ 32 → Decodes (baseEnv dummyExt) ⟨[], 0, none⟩ b!"Compact<u32>" [] (.int n) [] := by
    intro n h1 h2
    obtain ⟨b, hb, hd⟩ := hc (baseEnv dummyExt) ECtx.none ⟨[], 0, none⟩ b!"Compact<u32>" [] [] (.int n) n h2 he hr rfl rfl
    have := C15_encodes_nothing (baseEnv dummyExt) ECtx.none b!"Compact<u32>" [] (.int n) n h1 (by omega) he rfl rfl
    rw [encodes_unique hb this] at hd
    exact hd
  obtain ⟨N, h1⟩ := key (2 ^ 30) (by decide) (by decide)
  obtain ⟨M, h2⟩ := key (2 ^ 31) (by decide) (by decide)
  have e1 := h1 (N + M) (by omega) [] [] [] (by decide)
  rw [h2 (N + M) (by omega) [] [] [] (by decide)] at e1
  simp at e1

example : compactU32Accepts (.uint 4 (2 ^ 31)) = true ∧ Denotes (.uint 4 (2 ^ 31)) ((2 ^ 31 : Nat) : Int) := ⟨rfl, rfl⟩

end ScaleGo
