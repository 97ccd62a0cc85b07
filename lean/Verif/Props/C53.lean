import Verif.Props.C07
import Verif.Props.C13

/-! # C53: unsupported Go input types

The claim is false of the encoders of 8 to 64 bits and of compact numbers, which silently write 0. -/

namespace ScaleGo

/-- `v` is a Go integer: `int`, `int8`..`int64`, `uint8`..`uint64` or `*big.Int`. -/
def IsGoInteger : Val → Prop
  | .int _ => True
  | .sint w _ => w ∈ [1, 2, 4, 8]
  | .uint w _ => w ∈ [1, 2, 4, 8]
  | .big _ => True
  | _ => False

/-- The full claim for the fixed-width encoders: a Go integer is either encoded as its own value or refused. -/
def C53Claim : Prop :=
  ∀ (env : Env) (ctx : ECtx) (ty sub : Str) (w : Nat) (v : Val), w ∈ [1, 2, 4, 8] →
    EncResolves env ctx ty (uintClass w) sub → IsGoInteger v → uintAccepts w v = false → EncodeRefuses env ctx ty v

/-- Every value of a Go type outside the accepted ones and `float64`, whatever its value, is written as zero. -/
theorem C53_silent_zero (env : Env) (ctx : ECtx) (ty sub : Str) (w : Nat) (v : Val) (hw : w ∈ [1, 2, 4, 8])
    (h : EncResolves env ctx ty (uintClass w) sub) (hv : uintAccepts w v = false) (hf : ∀ b, v ≠ .float 8 b) :
    Encodes env ctx ty v (List.replicate w 0) := by
  refine encodes_of_cls h fun r => ?_
  simp only [List.mem_cons, List.not_mem_nil, or_false] at hw
  have hnil : v = .nil ∨ argOf v = v := by cases v <;> first | exact .inl rfl | exact .inr rfl
  rcases hw with rfl | rfl | rfl | rfl
  · show encodeU8 _ _ = _
    rcases hnil with rfl | e
    · rfl
    rw [e]
    unfold encodeU8
    split <;> first | rfl | (simp [uintAccepts] at hv; done) | exact absurd rfl (hf _)
  · show encodeU16 _ _ = _
    rcases hnil with rfl | e
    · simp only [argOf, encodeU16]; decide
    rw [e]
    unfold encodeU16
    split <;> first | rfl | (simp [uintAccepts] at hv; done) | exact absurd rfl (hf _)
  · show encodeU32 _ _ = _
    rcases hnil with rfl | e
    · simp only [argOf, encodeU32]; decide
    rw [e]
    unfold encodeU32
    split <;> first | rfl | (simp [uintAccepts] at hv; done) | exact absurd rfl (hf _)
  · show encodeU64 _ _ = _
    rcases hnil with rfl | e
    · simp only [argOf, encodeU64]; decide
    rw [e]
    unfold encodeU64
    split <;> first | rfl | (simp [uintAccepts] at hv; done) | exact absurd rfl (hf _)

/-- Compact numbers: `int8..int32`, `uint8..uint32` and `*big.Int` are written as compact zero. -/
theorem C53_compact_silent_zero (env : Env) (ctx : ECtx) (ty t sub : Str) (v : Val) (h : EncResolves env ctx ty (.compact t) sub)
    (hv : (∃ w i, v = .sint w i ∧ w ≠ 8) ∨ (∃ w n, v = .uint w n ∧ w ≠ 8) ∨ ∃ i, v = .big i) : Encodes env ctx ty v [0] := by
  refine encodes_of_cls h fun r => ?_
  show encodeCompact _ _ = _
  have hz : compactInput env.ext (argOf v) = .ok (0, 0) := by
    rcases hv with ⟨w, i, rfl, hw⟩ | ⟨w, i, rfl, hw⟩ | ⟨i, rfl⟩
    · simp only [argOf, compactInput]
      split <;> simp_all
    · simp only [argOf, compactInput]
      split <;> simp_all
    · rfl
  rw [encodeCompact, hz]
  rfl

/-- The claim is false: `int64(5)` as `u32` is written as 00000000. -/
theorem C53_claim_false : ¬ C53Claim := by
  intro hc
  have hr : EncResolves (baseEnv dummyExt) ECtx.none b!"u32" .u32 [] := ⟨by unfold Resolves; kernel_rfl, by decide⟩
  obtain ⟨N, h1⟩ := hc (baseEnv dummyExt) ECtx.none b!"u32" [] 4 (.sint 8 5) (by decide) hr (by simp [IsGoInteger]) rfl
  obtain ⟨M, h2⟩ := C53_silent_zero (baseEnv dummyExt) ECtx.none b!"u32" [] 4 (.sint 8 5) (by decide) hr rfl (by simp)
  have e1 := h1 (N + M) (by omega)
  rw [h2 (N + M) (by omega)] at e1
  cases e1

/-- The encoders that do refuse: `u128`/balances refuse everything but `*big.Int`, decimals, text, `int64` and `int`. -/
theorem C53_u128_refuses_partial (env : Env) (ctx : ECtx) (ty sub : Str) (cls : Cls) (v : Val) (hcls : cls = .u128 ∨ cls = .balance)
    (h : EncResolves env ctx ty cls sub)
    (hv : (∃ w i, v = .sint w i ∧ w ≠ 8) ∨ (∃ w n, v = .uint w n) ∨ (∃ w b, v = .float w b) ∨ (∃ b, v = .bool b) ∨
      v = .nil ∨ (∃ l, v = .slice l) ∨ ∃ m, v = .map m) : EncodeRefuses env ctx ty v := by
  refine encodeRefuses_of_cls h fun r => ?_
  have hp : encodeU128 (argOf v) = .panic := by
    rcases hv with ⟨w, i, rfl, hw⟩ | ⟨w, n, rfl⟩ | ⟨w, b, rfl⟩ | ⟨b, rfl⟩ | rfl | ⟨l, rfl⟩ | ⟨m, rfl⟩
    · have : u128Input (.sint w i) = .panic := by
        simp only [u128Input]
        split <;> simp_all
      simp [argOf, encodeU128, this]
    all_goals rfl
  rcases hcls with rfl | rfl <;> exact hp

/-- `U256` refuses every Go integer but `*big.Int`. -/
theorem C53_u256_refuses_partial (env : Env) (ctx : ECtx) (ty sub : Str) (v : Val) (h : EncResolves env ctx ty .u256 sub)
    (hv : (∃ i, v = .int i) ∨ (∃ w i, v = .sint w i) ∨ ∃ w n, v = .uint w n) : EncodeRefuses env ctx ty v := by
  refine encodeRefuses_of_cls h fun r => ?_
  rcases hv with ⟨i, rfl⟩ | ⟨w, i, rfl⟩ | ⟨w, n, rfl⟩ <;> rfl

/-- Signed types refuse `int`; the wide ones refuse every fixed-width Go integer too. -/
theorem C53_signed_refuses_partial (env : Env) (ctx : ECtx) (ty sub : Str) (w : Int) (v : Val)
    (h : EncResolves env ctx ty (.intFixed w) sub)
    (hv : (∃ i, v = .int i) ∨ (16 ≤ w ∧ ((∃ k i, v = .sint k i) ∨ ∃ k n, v = .uint k n))) : EncodeRefuses env ctx ty v := by
  refine encodeRefuses_of_cls h fun r => ?_
  show encodeIntFixed _ _ _ = _
  unfold encodeIntFixed
  rcases hv with ⟨i, rfl⟩ | ⟨hw, ⟨k, i, rfl⟩ | ⟨k, n, rfl⟩⟩
  · split <;> rfl
  · rw [if_neg (by omega)]; rfl
  · rw [if_neg (by omega)]; rfl

example (ext : Ext) : EncResolves (baseEnv ext) ECtx.none b!"u16" (uintClass 2) [] ∧ uintAccepts 2 (.sint 4 7) = false ∧
    EncResolves (baseEnv ext) ECtx.none b!"Compact<u64>" (.compact []) b!"u64" ∧ IsGoInteger (.sint 4 7) :=
  ⟨⟨by unfold Resolves; kernel_rfl, by decide⟩, rfl, ⟨by unfold Resolves; kernel_rfl, by decide⟩, by simp [IsGoInteger]⟩

end ScaleGo
