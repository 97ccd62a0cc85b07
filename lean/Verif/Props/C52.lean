import Verif.Props.C07
import Verif.Props.C10
import Verif.Props.C51

/-! # C52: truncated unsigned integers

Proved for 8 to 128 bits and balances.  `U256` violates the claim when an odd number of bytes (or none) is left. -/

namespace ScaleGo

/-- The class of the unsigned type of `w` bytes. -/
def unsignedClass : Nat → Cls
  | 16 => .u128
  | 32 => .u256
  | w => uintClass w

/-- The Go value that stands for `n` when an unsigned type of `w` bytes is decoded. -/
def UnsignedValue (w n : Nat) (v : Val) : Prop :=
  if w = 16 then ∃ s, Spec.IsNumeral s n ∧ v = .str s else if w = 32 then v = .dec n 0 else v = uintValue w n

/-- The full claim: `k < w` bytes are left, holding the number `n`. -/
def C52Claim : Prop :=
  ∀ (env : Env) (ctx : Ctx) (ty sub : Str) (w k n : Nat), w ∈ [1, 2, 4, 8, 16, 32] → k < w → n < 2 ^ (8 * k) →
    Resolves env ctx.module ctx.spec ty (unsignedClass w) sub →
    ∃ v, UnsignedValue w n v ∧ DecodesAtEnd env ctx ty (Spec.leBytes k n) v

theorem processUint_end (w k n : Nat) (hw : w ≤ 8) (hk : k ≤ w) (hn : n < 2 ^ (8 * k)) (pre : Str) (cs : List Str)
    (hl : pre.length + (Spec.leBytes k n).length < 2 ^ 62) :
    processUint w ⟨⟨pre ++ Spec.leBytes k n, pre.length⟩, cs⟩ =
      .ok (.uint w n, ⟨⟨pre ++ Spec.leBytes k n, (pre ++ Spec.leBytes k n).length⟩, cs⟩) := by
  unfold processUint
  have hlen := leBytes_length k n
  rw [nextBytes_end pre _ cs w (by omega) (by omega)]
  simp only [Res.ok_bind]
  rw [readInto_short (by omega), leNat_pad, leNat_leBytes (by rw [pow256]; exact hn)]

/-- Every width but 256 bits, and 256 bits when an even, non-zero number of bytes is left. -/
theorem C52_partial (env : Env) (ctx : Ctx) (ty sub : Str) (w k n : Nat) (hw : w ∈ [1, 2, 4, 8, 16, 32]) (hk : k < w)
    (hn : n < 2 ^ (8 * k)) (h32 : w = 32 → k % 2 = 0 ∧ k ≠ 0) (h : Resolves env ctx.module ctx.spec ty (unsignedClass w) sub) :
    ∃ v, UnsignedValue w n v ∧ DecodesAtEnd env ctx ty (Spec.leBytes k n) v := by
  simp only [List.mem_cons, List.not_mem_nil, or_false] at hw
  rcases hw with rfl | rfl | rfl | rfl | rfl | rfl
  · refine ⟨.int n, rfl, decodesAtEnd_of_read h fun r pre cs hl => ?_⟩
    show processU8 _ = _
    obtain rfl : k = 0 := by omega
    obtain rfl : n = 0 := by simpa using hn
    unfold processU8 getNextU8
    rw [show (1 : Int) = ((1 : Nat) : Int) by rfl, nextBytes_end pre (Spec.leBytes 0 0) cs 1 (by simp [leBytes_length]) (by omega)]
    rfl
  · exact ⟨_, rfl, decodesAtEnd_of_read h fun r pre cs hl => processUint_end 2 k n (by decide) (by omega) hn pre cs hl⟩
  · exact ⟨_, rfl, decodesAtEnd_of_read h fun r pre cs hl => processUint_end 4 k n (by decide) (by omega) hn pre cs hl⟩
  · exact ⟨_, rfl, decodesAtEnd_of_read h fun r pre cs hl => processUint_end 8 k n (by decide) (by omega) hn pre cs hl⟩
  · obtain ⟨s, hs, hd⟩ := C10_short env ctx ty sub k n hk hn h
    exact ⟨_, ⟨s, hs, rfl⟩, hd⟩
  · refine ⟨.dec n 0, rfl, decodesAtEnd_of_read h fun r pre cs hl => ?_⟩
    obtain ⟨he, h0⟩ := h32 rfl
    show processU256 _ = _
    unfold processU256
    have hlen := leBytes_length k n
    rw [show (32 : Int) = ((32 : Nat) : Int) by rfl, nextBytes_end pre _ cs 32 (by omega) (by omega)]
    simp only [Res.ok_bind, intFixed_value k n (by omega) he hn]

/-- A truncated balance. -/
theorem C52_balance (env : Env) (ctx : Ctx) (ty sub : Str) (k n : Nat) (hk : k < 16) (hn : n < 2 ^ (8 * k))
    (h : Resolves env ctx.module ctx.spec ty .balance sub) : DecodesAtEnd env ctx ty (Spec.leBytes k n) (.dec n 0) := by
  refine decodesAtEnd_of_read h fun r pre cs hl => ?_
  show processBalance _ = _
  unfold processBalance
  have hlen := leBytes_length k n
  rw [show (16 : Int) = ((16 : Nat) : Int) by rfl, nextBytes_end pre _ cs 16 (by omega) (by omega)]
  simp only [Res.ok_bind]
  have hpow : 2 ^ (8 * k) ≤ 2 ^ (8 * 15) := Nat.pow_le_pow_right (by decide) (by omega)
  have hn128 : n < 2 ^ 128 := Nat.lt_of_lt_of_le (Nat.lt_of_lt_of_le hn hpow) (by decide)
  have hpad : readInto 16 (Spec.leBytes k n) = Spec.leBytes 16 n := by
    rw [readInto_short (by omega), hlen, ← lePut_eq_spec, ← lePut_eq_spec, ← lePut_pad n 16 k (by rw [pow256]; exact hn) (by omega)]
  have hmax : n ≠ 2 ^ 128 - 1 := by
    have : n < 2 ^ 120 := Nat.lt_of_lt_of_le hn hpow
    intro e
    rw [e] at this
    exact absurd this (by decide)
  rw [hpad, if_neg (by rw [all_ff n hn128]; exact hmax)]
  obtain ⟨u, hu, hval⟩ := U128.fromBytes_spec (Spec.leBytes 16 n) (leBytes_length _ _)
  rw [leNat_leBytes (by rw [pow256]; exact hn128)] at hval
  simp only [hu, Res.ok_bind, U128.big_eq, hval]

/-- One byte left of a `U256`: the value is 0 whatever the byte. -/
theorem C52_u256_one_byte (env : Env) (ctx : Ctx) (ty sub : Str) (b : UInt8)
    (h : Resolves env ctx.module ctx.spec ty .u256 sub) : DecodesAtEnd env ctx ty [b] (.dec 0 0) := by
  refine decodesAtEnd_of_read h fun r pre cs hl => ?_
  show processU256 _ = _
  unfold processU256
  have hl' : pre.length + 1 < 2 ^ 62 := hl
  rw [show (32 : Int) = ((32 : Nat) : Int) by rfl, nextBytes_end pre [b] cs 32 (by simp) (by omega)]
  rfl

/-- Nothing left: decoding a `U256` panics. -/
theorem C52_u256_empty (env : Env) (ctx : Ctx) (ty sub : Str) (h : Resolves env ctx.module ctx.spec ty .u256 sub)
    (pre : Str) (cs : List Str) (hl : pre.length < 2 ^ 62) (n : Nat) :
    pau env (n + 1) ctx ty ⟨⟨pre, pre.length⟩, cs⟩ = .panic := by
  rw [pau_resolves n _ h]
  show processU256 _ = _
  unfold processU256
  have := nextBytes_end pre [] cs 32 (by simp) (by omega)
  rw [List.append_nil] at this
  rw [show (32 : Int) = ((32 : Nat) : Int) by rfl, this]
  rfl

/-- The full claim is false: the single byte 05 as `U256`. -/
theorem C52_claim_false : ¬ C52Claim := by
  intro hc
  have hr : Resolves (baseEnv dummyExt) [] 0 b!"U256" .u256 [] := by unfold Resolves; kernel_rfl
  obtain ⟨v, hv, N, h1⟩ := hc (baseEnv dummyExt) ⟨[], 0, none⟩ b!"U256" [] 32 1 5 (by decide) (by decide) (by decide) hr
  obtain ⟨M, h2⟩ := C52_u256_one_byte (baseEnv dummyExt) ⟨[], 0, none⟩ b!"U256" [] 5 hr
  have e1 := h1 (N + M) (by omega) [] [] (by simp [leBytes_length])
  have hb : Spec.leBytes 1 5 = [5] := by decide
  rw [hb, h2 (N + M) (by omega) [] [] (by simp)] at e1
  simp only [UnsignedValue] at hv
  subst hv
  simp at e1

example (ext : Ext) : Resolves (baseEnv ext) [] 0 b!"u64" (unsignedClass 8) [] ∧ (258 : Nat) < 2 ^ (8 * 2) ∧
    Spec.leBytes 2 258 = [2, 1] ∧ UnsignedValue 8 258 (.uint 8 258) :=
  ⟨by unfold Resolves; kernel_rfl, by decide, by decide, rfl⟩

end ScaleGo
