import Verif.Props.C07
import Verif.Props.C14
import Verif.Props.C20

/-! # C60: timestamps in milliseconds decode to whole seconds

English claim: a timestamp of n milliseconds, given as `Moment` (64 bits) or as compact number, decodes to n div 1000 and consumes
exactly its bytes.

False for n from 1 to 10^10, which are returned unchanged, and for compact numbers from 2^63 on, which come out negative. -/

namespace ScaleGo

/-- The full claim, for both forms. -/
def C60Claim : Prop :=
  (∀ (env : Env) (ctx : Ctx) (ty sub : Str) (n : Nat), n < 2 ^ 64 → Resolves env ctx.module ctx.spec ty .moment sub →
    Decodes env ctx ty (Spec.leBytes 8 n) (.uint 8 (n / 1000)) []) ∧
  (∀ (env : Env) (ctx : Ctx) (ty sub b : Str) (n : Nat), n < 2 ^ 64 → Spec.IsCompact n b →
    Resolves env ctx.module ctx.spec ty .compactMoment sub → Decodes env ctx ty b (.int (n / 1000 : Nat)) [])

/-- What a 64-bit timestamp decodes to, for every value. -/
theorem C60_moment (env : Env) (ctx : Ctx) (ty sub : Str) (n : Nat) (hn : n < 2 ^ 64) (h : Resolves env ctx.module ctx.spec ty .moment sub) :
    (10000000000 < n → Decodes env ctx ty (Spec.leBytes 8 n) (.uint 8 (n / 1000)) []) ∧
    (n ≤ 10000000000 → Decodes env ctx ty (Spec.leBytes 8 n) (.uint 8 n) []) := by
  have key : Decodes env ctx ty (Spec.leBytes 8 n) (.uint 8 (if n > 10000000000 then n / 1000 else n)) [] := by
    refine decodes_of_read h fun r pre suf cs hl => ?_
    show processMoment _ = _
    unfold processMoment
    rw [nextBytes_at pre _ suf cs 8 (by rw [leBytes_length]; rfl) hl]
    simp only [Res.ok_bind]
    rw [readInto_self (leBytes_length 8 n), leNat_leBytes (by rw [pow256]; exact hn)]
  refine ⟨fun hg => ?_, fun hg => ?_⟩
  · rw [if_pos hg] at key; exact key
  · rw [if_neg (by omega)] at key; exact key

theorem momentU32_at {n : Nat} {b : Str} (hn : n < 2 ^ 64) (hb : Spec.IsCompact n b) (pre suf : Str) (cs : List Str)
    (hl : pre.length + b.length + suf.length < 2 ^ 63) :
    processCompactU32 ⟨⟨pre ++ (b ++ suf), pre.length⟩, cs⟩ =
      .ok (.int (wrap64 n), ⟨⟨pre ++ (b ++ suf), pre.length + b.length⟩, cs⟩) := by
  obtain ⟨len, cb, hf, hp⟩ := processCompactBytes_at hb
  unfold processCompactU32
  rw [hp pre suf cs hl]
  simp only [Res.ok_bind]
  rcases hf with ⟨h4, hn30, _, hv, hlen⟩ | ⟨h4, hv, hlen, hmin, _⟩
  · have hlt : leNat cb < 2 ^ 63 := by omega
    rw [readInto_short (by omega), leNat_pad, wrap64_nat hlt, if_pos (by omega), wrap64_nat (by omega : n < 2 ^ 63)]
    have e : ((leNat cb : Nat) : Int).tdiv 4 = ((leNat cb / 4 : Nat) : Int) := rfl
    rw [e, hv]
  · have hl8 : cb.length ≤ 8 := compact_cb_length hmin (j := 8) (by rw [pow256]; omega)
    rw [readInto_short hl8, leNat_pad, hv, if_neg (by omega)]

theorem wrap64_high {n : Nat} (h1 : 2 ^ 63 ≤ n) (h2 : n < 2 ^ 64) : wrap64 n = (n : Int) - 2 ^ 64 := by
  unfold wrap64 Int.bmod
  dsimp only
  split <;> omega

/-- What a compact timestamp decodes to, for every value of 64 bits. -/
theorem C60_compact (env : Env) (ctx : Ctx) (ty sub b : Str) (n : Nat) (hn : n < 2 ^ 64) (hb : Spec.IsCompact n b)
    (h : Resolves env ctx.module ctx.spec ty .compactMoment sub) :
    (10000000000 < n → n < 2 ^ 63 → Decodes env ctx ty b (.int (n / 1000 : Nat)) []) ∧
    (n ≤ 10000000000 → Decodes env ctx ty b (.int n) []) ∧
    (2 ^ 63 ≤ n → Decodes env ctx ty b (.int ((n : Int) - 2 ^ 64)) []) := by
  have key : Decodes env ctx ty b (.int (if wrap64 n > 10000000000 then (wrap64 n).tdiv 1000 else wrap64 n)) [] := by
    refine decodes_of_read h fun r pre suf cs hl => ?_
    show processCompactMoment _ = _
    unfold processCompactMoment
    rw [momentU32_at hn hb pre suf cs hl]
    rfl
  refine ⟨fun hg hl => ?_, fun hg => ?_, fun hg => ?_⟩
  · rw [wrap64_nat hl, if_pos (by omega)] at key
    exact key
  · rw [wrap64_nat (by omega), if_neg (by omega)] at key
    exact key
  · rw [wrap64_high hg hn, if_neg (by omega)] at key
    exact key

/-- **C60** for timestamps after 26 April 1970.  Missing from the full claim: earlier ones, which are not divided, and compact
numbers from 2^63 on. -/
theorem C60_partial (env : Env) (ctx : Ctx) (ty sub b : Str) (n : Nat) (h0 : 10000000000 < n) :
    (n < 2 ^ 64 → Resolves env ctx.module ctx.spec ty .moment sub → Decodes env ctx ty (Spec.leBytes 8 n) (.uint 8 (n / 1000)) []) ∧
    (n < 2 ^ 63 → Spec.IsCompact n b → Resolves env ctx.module ctx.spec ty .compactMoment sub →
      Decodes env ctx ty b (.int (n / 1000 : Nat)) []) :=
  ⟨fun hn h => (C60_moment env ctx ty sub n hn h).1 h0, fun hn hb h => (C60_compact env ctx ty sub b n (by omega) hb h).1 h0 hn⟩

theorem moment_base : Resolves (baseEnv dummyExt) [] 0 b!"Moment" .moment [] := by unfold Resolves; kernel_rfl

theorem compactMoment_base : Resolves (baseEnv dummyExt) [] 0 b!"Compact<Moment>" .compactMoment [] := by unfold Resolves; kernel_rfl

/-- The claim is false: ten million seconds are returned as ten thousand million. -/
theorem C60_claim_false : ¬ C60Claim := by
  intro h
  have h1 := h.1 (baseEnv dummyExt) ⟨[], 0, none⟩ b!"Moment" [] 10000000000 (by decide) moment_base
  have h2 := (C60_moment (baseEnv dummyExt) ⟨[], 0, none⟩ b!"Moment" [] 10000000000 (by decide) moment_base).2 (by decide)
  have := decodes_val_unique h1 h2 (by decide)
  cases this

/-- 2023-11-14, as 64 bits and compact. -/
example : Decodes (baseEnv dummyExt) ⟨[], 0, none⟩ b!"Moment" (Spec.leBytes 8 1700000000123) (.uint 8 1700000000) [] ∧
    ∀ b, Spec.IsCompact 1700000000123 b → Decodes (baseEnv dummyExt) ⟨[], 0, none⟩ b!"Compact<Moment>" b (.int 1700000000) [] :=
  ⟨(C60_partial _ ⟨[], 0, none⟩ _ _ [] 1700000000123 (by decide)).1 (by decide) moment_base,
   fun b hb => (C60_partial _ ⟨[], 0, none⟩ _ _ b 1700000000123 (by decide)).2 (by decide) hb compactMoment_base⟩

end ScaleGo
