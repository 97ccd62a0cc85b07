import Verif.Lemmas.Dec
import Verif.Lemmas.KernelRfl
import Verif.Model.Base

/-! # C12: signed integers decode as two's complement

The full claim is false of the code; the theorems below say exactly for which bit patterns it holds. -/

namespace ScaleGo

/-- The widths in bytes of the registered signed types. -/
def signedWidths : List Nat := [1, 2, 4, 8, 16, 32]

/-- The full claim. -/
def C12Claim : Prop :=
  ∀ (env : Env) (ctx : Ctx) (ty sub : Str) (w n : Nat), w ∈ signedWidths → n < 2 ^ (8 * w) →
    Resolves env ctx.module ctx.spec ty (.intFixed w) sub →
    Decodes env ctx ty (Spec.leBytes w n) (.big (Spec.twos (8 * w) n)) []

theorem intFixed_value (w n : Nat) (hw : 2 ≤ w) (he : w % 2 = 0) (hn : n < 2 ^ (8 * w)) :
    u256OfBytes (reverseBytes (Spec.leBytes w n)) = some n := by
  rw [reverseBytes_even _ (by rw [leBytes_length]; exact he)]
  have hne : (Spec.leBytes w n).reverse.isEmpty = false := by
    rw [List.isEmpty_reverse]
    cases hb : Spec.leBytes w n with
    | nil => have := leBytes_length w n; rw [hb] at this; simp at this; omega
    | cons => rfl
  rw [u256OfBytes, hne]
  simp only [Bool.false_eq_true, if_false, beNat_reverse, leNat_leBytes (show n < 256 ^ w by rw [pow256]; exact hn)]

/-- Holds for every width above 8 bits and every bit pattern except that of the minimal value.
Missing for the full claim: width 1 and the pattern `2^(8w-1)`, where the code is wrong (see below). -/
theorem C12_decode_partial (env : Env) (ctx : Ctx) (ty sub : Str) (w n : Nat) (hw : w ∈ signedWidths) (hw1 : w ≠ 1)
    (hn : n < 2 ^ (8 * w)) (hmin : n ≠ 2 ^ (8 * w - 1)) (h : Resolves env ctx.module ctx.spec ty (.intFixed w) sub) :
    Decodes env ctx ty (Spec.leBytes w n) (.big (Spec.twos (8 * w) n)) [] := by
  have hw2 : 2 ≤ w ∧ w % 2 = 0 := by
    simp only [signedWidths, List.mem_cons, List.not_mem_nil, or_false] at hw
    omega
  refine decodes_of_read h fun r pre suf cs hl => ?_
  show processIntFixed w _ = _
  unfold processIntFixed
  rw [nextBytes_at pre _ suf cs w (by rw [leBytes_length]) hl]
  simp only [Res.ok_bind, intFixed_value w n hw2.1 hw2.2 hn]
  have e1 : ((w : Int) * 8 - 1).toNat = 8 * w - 1 := by omega
  have e2 : ((w : Int) * 8).toNat = 8 * w := by omega
  rw [e1, e2]
  unfold Spec.twos
  have c : ((n : Int) > 2 ^ (8 * w - 1)) ↔ n > 2 ^ (8 * w - 1) := by
    constructor
    · intro h; exact_mod_cast h
    · intro h; exact_mod_cast h
  by_cases hlt : n < 2 ^ (8 * w - 1)
  · rw [if_neg (by rw [c]; omega), if_pos hlt]
  · rw [if_pos (by rw [c]; omega), if_neg hlt]

/-- The minimal value of every width above 8 bits decodes to its positive counterpart. -/
theorem C12_minimum_wrong (env : Env) (ctx : Ctx) (ty sub : Str) (w : Nat) (hw : w ∈ signedWidths) (hw1 : w ≠ 1)
    (h : Resolves env ctx.module ctx.spec ty (.intFixed w) sub) :
    Decodes env ctx ty (Spec.leBytes w (2 ^ (8 * w - 1))) (.big (2 ^ (8 * w - 1))) [] := by
  have hw2 : 2 ≤ w ∧ w % 2 = 0 := by
    simp only [signedWidths, List.mem_cons, List.not_mem_nil, or_false] at hw
    omega
  refine decodes_of_read h fun r pre suf cs hl => ?_
  show processIntFixed w _ = _
  unfold processIntFixed
  rw [nextBytes_at pre _ suf cs w (by rw [leBytes_length]) hl]
  have hlt : 2 ^ (8 * w - 1) < 2 ^ (8 * w) := Nat.pow_lt_pow_right (by decide) (by omega)
  simp only [Res.ok_bind, intFixed_value w _ hw2.1 hw2.2 hlt]
  have e1 : ((w : Int) * 8 - 1).toNat = 8 * w - 1 := by omega
  rw [e1, if_neg (by push_cast; omega)]
  push_cast
  rfl

/-- Every `i8` decodes to 0, whatever its byte. -/
theorem C12_i8_wrong (env : Env) (ctx : Ctx) (ty sub : Str) (b : UInt8)
    (h : Resolves env ctx.module ctx.spec ty (.intFixed 1) sub) : Decodes env ctx ty [b] (.big 0) [] := by
  refine decodes_of_read h fun r pre suf cs hl => ?_
  show processIntFixed 1 _ = _
  unfold processIntFixed
  rw [nextBytes_at pre [b] suf cs 1 rfl hl]
  rfl

/-- The full claim is false: the byte 05 as `i8`. -/
theorem C12_claim_false : ¬ C12Claim := by
  intro hc
  have hr : Resolves (baseEnv dummyExt) [] 0 b!"i8" (.intFixed 1) [] := by unfold Resolves; kernel_rfl
  have h1 := hc (baseEnv dummyExt) ⟨[], 0, none⟩ b!"i8" [] 1 5 (by decide) (by decide) hr
  have h2 := C12_i8_wrong (baseEnv dummyExt) ⟨[], 0, none⟩ b!"i8" [] 5 hr
  obtain ⟨N, h1⟩ := h1
  obtain ⟨M, h2⟩ := h2
  have e1 := h1 (N + M) (by omega) [] [] [] (by simp [leBytes_length])
  have e2 := h2 (N + M) (by omega) [] [] [] (by simp)
  have hb : Spec.leBytes 1 5 = [5] := by decide
  rw [hb] at e1
  rw [e1] at e2
  simp [Spec.twos] at e2

/-- `feff` as `i16` is -2. -/
example (ext : Ext) : Resolves (baseEnv ext) [] 0 b!"i16" (.intFixed 2) [] ∧ (2 : Nat) ∈ signedWidths ∧
    (65534 : Nat) ≠ 2 ^ (8 * 2 - 1) ∧ Spec.leBytes 2 65534 = [0xfe, 0xff] ∧ Spec.twos (8 * 2) 65534 = -2 :=
  ⟨by unfold Resolves; kernel_rfl, by decide, by decide, by decide, by decide⟩

end ScaleGo
