import Verif.Props.C07
import Verif.Props.C10
import Verif.Props.C17
import Verif.Lemmas.Comp

/-! # C26: bit sets

A set of 8 or 128 bits always decodes to no names at all, and so does a 64-bit set with its highest bit set. -/

namespace Spec

/-- The names at the positions where `v` has the bit 1, in order. -/
def bitNames (names : List (List UInt8)) (v : Nat) : List (List UInt8) :=
  (names.zipIdx.filter fun p => v / 2 ^ p.2 % 2 = 1).map Prod.fst

end Spec

namespace ScaleGo

/-- Class of the number a set of `8 * w` bits is stored in. -/
def setClass (w : Nat) : Cls := if w = 16 then .u128 else uintClass w

/-- The type text by which a set of `8 * w` bits reads its number. -/
def setNumber (w : Nat) : Str := b!"U" ++ intToDec (8 * w : Nat)

/-- The full claim. -/
def C26Claim : Prop :=
  ∀ (env : Env) (ctx : Ctx) (ty sub isub : Str) (names : List Str) (w v : Nat), w ∈ [1, 2, 4, 8, 16] → v < 2 ^ (8 * w) →
    Resolves env ctx.module ctx.spec ty (.set names (8 * w : Nat)) sub →
    Resolves env ctx.module ctx.spec (setNumber w) (setClass w) isub →
    Decodes env ctx ty (Spec.leBytes w v) (.strs (Spec.bitNames names v)) []

theorem testBit_iff (v k : Nat) : v.testBit k = decide (v / 2 ^ k % 2 = 1) := by
  rw [Nat.testBit_eq_decide_div_mod_eq]

theorem setNames_eq (v : Nat) (hv : v < 2 ^ 63) (names : List Str) (k : Nat) :
    setNames v k names = ((names.zipIdx k).filter fun p => v / 2 ^ p.2 % 2 = 1).map Prod.fst := by
  induction names generalizing k with
  | nil => rfl
  | cons s ss ih =>
    rw [setNames, List.zipIdx_cons, List.filter_cons, ih (k + 1), testBit_iff]
    by_cases hk : k < 63
    · by_cases hb : v / 2 ^ k % 2 = 1 <;> simp [hk, hb]
    · have h0 : v / 2 ^ k = 0 := Nat.div_eq_of_lt (Nat.lt_of_lt_of_le hv (Nat.pow_le_pow_right (by decide) (by omega)))
      simp [hk, h0]

theorem bitNames_zero (names : List Str) : Spec.bitNames names 0 = [] := by
  unfold Spec.bitNames
  rw [List.map_eq_nil_iff, List.filter_eq_nil_iff]
  simp

/-- The number taken from the decoded value. -/
def setValue : Val → Int
  | .uint _ n => wrap64 n
  | _ => 0

theorem set_decodes {env : Env} {ctx : Ctx} {ty sub b : Str} {names : List Str} {bits : Int} {v : Val}
    (h : Resolves env ctx.module ctx.spec ty (.set names bits) sub) (hd : Decodes env ctx (b!"U" ++ intToDec bits) b v []) :
    Decodes env ctx ty b (.strs (if setValue v > 0 then setNames (setValue v).toNat 0 names else [])) [] := by
  obtain ⟨N, hN⟩ := hd
  refine decodes_of_decAt h ⟨N, fun n hn => ?_⟩
  show DecAt (processSet (pau env n) ctx names bits) _ _ _
  unfold processSet
  exact DecAt.last (hN n hn) fun _ => by cases v <;> rfl

/-- Sets of 16 and 32 bits, and of 64 bits without the highest one. -/
theorem C26_decode_partial (env : Env) (ctx : Ctx) (ty sub isub : Str) (names : List Str) (w v : Nat) (hw : w ∈ [2, 4, 8])
    (hv : v < 2 ^ (8 * w)) (h63 : v < 2 ^ 63) (h : Resolves env ctx.module ctx.spec ty (.set names (8 * w : Nat)) sub)
    (hn : Resolves env ctx.module ctx.spec (setNumber w) (setClass w) isub) :
    Decodes env ctx ty (Spec.leBytes w v) (.strs (Spec.bitNames names v)) [] := by
  have hwc : setClass w = uintClass w ∧ uintValue w v = .uint w v ∧ w ∈ [1, 2, 4, 8] := by
    simp only [List.mem_cons, List.not_mem_nil, or_false] at hw
    rcases hw with rfl | rfl | rfl <;> exact ⟨rfl, rfl, by decide⟩
  rw [hwc.1] at hn
  have hd := C07_decode env ctx (setNumber w) w v isub hwc.2.2 hv hn
  rw [hwc.2.1] at hd
  have := set_decodes h hd
  simp only [setValue, wrap64_nat h63] at this
  have e : (if (v : Int) > 0 then setNames (v : Int).toNat 0 names else []) = Spec.bitNames names v := by
    split
    · rw [Int.toNat_natCast, setNames_eq v h63]; rfl
    · rw [show v = 0 by omega, bitNames_zero]
  rwa [e] at this

/-- A 64-bit set with bit 63 decodes to nothing. -/
theorem C26_high_bit_wrong (env : Env) (ctx : Ctx) (ty sub isub : Str) (names : List Str) (v : Nat) (hlo : 2 ^ 63 ≤ v)
    (hv : v < 2 ^ 64) (h : Resolves env ctx.module ctx.spec ty (.set names (8 * 8 : Nat)) sub)
    (hn : Resolves env ctx.module ctx.spec (setNumber 8) .u64 isub) : Decodes env ctx ty (Spec.leBytes 8 v) (.strs []) [] := by
  have hd := C07_decode env ctx (setNumber 8) 8 v isub (by decide) hv hn
  have := set_decodes h hd
  rw [show setValue (uintValue 8 v) = wrap64 v from rfl] at this
  have hw : ¬ wrap64 (v : Int) > 0 := by
    unfold wrap64
    rw [Int.bmod_def]
    omega
  rwa [if_neg hw] at this

/-- A set of 8 bits decodes to nothing, whatever its bits. -/
theorem C26_u8_wrong (env : Env) (ctx : Ctx) (ty sub isub : Str) (names : List Str) (v : Nat) (hv : v < 2 ^ 8)
    (h : Resolves env ctx.module ctx.spec ty (.set names (8 * 1 : Nat)) sub)
    (hn : Resolves env ctx.module ctx.spec (setNumber 1) .u8 isub) : Decodes env ctx ty (Spec.leBytes 1 v) (.strs []) [] :=
  set_decodes h (C07_decode env ctx (setNumber 1) 1 v isub (by decide) hv hn)

/-- A set of 128 bits decodes to nothing, whatever its bits. -/
theorem C26_u128_wrong (env : Env) (ctx : Ctx) (ty sub isub : Str) (names : List Str) (v : Nat) (hv : v < 2 ^ 128)
    (h : Resolves env ctx.module ctx.spec ty (.set names (8 * 16 : Nat)) sub)
    (hn : Resolves env ctx.module ctx.spec (setNumber 16) .u128 isub) : Decodes env ctx ty (Spec.leBytes 16 v) (.strs []) [] := by
  obtain ⟨s, _, hd⟩ := C10_decode env ctx (setNumber 16) isub v hv hn
  exact set_decodes h hd

/-- The full claim is false: one name in a set of 8 bits. -/
theorem C26_claim_false : ¬ C26Claim := by
  intro hc
  let env := addTypes (baseEnv dummyExt) [(b!"flags", .set [b!"A"] (8 * 1 : Nat))]
  have hr : Resolves env [] 0 b!"Flags" (.set [b!"A"] (8 * 1 : Nat)) [] := by unfold Resolves; kernel_rfl
  have hn : Resolves env [] 0 (setNumber 1) .u8 [] := by unfold Resolves; kernel_rfl
  have h1 := hc env ⟨[], 0, none⟩ _ _ _ _ 1 1 (by decide) (by decide) hr hn
  have h2 := C26_u8_wrong env ⟨[], 0, none⟩ _ _ _ _ 1 (by decide) hr hn
  have := decodes_unique h1 h2 (by decide)
  injection this with this
  exact absurd this (by decide)

/-- Bits 0 and 2 of a 16-bit set. -/
example : Spec.bitNames [b!"A", b!"B", b!"C"] 5 = [b!"A", b!"C"] ∧
    Resolves (addTypes (baseEnv dummyExt) [(b!"flags", .set [b!"A"] (8 * 2 : Nat))]) [] 0 (setNumber 2) .u16 [] :=
  ⟨by decide, by unfold Resolves; kernel_rfl⟩

end ScaleGo
