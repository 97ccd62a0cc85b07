import Verif.Props.C12

/-! # C13: signed integers encode as little-endian two's complement

The full claim is false of the code: the wide types are written big-endian, and narrower Go integers are zero-extended. -/

namespace ScaleGo

/-- The full claim: any signed Go integer (`int8`..`int64`, or a big integer for the wide types) in range. -/
def C13Claim : Prop :=
  ∀ (env : Env) (ctx : ECtx) (ty sub : Str) (w : Nat) (v : Val) (i : Int), w ∈ signedWidths → Spec.SignedRange (8 * w) i →
    EncResolves env ctx ty (.intFixed w) sub →
    ((w < 16 ∧ ∃ w', w' ∈ [1, 2, 4, 8] ∧ v = .sint w' i) ∨ (16 ≤ w ∧ v = .big i)) → GoRange v →
    Encodes env ctx ty v (Spec.signedBytes w i)

theorem signedBytes_eq (w : Nat) (i : Int) : Spec.signedBytes w i = lePut w (toUint (8 * w) i) := by
  rw [lePut_eq_spec]; rfl

/-- Types below 128 bits: right when the Go integer is at least as wide as the type, or not negative. -/
theorem C13_encode_partial (env : Env) (ctx : ECtx) (ty sub : Str) (w w' : Nat) (i : Int) (hw : w ∈ [1, 2, 4, 8])
    (h : EncResolves env ctx ty (.intFixed w) sub) (hg : GoRange (.sint w' i)) (hc : w ≤ w' ∨ 0 ≤ i) :
    Encodes env ctx ty (.sint w' i) (Spec.signedBytes w i) := by
  have hw16 : w < 16 := by simp at hw; omega
  refine encodes_of_cls h fun r => ?_
  show encodeIntFixed env.ext w _ = _
  simp only [argOf, encodeIntFixed]
  rw [if_pos (by omega)]
  simp only [binaryWrite]
  rw [if_neg (by omega), signedBytes_eq, Int.toNat_natCast]
  congr 2
  by_cases hle : w ≤ w'
  · rw [readInto, lePut_take w w' _ hle, lePut_length, lePut_toUint w w' hle]
    simp [show w - w' = 0 by omega]
  · have hi : 0 ≤ i := by omega
    obtain ⟨n, rfl⟩ := Int.eq_ofNat_of_zero_le hi
    rw [readInto_short (by rw [lePut_length]; omega), lePut_length]
    have hn : n < 2 ^ (8 * w') := by
      have := hg.2
      rw [natPow_cast] at this
      have h2 : n < 2 ^ (8 * w' - 1) := by exact_mod_cast this
      exact Nat.lt_of_lt_of_le h2 (Nat.pow_le_pow_right (by decide) (by omega))
    have hn2 : n < 2 ^ (8 * w) := Nat.lt_of_lt_of_le hn (Nat.pow_le_pow_right (by decide) (by omega))
    rw [toUint_nat hn, toUint_nat hn2, lePut_pad n w w' (by rw [pow256]; exact hn) (by omega)]

/-- A negative Go integer narrower than the type gives zero instead of sign bytes. -/
theorem C13_narrow_wrong (env : Env) (ctx : ECtx) (ty sub : Str) (w w' : Nat) (i : Int) (hw : w ∈ [1, 2, 4, 8]) (hlt : w' < w)
    (h : EncResolves env ctx ty (.intFixed w) sub) :
    Encodes env ctx ty (.sint w' i) (Spec.signedBytes w' i ++ List.replicate (w - w') 0) := by
  have hw16 : w < 16 := by simp at hw; omega
  refine encodes_of_cls h fun r => ?_
  show encodeIntFixed env.ext w _ = _
  simp only [argOf, encodeIntFixed]
  rw [if_pos (by omega)]
  simp only [binaryWrite]
  rw [if_neg (by omega), signedBytes_eq, Int.toNat_natCast, readInto_short (by rw [lePut_length]; omega), lePut_length]

theorem not_lePut (w m : Nat) (h : m < 256 ^ w) : (lePut w m).map (fun b => ~~~ b) = lePut w (256 ^ w - 1 - m) := by
  induction w generalizing m with
  | zero => rfl
  | succ w ih =>
    rw [lePut, lePut, List.map_cons]
    have hp : 256 ^ (w + 1) = 256 ^ w * 256 := Nat.pow_succ ..
    have hm : m / 256 < 256 ^ w := by rw [Nat.div_lt_iff_lt_mul (by decide), ← hp]; exact h
    rw [ih _ hm]
    have hb : ∀ n : Fin 256, ~~~ (UInt8.ofNat n.val) = UInt8.ofNat (255 - n.val) := by decide +kernel
    have hb := hb ⟨m % 256, Nat.mod_lt _ (by decide)⟩
    simp only at hb
    rw [hb]
    generalize 256 ^ w = P at *
    congr 2 <;> omega

/-- Types of 128 and 256 bits: in range, the bytes come out most significant first. -/
theorem C13_wide_big_endian (env : Env) (ctx : ECtx) (ty sub : Str) (w : Nat) (i : Int) (hw : w ∈ [16, 32])
    (hi : Spec.SignedRange (8 * w) i) (h : EncResolves env ctx ty (.intFixed w) sub) :
    Encodes env ctx ty (.big i) (Spec.signedBytes w i).reverse := by
  have hw16 : 16 ≤ w := by simp at hw; omega
  refine encodes_of_cls h fun r => ?_
  show encodeIntFixed env.ext w _ = _
  simp only [argOf, encodeIntFixed]
  rw [if_neg (by omega)]
  simp only [intFixedInput, Res.ok_bind, Int.toNat_natCast]
  obtain ⟨h1, h2⟩ := hi
  rw [natPow_cast] at h1 h2
  have hpow : 2 ^ (8 * w) = 2 * 2 ^ (8 * w - 1) := by rw [← Nat.pow_succ']; congr 1; omega
  have hw8 : w * 8 = 8 * w := by omega
  rw [signedBytes_eq]
  unfold bigIntToIntBytes
  dsimp only
  rw [hw8, natPow_cast]
  by_cases h0 : 0 ≤ i
  · obtain ⟨n, rfl⟩ := Int.eq_ofNat_of_zero_le h0
    have hn : n < 2 ^ (8 * w) := by
      have : n < 2 ^ (8 * w - 1) := by exact_mod_cast h2
      omega
    rw [if_pos h0, if_neg (by omega), Int.natAbs_natCast, beMin_pad n w (by rw [pow256]; exact hn), toUint_nat hn]
    rfl
  · rw [if_neg h0, if_neg (by omega)]
    have hlt : (i + 1).natAbs < 256 ^ w := by rw [pow256]; omega
    rw [beMin_pad _ w hlt, List.map_reverse, not_lePut w _ hlt, pow256]
    have : toUint (8 * w) i = 2 ^ (8 * w) - 1 - (i + 1).natAbs := by
      unfold toUint
      have e : i % (2 ^ (8 * w)) = i + 2 ^ (8 * w) := by
        rw [natPow_cast, ← Int.add_emod_right i]
        apply Int.emod_eq_of_lt <;> omega
      rw [e, natPow_cast]
      omega
    rw [this]
    rfl

/-- Out of range of a wide type: refused. -/
theorem C13_wide_refuses (env : Env) (ctx : ECtx) (ty sub : Str) (w : Nat) (i : Int) (hw : w ∈ [16, 32])
    (hi : ¬ Spec.SignedRange (8 * w) i) (h : EncResolves env ctx ty (.intFixed w) sub) :
    EncodeRefuses env ctx ty (.big i) := by
  have hw16 : 16 ≤ w := by simp at hw; omega
  refine encodeRefuses_of_cls h fun r => ?_
  show encodeIntFixed env.ext w _ = _
  simp only [argOf, encodeIntFixed]
  rw [if_neg (by omega)]
  simp only [intFixedInput, Res.ok_bind, Int.toNat_natCast]
  unfold Spec.SignedRange at hi
  rw [natPow_cast] at hi
  unfold bigIntToIntBytes
  dsimp only
  rw [show w * 8 = 8 * w by omega, natPow_cast]
  by_cases h0 : 0 ≤ i
  · rw [if_pos h0, if_pos (by omega)]; rfl
  · rw [if_neg h0, if_pos (by omega)]; rfl

theorem twos_toUint (bits : Nat) (hb : 1 ≤ bits) (i : Int) (h : Spec.SignedRange bits i) :
    Spec.twos bits (toUint bits i) = i := by
  obtain ⟨h1, h2⟩ := h
  rw [natPow_cast] at h1 h2
  have hpow : 2 ^ bits = 2 * 2 ^ (bits - 1) := by rw [← Nat.pow_succ']; congr 1; omega
  unfold Spec.twos toUint
  rw [natPow_cast]
  by_cases h0 : 0 ≤ i
  · have e : i % ((2 ^ bits : Nat) : Int) = i := Int.emod_eq_of_lt h0 (by omega)
    rw [e, if_pos (by omega)]
    omega
  · have e : i % ((2 ^ bits : Nat) : Int) = i + (2 ^ bits : Nat) := by
      rw [← Int.add_emod_right i]
      apply Int.emod_eq_of_lt <;> omega
    rw [e, if_neg (by omega)]
    omega

/-- Round trip for `i16`, `i32`, `i64` of a Go integer of the same or a larger width, except the minimal value. -/
theorem C13_roundtrip_partial (env : Env) (ectx : ECtx) (ctx : Ctx) (ty sub sub' : Str) (w w' : Nat) (i : Int)
    (hw : w ∈ [2, 4, 8]) (hww : w ≤ w') (hi : Spec.SignedRange (8 * w) i) (hmin : i ≠ -(2 ^ (8 * w - 1)))
    (h : EncResolves env ectx ty (.intFixed w) sub) (h' : Resolves env ctx.module ctx.spec ty (.intFixed w) sub')
    (hg : GoRange (.sint w' i)) :
    Encodes env ectx ty (.sint w' i) (Spec.signedBytes w i) ∧ Decodes env ctx ty (Spec.signedBytes w i) (.big i) [] := by
  have hw2 : w = 2 ∨ w = 4 ∨ w = 8 := by simpa using hw
  refine ⟨C13_encode_partial env ectx ty sub w w' i (by simp; omega) h hg (.inl hww), ?_⟩
  have hlt : toUint (8 * w) i < 2 ^ (8 * w) := by
    unfold toUint
    rw [natPow_cast]
    have hpos : (0 : Int) < ((2 ^ (8 * w) : Nat) : Int) := Int.natCast_pos.mpr (Nat.pow_pos (by decide))
    have a := Int.emod_lt_of_pos i hpos
    have b := Int.emod_nonneg i (Int.ne_of_gt hpos)
    omega
  have ht := twos_toUint (8 * w) (by omega) i hi
  have hne : toUint (8 * w) i ≠ 2 ^ (8 * w - 1) := by
    intro e
    rw [e] at ht
    unfold Spec.twos at ht
    rw [if_neg (by omega), natPow_cast] at ht
    rw [natPow_cast] at hmin
    have hpow : 2 ^ (8 * w) = 2 * 2 ^ (8 * w - 1) := by rw [← Nat.pow_succ']; congr 1; omega
    omega
  have := C12_decode_partial env ctx ty sub' w (toUint (8 * w) i) (by simp [signedWidths]; omega) (by omega) hlt hne h'
  rw [ht] at this
  exact this

/-- The full claim is false: `int8(-1)` as `i32` gives ff000000. -/
theorem C13_claim_false : ¬ C13Claim := by
  intro hc
  have hr : EncResolves (baseEnv dummyExt) ECtx.none b!"i32" (.intFixed 4) [] :=
    ⟨by unfold Resolves; kernel_rfl, by decide⟩
  have h1 := hc (baseEnv dummyExt) ECtx.none b!"i32" [] 4 (.sint 1 (-1)) (-1) (by decide) (by unfold Spec.SignedRange; decide) hr
    (.inl ⟨by decide, 1, by decide, rfl⟩) (by unfold GoRange; decide)
  have h2 := C13_narrow_wrong (baseEnv dummyExt) ECtx.none b!"i32" [] 4 1 (-1) (by decide) (by decide) hr
  have := encodes_unique h1 h2
  revert this
  decide +kernel

/-- It is also false of the wide types alone: 1 as `i128`. -/
theorem C13_wide_false : ∃ (env : Env) (ctx : ECtx) (ty : Str), EncResolves env ctx ty (.intFixed 16) [] ∧
    ¬ Encodes env ctx ty (.big 1) (Spec.signedBytes 16 1) := by
  have hr : EncResolves (baseEnv dummyExt) ECtx.none b!"i128" (.intFixed 16) [] :=
    ⟨by unfold Resolves; kernel_rfl, by decide⟩
  refine ⟨baseEnv dummyExt, ECtx.none, b!"i128", hr, fun h1 => ?_⟩
  have h2 := C13_wide_big_endian (baseEnv dummyExt) ECtx.none b!"i128" [] 16 1 (by decide) (by unfold Spec.SignedRange; decide) hr
  have := encodes_unique h1 h2
  revert this
  decide +kernel

/-- `int64(-2)` as `i32`. -/
example : Spec.SignedRange (8 * 4) (-2) ∧ GoRange (.sint 8 (-2)) ∧ (-2 : Int) ≠ -(2 ^ (8 * 4 - 1)) ∧
    Spec.signedBytes 4 (-2) = [0xfe, 0xff, 0xff, 0xff] :=
  ⟨by unfold Spec.SignedRange; decide, by unfold GoRange; decide, by decide, by decide +kernel⟩

end ScaleGo
