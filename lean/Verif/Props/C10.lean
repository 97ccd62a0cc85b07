import Verif.Lemmas.Dec
import Verif.Lemmas.Uint128String
import Verif.Lemmas.KernelRfl
import Verif.Model.Base

/-! # C10: u128 -/

namespace ScaleGo

/-- The Go value `v` (of any type `U128.Encode` reads) stands for the integer `i`: an integer or decimal denoting it, or its
decimal numeral as text. -/
def U128Input (v : Val) (i : Int) : Prop :=
  match v with
  | .str s => ∃ n : Nat, i = n ∧ Spec.IsNumeral s n
  | .uint _ _ => False
  | .sint w _ => w = 8 ∧ Denotes v i
  | v => Denotes v i

theorem u128Input_eq {v : Val} {i : Int} (h : U128Input v i) : u128Input v = .ok i := by
  unfold U128Input at h
  cases v with
  | str s =>
    obtain ⟨n, rfl, hn⟩ := h
    simp only [u128Input, decParse_numeral hn, decTrunc_zero]
  | int j => simp only [Denotes] at h; simp [u128Input, h]
  | sint w j =>
    obtain ⟨rfl, h⟩ := h
    simp only [Denotes] at h
    simp [u128Input, h]
  | big j => simp only [Denotes] at h; simp [u128Input, h]
  | dec c e => simp only [u128Input]; rw [denotes_dec_trunc h]
  | _ => simp [Denotes] at h

/-- In range: the 16 little-endian bytes. -/
theorem C10_encode (env : Env) (ctx : ECtx) (ty : Str) (sub : Str) (v : Val) (n : Nat) (hn : n < 2 ^ 128)
    (h : EncResolves env ctx ty .u128 sub) (hv : U128Input v n) : Encodes env ctx ty v (Spec.leBytes 16 n) := by
  refine encodes_of_cls h fun r => ?_
  have hne : v ≠ .nil := by rintro rfl; simp [U128Input, Denotes] at hv
  show encodeU128 _ = _
  rw [argOf_eq hne, encodeU128, u128Input_eq hv]
  obtain ⟨u, hu, hval⟩ := U128.fromBig_spec n hn
  simp only [Res.ok_bind, hu, U128.putBytes_eq, hval, lePut_eq_spec]

/-- Negative or too large: refused. -/
theorem C10_encode_refuses (env : Env) (ctx : ECtx) (ty : Str) (sub : Str) (v : Val) (i : Int) (hi : i < 0 ∨ 2 ^ 128 ≤ i)
    (h : EncResolves env ctx ty .u128 sub) (hv : U128Input v i) : EncodeRefuses env ctx ty v := by
  refine encodeRefuses_of_cls h fun r => ?_
  have hne : v ≠ .nil := by rintro rfl; simp [U128Input, Denotes] at hv
  show encodeU128 _ = _
  rw [argOf_eq hne, encodeU128, u128Input_eq hv]
  simp only [Res.ok_bind, U128.fromBig_panic i hi, Res.panic_bind]

/-- Unsigned Go integers of any width are not read by the encoder and refused as well. -/
theorem C10_encode_uint_refuses (env : Env) (ctx : ECtx) (ty : Str) (sub : Str) (w n : Nat)
    (h : EncResolves env ctx ty .u128 sub) : EncodeRefuses env ctx ty (.uint w n) :=
  encodeRefuses_of_cls h fun _ => rfl

/-- The decimal numeral, and no other text. -/
theorem C10_decode (env : Env) (ctx : Ctx) (ty : Str) (sub : Str) (n : Nat) (hn : n < 2 ^ 128)
    (h : Resolves env ctx.module ctx.spec ty .u128 sub) :
    ∃ s, Spec.IsNumeral s n ∧ Decodes env ctx ty (Spec.leBytes 16 n) (.str s) [] := by
  refine ⟨natToDec n, natToDec_isNumeral n, decodes_of_read h fun r pre suf cs hl => ?_⟩
  show processU128 _ = _
  unfold processU128
  rw [nextBytes_at pre _ suf cs 16 (by rw [leBytes_length]; rfl) hl]
  simp only [Res.ok_bind]
  obtain ⟨u, hu, hval⟩ := U128.fromBytes_spec (Spec.leBytes 16 n) (leBytes_length _ _)
  rw [leNat_leBytes (by rw [pow256]; exact hn)] at hval
  rw [if_neg (by rw [leBytes_length]; decide), hu]
  simp only [Res.ok_bind, U128.toString_eq, hval]

theorem hexDecode_append_zeros (b : Str) : ∀ k, hexDecode (bytesToHex b ++ List.replicate (2 * k) 48) = b ++ List.replicate k 0 := by
  intro k
  have : (List.replicate (2 * k) 48 : Str) = bytesToHex (List.replicate k 0) := by
    induction k with
    | zero => rfl
    | succ k ih =>
      rw [show 2 * (k + 1) = 2 * k + 1 + 1 by omega, List.replicate_succ, List.replicate_succ, ih, List.replicate_succ, bytesToHex]
      rfl
  rw [this, ← bytesToHex_append, hexDecode_bytesToHex]

/-- Short input: only `k < 16` bytes are left; the missing high bytes count as zero. -/
theorem C10_short (env : Env) (ctx : Ctx) (ty : Str) (sub : Str) (k n : Nat) (hk : k < 16) (hn : n < 2 ^ (8 * k))
    (h : Resolves env ctx.module ctx.spec ty .u128 sub) :
    ∃ s, Spec.IsNumeral s n ∧ DecodesAtEnd env ctx ty (Spec.leBytes k n) (.str s) := by
  refine ⟨natToDec n, natToDec_isNumeral n, decodesAtEnd_of_read h fun r pre cs hl => ?_⟩
  show processU128 _ = _
  unfold processU128
  have hlen := leBytes_length k n
  rw [show (16 : Int) = ((16 : Nat) : Int) by rfl, nextBytes_end pre _ cs 16 (by omega) (by omega)]
  simp only [Res.ok_bind]
  rw [if_pos (by omega)]
  have hb : hexToBytes (leftJustify0 (bytesToHex (Spec.leBytes k n)) 32) = Spec.leBytes k n ++ List.replicate (16 - k) 0 := by
    rw [← hexDecode_append_zeros, hexToBytes]
    have e : leftJustify0 (bytesToHex (Spec.leBytes k n)) 32 =
        bytesToHex (Spec.leBytes k n) ++ List.replicate (2 * (16 - k)) 48 := by
      rw [leftJustify0, bytesToHex_length, hlen]
      congr 2
      omega
    rw [e]
    have hz : trimHex (bytesToHex (Spec.leBytes k n) ++ List.replicate (2 * (16 - k)) 48) =
        bytesToHex (Spec.leBytes k n) ++ List.replicate (2 * (16 - k)) 48 := by
      have : ∃ x : Str, bytesToHex (Spec.leBytes k n) ++ List.replicate (2 * (16 - k)) 48 = bytesToHex x := by
        refine ⟨Spec.leBytes k n ++ List.replicate (16 - k) 0, ?_⟩
        rw [bytesToHex_append]
        congr 1
        generalize 16 - k = j
        induction j with
        | zero => rfl
        | succ k ih =>
          rw [show 2 * (k + 1) = 2 * k + 1 + 1 by omega, List.replicate_succ, List.replicate_succ, ih, List.replicate_succ, bytesToHex]
          rfl
      obtain ⟨x, hx⟩ := this
      rw [hx, trimHex_bytesToHex]
    rw [hz]
  rw [hb]
  obtain ⟨u, hu, hval⟩ := U128.fromBytes_spec (Spec.leBytes k n ++ List.replicate (16 - k) 0) (by simp [hlen]; omega)
  rw [leNat_pad, leNat_leBytes (by rw [pow256]; exact hn)] at hval
  rw [hu]
  simp only [Res.ok_bind, U128.toString_eq, hval]

/-- Whatever is decoded encodes back to the same bytes. -/
theorem C10_roundtrip (env : Env) (ctx : Ctx) (ectx : ECtx) (ty : Str) (sub sub' : Str) (n : Nat) (hn : n < 2 ^ 128)
    (h : Resolves env ctx.module ctx.spec ty .u128 sub) (h' : EncResolves env ectx ty .u128 sub') :
    ∃ v, Decodes env ctx ty (Spec.leBytes 16 n) v [] ∧ Encodes env ectx ty v (Spec.leBytes 16 n) := by
  obtain ⟨s, hs, hd⟩ := C10_decode env ctx ty sub n hn h
  exact ⟨_, hd, C10_encode env ectx ty sub' _ n hn h' ⟨n, rfl, hs⟩⟩

example (ext : Ext) : EncResolves (baseEnv ext) ECtx.none b!"u128" .u128 [] ∧ Resolves (baseEnv ext) [] (-1) b!"U128" .u128 [] :=
  ⟨⟨by unfold Resolves; kernel_rfl, by decide⟩, by unfold Resolves; kernel_rfl⟩

/-- 2^128 - 1 as text, 2^128 as a big integer. -/
example : U128Input (.str b!"340282366920938463463374607431768211455") ((2 ^ 128 - 1 : Nat) : Int) ∧
    U128Input (.big (2 ^ 128)) (2 ^ 128) ∧ U128Input (.int (-1)) (-1) :=
  ⟨⟨_, rfl, by decide, by decide, by decide, by decide⟩, rfl, rfl⟩

end ScaleGo
