import Verif.Lemmas.Dec
import Verif.Lemmas.KernelRfl
import Verif.Model.Base

/-! # C11: u256 -/

namespace ScaleGo

/-- Decoding returns the number as a decimal with exponent 0. -/
theorem C11_decode (env : Env) (ctx : Ctx) (ty : Str) (sub : Str) (n : Nat) (hn : n < 2 ^ 256)
    (h : Resolves env ctx.module ctx.spec ty .u256 sub) : Decodes env ctx ty (Spec.leBytes 32 n) (.dec n 0) [] := by
  refine decodes_of_read h fun r pre suf cs hl => ?_
  show processU256 _ = _
  unfold processU256
  rw [nextBytes_at pre _ suf cs 32 (by rw [leBytes_length]; rfl) hl]
  simp only [Res.ok_bind]
  rw [reverseBytes_even _ (by rw [leBytes_length])]
  have hne : (Spec.leBytes 32 n).reverse.isEmpty = false := by
    rw [List.isEmpty_reverse]
    cases hb : Spec.leBytes 32 n with
    | nil => have := leBytes_length 32 n; rw [hb] at this; simp at this
    | cons => rfl
  rw [u256OfBytes, hne]
  simp only [Bool.false_eq_true, if_false, beNat_reverse, leNat_leBytes (show n < 256 ^ 32 by rw [pow256]; exact hn)]

/-- Encoding a decimal or big integer denoting `n` gives the 32 little-endian bytes. -/
theorem C11_encode (env : Env) (ctx : ECtx) (ty : Str) (sub : Str) (v : Val) (n : Nat) (hn : n < 2 ^ 256)
    (h : EncResolves env ctx ty .u256 sub) (hv : (∃ c e, v = .dec c e) ∨ ∃ i, v = .big i) (hd : Denotes v n) :
    Encodes env ctx ty v (Spec.leBytes 32 n) := by
  refine encodes_of_cls h fun r => ?_
  have key : bytesToHex (reverseBytes (hexToBytes (rightJustify0 (intToHex (n : Int)) 64))) = bytesToHex (Spec.leBytes 32 n) := by
    have e : intToHex (n : Int) = natToHex n := by
      rw [intToHex, if_neg (by omega)]; rfl
    rw [e, rightJustify_natToHex n 63 (by exact hn), show 63 + 1 = 2 * 32 by rfl, hexFix_bytes, hexToBytes_bytesToHex,
      reverseBytes_even _ (by simp), List.reverse_reverse, lePut_eq_spec]
  show encodeU256 _ = _
  rcases hv with ⟨c, e, rfl⟩ | ⟨i, rfl⟩
  · simp only [argOf, encodeU256, denotes_dec_trunc hd, key]
  · simp only [Denotes] at hd
    simp only [argOf, encodeU256, hd, key]

theorem C11_roundtrip (env : Env) (ctx : Ctx) (ectx : ECtx) (ty : Str) (sub sub' : Str) (n : Nat) (hn : n < 2 ^ 256)
    (h : Resolves env ctx.module ctx.spec ty .u256 sub) (h' : EncResolves env ectx ty .u256 sub') :
    ∃ v, Decodes env ctx ty (Spec.leBytes 32 n) v [] ∧ Encodes env ectx ty v (Spec.leBytes 32 n) :=
  ⟨_, C11_decode env ctx ty sub n hn h, C11_encode env ectx ty sub' _ n hn h' (.inl ⟨_, _, rfl⟩) (denotes_dec_zero _)⟩

/-- Text is not read as a number: hex text behind 0x stands for the bytes as they are, of whatever number, and other text for its
characters. -/
theorem C11_encode_text (env : Env) (ctx : ECtx) (ty : Str) (sub : Str) (h : EncResolves env ctx ty .u256 sub) :
    (∀ b, Encodes env ctx ty (.str (b!"0x" ++ _root_.Spec.hexText b)) b) ∧
    ∀ s, ¬ b!"0x" <+: s → Encodes env ctx ty (.str s) s := by
  refine ⟨fun b => encodes_of_cls h fun r => ?_, fun s hs => encodes_of_cls h fun r => ?_⟩
  · show encodeU256 (.str (b!"0x" ++ _root_.Spec.hexText b)) = _
    simp only [encodeU256]
    rw [if_neg (by simp), if_pos (by simp [hasPrefix]), ← bytesToHex_eq_spec]
    congr 1
  · show encodeU256 (.str s) = _
    simp only [encodeU256]
    by_cases he : s = []
    · subst he; rfl
    · rw [if_neg he, if_neg (by rw [hasPrefix, List.isPrefixOf_iff_prefix]; exact hs)]

/-- The number 12 as text is written as two characters. -/
example (ext : Ext) : Encodes (baseEnv ext) ECtx.none b!"U256" (.str b!"12") [49, 50] :=
  (C11_encode_text _ _ _ [] ⟨by unfold Resolves; kernel_rfl, by decide⟩).2 _ (by decide)

example (ext : Ext) : EncResolves (baseEnv ext) ECtx.none b!"U256" .u256 [] ∧ Resolves (baseEnv ext) [] 12 b!"u256" .u256 [] ∧
    Denotes (.big (2 ^ 255)) ((2 ^ 255 : Nat) : Int) :=
  ⟨⟨by unfold Resolves; kernel_rfl, by decide⟩, by unfold Resolves; kernel_rfl, by simp [Denotes]⟩

end ScaleGo
