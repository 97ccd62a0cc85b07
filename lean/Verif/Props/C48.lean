import Verif.Lemmas.Dec
import Verif.Lemmas.KernelRfl
import Verif.Model.Base

/-! # C48: eras -/

namespace ScaleGo

/-- The byte 00 is the immortal era: one byte. -/
theorem C48_decode_immortal (env : Env) (ctx : Ctx) (ty sub : Str) (h : Resolves env ctx.module ctx.spec ty .era sub) :
    Decodes env ctx ty [0] (.str b!"00") [] := by
  refine decodes_of_read h fun r pre suf cs hl => ?_
  show processEra _ = _
  unfold processEra
  rw [nextBytes_at pre [0] suf cs 1 rfl hl]
  rfl

/-- Any other first byte: two bytes. -/
theorem C48_decode_mortal (env : Env) (ctx : Ctx) (ty sub : Str) (a b : UInt8) (ha : a ≠ 0)
    (h : Resolves env ctx.module ctx.spec ty .era sub) : Decodes env ctx ty [a, b] (.str (Spec.hexText [a, b])) [] := by
  refine decodes_of_read h fun r pre suf cs hl => ?_
  show processEra _ = _
  unfold processEra
  have hl' : pre.length + 2 + suf.length < 2 ^ 63 := by simpa using hl
  have e1 := nextBytes_at pre [a] (b :: suf) cs 1 rfl (by simp; omega)
  have e2 := nextBytes_at (pre ++ [a]) [b] suf cs 1 rfl (by simp; omega)
  simp only [List.append_assoc, List.cons_append, List.nil_append, List.length_append, List.length_cons, List.length_nil] at e1 e2 ⊢
  rw [e1]
  simp only [Res.ok_bind]
  have hne : bytesToHex [a] ≠ b!"00" := by
    intro e
    have : bytesToHex [a] = bytesToHex [0] := e
    have := bytesToHex_injective this
    simp at this
    exact ha this
  rw [if_neg hne, e2]
  simp only [Res.ok_bind]
  rw [← bytesToHex_append, bytesToHex_eq_spec]
  rfl

/-- Encoding the decoded text gives the same bytes. -/
theorem C48_encode (env : Env) (ctx : ECtx) (ty sub : Str) (b : Str) (h : EncResolves env ctx ty .era sub) :
    Encodes env ctx ty (.str (Spec.hexText b)) b := by
  refine encodes_of_cls h fun r => ?_
  rw [← bytesToHex_eq_spec]
  rfl

example (ext : Ext) : Resolves (baseEnv ext) [] 0 b!"EraExtrinsic" .era [] ∧ EncResolves (baseEnv ext) ECtx.none b!"Era" .era [] ∧
    Spec.hexText [0xe5, 0x00] = b!"e500" :=
  ⟨by unfold Resolves; kernel_rfl, ⟨by unfold Resolves; kernel_rfl, by decide⟩, by decide⟩

end ScaleGo
