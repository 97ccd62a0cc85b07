import Verif.Lemmas.Mono
import Verif.Lemmas.Strings
import Verif.Model.Base
import Verif.Lemmas.KernelRfl

/-! # C58: the decoding result does not depend on internal bounds -/

namespace ScaleGo

/-- Once decoding finishes (with a value or a panic), any larger recursion budget gives the same outcome. -/
theorem C58_decode_stable (env : Env) (ctx : Ctx) (ty : Str) (st : St) (n m : Nat) (hnm : n ≤ m)
    (h : pau env n ctx ty st ≠ .diverge) : pau env m ctx ty st = pau env n ctx ty st := by
  rcases pau_mono env hnm ctx ty st with h' | h'
  · exact absurd h' h
  · exact h'.symm

/-- Two finished decodes of the same bytes with the same registry agree, whatever their budgets. -/
theorem C58_decode_unique (env : Env) (ctx : Ctx) (ty : Str) (st : St) (n m : Nat)
    (hn : pau env n ctx ty st ≠ .diverge) (hm : pau env m ctx ty st ≠ .diverge) :
    pau env n ctx ty st = pau env m ctx ty st := by
  rcases Nat.le_total n m with h | h
  · exact (C58_decode_stable env ctx ty st n m h hn).symm
  · exact C58_decode_stable env ctx ty st m n h hm

/-- The same for encoding. -/
theorem C58_encode_unique (env : Env) (ctx : ECtx) (ty : Str) (v : Val) (n m : Nat)
    (hn : enc env n ctx ty v ≠ .diverge) (hm : enc env m ctx ty v ≠ .diverge) :
    enc env n ctx ty v = enc env m ctx ty v := by
  rcases Nat.le_total n m with h | h
  · rcases enc_mono env h ctx ty v with h' | h'
    · exact absurd h' hn
    · exact h'
  · rcases enc_mono env h ctx ty v with h' | h'
    · exact absurd h' hm
    · exact h'.symm

/-- The class lookup always finishes, and any sufficient budget for its namespace recursion gives the same class: the
bound inside the model is not a limit of the modelled code. -/
theorem C58_lookup (env : Env) (module : Str) (spec : Int) (ty : Str) :
    getCodecClass env module spec ty ≠ .diverge ∧
      ∀ n, ty.length < n → getCodecClassAux env module spec n ty = getCodecClass env module spec ty :=
  ⟨getCodecClass_ne_diverge env module spec ty, fun n h => getCodecClassAux_eq env module spec n ty h⟩

example : pau (baseEnv dummyExt) 1 Ctx.fresh b!"Vec<u8>" ⟨⟨[4, 65], 0⟩, []⟩ = .diverge := by kernel_rfl

example : pau (baseEnv dummyExt) 2 Ctx.fresh b!"Vec<u8>" ⟨⟨[4, 65], 0⟩, []⟩ = .ok (.str b!"A", ⟨⟨[4, 65], 2⟩, []⟩) := by kernel_rfl
example : enc (baseEnv dummyExt) 2 ECtx.none b!"Vec<u8>" (.str b!"A") = .ok b!"0441" := by kernel_rfl
/-- A namespaced name needs the recursion of the lookup. -/
example : getCodecClass (baseEnv dummyExt) [] 0 b!"a::b::u32" = .ok (some (.u32, [])) := by kernel_rfl

end ScaleGo
