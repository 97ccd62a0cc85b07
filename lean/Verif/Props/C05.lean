import Verif.Lemmas.Strict
import Verif.Model.Base
import Verif.Lemmas.KernelRfl

/-! # C05: decoding depends only on the bytes from the cursor on

The full statement (same outcome with and without the prefix) fails when an announced length is so large that the Go
`int` sum of offset and length overflows behind the prefix but not without it: then the deep decode panics while the other
returns (`C05_overflow`).  That is the only possible difference (`C05_position_partial`). -/

namespace ScaleGo

/-- The two classes excluded by the property: they index the buffer from its start. -/
def NoAbsolute (env : Env) : Prop :=
  (∀ t c, env.reg t = some c → c ≠ .float64 ∧ c ≠ .float32 ∧ c ≠ .lookupSource) ∧
    ∀ t lo hi c, (lo, hi, c) ∈ env.special t → c ≠ .float64 ∧ c ≠ .float32 ∧ c ≠ .lookupSource

theorem pau_sim' (env : Env) (henv : NoAbsolute env) (pre : Str) (n : Nat) : RecSim pre (pau env n) := by
  refine pau_sim env ?_ ?_ pre n
  · intro t c h; obtain ⟨h1, h2, h3⟩ := henv.1 t c h; rintro (h | h | h) <;> contradiction
  · intro t lo hi c h; obtain ⟨h1, h2, h3⟩ := henv.2 t lo hi c h; rintro (h | h | h) <;> contradiction

/-- Decoding behind a prefix returns only what decoding without the prefix returns: same value, same nested calls, same
number of bytes consumed. -/
theorem C05_deep_to_shallow (env : Env) (henv : NoAbsolute env) (pre data : Str) (off n : Nat) (ctx : Ctx) (ty : Str)
    (calls : List Str) (v : Val) (st : St) (hin : off ≤ data.length)
    (h : pau env n ctx ty ⟨⟨pre ++ data, pre.length + off⟩, calls⟩ = .ok (v, st)) :
    ∃ off', pau env n ctx ty ⟨⟨data, off⟩, calls⟩ = .ok (v, ⟨⟨data, off'⟩, st.calls⟩)
      ∧ st.cur = ⟨pre ++ data, pre.length + off'⟩ := by
  have hs := pau_sim' env henv pre n ctx ty ⟨⟨pre ++ data, pre.length + off⟩, calls⟩ ⟨⟨data, off⟩, calls⟩ ⟨rfl, rfl, rfl⟩
  rw [h] at hs
  rcases hs with hs | ⟨hs, _⟩ | ⟨a, s, s', e1, e2, e3⟩
  · cases hs
  · cases hs
  · cases e1
    have hp := pau_post env n ctx ty ⟨⟨data, off⟩, calls⟩ hin v s' e2
    obtain ⟨⟨d, o⟩, c⟩ := s'
    obtain ⟨⟨d1, o1⟩, c1⟩ := st
    obtain ⟨k1, k2, k3⟩ := e3
    have := hp.1
    dsimp only at this k1 k2 k3
    subst this k1 k2 k3
    exact ⟨o, e2, rfl⟩

/-- Without the prefix and behind it: same value and consumption, same lack of result, unless the deep decode panics. -/
theorem C05_position_partial (env : Env) (henv : NoAbsolute env) (pre data : Str) (off n : Nat) (ctx : Ctx) (ty : Str)
    (calls : List Str) (v : Val) (off' : Nat) (calls' : List Str)
    (h : pau env n ctx ty ⟨⟨data, off⟩, calls⟩ = .ok (v, ⟨⟨data, off'⟩, calls'⟩)) :
    pau env n ctx ty ⟨⟨pre ++ data, pre.length + off⟩, calls⟩ =
        .ok (v, ⟨⟨pre ++ data, pre.length + off'⟩, calls'⟩)
      ∨ pau env n ctx ty ⟨⟨pre ++ data, pre.length + off⟩, calls⟩ = .panic := by
  have hs := pau_sim' env henv pre n ctx ty ⟨⟨pre ++ data, pre.length + off⟩, calls⟩ ⟨⟨data, off⟩, calls⟩ ⟨rfl, rfl, rfl⟩
  rcases hs with hs | ⟨_, hs⟩ | ⟨a, s, s', e1, e2, e3⟩
  · exact Or.inr hs
  · rw [h] at hs; cases hs
  · rw [h] at e2
    cases e2
    left
    rw [e1]
    obtain ⟨⟨d, o⟩, c⟩ := s
    obtain ⟨k1, k2, k3⟩ := e3
    dsimp only at k1 k2 k3
    rw [k1, k2, k3]

/-- A panic without the prefix is a panic behind it. -/
theorem C05_panic (env : Env) (henv : NoAbsolute env) (pre data : Str) (off n : Nat) (ctx : Ctx) (ty : Str)
    (calls : List Str) (h : pau env n ctx ty ⟨⟨data, off⟩, calls⟩ = .panic) :
    pau env n ctx ty ⟨⟨pre ++ data, pre.length + off⟩, calls⟩ = .panic := by
  have hs := pau_sim' env henv pre n ctx ty ⟨⟨pre ++ data, pre.length + off⟩, calls⟩ ⟨⟨data, off⟩, calls⟩ ⟨rfl, rfl, rfl⟩
  rcases hs with hs | ⟨_, hs⟩ | ⟨a, s, s', e1, e2, e3⟩
  · exact hs
  · rw [h] at hs; cases hs
  · rw [h] at e2; cases e2

/-- Any registry: what is decoded behind a prefix even when floats and lookup sources refuse is decoded in the same way with and
without the prefix. -/
theorem C05_any_registry (env : Env) (pre data : Str) (off n : Nat) (ctx : Ctx) (ty : Str) (calls : List Str) (v : Val) (st : St)
    (hin : off ≤ data.length) (h : pau (strict env) n ctx ty ⟨⟨pre ++ data, pre.length + off⟩, calls⟩ = .ok (v, st)) :
    pau env n ctx ty ⟨⟨pre ++ data, pre.length + off⟩, calls⟩ = .ok (v, st) ∧
    ∃ off', pau env n ctx ty ⟨⟨data, off⟩, calls⟩ = .ok (v, ⟨⟨data, off'⟩, st.calls⟩) ∧ st.cur = ⟨pre ++ data, pre.length + off'⟩ := by
  refine ⟨(pau_strict env n _ _ _).ok h, ?_⟩
  have hs := strict_sim env pre n ctx ty ⟨⟨pre ++ data, pre.length + off⟩, calls⟩ ⟨⟨data, off⟩, calls⟩ ⟨rfl, rfl, rfl⟩
  rw [h] at hs
  rcases hs with hs | ⟨hs, _⟩ | ⟨a, s, s', e1, e2, e3⟩
  · cases hs
  · cases hs
  · cases e1
    have hp := pau_post (strict env) n ctx ty ⟨⟨data, off⟩, calls⟩ hin v s' e2
    obtain ⟨⟨d, o⟩, c⟩ := s'
    obtain ⟨⟨d1, o1⟩, c1⟩ := st
    obtain ⟨k1, k2, k3⟩ := e3
    have := hp.1
    dsimp only at this k1 k2 k3
    subst this k1 k2 k3
    exact ⟨o, (pau_strict env n _ _ _).ok e2, rfl⟩

/-- A registry of codec classes without floats and lookup source, used in the examples. -/
def noAbsEnv : Env := ⟨fun t => if t = b!"bytes" then some .bytes else if t = b!"compact<u32>" then some .compactU32 else none,
  fun _ => [], dummyExt⟩

theorem noAbsEnv_ok : NoAbsolute noAbsEnv := by
  refine ⟨fun t c h => ?_, fun t lo hi c h => by simp [noAbsEnv] at h⟩
  simp only [noAbsEnv] at h
  split at h
  · cases h; exact ⟨by simp, by simp, by simp⟩
  · split at h
    · cases h; exact ⟨by simp, by simp, by simp⟩
    · cases h

/-- The full statement is false: a byte string announcing 2^63 - 10 bytes decodes at offset 0 but panics at offset 1. -/
theorem C05_overflow :
    ∃ env, NoAbsolute env ∧ ∃ n ctx ty data v st, pau env n ctx ty ⟨⟨data, 0⟩, []⟩ = .ok (v, st) ∧
      pau env n ctx ty ⟨⟨[0] ++ data, 1⟩, []⟩ = .panic :=
  ⟨noAbsEnv, noAbsEnv_ok, 2, Ctx.fresh, b!"Bytes", [19, 246, 255, 255, 255, 255, 255, 255, 127, 65],
    .str b!"A", ⟨⟨[19, 246, 255, 255, 255, 255, 255, 255, 127, 65], 10⟩, []⟩, by kernel_rfl, by kernel_rfl⟩

/-- The excluded classes do violate the property: a float at offset 4 reads the bytes at offset 0. -/
theorem C05_float_absolute :
    pau (baseEnv dummyExt) 1 Ctx.fresh b!"Float32" ⟨⟨[1, 0, 0, 0, 2, 0, 0, 0], 4⟩, []⟩ =
      .ok (.float 4 1, ⟨⟨[1, 0, 0, 0, 2, 0, 0, 0], 4⟩, []⟩) ∧
    pau (baseEnv dummyExt) 1 Ctx.fresh b!"Float32" ⟨⟨[2, 0, 0, 0], 0⟩, []⟩ =
      .ok (.float 4 2, ⟨⟨[2, 0, 0, 0], 0⟩, []⟩) := ⟨by kernel_rfl, by kernel_rfl⟩

example : NoAbsolute noAbsEnv ∧
    pau noAbsEnv 2 Ctx.fresh b!"Bytes" ⟨⟨[9, 9] ++ [8, 65, 66, 7], 2⟩, []⟩ =
      .ok (.str b!"AB", ⟨⟨[9, 9] ++ [8, 65, 66, 7], 5⟩, []⟩) := ⟨noAbsEnv_ok, by kernel_rfl⟩

/-- The base registry contains floats and lookup sources; a vector behind a prefix is decoded although they refuse. -/
example : pau (strict (baseEnv dummyExt)) 9 Ctx.fresh b!"Vec<u16>" ⟨⟨[9, 9] ++ [8, 1, 0, 2, 0], 2⟩, []⟩ =
    .ok (.slice [.uint 2 1, .uint 2 2], ⟨⟨[9, 9] ++ [8, 1, 0, 2, 0], 7⟩, []⟩) := by kernel_rfl

end ScaleGo
