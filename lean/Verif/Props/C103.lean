import Verif.Lemmas.Comp
import Verif.Lemmas.KernelRfl
import Verif.Lemmas.Mono
import Verif.Props.C22

/-! # C103: floating-point numbers -/

namespace ScaleGo

open _root_.Spec (leBytes)

/-- The class of floating-point numbers of `w` bytes. -/
def floatClass : Nat → Cls
  | 4 => .float32
  | _ => .float64

/-- The full claim: the little-endian bytes of the bit pattern `n` are read where the decoder stands, and skipped; the number
encodes to these bytes. -/
def C103Claim : Prop :=
  ∀ (env : Env) (ctx : Ctx) (ectx : ECtx) (ty s s' : Str) (w : Nat), w ∈ [4, 8] →
    Resolves env ctx.module ctx.spec ty (floatClass w) s → EncResolves env ectx ty (floatClass w) s' →
    ∀ n : Nat, n < 2 ^ (8 * w) →
      Decodes env ctx ty (leBytes w n) (.float w n) [] ∧ Encodes env ectx ty (.float w n) (leBytes w n)

theorem process_float {w : Nat} (hw : w ∈ [4, 8]) (ext : Ext) (r : Rec) (ctx : Ctx) (s : Str) :
    process ext r ctx (floatClass w) s = processFloat w := by
  rcases (by simpa using hw : w = 4 ∨ w = 8) with rfl | rfl <;> rfl

/-- What is read instead: the number at the start of the buffer, wherever the decoder stands, and nothing is skipped. -/
theorem C103_exact (env : Env) (ctx : Ctx) (ty s : Str) (w : Nat) (hw : w ∈ [4, 8])
    (h : Resolves env ctx.module ctx.spec ty (floatClass w) s) (n : Nat) (hn : n < 2 ^ (8 * w)) (rest : Str) (off : Nat) (cs : List Str)
    (k : Nat) :
    pau env (k + 1) ctx ty ⟨⟨leBytes w n ++ rest, off⟩, cs⟩ = .ok (.float w n, ⟨⟨leBytes w n ++ rest, off⟩, cs⟩) := by
  rw [pau_resolves k _ h, process_float hw]
  have hl : (leBytes w n).length = w := by simp [leBytes]
  have hv : leNat (leBytes w n) = n := leNat_leBytes (by rw [show (256 : Nat) = 2 ^ 8 from rfl, ← Nat.pow_mul]; exact hn)
  unfold processFloat
  dsimp only
  rw [if_neg (by rw [List.length_append, hl]; omega), List.take_left' hl, hv]

/-- A buffer shorter than the number is refused, also when it has been read past already. -/
theorem C103_short (env : Env) (ctx : Ctx) (ty s : Str) (w : Nat) (hw : w ∈ [4, 8])
    (h : Resolves env ctx.module ctx.spec ty (floatClass w) s) (data : Str) (hd : data.length < w) (off : Nat) (cs : List Str) (k : Nat) :
    pau env (k + 1) ctx ty ⟨⟨data, off⟩, cs⟩ = .panic := by
  rw [pau_resolves k _ h, process_float hw]
  unfold processFloat
  rw [if_pos hd]

/-- Two floating-point fields in a row are always shown with the same value, that of the start of the buffer. -/
theorem C103_fields_equal (env : Env) (ctx : Ctx) (ty el s t : Str) (w : Nat) (hw : w ∈ [4, 8]) (a b : Str) (hab : a ≠ b)
    (h : Resolves env ctx.module ctx.spec ty (.struct (some [(a, el), (b, el)])) s)
    (hel : Resolves env ctx.module ctx.spec el (floatClass w) t) (n : Nat) (hn : n < 2 ^ (8 * w)) (rest : Str) (off : Nat) (cs : List Str)
    (k : Nat) :
    pau env (k + 2) ctx ty ⟨⟨leBytes w n ++ rest, off⟩, cs⟩ =
      .ok (.map [(a, .float w n), (b, .float w n)], ⟨⟨leBytes w n ++ rest, off⟩, cs⟩) := by
  rw [pau_resolves (k + 1) _ h]
  have e := C103_exact env ctx el t w hw hel n hn rest off cs k
  show processStruct (pau env (k + 1)) ctx (some [(a, el), (b, el)]) _ = _
  simp [processStruct, procFields, e, mapSet, hab]

/-- The part that holds: at the start of the buffer the number is right (but is not skipped). -/
theorem C103_partial (env : Env) (ctx : Ctx) (ty s : Str) (w : Nat) (hw : w ∈ [4, 8])
    (h : Resolves env ctx.module ctx.spec ty (floatClass w) s) (n : Nat) (hn : n < 2 ^ (8 * w)) (suf : Str) (cs : List Str) (k : Nat) :
    ∃ st, pau env (k + 1) ctx ty ⟨⟨leBytes w n ++ suf, 0⟩, cs⟩ = .ok (.float w n, st) :=
  ⟨_, C103_exact env ctx ty s w hw h n hn suf 0 cs k⟩

/-- No value is encoded as a floating-point number. -/
theorem C103_encode_refused (env : Env) (ectx : ECtx) (ty s : Str) (w : Nat) (hw : w ∈ [4, 8])
    (h : EncResolves env ectx ty (floatClass w) s) (v : Val) : EncodeRefuses env ectx ty v := by
  refine encodeRefuses_of_cls h fun r => ?_
  rcases (by simpa using hw : w = 4 ∨ w = 8) with rfl | rfl <;> rfl

theorem float64_resolves (ext : Ext) : Resolves (baseEnv ext) [] 0 b!"float64" .float64 [] := by unfold Resolves; kernel_rfl

theorem C103_claim_false : ¬ C103Claim := by
  intro hc
  have hr := float64_resolves dummyExt
  obtain ⟨⟨N, hd⟩, -⟩ := hc (baseEnv dummyExt) ⟨[], 0, none⟩ ⟨0, none⟩ b!"float64" [] [] 8 (by simp) hr ⟨hr, by decide⟩ 0 (by decide)
  have h1 := hd (N + 1) (by omega) [] [] [] (by decide)
  have h2 := C103_exact (baseEnv dummyExt) ⟨[], 0, none⟩ b!"float64" [] 8 (by simp) hr 0 (by decide) [] 0 [] N
  simp only [List.nil_append] at h1
  rw [show ([] : Str).length = 0 from rfl, h2] at h1
  simp [leBytes] at h1

/-- Both types are in the built-in registry; a struct of two numbers, 1.0 and 0.5, is shown as twice 1.0, and the decoder has
not moved. -/
example (ext : Ext) : Resolves (baseEnv ext) [] 0 b!"float64" (floatClass 8) [] ∧ Resolves (baseEnv ext) [] 0 b!"Float32" (floatClass 4) [] ∧
    EncResolves (baseEnv ext) ⟨0, none⟩ b!"float64" (floatClass 8) [] ∧
    pau (baseEnv ext) 20 ⟨[], 0, none⟩ b!"(float32, float32)" ⟨⟨[0, 0, 128, 63, 0, 0, 0, 63], 0⟩, []⟩ =
      .ok (.map [(b!"col1", .float 4 0x3F800000), (b!"col2", .float 4 0x3F800000)], ⟨⟨[0, 0, 128, 63, 0, 0, 0, 63], 0⟩, []⟩) := by
  refine ⟨float64_resolves ext, ?_, ⟨float64_resolves ext, by decide⟩, ?_⟩
  · unfold Resolves; kernel_rfl
  · refine C103_fields_equal (baseEnv ext) ⟨[], 0, none⟩ _ b!"float32" [] [] 4 (by simp) b!"col1" b!"col2" (by decide) ?_ ?_ 0x3F800000
      (by decide) [0, 0, 0, 63] 0 [] 18
    · unfold Resolves; kernel_rfl
    · unfold Resolves; kernel_rfl

end ScaleGo
