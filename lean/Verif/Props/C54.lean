import Verif.Lemmas.Comp
import Verif.Lemmas.KernelRfl
import Verif.Lemmas.Mono
import Verif.Model.Base

/-! # C54: opaque calls -/

namespace ScaleGo

namespace Spec

/-- The whole of `p` is decoded as a call (in no module) with value `v`, reporting the nested calls `ic`. -/
def CallIs (env : Env) (ctx : Ctx) (p : Str) (v : Val) (ic : List Str) : Prop :=
  ∃ N, ∀ n, N ≤ n → ∃ st, pau env n ⟨[], ctx.spec, ctx.md⟩ b!"Call" ⟨⟨p, 0⟩, []⟩ = .ok (v, st) ∧ st.calls = ic

/-- Printable ASCII, tabulator and line ends. -/
def Printable (p : Str) : Prop := ∀ c ∈ p, (32 ≤ c.toNat ∧ c.toNat ≤ 127) ∨ c = 9 ∨ c = 10 ∨ c = 13

end Spec

open ScaleGo.Spec

/-- C54 in full: a payload that is a call decodes to that call. -/
def C54Claim : Prop := ∀ (env : Env) (ctx : Ctx) (ty sub c p : Str) (v : Val) (ic : List Str), LenOK env ctx →
  Resolves env ctx.module ctx.spec ty .opaqueCall sub → p.length < 2 ^ 30 → _root_.Spec.IsCompact p.length c → CallIs env ctx p v ic →
  Decodes env ctx ty (c ++ p) v ic

theorem isASCII_printable (p : Str) : isASCII p = true ↔ Printable p := by
  unfold isASCII Printable
  rw [List.all_eq_true]
  refine forall₂_congr fun c _ => ?_
  have h9 : c = 9 ↔ c.toNat = 9 := ⟨fun h => by rw [h]; rfl, fun h => UInt8.toNat.inj (by rw [h]; rfl)⟩
  have h10 : c = 10 ↔ c.toNat = 10 := ⟨fun h => by rw [h]; rfl, fun h => UInt8.toNat.inj (by rw [h]; rfl)⟩
  have h13 : c = 13 ↔ c.toNat = 13 := ⟨fun h => by rw [h]; rfl, fun h => UInt8.toNat.inj (by rw [h]; rfl)⟩
  rw [h9, h10, h13]
  simp only [Bool.not_eq_true', Bool.or_eq_false_iff, decide_eq_false_iff_not, Bool.and_eq_false_iff, Bool.not_eq_false', Bool.or_eq_true,
    beq_iff_eq]
  omega

/-- The bytes that are decoded as a call: the payload, or if it is printable what it means as hex text. -/
def opaqueInner (p : Str) : Str := if isASCII p then hexToBytes p else p

/-- Exactly what an opaque call decodes to. -/
theorem opaque_decodes {env : Env} {ctx : Ctx} {ty sub c p : Str} {v : Val} {ic : List Str} (hl : LenOK env ctx)
    (h : Resolves env ctx.module ctx.spec ty .opaqueCall sub) (hp : p.length < 2 ^ 63) (hc : _root_.Spec.IsCompact p.length c)
    (hi : CallIs env ctx (opaqueInner p) v ic) : Decodes env ctx ty (c ++ p) v ic := by
  obtain ⟨N1, h1⟩ := len_decodes hl hp hc
  obtain ⟨N2, h2⟩ := hi
  refine decodes_of_decAt h ⟨max N1 N2, fun n hn => ?_⟩
  show DecAt (processOpaqueCall _ _) _ _ _
  have hb : DecAt (processBytes (pau env n) ctx) (c ++ p) (.str (asciiOrHex p)) [] := by
    unfold processBytes
    refine decAt_len (k := fun i st => nextBytes i st >>= fun q => .ok (Val.str (asciiOrHex q.1), q.2)) (h1 n (by omega)) ?_
    exact DecAt.last (decAt_next p _ rfl) fun st => rfl
  have hx : hexToBytes (asciiOrHex p) = opaqueInner p := by
    unfold asciiOrHex opaqueInner
    split
    · rfl
    · rw [hexToBytes, addHex_bytesToHex, trimHex_0x, ← trimHex_bytesToHex p]
      exact hexToBytes_bytesToHex p
  obtain ⟨st', e, hic⟩ := h2 n (by omega)
  intro pre suf cs hlen
  unfold processOpaqueCall
  rw [hb pre suf cs hlen, Res.ok_bind]
  dsimp only
  rw [hx, e, Res.ok_bind]
  dsimp only
  rw [hic, List.append_nil]

/-- A payload with a byte that is not printable decodes to the wrapped call. -/
theorem C54_partial (env : Env) (ctx : Ctx) (ty sub c p : Str) (v : Val) (ic : List Str) (hl : LenOK env ctx)
    (h : Resolves env ctx.module ctx.spec ty .opaqueCall sub) (hp : p.length < 2 ^ 63) (hc : _root_.Spec.IsCompact p.length c)
    (hn : ¬ Printable p) (hi : CallIs env ctx p v ic) : Decodes env ctx ty (c ++ p) v ic :=
  opaque_decodes hl h hp hc (by rw [opaqueInner, if_neg (fun e => hn ((isASCII_printable p).1 e))]; exact hi)

theorem isASCII_bytesToHex (q : Str) : isASCII (bytesToHex q) = true := by
  induction q with
  | nil => rfl
  | cons x xs ih =>
    have h : isASCII [hexDigit (x.toNat / 16), hexDigit (x.toNat % 16)] = true :=
      forall_byte (P := fun x => isASCII [hexDigit (x.toNat / 16), hexDigit (x.toNat % 16)] = true) (by decide +kernel) x
    unfold isASCII at *
    rw [bytesToHex, List.all_cons, List.all_cons, ih]
    simpa using h

/-- A printable payload is not decoded itself: it is taken for the hex text of the call. -/
theorem C54_printable (env : Env) (ctx : Ctx) (ty sub c q p : Str) (v : Val) (ic : List Str) (hl : LenOK env ctx)
    (h : Resolves env ctx.module ctx.spec ty .opaqueCall sub) (hp : p.length < 2 ^ 63) (hc : _root_.Spec.IsCompact p.length c)
    (hn : p = _root_.Spec.hexText q) (hi : CallIs env ctx q v ic) : Decodes env ctx ty (c ++ p) v ic := by
  subst hn
  have ha : isASCII (_root_.Spec.hexText q) = true := by rw [← bytesToHex_eq_spec]; exact isASCII_bytesToHex q
  refine opaque_decodes hl h hp hc ?_
  rw [opaqueInner, if_pos ha, ← bytesToHex_eq_spec, hexToBytes_bytesToHex]
  exact hi

/-- Metadata with the calls 30 30 and 80 00 without arguments. -/
def opaqueMD : MD where
  version := 14
  callIndex := fun k => if k = b!"3030" ∨ k = b!"8000" then some ⟨b!"c", b!"M", []⟩ else none
  eventIndex := fun _ => none
  extrinsic := none

def opaqueCtx : Ctx := ⟨[], 0, some opaqueMD⟩

/-- What a call without arguments decodes to. -/
def opaqueVal (i : Str) : Val := .map [(b!"call_index", .str i), (b!"call_name", .str b!"c"), (b!"call_module", .str b!"M"), (b!"params", .params [])]

theorem callIs_of_eval {env : Env} {ctx : Ctx} {p : Str} {v : Val} {st : St} (N : Nat)
    (h : pau env N ⟨[], ctx.spec, ctx.md⟩ b!"Call" ⟨⟨p, 0⟩, []⟩ = .ok (v, st)) : CallIs env ctx p v st.calls :=
  ⟨N, fun _ hn => ⟨st, (pau_mono env hn _ _ _).ok h, rfl⟩⟩

theorem opaque_resolves : Resolves (baseEnv dummyExt) opaqueCtx.module opaqueCtx.spec b!"OpaqueCall" .opaqueCall [] := by
  unfold Resolves; kernel_rfl

theorem opaque_len : LenOK (baseEnv dummyExt) opaqueCtx := ⟨[], by unfold Resolves; kernel_rfl⟩

/-- The `call_index` entry of a decoded call. -/
def callIndexOf : Res (Val × St) → Option Str
  | .ok (.map ((_, .str s) :: _), _) => some s
  | _ => none

/-- The full claim is false: the call 30 30 consists of the characters 00, and is decoded as the byte 0. -/
theorem C54_claim_false : ¬ C54Claim := by
  intro hc
  obtain ⟨N, h⟩ := hc (baseEnv dummyExt) opaqueCtx b!"OpaqueCall" [] [8] [48, 48] (opaqueVal b!"3030") [b!"3030"] opaque_len
    opaque_resolves (by decide) (.inl (by decide)) (callIs_of_eval (st := ⟨⟨[48, 48], 2⟩, [b!"3030"]⟩) 9 (by kernel_rfl))
  have h1 := h (max N 9) (by omega) [] [] [] (by decide)
  have h2 : callIndexOf (pau (baseEnv dummyExt) 9 opaqueCtx b!"OpaqueCall" ⟨⟨[8, 48, 48], 0⟩, []⟩) = some b!"00" := by kernel_rfl
  rcases pau_mono (baseEnv dummyExt) (Nat.le_max_right N 9) opaqueCtx b!"OpaqueCall" ⟨⟨[8, 48, 48], 0⟩, []⟩ with hm | hm
  · rw [hm] at h2; cases h2
  · rw [hm] at h2
    have h3 := congrArg callIndexOf h1
    exact absurd (h2.symm.trans h3) (by decide)

/-- The call 80 00, which is not printable, wrapped; and the printable payload 8000, decoded as the same call. -/
example : Decodes (baseEnv dummyExt) opaqueCtx b!"OpaqueCall" [8, 128, 0] (opaqueVal b!"8000") [b!"8000"] ∧
    Decodes (baseEnv dummyExt) opaqueCtx b!"OpaqueCall" (16 :: b!"8000") (opaqueVal b!"8000") [b!"8000"] :=
  have hi : CallIs (baseEnv dummyExt) opaqueCtx [128, 0] (opaqueVal b!"8000") [b!"8000"] :=
    callIs_of_eval (st := ⟨⟨[128, 0], 2⟩, [b!"8000"]⟩) 9 (by kernel_rfl)
  ⟨C54_partial _ _ _ [] [8] [128, 0] _ _ opaque_len opaque_resolves (by decide) (.inl (by decide))
      (fun h => by rcases h 128 (by decide) with h | h | h | h <;> revert h <;> decide) hi,
    C54_printable _ _ _ [] [16] [128, 0] b!"8000" _ _ opaque_len opaque_resolves (by decide) (.inl (by decide)) (by decide) hi⟩

end ScaleGo
