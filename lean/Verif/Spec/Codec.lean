import Verif.Model.Encode
import Verif.Spec.Bytes

/-! # What it means to decode from, and encode to, a byte string

Statements about the entry points `pau` (`ProcessAndUpdateData`) and `enc` (`EncodeWithOpt`) for every sufficiently large
recursion budget. -/

namespace ScaleGo

/-- The type text `ty` is looked up as class `cls` with generic argument `sub` (empty when there is none). -/
def Resolves (env : Env) (module : Str) (spec : Int) (ty : Str) (cls : Cls) (sub : Str) : Prop :=
  getCodecClass env module spec ty = .ok (some (cls, sub))

/-- The type text `ty` makes `EncodeWithOpt` use class `cls`: it is looked up like that in an empty module, and is not a
spelling of `Null`, which is treated before the lookup. -/
def EncResolves (env : Env) (ctx : ECtx) (ty : Str) (cls : Cls) (sub : Str) : Prop :=
  Resolves env [] ctx.spec ty cls sub ∧ Spec.asciiLower ty ≠ b!"null"

/-- Decoding `ty` at any position of any buffer (that a Go slice can hold) that continues with `b` returns `v`, stops
exactly behind `b`, leaves the buffer alone, and adds `ic` to the nested calls reported so far. -/
def Decodes (env : Env) (ctx : Ctx) (ty : Str) (b : Str) (v : Val) (ic : List Str) : Prop :=
  ∃ N, ∀ n, N ≤ n → ∀ (pre suf : Str) (cs : List Str), pre.length + b.length + suf.length < 2 ^ 63 →
    pau env n ctx ty ⟨⟨pre ++ (b ++ suf), pre.length⟩, cs⟩ =
      .ok (v, ⟨⟨pre ++ (b ++ suf), pre.length + b.length⟩, cs ++ ic⟩)

/-- Decoding `ty` where only `b` is left of the buffer returns `v` and stops at the end of the buffer. -/
def DecodesAtEnd (env : Env) (ctx : Ctx) (ty : Str) (b : Str) (v : Val) : Prop :=
  ∃ N, ∀ n, N ≤ n → ∀ (pre : Str) (cs : List Str), pre.length + b.length < 2 ^ 62 →
    pau env n ctx ty ⟨⟨pre ++ b, pre.length⟩, cs⟩ = .ok (v, ⟨⟨pre ++ b, (pre ++ b).length⟩, cs⟩)

/-- Decoding `ty` at any position of any buffer that continues with `b` panics. -/
def DecodeRefuses (env : Env) (ctx : Ctx) (ty : Str) (b : Str) : Prop :=
  ∃ N, ∀ n, N ≤ n → ∀ (pre suf : Str) (cs : List Str), pre.length + b.length + suf.length < 2 ^ 63 →
    pau env n ctx ty ⟨⟨pre ++ (b ++ suf), pre.length⟩, cs⟩ = .panic

/-- Encoding `v` as `ty` produces (the hex text of) exactly the bytes `b`. -/
def Encodes (env : Env) (ctx : ECtx) (ty : Str) (v : Val) (b : Str) : Prop :=
  ∃ N, ∀ n, N ≤ n → enc env n ctx ty v = .ok (Spec.hexText b)

/-- Encoding `v` as `ty` panics. -/
def EncodeRefuses (env : Env) (ctx : ECtx) (ty : Str) (v : Val) : Prop :=
  ∃ N, ∀ n, N ≤ n → enc env n ctx ty v = .panic

/-- The Go integer or decimal `v` denotes the integer `i`. -/
def Denotes (v : Val) (i : Int) : Prop :=
  match v with
  | .int j => j = i
  | .sint _ j => j = i
  | .uint _ n => (n : Int) = i
  | .big j => j = i
  | .dec c e => if 0 ≤ e then i = c * 10 ^ e.toNat else i * 10 ^ (-e).toNat = c
  | _ => False

/-- A Go value of a fixed-width integer type is in the range of that type. -/
def GoRange (v : Val) : Prop :=
  match v with
  | .int i => -(2 ^ 63) ≤ i ∧ i < 2 ^ 63
  | .sint w i => -(2 ^ (8 * w - 1)) ≤ i ∧ i < 2 ^ (8 * w - 1)
  | .uint w n => n < 2 ^ (8 * w)
  | _ => True

end ScaleGo
