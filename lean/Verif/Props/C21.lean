import Verif.Props.C19
import Verif.Props.C20

/-! # C21: options

`Some` of a value whose Go form counts as empty (nil, a nil or empty slice of a decoded kind, the empty text) encodes as `None`, and `Some` of a value
that decodes to nil is not told from `None`. -/

namespace ScaleGo

/-- The full claim, for an option of inner type text `el`. -/
def C21Claim : Prop :=
  ∀ (env : Env) (ctx : Ctx) (ectx : ECtx) (ty t sub sub' el : Str), el ≠ [] → effSub t sub = el → effSub t sub' = el →
    Resolves env ctx.module ctx.spec ty (.option t) sub → EncResolves env ectx ty (.option t) sub' →
    (Encodes env ectx ty .nil [0] ∧ Decodes env ctx ty [0] .nil []) ∧
    (el ≠ b!"bool" → ∀ (v : Val) (b : Str) (ic : List Str), Encodes env ectx el v b → Decodes env ctx el b v ic →
      Encodes env ectx ty v (1 :: b) ∧ Decodes env ctx ty (1 :: b) v ic ∧ ¬ Decodes env ctx ty [0] v []) ∧
    (el = b!"bool" → Encodes env ectx ty (.bool true) [1] ∧ Decodes env ctx ty [1] (.bool true) [] ∧
      Encodes env ectx ty (.bool false) [2] ∧ Decodes env ctx ty [2] (.bool false) [])

/-- The Go values that `Option.Encode` takes for `None`. -/
def CountsAsNone (v : Val) : Prop := v = .nil ∨ v = .nilSlice ∨ v = .str [] ∨ v = .strs [] ∨ v = .params []

theorem isNil_none {v : Val} (h : v.isNil = true) : CountsAsNone v := by
  unfold Val.isNil at h
  unfold CountsAsNone
  split at h <;> simp_all

/-- `None`, and every value that counts as none, encodes as 00. -/
theorem C21_encode_none (env : Env) (ctx : ECtx) (ty t sub : Str) (v : Val) (h : EncResolves env ctx ty (.option t) sub)
    (hv : CountsAsNone v) : Encodes env ctx ty v [0] := by
  refine encodes_of_cls h fun r => ?_
  show encodeOption _ _ _ _ = _
  rcases hv with rfl | rfl | rfl | rfl | rfl <;> rfl

theorem decAt_option (rec : Rec) (ctx : Ctx) (el b : Str) (f : UInt8) (v : Val) (ic : List Str) (he : el ≠ []) (hf : f ≠ 0)
    (hnb : el ≠ b!"bool") (h : DecAt (rec ctx el) b v ic) : DecAt (processOption rec ctx el) (f :: b) v ic := by
  unfold processOption
  refine DecAt.byte ?_
  have h2 : bytesToHex [f] ≠ b!"00" := fun e => hf (by
    have e : bytesToHex [f] = bytesToHex [0] := e
    have := bytesToHex_injective e
    injection this)
  simp only [if_pos (And.intro he h2), if_neg hnb]
  exact h

/-- Any flag byte other than 00 means `Some`: the inner bytes follow. -/
theorem C21_decode_some (env : Env) (ctx : Ctx) (ty t sub el b : Str) (f : UInt8) (v : Val) (ic : List Str) (hel : effSub t sub = el)
    (he : el ≠ []) (hnb : el ≠ b!"bool") (hf : f ≠ 0) (h : Resolves env ctx.module ctx.spec ty (.option t) sub)
    (hi : Decodes env ctx el b v ic) : Decodes env ctx ty (f :: b) v ic := by
  obtain ⟨N, hN⟩ := hi
  refine decodes_of_decAt h ⟨N, fun n hn => ?_⟩
  show DecAt (processOption _ _ (effSub t sub)) _ _ _
  rw [hel]
  exact decAt_option _ _ _ _ _ _ _ he hf hnb (hN n hn)

/-- The flag byte 00 means `None`. -/
theorem C21_decode_none (env : Env) (ctx : Ctx) (ty t sub : Str) (h : Resolves env ctx.module ctx.spec ty (.option t) sub) :
    Decodes env ctx ty [0] .nil [] := by
  refine decodes_of_decAt h ⟨0, fun n hn => ?_⟩
  show DecAt (processOption (pau env n) ctx (effSub t sub)) [0] .nil []
  intro pre suf cs hl
  unfold processOption
  rw [decAt_next [0] 1 rfl pre suf cs hl]
  simp only [Res.ok_bind]
  rw [if_neg (fun h => h.2 rfl)]

/-- `Some` of a value that does not count as none is 01 followed by the value. -/
theorem C21_encode_some_partial (env : Env) (ctx : ECtx) (ty t sub el b : Str) (v : Val) (hel : effSub t sub = el)
    (hnb : el ≠ b!"bool") (h : EncResolves env ctx ty (.option t) sub) (hv : ¬ CountsAsNone v) (hi : Encodes env ctx el v b) :
    Encodes env ctx ty v (1 :: b) := by
  obtain ⟨N, hN⟩ := hi
  refine encodes_of_enc h ⟨N, fun n hn => ?_⟩
  show encodeOption _ _ (effSub t sub) _ = _
  have hnil : v ≠ .nil := fun e => hv (.inl e)
  have h1 : v.isNil = false := by
    cases h : v.isNil with
    | false => rfl
    | true => exact absurd (isNil_none h) hv
  rw [hel, argOf_eq hnil]
  unfold encodeOption
  split
  · exact absurd (.inr (.inr (.inl rfl))) hv
  · rw [if_neg (by simp [h1]), if_neg hnb, hN n hn]
    simp only [Res.ok_bind]
    have : bytesToHex (1 :: b) = bytesToHex [1] ++ bytesToHex b := bytesToHex_append [1] b
    rw [this, bytesToHex_eq_spec b]
    rfl

/-- An option of exactly `bool` is one byte: 01 for true, 02 for false; decoding is its inverse. -/
theorem C21_bool (env : Env) (ctx : Ctx) (ectx : ECtx) (ty t sub sub' : Str) (x : Bool) (hel : effSub t sub = b!"bool")
    (hel' : effSub t sub' = b!"bool") (h : Resolves env ctx.module ctx.spec ty (.option t) sub)
    (h' : EncResolves env ectx ty (.option t) sub') :
    Encodes env ectx ty (.bool x) [if x then 1 else 2] ∧ Decodes env ctx ty [if x then 1 else 2] (.bool x) [] := by
  constructor
  · refine encodes_of_cls h' fun r => ?_
    show encodeOption r ectx (effSub t sub') (.bool x) = _
    rw [hel']
    cases x <;> rfl
  · refine decodes_of_decAt h ⟨0, fun n _ => ?_⟩
    show DecAt (processOption (pau env n) ctx (effSub t sub)) _ _ _
    rw [hel]
    intro pre suf cs hl
    unfold processOption
    rw [decAt_next [if x then 1 else 2] 1 rfl pre suf cs hl]
    simp only [Res.ok_bind]
    cases x <;> rfl

/-- Encoding and decoding together, for values that do not count as none. -/
theorem C21_roundtrip_partial (env : Env) (ctx : Ctx) (ectx : ECtx) (ty t sub sub' el b : Str) (v : Val) (ic : List Str) (he : el ≠ [])
    (hnb : el ≠ b!"bool") (hel : effSub t sub = el) (hel' : effSub t sub' = el)
    (h : Resolves env ctx.module ctx.spec ty (.option t) sub) (h' : EncResolves env ectx ty (.option t) sub') (hv : ¬ CountsAsNone v)
    (hE : Encodes env ectx el v b) (hD : Decodes env ctx el b v ic) :
    Encodes env ectx ty v (1 :: b) ∧ Decodes env ctx ty (1 :: b) v ic ∧ ¬ Decodes env ctx ty [0] v [] := by
  refine ⟨C21_encode_some_partial env ectx ty t sub' el b v hel' hnb h' hv hE,
    C21_decode_some env ctx ty t sub el b 1 v ic hel he hnb (by decide) h hD, fun h2 => hv (.inl ?_)⟩
  have h3 := C21_decode_none env ctx ty t sub h
  obtain ⟨N, h2⟩ := h2
  obtain ⟨M, h3⟩ := h3
  have e1 := h2 (N + M) (by omega) [] [] [] (by decide)
  have e2 := h3 (N + M) (by omega) [] [] [] (by decide)
  rw [e1] at e2
  injection e2 with e2
  exact (Prod.mk.inj e2).1

/-- `Some` of an empty value is lost: its encoding is that of `None`, which decodes to nil. -/
theorem C21_some_empty_lost (env : Env) (ctx : Ctx) (ectx : ECtx) (ty t sub sub' : Str) (v : Val)
    (h : Resolves env ctx.module ctx.spec ty (.option t) sub) (h' : EncResolves env ectx ty (.option t) sub') (hv : CountsAsNone v) :
    Encodes env ectx ty v [0] ∧ Decodes env ctx ty [0] .nil [] :=
  ⟨C21_encode_none env ectx ty t sub' v h' hv, C21_decode_none env ctx ty t sub h⟩

/-- When some bytes of the inner type decode to nil (`Null`, an inner option), `Some` and `None` decode alike. -/
theorem C21_decode_confused (env : Env) (ctx : Ctx) (ty t sub el b : Str) (hel : effSub t sub = el) (he : el ≠ [])
    (hnb : el ≠ b!"bool") (h : Resolves env ctx.module ctx.spec ty (.option t) sub) (hi : Decodes env ctx el b .nil []) :
    Decodes env ctx ty (1 :: b) .nil [] ∧ Decodes env ctx ty [0] .nil [] :=
  ⟨C21_decode_some env ctx ty t sub el b 1 .nil [] hel he hnb (by decide) h hi, C21_decode_none env ctx ty t sub h⟩

/-- The full claim is false: `Some` of an empty byte string encodes as `None`. -/
theorem C21_claim_false : ¬ C21Claim := by
  intro hc
  have hr : Resolves (baseEnv dummyExt) [] 0 b!"Option<Vec<u8>>" (.option []) b!"Vec<u8>" := by unfold Resolves; kernel_rfl
  have he : EncResolves (baseEnv dummyExt) ECtx.none b!"Option<Vec<u8>>" (.option []) b!"Vec<u8>" :=
    ⟨by unfold Resolves; kernel_rfl, by decide⟩
  have hri : Resolves (baseEnv dummyExt) [] 0 b!"Vec<u8>" .bytes [] := by unfold Resolves; kernel_rfl
  have hei : EncResolves (baseEnv dummyExt) ECtx.none b!"Vec<u8>" .bytes [] := ⟨by unfold Resolves; kernel_rfl, by decide⟩
  have hL : LenOK (baseEnv dummyExt) ⟨[], 0, none⟩ := ⟨[], by unfold Resolves; kernel_rfl⟩
  have hL' : LenEncOK (baseEnv dummyExt) := ⟨[], by unfold Resolves; kernel_rfl, by decide⟩
  have h0 : Spec.IsCompact (List.length ([] : Str)) [0] := .inl ⟨by decide, by decide⟩
  have hrt := C19_roundtrip_partial (baseEnv dummyExt) ⟨[], 0, none⟩ ECtx.none b!"Vec<u8>" [] [] .bytes [] [0] (by decide) hri hei hL hL'
    (by decide) h0 (by rintro ⟨_, _, t, ht⟩; cases ht) (by simp)
  have e : shown .bytes [] = [] := by decide
  rw [e] at hrt
  have := ((hc _ ⟨[], 0, none⟩ _ _ _ _ _ b!"Vec<u8>" (by decide) (by decide) (by decide) hr he).2.1 (by decide) _ _ _ hrt.2 hrt.1).1
  have h2 := C21_encode_none (baseEnv dummyExt) ECtx.none _ _ _ (.str []) he (.inr (.inr (.inl rfl)))
  exact absurd (encodes_unique this h2) (by decide)

/-- A `u32` in an option, `Option<bool>`, and a value that does not count as none. -/
example (ext : Ext) : Resolves (baseEnv ext) [] 0 b!"Option<u32>" (.option []) b!"u32" ∧ effSub [] b!"u32" = b!"u32" ∧
    EncResolves (baseEnv ext) ECtx.none b!"Option<bool>" (.option []) b!"bool" ∧ ¬ CountsAsNone (.uint 4 7) :=
  ⟨by unfold Resolves; kernel_rfl, by decide, ⟨by unfold Resolves; kernel_rfl, by decide⟩, by simp [CountsAsNone]⟩

end ScaleGo
