import Verif.Props.C20

/-! # C61: only 00 and 01 are booleans

English claim: a boolean is one byte, 00 for false and 01 for true, and every other byte is refused.

The two bytes are read and written correctly (`C61_partial`); every other byte is read as false (`C61_other_byte`), so the claim
is false. -/

namespace ScaleGo

/-- The full claim. -/
def C61Claim : Prop :=
  ∀ (env : Env) (ctx : Ctx) (ectx : ECtx) (ty sub sub' : Str), Resolves env ctx.module ctx.spec ty .bool sub →
    EncResolves env ectx ty .bool sub' →
    (Decodes env ctx ty [0] (.bool false) [] ∧ Decodes env ctx ty [1] (.bool true) []) ∧
    (Encodes env ectx ty (.bool false) [0] ∧ Encodes env ectx ty (.bool true) [1]) ∧
    (∀ x : UInt8, x ≠ 0 → x ≠ 1 → DecodeRefuses env ctx ty [x])

theorem bool_byte (env : Env) (ctx : Ctx) (ty sub : Str) (h : Resolves env ctx.module ctx.spec ty .bool sub) (x : UInt8) :
    Decodes env ctx ty [x] (.bool (bytesToHex [x] = b!"01")) [] := by
  refine decodes_of_decAt h ⟨0, fun n _ => ?_⟩
  show DecAt processBool _ _ _
  unfold processBool
  exact DecAt.last (decAt_next [x] 1 rfl) fun _ => rfl

theorem one_hex (x : UInt8) : bytesToHex [x] = b!"01" ↔ x = 1 :=
  ⟨fun e => (List.cons.inj (bytesToHex_injective (e.trans (show b!"01" = bytesToHex [1] by decide)))).1, by rintro rfl; decide⟩

/-- Every byte other than 1 is read as false. -/
theorem C61_other_byte (env : Env) (ctx : Ctx) (ty sub : Str) (h : Resolves env ctx.module ctx.spec ty .bool sub) (x : UInt8) (hx : x ≠ 1) :
    Decodes env ctx ty [x] (.bool false) [] := by
  have := bool_byte env ctx ty sub h x
  rwa [show (decide (bytesToHex [x] = b!"01")) = false from decide_eq_false fun e => hx ((one_hex x).1 e)] at this

/-- **C61** for the two bytes.  Missing: other bytes are not refused. -/
theorem C61_partial (env : Env) (ctx : Ctx) (ectx : ECtx) (ty sub sub' : Str) (h : Resolves env ctx.module ctx.spec ty .bool sub)
    (h' : EncResolves env ectx ty .bool sub') :
    (Decodes env ctx ty [0] (.bool false) [] ∧ Decodes env ctx ty [1] (.bool true) []) ∧
    (Encodes env ectx ty (.bool false) [0] ∧ Encodes env ectx ty (.bool true) [1]) := by
  refine ⟨⟨C61_other_byte env ctx ty sub h 0 (by decide), ?_⟩, ?_, ?_⟩
  · have := bool_byte env ctx ty sub h 1
    rwa [show (decide (bytesToHex [1] = b!"01")) = true by decide] at this
  · exact encodes_of_enc h' ⟨0, fun n _ => rfl⟩
  · exact encodes_of_enc h' ⟨0, fun n _ => rfl⟩

theorem bool_base : Resolves (baseEnv dummyExt) [] 0 b!"bool" .bool [] := by unfold Resolves; kernel_rfl

theorem bool_base_enc : EncResolves (baseEnv dummyExt) ECtx.none b!"bool" .bool [] := ⟨by unfold Resolves; kernel_rfl, by decide⟩

/-- The claim is false: 02 is read as false. -/
theorem C61_claim_false : ¬ C61Claim := by
  intro h
  have h1 := (h (baseEnv dummyExt) ⟨[], 0, none⟩ ECtx.none b!"bool" [] [] bool_base bool_base_enc).2.2 2 (by decide) (by decide)
  exact refuses_not_decodes h1 (C61_other_byte _ ⟨[], 0, none⟩ _ _ bool_base 2 (by decide)) (by decide)

/-- Reading and writing true and false with the base registry, and what 255 is read as. -/
example : (Decodes (baseEnv dummyExt) ⟨[], 0, none⟩ b!"bool" [1] (.bool true) []) ∧
    Encodes (baseEnv dummyExt) ECtx.none b!"bool" (.bool true) [1] ∧
    Decodes (baseEnv dummyExt) ⟨[], 0, none⟩ b!"bool" [255] (.bool false) [] :=
  have h := C61_partial (baseEnv dummyExt) ⟨[], 0, none⟩ ECtx.none b!"bool" [] [] bool_base bool_base_enc
  ⟨h.1.2, h.2.2, C61_other_byte _ ⟨[], 0, none⟩ _ _ bool_base 255 (by decide)⟩

end ScaleGo
