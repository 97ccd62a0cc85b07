import Verif.Props.C19
import Verif.Props.C20

/-! # C25: fixed arrays

Arrays of bytes are shown as text or hex like byte strings.  `[T; 0]` reads one byte; a byte array that is text beginning
with `0x` does not encode back. -/

namespace ScaleGo

/-- The full claim. -/
def C25Claim : Prop :=
  ∀ (env : Env) (ctx : Ctx) (ectx : ECtx) (ty sub sub' el : Str) (k : Nat),
    Resolves env ctx.module ctx.spec ty (.fixedArray k el) sub → EncResolves env ectx ty (.fixedArray k el) sub' →
    (Spec.asciiLower el ≠ b!"u8" → ∀ items : List Item, items.length = k → (∀ x ∈ items, Encodes env ectx el x.1 x.2.1) →
      (∀ x ∈ items, Decodes env ctx el x.2.1 x.1 x.2.2) →
      Encodes env ectx ty (.slice (items.map (·.1))) (items.map (·.2.1)).flatten ∧
      ∃ v, v.elems? = some (items.map (·.1)) ∧ Decodes env ctx ty (items.map (·.2.1)).flatten v (items.map (·.2.2)).flatten) ∧
    (Spec.asciiLower el = b!"u8" → ∀ b : Str, b.length = k →
      Decodes env ctx ty b (.str (shown .bytes b)) [] ∧ Encodes env ectx ty (.str (shown .bytes b)) b) ∧
    (∀ l : List Val, l.length ≠ k → EncodeRefuses env ectx ty (.slice l))

theorem equalFold_u8 (el : Str) : equalFold el b!"u8" = true ↔ Spec.asciiLower el = b!"u8" := by
  unfold equalFold
  rw [toLower_eq_spec]
  simp [toLower, lowerByte]

theorem asciiOrHex_shown (b : Str) : asciiOrHex b = shown .bytes b := by
  unfold shown asciiOrHex
  by_cases ht : Spec.IsText b
  · rw [if_pos ((isASCII_iff b).mpr ht), if_pos ⟨.inl rfl, ht⟩]
  · rw [if_neg (fun h => ht ((isASCII_iff b).mp h)), if_neg (fun h => ht h.2), addHex_bytesToHex, bytesToHex_eq_spec]

/-- Elements in order, no length prefix. -/
theorem C25_encode (env : Env) (ctx : ECtx) (ty sub el : Str) (items : List (Val × Str)) (k : Int)
    (h : EncResolves env ctx ty (.fixedArray k el) sub) (hk : (items.length : Int) = k) (hi : ∀ x ∈ items, Encodes env ctx el x.1 x.2) :
    Encodes env ctx ty (.slice (items.map (·.1))) (items.map (·.2)).flatten := by
  obtain ⟨N, hN⟩ := uniform_bound items (P := fun (x : Val × Str) n => enc env n ctx el x.1 = .ok (Spec.hexText x.2)) hi
  refine encodes_of_enc h ⟨N, fun n hn => ?_⟩
  show encodeFixedArray (enc env n) ctx k el (.slice _) = _
  simp only [encodeFixedArray, Val.elems?, List.length_map]
  rw [if_neg (by omega)]
  exact enc_list items (hN n hn) fun _ => rfl

/-- A list of another length is refused. -/
theorem C25_refuse (env : Env) (ctx : ECtx) (ty sub el : Str) (v : Val) (l : List Val) (k : Int) (hv : v.elems? = some l)
    (h : EncResolves env ctx ty (.fixedArray k el) sub) (hk : (l.length : Int) ≠ k) : EncodeRefuses env ctx ty v := by
  refine encodeRefuses_of_cls h fun r => ?_
  show encodeFixedArray r ctx k el _ = _
  cases v <;> simp_all [argOf, encodeFixedArray, Val.elems?]

/-- Decoding a non-empty array of anything but bytes. -/
theorem C25_decode_partial (env : Env) (ctx : Ctx) (ty sub el : Str) (items : List Item) (k : Int)
    (h : Resolves env ctx.module ctx.spec ty (.fixedArray k el) sub) (hel : Spec.asciiLower el ≠ b!"u8")
    (hk : (items.length : Int) = k) (h0 : 0 < k) (hi : ∀ x ∈ items, Decodes env ctx el x.2.1 x.1 x.2.2) :
    Decodes env ctx ty (items.map (·.2.1)).flatten (.slice (items.map (·.1))) (items.map (·.2.2)).flatten := by
  obtain ⟨N, hN⟩ := uniform_bound items (P := fun (x : Item) n => DecAt (pau env n ctx el) x.2.1 x.1 x.2.2) hi
  refine decodes_of_decAt h ⟨N, fun n hn => ?_⟩
  show DecAt (processFixedArray (pau env n) ctx k el) _ _ _
  have hf : equalFold el b!"u8" = false := by
    cases e : equalFold el b!"u8" with
    | false => rfl
    | true => exact absurd ((equalFold_u8 el).mp e) hel
  unfold processFixedArray
  simp only [if_pos (show k > 0 from h0), hf, Bool.false_eq_true, if_false]
  rw [show k.toNat = items.length by omega]
  exact DecAt.last (decAt_procN items (hN n hn)) fun _ => rfl

/-- Decoding a non-empty byte array, written either way. -/
theorem C25_decode_u8 (env : Env) (ctx : Ctx) (ty sub el : Str) (b : Str) (cls : Cls)
    (hcls : cls = .fixedU8 b.length ∨ cls = .fixedArray b.length el ∧ 0 < b.length ∧ Spec.asciiLower el = b!"u8")
    (h : Resolves env ctx.module ctx.spec ty cls sub) : Decodes env ctx ty b (.str (shown .bytes b)) [] := by
  refine decodes_of_decAt h ⟨0, fun n _ => ?_⟩
  rw [← asciiOrHex_shown]
  rcases hcls with rfl | ⟨rfl, h0, hel⟩
  · exact DecAt.last (decAt_next b _ rfl) fun _ => rfl
  · show DecAt (processFixedArray (pau env n) ctx b.length el) _ _ _
    unfold processFixedArray
    simp only [if_pos (show (b.length : Int) > 0 by omega), (equalFold_u8 el).mpr hel, if_true]
    exact DecAt.last (decAt_next b _ rfl) fun _ => rfl

/-- The decoded value of a byte array encodes back unless it is text beginning with `0x`. -/
theorem C25_encode_u8_partial (env : Env) (ctx : ECtx) (ty sub el : Str) (b : Str) (cls : Cls) (k : Int)
    (hcls : cls = .fixedU8 k ∨ cls = .fixedArray k el) (h : EncResolves env ctx ty cls sub)
    (h0x : ¬ (Spec.IsText b ∧ ∃ t, b = b!"0x" ++ t)) : Encodes env ctx ty (.str (shown .bytes b)) b := by
  have key : shown .bytes b ≠ [] → hexOrText (shown .bytes b) = bytesToHex b := by
    intro _
    unfold hexOrText
    by_cases ht : Spec.IsText b
    · have e : shown .bytes b = b := by simp [shown, ht]
      rw [e]
      cases hp : hasPrefix b b!"0x" with
      | false => simp
      | true =>
        obtain ⟨t, ht'⟩ := List.isPrefixOf_iff_prefix.mp hp
        exact absurd ⟨ht, t, ht'.symm⟩ h0x
    · have e : shown .bytes b = b!"0x" ++ Spec.hexText b := by simp [shown, ht]
      have hp : hasPrefix (b!"0x" ++ Spec.hexText b) b!"0x" = true := by simp [hasPrefix, List.isPrefixOf]
      rw [e, if_pos hp, trimHex_0x, bytesToHex_eq_spec]
  have hnil : shown .bytes b = [] → b = [] := by
    intro e
    by_cases ht : Spec.IsText b
    · simpa [shown, ht] using e
    · simp [shown, ht] at e
  refine encodes_of_cls h fun r => ?_
  by_cases e : shown .bytes b = []
  · rw [hnil e]
    rcases hcls with rfl | rfl
    · show encodeFixedU8 (.str _) = _
      rw [show shown .bytes [] = [] from rfl]; rfl
    · show encodeFixedArray r ctx k el (.str (shown .bytes [])) = _
      rw [show shown .bytes [] = [] from rfl]; rfl
  · rcases hcls with rfl | rfl
    · show encodeFixedU8 (.str _) = _
      rw [encodeFixedU8, key e]
    · show encodeFixedArray r ctx k el (.str _) = _
      rw [encodeFixedArray, if_neg e, key e]

/-- `[T; 0]` takes one byte of whatever follows and returns nothing. -/
theorem C25_zero_wrong (env : Env) (ctx : Ctx) (ty sub el : Str) (k : Int) (x : UInt8) (hk : k ≤ 0)
    (h : Resolves env ctx.module ctx.spec ty (.fixedArray k el) sub) : Decodes env ctx ty [x] .nil [] := by
  refine decodes_of_decAt h ⟨0, fun n _ => ?_⟩
  show DecAt (processFixedArray (pau env n) ctx k el) _ _ _
  unfold processFixedArray
  simp only [if_neg (show ¬ k > 0 by omega)]
  intro pre suf cs hl
  unfold getNextU8
  simp only [nextBytes_at pre [x] suf cs 1 rfl hl, Res.ok_bind]
  simp

/-- Text of any length, and nothing at all, is accepted for a byte array of any length. -/
theorem C25_text_unchecked (env : Env) (ctx : ECtx) (ty sub el : Str) (b : Str) (cls : Cls) (k : Int)
    (hcls : cls = .fixedU8 k ∨ cls = .fixedArray k el) (h : EncResolves env ctx ty cls sub) (hb : ∀ t, b ≠ b!"0x" ++ t) :
    Encodes env ctx ty (.str b) b := by
  refine encodes_of_cls h fun r => ?_
  have hp : hasPrefix b b!"0x" = false := by
    cases hp : hasPrefix b b!"0x" with
    | false => rfl
    | true =>
      obtain ⟨t, ht'⟩ := List.isPrefixOf_iff_prefix.mp hp
      exact absurd ht'.symm (hb t)
  have key : hexOrText b = bytesToHex b := by unfold hexOrText; rw [hp]; simp
  rcases hcls with rfl | rfl
  · show encodeFixedU8 (.str b) = _
    rw [encodeFixedU8, key]
  · show encodeFixedArray r ctx k el (.str b) = _
    rw [encodeFixedArray]
    split
    · rename_i e; rw [e]; rfl
    · rw [key]

/-- The full claim is false: `[u32; 0]`. -/
theorem C25_claim_false : ¬ C25Claim := by
  intro hc
  have hr : Resolves (baseEnv dummyExt) [] 0 b!"[u32; 0]" (.fixedArray (0 : Nat) b!"u32") [] := by unfold Resolves; kernel_rfl
  have hr' : EncResolves (baseEnv dummyExt) ⟨0, none⟩ b!"[u32; 0]" (.fixedArray (0 : Nat) b!"u32") [] := ⟨hr, by decide⟩
  obtain ⟨_, v, hv, N, h1⟩ := (hc _ ⟨[], 0, none⟩ ⟨0, none⟩ _ _ _ _ 0 hr hr').1 (by decide) [] rfl (by simp) (by simp)
  obtain ⟨M, h2⟩ := C25_zero_wrong _ ⟨[], 0, none⟩ _ _ _ _ 9 (by decide) hr
  have e1 := h1 (N + M) (by omega) [] [9] [] (by decide)
  have e2 := h2 (N + M) (by omega) [] [] [] (by decide)
  simp only [List.nil_append, List.append_nil, List.map_nil, List.flatten_nil] at e1 e2
  rw [e1] at e2
  injection e2 with e2
  injection e2 with e2
  rw [e2] at hv
  simp [Val.elems?] at hv

/-- `[u32; 2]`, a text array and a hex array. -/
example : Resolves (baseEnv dummyExt) [] 0 b!"[u32; 2]" (.fixedArray 2 b!"u32") [] ∧ Spec.asciiLower b!"u32" ≠ b!"u8" ∧
    Resolves (baseEnv dummyExt) [] 0 b!"[U8; 3]" (.fixedArray 3 b!"u8") [] ∧ Spec.IsText b!"abc" ∧ ¬ Spec.IsText [0, 1, 200] :=
  ⟨by unfold Resolves; kernel_rfl, by decide, by unfold Resolves; kernel_rfl, by decide, by decide⟩

end ScaleGo
