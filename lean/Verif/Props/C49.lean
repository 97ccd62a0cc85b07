import Verif.Lemmas.Comp
import Verif.Lemmas.KernelRfl
import Verif.Lemmas.Mono
import Verif.Props.C07
import Verif.Props.C50
import Verif.Model.Base

/-! # C49: identity data -/

namespace ScaleGo

namespace Spec

/-- The names of the hash kinds by tag. -/
def hashKind : Nat → Option Str
  | 34 => some b!"BlakeTwo256"
  | 35 => some b!"Sha256"
  | 36 => some b!"Keccak256"
  | 37 => some b!"ShaThree256"
  | _ => none

/-- Byte strings of the identity data type: `None`, raw bytes of length 0 to 32, and the four hash kinds. -/
inductive IsData : Str → Prop
  | none : IsData [0]
  | raw (b : Str) : b.length ≤ 32 → IsData (UInt8.ofNat (b.length + 1) :: b)
  | hash (t : Nat) (n b : Str) : hashKind t = some n → b.length = 32 → IsData (UInt8.ofNat t :: b)

/-- `ty` is the identity data type, and the types used by it have their usual meaning. -/
structure DataOK (env : Env) (ctx : Ctx) (ectx : ECtx) (ty : Str) : Prop where
  dec : ∃ s, Resolves env ctx.module ctx.spec ty .data s
  enc : ∃ s, EncResolves env ectx ty .data s
  hash : ∃ s, Resolves env ctx.module ctx.spec b!"H256" (.hash 32) s
  hashE : ∃ s, EncResolves env ECtx.none b!"H256" (.hash 32) s
  byteE : ∃ s, EncResolves env ECtx.none b!"U8" .u8 s

end Spec

open ScaleGo.Spec

/-- C49 in full. -/
def C49Claim : Prop := ∀ (env : Env) (ctx : Ctx) (ectx : ECtx) (ty : Str) (b : Str), DataOK env ctx ectx ty → IsData b →
  ∃ v, Decodes env ctx ty b v [] ∧ Encodes env ectx ty v b

/-! ## Decoding -/

theorem C49_decode_none (env : Env) (ctx : Ctx) (ty sub : Str) (h : Resolves env ctx.module ctx.spec ty .data sub) :
    Decodes env ctx ty [0] (.map [(b!"None", .nil)]) [] := by
  refine decodes_of_decAt h ⟨0, fun n _ => ?_⟩
  show DecAt (processData _ _) _ _ _
  unfold processData
  refine DecAt.byte ?_
  exact DecAt.pure _

/-- Raw bytes decode to their text when they are UTF-8, otherwise to their hex text, under a key with their number. -/
theorem C49_decode_raw (env : Env) (ctx : Ctx) (ty sub b : Str) (hb : b.length ≤ 32) (h : Resolves env ctx.module ctx.spec ty .data sub) :
    Decodes env ctx ty (UInt8.ofNat (b.length + 1) :: b)
      (.map [(b!"Raw" ++ natToDec b.length, .str (if utf8Valid b then b else _root_.Spec.hexText b))]) [] := by
  refine decodes_of_decAt h ⟨0, fun n _ => ?_⟩
  show DecAt (processData _ _) _ _ _
  unfold processData
  refine DecAt.byte ?_
  have ht : (UInt8.ofNat (b.length + 1)).toNat = b.length + 1 := by
    rw [UInt8.toNat_ofNat']; omega
  dsimp only [List.headD_cons]
  simp only [ht]
  simp only [List.isEmpty_cons, Bool.false_or, beq_iff_eq, Nat.add_eq_zero_iff, Nat.one_ne_zero, and_false, if_false,
    show b.length + 1 ≤ 33 by omega, if_true, Nat.add_sub_cancel]
  refine DecAt.last (decAt_next b _ (by omega)) fun st => ?_
  dsimp only
  rw [bytesToHex_eq_spec]

/-- The hash kinds decode to the name and `0x` hex text. -/
theorem C49_decode_hash (env : Env) (ctx : Ctx) (ty sub sub' n b : Str) (t : Nat) (ht : hashKind t = some n) (hb : b.length = 32)
    (h : Resolves env ctx.module ctx.spec ty .data sub) (hh : Resolves env ctx.module ctx.spec b!"H256" (.hash 32) sub') :
    Decodes env ctx ty (UInt8.ofNat t :: b) (.map [(n, .str (b!"0x" ++ _root_.Spec.hexText b))]) [] := by
  obtain ⟨N, hN⟩ := C50_decode_hash env ctx b!"H256" sub' 32 b hb hh
  refine decodes_of_decAt h ⟨N, fun m hm => ?_⟩
  show DecAt (processData _ _) _ _ _
  unfold processData
  have hd : DecAt (pau env m ctx b!"H256") b (.str (b!"0x" ++ _root_.Spec.hexText b)) [] := hN m hm
  refine DecAt.byte ?_
  have : t = 34 ∨ t = 35 ∨ t = 36 ∨ t = 37 := by
    unfold hashKind at ht
    split at ht <;> simp_all
  rcases this with rfl | rfl | rfl | rfl <;> cases ht <;> exact DecAt.last hd fun st => rfl

/-- Other tags are not refused: they give nil and consume only the tag. -/
theorem C49_decode_other (env : Env) (ctx : Ctx) (ty sub : Str) (t : UInt8) (ht : 38 ≤ t.toNat)
    (h : Resolves env ctx.module ctx.spec ty .data sub) : Decodes env ctx ty [t] .nil [] := by
  refine decodes_of_decAt h ⟨0, fun n _ => ?_⟩
  show DecAt (processData _ _) _ _ _
  unfold processData
  refine DecAt.byte ?_
  dsimp only [List.headD_cons]
  simp only [List.isEmpty_cons, Bool.false_or, beq_iff_eq, show ¬ t.toNat = 0 by omega, show ¬ t.toNat ≤ 33 by omega,
    show ¬ t.toNat ≤ 37 by omega, if_false]
  exact DecAt.pure _

/-! ## Encoding -/

theorem scanInt_natToDec (n : Nat) (h : n < 2 ^ 63) : scanInt (natToDec n) = some (n : Int) := by
  have hd := natToDec_digits n
  have hne := natToDec_ne_nil n
  have hv := decToNat?_natToDec n
  revert hd hne hv
  generalize natToDec n = s
  intro hd hne hv
  match s, hne with
  | c :: r, _ =>
    have hc : isDigit c = true := by rw [List.all_cons, Bool.and_eq_true] at hd; exact hd.1
    have h32 : c ≠ 32 := by rintro rfl; exact absurd hc (by decide)
    have h45 : c ≠ 45 := by rintro rfl; exact absurd hc (by decide)
    have h43 : c ≠ 43 := by rintro rfl; exact absurd hc (by decide)
    have htw : (c :: r).takeWhile isDigit = c :: r := by
      have := List.takeWhile_append_of_pos (p := isDigit) (l₁ := c :: r) (l₂ := []) (List.all_eq_true.1 hd)
      simpa using this
    have hsg : scanSign (c :: r) = (false, c :: r) := by
      unfold scanSign
      split
      · rename_i he; exact absurd (List.cons.inj he).1 h45
      · rename_i he; exact absurd (List.cons.inj he).1 h43
      · rfl
    unfold scanInt
    rw [List.dropWhile_cons_of_neg (by simpa using h32), hsg]
    dsimp only
    rw [htw, hv]
    simp only [Bool.false_eq_true, if_false]
    rw [if_pos (by omega)]

theorem leBytes_byte {m : Nat} (h : m < 256) : _root_.Spec.leBytes 1 m = [UInt8.ofNat m] := by
  show [UInt8.ofNat (m / 256 ^ 0 % 256)] = _
  rw [Nat.pow_zero, Nat.div_one, Nat.mod_eq_of_lt h]

theorem raw_not_listed (n : Nat) : sliceIndex (b!"Raw" ++ natToDec n) (dataTM.map Prod.fst) = none := by
  have hne := natToDec_ne_nil n
  revert hne
  generalize natToDec n = s
  intro hne
  match s, hne with
  | c :: r, _ => simp [dataTM, sliceIndex]

/-- Encoding raw data whose text has another length than the number in the key plus one: the bytes of the text. -/
theorem C49_encode_text (env : Env) (ectx : ECtx) (ty sub sub' s : Str) (k : Nat) (hk : k < 255) (hs : s.length ≠ k + 1)
    (h : EncResolves env ectx ty .data sub) (hu : EncResolves env ECtx.none b!"U8" .u8 sub') :
    Encodes env ectx ty (.map [(b!"Raw" ++ natToDec k, .str s)]) (UInt8.ofNat (k + 1) :: s) := by
  obtain ⟨N, hN⟩ := C07_encode env ECtx.none b!"U8" 1 (k + 1) sub' (.int ((k : Int) + 1)) (by decide) (by omega) hu rfl (by simp [Denotes])
  refine encodes_of_enc h ⟨N, fun n hn => ?_⟩
  show encodeData _ _ = _
  unfold encodeData
  simp only [argOf, asMap, Res.ok_bind, raw_not_listed]
  rw [if_pos (by simp [hasPrefix]), show (b!"Raw" ++ natToDec k).drop 3 = natToDec k from rfl, scanInt_natToDec k (by omega)]
  dsimp only
  rw [show (k : Int) + 1 = ((k + 1 : Nat) : Int) by omega, wrap64_nat (by omega), show ((k + 1 : Nat) : Int) = (k : Int) + 1 by omega]
  rw [hN n hn]
  simp only [asStr, Res.ok_bind]
  rw [if_neg (by omega), ← bytesToHex_eq_spec, leBytes_byte (by omega), ← bytesToHex_append]
  rfl

/-- The key `Raw-1` gives data that reads as no data followed by the text. -/
theorem C49_encode_minus (env : Env) (ectx : ECtx) (ty sub sub' s : Str) (hs : s ≠ [])
    (h : EncResolves env ectx ty .data sub) (hu : EncResolves env ECtx.none b!"U8" .u8 sub') :
    Encodes env ectx ty (.map [(b!"Raw-1", .str s)]) (0 :: s) := by
  obtain ⟨N, hN⟩ := C07_encode env ECtx.none b!"U8" 1 0 sub' (.int 0) (by decide) (by omega) hu rfl (by simp [Denotes])
  refine encodes_of_enc h ⟨N, fun n hn => ?_⟩
  show encodeData _ _ = _
  have hl : 0 < s.length := List.length_pos_iff.2 hs
  unfold encodeData
  simp only [argOf, asMap, Res.ok_bind, show sliceIndex b!"Raw-1" (dataTM.map Prod.fst) = none by decide]
  rw [if_pos (by decide), show scanInt (b!"Raw-1".drop 3) = some (-1) by decide]
  dsimp only
  rw [show wrap64 (-1 + 1) = 0 by decide, hN n hn]
  simp only [asStr, Res.ok_bind]
  rw [if_neg (by omega), ← bytesToHex_eq_spec, leBytes_byte (by omega), ← bytesToHex_append]
  rfl

/-- Encoding raw data whose text has the length of the number in the key plus one: the text is taken for hex. -/
theorem C49_encode_hex (env : Env) (ectx : ECtx) (ty sub sub' b : Str) (k : Nat) (hk : k < 255) (hs : 2 * b.length = k + 1)
    (h : EncResolves env ectx ty .data sub) (hu : EncResolves env ECtx.none b!"U8" .u8 sub') :
    Encodes env ectx ty (.map [(b!"Raw" ++ natToDec k, .str (_root_.Spec.hexText b))]) (UInt8.ofNat (k + 1) :: b) := by
  obtain ⟨N, hN⟩ := C07_encode env ECtx.none b!"U8" 1 (k + 1) sub' (.int ((k : Int) + 1)) (by decide) (by omega) hu rfl (by simp [Denotes])
  refine encodes_of_enc h ⟨N, fun n hn => ?_⟩
  show encodeData _ _ = _
  unfold encodeData
  simp only [argOf, asMap, Res.ok_bind, raw_not_listed]
  rw [if_pos (by simp [hasPrefix]), show (b!"Raw" ++ natToDec k).drop 3 = natToDec k from rfl, scanInt_natToDec k (by omega)]
  dsimp only
  rw [show (k : Int) + 1 = ((k + 1 : Nat) : Int) by omega, wrap64_nat (by omega), show ((k + 1 : Nat) : Int) = (k : Int) + 1 by omega]
  rw [hN n hn]
  simp only [asStr, Res.ok_bind]
  rw [← bytesToHex_eq_spec, ← bytesToHex_eq_spec, if_pos (by rw [bytesToHex_length]; omega), leBytes_byte (by omega), ← bytesToHex_append]
  rfl

/-- Encoding a hash kind. -/
theorem C49_encode_hash (env : Env) (ectx : ECtx) (ty sub s1 s2 n b : Str) (t : Nat) (ht : hashKind t = some n)
    (h : EncResolves env ectx ty .data sub) (hu : EncResolves env ECtx.none b!"U8" .u8 s1)
    (hh : EncResolves env ECtx.none b!"H256" (.hash 32) s2) :
    Encodes env ectx ty (.map [(n, .str (b!"0x" ++ _root_.Spec.hexText b))]) (UInt8.ofNat t :: b) := by
  have htt : t = 34 ∨ t = 35 ∨ t = 36 ∨ t = 37 := by
    unfold hashKind at ht
    split at ht <;> simp_all
  obtain ⟨N1, h1⟩ := C07_encode env ECtx.none b!"U8" 1 t s1 (.int t) (by decide) (by omega) hu rfl (by simp [Denotes])
  obtain ⟨N2, h2⟩ := C50_encode_hash env ECtx.none b!"H256" s2 32 (b!"0x" ++ _root_.Spec.hexText b) b
    ⟨_, .inr rfl, by rw [← bytesToHex_eq_spec, ← toLower_eq_spec, toLower_bytesToHex]⟩ hh
  refine encodes_of_enc h ⟨max N1 N2, fun m hm => ?_⟩
  show encodeData _ _ = _
  have k1 := h1 m (by omega)
  have k2 := h2 m (by omega)
  unfold encodeData
  rcases htt with rfl | rfl | rfl | rfl <;> cases ht <;> (
    simp only [argOf, asMap, Res.ok_bind]
    rw [show sliceIndex _ (dataTM.map Prod.fst) = some _ from rfl]
    dsimp only
    rw [if_neg (by decide)]
    refine (congrArg (· >>= _) k1).trans ?_
    rw [Res.ok_bind]
    simp only [asStr, Res.ok_bind]
    refine (congrArg (· >>= _) k2).trans ?_
    rw [Res.ok_bind, ← bytesToHex_eq_spec, ← bytesToHex_eq_spec, ← bytesToHex_append]
    rfl)

theorem C49_encode_none (env : Env) (ectx : ECtx) (ty sub s1 : Str) (h : EncResolves env ectx ty .data sub)
    (hu : EncResolves env ECtx.none b!"U8" .u8 s1) : Encodes env ectx ty (.map [(b!"None", .nil)]) [0] := by
  obtain ⟨N1, h1⟩ := C07_encode env ECtx.none b!"U8" 1 0 s1 (.int 0) (by decide) (by decide) hu rfl (by simp [Denotes])
  refine encodes_of_enc h ⟨N1, fun m hm => ?_⟩
  show encodeData _ _ = _
  have k1 := h1 m hm
  unfold encodeData
  simp only [argOf, asMap, Res.ok_bind]
  rw [show sliceIndex _ (dataTM.map Prod.fst) = some 0 from rfl]
  dsimp only
  rw [if_pos trivial, k1, ← bytesToHex_eq_spec]
  rfl

/-! ## Round-trip -/

/-- None, the hash kinds, and raw bytes that are UTF-8 or a single byte round-trip. -/
theorem C49_roundtrip_partial (env : Env) (ctx : Ctx) (ectx : ECtx) (ty b : Str) (h : DataOK env ctx ectx ty)
    (hb : b = [0] ∨ (∃ t n c, hashKind t = some n ∧ c.length = 32 ∧ b = UInt8.ofNat t :: c) ∨
      ∃ c : Str, c.length ≤ 32 ∧ (utf8Valid c = true ∨ c.length = 1) ∧ b = UInt8.ofNat (c.length + 1) :: c) :
    ∃ v, Decodes env ctx ty b v [] ∧ Encodes env ectx ty v b := by
  obtain ⟨⟨s1, h1⟩, ⟨s2, h2⟩, ⟨s3, h3⟩, ⟨s4, h4⟩, s5, h5⟩ := h
  rcases hb with rfl | ⟨t, n, c, ht, hc, rfl⟩ | ⟨c, hc, hu, rfl⟩
  · exact ⟨_, C49_decode_none env ctx ty s1 h1, C49_encode_none env ectx ty s2 s5 h2 h5⟩
  · exact ⟨_, C49_decode_hash env ctx ty s1 s3 n c t ht hc h1 h3, C49_encode_hash env ectx ty s2 s5 s4 n c t ht h2 h5 h4⟩
  · refine ⟨_, C49_decode_raw env ctx ty s1 c hc h1, ?_⟩
    by_cases hv : utf8Valid c = true
    · rw [if_pos hv]
      exact C49_encode_text env ectx ty s2 s5 c c.length (by omega) (by omega) h2 h5
    · rw [if_neg hv]
      have h1 := hu.resolve_left hv
      exact C49_encode_hex env ectx ty s2 s5 c c.length (by omega) (by omega) h2 h5

/-- Raw bytes that are not UTF-8 do not round-trip from two bytes on: the hex text is written as text, twice as long. -/
theorem C49_raw_wrong (env : Env) (ctx : Ctx) (ectx : ECtx) (ty c : Str) (h : DataOK env ctx ectx ty) (hc : 2 ≤ c.length)
    (hc' : c.length ≤ 32) (hu : utf8Valid c = false) : ∃ v b', Decodes env ctx ty (UInt8.ofNat (c.length + 1) :: c) v [] ∧
      Encodes env ectx ty v b' ∧ b'.length = 2 * c.length + 1 := by
  obtain ⟨⟨s1, h1⟩, ⟨s2, h2⟩, _, _, s5, h5⟩ := h
  refine ⟨_, UInt8.ofNat (c.length + 1) :: _root_.Spec.hexText c, C49_decode_raw env ctx ty s1 c hc' h1, ?_, ?_⟩
  · rw [if_neg (by simp [hu])]
    exact C49_encode_text env ectx ty s2 s5 (_root_.Spec.hexText c) c.length (by omega)
      (by rw [← bytesToHex_eq_spec, bytesToHex_length]; omega) h2 h5
  · rw [← bytesToHex_eq_spec, List.length_cons, bytesToHex_length]

theorem data_base : DataOK (baseEnv dummyExt) ⟨[], 0, none⟩ ECtx.none b!"Data" :=
  ⟨⟨[], by unfold Resolves; kernel_rfl⟩, ⟨[], by unfold Resolves; kernel_rfl, by decide⟩, ⟨[], by unfold Resolves; kernel_rfl⟩,
    ⟨[], by unfold Resolves; kernel_rfl, by decide⟩, [], by unfold Resolves; kernel_rfl, by decide⟩

/-- The full claim is false: the two raw bytes ff ff. -/
theorem C49_claim_false : ¬ C49Claim := by
  intro hc
  obtain ⟨v, ⟨N1, h1⟩, h2⟩ := hc _ _ _ _ [3, 255, 255] data_base (IsData.raw [255, 255] (by decide))
  obtain ⟨v', b', ⟨N2, h3⟩, h4, h5⟩ := C49_raw_wrong _ _ _ _ [255, 255] data_base (by decide) (by decide) (by decide)
  have e1 := h1 (max N1 N2) (by omega) [] [] [] (by decide)
  have e2 := h3 (max N1 N2) (by omega) [] [] [] (by decide)
  have := (Prod.mk.inj (Res.ok.inj (e1.symm.trans e2))).1
  subst this
  rw [← encodes_unique h2 h4] at h5
  exact absurd h5 (by decide)

/-- The hypotheses hold in the base registry, for a text, a single byte that is not UTF-8 and a hash. -/
example : DataOK (baseEnv dummyExt) ⟨[], 0, none⟩ ECtx.none b!"Data" ∧ utf8Valid b!"alice" = true ∧ utf8Valid [255] = false ∧
    utf8Valid [255, 254] = false ∧ hashKind 36 = some b!"Keccak256" := ⟨data_base, by decide, by decide, by decide, rfl⟩

end ScaleGo
