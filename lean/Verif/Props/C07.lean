import Verif.Lemmas.Codec
import Verif.Lemmas.KernelRfl
import Verif.Model.Base

/-! # C07: unsigned 8/16/32/64-bit integers -/

namespace ScaleGo

/-- The class that implements the unsigned type of `w` bytes. -/
def uintClass : Nat → Cls
  | 1 => .u8
  | 2 => .u16
  | 4 => .u32
  | _ => .u64

/-- The Go value a decoder of width `w` returns for `n`: `int` for one byte, `uintN` otherwise. -/
def uintValue (w n : Nat) : Val := if w = 1 then .int n else .uint w n

/-- Dynamic Go types of integers and decimals that the encoder of width `w` bytes reads. -/
def uintAccepts (w : Nat) : Val → Bool
  | .int _ => true
  | .dec _ _ => true
  | .uint 4 _ => true
  | .sint 8 _ => w == 1 || w == 2
  | .uint 2 _ => w == 1 || w == 2
  | .uint 1 _ => w == 1
  | .uint 8 _ => w == 8
  | _ => false

/-- Decoding the `w` little-endian bytes of `n` gives `n` and consumes `w` bytes. -/
theorem C07_decode (env : Env) (ctx : Ctx) (ty : Str) (w n : Nat) (sub : Str) (hw : w ∈ [1, 2, 4, 8]) (hn : n < 2 ^ (8 * w))
    (h : Resolves env ctx.module ctx.spec ty (uintClass w) sub) :
    Decodes env ctx ty (Spec.leBytes w n) (uintValue w n) [] := by
  have hlt : n < 256 ^ w := by rw [pow256]; exact hn
  have hu : ∀ w, n < 256 ^ w → ∀ (pre suf : Str) (cs : List Str), pre.length + (Spec.leBytes w n).length + suf.length < 2 ^ 63 →
      processUint w ⟨⟨pre ++ (Spec.leBytes w n ++ suf), pre.length⟩, cs⟩ =
        .ok (.uint w n, ⟨⟨pre ++ (Spec.leBytes w n ++ suf), pre.length + (Spec.leBytes w n).length⟩, cs⟩) := by
    intro w hlt pre suf cs hl
    unfold processUint
    rw [nextBytes_at pre _ suf cs w (by rw [leBytes_length]) hl]
    simp only [Res.ok_bind]
    rw [readInto_self (leBytes_length w n), leNat_leBytes hlt]
  refine decodes_of_read h fun r pre suf cs hl => ?_
  simp only [List.mem_cons, List.not_mem_nil, or_false] at hw
  rcases hw with rfl | rfl | rfl | rfl
  · show processU8 _ = _
    unfold processU8 getNextU8
    rw [nextBytes_at pre _ suf cs 1 (by rw [leBytes_length]; rfl) hl]
    simp only [Res.ok_bind, uintValue, if_true]
    have e : ((Spec.leBytes 1 n).headD 0).toNat = n := by
      have : n % 256 = n := Nat.mod_eq_of_lt hn
      simp [Spec.leBytes, List.range, List.range.loop, this]
    rw [e]
  · exact hu 2 hlt pre suf cs hl
  · exact hu 4 hlt pre suf cs hl
  · exact hu 8 hlt pre suf cs hl

/-- Encoding any accepted Go value that denotes `n` in range gives the `w` little-endian bytes. -/
theorem C07_encode (env : Env) (ctx : ECtx) (ty : Str) (w n : Nat) (sub : Str) (v : Val) (hw : w ∈ [1, 2, 4, 8])
    (hn : n < 2 ^ (8 * w)) (h : EncResolves env ctx ty (uintClass w) sub) (hv : uintAccepts w v = true) (hd : Denotes v n) :
    Encodes env ctx ty v (Spec.leBytes w n) := by
  refine encodes_of_cls h fun r => ?_
  simp only [List.mem_cons, List.not_mem_nil, or_false] at hw
  rw [← lePut_eq_spec]
  have hdec : ∀ bits c e, bits ≤ 64 → n < 2 ^ bits → Denotes (.dec c e) n → toUint bits (decIntPart c e) = n := by
    intro bits c e hb hn hd
    rw [decIntPart, toUint_wrap64 _ hb, denotes_dec_trunc hd, toUint_nat hn]
  have e1 : n < 2 ^ 8 → bytesToHex [UInt8.ofNat n] = bytesToHex (lePut 1 n) := by
    intro hn
    rw [lePut, lePut, Nat.mod_eq_of_lt hn]
  unfold uintAccepts at hv
  rcases hw with rfl | rfl | rfl | rfl
  · show encodeU8 _ _ = _
    split at hv <;> first | (simp at hv; done) | skip
    all_goals simp only [argOf, encodeU8, u8Encode]
    all_goals first
      | (rw [hdec 8 _ _ (by decide) hn hd, e1 hn]; done)
      | (simp only [Denotes] at hd; rw [hd, toUint_nat hn, e1 hn])
  · show encodeU16 _ _ = _
    split at hv <;> first | (simp at hv; done) | skip
    all_goals simp only [argOf, encodeU16]
    all_goals first
      | (rw [hdec 16 _ _ (by decide) hn hd]; done)
      | (simp only [Denotes] at hd; rw [hd, toUint_nat hn]; done)
      | (simp only [Denotes] at hd; rw [Int.ofNat_inj.mp hd])
  · show encodeU32 _ _ = _
    split at hv <;> first | (simp at hv; done) | skip
    all_goals simp only [argOf, encodeU32]
    all_goals first
      | (rw [hdec 32 _ _ (by decide) hn hd]; done)
      | (simp only [Denotes] at hd; rw [hd, toUint_nat hn]; done)
      | (simp only [Denotes] at hd; rw [Int.ofNat_inj.mp hd])
  · show encodeU64 _ _ = _
    split at hv <;> first | (simp at hv; done) | skip
    all_goals simp only [argOf, encodeU64]
    all_goals first
      | (rw [hdec 64 _ _ (by decide) hn hd]; done)
      | (simp only [Denotes] at hd; rw [hd, toUint_nat hn]; done)
      | (simp only [Denotes] at hd; rw [Int.ofNat_inj.mp hd])

/-- Encode, then decode in any surroundings. -/
theorem C07_roundtrip (env : Env) (ectx : ECtx) (ctx : Ctx) (ty : Str) (w n : Nat) (sub sub' : Str) (v : Val)
    (hw : w ∈ [1, 2, 4, 8]) (hn : n < 2 ^ (8 * w)) (h : EncResolves env ectx ty (uintClass w) sub)
    (h' : Resolves env ctx.module ctx.spec ty (uintClass w) sub') (hv : uintAccepts w v = true) (hd : Denotes v n) :
    ∃ b : Str, b.length = w ∧ Encodes env ectx ty v b ∧ Decodes env ctx ty b (uintValue w n) [] :=
  ⟨_, leBytes_length w n, C07_encode env ectx ty w n sub v hw hn h hv hd, C07_decode env ctx ty w n sub' hw hn h'⟩

/-- The names of the built-in registry. -/
example (ext : Ext) : EncResolves (baseEnv ext) ECtx.none b!"u32" (uintClass 4) [] ∧
    Resolves (baseEnv ext) b!"Balances" 1050 b!"U32" (uintClass 4) [] ∧ uintAccepts 4 (.int 305419896) = true ∧
    Denotes (.int 305419896) ((305419896 : Nat) : Int) ∧ Spec.leBytes 4 305419896 = [0x78, 0x56, 0x34, 0x12] :=
  ⟨⟨by unfold Resolves; kernel_rfl, by decide⟩, by unfold Resolves; kernel_rfl, rfl, rfl, by decide⟩

/-- The decimal 4.2e2 denotes 420. -/
example : Denotes (.dec 42 1) ((420 : Nat) : Int) ∧ uintAccepts 2 (.dec 42 1) = true := ⟨by simp [Denotes], rfl⟩

end ScaleGo
