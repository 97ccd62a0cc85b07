import Verif.Props.C57
import Verif.Props.C67

/-!
# C69: the checksummed form of an Ethereum address is the EIP-55 form, whatever the case of its input

The checksum is computed from the letters as given, not from the lower-case text the standard hashes.  The decoder always
passes lower-case text, so decoded addresses are right.  Given an address that is already checksummed, the function changes it.
-/

namespace ScaleGo

open Sha3
open Spec.Keccak (bitsOf)

/-- The hash function of the package as a total function; it never panics (C67). -/
def keccakOf (s : Str) : Str := match keccak256 [s] with
  | .ok o => o
  | _ => []

theorem keccakOf_spec (s : Str) : (keccakOf s).length = 32 ∧ bitsOf (keccakOf s) = Spec.Keccak.sponge 1088 (bitsOf s) 256 := by
  obtain ⟨o, h1, h2, h3⟩ := C67_keccak256 [s]
  have e : keccakOf s = o := by unfold keccakOf; rw [h1]
  rw [List.flatten_cons, List.flatten_nil, List.append_nil] at h3
  rw [e]
  exact ⟨h2, h3⟩

/-- The EIP-55 form of a 20-byte address. -/
def IsChecksummed (b s : Str) : Prop :=
  ∃ digest, bitsOf digest = Spec.Keccak.sponge 1088 (bitsOf (Spec.hexText b)) 256 ∧
    s = b!"0x" ++ Spec.eip55 (Spec.hexText b) (Spec.hexText digest)

/-- The claim: for every hex text of 20 bytes, in any letter case, the result is the EIP-55 form of the bytes. -/
def C69Claim : Prop :=
  ∀ (b s : Str), b.length = 20 → Spec.asciiLower s = Spec.hexText b →
    ∃ r, ethEncode keccakOf s = .ok r ∧ IsChecksummed b r

/-- Decoding 20 bytes gives their EIP-55 form, with the hash function of the package. -/
theorem C69_decode (env : Env) (ctx : Ctx) (ty sub : Str) (b : Str) (hb : b.length = 20) (hk : env.ext.keccak = keccakOf)
    (h : Resolves env ctx.module ctx.spec ty .ethereumAddress sub) :
    ∃ r, Decodes env ctx ty b (.str r) [] ∧ IsChecksummed b r := by
  have hd := C57_decode env ctx ty sub b hb (by rw [hk, (keccakOf_spec _).1]; omega) h
  rw [hk] at hd
  exact ⟨_, hd, _, (keccakOf_spec _).2, rfl⟩

theorem hexDecode_half (s : Str) : (hexDecode s).length = s.length / 2 := by
  induction s using hexDecode.induct with
  | case1 a b rest x y hx hy ih => rw [hexDecode, hx, hy]; simp [ih]; omega
  | case2 a b rest h =>
    rw [hexDecode]
    split
    · next x y hx hy => exact absurd hy (h x y hx)
    · simp; omega
  | case3 s h =>
    match s, h with
    | [], _ => rfl
    | [_], _ => simp [hexDecode]
    | a :: b :: rest, h => exact absurd rfl (h a b rest)

theorem not_x_of_lower {a : Str} {b : Str} (ha : toLower a = bytesToHex b) : hasPrefix a b!"0x" = false := by
  match a, ha with
  | [], _ => rfl
  | [_], _ => simp [hasPrefix, List.isPrefixOf]
  | c :: d :: _, ha =>
    have hm : lowerByte d ∈ bytesToHex b := by rw [← ha]; simp [toLower]
    obtain ⟨n, hn⟩ := bytesToHex_mem b _ hm
    have hx : ∀ n : Fin 16, hexDigit n.val ≠ 120 := by decide +kernel
    have hne : (120 == d) = false := by
      apply beq_false_of_ne
      rintro rfl
      exact hx n (hn.symm.trans (by decide))
    simp only [hasPrefix, List.isPrefixOf, hne]
    simp

/-- What the function gives for a hex text of 20 bytes in any letter case: the letters as given, in upper case where the digit
of the hash of the text as given is above 7. -/
theorem C69_any_case (K : Str → Str) (a b : Str) (hb : b.length = 20) (ha : Spec.asciiLower a = Spec.hexText b)
    (hK : 20 ≤ (K a).length) :
    ethEncode K a = .ok (b!"0x" ++ Spec.eip55 a (Spec.hexText (K a))) := by
  rw [← toLower_eq_spec, ← bytesToHex_eq_spec] at ha
  have hlen : a.length = 40 := by
    have := congrArg List.length ha
    simpa [toLower, hb] using this
  have ht : trimHex a = a := by rw [trimHex, trimPrefix, not_x_of_lower ha]; rfl
  have hby : (hexToBytes a).length = 20 := by rw [hexToBytes, ht, hexDecode_half, hlen]
  unfold ethEncode
  rw [if_neg (by simp [hby]), ht]
  dsimp only
  rw [List.take_of_length_le (by omega), bytesToHex_eq_spec,
    ethLoop_eq _ _ (by rw [← bytesToHex_eq_spec]; exact bytesToHex_mem _) (by rw [← bytesToHex_eq_spec, bytesToHex_length]; omega)]
  simp only [Res.ok_bind]
  have hl : toLower (Spec.eip55 a (Spec.hexText (K a))) = toLower a := by
    have hl : a.length ≤ (Spec.hexText (K a)).length := by rw [← bytesToHex_eq_spec, bytesToHex_length]; omega
    generalize Spec.hexText (K a) = H at hl
    clear ht hby hlen ha hK
    induction a generalizing H with
    | nil => rfl
    | cons c cs ih =>
      cases H with
      | nil => simp at hl
      | cons d ds =>
        simp only [Spec.eip55, List.zipWith_cons_cons, toLower, List.map_cons, List.cons.injEq] at *
        refine ⟨?_, ih ds (by simpa using hl)⟩
        split
        · exact forall_byte (P := fun x => lowerByte (Spec.upper x) = lowerByte x) lower_upper c
        · rfl
  rw [addHex, not_x_of_lower (hl.trans ha)]
  rfl

/-- For lower-case text the claim holds; missing: text with upper-case letters. -/
theorem C69_partial (b : Str) (hb : b.length = 20) :
    ∃ r, ethEncode keccakOf (Spec.hexText b) = .ok r ∧ IsChecksummed b r := by
  refine ⟨_, C69_any_case keccakOf _ b hb ?_ (by rw [(keccakOf_spec _).1]; omega), _, (keccakOf_spec _).2, rfl⟩
  rw [← toLower_eq_spec, ← bytesToHex_eq_spec, toLower_bytesToHex]

theorem bitsOf_inj {a b : Str} (h : bitsOf a = bitsOf b) : a = b := by
  have hl : a.length = b.length := by
    have := congrArg List.length h
    rw [bitsOf_length, bitsOf_length] at this; omega
  have hn : leNat a = leNat b := by
    apply Nat.eq_of_testBit_eq
    intro i
    rw [leNat_testBit, leNat_testBit, h]
  rw [← lePut_leNat a, ← lePut_leNat b, hl, hn]

/-- Twenty bytes aa written in upper case: the result keeps all letters in upper case. -/
theorem C69_claim_false : ¬ C69Claim := by
  intro hc
  obtain ⟨r, h1, d, h2, h3⟩ := hc (List.replicate 20 0xaa) (List.replicate 40 65) (by decide) (by decide)
  have hd : d = keccakOf (Spec.hexText (List.replicate 20 0xaa)) := bitsOf_inj (h2.trans (keccakOf_spec _).2.symm)
  have e1 : ethEncode keccakOf (List.replicate 40 65) = .ok (b!"0x" ++ List.replicate 40 65) := by kernel_rfl
  rw [e1] at h1
  cases h1
  have e2 : (b!"0x" ++ Spec.eip55 (Spec.hexText (List.replicate 20 0xaa))
      (Spec.hexText (keccakOf (Spec.hexText (List.replicate 20 0xaa))))).getD 2 0 = 97 := by kernel_rfl
  rw [← hd, ← h3] at e2
  revert e2
  decide

/-- The example of the standard. -/
example : ethEncode keccakOf b!"5aaeb6053f3e94c9b9a09f33669435e7ef1beaed" = .ok b!"0x5aAeb6053F3E94C9b9A09f33669435E7Ef1BeAed" := by
  kernel_rfl

example : Resolves (baseEnv { dummyExt with keccak := keccakOf }) [] 0 b!"EthereumAddress" .ethereumAddress [] := by
  unfold Resolves; kernel_rfl

end ScaleGo
