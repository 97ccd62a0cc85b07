import Verif.Lemmas.EthMath

/-!
# C72: byte forms of big integers
-/

namespace ScaleGo

open EthMath

/-- At least `n` bytes, most significant first: all of the absolute value, padded with zeros. -/
theorem C72_padded (x : Int) (n : Int) : ∃ k : Nat, n ≤ k ∧ x.natAbs < 256 ^ k ∧
    paddedBigBytes x n = (Spec.leBytes k x.natAbs).reverse ∧ (n < (k : Int) → k = 0 ∨ 256 ^ (k - 1) ≤ x.natAbs) := by
  have hbl : bitLen x.natAbs ≤ 8 * byteLen x.natAbs ∧ byteLen x.natAbs ≤ bitLen x.natAbs / 8 + 1 ∧
      bitLen x.natAbs / 8 ≤ byteLen x.natAbs := by
    unfold bitLen byteLen
    split <;> omega
  obtain ⟨h1, h2⟩ := byteLen_spec x.natAbs
  unfold paddedBigBytes
  split
  · next h =>
    refine ⟨byteLen x.natAbs, by omega, h1, ?_, fun _ => ?_⟩
    · rw [beMin, lePut_eq_spec]
    · by_cases h0 : x.natAbs = 0
      · left; simp [byteLen, h0]
      · exact Or.inr (h2 h0)
  · next h =>
    refine ⟨n.toNat, by omega, ?_, ?_, fun h' => by omega⟩
    · refine Nat.lt_of_lt_of_le h1 (Nat.pow_le_pow_right (by norm_num) (by omega))
    · rw [readBits_eq, lePut_eq_spec]

/-- Writing into a zeroed buffer that is too short keeps the low bytes. -/
theorem C72_read_bits (x : Int) (n : Nat) : readBits x (List.replicate n 0) = (Spec.leBytes n x.natAbs).reverse := by
  rw [readBits_eq, lePut_eq_spec]

/-- Byte `n` of the big-endian form of `padlength` bytes, 0 beyond its end. -/
theorem C72_byte (x : Int) (padlength n : Nat) :
    byte x padlength n = ((Spec.leBytes padlength x.natAbs).reverse).getD n 0 := by
  unfold byte
  split
  · next h => rw [List.getD_eq_default]; simp [Spec.leBytes]; omega
  · next h =>
    have e : ((padlength : Int) - 1 - n).toNat = padlength - 1 - n := by omega
    rw [byteAt_eq, e, List.getD_eq_getElem _ _ (by simp [Spec.leBytes]; omega)]
    simp [Spec.leBytes, List.getElem_reverse]

/-- The 32 bytes of a number modulo 2^256, negative ones in two's complement. -/
theorem C72_u256_bytes (x : Int) : u256Bytes x = (Spec.leBytes 32 (x % 2 ^ 256).toNat).reverse := by
  have h0 : 0 ≤ x % 2 ^ 256 := Int.emod_nonneg _ (by norm_num)
  have hlt : x % 2 ^ 256 < 2 ^ 256 := Int.emod_lt_of_pos _ (by decide)
  obtain ⟨k, h1, _, h3, h4⟩ := C72_padded (u256 x) 32
  have hk : k = 32 := by
    by_contra hne
    rcases h4 (by omega) with h | h
    · omega
    · have : (256 : Nat) ^ 32 ≤ 256 ^ (k - 1) := Nat.pow_le_pow_right (by norm_num) (by omega)
      have e : (256 : Nat) ^ 32 = 2 ^ 256 := by norm_num
      rw [e] at this
      unfold u256 at h
      omega
  unfold u256Bytes
  rw [h3, hk]
  unfold u256
  congr 2
  omega

/-- The signed number with these 256 bits. -/
theorem C72_s256 (n : Nat) : s256 n = Spec.twos 256 n := by
  unfold s256 Spec.twos
  split <;> split <;> omega

/-- Truncating and reading back gives every number in the signed 256-bit range. -/
theorem C72_signed_round_trip (x : Int) (h : Spec.SignedRange 256 x) : s256 (u256 x) = x := by
  unfold Spec.SignedRange at h
  unfold s256 u256
  norm_num at h ⊢
  split <;> omega

example : u256Bytes (-2) = List.replicate 31 255 ++ [254] ∧ byte 5 32 31 = 5 ∧ byte 0x1234 2 0 = 0x12 ∧
    paddedBigBytes 0x12345 2 = [1, 0x23, 0x45] ∧ s256 (2 ^ 256 - 1) = -1 ∧ Spec.SignedRange 256 (-(2 ^ 255)) := by
  refine ⟨?_, ?_, ?_, ?_, ?_, ?_⟩ <;> first | decide +kernel | (unfold Spec.SignedRange; omega)

end ScaleGo
