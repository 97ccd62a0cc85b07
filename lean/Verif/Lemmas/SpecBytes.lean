import Verif.Spec.Bytes
import Verif.Lemmas.Bytes
import Verif.Lemmas.Hex

/-! # The model's byte helpers agree with the byte-level specification -/

namespace ScaleGo

theorem lePut_eq_spec (w v : Nat) : lePut w v = Spec.leBytes w v := by
  induction w generalizing v with
  | zero => rfl
  | succ n ih =>
    rw [lePut, ih, Spec.leBytes, Spec.leBytes, List.range_succ_eq_map]
    simp only [List.map_cons, List.map_map, Nat.pow_zero, Nat.div_one]
    congr 1
    apply List.map_congr_left
    intro i _
    simp only [Function.comp, Nat.succ_eq_add_one, Nat.pow_succ]
    rw [Nat.div_div_eq_div_mul, Nat.mul_comm 256]

theorem hexDigit_eq_spec : ∀ n : Fin 16, hexDigit n.val = Spec.hexChars.getD n.val 0 := by decide +kernel

theorem bytesToHex_eq_spec (b : Str) : bytesToHex b = Spec.hexText b := by
  induction b with
  | nil => rfl
  | cons x xs ih =>
    have hx := x.toNat_lt
    have h1 := hexDigit_eq_spec ⟨x.toNat / 16, by omega⟩
    have h2 := hexDigit_eq_spec ⟨x.toNat % 16, by omega⟩
    simp only at h1 h2
    rw [bytesToHex, ih, h1, h2]
    rfl

theorem toLower_eq_spec (s : Str) : toLower s = Spec.asciiLower s := by
  unfold toLower Spec.asciiLower
  apply List.map_congr_left
  intro b _
  exact forall_byte (P := fun b => lowerByte b = if 65 ≤ b.toNat ∧ b.toNat ≤ 90 then b + 32 else b)
    (by decide +kernel) b

theorem isHexChar_unhex (c : UInt8) : Spec.IsHexChar c ↔ isHexByte c = true := by
  have : ∀ n : Fin 256, decide ((48 ≤ (UInt8.ofNat n.val).toNat ∧ (UInt8.ofNat n.val).toNat ≤ 57) ∨ (97 ≤ (UInt8.ofNat n.val).toNat ∧ (UInt8.ofNat n.val).toNat ≤ 102) ∨ (65 ≤ (UInt8.ofNat n.val).toNat ∧ (UInt8.ofNat n.val).toNat ≤ 70))
      = isHexByte (UInt8.ofNat n.val) := by decide +kernel
  have h := this ⟨c.toNat, c.toNat_lt⟩
  simp only [UInt8.ofNat_toNat] at h
  rw [Spec.IsHexChar, ← h, decide_eq_true_iff]

theorem natToDec_isNumeral (n : Nat) : Spec.IsNumeral (natToDec n) n := by
  refine ⟨natToDec_ne_nil n, ?_, ?_, decFold_natToDec n⟩
  · intro c hc
    have := List.all_eq_true.mp (natToDec_digits n) c hc
    simpa [isDigit] using this
  · intro h
    by_cases h0 : n = 0
    · subst h0; rfl
    · exact absurd h (natToDec_head n h0)

/-- A numeral determines its number. -/
theorem isNumeral_inj {s : Str} {m n : Nat} (h1 : Spec.IsNumeral s m) (h2 : Spec.IsNumeral s n) : m = n :=
  h1.2.2.2.symm.trans h2.2.2.2

end ScaleGo
