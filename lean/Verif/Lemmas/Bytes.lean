import Verif.Model.Tools
import Verif.Lemmas.Hex

/-! # Lemmas about little/big-endian numbers, reversal and decimal numerals -/

namespace ScaleGo

@[simp] theorem lePut_length (n v : Nat) : (lePut n v).length = n := by
  induction n generalizing v with
  | zero => rfl
  | succ n ih => simp [lePut, ih]

theorem leNat_lePut (n v : Nat) : leNat (lePut n v) = v % 256 ^ n := by
  induction n generalizing v with
  | zero => simp [lePut, leNat, Nat.mod_one]
  | succ n ih =>
    have h0 : (UInt8.ofNat (v % 256)).toNat = v % 256 := by
      rw [UInt8.toNat_ofNat']; exact Nat.mod_eq_of_lt (Nat.mod_lt _ (by decide))
    simp only [lePut, leNat, ih, h0, Nat.pow_succ]
    rw [Nat.mul_comm (256 ^ n) 256, Nat.mod_mul]

theorem leNat_lePut_of_lt {n v : Nat} (h : v < 256 ^ n) : leNat (lePut n v) = v := by
  rw [leNat_lePut, Nat.mod_eq_of_lt h]

theorem leNat_lt (b : Str) : leNat b < 256 ^ b.length := by
  induction b with
  | nil => simp [leNat]
  | cons x xs ih =>
    have := x.toNat_lt
    simp only [leNat, List.length_cons, Nat.pow_succ]
    omega

theorem lePut_leNat (b : Str) : lePut b.length (leNat b) = b := by
  induction b with
  | nil => rfl
  | cons x xs ih =>
    have hx : x.toNat < 256 := x.toNat_lt
    simp only [leNat, List.length_cons, lePut]
    rw [show (x.toNat + 256 * leNat xs) % 256 = x.toNat by omega,
      show (x.toNat + 256 * leNat xs) / 256 = leNat xs by omega, ih]
    simp

theorem leNat_append (a b : Str) : leNat (a ++ b) = leNat a + 256 ^ a.length * leNat b := by
  induction a with
  | nil => simp [leNat]
  | cons x xs ih =>
    simp only [List.cons_append, leNat, ih, List.length_cons, Nat.pow_succ, Nat.mul_add]
    rw [← Nat.mul_assoc, Nat.mul_comm 256 (256 ^ xs.length)]
    omega

theorem leNat_replicate_zero (n : Nat) : leNat (List.replicate n 0) = 0 := by
  induction n with
  | zero => rfl
  | succ n ih => simp [List.replicate_succ, leNat, ih]

theorem leNat_pad (b : Str) (n : Nat) : leNat (b ++ List.replicate n 0) = leNat b := by
  simp [leNat_append, leNat_replicate_zero]

theorem beNat_append_singleton (a : Str) (x : UInt8) : beNat (a ++ [x]) = beNat a * 256 + x.toNat := by
  simp [beNat]

theorem beNat_reverse (b : Str) : beNat b.reverse = leNat b := by
  induction b with
  | nil => rfl
  | cons x xs ih => rw [List.reverse_cons, beNat_append_singleton, ih, leNat]; omega

theorem beNat_eq_leNat_reverse (b : Str) : beNat b = leNat b.reverse := by
  rw [← beNat_reverse, List.reverse_reverse]

/-! ## `ReverseBytes` -/

theorem reverseLoop_length (b : Str) (fuel i j : Nat) (a : Str) : (reverseLoop b fuel i j a).length = a.length := by
  induction fuel generalizing i j a with
  | zero => rfl
  | succ n ih =>
    simp only [reverseLoop]
    split
    · rw [ih]; simp
    · rfl

/-- What the loop has written at position `k`: the mirrored byte for every position between `i` and `j` except the middle. -/
theorem reverseLoop_getD (b : Str) (fuel i j : Nat) (a : Str) (hij : i + j + 1 = b.length)
    (hl : a.length = b.length) (hf : j + 1 ≤ i + 2 * fuel) (k : Nat) :
    (reverseLoop b fuel i j a).getD k 0 =
      if i ≤ k ∧ k ≤ j ∧ 2 * k + 1 ≠ b.length then b.getD (b.length - 1 - k) 0 else a.getD k 0 := by
  induction fuel generalizing i j a with
  | zero =>
    have : ¬ (i ≤ k ∧ k ≤ j ∧ 2 * k + 1 ≠ b.length) := by omega
    simp only [reverseLoop]
    rw [if_neg this]
  | succ n ih =>
    simp only [reverseLoop]
    by_cases h : i < j
    · rw [if_pos h, ih (i + 1) (j - 1) _ (by omega) (by simp [hl]) (by omega)]
      by_cases h1 : i + 1 ≤ k ∧ k ≤ j - 1 ∧ 2 * k + 1 ≠ b.length
      · rw [if_pos h1, if_pos (by omega)]
      · rw [if_neg h1]
        by_cases hki : k = i
        · subst hki
          rw [if_pos (by omega)]
          have : b.length - 1 - k = j := by omega
          rw [this]
          simp only [List.getD_eq_getElem?_getD]
          rw [List.getElem?_set_ne (by omega), List.getElem?_set_self (by omega)]
          simp
        · by_cases hkj : k = j
          · subst hkj
            rw [if_pos (by omega)]
            have : b.length - 1 - k = i := by omega
            rw [this]
            simp only [List.getD_eq_getElem?_getD]
            rw [List.getElem?_set_self (by simp; omega)]
            simp
          · rw [if_neg (by omega)]
            simp only [List.getD_eq_getElem?_getD]
            rw [List.getElem?_set_ne (by omega), List.getElem?_set_ne (by omega)]
    · rw [if_neg h, if_neg (by omega)]

@[simp] theorem reverseBytes_length (b : Str) : (reverseBytes b).length = b.length := by
  simp [reverseBytes, reverseLoop_length]

theorem reverseBytes_getD (b : Str) (k : Nat) (hk : k < b.length) :
    (reverseBytes b).getD k 0 = if 2 * k + 1 = b.length then 0 else b.getD (b.length - 1 - k) 0 := by
  unfold reverseBytes
  rw [reverseLoop_getD b _ _ _ _ (by omega) (by simp) (by omega)]
  by_cases h : 2 * k + 1 = b.length
  · rw [if_neg (by omega), if_pos h]
    simp [List.getD_eq_getElem?_getD, List.getElem?_replicate]
    split <;> rfl
  · rw [if_pos (by omega), if_neg h]

theorem reverseBytes_even (b : Str) (h : b.length % 2 = 0) : reverseBytes b = b.reverse := by
  apply List.ext_getElem (by simp)
  intro k h1 h2
  have hk : k < b.length := by simpa using h1
  have := reverseBytes_getD b k hk
  rw [if_neg (by omega)] at this
  simp only [List.getD_eq_getElem?_getD, List.getElem?_eq_getElem h1,
    List.getElem?_eq_getElem (show b.length - 1 - k < b.length by omega)] at this
  simp only [Option.getD_some] at this
  rw [this, List.getElem_reverse]

/-! ## In-place `Reverse` -/

theorem reverseInPlace_getD (b : Str) (fuel i j : Nat) (a : Str) (hij : i + j + 1 = b.length)
    (hl : a.length = b.length) (hf : j + 1 ≤ i + 2 * fuel)
    (hin : ∀ k, a.getD k 0 = if i ≤ k ∧ k ≤ j then b.getD k 0 else if k < b.length then b.getD (b.length - 1 - k) 0 else 0)
    (k : Nat) (hk : k < b.length) :
    (reverseInPlace a fuel i j).getD k 0 = b.getD (b.length - 1 - k) 0 ∧ (reverseInPlace a fuel i j).length = b.length := by
  induction fuel generalizing i j a with
  | zero =>
    simp only [reverseInPlace]
    refine ⟨?_, hl⟩
    rw [hin k, if_neg (by omega), if_pos hk]
  | succ n ih =>
    simp only [reverseInPlace]
    by_cases h : i < j
    · rw [if_pos h]
      apply ih (i + 1) (j - 1) _ (by omega) (by simp [hl]) (by omega)
      intro k'
      have hai : a.getD i 0 = b.getD i 0 := by rw [hin i, if_pos (by omega)]
      have haj : a.getD j 0 = b.getD j 0 := by rw [hin j, if_pos (by omega)]
      by_cases hki : k' = i
      · subst hki
        have e : b.length - 1 - k' = j := by omega
        rw [if_neg (by omega), if_pos (by omega), e, ← haj]
        simp only [List.getD_eq_getElem?_getD]
        rw [List.getElem?_set_ne (by omega), List.getElem?_set_self (by omega)]
        rfl
      · by_cases hkj : k' = j
        · subst hkj
          have e : b.length - 1 - k' = i := by omega
          rw [if_neg (by omega), if_pos (by omega), e, ← hai]
          simp only [List.getD_eq_getElem?_getD]
          rw [List.getElem?_set_self (by simp; omega)]
          rfl
        · have e : ((a.set i (a.getD j 0)).set j (a.getD i 0)).getD k' 0 = a.getD k' 0 := by
            simp only [List.getD_eq_getElem?_getD]
            rw [List.getElem?_set_ne (by omega), List.getElem?_set_ne (by omega)]
          rw [e, hin k']
          by_cases h1 : i ≤ k' ∧ k' ≤ j
          · rw [if_pos h1, if_pos (by omega)]
          · rw [if_neg h1, if_neg (show ¬ (i + 1 ≤ k' ∧ k' ≤ j - 1) by omega)]
    · rw [if_neg h]
      refine ⟨?_, hl⟩
      rw [hin k]
      by_cases h1 : i ≤ k ∧ k ≤ j
      · rw [if_pos h1]
        have : b.length - 1 - k = k := by omega
        rw [this]
      · rw [if_neg h1, if_pos hk]

theorem reverseSlice_eq (b : Str) : reverseSlice b = b.reverse := by
  by_cases hb : b = []
  · subst hb; rfl
  · have hpos : 0 < b.length := List.length_pos_iff.mpr hb
    have key := reverseInPlace_getD b b.length 0 (b.length - 1) b (by omega) rfl (by omega)
      (by
        intro k
        by_cases h : k < b.length
        · rw [if_pos (by omega)]
        · rw [if_neg (by omega), if_neg h]
          simp [List.getD_eq_getElem?_getD, List.getElem?_eq_none (show b.length ≤ k by omega)])
    have hlen : (reverseSlice b).length = b.length := (key 0 hpos).2
    apply List.ext_getElem (by simp [hlen])
    intro k h1 h2
    have hk : k < b.length := by omega
    have := (key k hk).1
    change (reverseSlice b).getD k 0 = _ at this
    simp only [List.getD_eq_getElem?_getD, List.getElem?_eq_getElem h1,
      List.getElem?_eq_getElem (show b.length - 1 - k < b.length by omega)] at this
    simp only [Option.getD_some] at this
    rw [this, List.getElem_reverse]

/-! ## Decimal numerals -/

theorem digitByte_toNat {d : Nat} (h : d < 10) : (digitByte d).toNat = 48 + d := by
  simp [digitByte, UInt8.toNat_ofNat']; omega

theorem isDigit_digitByte {d : Nat} (h : d < 10) : isDigit (digitByte d) = true := by
  simp [isDigit, digitByte_toNat h]; omega

theorem decAux_eq_append (fuel n : Nat) (acc : Str) : decAux fuel n acc = decAux fuel n [] ++ acc := by
  induction fuel generalizing n acc with
  | zero => rfl
  | succ k ih =>
    simp only [decAux]
    split
    · rfl
    · rw [ih (n / 10) (digitByte (n % 10) :: acc), ih (n / 10) [digitByte (n % 10)]]
      simp

/-- Enough fuel: more does not change the digits. -/
theorem decAux_fuel (n : Nat) : ∀ f g, n < f → n < g → decAux f n [] = decAux g n [] := by
  induction n using Nat.strongRecOn with
  | _ n ih =>
    intro f g hf hg
    cases f with
    | zero => omega
    | succ f =>
      cases g with
      | zero => omega
      | succ g =>
        simp only [decAux]
        split
        · rfl
        · rw [decAux_eq_append f, decAux_eq_append g, ih (n / 10) (by omega) f g (by omega) (by omega)]

theorem natToDec_lt {n : Nat} (h : n < 10) : natToDec n = [digitByte n] := by
  simp [natToDec, decAux, h]

theorem natToDec_ge {n : Nat} (h : 10 ≤ n) : natToDec n = natToDec (n / 10) ++ [digitByte (n % 10)] := by
  unfold natToDec
  rw [decAux, if_neg (by omega), decAux_eq_append, decAux_fuel (n / 10) n (n / 10 + 1) (by omega) (by omega)]

theorem natToDec_ne_nil (n : Nat) : natToDec n ≠ [] := by
  by_cases h : n < 10
  · simp [natToDec_lt h]
  · simp [natToDec_ge (by omega : 10 ≤ n)]

theorem natToDec_digits (n : Nat) : (natToDec n).all isDigit = true := by
  induction n using Nat.strongRecOn with
  | _ n ih =>
    by_cases h : n < 10
    · simp [natToDec_lt h, isDigit_digitByte h]
    · rw [natToDec_ge (by omega : 10 ≤ n), List.all_append, ih (n / 10) (by omega)]
      simp [isDigit_digitByte (show n % 10 < 10 by omega)]

theorem decFold_natToDec (n : Nat) : (natToDec n).foldl (fun acc b => acc * 10 + (b.toNat - 48)) 0 = n := by
  induction n using Nat.strongRecOn with
  | _ n ih =>
    by_cases h : n < 10
    · simp [natToDec_lt h, digitByte_toNat h]
    · rw [natToDec_ge (by omega : 10 ≤ n), List.foldl_append, ih (n / 10) (by omega)]
      simp [digitByte_toNat (show n % 10 < 10 by omega)]
      omega

@[simp] theorem decToNat?_natToDec (n : Nat) : decToNat? (natToDec n) = some n := by
  unfold decToNat?
  rw [if_neg (by simp [natToDec_digits, natToDec_ne_nil]), decFold_natToDec]

theorem natToDec_injective {m n : Nat} (h : natToDec m = natToDec n) : m = n := by
  have := decToNat?_natToDec m
  rw [h, decToNat?_natToDec] at this
  simpa using this.symm

/-- No leading zero except for the numeral of 0. -/
theorem natToDec_head (n : Nat) (hn : n ≠ 0) : (natToDec n).head? ≠ some 48 := by
  induction n using Nat.strongRecOn with
  | _ n ih =>
    by_cases h : n < 10
    · simp only [natToDec_lt h, List.head?_cons]
      intro hc
      have := congrArg (fun o => (o.map UInt8.toNat)) hc
      simp [digitByte_toNat h] at this
      omega
    · rw [natToDec_ge (by omega : 10 ≤ n)]
      have := ih (n / 10) (by omega) (by omega)
      cases hd : natToDec (n / 10) with
      | nil => exact absurd hd (natToDec_ne_nil _)
      | cons d rest => rw [hd] at this; simpa using this

theorem natToDec_head_digit (n : Nat) : ∃ d rest, natToDec n = d :: rest ∧ isDigit d = true := by
  have h1 := natToDec_ne_nil n
  have h2 := natToDec_digits n
  cases h : natToDec n with
  | nil => exact absurd h h1
  | cons d rest =>
    rw [h] at h2
    simp at h2
    exact ⟨d, rest, rfl, h2.1⟩

@[simp] theorem decToInt?_natToDec (n : Nat) : decToInt? (natToDec n) = some (n : Int) := by
  obtain ⟨d, rest, he, hd⟩ := natToDec_head_digit n
  have hp := decToNat?_natToDec n
  rw [he] at hp ⊢
  have h43 : d ≠ 43 := by intro h; subst h; simp [isDigit] at hd
  have h45 : d ≠ 45 := by intro h; subst h; simp [isDigit] at hd
  unfold decToInt?
  split
  · simp_all
  · simp_all
  · simp_all
  · simp [hp]

end ScaleGo
