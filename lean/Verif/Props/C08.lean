import Verif.Lemmas.Uint128

/-! # C08: 128-bit unsigned arithmetic is exact modulo 2^128

`val u` is the number `hi * 2^64 + lo`; all claims are about plain natural numbers. -/

namespace ScaleGo
open U128

/-- `val` is a bijection between pairs of words and the numbers below 2^128. -/
theorem C08_val : (∀ u : U128, u.val < 2 ^ 128) ∧ (∀ u v : U128, u.val = v.val → u = v)
    ∧ (∀ n, n < 2 ^ 128 → ∃ u : U128, u.val = n) := by
  refine ⟨val_lt, fun u v => val_inj, fun n h => ?_⟩
  obtain ⟨u, _, h2⟩ := fromBig_spec n h
  exact ⟨u, h2⟩

theorem C08_add (u v : U128) : (u.add v).val = (u.val + v.val) % 2 ^ 128 := val_add u v
theorem C08_add64 (u : U128) (v : BitVec 64) : (u.addW v).val = (u.val + v.toNat) % 2 ^ 128 := val_addW u v
/-- Subtraction: the unique number below 2^128 that gives `u` when `v` is added modulo 2^128. -/
theorem C08_sub (u v : U128) : ((u.sub v).val + v.val) % 2 ^ 128 = u.val := by
  have h1 := val_lt u
  have h2 := val_lt v
  rw [val_sub]; omega
theorem C08_sub64 (u : U128) (v : BitVec 64) : ((u.subW v).val + v.toNat) % 2 ^ 128 = u.val := by
  have h1 := val_lt u
  have h2 := v.isLt
  rw [val_subW]; omega
theorem C08_mul (u v : U128) : (u.mul v).val = (u.val * v.val) % 2 ^ 128 := val_mul u v
theorem C08_mul64 (u : U128) (v : BitVec 64) : (u.mulW v).val = (u.val * v.toNat) % 2 ^ 128 := val_mulW u v
theorem C08_lsh (u : U128) (n : Nat) : (u.lsh n).val = (u.val * 2 ^ n) % 2 ^ 128 := val_lsh u n
theorem C08_rsh (u : U128) (n : Nat) : (u.rsh n).val = u.val / 2 ^ n := val_rsh u n
theorem C08_and (u v : U128) : (u.and v).val = u.val &&& v.val := val_and u v
theorem C08_or (u v : U128) : (u.or v).val = u.val ||| v.val := val_or u v
theorem C08_xor (u v : U128) : (u.xor v).val = u.val ^^^ v.val := val_xor u v
theorem C08_bitwise64 (u : U128) (v : BitVec 64) :
    (u.and64 v).val = u.val &&& v.toNat ∧ (u.or64 v).val = u.val ||| v.toNat ∧ (u.xor64 v).val = u.val ^^^ v.toNat := by
  refine ⟨?_, ?_, ?_⟩
  · rw [and64_eq, val_and, val_from64]
  · rw [or64_eq, val_or, val_from64]
  · rw [xor64_eq, val_xor, val_from64]
theorem C08_cmp (u v : U128) :
    (u.cmp v = -1 ↔ u.val < v.val) ∧ (u.cmp v = 0 ↔ u.val = v.val) ∧ (u.cmp v = 1 ↔ v.val < u.val) := by
  rw [cmp_spec]
  split
  · refine ⟨by simpa, by simp; omega, by simp; omega⟩
  · split
    · refine ⟨by simp; omega, by simpa, by simp; omega⟩
    · refine ⟨by simp; omega, by simp; omega, by simp; omega⟩
theorem C08_cmp64 (u : U128) (v : BitVec 64) :
    (u.cmp64 v = -1 ↔ u.val < v.toNat) ∧ (u.cmp64 v = 0 ↔ u.val = v.toNat) ∧ (u.cmp64 v = 1 ↔ v.toNat < u.val) := by
  rw [cmp64_spec]
  split
  · refine ⟨by simpa, by simp; omega, by simp; omega⟩
  · split
    · refine ⟨by simp; omega, by simpa, by simp; omega⟩
    · refine ⟨by simp; omega, by simp; omega, by simp; omega⟩
theorem C08_equals (u v : U128) : u.equals v = true ↔ u.val = v.val := by
  unfold equals
  rw [beq_iff_eq]
  exact ⟨fun h => h ▸ rfl, val_inj⟩
theorem C08_equals64 (u : U128) (v : BitVec 64) : u.equals64 v = true ↔ u.val = v.toNat := equals64_spec u v
theorem C08_isZero (u : U128) : u.isZero = true ↔ u.val = 0 := isZero_iff u

/-- Quotient and remainder by any non-zero 128-bit divisor. -/
theorem C08_quoRem (u v : U128) (hv : v.val ≠ 0) :
    ∃ q r, u.quoRem v = .ok (q, r) ∧ u.val = q.val * v.val + r.val ∧ r.val < v.val := by
  obtain ⟨q, r, h, hq, hr⟩ := quoRem_spec u v hv
  refine ⟨q, r, h, ?_, ?_⟩
  · rw [hq, hr]; exact (Nat.div_add_mod' _ _).symm
  · rw [hr]; exact Nat.mod_lt _ (Nat.pos_of_ne_zero hv)

/-- Quotient and remainder by any non-zero 64-bit divisor. -/
theorem C08_quoRem64 (u : U128) (v : BitVec 64) (hv : v.toNat ≠ 0) :
    ∃ q r, u.quoRem64 v = .ok (q, r) ∧ u.val = q.val * v.toNat + r.toNat ∧ r.toNat < v.toNat := by
  obtain ⟨q, r, h, hq, hr⟩ := quoRem64_spec u v hv
  refine ⟨q, r, h, ?_, ?_⟩
  · rw [hq, hr]; exact (Nat.div_add_mod' _ _).symm
  · rw [hr]; exact Nat.mod_lt _ (Nat.pos_of_ne_zero hv)

theorem C08_div (u v : U128) (hv : v.val ≠ 0) : ∃ q, u.div v = .ok q ∧ q.val = u.val / v.val := by
  obtain ⟨q, r, h, hq, _⟩ := quoRem_spec u v hv
  exact ⟨q, by rw [U128.div, h]; rfl, hq⟩
theorem C08_div64 (u : U128) (v : BitVec 64) (hv : v.toNat ≠ 0) : ∃ q, u.divW v = .ok q ∧ q.val = u.val / v.toNat := by
  obtain ⟨q, r, h, hq, _⟩ := quoRem64_spec u v hv
  exact ⟨q, by rw [divW, h]; rfl, hq⟩

/-- Division by zero panics. -/
theorem C08_div_zero (u : U128) : u.quoRem zero = .panic ∧ u.quoRem64 0 = .panic := ⟨quoRem_zero u, quoRem64_zero u⟩

/-- Bytes and big integers: little-endian 16 bytes; out-of-range big integers panic. -/
theorem C08_bytes (u : U128) : u.putBytes.length = 16 ∧ leNat u.putBytes = u.val ∧ fromBytes u.putBytes = .ok u := by
  have h : leNat u.putBytes = u.val := by
    rw [putBytes_eq]
    exact leNat_lePut_of_lt (lt_of_lt_of_eq (val_lt u) (by decide))
  have hl : u.putBytes.length = 16 := by rw [putBytes_eq]; simp
  obtain ⟨w, h1, h2⟩ := fromBytes_spec u.putBytes hl
  exact ⟨hl, h, by rw [h1, val_inj (h2.trans h)]⟩
theorem C08_big (u : U128) : u.big = u.val ∧ fromBig u.big = .ok u := by
  have h : u.big = u.val := big_eq u
  obtain ⟨w, h1, h2⟩ := fromBig_spec u.val (val_lt u)
  exact ⟨h, by rw [h, h1, val_inj h2]⟩
theorem C08_big_range (i : Int) : (∃ u, fromBig i = .ok u ∧ (u.val : Int) = i) ∨ ((i < 0 ∨ 2 ^ 128 ≤ i) ∧ fromBig i = .panic) := by
  by_cases h : i < 0 ∨ 2 ^ 128 ≤ i
  · exact Or.inr ⟨h, fromBig_panic i h⟩
  · left
    obtain ⟨n, rfl⟩ : ∃ n : Nat, i = n := ⟨i.toNat, by omega⟩
    obtain ⟨u, h1, h2⟩ := fromBig_spec n (by omega)
    exact ⟨u, h1, by rw [h2]⟩

-- a non-trivial division through the trial-quotient branch, with a correction of the quotient
example : (⟨0, 1⟩ : U128).val ≠ 0 := by decide
example : (⟨5, 7⟩ : U128).quoRem ⟨3, 2⟩ = .ok (⟨3, 0⟩, ⟨18446744073709551612, 0⟩) := by decide +kernel
example : (⟨0, 0⟩ : U128).sub ⟨1, 0⟩ = ⟨18446744073709551615, 18446744073709551615⟩ := by decide +kernel

end ScaleGo
