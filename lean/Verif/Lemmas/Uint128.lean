import Verif.Model.Uint128
import Verif.Lemmas.Bytes
import Mathlib.Tactic.Ring

/-! # Lemmas about the 128-bit arithmetic -/

namespace ScaleGo
namespace U128

theorem val_lt (u : U128) : u.val < 2 ^ 128 := by
  have h1 := u.lo.isLt
  have h2 := u.hi.isLt
  unfold val
  omega

theorem val_inj {u v : U128} (h : u.val = v.val) : u = v := by
  have h1 := u.lo.isLt
  have h2 := v.lo.isLt
  cases u with | mk a b => cases v with | mk c d =>
  simp only [val] at h
  have hb : b = d := by apply BitVec.eq_of_toNat_eq; simp at *; omega
  have ha : a = c := by apply BitVec.eq_of_toNat_eq; simp at *; omega
  rw [ha, hb]

theorem val_add (u v : U128) : (u.add v).val = (u.val + v.val) % 2 ^ 128 := by
  have h1 := u.lo.isLt
  have h2 := v.lo.isLt
  have h3 := u.hi.isLt
  have h4 := v.hi.isLt
  simp only [add, add64, val, BitVec.toNat_ofNat, BitVec.ofNat_eq_ofNat]
  omega

theorem val_addW (u : U128) (v : BitVec 64) : (u.addW v).val = (u.val + v.toNat) % 2 ^ 128 := by
  have h1 := u.lo.isLt
  have h2 := v.isLt
  have h3 := u.hi.isLt
  simp only [addW, add64, val, BitVec.toNat_add, BitVec.toNat_ofNat, BitVec.ofNat_eq_ofNat]
  omega

theorem val_sub (u v : U128) : (u.sub v).val = (u.val + (2 ^ 128 - v.val)) % 2 ^ 128 := by
  have h1 := u.lo.isLt
  have h2 := v.lo.isLt
  have h3 := u.hi.isLt
  have h4 := v.hi.isLt
  simp only [sub, sub64, val, BitVec.toNat_sub]
  split <;> simp_all <;> omega

theorem val_subW (u : U128) (v : BitVec 64) : (u.subW v).val = (u.val + (2 ^ 128 - v.toNat)) % 2 ^ 128 := by
  have h1 := u.lo.isLt
  have h2 := v.isLt
  have h3 := u.hi.isLt
  simp only [subW, sub64, val, BitVec.toNat_sub]
  split <;> simp_all <;> omega

theorem val_mul (u v : U128) : (u.mul v).val = (u.val * v.val) % 2 ^ 128 := by
  have h1 := u.lo.isLt
  have h2 := v.lo.isLt
  have e : u.val * v.val = u.hi.toNat * v.hi.toNat * 2 ^ 128
      + (u.hi.toNat * v.lo.toNat + u.lo.toNat * v.hi.toNat) * 2 ^ 64 + u.lo.toNat * v.lo.toNat := by
    simp only [val]; ring
  have hA : u.lo.toNat * v.lo.toNat < 2 ^ 128 := by
    calc u.lo.toNat * v.lo.toNat < 2 ^ 64 * 2 ^ 64 := Nat.mul_lt_mul'' h1 h2
      _ = 2 ^ 128 := by norm_num
  rw [e]
  simp only [mul, mul64w, val, BitVec.toNat_add, BitVec.toNat_ofNat, BitVec.toNat_mul]
  generalize u.hi.toNat * v.hi.toNat = C
  generalize u.hi.toNat * v.lo.toNat = P
  generalize u.lo.toNat * v.hi.toNat = Q
  generalize u.lo.toNat * v.lo.toNat = A at *
  omega

theorem val_mulW (u : U128) (v : BitVec 64) : (u.mulW v).val = (u.val * v.toNat) % 2 ^ 128 := by
  have h1 := u.lo.isLt
  have h2 := v.isLt
  have e : u.val * v.toNat = (u.hi.toNat * v.toNat) * 2 ^ 64 + u.lo.toNat * v.toNat := by
    simp only [val]; ring
  have hA : u.lo.toNat * v.toNat < 2 ^ 128 := by
    calc u.lo.toNat * v.toNat < 2 ^ 64 * 2 ^ 64 := Nat.mul_lt_mul'' h1 h2
      _ = 2 ^ 128 := by norm_num
  rw [e]
  simp only [mulW, mul64w, val, BitVec.toNat_add, BitVec.toNat_ofNat, BitVec.toNat_mul]
  generalize u.hi.toNat * v.toNat = P
  generalize u.lo.toNat * v.toNat = A at *
  omega

theorem val_from64 (v : BitVec 64) : (from64 v).val = v.toNat := by simp [from64, val]

/-- The pair as one 128-bit vector. -/
theorem val_eq_append (u : U128) : u.val = (u.hi ++ u.lo).toNat := by
  rw [BitVec.toNat_append, ← Nat.shiftLeft_add_eq_or_of_lt u.lo.isLt, Nat.shiftLeft_eq]
  rfl

theorem append_and (a b c d : BitVec 64) : (a &&& b) ++ (c &&& d) = (a ++ c) &&& (b ++ d) := by
  apply BitVec.eq_of_getLsbD_eq
  intro i hi
  simp only [BitVec.getLsbD_append, BitVec.getLsbD_and]
  split <;> rfl

theorem append_or (a b c d : BitVec 64) : (a ||| b) ++ (c ||| d) = (a ++ c) ||| (b ++ d) := by
  apply BitVec.eq_of_getLsbD_eq
  intro i hi
  simp only [BitVec.getLsbD_append, BitVec.getLsbD_or]
  split <;> rfl

theorem append_xor (a b c d : BitVec 64) : (a ^^^ b) ++ (c ^^^ d) = (a ++ c) ^^^ (b ++ d) := by
  apply BitVec.eq_of_getLsbD_eq
  intro i hi
  simp only [BitVec.getLsbD_append, BitVec.getLsbD_xor]
  split <;> rfl

theorem val_and (u v : U128) : (u.and v).val = u.val &&& v.val := by
  rw [val_eq_append, val_eq_append u, val_eq_append v, ← BitVec.toNat_and, ← append_and]
  rfl

theorem val_or (u v : U128) : (u.or v).val = u.val ||| v.val := by
  rw [val_eq_append, val_eq_append u, val_eq_append v, ← BitVec.toNat_or, ← append_or]
  rfl

theorem val_xor (u v : U128) : (u.xor v).val = u.val ^^^ v.val := by
  rw [val_eq_append, val_eq_append u, val_eq_append v, ← BitVec.toNat_xor, ← append_xor]
  rfl

theorem and64_eq (u : U128) (v : BitVec 64) : u.and64 v = u.and (from64 v) := rfl
theorem or64_eq (u : U128) (v : BitVec 64) : u.or64 v = u.or (from64 v) := rfl
theorem xor64_eq (u : U128) (v : BitVec 64) : u.xor64 v = u.xor (from64 v) := rfl

theorem cmp_spec (u v : U128) :
    u.cmp v = if u.val < v.val then -1 else if u.val = v.val then 0 else 1 := by
  have h1 := u.lo.isLt
  have h2 := v.lo.isLt
  unfold cmp
  by_cases h : u = v
  · subst h; simp
  · have hne : u.val ≠ v.val := fun e => h (val_inj e)
    rw [if_neg h]
    by_cases hl : u.val < v.val
    · rw [if_pos hl, if_pos]
      simp only [val] at hl
      by_cases hh : u.hi.toNat < v.hi.toNat
      · exact Or.inl hh
      · right
        refine ⟨BitVec.eq_of_toNat_eq ?_, ?_⟩ <;> omega
    · rw [if_neg hl, if_neg hne, if_neg]
      simp only [val] at hl hne
      rintro (hh | ⟨hh, hh'⟩)
      · omega
      · rw [hh] at hl hne; omega

theorem cmp64_spec (u : U128) (v : BitVec 64) :
    u.cmp64 v = if u.val < v.toNat then -1 else if u.val = v.toNat then 0 else 1 := by
  have h1 := u.lo.isLt
  have h2 := v.isLt
  unfold cmp64 val
  by_cases h : u.hi.toNat > 0 ∨ u.lo.toNat > v.toNat
  · rw [if_pos h, if_neg (by omega), if_neg (by omega)]
  · rw [if_neg h]
    by_cases he : u.lo = v
    · rw [if_pos he]; subst he; rw [if_neg (by omega), if_pos (by omega)]
    · have hne : u.lo.toNat ≠ v.toNat := fun e => he (BitVec.eq_of_toNat_eq e)
      rw [if_neg he, if_pos (by omega)]

theorem equals64_spec (u : U128) (v : BitVec 64) : u.equals64 v = true ↔ u.val = v.toNat := by
  have h1 := u.lo.isLt
  have h2 := v.isLt
  have key : u.equals64 v = true ↔ u.lo = v ∧ u.hi = 0 := by
    unfold equals64
    rw [Bool.and_eq_true, beq_iff_eq, beq_iff_eq]
  rw [key]
  constructor
  · rintro ⟨a, b⟩
    have hb : u.hi.toNat = 0 := by rw [b]; rfl
    rw [val, hb, a]; omega
  · intro h
    unfold val at h
    refine ⟨BitVec.eq_of_toNat_eq (by omega), BitVec.eq_of_toNat_eq ?_⟩
    show u.hi.toNat = 0
    omega

theorem isZero_iff (u : U128) : u.isZero = true ↔ u.val = 0 := by
  unfold isZero
  rw [beq_iff_eq]
  constructor
  · intro h; subst h; rfl
  · intro h; exact val_inj (by rw [h]; rfl)

theorem or_disjoint (a b k : Nat) (hb : b < 2 ^ k) : (a * 2 ^ k) ||| b = a * 2 ^ k + b := by
  rw [← Nat.shiftLeft_eq, Nat.shiftLeft_add_eq_or_of_lt hb]

theorem val_lsh (u : U128) (n : Nat) : (u.lsh n).val = (u.val * 2 ^ n) % 2 ^ 128 := by
  have h1 := u.lo.isLt
  unfold lsh
  split
  · rename_i h
    obtain ⟨k, rfl⟩ : ∃ k, n = 64 + k := ⟨n - 64, by omega⟩
    simp only [val, BitVec.toNat_shiftLeft, Nat.shiftLeft_eq, show 64 + k - 64 = k by omega]
    simp only [BitVec.ofNat_eq_ofNat, BitVec.toNat_ofNat]
    rw [show (u.hi.toNat * 2 ^ 64 + u.lo.toNat) * 2 ^ (64 + k)
        = (u.lo.toNat * 2 ^ k) * 2 ^ 64 + (u.hi.toNat * 2 ^ k) * 2 ^ 128 by ring]
    generalize u.lo.toNat * 2 ^ k = A
    generalize u.hi.toNat * 2 ^ k = B
    omega
  · rename_i h
    obtain ⟨m, hm⟩ : ∃ m, 64 = n + m := ⟨64 - n, by omega⟩
    have hp : (2:Nat) ^ 64 = 2 ^ n * 2 ^ m := by rw [← Nat.pow_add, ← hm]
    simp only [val, BitVec.toNat_or, BitVec.toNat_shiftLeft, BitVec.toNat_ushiftRight, Nat.shiftLeft_eq,
      Nat.shiftRight_eq_div_pow, show 64 - n = m by omega]
    have hx : u.lo.toNat / 2 ^ m < 2 ^ n := by
      apply Nat.div_lt_of_lt_mul; rw [Nat.mul_comm, ← hp]; exact h1
    have hor : u.hi.toNat * 2 ^ n % 2 ^ 64 ||| u.lo.toNat / 2 ^ m
        = u.hi.toNat * 2 ^ n % 2 ^ 64 + u.lo.toNat / 2 ^ m := by
      have : u.hi.toNat * 2 ^ n % 2 ^ 64 = (u.hi.toNat % 2 ^ m) * 2 ^ n := by
        rw [hp, Nat.mul_comm (2 ^ n) (2 ^ m), Nat.mul_mod_mul_right]
      rw [this, or_disjoint _ _ _ hx]
    have hlo : u.lo.toNat * 2 ^ n = u.lo.toNat / 2 ^ m * 2 ^ 64 + u.lo.toNat * 2 ^ n % 2 ^ 64 := by
      have := Nat.div_add_mod (u.lo.toNat * 2 ^ n) (2 ^ 64)
      have hd : u.lo.toNat * 2 ^ n / 2 ^ 64 = u.lo.toNat / 2 ^ m := by
        rw [hp, Nat.mul_comm (2 ^ n) (2 ^ m), Nat.mul_div_mul_right _ _ (Nat.pos_of_ne_zero (by simp))]
      rw [hd] at this
      omega
    have hh : (u.hi.toNat * 2 ^ 64 + u.lo.toNat) * 2 ^ n
        = (u.hi.toNat * 2 ^ n) * 2 ^ 64 + u.lo.toNat * 2 ^ n := by ring
    rw [hor, hh]
    have hhi : u.hi.toNat * 2 ^ n % 2 ^ 64 + u.lo.toNat / 2 ^ m < 2 ^ 64 := by
      have : u.hi.toNat * 2 ^ n % 2 ^ 64 = (u.hi.toNat % 2 ^ m) * 2 ^ n := by
        rw [hp, Nat.mul_comm (2 ^ n) (2 ^ m), Nat.mul_mod_mul_right]
      rw [this, hp]
      have h3 : u.hi.toNat % 2 ^ m < 2 ^ m := Nat.mod_lt _ (Nat.pos_of_ne_zero (by simp))
      calc (u.hi.toNat % 2 ^ m) * 2 ^ n + u.lo.toNat / 2 ^ m
          < (u.hi.toNat % 2 ^ m) * 2 ^ n + 2 ^ n := by omega
        _ = (u.hi.toNat % 2 ^ m + 1) * 2 ^ n := by ring
        _ ≤ 2 ^ m * 2 ^ n := Nat.mul_le_mul_right _ h3
        _ = 2 ^ n * 2 ^ m := by ring
    generalize u.hi.toNat * 2 ^ n = A at *
    generalize u.lo.toNat * 2 ^ n = B at *
    generalize u.lo.toNat / 2 ^ m = D at *
    clear hp
    omega

theorem val_rsh (u : U128) (n : Nat) : (u.rsh n).val = u.val / 2 ^ n := by
  have h1 := u.lo.isLt
  have h2 := u.hi.isLt
  unfold rsh
  split
  · rename_i h
    obtain ⟨k, rfl⟩ : ∃ k, n = 64 + k := ⟨n - 64, by omega⟩
    simp only [val, BitVec.toNat_ushiftRight, Nat.shiftRight_eq_div_pow, show 64 + k - 64 = k by omega]
    simp only [BitVec.ofNat_eq_ofNat, BitVec.toNat_ofNat]
    rw [Nat.pow_add, ← Nat.div_div_eq_div_mul]
    have : (u.hi.toNat * 2 ^ 64 + u.lo.toNat) / 2 ^ 64 = u.hi.toNat := by omega
    rw [this]
    simp
  · rename_i h
    obtain ⟨m, hm⟩ : ∃ m, 64 = n + m := ⟨64 - n, by omega⟩
    have hp : (2:Nat) ^ 64 = 2 ^ n * 2 ^ m := by rw [← Nat.pow_add, ← hm]
    have hpos : 0 < (2:Nat) ^ n := Nat.pos_of_ne_zero (by simp)
    simp only [val, BitVec.toNat_or, BitVec.toNat_shiftLeft, BitVec.toNat_ushiftRight, Nat.shiftLeft_eq,
      Nat.shiftRight_eq_div_pow, show 64 - n = m by omega]
    have hx : u.lo.toNat / 2 ^ n < 2 ^ m := by
      apply Nat.div_lt_of_lt_mul; rw [← hp]; exact h1
    have hmod : u.hi.toNat * 2 ^ m % 2 ^ 64 = (u.hi.toNat % 2 ^ n) * 2 ^ m := by
      rw [hp, Nat.mul_mod_mul_right]
    rw [hmod, Nat.or_comm, or_disjoint _ _ _ hx]
    have e : u.hi.toNat * 2 ^ 64 + u.lo.toNat = (u.hi.toNat * 2 ^ m) * 2 ^ n + u.lo.toNat := by
      rw [hp]; ring
    rw [e, Nat.mul_comm _ (2 ^ n), Nat.mul_add_div hpos]
    have hd := Nat.div_add_mod u.hi.toNat (2 ^ n)
    calc u.hi.toNat / 2 ^ n * 2 ^ 64 + (u.hi.toNat % 2 ^ n * 2 ^ m + u.lo.toNat / 2 ^ n)
        = (2 ^ n * (u.hi.toNat / 2 ^ n) + u.hi.toNat % 2 ^ n) * 2 ^ m + u.lo.toNat / 2 ^ n := by
          rw [hp]; ring
      _ = u.hi.toNat * 2 ^ m + u.lo.toNat / 2 ^ n := by rw [hd]

theorem quoRem64_spec (u : U128) (v : BitVec 64) (hv : v.toNat ≠ 0) :
    ∃ q r, u.quoRem64 v = .ok (q, r) ∧ q.val = u.val / v.toNat ∧ r.toNat = u.val % v.toNat := by
  have h1 := u.lo.isLt
  have h2 := u.hi.isLt
  have hv2 := v.isLt
  unfold quoRem64
  split
  · rename_i h
    have hq : (u.hi.toNat * 2 ^ 64 + u.lo.toNat) / v.toNat < 2 ^ 64 := by
      apply Nat.div_lt_of_lt_mul
      have : (u.hi.toNat + 1) * 2 ^ 64 ≤ v.toNat * 2 ^ 64 := Nat.mul_le_mul_right _ h
      omega
    have hr : (u.hi.toNat * 2 ^ 64 + u.lo.toNat) % v.toNat < 2 ^ 64 :=
      lt_trans (Nat.mod_lt _ (by omega)) hv2
    refine ⟨_, _, by rw [div64w, if_neg (by omega)]; rfl, ?_, ?_⟩
    · simp only [val, BitVec.toNat_ofNat, BitVec.ofNat_eq_ofNat]; rw [Nat.mod_eq_of_lt hq]; simp
    · simp only [val, BitVec.toNat_ofNat]; rw [Nat.mod_eq_of_lt hr]
  · rename_i h
    have hr1 : u.hi.toNat % v.toNat < v.toNat := Nat.mod_lt _ (by omega)
    have e1 : (0#64).toNat * 2 ^ 64 + u.hi.toNat = u.hi.toNat := by simp
    have hq1 : u.hi.toNat / v.toNat < 2 ^ 64 := lt_of_le_of_lt (Nat.div_le_self _ _) h2
    have hr1' : u.hi.toNat % v.toNat < 2 ^ 64 := lt_trans hr1 hv2
    have er : (BitVec.ofNat 64 (u.hi.toNat % v.toNat)).toNat = u.hi.toNat % v.toNat := by
      rw [BitVec.toNat_ofNat, Nat.mod_eq_of_lt hr1']
    have hq2 : (u.hi.toNat % v.toNat * 2 ^ 64 + u.lo.toNat) / v.toNat < 2 ^ 64 := by
      apply Nat.div_lt_of_lt_mul
      have : (u.hi.toNat % v.toNat + 1) * 2 ^ 64 ≤ v.toNat * 2 ^ 64 := Nat.mul_le_mul_right _ hr1
      omega
    have hr2 : (u.hi.toNat % v.toNat * 2 ^ 64 + u.lo.toNat) % v.toNat < 2 ^ 64 :=
      lt_trans (Nat.mod_lt _ (by omega)) hv2
    have key : u.val = v.toNat * (u.hi.toNat / v.toNat * 2 ^ 64) + (u.hi.toNat % v.toNat * 2 ^ 64 + u.lo.toNat) := by
      have := Nat.div_add_mod u.hi.toNat v.toNat
      calc u.val = (v.toNat * (u.hi.toNat / v.toNat) + u.hi.toNat % v.toNat) * 2 ^ 64 + u.lo.toNat := by
            rw [this]; rfl
        _ = _ := by ring
    refine ⟨⟨BitVec.ofNat 64 ((u.hi.toNat % v.toNat * 2 ^ 64 + u.lo.toNat) / v.toNat), BitVec.ofNat 64 (u.hi.toNat / v.toNat)⟩,
      BitVec.ofNat 64 ((u.hi.toNat % v.toNat * 2 ^ 64 + u.lo.toNat) % v.toNat), ?_, ?_, ?_⟩
    · rw [div64w, if_neg (by simp; omega)]
      simp only [Res.ok_bind]
      rw [BitVec.ofNat_eq_ofNat, e1, div64w, if_neg (by rw [er]; omega)]
      simp only [Res.ok_bind, Res.pure_eq, er]
    · rw [key, Nat.mul_add_div (by omega)]
      simp only [val, BitVec.toNat_ofNat]
      rw [Nat.mod_eq_of_lt hq2, Nat.mod_eq_of_lt hq1]
    · rw [key, Nat.mul_add_mod]
      simp only [BitVec.toNat_ofNat]
      rw [Nat.mod_eq_of_lt hr2]

theorem quoRem64_zero (u : U128) : u.quoRem64 0 = .panic := by
  unfold quoRem64
  rw [if_neg (by simp)]
  simp [div64w]

/-- The trial quotient `u / (v - v % 2^k)` is the true quotient or one more. -/
theorem trial_quotient (u v k : Nat) (hu : u < 2 ^ 128) (hk : 1 ≤ k) (hv64 : 2 ^ 64 ≤ v) (hv : 2 ^ (63 + k) ≤ v) :
    u / v ≤ u / (v - v % 2 ^ k) ∧ u / (v - v % 2 ^ k) ≤ u / v + 1 := by
  have hpow : (2:Nat) ^ (63 + k) = 2 ^ 63 * 2 ^ k := Nat.pow_add 2 63 k
  have hkpos : 0 < (2:Nat) ^ k := Nat.pos_of_ne_zero (by simp)
  have he : v % 2 ^ k < 2 ^ k := Nat.mod_lt _ hkpos
  have hw : 2 ^ 63 * 2 ^ k ≤ v - v % 2 ^ k := by
    have h1 : 2 ^ 63 ≤ v / 2 ^ k := (Nat.le_div_iff_mul_le hkpos).mpr (hpow ▸ hv)
    have h2 := Nat.div_add_mod v (2 ^ k)
    have h3 : 2 ^ k * 2 ^ 63 ≤ 2 ^ k * (v / 2 ^ k) := Nat.mul_le_mul_left _ h1
    have : v - v % 2 ^ k = 2 ^ k * (v / 2 ^ k) := by omega
    rw [this, Nat.mul_comm]; exact h3
  have hwpos : 0 < v - v % 2 ^ k := lt_of_lt_of_le (Nat.mul_pos (by norm_num) hkpos) hw
  refine ⟨Nat.div_le_div_left (Nat.sub_le _ _) hwpos, ?_⟩
  -- let q = u / v; it is enough that u < (q + 2) * w
  have hlt : u < (u / v + 2) * (v - v % 2 ^ k) := by
    have hq1 : u < (u / v + 1) * v := by
      have := Nat.lt_mul_div_succ u (show 0 < v by omega)
      rw [Nat.mul_comm]; exact this
    -- (q+1) * e ≤ w suffices
    have hb : (u / v + 1) * (v % 2 ^ k) ≤ v - v % 2 ^ k := by
      have hqle : u / v ≤ u / (2 ^ 63 * 2 ^ k) := Nat.div_le_div_left (hpow ▸ hv) (Nat.mul_pos (by norm_num) hkpos)
      have hqb : u / v * (2 ^ 63 * 2 ^ k) < 2 ^ 128 :=
        lt_of_le_of_lt (le_trans (Nat.mul_le_mul_left _ (hpow ▸ hv)) (Nat.div_mul_le_self u v)) hu
      by_cases hk1 : k = 1
      · subst hk1
        have hq64 : u / v < 2 ^ 64 := by
          apply Nat.div_lt_of_lt_mul
          calc u < 2 ^ 128 := hu
            _ = 2 ^ 64 * 2 ^ 64 := by norm_num
            _ ≤ v * 2 ^ 64 := Nat.mul_le_mul_right _ hv64
        rcases Nat.mod_two_eq_zero_or_one v with h0 | h0
        · simp [h0]
        · simp only [pow_one, h0, mul_one]
          -- v odd, so v ≥ 2^64 + 1
          have : v ≠ 2 ^ 64 := by intro h; rw [h] at h0; norm_num at h0
          omega
      · -- k ≥ 2 : v ≥ 2^65
        have hk2 : 2 ≤ k := by omega
        have h4 : 2 ^ 2 ≤ (2:Nat) ^ k := Nat.pow_le_pow_right (by norm_num) hk2
        have hq63 : u / v + 1 ≤ 2 ^ 63 := by
          have : u / v < 2 ^ 63 := by
            apply Nat.div_lt_of_lt_mul
            calc u < 2 ^ 128 := hu
              _ = (2 ^ 63 * 2 ^ 2) * 2 ^ 63 := by norm_num
              _ ≤ (2 ^ 63 * 2 ^ k) * 2 ^ 63 := Nat.mul_le_mul_right _ (Nat.mul_le_mul_left _ h4)
              _ ≤ v * 2 ^ 63 := Nat.mul_le_mul_right _ (hpow ▸ hv)
          omega
        calc (u / v + 1) * (v % 2 ^ k) ≤ 2 ^ 63 * 2 ^ k := Nat.mul_le_mul hq63 (le_of_lt he)
          _ ≤ v - v % 2 ^ k := hw
    have hsplit : (u / v + 2) * (v - v % 2 ^ k) = (u / v + 1) * (v - v % 2 ^ k) + (v - v % 2 ^ k) := by ring
    have hv' : v = (v - v % 2 ^ k) + v % 2 ^ k := by
      have := Nat.mod_le v (2 ^ k); omega
    have hexp : (u / v + 1) * v = (u / v + 1) * (v - v % 2 ^ k) + (u / v + 1) * (v % 2 ^ k) := by
      rw [← Nat.mul_add]; rw [← hv']
    omega
  have := Nat.div_lt_of_lt_mul (show u < (v - v % 2 ^ k) * (u / v + 2) by rw [Nat.mul_comm]; exact hlt)
  omega

/-- One conditional subtraction repairs a quotient that is at most one too small. -/
theorem correct_step (u v t : Nat) (hv : 0 < v) (h1 : t ≤ u / v) (h2 : u / v ≤ t + 1) :
    v * t ≤ u ∧ (u - v * t < v → t = u / v ∧ u - v * t = u % v)
      ∧ (¬ u - v * t < v → t + 1 = u / v ∧ u - v * t - v = u % v) := by
  have hd := Nat.div_add_mod u v
  have hm := Nat.mod_lt u hv
  rcases Nat.lt_or_ge t (u / v) with hlt | hge
  · have e : u / v = t + 1 := by omega
    rw [e, Nat.mul_add, Nat.mul_one] at hd
    rw [e]
    generalize v * t = m at *
    generalize u % v = r at *
    refine ⟨by omega, fun h => by omega, fun _ => ⟨rfl, by omega⟩⟩
  · have e : u / v = t := by omega
    rw [e] at hd ⊢
    generalize v * t = m at *
    generalize u % v = r at *
    refine ⟨by omega, fun _ => ⟨rfl, by omega⟩, fun h => by omega⟩

theorem toNat_pred (x : BitVec 64) (h : x.toNat ≠ 0) : (x - 1).toNat = x.toNat - 1 := by
  have := x.isLt
  rw [BitVec.toNat_sub]
  have e : (1 : BitVec 64).toNat = 1 := rfl
  rw [e]
  omega

theorem log2_bounds {x : Nat} (h : x ≠ 0) : 2 ^ x.log2 ≤ x ∧ x < 2 ^ (x.log2 + 1) :=
  ⟨Nat.log2_self_le h, Nat.lt_log2_self⟩

theorem toNat_ne_zero {x : BitVec 64} (h : ¬ x = 0) : x.toNat ≠ 0 :=
  fun e => h (BitVec.eq_of_toNat_eq e)

/-- Bounds on a divisor whose high word has `k` significant bits. -/
theorem divisor_bounds (v : U128) (h0 : ¬ v.hi = 0) :
    ∃ k, leadingZeros64 v.hi = 64 - k ∧ 1 ≤ k ∧ k ≤ 64 ∧ 2 ^ 64 ≤ v.val ∧ 2 ^ (63 + k) ≤ v.val ∧ v.val < 2 ^ (64 + k) := by
  have hhi := toNat_ne_zero h0
  have hlo := v.lo.isLt
  have hhilt := v.hi.isLt
  obtain ⟨hl1, hl2⟩ := log2_bounds hhi
  have hlog : v.hi.toNat.log2 < 64 := (Nat.log2_lt hhi).mpr hhilt
  refine ⟨v.hi.toNat.log2 + 1, ?_, by omega, by omega, ?_, ?_, ?_⟩
  · rw [leadingZeros64, if_neg hhi]; omega
  · unfold val; omega
  · have : (2:Nat) ^ (63 + (v.hi.toNat.log2 + 1)) = 2 ^ 64 * 2 ^ v.hi.toNat.log2 := by
      rw [← Nat.pow_add]; congr 1; omega
    rw [this]
    unfold val
    have := Nat.mul_le_mul_left (2 ^ 64) hl1
    omega
  · have e : (2:Nat) ^ (64 + (v.hi.toNat.log2 + 1)) = 2 ^ 64 * 2 ^ (v.hi.toNat.log2 + 1) := Nat.pow_add _ _ _
    rw [e]
    unfold val
    have := Nat.mul_le_mul_left (2 ^ 64) (Nat.succ_le_of_lt hl2)
    rw [Nat.succ_eq_add_one, Nat.mul_add] at this
    omega

theorem hi_eq (u : U128) : u.hi.toNat = u.val / 2 ^ 64 := by
  have := u.lo.isLt
  unfold val; omega

/-- The high word of the normalised divisor. -/
theorem normalised_hi (v : U128) (k : Nat) (hk64 : k ≤ 64) (hvk2 : v.val < 2 ^ (64 + k)) :
    (v.lsh (64 - k)).hi.toNat = v.val / 2 ^ k := by
  have hsmall : v.val * 2 ^ (64 - k) < 2 ^ 128 := by
    have : (2:Nat) ^ 128 = 2 ^ (64 + k) * 2 ^ (64 - k) := by rw [← Nat.pow_add]; congr 1; omega
    rw [this]
    exact Nat.mul_lt_mul_of_pos_right hvk2 (Nat.pow_pos (by decide))
  rw [hi_eq, val_lsh, Nat.mod_eq_of_lt hsmall]
  have e : (2:Nat) ^ 64 = 2 ^ k * 2 ^ (64 - k) := by rw [← Nat.pow_add]; congr 1; omega
  rw [e, Nat.mul_div_mul_right _ _ (Nat.pow_pos (by decide))]

theorem half_hi (u : U128) : (u.rsh 1).hi.toNat < 2 ^ 63 := by
  have h := val_lt u
  rw [hi_eq, val_rsh, pow_one]
  omega

theorem half_val (u : U128) : (u.rsh 1).hi.toNat * 2 ^ 64 + (u.rsh 1).lo.toNat = u.val / 2 := by
  have := val_rsh u 1
  rw [pow_one] at this
  exact this

/-- The hardware division gives the trial quotient of `trial_quotient`. -/
theorem trial_word (u v : U128) (k : Nat) (hk1 : 1 ≤ k) (hk64 : k ≤ 64) (hvk : 2 ^ (63 + k) ≤ v.val)
    (hvk2 : v.val < 2 ^ (64 + k)) :
    ∃ w r, div64w (u.rsh 1).hi (u.rsh 1).lo (v.lsh (64 - k)).hi = .ok (w, r)
      ∧ (w >>> (63 - (64 - k))).toNat = u.val / (v.val - v.val % 2 ^ k) := by
  have hu := val_lt u
  have hkpos : 0 < (2:Nat) ^ k := Nat.pow_pos (by decide)
  have hv1 := normalised_hi v k hk64 hvk2
  have hu1 := half_hi u
  have hv1ge : 2 ^ 63 ≤ v.val / 2 ^ k := by
    rw [Nat.le_div_iff_mul_le hkpos, ← Nat.pow_add]; exact hvk
  refine ⟨BitVec.ofNat 64 (u.val / 2 / (v.val / 2 ^ k)), BitVec.ofNat 64 (u.val / 2 % (v.val / 2 ^ k)), ?_, ?_⟩
  · rw [div64w, if_neg (by rw [hv1]; omega)]
    simp only [half_val, hv1]
  · have htqlt : u.val / 2 / (v.val / 2 ^ k) < 2 ^ 64 := by
      apply Nat.div_lt_of_lt_mul
      have : 2 ^ 63 * 2 ^ 64 ≤ v.val / 2 ^ k * 2 ^ 64 := Nat.mul_le_mul_right _ hv1ge
      omega
    rw [BitVec.toNat_ushiftRight, BitVec.toNat_ofNat, Nat.mod_eq_of_lt htqlt, Nat.shiftRight_eq_div_pow,
      Nat.div_div_eq_div_mul, Nat.div_div_eq_div_mul]
    have hd := Nat.div_add_mod v.val (2 ^ k)
    have e : (2:Nat) ^ k = 2 * 2 ^ (63 - (64 - k)) := by
      rw [← Nat.pow_succ']; congr 1; omega
    have e2 : v.val - v.val % 2 ^ k = 2 ^ k * (v.val / 2 ^ k) := by omega
    have e3 : 2 * (v.val / 2 ^ k * 2 ^ (63 - (64 - k))) = 2 ^ k * (v.val / 2 ^ k) := by
      calc 2 * (v.val / 2 ^ k * 2 ^ (63 - (64 - k)))
          = (2 * 2 ^ (63 - (64 - k))) * (v.val / 2 ^ k) := by ring
        _ = 2 ^ k * (v.val / 2 ^ k) := by rw [← e]
    rw [e2, e3]

theorem pred_sat (x : BitVec 64) : (if x ≠ 0 then x - 1 else x).toNat = x.toNat - 1 := by
  by_cases hz : x = 0
  · subst hz; simp
  · rw [if_pos hz]; exact toNat_pred _ (toNat_ne_zero hz)

theorem sub_mulW (u v : U128) (t : BitVec 64) (h : v.val * t.toNat ≤ u.val) :
    (u.sub (v.mulW t)).val = u.val - v.val * t.toNat := by
  have hu := val_lt u
  rw [val_sub, val_mulW, Nat.mod_eq_of_lt (lt_of_le_of_lt h hu)]
  generalize v.val * t.toNat = m at *
  omega

theorem val_sub_le (u v : U128) (h : v.val ≤ u.val) : (u.sub v).val = u.val - v.val := by
  have hu := val_lt u
  rw [val_sub]
  omega

theorem inc_from64 (t : BitVec 64) : ((from64 t).addW 1).val = t.toNat + 1 := by
  have := t.isLt
  rw [val_addW, val_from64]
  have e : (1 : BitVec 64).toNat = 1 := rfl
  rw [e]
  omega

theorem quoRem_spec (u v : U128) (hv : v.val ≠ 0) :
    ∃ q r, u.quoRem v = .ok (q, r) ∧ q.val = u.val / v.val ∧ r.val = u.val % v.val := by
  unfold quoRem
  by_cases h0 : v.hi = 0
  · rw [if_pos h0]
    have hvl : v.val = v.lo.toNat := by simp [val, h0]
    obtain ⟨q, r, h1, h2, h3⟩ := quoRem64_spec u v.lo (by rw [← hvl]; exact hv)
    refine ⟨q, from64 r, by rw [h1]; rfl, by rw [hvl]; exact h2, by rw [val_from64, hvl]; exact h3⟩
  · rw [if_neg h0]
    obtain ⟨k, hlz, hk1, hk64, hv64, hvk, hvk2⟩ := divisor_bounds v h0
    obtain ⟨w, r0, hw, hT⟩ := trial_word u v k hk1 hk64 hvk hvk2
    obtain ⟨hT1, hT2⟩ := trial_quotient u.val v.val k (val_lt u) hk1 hv64 hvk
    simp only [hlz, hw, Res.ok_bind]
    rw [← hT] at hT1 hT2
    generalize w >>> (63 - (64 - k)) = x at hT1 hT2
    have ht := pred_sat x
    generalize (if x ≠ 0 then x - 1 else x) = t at ht
    have hvpos : 0 < v.val := Nat.pos_of_ne_zero hv
    obtain ⟨hmulle, hA, hB⟩ := correct_step u.val v.val t.toNat hvpos
      (by rw [ht]; exact Nat.sub_le_of_le_add hT2) (by rw [ht]; omega)
    have hr := sub_mulW u v t hmulle
    rw [cmp_spec]
    by_cases hge : (u.sub (v.mulW t)).val < v.val
    · -- no correction
      rw [if_pos hge, if_neg (by decide)]
      rw [hr] at hge
      obtain ⟨e1, e2⟩ := hA hge
      exact ⟨from64 t, u.sub (v.mulW t), rfl, by rw [val_from64]; exact e1, by rw [hr]; exact e2⟩
    · rw [if_neg hge, if_pos (by split <;> decide)]
      have hge' := hge
      rw [hr] at hge'
      obtain ⟨e1, e2⟩ := hB hge'
      refine ⟨(from64 t).addW 1, (u.sub (v.mulW t)).sub v, rfl, ?_, ?_⟩
      · rw [inc_from64, e1]
      · rw [val_sub_le _ _ (Nat.le_of_not_lt hge), hr, e2]

theorem quoRem_zero (u : U128) : u.quoRem zero = .panic := by
  unfold quoRem
  rw [if_pos (show zero.hi = 0 from rfl)]
  show (quoRem64 u 0 >>= _) = _
  rw [quoRem64_zero]
  rfl

/-! ## Bytes and big integers -/

theorem putBytes_eq (u : U128) : u.putBytes = lePut 16 u.val := by
  have h : ∀ (a b n : Nat) (lo hi : Nat), lo < 256 ^ a → lePut a lo ++ lePut b hi = lePut (a + b) (lo + 256 ^ a * hi) := by
    intro a b _
    induction a with
    | zero => intro lo hi h; simp at h; subst h; simp [lePut]
    | succ a ih =>
      intro lo hi h
      have e : a + 1 + b = (a + b) + 1 := by omega
      rw [e]
      simp only [lePut, List.cons_append]
      rw [Nat.pow_succ] at h ⊢
      rw [ih (lo / 256) hi (by omega)]
      have e1 : (lo + 256 ^ a * 256 * hi) % 256 = lo % 256 := by
        rw [show 256 ^ a * 256 * hi = 256 * (256 ^ a * hi) by ring]; omega
      have e2 : (lo + 256 ^ a * 256 * hi) / 256 = lo / 256 + 256 ^ a * hi := by
        rw [show 256 ^ a * 256 * hi = 256 * (256 ^ a * hi) by ring]; omega
      rw [e1, e2]
  have hlo := u.lo.isLt
  unfold putBytes
  rw [h 8 8 0 _ _ (by norm_num; omega)]
  congr 1
  unfold val
  norm_num
  ring

theorem fromBytes_spec (b : Str) (h : b.length = 16) : ∃ u, fromBytes b = .ok u ∧ u.val = leNat b := by
  refine ⟨_, by rw [fromBytes, if_neg (by omega)], ?_⟩
  have e : b = b.take 8 ++ (b.drop 8).take 8 := by
    rw [List.take_of_length_le (show (b.drop 8).length ≤ 8 by simp; omega), List.take_append_drop]
  have l1 := leNat_lt (b.take 8)
  have l2 := leNat_lt ((b.drop 8).take 8)
  have hl1 : (b.take 8).length = 8 := by simp; omega
  have hl2 : ((b.drop 8).take 8).length = 8 := by simp; omega
  rw [hl1] at l1
  rw [hl2] at l2
  have key : leNat b = leNat (b.take 8) + 256 ^ 8 * leNat ((b.drop 8).take 8) := by
    conv_lhs => rw [e]
    rw [leNat_append, hl1]
  rw [key]
  simp only [val, BitVec.toNat_ofNat]
  rw [Nat.mod_eq_of_lt (by norm_num at l2 ⊢; exact l2), Nat.mod_eq_of_lt (by norm_num at l1 ⊢; exact l1)]
  norm_num
  ring

theorem big_eq (u : U128) : u.big = u.val := by
  have h := u.lo.isLt
  unfold big
  rw [val, ← Nat.shiftLeft_eq, Nat.shiftLeft_add_eq_or_of_lt h]
  apply Nat.eq_of_testBit_eq
  intro i
  rw [Nat.testBit_xor, Nat.testBit_or, Nat.testBit_shiftLeft]
  by_cases hi : 64 ≤ i
  · have : u.lo.toNat.testBit i = false := Nat.testBit_lt_two_pow (lt_of_lt_of_le h (Nat.pow_le_pow_right (by norm_num) hi))
    simp [this]
  · simp [hi]

theorem fromBig_spec (n : Nat) (h : n < 2 ^ 128) : ∃ u, fromBig n = .ok u ∧ u.val = n := by
  refine ⟨_, by rw [fromBig, if_neg (by omega), if_neg (by omega)], ?_⟩
  simp only [val, BitVec.toNat_ofNat, Int.toNat_natCast, Nat.shiftRight_eq_div_pow]
  omega

theorem fromBig_panic (i : Int) (h : i < 0 ∨ 2 ^ 128 ≤ i) : fromBig i = .panic := by
  unfold fromBig
  rcases h with h | h
  · rw [if_pos h]
  · rw [if_neg (by omega), if_pos h]

end U128
end ScaleGo
