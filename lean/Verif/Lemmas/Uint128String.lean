import Verif.Lemmas.Uint128

/-! # Decimal printing of 128-bit numbers -/

namespace ScaleGo
namespace U128

/-- Digits of `r`, none for zero. -/
def dig (r : Nat) : Str := if r = 0 then [] else natToDec r

theorem dig_step {r : Nat} (h : r ≠ 0) : dig r = dig (r / 10) ++ [digitByte (r % 10)] := by
  unfold dig
  rw [if_neg h]
  by_cases h10 : r < 10
  · rw [if_pos (by omega), natToDec_lt h10, Nat.mod_eq_of_lt h10]; rfl
  · rw [if_neg (by omega), natToDec_ge (by omega)]

theorem dig_length {r k : Nat} (h : r < 10 ^ k) : (dig r).length ≤ k := by
  induction k generalizing r with
  | zero => simp at h; subst h; simp [dig]
  | succ k ih =>
    by_cases h0 : r = 0
    · subst h0; simp [dig]
    · rw [dig_step h0, List.length_append]
      have := ih (r := r / 10) (by rw [Nat.pow_succ] at h; omega)
      simp; omega

/-- `r` written with exactly `k` digits. -/
def pad (k r : Nat) : Str := List.replicate (k - (dig r).length) 48 ++ dig r

theorem pad_step {k r : Nat} (h : r < 10 ^ (k + 1)) : pad (k + 1) r = pad k (r / 10) ++ [digitByte (r % 10)] := by
  unfold pad
  by_cases h0 : r = 0
  · subst h0
    simp only [dig, Nat.zero_div, if_pos, List.length_nil, List.append_nil, Nat.sub_zero]
    rw [List.replicate_succ']
    rfl
  · have hl := dig_length (r := r / 10) (k := k) (by rw [Nat.pow_succ] at h; omega)
    rw [dig_step h0]
    simp only [List.length_append, List.length_singleton]
    rw [show k + 1 - ((dig (r / 10)).length + 1) = k - (dig (r / 10)).length by omega, List.append_assoc]

theorem dig_split (q : Nat) (hq : q ≠ 0) (k : Nat) (r : Nat) (hr : r < 10 ^ k) :
    dig (q * 10 ^ k + r) = dig q ++ pad k r := by
  induction k generalizing r with
  | zero => simp at hr; subst hr; simp [pad, dig]
  | succ k ih =>
    have hpos : 0 < 10 ^ k := Nat.pow_pos (by decide)
    have hne : q * 10 ^ (k + 1) + r ≠ 0 := by
      have : 0 < q * 10 ^ (k + 1) := Nat.mul_pos (Nat.pos_of_ne_zero hq) (Nat.pow_pos (by decide))
      omega
    have e : q * 10 ^ (k + 1) + r = 10 * (q * 10 ^ k) + r := by rw [Nat.pow_succ]; ring
    have hlt : r / 10 < 10 ^ k := by rw [Nat.pow_succ] at hr; omega
    rw [dig_step hne, pad_step hr, e]
    have e1 : (10 * (q * 10 ^ k) + r) / 10 = q * 10 ^ k + r / 10 := by omega
    have e2 : (10 * (q * 10 ^ k) + r) % 10 = r % 10 := by omega
    rw [e1, e2, ih _ hlt, List.append_assoc]

theorem set_last (A B : Str) (x : UInt8) (h : 0 < A.length) :
    (A ++ B).set (A.length - 1) x = A.take (A.length - 1) ++ (x :: B) := by
  rw [List.set_append_left _ _ (by omega), List.set_eq_take_append_cons_drop, if_pos (by omega)]
  rw [show A.length - 1 + 1 = A.length by omega, List.drop_length]
  simp

theorem writeDigits_eq (fuel : Nat) (A B : Str) (i r n : Nat) (hA : A.length + n = i)
    (hr : r < 10 ^ fuel) (hd : (dig r).length ≤ A.length) :
    writeDigits fuel (A ++ B) i r n = (A.take (A.length - (dig r).length) ++ dig r ++ B, n + (dig r).length) := by
  induction fuel generalizing A B r n with
  | zero =>
    simp at hr; subst hr
    simp [writeDigits, dig]
  | succ f ih =>
    unfold writeDigits
    by_cases h0 : r = 0
    · subst h0; simp [dig]
    · rw [if_pos h0]
      have hs := dig_step h0
      have hl : (dig r).length = (dig (r / 10)).length + 1 := by rw [hs]; simp
      rw [show i - (n + 1) = A.length - 1 by omega, set_last A B _ (by omega)]
      have hA' : (A.take (A.length - 1)).length = A.length - 1 := by simp
      rw [ih (A.take (A.length - 1)) (digitByte (r % 10) :: B) (r / 10) (n + 1) (by rw [hA']; omega)
        (by rw [Nat.pow_succ] at hr; omega) (by rw [hA']; omega)]
      rw [hA', List.take_take, hl, hs]
      rw [show min (A.length - 1 - (dig (r / 10)).length) (A.length - 1) = A.length - ((dig (r / 10)).length + 1) by omega]
      simp [Nat.add_assoc, Nat.add_comm]

theorem tenE19 : (BitVec.ofNat 64 (10 ^ 19)).toNat = 10 ^ 19 := by
  rw [BitVec.toNat_ofNat]; exact Nat.mod_eq_of_lt (by decide)

theorem stringLoop_eq (fuel i : Nat) (B : Str) (u : U128) (h0 : u.val ≠ 0) (hi : u.val < 10 ^ i)
    (hf : u.val < 10 ^ (19 * fuel)) :
    stringLoop fuel (List.replicate i 48 ++ B) i u = .ok (dig u.val ++ B) := by
  induction fuel generalizing i B u with
  | zero => simp at hf; omega
  | succ f ih =>
    unfold stringLoop
    obtain ⟨q, r, hqr, hq, hr⟩ := quoRem64_spec u (BitVec.ofNat 64 (10 ^ 19)) (by rw [tenE19]; decide)
    rw [tenE19] at hq hr
    rw [hqr]
    simp only [Res.ok_bind, Int.toNat_natCast]
    have hrlt : r.toNat < 10 ^ 19 := by rw [hr]; exact Nat.mod_lt _ (by decide)
    have hri : r.toNat < 10 ^ i := lt_of_le_of_lt (by rw [hr]; exact Nat.mod_le _ _) hi
    have hdl := dig_length hri
    have hdl19 := dig_length hrlt
    rw [writeDigits_eq 20 (List.replicate i 48) B i r.toNat 0 (by simp)
      (lt_trans hrlt (Nat.pow_lt_pow_right (by decide) (by decide))) (by simpa using hdl)]
    simp only [Nat.zero_add, List.length_replicate, List.take_replicate]
    rw [if_neg (by omega)]
    have hmin : min (i - (dig r.toNat).length) i = i - (dig r.toNat).length := by omega
    rw [hmin]
    by_cases hz : q.isZero = true
    · rw [if_pos hz]
      have hq0 := (isZero_iff q).mp hz
      rw [hq0] at hq
      have hsm : u.val < 10 ^ 19 := (Nat.div_eq_zero_iff_lt (by decide)).mp hq.symm
      have hru : r.toNat = u.val := by rw [hr, Nat.mod_eq_of_lt hsm]
      rw [Res.pure_eq, hru]
      congr 1
      rw [List.append_assoc]
      exact List.drop_left' (by simp)
    · rw [if_neg hz]
      have hqne : q.val ≠ 0 := fun h => hz ((isZero_iff q).mpr h)
      have hbig : 10 ^ 19 ≤ u.val := by
        rcases Nat.lt_or_ge u.val (10 ^ 19) with h | h
        · exact absurd (by rw [hq]; exact Nat.div_eq_of_lt h) hqne
        · exact h
      have hi19 : 19 < i := by
        rcases Nat.lt_or_ge 19 i with h | h
        · exact h
        · have := Nat.pow_le_pow_right (show 0 < 10 by decide) h
          omega
      have hbuf : List.replicate (i - (dig r.toNat).length) 48 ++ dig r.toNat ++ B
          = List.replicate (i - 19) 48 ++ (pad 19 r.toNat ++ B) := by
        unfold pad
        rw [show i - (dig r.toNat).length = (i - 19) + (19 - (dig r.toNat).length) by omega,
          ← List.replicate_append_replicate]
        simp only [List.append_assoc]
      rw [hbuf, show ((i : Int) - 19) = ((i - 19 : Nat) : Int) by omega]
      have hpi : 10 ^ i = 10 ^ (i - 19) * 10 ^ 19 := by rw [← Nat.pow_add]; congr 1; omega
      have hpf : 10 ^ (19 * (f + 1)) = 10 ^ (19 * f) * 10 ^ 19 := by rw [← Nat.pow_add]; rfl
      rw [ih (i - 19) _ q hqne (by rw [hq]; exact Nat.div_lt_of_lt_mul (by rw [Nat.mul_comm, ← hpi]; exact hi))
        (by rw [hq]; exact Nat.div_lt_of_lt_mul (by rw [Nat.mul_comm, ← hpf]; exact hf))]
      have hdm : u.val = q.val * 10 ^ 19 + r.toNat := by rw [hq, hr]; exact (Nat.div_add_mod' _ _).symm
      rw [← List.append_assoc, hdm, dig_split q.val hqne 19 r.toNat hrlt]

theorem toString_eq (u : U128) : u.toString = .ok (natToDec u.val) := by
  unfold toString
  by_cases hz : u.isZero = true
  · rw [if_pos hz, (isZero_iff u).mp hz]; rfl
  · rw [if_neg hz]
    have hne : u.val ≠ 0 := fun h => hz ((isZero_iff u).mpr h)
    have hlt := val_lt u
    have h := stringLoop_eq 4 40 [] u hne (lt_trans hlt (by decide)) (lt_trans hlt (by decide))
    rw [List.append_nil, List.append_nil] at h
    rw [show (40 : Int) = ((40 : Nat) : Int) from rfl, h, dig, if_neg hne]

end U128
end ScaleGo
