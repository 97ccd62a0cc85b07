import Verif.Model.EthMath
import Verif.Lemmas.Dec
import Verif.Lemmas.SpecBytes
import Mathlib.Data.Int.ModEq
import Mathlib.Tactic.Ring
import Mathlib.Data.List.GetD

namespace ScaleGo.EthMath

open ScaleGo

/-- The number a list of words stands for. -/
def valOf : List Nat → Nat
  | [] => 0
  | w :: ws => w + 2 ^ 64 * valOf ws

theorem wordsAux_val (f : Nat) : ∀ n, n ≤ f → valOf (wordsAux f n) = n := by
  induction f with
  | zero => intro n h; obtain rfl : n = 0 := by omega
            rfl
  | succ f ih =>
    intro n h
    rw [wordsAux]
    split
    · next h0 => subst h0; rfl
    · rw [valOf, ih _ (by omega)]
      omega

theorem words_val (n : Nat) : valOf (words n) = n := wordsAux_val n n (Nat.le_refl n)

theorem wordsAux_lt (f : Nat) : ∀ n, ∀ w ∈ wordsAux f n, w < 2 ^ 64 := by
  induction f with
  | zero => intro n w h; simp [wordsAux] at h
  | succ f ih =>
    intro n w h
    rw [wordsAux] at h
    split at h
    · simp at h
    · rcases List.mem_cons.1 h with rfl | h
      · exact Nat.mod_lt _ (by norm_num)
      · exact ih _ _ h

theorem words_lt (n : Nat) : ∀ w ∈ words n, w < 2 ^ 64 := wordsAux_lt n n

/-! ### Exp -/

theorem u256_modEq (x : Int) : u256 x ≡ x [ZMOD 2 ^ 256] := Int.mod_modEq x _

theorem expWord_spec (k : Nat) : ∀ r b w, w < 2 ^ k →
    (expWord k r b w).1 ≡ r * b ^ w [ZMOD 2 ^ 256] ∧ (expWord k r b w).2 ≡ b ^ 2 ^ k [ZMOD 2 ^ 256] := by
  induction k with
  | zero => intro r b w h; obtain rfl : w = 0 := by omega
            simp [expWord]
  | succ k ih =>
    intro r b w h
    rw [expWord]
    obtain ⟨h1, h2⟩ := ih (if w % 2 = 1 then u256 (r * b) else r) (u256 (b * b)) (w / 2) (by rw [Nat.pow_succ] at h; omega)
    refine ⟨h1.trans ?_, h2.trans ?_⟩
    · have e : (u256 (b * b)) ^ (w / 2) ≡ (b * b) ^ (w / 2) [ZMOD 2 ^ 256] := (u256_modEq _).pow _
      split
      · next hw =>
        refine ((u256_modEq _).mul e).trans ?_
        have : w = 2 * (w / 2) + 1 := by omega
        conv => rhs; rw [this]
        rw [pow_add, pow_mul]
        ring_nf; rfl
      · next hw =>
        refine ((Int.ModEq.refl r).mul e).trans ?_
        have : w = 2 * (w / 2) := by omega
        conv => rhs; rw [this]
        rw [pow_mul]
        ring_nf; rfl
    · refine ((u256_modEq (b * b)).pow _).trans ?_
      rw [← pow_two, ← pow_mul, Nat.pow_succ, Nat.mul_comm]

attribute [local irreducible] expWord in
theorem expWords_cons (w : Nat) (ws : List Nat) (r b : Int) :
    expWords (w :: ws) r b = expWords ws (expWord 64 r b w).1 (expWord 64 r b w).2 := rfl

theorem expWords_spec (ws : List Nat) (hw : ∀ w ∈ ws, w < 2 ^ 64) : ∀ r b,
    (expWords ws r b).1 ≡ r * b ^ valOf ws [ZMOD 2 ^ 256] ∧ (expWords ws r b).2 ≡ b ^ 2 ^ (64 * ws.length) [ZMOD 2 ^ 256] := by
  induction ws with
  | nil => intro r b; simp [expWords, valOf]
  | cons w ws ih =>
    intro r b
    obtain ⟨h1, h2⟩ := expWord_spec 64 r b w (hw w (by simp))
    obtain ⟨h3, h4⟩ := ih (fun x hx => hw x (List.mem_cons_of_mem _ hx)) (expWord 64 r b w).1 (expWord 64 r b w).2
    rw [expWords_cons]
    refine ⟨h3.trans ?_, h4.trans ?_⟩
    · refine (h1.mul (h2.pow _)).trans ?_
      rw [valOf, pow_add, pow_mul, mul_assoc]
    · refine (h2.pow _).trans ?_
      rw [← pow_mul, ← pow_add, List.length_cons, show 64 + 64 * ws.length = 64 * (ws.length + 1) by omega]

theorem expWord_range (k : Nat) : ∀ r b w, 0 ≤ r ∧ r < 2 ^ 256 → 0 ≤ (expWord k r b w).1 ∧ (expWord k r b w).1 < 2 ^ 256 := by
  induction k with
  | zero => intro r b w h; exact h
  | succ k ih =>
    intro r b w h
    rw [expWord]
    apply ih
    split
    · exact ⟨Int.emod_nonneg _ (by norm_num), Int.emod_lt_of_pos _ (by decide)⟩
    · exact h

theorem expWords_range (ws : List Nat) : ∀ r b, 0 ≤ r ∧ r < 2 ^ 256 → 0 ≤ (expWords ws r b).1 ∧ (expWords ws r b).1 < 2 ^ 256 := by
  induction ws with
  | nil => intro r b h; exact h
  | cons w ws ih => intro r b h; rw [expWords_cons]; exact ih _ _ (expWord_range _ _ _ _ h)

/-! ### Bytes -/

theorem readWord_eq (j : Nat) : ∀ (buf : Str) i d, i ≤ buf.length →
    readWord j buf i d = (buf.take (i - min i j) ++ (lePut (min i j) d).reverse ++ buf.drop i, i - min i j) := by
  induction j with
  | zero => intro buf i d h; simp [readWord, lePut]
  | succ j ih =>
    intro buf i d h
    cases i with
    | zero => simp [readWord, lePut]
    | succ i =>
      rw [readWord, ih _ _ _ (by simp; omega)]
      have hm : min (i + 1) (j + 1) = min i j + 1 := by omega
      have hs : i + 1 - (min i j + 1) = i - min i j := by omega
      rw [hm, hs, lePut, List.reverse_cons]
      congr 1
      have hd : (buf.set i (UInt8.ofNat (d % 256))).drop i = UInt8.ofNat (d % 256) :: buf.drop (i + 1) := by
        rw [List.drop_eq_getElem_cons (by simp; omega), List.getElem_set_self, List.drop_set_of_lt (by omega)]
      rw [List.take_set_of_le (by omega), hd]
      simp

theorem lePut_add (a b v : Nat) : lePut (a + b) v = lePut a v ++ lePut b (v / 256 ^ a) := by
  induction a generalizing v with
  | zero => simp [lePut]
  | succ a ih =>
    rw [Nat.succ_add, lePut, lePut, ih, List.cons_append, Nat.div_div_eq_div_mul, Nat.pow_succ, Nat.mul_comm 256]

theorem readWords_eq (ws : List Nat) (hw : ∀ w ∈ ws, w < 2 ^ 64) : ∀ (buf : Str) i, i ≤ buf.length →
    buf.take i = List.replicate i 0 → readWords ws buf i = (lePut i (valOf ws)).reverse ++ buf.drop i := by
  induction ws with
  | nil =>
    intro buf i h hz
    rw [readWords, valOf]
    have : lePut i 0 = List.replicate i 0 := by
      clear h hz; induction i with
      | zero => rfl
      | succ i ih => rw [lePut, List.replicate_succ, ih]; rfl
    rw [this, List.reverse_replicate, ← hz, List.take_append_drop]
  | cons w ws ih =>
    intro buf i h hz
    have hlt := hw w (by simp)
    rw [readWords, readWord_eq 8 buf i w h]
    dsimp only
    rw [ih (fun x hx => hw x (List.mem_cons_of_mem _ hx)) _ _ (by simp; omega)]
    · rw [List.append_assoc, List.drop_append_of_le_length (by simp; omega), List.drop_take, Nat.sub_self, List.take_zero,
        List.nil_append, ← List.append_assoc, ← List.reverse_append]
      congr 2
      rw [valOf]
      by_cases h8 : i ≤ 8
      · have e : min i 8 = i := by omega
        rw [e, Nat.sub_self, lePut, List.append_nil, ← lePut_mod i _ (256 ^ i) (dvd_refl _), ← lePut_mod i (w + _) (256 ^ i) (dvd_refl _)]
        congr 1
        have : (2 : Nat) ^ 64 = 256 ^ i * 256 ^ (8 - i) := by
          rw [← Nat.pow_add, show i + (8 - i) = 8 by omega]; norm_num
        rw [this, Nat.mul_assoc, Nat.add_mul_mod_self_left]
      · have e : min i 8 = 8 := by omega
        rw [e]
        have hsplit := lePut_add 8 (i - 8) (w + 2 ^ 64 * valOf ws)
        rw [show 8 + (i - 8) = i by omega] at hsplit
        rw [hsplit]
        congr 1
        · rw [← lePut_mod 8 (w + _) (256 ^ 8) (dvd_refl _), show (256 : Nat) ^ 8 = 2 ^ 64 by norm_num,
            Nat.add_mul_mod_self_left, Nat.mod_eq_of_lt hlt]
        · congr 1
          rw [show (256 : Nat) ^ 8 = 2 ^ 64 by norm_num, Nat.add_mul_div_left _ _ (by norm_num), Nat.div_eq_of_lt hlt, Nat.zero_add]
    · rw [List.append_assoc, List.take_append_of_le_length (by simp; omega), List.take_take, Nat.min_self]
      have := congrArg (List.take (i - min i 8)) hz
      rw [List.take_take, List.take_replicate] at this
      rw [show i - min i 8 = min (i - min i 8) i by omega, this]

/-- A zeroed buffer receives the low bytes of the absolute value, most significant first. -/
theorem readBits_eq (x : Int) (n : Nat) : readBits x (List.replicate n 0) = (lePut n x.natAbs).reverse := by
  unfold readBits
  rw [readWords_eq _ (words_lt _) _ _ (Nat.le_refl _) (by simp), words_val]
  simp

theorem words_getD (n k : Nat) : (words n).getD k 0 = n / 2 ^ (64 * k) % 2 ^ 64 := by
  have gen : ∀ f n k, n ≤ f → (wordsAux f n).getD k 0 = n / 2 ^ (64 * k) % 2 ^ 64 := by
    intro f
    induction f with
    | zero => intro n k h; obtain rfl : n = 0 := by omega
              simp [wordsAux]
    | succ f ih =>
      intro n k h
      rw [wordsAux]
      split
      · next h0 => subst h0; simp
      · cases k with
        | zero => simp
        | succ k =>
          rw [List.getD_cons_succ, ih _ _ (by omega), Nat.div_div_eq_div_mul, ← Nat.pow_add,
            show 64 + 64 * k = 64 * (k + 1) by omega]
  exact gen n n k (Nat.le_refl n)

theorem byteAt_eq (x : Int) (n : Nat) : byteAt x n = UInt8.ofNat (x.natAbs / 256 ^ n % 256) := by
  have e : (256 : Nat) ^ n = 2 ^ (64 * (n / 8)) * 2 ^ (8 * (n % 8)) := by
    rw [← Nat.pow_add, show (256 : Nat) = 2 ^ 8 by norm_num, ← Nat.pow_mul]
    congr 1; omega
  have key : (words x.natAbs).getD (n / 8) 0 / 2 ^ (8 * (n % 8)) % 256 = x.natAbs / 256 ^ n % 256 := by
    rw [words_getD, e, ← Nat.div_div_eq_div_mul]
    generalize x.natAbs / 2 ^ (64 * (n / 8)) = y
    have h8 : (2 : Nat) ^ 64 = 2 ^ (8 * (n % 8)) * 2 ^ (64 - 8 * (n % 8)) := by
      rw [← Nat.pow_add]; congr 1; omega
    rw [h8, Nat.mod_mul_right_div_self, Nat.mod_mod_of_dvd]
    exact ⟨2 ^ (64 - 8 * (n % 8) - 8), by rw [show (256 : Nat) = 2 ^ 8 by norm_num, ← Nat.pow_add]; congr 1; omega⟩
  unfold byteAt
  dsimp only
  split
  · next h => rw [← key, List.getD_eq_default _ _ h]; simp
  · rw [key]

end ScaleGo.EthMath
