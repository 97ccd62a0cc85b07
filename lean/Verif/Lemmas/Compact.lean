import Verif.Spec.Compact
import Verif.Lemmas.Dec
import Verif.Lemmas.Uint128

/-! # Compact numbers -/

namespace ScaleGo

theorem nextBytes_at2 (pre x y suf : Str) (cs : List Str) (n : Int) (hn : n = y.length)
    (h : pre.length + (x ++ y).length + suf.length < 2 ^ 63) :
    nextBytes n ⟨⟨pre ++ ((x ++ y) ++ suf), pre.length + x.length⟩, cs⟩ =
      .ok (y, ⟨⟨pre ++ ((x ++ y) ++ suf), pre.length + (x ++ y).length⟩, cs⟩) := by
  have := nextBytes_at (pre ++ x) y suf cs n hn (by simp at h ⊢; omega)
  simp only [List.append_assoc, List.length_append] at this ⊢
  rw [this, Nat.add_assoc]

theorem nextBytes_at1 (pre x y suf : Str) (cs : List Str) (n : Int) (hn : n = x.length)
    (h : pre.length + (x ++ y).length + suf.length < 2 ^ 63) :
    nextBytes n ⟨⟨pre ++ ((x ++ y) ++ suf), pre.length⟩, cs⟩ =
      .ok (x, ⟨⟨pre ++ ((x ++ y) ++ suf), pre.length + x.length⟩, cs⟩) := by
  have := nextBytes_at pre x (y ++ suf) cs n hn (by simp at h ⊢; omega)
  simp only [List.append_assoc] at this ⊢
  exact this

theorem leBytes_one {n : Nat} (h : n < 256) : Spec.leBytes 1 n = [UInt8.ofNat n] := by
  rw [← lePut_eq_spec, lePut, lePut, Nat.mod_eq_of_lt h]

theorem leBytes_succ (w n : Nat) : Spec.leBytes (w + 1) n = Spec.leBytes 1 n ++ Spec.leBytes w (n / 256) := by
  rw [← lePut_eq_spec, ← lePut_eq_spec, ← lePut_eq_spec]
  rfl

theorem leBytes_one_head (n : Nat) : ((Spec.leBytes 1 n).headD 0).toNat = n % 256 := by
  rw [← lePut_eq_spec]
  simp [lePut]

/-- What `ProcessCompactBytes` returns on the encoding of `n`. -/
theorem processCompactBytes_at {n : Nat} {b : Str} (hb : Spec.IsCompact n b) :
    ∃ (len : Nat) (cb : Str), ((len ≤ 4 ∧ n < 2 ^ 30 ∧ cb = b ∧ leNat cb / 4 = n ∧ cb.length = len) ∨
        (4 < len ∧ leNat cb = n ∧ cb.length + 1 = len ∧ 256 ^ (cb.length - 1) ≤ n ∧ 2 ^ 30 ≤ n)) ∧
      ∀ (pre suf : Str) (cs : List Str), pre.length + b.length + suf.length < 2 ^ 63 →
        processCompactBytes ⟨⟨pre ++ (b ++ suf), pre.length⟩, cs⟩ =
          .ok (((len : Int), cb), ⟨⟨pre ++ (b ++ suf), pre.length + b.length⟩, cs⟩) := by
  rcases hb with ⟨hn, rfl⟩ | ⟨h1, hn, rfl⟩ | ⟨h1, hn, rfl⟩ | ⟨h1, k, hk4, hk, hlo, hhi, rfl⟩
  · refine ⟨1, _, .inl ⟨by decide, by omega, rfl, ?_, leBytes_length _ _⟩, ?_⟩
    · rw [leNat_leBytes (by omega)]; omega
    · intro pre suf cs hl
      unfold processCompactBytes
      rw [nextBytes_at pre _ suf cs 1 (by rw [leBytes_length]; rfl) hl]
      simp only [Res.ok_bind, leBytes_one_head]
      rw [show 4 * n % 256 % 4 = 0 by omega]
      rfl
  · refine ⟨2, _, .inl ⟨by decide, by omega, rfl, ?_, leBytes_length _ _⟩, ?_⟩
    · rw [leNat_leBytes (by omega)]; omega
    · intro pre suf cs hl
      rw [leBytes_succ 1] at hl ⊢
      unfold processCompactBytes
      rw [nextBytes_at1 pre _ _ suf cs 1 (by rw [leBytes_length]; rfl) hl]
      simp only [Res.ok_bind, leBytes_one_head]
      rw [show (4 * n + 1) % 256 % 4 = 1 by omega]
      simp only
      rw [nextBytes_at2 pre _ _ suf cs 1 (by rw [leBytes_length]; rfl) hl]
      rfl
  · refine ⟨4, _, .inl ⟨by decide, by omega, rfl, ?_, leBytes_length _ _⟩, ?_⟩
    · rw [leNat_leBytes (by omega)]; omega
    · intro pre suf cs hl
      rw [leBytes_succ 3] at hl ⊢
      unfold processCompactBytes
      rw [nextBytes_at1 pre _ _ suf cs 1 (by rw [leBytes_length]; rfl) hl]
      simp only [Res.ok_bind, leBytes_one_head]
      rw [show (4 * n + 2) % 256 % 4 = 2 by omega]
      simp only
      rw [nextBytes_at2 pre _ _ suf cs 3 (by rw [leBytes_length]; rfl) hl]
      rfl
  · refine ⟨k + 1, Spec.leBytes k n, .inr ⟨by omega, leNat_leBytes hhi, by rw [leBytes_length], by rw [leBytes_length]; exact hlo, h1⟩, ?_⟩
    intro pre suf cs hl
    unfold processCompactBytes
    rw [nextBytes_at1 pre _ _ suf cs 1 (by rw [leBytes_length]; rfl) hl]
    simp only [Res.ok_bind, leBytes_one_head]
    rw [show (4 * (k - 4) + 3) % 256 = 4 * (k - 4) + 3 by omega, show (4 * (k - 4) + 3) % 4 = 3 by omega]
    simp only
    rw [nextBytes_at2 pre _ _ suf cs _ (by rw [leBytes_length]; omega) hl]
    simp only [Res.ok_bind]
    congr 3
    omega

/-- Every number below 256^67 has a compact encoding. -/
theorem isCompact_exists (n : Nat) (h : n < 256 ^ 67) : ∃ b, Spec.IsCompact n b := by
  by_cases h1 : n < 2 ^ 6
  · exact ⟨_, .inl ⟨h1, rfl⟩⟩
  by_cases h2 : n < 2 ^ 14
  · exact ⟨_, .inr (.inl ⟨by omega, h2, rfl⟩)⟩
  by_cases h3 : n < 2 ^ 30
  · exact ⟨_, .inr (.inr (.inl ⟨by omega, h3, rfl⟩))⟩
  · have hs := byteLen_spec n
    have h0 : n ≠ 0 := by omega
    refine ⟨_, .inr (.inr (.inr ⟨by omega, byteLen n, ?_, byteLen_le h, hs.2 h0, hs.1, rfl⟩))⟩
    apply Nat.le_of_not_lt
    intro hlt
    have : 256 ^ byteLen n ≤ 256 ^ 3 := Nat.pow_le_pow_right (by decide) (by omega)
    have h3' : ¬ n < 2 ^ 30 := h3
    have : n < 256 ^ 3 := Nat.lt_of_lt_of_le hs.1 this
    omega

theorem or_small (a b : Nat) (k : Nat) (hb : b < 2 ^ k) : (2 ^ k * a) ||| b = 2 ^ k * a + b := by
  rw [Nat.mul_comm]
  exact U128.or_disjoint a b k hb

/-- The short forms, below 2^30. -/
theorem compactShort_spec {n : Nat} (hn : n < 2 ^ 30) : ∃ b, compactShort (n : Int) = some b ∧ Spec.IsCompact n b := by
  have ht : toUint 32 ((n : Int) * 4) = 4 * n := by
    rw [show ((n : Int) * 4) = ((4 * n : Nat) : Int) by push_cast; omega, toUint_nat (by omega)]
  have o1 : 4 * n ||| 1 = 4 * n + 1 := or_small n 1 2 (by decide)
  have o2 : 4 * n ||| 2 = 4 * n + 2 := or_small n 2 2 (by decide)
  unfold compactShort
  rw [ht, o1, o2]
  by_cases h1 : n < 2 ^ 6
  · refine ⟨_, if_pos (by omega), .inl ⟨h1, ?_⟩⟩
    rw [lePut_take 1 4 _ (by decide), lePut_eq_spec]
  rw [if_neg (by omega)]
  by_cases h2 : n < 2 ^ 14
  · refine ⟨_, if_pos (by omega), .inr (.inl ⟨by omega, h2, ?_⟩)⟩
    rw [lePut_take 2 4 _ (by decide), lePut_eq_spec]
  rw [if_neg (by omega)]
  exact ⟨_, if_pos (by omega), .inr (.inr (.inl ⟨by omega, hn, lePut_eq_spec 4 _⟩))⟩

theorem compactShort_none {i : Int} (h : 2 ^ 30 ≤ i) : compactShort i = none := by
  unfold compactShort
  rw [if_neg (by omega), if_neg (by omega), if_neg (by omega)]

/-- The encoding is unique. -/
theorem isCompact_unique {n : Nat} {b c : Str} (hb : Spec.IsCompact n b) (hc : Spec.IsCompact n c) : b = c := by
  rcases hb with ⟨h, rfl⟩ | ⟨h1, h2, rfl⟩ | ⟨h1, h2, rfl⟩ | ⟨h1, k, hk4, hk, hlo, hhi, rfl⟩ <;>
  rcases hc with ⟨g, rfl⟩ | ⟨g1, g2, rfl⟩ | ⟨g1, g2, rfl⟩ | ⟨g1, j, hj4, hj, glo, ghi, rfl⟩ <;>
  first
    | rfl
    | (exfalso; omega)
    | (have e1 := byteLen_eq hhi hlo (by omega)
       have e2 := byteLen_eq ghi glo (by omega)
       rw [← e1, ← e2])

/-- Length and number can be read off the bytes. -/
theorem isCompact_value {n : Nat} {b : Str} (hb : Spec.IsCompact n b) :
    b.length = Spec.compactLen (b.headD 0) ∧ n = (if b.length ≤ 4 then leNat b / 4 else leNat (b.drop 1)) := by
  rcases hb with ⟨h, rfl⟩ | ⟨h1, h2, rfl⟩ | ⟨h1, h2, rfl⟩ | ⟨h1, k, hk4, hk, hlo, hhi, rfl⟩
  · unfold Spec.compactLen
    rw [leBytes_one_head, leBytes_length, if_pos (by omega), if_pos (by decide), leNat_leBytes (by omega)]
    omega
  · rw [leBytes_length, if_pos (by decide), leNat_leBytes (by omega), leBytes_succ 1]
    have e : (Spec.leBytes 1 (4 * n + 1) ++ Spec.leBytes 1 ((4 * n + 1) / 256)).headD 0 = (Spec.leBytes 1 (4 * n + 1)).headD 0 := rfl
    unfold Spec.compactLen
    rw [e, leBytes_one_head, if_neg (by omega), if_pos (by omega)]
    omega
  · rw [leBytes_length, if_pos (by decide), leNat_leBytes (by omega), leBytes_succ 3]
    have e : (Spec.leBytes 1 (4 * n + 2) ++ Spec.leBytes 3 ((4 * n + 2) / 256)).headD 0 = (Spec.leBytes 1 (4 * n + 2)).headD 0 := rfl
    unfold Spec.compactLen
    rw [e, leBytes_one_head, if_neg (by omega), if_neg (by omega), if_pos (by omega)]
    omega
  · have e : (Spec.leBytes 1 (4 * (k - 4) + 3) ++ Spec.leBytes k n).headD 0 = (Spec.leBytes 1 (4 * (k - 4) + 3)).headD 0 := rfl
    have e2 : (Spec.leBytes 1 (4 * (k - 4) + 3) ++ Spec.leBytes k n).drop 1 = Spec.leBytes k n := by
      rw [leBytes_one (by omega)]; rfl
    rw [List.length_append, leBytes_length, leBytes_length, if_neg (by omega), e2, leNat_leBytes hhi]
    unfold Spec.compactLen
    rw [e, leBytes_one_head, if_neg (by omega), if_neg (by omega), if_neg (by omega)]
    omega

theorem isCompact_ne_nil {n : Nat} {b : Str} (hb : Spec.IsCompact n b) : b ≠ [] := by
  have := (isCompact_value hb).1
  rintro rfl
  revert this
  decide

/-- No encoding is a proper prefix of another, and equal encodings belong to equal numbers. -/
theorem isCompact_prefix {m n : Nat} {b c x y : Str} (hb : Spec.IsCompact m b) (hc : Spec.IsCompact n c)
    (h : b ++ x = c ++ y) : m = n ∧ b = c ∧ x = y := by
  have vb := isCompact_value hb
  have vc := isCompact_value hc
  have hh : b.headD 0 = c.headD 0 := by
    have nb := isCompact_ne_nil hb
    have nc := isCompact_ne_nil hc
    cases b with
    | nil => contradiction
    | cons p ps => cases c with
      | nil => contradiction
      | cons q qs => simp at h; simp [h.1]
  rw [hh, ← vc.1] at vb
  obtain ⟨h1, h2⟩ := List.append_inj h vb.1
  subst h1
  exact ⟨vb.2.trans vc.2.symm, rfl, h2⟩

end ScaleGo
