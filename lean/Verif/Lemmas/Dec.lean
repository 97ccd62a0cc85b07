import Verif.Lemmas.Codec

/-! # Decimal and hex numerals in the encoders -/

namespace ScaleGo

theorem isNumeral_digits {s : Str} {n : Nat} (h : Spec.IsNumeral s n) : s.all isDigit = true := by
  rw [List.all_eq_true]
  intro c hc
  have := h.2.1 c hc
  simp only [isDigit, Bool.and_eq_true, decide_eq_true_eq]
  omega

theorem isNumeral_decToNat {s : Str} {n : Nat} (h : Spec.IsNumeral s n) : decToNat? s = some n := by
  unfold decToNat?
  have h1 : s.isEmpty = false := by
    have := h.1
    cases s <;> simp_all
  rw [isNumeral_digits h, h1]
  simp only [Bool.not_true, Bool.or_self, Bool.false_eq_true, if_false]
  have := h.2.2.2
  unfold Spec.digitsValue at this
  rw [this]

theorem decToInt_of_digits {s : Str} (hd : s.all isDigit = true) : decToInt? s = (decToNat? s).map Int.ofNat := by
  match s with
  | [] => rfl
  | c :: rest =>
    have hc : isDigit c = true := by simp at hd; exact hd.1
    have h43 : c ≠ 43 := by rintro rfl; simp [isDigit] at hc
    have h45 : c ≠ 45 := by rintro rfl; simp [isDigit] at hc
    unfold decToInt?
    split
    · contradiction
    · rename_i h; exact absurd (List.cons.inj h).1 h43
    · rename_i h; exact absurd (List.cons.inj h).1 h45
    · rfl

theorem splitExp_digits : ∀ {s : Str}, s.all isDigit = true → splitExp s = (s, none)
  | [], _ => rfl
  | c :: cs, h => by
    simp only [List.all_cons, Bool.and_eq_true] at h
    have h1 : ¬ (c = 69 ∨ c = 101) := by rintro (rfl | rfl) <;> simp [isDigit] at h
    rw [splitExp, if_neg h1, splitExp_digits h.2]

theorem splitSepAux_none (sep : Str) (d : UInt8) (hs : ∃ t, sep = d :: t) :
    ∀ (s cur : Str), d ∉ s → splitSepAux sep 0 cur s = [cur.reverse ++ s]
  | [], cur, _ => by simp [splitSepAux]
  | c :: cs, cur, h => by
    obtain ⟨t, rfl⟩ := hs
    have hne : (d == c) = false := by
      apply beq_false_of_ne
      rintro rfl
      exact h (by simp)
    rw [splitSepAux, List.isPrefixOf_cons_cons, hne]
    simp only [Bool.false_and, Bool.false_eq_true, if_false]
    rw [splitSepAux_none (d :: t) d ⟨t, rfl⟩ cs (c :: cur) (fun hm => h (by simp [hm]))]
    simp

theorem splitSep_none (sep s : Str) (d : UInt8) (hs : ∃ t, sep = d :: t) (h : d ∉ s) : splitSep s sep = [s] := by
  rw [splitSep, splitSepAux_none sep d hs s [] h]
  rfl

/-- A decimal numeral parses to its value with exponent 0. -/
theorem decParse_numeral {s : Str} {n : Nat} (h : Spec.IsNumeral s n) : decParse s = some ((n : Int), 0) := by
  have hd := isNumeral_digits h
  have hdot : (46 : UInt8) ∉ s := fun hm => by
    have := h.2.1 46 hm
    simp at this
  unfold decParse
  rw [splitExp_digits hd]
  simp only [expPart, coefPart]
  rw [splitSep_none b!"." s 46 ⟨[], rfl⟩ hdot]
  simp only [decToInt_of_digits hd, isNumeral_decToNat h]
  simp

theorem decTrunc_zero (c : Int) : decTrunc c 0 = c := by simp [decTrunc]

theorem denotes_dec_zero (i : Int) : Denotes (.dec i 0) i := by simp [Denotes]

/-! ## Hex numerals -/

/-- The `k` low hex digits of `n`, most significant first. -/
def hexFix : Nat → Nat → Str
  | 0, _ => []
  | k + 1, n => hexFix k (n / 16) ++ [hexDigit (n % 16)]

theorem hexFix_length (k n : Nat) : (hexFix k n).length = k := by
  induction k generalizing n with
  | zero => rfl
  | succ k ih => simp [hexFix, ih]

theorem hexFix_zero (k : Nat) : hexFix k 0 = List.replicate k 48 := by
  induction k with
  | zero => rfl
  | succ k ih =>
    rw [hexFix, Nat.zero_div, ih]
    rw [List.replicate_succ']
    rfl

theorem hexAux_eq_append (fuel n : Nat) (acc : Str) : hexAux fuel n acc = hexAux fuel n [] ++ acc := by
  induction fuel generalizing n acc with
  | zero => simp [hexAux]
  | succ f ih =>
    simp only [hexAux]
    split
    · simp
    · rw [ih _ (_ :: acc), ih _ [_]]; simp

theorem hexAux_fix (fuel : Nat) : ∀ n k, n < fuel → n < 16 ^ (k + 1) →
    (hexAux fuel n []).length ≤ k + 1 ∧
    List.replicate (k + 1 - (hexAux fuel n []).length) 48 ++ hexAux fuel n [] = hexFix (k + 1) n := by
  induction fuel with
  | zero => intro n k h; omega
  | succ f ih =>
    intro n k hf hk
    simp only [hexAux]
    split
    · rename_i hlt
      refine ⟨by simp, ?_⟩
      rw [hexFix, Nat.div_eq_of_lt hlt, hexFix_zero, Nat.mod_eq_of_lt hlt]
      simp
    · rename_i hge
      cases k with
      | zero => simp at hk; omega
      | succ k =>
        have h1 : n / 16 < f := by omega
        have h2 : n / 16 < 16 ^ (k + 1) := by
          rw [Nat.div_lt_iff_lt_mul (by decide)]
          rw [Nat.pow_succ] at hk
          exact hk
        obtain ⟨hl, he⟩ := ih (n / 16) k h1 h2
        rw [hexAux_eq_append]
        refine ⟨by simp; omega, ?_⟩
        rw [hexFix, ← he]
        simp

theorem rightJustify_natToHex (n k : Nat) (h : n < 16 ^ (k + 1)) : rightJustify0 (natToHex n) (k + 1) = hexFix (k + 1) n :=
  (hexAux_fix (n + 1) n k (by omega) h).2

theorem hexFix_bytes (m n : Nat) : hexFix (2 * m) n = bytesToHex (lePut m n).reverse := by
  induction m generalizing n with
  | zero => rfl
  | succ m ih =>
    rw [show 2 * (m + 1) = 2 * m + 1 + 1 by omega, hexFix, hexFix, Nat.div_div_eq_div_mul, ih, lePut, List.reverse_cons,
      bytesToHex_append]
    have h1 : (UInt8.ofNat (n % 256)).toNat = n % 256 := by simp
    simp only [bytesToHex, h1, List.append_assoc, List.cons_append, List.nil_append]
    rw [show n % 256 / 16 = n / 16 % 16 by omega, show n % 256 % 16 = n % 16 by omega]

/-! ## Minimal big-endian bytes -/

theorem byteLen_spec (n : Nat) : n < 256 ^ byteLen n ∧ (n ≠ 0 → 256 ^ (byteLen n - 1) ≤ n) := by
  unfold byteLen
  split
  · rename_i h; subst h; simp
  · rename_i h
    have hb := Nat.log2_self_le h
    have ha := @Nat.lt_log2_self n
    refine ⟨?_, fun _ => ?_⟩
    · rw [pow256]
      refine Nat.lt_of_lt_of_le ha (Nat.pow_le_pow_right (by decide) ?_)
      omega
    · rw [pow256]
      refine Nat.le_trans (Nat.pow_le_pow_right (by decide) ?_) hb
      omega

theorem beMin_length (n : Nat) : (beMin n).length = byteLen n := by simp [beMin]

theorem byteLen_eq {n k : Nat} (h1 : n < 256 ^ k) (h2 : 256 ^ (k - 1) ≤ n) (hk : 0 < k) : byteLen n = k := by
  have hn : n ≠ 0 := by
    have : 0 < 256 ^ (k - 1) := Nat.pow_pos (by decide)
    omega
  obtain ⟨a, b⟩ := byteLen_spec n
  have b := b hn
  have x1 : k - 1 < byteLen n := (Nat.pow_lt_pow_iff_right (by decide : 1 < 256)).mp (Nat.lt_of_le_of_lt h2 a)
  have x2 : byteLen n - 1 < k := (Nat.pow_lt_pow_iff_right (by decide : 1 < 256)).mp (Nat.lt_of_le_of_lt b h1)
  omega

theorem byteLen_le {n k : Nat} (h : n < 256 ^ k) : byteLen n ≤ k := by
  by_cases hn : n = 0
  · subst hn; simp [byteLen]
  · obtain ⟨a, b⟩ := byteLen_spec n
    have b := b hn
    have x2 : byteLen n - 1 < k := (Nat.pow_lt_pow_iff_right (by decide : 1 < 256)).mp (Nat.lt_of_le_of_lt b h)
    omega

theorem lePut_pad (n k j : Nat) (h : n < 256 ^ j) (hjk : j ≤ k) : lePut k n = lePut j n ++ List.replicate (k - j) 0 := by
  induction j generalizing n k with
  | zero =>
    have : n = 0 := by simp at h; exact h
    subst this
    simp only [lePut, List.nil_append, Nat.sub_zero]
    clear hjk h
    induction k with
    | zero => rfl
    | succ k ih => rw [lePut, List.replicate_succ, Nat.zero_div, ih]; rfl
  | succ j ih =>
    obtain ⟨k, rfl⟩ : ∃ k', k = k' + 1 := ⟨k - 1, by omega⟩
    rw [lePut, lePut, ih (n / 256) k (by rw [Nat.div_lt_iff_lt_mul (by decide)]; rw [Nat.pow_succ] at h; exact h) (by omega)]
    simp [show k + 1 - (j + 1) = k - j by omega]

/-- Minimal bytes padded on the left to `k` bytes. -/
theorem beMin_pad (n k : Nat) (h : n < 256 ^ k) :
    List.replicate (k - (beMin n).length) 0 ++ beMin n = (lePut k n).reverse := by
  rw [beMin_length, lePut_pad n k (byteLen n) (byteLen_spec n).1 (byteLen_le h), List.reverse_append, List.reverse_replicate]
  rfl

theorem lePut_take (k m n : Nat) (h : k ≤ m) : (lePut m n).take k = lePut k n := by
  induction k generalizing m n with
  | zero => rfl
  | succ k ih =>
    obtain ⟨m, rfl⟩ : ∃ m', m = m' + 1 := ⟨m - 1, by omega⟩
    rw [lePut, lePut, List.take_succ_cons, ih m (n / 256) (by omega)]

theorem lePut_mod (k n m : Nat) (h : 256 ^ k ∣ m) : lePut k (n % m) = lePut k n := by
  induction k generalizing n m with
  | zero => rfl
  | succ k ih =>
    obtain ⟨t, rfl⟩ := h
    rw [lePut, lePut, Nat.pow_succ, Nat.mul_comm (256 ^ k) 256, Nat.mul_assoc]
    rw [Nat.mod_mul_right_mod, Nat.mod_mul_right_div_self, ih _ _ ⟨t, rfl⟩]

theorem natPow_cast (k : Nat) : (2 ^ k : Int) = ((2 ^ k : Nat) : Int) := by push_cast; rfl

theorem toUint_mod (a b : Nat) (h : a ≤ b) (i : Int) : toUint a i = toUint b i % 2 ^ a := by
  unfold toUint
  have d : (2 ^ a : Int) ∣ 2 ^ b := by
    obtain ⟨c, rfl⟩ : ∃ c, b = a + c := ⟨b - a, by omega⟩
    exact ⟨2 ^ c, Int.pow_add _ _ _⟩
  rw [← Int.emod_emod_of_dvd i d]
  have hpos : (0 : Int) < 2 ^ b := by rw [natPow_cast]; exact Int.natCast_pos.mpr (Nat.pow_pos (by decide))
  obtain ⟨x, hx⟩ := Int.eq_ofNat_of_zero_le (Int.emod_nonneg i (Int.ne_of_gt hpos))
  rw [hx, natPow_cast a]
  rfl

theorem lePut_toUint (k m : Nat) (h : k ≤ m) (i : Int) : lePut k (toUint (8 * m) i) = lePut k (toUint (8 * k) i) := by
  rw [toUint_mod (8 * k) (8 * m) (by omega), lePut_mod k _ _ (by rw [pow256]; exact Nat.dvd_refl _)]

theorem encodes_unique {env : Env} {ctx : ECtx} {ty : Str} {v : Val} {b c : Str} (h1 : Encodes env ctx ty v b)
    (h2 : Encodes env ctx ty v c) : b = c := by
  obtain ⟨N, h1⟩ := h1
  obtain ⟨M, h2⟩ := h2
  have e := h1 (N + M) (by omega)
  rw [h2 (N + M) (by omega)] at e
  have e := Res.ok.inj e
  rw [← bytesToHex_eq_spec, ← bytesToHex_eq_spec] at e
  exact (bytesToHex_injective e).symm

theorem decodes_val_unique {env : Env} {ctx : Ctx} {ty b : Str} {v w : Val} {ic jc : List Str} (h1 : Decodes env ctx ty b v ic)
    (h2 : Decodes env ctx ty b w jc) (hl : b.length < 2 ^ 63) : v = w := by
  obtain ⟨N, h1⟩ := h1
  obtain ⟨M, h2⟩ := h2
  have e := h1 (N + M) (by omega) [] [] [] (by simpa using hl)
  rw [h2 (N + M) (by omega) [] [] [] (by simpa using hl)] at e
  exact (congrArg Prod.fst (Res.ok.inj e)).symm

/-- Decoding reads one prefix only. -/
theorem decodes_buffer_prefix {env : Env} {ctx : Ctx} {ty b c : Str} {v w : Val} {ic jc : List Str} (h1 : Decodes env ctx ty b v ic)
    (h2 : Decodes env ctx ty (b ++ c) w jc) (hl : (b ++ c).length < 2 ^ 63) : v = w ∧ c = [] := by
  obtain ⟨N, h1⟩ := h1
  obtain ⟨M, h2⟩ := h2
  have e1 := h1 (N + M) (by omega) [] c [] (by simpa using hl)
  have e2 := h2 (N + M) (by omega) [] [] [] (by simpa using hl)
  simp only [List.nil_append, List.append_nil] at e1 e2
  rw [e1] at e2
  have e := Res.ok.inj e2
  have h3 := congrArg (fun p => p.2.cur.off) e
  simp only [List.length_nil, List.length_append, Nat.zero_add] at h3
  exact ⟨congrArg Prod.fst e, List.eq_nil_of_length_eq_zero (by omega)⟩

theorem argOf_eq {v : Val} (h : v ≠ .nil) : argOf v = v := by
  cases v <;> first | contradiction | rfl

end ScaleGo
