import Verif.Lemmas.EthMath
import Verif.Lemmas.KernelRfl

/-!
# C73: numbers written as text are read back

`HexOrDecimal64`, `HexOrDecimal256` and `Decimal256` are written to and read from text.
What `HexOrDecimal256` writes for a negative number is refused when read.
-/

namespace ScaleGo

open EthMath

/-- Value of a string of hex digits in either case, most significant first. -/
def Spec.hexValue (s : List UInt8) : Nat := s.foldl (fun acc c => acc * 16 + Spec.hexChars.idxOf (if 65 ≤ c.toNat ∧ c.toNat ≤ 70 then c + 32 else c)) 0

theorem unhex_idx : ∀ n : Fin 256, ∀ x, unhexDigit (UInt8.ofNat n.val) = some x →
    x = Spec.hexChars.idxOf (if 65 ≤ (UInt8.ofNat n.val).toNat ∧ (UInt8.ofNat n.val).toNat ≤ 70 then UInt8.ofNat n.val + 32 else UInt8.ofNat n.val) := by
  decide +kernel

theorem hexToNat_spec (s : Str) (hs : s ≠ []) (hc : ∀ c ∈ s, Spec.IsHexChar c) : hexToNat? s = some (Spec.hexValue s) := by
  have hall : ∀ c ∈ s, (unhexDigit c).isSome = true := fun c h => by
    have := (isHexChar_unhex c).1 (hc c h)
    simpa [isHexByte] using this
  have hf : ∀ (l : Str) acc, (∀ c ∈ l, (unhexDigit c).isSome = true) →
      l.foldl (fun acc b => acc * 16 + (unhexDigit b).getD 0) acc =
      l.foldl (fun acc c => acc * 16 + Spec.hexChars.idxOf (if 65 ≤ c.toNat ∧ c.toNat ≤ 70 then c + 32 else c)) acc := by
    intro l
    induction l with
    | nil => intro acc _; rfl
    | cons c l ih =>
      intro acc h
      obtain ⟨x, hx⟩ := Option.isSome_iff_exists.1 (h c (by simp))
      have e := unhex_idx ⟨c.toNat, c.toNat_lt⟩ x (by simpa using hx)
      simp only [UInt8.ofNat_toNat] at e
      rw [List.foldl_cons, List.foldl_cons, hx, Option.getD_some, ← e]
      exact ih _ (fun c hm => h c (List.mem_cons_of_mem _ hm))
  unfold hexToNat?
  rw [if_neg, hf s 0 hall]; · rfl
  simp only [Bool.or_eq_true, List.isEmpty_iff, Bool.not_eq_true', not_or, Bool.not_eq_false]
  exact ⟨hs, List.all_eq_true.2 hall⟩

theorem decToNat_spec (s : Str) (hs : s ≠ []) (hd : ∀ c ∈ s, 48 ≤ c.toNat ∧ c.toNat ≤ 57) :
    decToNat? s = some (Spec.digitsValue s) := by
  unfold decToNat?
  rw [if_neg]; · rfl
  simp only [Bool.or_eq_true, List.isEmpty_iff, Bool.not_eq_true', not_or, Bool.not_eq_false]
  exact ⟨hs, List.all_eq_true.2 fun c h => by simpa [isDigit] using hd c h⟩

theorem not_hexMarked (s : Str) (h : ∀ c ∈ s.drop 1, c ≠ 120 ∧ c ≠ 88) : hexMarked s = false := by
  match s, h with
  | [], _ => rfl
  | [_], _ => simp [hexMarked]
  | a :: b :: rest, h =>
    obtain ⟨h1, h2⟩ := h b (by simp)
    simp [hexMarked, h1, h2]

theorem digits_not_hexMarked (s : Str) (hd : ∀ c ∈ s, 48 ≤ c.toNat ∧ c.toNat ≤ 57) : hexMarked s = false := by
  refine not_hexMarked s fun c hc => ?_
  have := hd c (List.mem_of_mem_drop hc)
  constructor <;> (rintro rfl; revert this; decide)

theorem filter_some_ite {α : Type} (p : α → Bool) (a : α) : (some a).filter p = if p a then some a else none := by
  cases h : p a <;> simp [h]

theorem bitLen_le (n k : Nat) : bitLen n ≤ k ↔ n < 2 ^ k := by
  unfold bitLen
  split
  · next h => subst h; simp
  · next h => rw [Nat.succ_le_iff, Nat.log2_lt h]

/-- A decimal text, leading zeros included, is read as its value, if that fits into 64 bits. -/
theorem C73_decimal64 (s : Str) (hs : s ≠ []) (hd : ∀ c ∈ s, 48 ≤ c.toNat ∧ c.toNat ≤ 57) :
    parseUint64 s = if Spec.digitsValue s < 2 ^ 64 then some (Spec.digitsValue s) else none := by
  rw [parseUint64, if_neg hs, digits_not_hexMarked s hd, if_neg (by decide), decToNat_spec s hs hd, inUint64, filter_some_ite]
  simp

/-- The same for hex digits in either case after `0x` or `0X`. -/
theorem C73_hex64 (x : UInt8) (hx : x = 120 ∨ x = 88) (s : Str) (hs : s ≠ []) (hc : ∀ c ∈ s, Spec.IsHexChar c) :
    parseUint64 (48 :: x :: s) = if Spec.hexValue s < 2 ^ 64 then some (Spec.hexValue s) else none := by
  have hm : hexMarked (48 :: x :: s) = true := by rcases hx with rfl | rfl <;> simp [hexMarked]
  rw [parseUint64, if_neg (by simp), if_pos hm]
  simp only [List.drop_succ_cons, List.drop_zero]
  rw [hexToNat_spec s hs hc, inUint64, filter_some_ite]
  simp

/-- A decimal text is read as its value, if that is below 2^256. -/
theorem C73_decimal256 (s : Str) (hs : s ≠ []) (hd : ∀ c ∈ s, 48 ≤ c.toNat ∧ c.toNat ≤ 57) :
    parseBig256 s = if Spec.digitsValue s < 2 ^ 256 then some (Spec.digitsValue s : Int) else none := by
  have hall : s.all isDigit = true := List.all_eq_true.2 fun c h => by simpa [isDigit] using hd c h
  rw [parseBig256, if_neg hs, digits_not_hexMarked s hd, if_neg (by decide), decToInt_of_digits hall, decToNat_spec s hs hd,
    Option.map_some, filter_some_ite]
  simp only [Int.ofNat_eq_natCast, Int.natAbs_natCast, bitLen_le, decide_eq_true_eq]

/-- A hex text is read as its value, if that is below 2^256. -/
theorem C73_hex256 (x : UInt8) (hx : x = 120 ∨ x = 88) (s : Str) (hs : s ≠ []) (hc : ∀ c ∈ s, Spec.IsHexChar c) :
    parseBig256 (48 :: x :: s) = if Spec.hexValue s < 2 ^ 256 then some (Spec.hexValue s : Int) else none := by
  have hm : hexMarked (48 :: x :: s) = true := by rcases hx with rfl | rfl <;> simp [hexMarked]
  have hi : hexToInt? s = (hexToNat? s).map Int.ofNat := by
    match s, hs, hc with
    | c :: cs, _, hc =>
      have h := hc c (by simp)
      have h1 : c ≠ 43 := by rintro rfl; revert h; unfold Spec.IsHexChar; decide
      have h2 : c ≠ 45 := by rintro rfl; revert h; unfold Spec.IsHexChar; decide
      unfold hexToInt?
      split
      · next h => exact absurd (List.cons.inj h).1 h1
      · next h => exact absurd (List.cons.inj h).1 h2
      · rfl
  rw [parseBig256, if_neg (by simp), if_pos hm]
  simp only [List.drop_succ_cons, List.drop_zero]
  rw [hi, hexToNat_spec s hs hc, Option.map_some, filter_some_ite]
  simp only [Int.ofNat_eq_natCast, Int.natAbs_natCast, bitLen_le, decide_eq_true_eq]

/-- Hex digits after a sign are read with the sign. -/
theorem C73_hex_signed (x : UInt8) (hx : x = 120 ∨ x = 88) (neg : Bool) (s : Str) (hs : s ≠ []) (hc : ∀ c ∈ s, Spec.IsHexChar c) :
    parseBig256 (48 :: x :: (if neg then 45 else 43) :: s) =
      if Spec.hexValue s < 2 ^ 256 then some (if neg then -(Spec.hexValue s : Int) else Spec.hexValue s) else none := by
  have hm : hexMarked (48 :: x :: (if neg then 45 else 43) :: s) = true := by rcases hx with rfl | rfl <;> simp [hexMarked]
  rw [parseBig256, if_neg (by simp), if_pos hm]
  simp only [List.drop_succ_cons, List.drop_zero]
  cases neg <;> simp only [hexToInt?, hexToNat_spec s hs hc, Option.map_some, filter_some_ite, Bool.false_eq_true, if_false, if_true] <;>
    simp only [Int.ofNat_eq_natCast, Int.natAbs_neg, Int.natAbs_natCast, bitLen_le, decide_eq_true_eq]

/-- Decimal digits after a sign are read with the sign. -/
theorem C73_decimal_signed (neg : Bool) (s : Str) (hs : s ≠ []) (hd : ∀ c ∈ s, 48 ≤ c.toNat ∧ c.toNat ≤ 57) :
    parseBig256 ((if neg then 45 else 43) :: s) =
      if Spec.digitsValue s < 2 ^ 256 then some (if neg then -(Spec.digitsValue s : Int) else Spec.digitsValue s) else none := by
  have hm : hexMarked ((if neg then 45 else 43) :: s) = false := by cases neg <;> simp [hexMarked]
  rw [parseBig256, if_neg (by simp), hm]
  cases neg <;> simp only [decToInt?, decToNat_spec s hs hd, Option.map_some, filter_some_ite, Bool.false_eq_true, if_false, if_true] <;>
    simp only [Int.ofNat_eq_natCast, Int.natAbs_neg, Int.natAbs_natCast, bitLen_le, decide_eq_true_eq]

/-- Whatever is read is below 2^256 in absolute value (a sign is accepted). -/
theorem C73_range (s : Str) (x : Int) (h : parseBig256 s = some x) : x.natAbs < 2 ^ 256 := by
  unfold parseBig256 at h
  split at h
  · cases h; decide
  · have := (Option.filter_eq_some_iff.1 h).2
    exact (bitLen_le _ _).1 (of_decide_eq_true this)

theorem natToHex_lt {n : Nat} (h : n < 16) : natToHex n = [hexDigit n] := by simp [natToHex, hexAux, h]

theorem hexAux_fuel (n : Nat) : ∀ f g, n < f → n < g → hexAux f n [] = hexAux g n [] := by
  induction n using Nat.strongRecOn with
  | _ n ih =>
    intro f g hf hg
    cases f with
    | zero => omega
    | succ f =>
      cases g with
      | zero => omega
      | succ g =>
        simp only [hexAux]
        split
        · rfl
        · rw [hexAux_eq_append f, hexAux_eq_append g, ih (n / 16) (by omega) f g (by omega) (by omega)]

theorem natToHex_ge {n : Nat} (h : 16 ≤ n) : natToHex n = natToHex (n / 16) ++ [hexDigit (n % 16)] := by
  unfold natToHex
  rw [hexAux, if_neg (by omega), hexAux_eq_append, hexAux_fuel (n / 16) n (n / 16 + 1) (by omega) (by omega)]

theorem hexDigit_idx : ∀ n : Fin 16, Spec.IsHexChar (hexDigit n.val) ∧
    Spec.hexChars.idxOf (if 65 ≤ (hexDigit n.val).toNat ∧ (hexDigit n.val).toNat ≤ 70 then hexDigit n.val + 32 else hexDigit n.val) = n.val := by
  unfold Spec.IsHexChar; decide +kernel

theorem natToHex_spec (n : Nat) : natToHex n ≠ [] ∧ (∀ c ∈ natToHex n, Spec.IsHexChar c) ∧ Spec.hexValue (natToHex n) = n := by
  induction n using Nat.strongRecOn with
  | _ n ih =>
    by_cases h : n < 16
    · rw [natToHex_lt h]
      have := hexDigit_idx ⟨n, h⟩
      refine ⟨by simp, fun c hc => ?_, ?_⟩
      · obtain rfl := List.mem_singleton.1 hc
        exact this.1
      · rw [Spec.hexValue, List.foldl_cons, this.2]
        simp
    · rw [natToHex_ge (by omega)]
      obtain ⟨_, h2, h3⟩ := ih (n / 16) (by omega)
      have := hexDigit_idx ⟨n % 16, by omega⟩
      refine ⟨by simp, fun c hc => ?_, ?_⟩
      · rcases List.mem_append.1 hc with h | h
        · exact h2 c h
        · obtain rfl := List.mem_singleton.1 h
          exact this.1
      · rw [Spec.hexValue, List.foldl_append, ← Spec.hexValue, h3, List.foldl_cons, this.2]
        simp only [List.foldl_nil]
        omega

/-- Every 64-bit number survives writing and reading. -/
theorem C73_round_trip64 (n : Nat) (h : n < 2 ^ 64) : parseUint64 (marshal64 n) = some n := by
  obtain ⟨h1, h2, h3⟩ := natToHex_spec n
  have := C73_hex64 120 (Or.inl rfl) (natToHex n) h1 h2
  rw [h3, if_pos h] at this
  exact this

/-- Every number below 2^256 in absolute value survives writing and reading as decimal. -/
theorem C73_round_trip_decimal (x : Int) (h : x.natAbs < 2 ^ 256) : parseBig256 (marshalDec256 (some x)) = some x := by
  obtain ⟨d, rest, hd, hdig⟩ := natToDec_head_digit x.natAbs
  have hdigs : ∀ c ∈ natToDec x.natAbs, 48 ≤ c.toNat ∧ c.toNat ≤ 57 := fun c hc => by
    simpa [isDigit] using List.all_eq_true.1 (natToDec_digits x.natAbs) c hc
  have hv : Spec.digitsValue (natToDec x.natAbs) = x.natAbs := decFold_natToDec _
  simp only [marshalDec256, intToDec]
  split
  · next hneg =>
    have hm : hexMarked (45 :: natToDec x.natAbs) = false := by
      refine not_hexMarked _ fun c hc => ?_
      have := hdigs c (by simpa using hc)
      constructor <;> (rintro rfl; revert this; decide)
    rw [parseBig256, if_neg (by simp), hm, if_neg (by decide), decToInt?, decToNat_spec _ (natToDec_ne_nil _) hdigs, hv,
      Option.map_some, filter_some_ite]
    have e : -Int.ofNat x.natAbs = x := by simp only [Int.ofNat_eq_natCast]; omega
    rw [e, if_pos]
    exact decide_eq_true ((bitLen_le _ _).2 h)
  · next hneg =>
    rw [C73_decimal256 _ (natToDec_ne_nil _) hdigs, hv, if_pos h]
    congr 1
    omega

/-- The same for `HexOrDecimal256`. -/
def C73Claim : Prop := ∀ x : Int, x.natAbs < 2 ^ 256 → parseBig256 (marshalHex256 (some x)) = some x

/-- -1 is written as `-0x1`, which is refused. -/
theorem C73_claim_false : ¬ C73Claim := by
  intro h
  have h1 := h (-1) (by decide)
  have h2 : parseBig256 (marshalHex256 (some (-1))) = none := by kernel_rfl
  rw [h2] at h1
  cases h1

/-- No negative number survives. -/
theorem C73_negative (x : Int) (hx : x < 0) : parseBig256 (marshalHex256 (some x)) = none := by
  simp only [marshalHex256]
  rw [if_pos hx]
  have hm : hexMarked (45 :: b!"0x" ++ natToHex x.natAbs) = false := by simp [hexMarked]
  rw [parseBig256, if_neg (by simp), hm, if_neg (by decide)]
  simp [decToInt?, decToNat?, isDigit]

/-- Numbers from 0 to 2^256 - 1 survive; missing: negative ones. -/
theorem C73_partial (x : Int) (h0 : 0 ≤ x) (h : x < 2 ^ 256) : parseBig256 (marshalHex256 (some x)) = some x := by
  obtain ⟨h1, h2, h3⟩ := natToHex_spec x.natAbs
  have := C73_hex256 120 (Or.inl rfl) (natToHex x.natAbs) h1 h2
  rw [h3, if_pos (by omega)] at this
  simp only [marshalHex256]
  rw [if_neg (by omega)]
  refine this.trans ?_
  congr 1
  omega

/-- The empty text is zero, a mark without digits is refused, and the panicking forms fail exactly when the others do. -/
theorem C73_empty : parseUint64 [] = some 0 ∧ parseBig256 [] = some 0 ∧ parseUint64 b!"0x" = none ∧ parseBig256 b!"0X" = none := by
  decide +kernel

theorem C73_must (s : Str) : (mustParseUint64 s = .panic ↔ parseUint64 s = none) ∧ (mustParseBig256 s = .panic ↔ parseBig256 s = none) := by
  unfold mustParseUint64 mustParseBig256
  constructor <;> split <;> simp_all

example : parseUint64 b!"0X00fF" = some 255 ∧ parseUint64 b!"18446744073709551616" = none ∧ parseUint64 b!"007" = some 7 ∧
    parseBig256 b!"-12" = some (-12) ∧ parseBig256 b!"0x-5" = some (-5) ∧ marshalHex256 (some (-1)) = b!"-0x1" := by decide +kernel

end ScaleGo
