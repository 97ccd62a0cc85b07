import Verif.Model.Helpers
import Verif.Props.C01
import Verif.Props.C02
import Verif.Props.C50
import Verif.Props.C73
import Verif.Lemmas.Codec

/-! # C99: reading numbers from hex text

`utiles.U256` reads a hex text as a big-endian number, `utiles.U256DecoderToBigInt` reads the hex text of little-endian
bytes.  The second loses the middle byte of an odd number of bytes. -/

namespace ScaleGo

open EthMath

theorem hexDigit_not_sign : ∀ n : Fin 256, (unhexDigit (UInt8.ofNat n.val)).isSome = true →
    UInt8.ofNat n.val ≠ 43 ∧ UInt8.ofNat n.val ≠ 45 := by decide +kernel

theorem hexToInt_hex (s : Str) (hs : s ≠ []) (hc : ∀ c ∈ s, Spec.IsHexChar c) :
    hexToInt? s = some (Spec.hexValue s : Int) := by
  cases s with
  | nil => exact absurd rfl hs
  | cons c l =>
    have h1 := (isHexChar_unhex c).1 (hc c (by simp))
    have h2 := hexDigit_not_sign ⟨c.toNat, c.toNat_lt⟩ (by simpa [isHexByte] using h1)
    simp only [UInt8.ofNat_toNat] at h2
    unfold hexToInt?
    split
    · rename_i e; exact absurd (List.cons.inj e).1 h2.1
    · rename_i e; exact absurd (List.cons.inj e).1 h2.2
    · rw [hexToNat_spec _ hs hc]; rfl

/-- A hex text in any letter case, with or without `0x`, is read as its number; `-` in front negates it. -/
theorem C99_text (s : Str) (hs : s ≠ []) (hc : ∀ c ∈ s, Spec.IsHexChar c) :
    u256OfText s = some (Spec.hexValue s : Int) ∧ u256OfText (b!"0x" ++ s) = some (Spec.hexValue s : Int) ∧
    u256OfText (b!"0x-" ++ s) = some (-(Spec.hexValue s : Int)) := by
  refine ⟨?_, ?_, ?_⟩
  · rw [u256OfText, trimHex_of_hex hc, hexToInt_hex s hs hc]
  · rw [u256OfText, show trimHex (b!"0x" ++ s) = s from rfl, hexToInt_hex s hs hc]
  · rw [u256OfText, show trimHex (b!"0x-" ++ s) = 45 :: s from rfl]
    show (hexToNat? s).map _ = _
    rw [hexToNat_spec _ hs hc]; rfl

/-- Only a sign and hex digits are read: any other text gives `nil`. -/
theorem C99_refused (s : Str) (n : Int) (h : u256OfText s = some n) :
    ∃ t, t ≠ [] ∧ (∀ c ∈ t, Spec.IsHexChar c) ∧
      ((n = Spec.hexValue t ∧ (trimHex s = t ∨ trimHex s = 43 :: t)) ∨ (n = -(Spec.hexValue t : Int) ∧ trimHex s = 45 :: t)) := by
  have key : ∀ t m, hexToNat? t = some m → t ≠ [] ∧ (∀ c ∈ t, Spec.IsHexChar c) ∧ m = Spec.hexValue t := by
    intro t m hm
    have hm' := hm
    unfold hexToNat? at hm
    split at hm
    · cases hm
    · rename_i hn
      simp only [Bool.or_eq_true, List.isEmpty_iff, Bool.not_eq_true', not_or, Bool.not_eq_false] at hn
      have hc : ∀ c ∈ t, Spec.IsHexChar c := fun c h => (isHexChar_unhex c).2 (by
        have := List.all_eq_true.1 hn.2 c h; simpa [isHexByte] using this)
      refine ⟨hn.1, hc, ?_⟩
      rw [hexToNat_spec t hn.1 hc] at hm'
      exact (Option.some.inj hm').symm
  unfold u256OfText hexToInt? at h
  split at h <;> (obtain ⟨m, hm, rfl⟩ := Option.map_eq_some_iff.1 h; obtain ⟨h1, h2, rfl⟩ := key _ _ hm)
  · rename_i e; exact ⟨_, h1, h2, .inl ⟨rfl, .inr e⟩⟩
  · rename_i e; exact ⟨_, h1, h2, .inr ⟨rfl, e⟩⟩
  · exact ⟨_, h1, h2, .inl ⟨rfl, .inl rfl⟩⟩

theorem hexDigits_value (b : Str) (acc : Nat) : (bytesToHex b).foldl (fun acc c => acc * 16 + (unhexDigit c).getD 0) acc =
    b.foldl (fun acc x => acc * 256 + x.toNat) acc := by
  induction b generalizing acc with
  | nil => rfl
  | cons x xs ih =>
    have hx : x.toNat < 256 := x.toNat_lt
    simp only [bytesToHex, List.foldl_cons, unhex_hexDigit (show x.toNat / 16 < 16 by omega),
      unhex_hexDigit (show x.toNat % 16 < 16 by omega), Option.getD_some]
    rw [ih, show (acc * 16 + x.toNat / 16) * 16 + x.toNat % 16 = acc * 256 + x.toNat by omega]

theorem hexToNat_bytes (b : Str) (hb : b ≠ []) : hexToNat? (bytesToHex b) = some (beNat b) := by
  have hall : ((bytesToHex b).all fun c => (unhexDigit c).isSome) = true := by
    clear hb
    induction b with
    | nil => rfl
    | cons x xs ih =>
      have hx : x.toNat < 256 := x.toNat_lt
      simp only [bytesToHex, List.all_cons, unhex_hexDigit (show x.toNat / 16 < 16 by omega),
        unhex_hexDigit (show x.toNat % 16 < 16 by omega), ih]
      rfl
  unfold hexToNat?
  rw [if_neg, hexDigits_value]; · rfl
  rw [hall]
  cases b with
  | nil => exact absurd rfl hb
  | cons x xs => simp [bytesToHex]

/-- The hex text of bytes is read as the big-endian number of the bytes, which is what the rest of the model uses. -/
theorem C99_bytes (b : Str) : u256OfText (bytesToHex b) = (u256OfBytes b).map Int.ofNat := by
  rw [u256OfText, trimHex_bytesToHex]
  cases b with
  | nil => rfl
  | cons x xs =>
    have h := hexToNat_bytes (x :: xs) (by simp)
    have hx : x.toNat < 256 := x.toNat_lt
    have h2 := hexDigit_not_sign ⟨(hexDigit (x.toNat / 16)).toNat, (hexDigit _).toNat_lt⟩ (by
      simp only [UInt8.ofNat_toNat, unhex_hexDigit (show x.toNat / 16 < 16 by omega)]; rfl)
    simp only [UInt8.ofNat_toNat] at h2
    unfold hexToInt?
    split
    · rename_i e; exact absurd (List.cons.inj e).1 h2.1
    · rename_i e; exact absurd (List.cons.inj e).1 h2.2
    · rw [h]; rfl

theorem lower_hex : ∀ n : Fin 256, isHexByte (if 65 ≤ n.val ∧ n.val ≤ 90 then UInt8.ofNat n.val + 32 else UInt8.ofNat n.val) = true →
    isHexByte (UInt8.ofNat n.val) = true := by
  decide +kernel

theorem bytesToHex_all (b : Str) : (bytesToHex b).all isHexByte = true := by
  induction b with
  | nil => rfl
  | cons x xs ih =>
    have hx : x.toNat < 256 := x.toNat_lt
    simp only [bytesToHex, List.all_cons, isHexByte, unhex_hexDigit (show x.toNat / 16 < 16 by omega),
      unhex_hexDigit (show x.toNat % 16 < 16 by omega)]
    exact ih

theorem isHexOf_bytes {s b : Str} (h : IsHexOf s b) : hexToBytes s = b := by
  obtain ⟨t, ht, hb⟩ := h
  have hlen : t.length = 2 * b.length := by
    have := congrArg List.length hb
    rw [← bytesToHex_eq_spec, bytesToHex_length, ← toLower_eq_spec] at this
    simpa [toLower] using this
  have hc : ∀ c ∈ t, Spec.IsHexChar c := by
    intro c hc
    have hm : (if 65 ≤ c.toNat ∧ c.toNat ≤ 90 then c + 32 else c) ∈ bytesToHex b := by
      rw [bytesToHex_eq_spec, ← hb]; exact List.mem_map.2 ⟨c, hc, rfl⟩
    have h1 := List.all_eq_true.1 (bytesToHex_all b) _ hm
    have h2 := lower_hex ⟨c.toNat, c.toNat_lt⟩ (by simpa only [UInt8.ofNat_toNat] using h1)
    exact (isHexChar_unhex c).2 (by simpa only [UInt8.ofNat_toNat] using h2)
  have h2 := C01_print_parse t (by omega) hc
  rw [hb, ← bytesToHex_eq_spec] at h2
  rcases ht with rfl | rfl
  · exact C01_injective _ _ h2.1
  · exact C01_injective _ _ h2.2

/-- The full claim: the hex text of the `w` little-endian bytes of a number gives the number. -/
def C99Claim : Prop := ∀ (s : Str) (w n : Nat), w ≠ 0 → n < 256 ^ w → IsHexOf s (Spec.leBytes w n) →
  u256DecoderToBigInt s = some (n : Int)

/-- What it does: an even number of bytes is read as the little-endian number. -/
theorem C99_partial (s : Str) (w n : Nat) (hw : w ≠ 0) (heven : w % 2 = 0) (hn : n < 256 ^ w)
    (hs : IsHexOf s (Spec.leBytes w n)) : u256DecoderToBigInt s = some (n : Int) := by
  have hl : (Spec.leBytes w n).length = w := by rw [← lePut_eq_spec]; simp
  rw [u256DecoderToBigInt, isHexOf_bytes hs, C99_bytes, reverseBytes_even _ (by rw [hl]; exact heven), u256OfBytes, if_neg,
    beNat_reverse, leNat_leBytes hn]
  · rfl
  · rw [List.isEmpty_iff, List.reverse_eq_nil_iff]; intro e; rw [e] at hl; exact hw hl.symm

/-- An odd number of bytes is read as if its middle byte were zero. -/
theorem C99_odd (s l r : Str) (x : UInt8) (h : l.length = r.length) (hs : IsHexOf s (l ++ x :: r)) :
    u256DecoderToBigInt s = some (leNat (l ++ 0 :: r) : Int) := by
  have hrev : reverseBytes (l ++ x :: r) = (l ++ 0 :: r).reverse := by
    rw [C02_loses_middle l r x 0 h]
    apply List.ext_getElem (by simp; omega)
    intro k h1 h2
    have hk : k < (l ++ 0 :: r).length := by simpa using h1
    have e := (C02_exact (l ++ 0 :: r) k hk).2
    rw [List.getD_eq_getElem?_getD, List.getElem?_eq_getElem h1, List.getD_eq_getElem?_getD, List.getElem?_eq_getElem h2,
      Option.getD_some, Option.getD_some] at e
    rw [e]
    split
    · rename_i hm
      simp only [List.length_append, List.length_cons] at hm
      have hkr : k = r.length := by omega
      subst hkr
      simp
    · rfl
  rw [u256DecoderToBigInt, isHexOf_bytes hs, C99_bytes, hrev, u256OfBytes, if_neg (by simp), beNat_reverse]
  rfl

/-- No bytes at all are no number. -/
theorem C99_empty : u256DecoderToBigInt [] = none ∧ u256DecoderToBigInt b!"0x" = none := by decide +kernel

/-- The full claim is false: the single byte `05` is read as 0. -/
theorem C99_claim_false : ¬ C99Claim := by
  intro h
  exact absurd (h b!"0x05" 1 5 (by decide) (by decide) ⟨b!"05", .inr rfl, by decide⟩) (by decide +kernel)

-- a mixed-case text of two bytes, little-endian
example : IsHexOf b!"0xFf01" (Spec.leBytes 2 511) ∧ u256DecoderToBigInt b!"0xFf01" = some 511 :=
  ⟨⟨b!"Ff01", .inr rfl, by decide⟩, by decide +kernel⟩
example : u256OfText b!"0xfF" = some 255 ∧ u256OfText b!"-10" = some (-16) ∧ u256OfText b!"0Xff" = none ∧ u256OfText [] = none := by
  decide +kernel

/-- `BytesToBnHex` writes the decimal numerals of the bytes one after the other. -/
theorem C99_bn (b : Str) : ∃ ss : List Str, List.Forall₂ (fun s x => Spec.IsNumeral s (UInt8.toNat x)) ss b ∧ bytesToBnHex b = ss.flatten := by
  have key : ∀ (b acc : Str), b.foldl (fun h x => h ++ natToDec (UInt8.toNat x)) acc = acc ++ (b.map fun x => natToDec x.toNat).flatten := by
    intro b
    induction b with
    | nil => intro acc; simp
    | cons x b ih => intro acc; rw [List.foldl_cons, ih]; simp
  refine ⟨b.map fun x => natToDec x.toNat, ?_, (key b []).trans (List.nil_append _)⟩
  induction b with
  | nil => exact .nil
  | cons x b ih => exact .cons (natToDec_isNumeral _) ih

/-- `BytesToBnHex` loses where one byte ends: different bytes can have the same text. -/
theorem C99_bn_ambiguous : bytesToBnHex [1, 11] = b!"111" ∧ bytesToBnHex [11, 1] = b!"111" := by decide +kernel

end ScaleGo
