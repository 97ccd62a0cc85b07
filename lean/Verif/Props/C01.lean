import Verif.Lemmas.SpecBytes

/-! # C01: hex text and bytes are inverse -/

namespace ScaleGo

/-- Printing bytes gives exactly the two-characters-per-byte lower-case hex text. -/
theorem C01_print (b : Str) : bytesToHex b = Spec.hexText b := bytesToHex_eq_spec b

/-- Parsing the printed text, with or without `0x`, gives the bytes back. -/
theorem C01_parse_print (b : Str) :
    hexToBytes (bytesToHex b) = b ∧ hexToBytes (b!"0x" ++ bytesToHex b) = b ∧ hexToBytes (addHex (bytesToHex b)) = b := by
  refine ⟨hexToBytes_bytesToHex b, ?_, ?_⟩
  · rw [hexToBytes_0x, hexDecode_bytesToHex]
  · rw [addHex_bytesToHex, hexToBytes_0x, hexDecode_bytesToHex]

theorem trimHex_of_hex {s : Str} (hex : ∀ c ∈ s, Spec.IsHexChar c) : trimHex s = s := by
  have hp : hasPrefix s b!"0x" = false := by
    cases s with
    | nil => rfl
    | cons a t =>
      cases t with
      | nil => simp [hasPrefix, List.isPrefixOf]
      | cons c t =>
        have hc := hex c (by simp)
        have : c ≠ 120 := by
          intro h; subst h; revert hc; unfold Spec.IsHexChar; decide
        simp [hasPrefix, List.isPrefixOf]
        intro _ h; exact this h.symm
  simp [trimHex, trimPrefix, hp]

/-- Parsing valid even-length hex text and printing it back gives the lower-cased text. -/
theorem C01_print_parse (s : Str) (heven : s.length % 2 = 0) (hex : ∀ c ∈ s, Spec.IsHexChar c) :
    bytesToHex (hexToBytes s) = Spec.asciiLower s ∧ bytesToHex (hexToBytes (b!"0x" ++ s)) = Spec.asciiLower s := by
  have h2 : s.all isHexByte = true := List.all_eq_true.mpr fun c hc => (isHexChar_unhex c).mp (hex c hc)
  rw [hexToBytes_0x, hexToBytes, trimHex_of_hex hex, ← toLower_eq_spec]
  exact ⟨bytesToHex_hexDecode s heven h2, bytesToHex_hexDecode s heven h2⟩

/-- Different byte strings have different hex texts: no byte is lost. -/
theorem C01_injective (a b : Str) (h : bytesToHex a = bytesToHex b) : a = b := bytesToHex_injective h

-- hypotheses of `C01_print_parse` are met by a mixed-case text, and its conclusion is not trivial
example : (b!"0aFf" : Str).length % 2 = 0 ∧ (∀ c ∈ b!"0aFf", Spec.IsHexChar c) := by
  unfold Spec.IsHexChar; decide
example : bytesToHex (hexToBytes b!"0xFF0a") = b!"ff0a" := by decide
example : bytesToHex [0, 255, 16] = b!"00ff10" := by decide

end ScaleGo
