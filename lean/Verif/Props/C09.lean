import Verif.Lemmas.Uint128String
import Verif.Lemmas.SpecBytes

/-! # C09: a 128-bit integer prints as its decimal numeral -/

namespace ScaleGo
open U128

/-- The printed string is the numeral of the value: digits only, no superfluous leading zero, right value. -/
theorem C09_print (u : U128) : ∃ s, u.toString = .ok s ∧ Spec.IsNumeral s u.val :=
  ⟨natToDec u.val, toString_eq u, natToDec_isNumeral u.val⟩

/-- Parsing the printed string in base 10 gives the value back. -/
theorem C09_parse (u : U128) : ∃ s, u.toString = .ok s ∧ decToInt? s = some (u.val : Int) :=
  ⟨natToDec u.val, toString_eq u, decToInt?_natToDec u.val⟩

/-- Different values print differently. -/
theorem C09_injective (u v : U128) (h : u.toString = v.toString) : u = v := by
  rw [toString_eq, toString_eq] at h
  injection h with h
  exact val_inj (natToDec_injective h)

-- an inner chunk with leading zeros is padded
example : (⟨7, 0⟩ : U128).toString = .ok b!"7" := by decide +kernel
example : (⟨7, 1⟩ : U128).toString = .ok b!"18446744073709551623" := by decide +kernel
example : (⟨10 ^ 19 - 2 ^ 63 + 5, 5 * 10 ^ 17⟩ : U128).toString ≠ .panic := by decide +kernel

end ScaleGo
