import Verif.Lemmas.SpecBytes

/-! # C02: reversing bytes

`utiles.ReverseBytes` reverses inputs of even length, but replaces the middle byte of an odd-length input by zero;
`types.Reverse` is correct for all lengths. -/

namespace ScaleGo

/-- The full claim, as a user would expect it of `ReverseBytes`. -/
def C02_claim : Prop := ∀ b : Str, reverseBytes b = b.reverse

/-- The claim is false: the middle byte of an odd-length input is dropped. -/
theorem C02_violated : ¬ C02_claim := fun h => absurd (h [1, 2, 3]) (by decide)

/-- Proved part: even lengths (the only ones used for fixed-width integers). -/
theorem C02_reverse_partial (b : Str) (h : b.length % 2 = 0) :
    reverseBytes b = b.reverse ∧ reverseBytes (reverseBytes b) = b := by
  refine ⟨reverseBytes_even b h, ?_⟩
  rw [reverseBytes_even _ (by simpa using h), reverseBytes_even b h, List.reverse_reverse]

/-- What it does for every length: position `k` gets byte `len-1-k`, except an odd input's middle, which becomes 0. -/
theorem C02_exact (b : Str) (k : Nat) (hk : k < b.length) :
    (reverseBytes b).length = b.length ∧
    (reverseBytes b).getD k 0 = if 2 * k + 1 = b.length then 0 else b.reverse.getD k 0 := by
  refine ⟨reverseBytes_length b, ?_⟩
  rw [reverseBytes_getD b k hk]
  split
  · rfl
  · have e : b.reverse.getD k 0 = b.getD (b.length - 1 - k) 0 := by
      rw [List.getD_eq_getElem?_getD, List.getD_eq_getElem?_getD, List.getElem?_reverse hk]
    rw [e]

/-- Information is lost exactly there: two inputs that differ only in the middle byte give the same output. -/
theorem C02_loses_middle (l r : Str) (x y : UInt8) (h : l.length = r.length) :
    reverseBytes (l ++ x :: r) = reverseBytes (l ++ y :: r) := by
  apply List.ext_getElem (by simp)
  intro k h1 h2
  have hk1 : k < (l ++ x :: r).length := by simpa using h1
  have hk2 : k < (l ++ y :: r).length := by simpa using h2
  have e1 := reverseBytes_getD _ k hk1
  have e2 := reverseBytes_getD _ k hk2
  have g1 : (reverseBytes (l ++ x :: r))[k] = (reverseBytes (l ++ x :: r)).getD k 0 := by
    rw [List.getD_eq_getElem?_getD, List.getElem?_eq_getElem h1]; rfl
  have g2 : (reverseBytes (l ++ y :: r))[k] = (reverseBytes (l ++ y :: r)).getD k 0 := by
    rw [List.getD_eq_getElem?_getD, List.getElem?_eq_getElem h2]; rfl
  rw [g1, g2, e1, e2]
  have hlen : (l ++ x :: r).length = (l ++ y :: r).length := by simp
  rw [hlen]
  split
  · rfl
  · rename_i hne
    simp only [List.length_append, List.length_cons] at *
    rw [List.getD_eq_getElem?_getD, List.getD_eq_getElem?_getD, List.getElem?_append, List.getElem?_append]
    split
    · rfl
    · rw [List.getElem?_cons, List.getElem?_cons, if_neg (by omega), if_neg (by omega)]

/-- `types.Reverse` reverses every input. -/
theorem C02_reverse_slice (b : Str) : reverseSlice b = b.reverse ∧ reverseSlice (reverseSlice b) = b := by
  simp [reverseSlice_eq]

example : ([1, 2, 3, 4] : Str).length % 2 = 0 ∧ reverseBytes [1, 2, 3, 4] = [4, 3, 2, 1] := by decide
example : reverseBytes [1, 2, 3] = [3, 0, 1] := by decide

end ScaleGo
