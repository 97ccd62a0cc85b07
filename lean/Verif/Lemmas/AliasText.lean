import Verif.Props.C64

/-! # Aliases of composed type texts -/

namespace ScaleGo
open ScaleGo.Spec

/-- What an alias of a composed text stands for: a list, an option, a compact number, a map, a set, an array or a tuple. -/
inductive Spec.Composes : Str → Cls → Prop
  | vec (a : Str) : a ≠ [] → 10 ∉ a → Composes (generic b!"Vec" a) (.vec a)
  | option (a : Str) : a ≠ [] → 10 ∉ a → Composes (generic b!"Option" a) (.option a)
  | compact (a : Str) : a ≠ [] → 10 ∉ a → Composes (generic b!"Compact" a) (.compact a)
  | map (a : Str) : a ≠ [] → 10 ∉ a → Composes (generic b!"BTreeMap" a) (.btreeMap a)
  | set (a : Str) : a ≠ [] → 10 ∉ a → Composes (generic b!"BTreeSet" a) (.vec a)
  | array (t : Str) (k n : Nat) : Trimmed t → 59 ∉ t → n < 2 ^ 63 → Composes (arrayText t k n) (.fixedArray n t)
  | tuple (ms : List (Nat × Str × Nat)) : ms ≠ [] → (∀ x ∈ ms, Innermost x.2.1 ∧ Trimmed x.2.1) →
      Composes (40 :: (tupleBody ms ++ [41])) (.struct (some (columns 0 (ms.map (·.2.1)))))

theorem trim_digits (k n : Nat) : trimSpace (List.replicate k 32 ++ natToDec n) = natToDec n := by
  have hd := List.all_eq_true.1 (natToDec_digits n)
  unfold trimSpace
  have h1 : (List.replicate k 32 ++ natToDec n).dropWhile isSpace = natToDec n := by
    rw [List.dropWhile_append_of_pos (fun x hx => by rw [List.eq_of_mem_replicate hx]; decide)]
    obtain ⟨c, r, hcr, hc⟩ := natToDec_head_digit n
    have : isSpace c = false := forall_byte (P := fun c => isDigit c = true → isSpace c = false) (by decide +kernel) c hc
    rw [hcr, List.dropWhile_cons_of_neg (by simp [this])]
  rw [h1]
  have h2 : (natToDec n).reverse.dropWhile isSpace = (natToDec n).reverse := by
    cases e : (natToDec n).reverse with
    | nil => rfl
    | cons c r =>
      have hc : isDigit c = true := hd c (by rw [← List.mem_reverse, e]; simp)
      have : isSpace c = false := forall_byte (P := fun c => isDigit c = true → isSpace c = false) (by decide +kernel) c hc
      rw [List.dropWhile_cons_of_neg (by simp [this])]
  rw [h2, List.reverse_reverse]

theorem not_generic {t : Str} {c : UInt8} {s : Str} (e : t = s ++ [c]) (hc : c ≠ 62) : partsOf t = none := by
  unfold partsOf
  rw [if_neg]
  rw [e]
  unfold endsWith
  rw [List.getLast?_concat]
  simpa using hc

/-- The branches of the registration of aliases (types/customType.go:69-123) follow what the texts say. -/
theorem aliasClass_composes {t : Str} {c : Cls} (h : Composes t c) : aliasClass t = .ok (some c) := by
  cases h with
  | vec a ha hn =>
    unfold aliasClass
    rw [if_neg (by simp [generic])]
    simp only [partsOf, generic_ends, if_true, generic_parts (h := b!"Vec") (by decide) ha hn]
    rfl
  | option a ha hn =>
    unfold aliasClass
    rw [if_neg (by simp [generic])]
    simp only [partsOf, generic_ends, if_true, generic_parts (h := b!"Option") (by decide) ha hn]
    rfl
  | compact a ha hn =>
    unfold aliasClass
    rw [if_neg (by simp [generic])]
    simp only [partsOf, generic_ends, if_true, generic_parts (h := b!"Compact") (by decide) ha hn]
    rfl
  | map a ha hn =>
    unfold aliasClass
    rw [if_neg (by simp [generic])]
    simp only [partsOf, generic_ends, if_true, generic_parts (h := b!"BTreeMap") (by decide) ha hn]
    rfl
  | set a ha hn =>
    unfold aliasClass
    rw [if_neg (by simp [generic])]
    simp only [partsOf, generic_ends, if_true, generic_parts (h := b!"BTreeSet") (by decide) ha hn]
    rfl
  | array t k n ht h59 hn =>
    have e : arrayText t k n = (91 :: (t ++ 59 :: (List.replicate k 32 ++ natToDec n))) ++ [93] := by simp [arrayText]
    unfold aliasClass
    rw [if_neg (by simp [arrayText]), not_generic e (by decide)]
    dsimp only
    have hlast : endsWith (arrayText t k n) 93 = true := by rw [e]; unfold endsWith; rw [List.getLast?_concat]; rfl
    have hne : arrayText t k n ≠ b!"[]" := by
      intro h
      have := congrArg List.length h
      simp [arrayText] at this
      omega
    rw [if_neg (fun h => absurd h.2.1 (by simp [arrayText])), if_pos ⟨hne, by simp [arrayText], hlast⟩]
    have e0 : ((arrayText t k n).drop 1).dropLast = t ++ 59 :: (List.replicate k 32 ++ natToDec n) := by
      rw [e, List.cons_append, List.drop_succ_cons, List.drop_zero, List.dropLast_concat]
    have hr : (59 : UInt8) ∉ List.replicate k 32 ++ natToDec n := by
      intro hm
      rcases List.mem_append.1 hm with h | h
      · exact absurd (List.eq_of_mem_replicate h) (by decide)
      · exact absurd (List.all_eq_true.1 (natToDec_digits n) _ h) (by decide)
    rw [e0, show (b!";" : Str) = [59] from rfl, splitSep_one 59 _ _ h59, splitSep_absent 59 (by decide) hr]
    have hnum : IsNumberText (natToDec n) := ⟨(natToDec_isNumeral n).1, (natToDec_isNumeral n).2.1⟩
    dsimp only
    rw [trim_digits, trimSpace_trimmed ht,
      stringToInt_number hnum (by rw [show _root_.Spec.digitsValue (natToDec n) = n from (natToDec_isNumeral n).2.2.2]; exact hn),
      show _root_.Spec.digitsValue (natToDec n) = n from (natToDec_isNumeral n).2.2.2]
  | tuple ms hne hms =>
    have hb := C35_partial ms hms
    have hbody : tupleBody ms ≠ [] := by
      cases ms with
      | nil => exact absurd rfl hne
      | cons x ms =>
        obtain ⟨l, m, r⟩ := x
        obtain ⟨_, ⟨c, s, e, _⟩, _⟩ := hms (l, m, r) (by simp)
        simp only at e
        cases ms with
        | nil => simp [tupleBody, e]
        | cons y ms => simp [tupleBody]
    have e : 40 :: (tupleBody ms ++ [41]) = (40 :: tupleBody ms) ++ [41] := rfl
    unfold aliasClass
    rw [if_neg (by simp), not_generic e (by decide)]
    dsimp only
    have hlast : endsWith (40 :: (tupleBody ms ++ [41])) 41 = true := by rw [e]; unfold endsWith; rw [List.getLast?_concat]; rfl
    have hne2 : 40 :: (tupleBody ms ++ [41]) ≠ b!"()" := by
      intro h
      have h2 : tupleBody ms ++ [41] = [] ++ [41] := (List.cons.inj h).2
      exact hbody (List.append_cancel_right h2)
    rw [if_pos ⟨hne2, rfl, hlast⟩, hb]

end ScaleGo
