import Verif.Props.C21
import Verif.Props.C23
import Verif.Props.C25
import Verif.Props.C36

/-! # C64: array texts keep their element type

English claim: a text `[T; n]` that is not itself registered means n consecutive values of the type T, whatever T is, including
another array.

The text is split correctly at its last semicolon, but the element type is changed to lower case (`C64_resolves`).  Lookups ignore
letter case, so this is mostly harmless (`C64_partial`); not so for `Option<Bool>`, whose lower case form has a different
encoding (`C64_claim_false`). -/

namespace ScaleGo

open ScaleGo.Spec

/-- `[T; n]`, with any number of blanks. -/
def Spec.arrayText (t : Str) (k n : Nat) : Str := 91 :: (t ++ 59 :: (List.replicate k 32 ++ natToDec n) ++ [93])

/-- The text means itself and is not registered. -/
structure Spec.OpenText (env : Env) (m : Str) (spec : Int) (t : Str) : Prop where
  verbatim : Verbatim t
  notOverridden : NotOverridden m t
  unregistered : Unregistered env spec t

/-- The full claim. -/
def C64Claim : Prop :=
  ∀ (env : Env) (ctx : Ctx) (t : Str) (k n : Nat) (items : List Item), Trimmed t → OpenText env ctx.module ctx.spec (arrayText t k n) →
    0 < n → n < 2 ^ 63 → items.length = n → _root_.Spec.asciiLower t ≠ b!"u8" → (∀ x ∈ items, Decodes env ctx t x.2.1 x.1 x.2.2) →
    Decodes env ctx (arrayText t k n) (items.map (·.2.1)).flatten (.slice (items.map (·.1))) (items.map (·.2.2)).flatten

/-! ## Splitting at the last semicolon -/

theorem splitSepAux_last_one (c : UInt8) {r : Str} (hr : c ∉ r) : ∀ (a cur : Str),
    splitSepAux [c] 0 cur (a ++ c :: r) = splitSepAux [c] 0 cur a ++ [r]
  | [], cur => by
    simp only [List.nil_append, splitSepAux]
    have : ([c] : Str).isPrefixOf (c :: r) = true := by simp [List.isPrefixOf]
    rw [if_pos this]
    have := splitSep_absent (sep := [c]) c (by simp) hr
    unfold splitSep at this
    simpa using this
  | x :: a, cur => by
    simp only [List.cons_append, splitSepAux]
    have e : ([c] : Str).isPrefixOf (x :: (a ++ c :: r)) = ([c] : Str).isPrefixOf (x :: a) := by simp [List.isPrefixOf]
    rw [e]
    split
    · simp only [List.length_cons, List.length_nil, Nat.zero_add, Nat.sub_self, List.cons_append]
      rw [splitSepAux_last_one c hr a []]
    · exact splitSepAux_last_one c hr a (x :: cur)

theorem joinSep_cons {sep a : Str} {l : List Str} (h : l ≠ []) : joinSep sep (a :: l) = a ++ sep ++ joinSep sep l := by
  cases l with
  | nil => exact absurd rfl h
  | cons b l => rfl

theorem joinSep_splitSepAux (c : UInt8) : ∀ (a cur : Str), joinSep [c] (splitSepAux [c] 0 cur a) = cur.reverse ++ a
  | [], cur => by simp [splitSepAux, joinSep]
  | x :: a, cur => by
    rw [splitSepAux]
    split
    · next h =>
      have hx : x = c := by
        simp only [List.isPrefixOf, Bool.and_true, beq_iff_eq] at h
        exact h.symm
      simp only [List.length_cons, List.length_nil, Nat.zero_add, Nat.sub_self]
      rw [joinSep_cons (splitSepAux_ne_nil _ _ _ _), joinSep_splitSepAux c a [], hx]
      simp
    · rw [joinSep_splitSepAux c a (x :: cur)]
      simp

theorem fixedArrayText_eq (t : Str) (k n : Nat) (ht : Trimmed t) (hn : n < 2 ^ 63) :
    fixedArrayText (arrayText t k n) = some (.fixedArray n t) := by
  have hd : ∀ c ∈ natToDec n, isDigit c = true := List.all_eq_true.1 (natToDec_digits n)
  have hr : (59 : UInt8) ∉ List.replicate k 32 ++ natToDec n := by
    intro h
    rcases List.mem_append.1 h with h | h
    · exact absurd (List.eq_of_mem_replicate h) (by decide)
    · exact absurd (hd _ h) (by decide)
  have e0 : ((arrayText t k n).drop 1).dropLast = t ++ 59 :: (List.replicate k 32 ++ natToDec n) := by
    simp only [arrayText, List.drop_succ_cons, List.drop_zero, List.append_assoc, List.cons_append]
    rw [show t ++ 59 :: (List.replicate k 32 ++ (natToDec n ++ [93])) = (t ++ 59 :: (List.replicate k 32 ++ natToDec n)) ++ [93] by simp,
      List.dropLast_concat]
  have e1 := splitSepAux_last_one 59 hr t []
  have hnum : IsNumberText (natToDec n) := ⟨(natToDec_isNumeral n).1, (natToDec_isNumeral n).2.1⟩
  have e2 : trimSpace (List.replicate k 32 ++ natToDec n) = natToDec n := by
    unfold trimSpace
    have h1 : (List.replicate k 32 ++ natToDec n).dropWhile isSpace = natToDec n := by
      rw [List.dropWhile_append_of_pos (fun x hx => by rw [List.eq_of_mem_replicate hx]; decide)]
      obtain ⟨c, r, hcr, hc⟩ := natToDec_head_digit n
      have : isSpace c = false := forall_byte (P := fun c => isDigit c = true → isSpace c = false) (by decide +kernel) c hc
      rw [hcr, List.dropWhile_cons_of_neg (by simp [this])]
    rw [h1]
    have h2 : (natToDec n).reverse.dropWhile isSpace = (natToDec n).reverse := by
      cases e : (natToDec n).reverse with
      | nil => rfl
      | cons c r =>
        have hc : isDigit c = true := hd c (by rw [← List.mem_reverse, e]; simp)
        have : isSpace c = false := forall_byte (P := fun c => isDigit c = true → isSpace c = false) (by decide +kernel) c hc
        rw [List.dropWhile_cons_of_neg (by simp [this])]
    rw [h2, List.reverse_reverse]
  unfold fixedArrayText
  simp only [e0]
  unfold splitSep
  rw [e1]
  have hne := splitSepAux_ne_nil [59] 0 [] t
  rw [if_pos (by
    have := List.length_pos_iff.2 hne
    simp only [List.length_append, List.length_cons, List.length_nil]
    omega)]
  have e3 : lastPiece (splitSepAux [59] 0 [] t ++ [List.replicate k 32 ++ natToDec n]) = List.replicate k 32 ++ natToDec n := by
    rw [lastPiece, List.getLastD_eq_getLast?, List.getLast?_concat]; rfl
  rw [e3, e2, List.dropLast_concat]
  have e4 := joinSep_splitSepAux 59 t []
  rw [show (b!";" : Str) = [59] from rfl, e4, List.reverse_nil, List.nil_append, trimSpace_trimmed ht,
    stringToInt_number hnum (by rw [show Spec.digitsValue (natToDec n) = n from (natToDec_isNumeral n).2.2.2]; exact hn),
    show Spec.digitsValue (natToDec n) = n from (natToDec_isNumeral n).2.2.2]

theorem trimmed_lower {t : Str} (h : Trimmed t) : Trimmed (toLower t) := by
  have hs : ∀ c, isSpace c = false → isSpace (lowerByte c) = false :=
    forall_byte (P := fun c => isSpace c = false → isSpace (lowerByte c) = false) (by decide +kernel)
  obtain ⟨⟨c, r, h1, h2⟩, ⟨d, q, h3, h4⟩⟩ := h
  exact ⟨⟨lowerByte c, toLower r, by rw [h1]; rfl, hs c h2⟩, ⟨lowerByte d, toLower q, by rw [h3]; simp [toLower], hs d h4⟩⟩

theorem lower_arrayText (t : Str) (k n : Nat) : toLower (arrayText t k n) = arrayText (toLower t) k n := by
  have e : ∀ s : Str, (∀ c ∈ s, lowerByte c = c) → s.map lowerByte = s := fun s h => (List.map_congr_left h).trans (List.map_id' s)
  have h1 : (List.replicate k (32 : UInt8)).map lowerByte = List.replicate k 32 := by
    rw [List.map_replicate]; rfl
  have h2 : (natToDec n).map lowerByte = natToDec n := by
    refine e _ fun c hc => ?_
    exact forall_byte (P := fun c => isDigit c = true → lowerByte c = c) (by decide +kernel) c (List.all_eq_true.1 (natToDec_digits n) c hc)
  unfold toLower arrayText
  simp only [List.map_cons, List.map_append, h1, h2, List.map_nil]
  rfl

/-- What an array text means: the element type in lower case, and the number. -/
theorem C64_resolves (env : Env) (m : Str) (spec : Int) (t : Str) (k n : Nat) (ht : Trimmed t) (hn : n < 2 ^ 63)
    (h : OpenText env m spec (arrayText t k n)) :
    Resolves env m spec (arrayText t k n) (.fixedArray n (_root_.Spec.asciiLower t)) [] := by
  rw [← toLower_eq_spec]
  have hi : getCodecInstant env m (arrayText t k n) spec = .ok (some (.fixedArray n (toLower t))) := by
    unfold getCodecInstant
    simp only [moduleType_notOverridden h.notOverridden, toLower_idem, h.unregistered.1, h.unregistered.2]
    rw [lower_arrayText]
    have hne : arrayText (toLower t) k n ≠ b!"[]" := by
      intro e
      have := congrArg List.length e
      simp [arrayText] at this
      omega
    rw [if_neg hne]
    have hends : endsWith (arrayText (toLower t) k n) 93 = true := by
      unfold endsWith arrayText
      rw [show 91 :: (toLower t ++ 59 :: (List.replicate k 32 ++ natToDec n) ++ [93]) =
        (91 :: (toLower t ++ 59 :: (List.replicate k 32 ++ natToDec n))) ++ [93] by simp, List.getLast?_concat]
      rfl
    have hf := fixedArrayText_eq (toLower t) k n (trimmed_lower ht) hn
    rw [show arrayText (toLower t) k n = 91 :: (toLower t ++ 59 :: (List.replicate k 32 ++ natToDec n) ++ [93]) from rfl] at hends hf ⊢
    simp only [true_and]
    rw [if_pos hends, hf]
  have hend : ¬ endsWith (arrayText t k n) 62 = true := by
    unfold endsWith arrayText
    rw [show 91 :: (t ++ 59 :: (List.replicate k 32 ++ natToDec n) ++ [93]) =
      (91 :: (t ++ 59 :: (List.replicate k 32 ++ natToDec n))) ++ [93] by simp, List.getLast?_concat]
    decide
  unfold Resolves getCodecClass getCodecClassAux
  simp only [convertType_verbatim h.verbatim]
  rw [if_neg (by simp [arrayText])]
  unfold lookupWhole
  rw [if_neg hend]
  simp only [Res.ok_bind]
  have : partsOf (arrayText t k n) = none := by unfold partsOf; rw [if_neg hend]
  unfold lookupParts
  rw [this, hi]
  rfl

/-- **C64** for elements whose lower case text has the same encoding.  Missing: element types that depend on letter case. -/
theorem C64_partial (env : Env) (ctx : Ctx) (t : Str) (k n : Nat) (items : List Item) (ht : Trimmed t)
    (h : OpenText env ctx.module ctx.spec (arrayText t k n)) (h0 : 0 < n) (hn : n < 2 ^ 63) (hl : items.length = n)
    (h8 : _root_.Spec.asciiLower t ≠ b!"u8") (hi : ∀ x ∈ items, Decodes env ctx (_root_.Spec.asciiLower t) x.2.1 x.1 x.2.2) :
    Decodes env ctx (arrayText t k n) (items.map (·.2.1)).flatten (.slice (items.map (·.1))) (items.map (·.2.2)).flatten := by
  refine C25_decode_partial env ctx _ [] (_root_.Spec.asciiLower t) items n (C64_resolves env _ _ t k n ht hn h) ?_ (by rw [hl]) (by omega) hi
  rw [← toLower_eq_spec, ← toLower_eq_spec, toLower_idem, toLower_eq_spec]
  exact h8

/-! ## The claim is false -/

def arrayCtx : Ctx := ⟨[], 0, none⟩

theorem optionBool_verbatim : OpenText (baseEnv dummyExt) [] 0 b!"[Option<Bool>; 1]" where
  verbatim := ⟨⟨⟨91, b!"Option<Bool>; 1]", rfl, by decide⟩, 93, b!"[Option<Bool>; 1", rfl, by decide⟩, by decide +kernel, by decide +kernel,
    by decide, fun h => absurd ((toLower_eq_iff _ _).2 h) (by decide)⟩
  notOverridden := by decide
  unregistered := ⟨by kernel_rfl, by kernel_rfl⟩

/-- `Option<Bool>` alone reads flag and value, in an array only one byte. -/
theorem C64_claim_false : ¬ C64Claim := by
  intro h
  have ht : Trimmed b!"Option<Bool>" := ⟨⟨79, b!"ption<Bool>", rfl, by decide⟩, 62, b!"Option<Bool", rfl, by decide⟩
  have hb : Decodes (baseEnv dummyExt) arrayCtx b!"Bool" [0] (.bool false) [] := by
    refine decodes_of_decAt (cls := .bool) (sub := []) (by unfold Resolves; kernel_rfl) ⟨0, fun n _ => ?_⟩
    exact DecAt.last (decAt_next [0] 1 rfl) fun _ => rfl
  have h1 : Decodes (baseEnv dummyExt) arrayCtx b!"Option<Bool>" [1, 0] (.bool false) [] := by
    obtain ⟨N, hN⟩ := hb
    refine decodes_of_decAt (cls := .option []) (sub := b!"Bool") (by unfold Resolves; kernel_rfl) ⟨N, fun n hn => ?_⟩
    exact decAt_option _ _ _ _ 1 _ _ (by decide) (by decide) (by decide) (hN n hn)
  have h2 : Decodes (baseEnv dummyExt) arrayCtx b!"option<bool>" [1] (.bool true) [] := by
    refine decodes_of_decAt (cls := .option []) (sub := b!"bool") (by unfold Resolves; kernel_rfl) ⟨0, fun n hn => ?_⟩
    exact DecAt.last (decAt_next [1] 1 rfl) fun _ => rfl
  have h3 := h (baseEnv dummyExt) arrayCtx b!"Option<Bool>" 1 1 [(.bool false, [1, 0], [])] ht optionBool_verbatim (by decide) (by decide) rfl
    (by decide) (by intro x hx; rw [List.mem_singleton.1 hx]; exact h1)
  have h4 := C64_partial (baseEnv dummyExt) arrayCtx b!"Option<Bool>" 1 1 [(.bool true, [1], [])] ht optionBool_verbatim (by decide) (by decide)
    rfl (by decide) (by intro x hx; rw [List.mem_singleton.1 hx]; exact h2)
  have := (decodes_buffer_prefix (b := [1]) (c := [0]) h4 h3 (by decide)).2
  cases this

/-- Nested arrays. -/
example : Decodes (baseEnv dummyExt) arrayCtx b!"[[bool; 2]; 2]" [0, 1, 1, 0]
    (.slice [.slice [.bool false, .bool true], .slice [.bool true, .bool false]]) [] := by
  have hb : ∀ (x : UInt8) (v : Bool), (bytesToHex [x] = b!"01" ↔ v = true) → Decodes (baseEnv dummyExt) arrayCtx b!"bool" [x] (.bool v) [] := by
    intro x v hv
    refine decodes_of_decAt (cls := .bool) (sub := []) (by unfold Resolves; kernel_rfl) ⟨0, fun n _ => ?_⟩
    refine DecAt.last (decAt_next [x] 1 rfl) fun _ => ?_
    simp only [hv]
    simp
  have h0 := hb 0 false (by decide)
  have h1 := hb 1 true (by decide)
  have in1 : OpenText (baseEnv dummyExt) [] 0 b!"[bool; 2]" :=
    ⟨⟨⟨⟨91, b!"bool; 2]", rfl, by decide⟩, 93, b!"[bool; 2", rfl, by decide⟩, by decide +kernel, by decide +kernel,
      by decide, fun h => absurd ((toLower_eq_iff _ _).2 h) (by decide)⟩, by decide, by kernel_rfl, by kernel_rfl⟩
  have in2 : OpenText (baseEnv dummyExt) [] 0 b!"[[bool; 2]; 2]" :=
    ⟨⟨⟨⟨91, b!"[bool; 2]; 2]", rfl, by decide⟩, 93, b!"[[bool; 2]; 2", rfl, by decide⟩, by decide +kernel, by decide +kernel,
      by decide, fun h => absurd ((toLower_eq_iff _ _).2 h) (by decide)⟩, by decide, by kernel_rfl, by kernel_rfl⟩
  have tb : Trimmed b!"bool" := ⟨⟨98, b!"ool", rfl, by decide⟩, 108, b!"boo", rfl, by decide⟩
  have ta : Trimmed b!"[bool; 2]" := ⟨⟨91, b!"bool; 2]", rfl, by decide⟩, 93, b!"[bool; 2", rfl, by decide⟩
  have a1 := C64_partial (baseEnv dummyExt) arrayCtx b!"bool" 1 2 [(.bool false, [0], []), (.bool true, [1], [])] tb in1 (by decide)
    (by decide) rfl (by decide) (by
      intro x hx
      simp only [List.mem_cons, List.not_mem_nil, or_false] at hx
      rcases hx with rfl | rfl
      · exact h0
      · exact h1)
  have a2 := C64_partial (baseEnv dummyExt) arrayCtx b!"bool" 1 2 [(.bool true, [1], []), (.bool false, [0], [])] tb in1 (by decide)
    (by decide) rfl (by decide) (by
      intro x hx
      simp only [List.mem_cons, List.not_mem_nil, or_false] at hx
      rcases hx with rfl | rfl
      · exact h1
      · exact h0)
  exact C64_partial (baseEnv dummyExt) arrayCtx b!"[bool; 2]" 1 2
    [(.slice [.bool false, .bool true], [0, 1], []), (.slice [.bool true, .bool false], [1, 0], [])] ta in2 (by decide) (by decide) rfl
    (by decide) (by
      intro x hx
      simp only [List.mem_cons, List.not_mem_nil, or_false] at hx
      rcases hx with rfl | rfl
      · exact a1
      · exact a2)

end ScaleGo
