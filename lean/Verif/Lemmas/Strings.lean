import Verif.Model.Registry

/-! # Lengths of split and replaced texts; class lookup finishes -/

namespace ScaleGo

theorem isPrefixOf_length {p s : Str} (h : p.isPrefixOf s = true) : p.length ≤ s.length := by
  rw [List.isPrefixOf_iff_prefix] at h
  exact h.length_le

theorem replaceAllAux_length (old new : Str) (ho : old ≠ []) (hl : new.length ≤ old.length) (k : Nat) (s : Str) :
    (replaceAllAux old new k s).length + min k s.length ≤ s.length := by
  induction s generalizing k with
  | nil => simp [replaceAllAux]
  | cons c cs ih =>
    cases k with
    | succ k =>
      simp only [replaceAllAux, List.length_cons]
      have := ih k
      omega
    | zero =>
      simp only [replaceAllAux]
      split
      · rename_i hp
        have h1 := isPrefixOf_length hp
        have h2 := ih (old.length - 1)
        have h3 : 0 < old.length := List.length_pos_iff.mpr ho
        simp only [List.length_append, List.length_cons] at *
        omega
      · have := ih 0
        simp only [List.length_cons] at *
        omega

theorem replaceAll_length {s old new : Str} (ho : old ≠ []) (hl : new.length ≤ old.length) :
    (replaceAll s old new).length ≤ s.length := by
  have := replaceAllAux_length old new ho hl 0 s
  unfold replaceAll; omega

theorem trimSpace_length (s : Str) : (trimSpace s).length ≤ s.length := by
  unfold trimSpace
  rw [List.length_reverse]
  have h1 := (List.dropWhile_suffix isSpace (l := (List.dropWhile isSpace s).reverse)).length_le
  have h2 := (List.dropWhile_suffix isSpace (l := s)).length_le
  rw [List.length_reverse] at h1
  omega

theorem toLower_length (s : Str) : (toLower s).length = s.length := by simp [toLower]

theorem splitSepAux_ne_nil (sep : Str) (k : Nat) (cur s : Str) : splitSepAux sep k cur s ≠ [] := by
  induction s generalizing k cur with
  | nil => cases k <;> simp [splitSepAux]
  | cons c cs ih =>
    cases k with
    | succ k => simp only [splitSepAux]; exact ih k cur
    | zero => simp only [splitSepAux]; split
              · simp
              · exact ih 0 _

theorem lastPiece_cons {a : Str} {l : List Str} (h : l ≠ []) : lastPiece (a :: l) = lastPiece l := by
  obtain ⟨b, l, rfl⟩ := List.exists_cons_of_ne_nil h
  simp [lastPiece]

theorem splitSepAux_last (sep : Str) (k : Nat) (cur s : Str) :
    (lastPiece (splitSepAux sep k cur s)).length + min k s.length ≤ cur.length + s.length := by
  induction s generalizing k cur with
  | nil => cases k <;> simp [splitSepAux, lastPiece]
  | cons c cs ih =>
    cases k with
    | succ k =>
      simp only [splitSepAux, List.length_cons]
      have := ih k cur
      omega
    | zero =>
      simp only [splitSepAux]
      split
      · rename_i hp
        rw [lastPiece_cons (splitSepAux_ne_nil _ _ _ _)]
        have h1 := isPrefixOf_length hp
        have h2 := ih (sep.length - 1) []
        simp only [List.length_cons, List.length_nil] at *
        omega
      · have := ih 0 (c :: cur)
        simp only [List.length_cons] at *
        omega

theorem splitSep_last (sep s cur : Str) (hs : sep ≠ []) (h : contains s sep = true) :
    (lastPiece (splitSepAux sep 0 cur s)).length + sep.length ≤ s.length := by
  induction s generalizing cur with
  | nil => cases sep with
    | nil => exact absurd rfl hs
    | cons a b => simp [contains] at h
  | cons c cs ih =>
    simp only [splitSepAux]
    split
    · rename_i hp
      rw [lastPiece_cons (splitSepAux_ne_nil _ _ _ _)]
      have h1 := isPrefixOf_length hp
      have h2 := splitSepAux_last sep (sep.length - 1) [] cs
      have h3 : 0 < sep.length := List.length_pos_iff.mpr hs
      simp only [List.length_cons, List.length_nil] at *
      omega
    · rename_i hp
      have hc : contains cs sep = true := by
        unfold contains at h
        simp only [hp, Bool.false_or] at h
        exact h
      have := ih (c :: cur) hc
      simp only [List.length_cons]
      omega

theorem convertType_length (s : Str) : (convertType s).length ≤ s.length ∨ convertType s = b!"Null" := by
  unfold convertType
  extract_lets n1 n2 n3 n4 n5 n6 n7 n8 n9 n10
  have h1 : n1.length ≤ s.length := trimSpace_length s
  have h2 : n2.length ≤ n1.length := replaceAll_length (by decide) (by decide)
  have h3 : n3.length ≤ n2.length := replaceAll_length (by decide) (by decide)
  have h4 : n4.length ≤ n3.length := replaceAll_length (by decide) (by decide)
  have h5 : n5.length ≤ n4.length := replaceAll_length (by decide) (by decide)
  have h6 : n6.length ≤ n5.length := replaceAll_length (by decide) (by decide)
  have h7 : n7.length ≤ n6.length := replaceAll_length (by decide) (by decide)
  have h8 : n8.length ≤ n7.length := replaceAll_length (by decide) (by decide)
  have h9 : n9.length ≤ n8.length := by
    show (if hasPrefix n8 _ then replaceAll n8 _ _ else n8).length ≤ _
    split
    · exact replaceAll_length (by decide) (by decide)
    · exact Nat.le_refl _
  have h10 : n10.length ≤ n9.length := by
    show (if equalFold n9 _ then _ else n9).length ≤ _
    split
    · rename_i he
      unfold equalFold at he
      have := congrArg List.length (eq_of_beq he)
      rw [toLower_length, toLower_length] at this
      rw [this]; decide
    · exact Nat.le_refl _
  have hh : n10.length ≤ s.length := by omega
  clear h1 h2 h3 h4 h5 h6 h7 h8 h9 h10
  split
  · exact Or.inr rfl
  all_goals left
  split
  · rename_i h; rw [h] at hh; exact Nat.le_trans (by decide) hh
  split
  · rename_i h; rw [h] at hh; exact Nat.le_trans (by decide) hh
  split
  · rename_i h; rw [h] at hh; exact Nat.le_trans (by decide) hh
  split
  · rename_i h; rw [h] at hh; exact Nat.le_trans (by decide) hh
  split
  · rename_i h; rw [h] at hh; exact Nat.le_trans (by decide) hh
  split
  · rename_i h; rw [h] at hh; exact Nat.le_trans (by decide) hh
  · exact hh

theorem getCodecInstant_ne_diverge (env : Env) (m t : Str) (spec : Int) : getCodecInstant env m t spec ≠ .diverge := by
  unfold getCodecInstant
  dsimp only
  split
  · simp
  · split
    · simp
    · split
      · simp
      · split
        · simp
        · split <;> simp

theorem lookupWhole_ne_diverge (env : Env) (m t : Str) (spec : Int) : lookupWhole env m spec t ≠ .diverge := by
  unfold lookupWhole
  split
  · exact getCodecInstant_ne_diverge _ _ _ _
  · simp

theorem bind_ne_diverge {α β : Type} {x : Res α} {f : α → Res β} (hx : x ≠ .diverge) (hf : ∀ a, f a ≠ .diverge) :
    (x >>= f) ≠ .diverge := by
  cases x with
  | ok a => exact hf a
  | panic => simp
  | diverge => exact absurd rfl hx

theorem lookupParts_ne_diverge (env : Env) (m t : Str) (spec : Int) : lookupParts env m spec t ≠ .diverge := by
  unfold lookupParts
  split
  · exact bind_ne_diverge (getCodecInstant_ne_diverge _ _ _ _) (fun _ => by simp)
  · exact bind_ne_diverge (getCodecInstant_ne_diverge _ _ _ _) (fun _ => by simp)

theorem lookupTuple_ne_diverge (env : Env) (m t : Str) (spec : Int) : lookupTuple env m spec t ≠ .diverge := by
  unfold lookupTuple
  refine bind_ne_diverge (getCodecInstant_ne_diverge _ _ _ _) (fun c => ?_)
  split <;> simp

theorem getCodecClassAux_ne_diverge (env : Env) (m : Str) (spec : Int) (fuel : Nat) (ty : Str) (h : ty.length < fuel) :
    getCodecClassAux env m spec fuel ty ≠ .diverge := by
  induction fuel generalizing ty with
  | zero => omega
  | succ fuel ih =>
    unfold getCodecClassAux
    dsimp only
    split
    · simp
    · refine bind_ne_diverge (lookupWhole_ne_diverge _ _ _ _) (fun w => ?_)
      split
      · simp
      · refine bind_ne_diverge (lookupParts_ne_diverge _ _ _ _) (fun w => ?_)
        split
        · simp
        · split
          · exact lookupTuple_ne_diverge _ _ _ _
          · split
            · rename_i hc
              apply ih
              have h1 := splitSep_last b!"::" (convertType ty) [] (by decide) hc.1
              have h2 : (b!"::").length = 2 := rfl
              rw [h2] at h1
              unfold splitSep
              rcases convertType_length ty with h3 | h3
              · omega
              · rw [h3] at hc
                exact absurd hc.1 (by decide)
            · simp

/-- Class lookup always finishes. -/
theorem getCodecClass_ne_diverge (env : Env) (m : Str) (spec : Int) (ty : Str) :
    getCodecClass env m spec ty ≠ .diverge :=
  getCodecClassAux_ne_diverge env m spec _ ty (Nat.lt_succ_self _)

theorem getCodecClassAux_fuel (env : Env) (m : Str) (spec : Int) (n k : Nat) (ty : Str)
    (h : getCodecClassAux env m spec n ty ≠ .diverge) :
    getCodecClassAux env m spec (n + k) ty = getCodecClassAux env m spec n ty := by
  induction n generalizing ty with
  | zero => exact absurd rfl h
  | succ n ih =>
    rw [show n + 1 + k = (n + k) + 1 by omega]
    unfold getCodecClassAux at h ⊢
    dsimp only at h ⊢
    generalize convertType ty = t at h ⊢
    split
    · rfl
    · rename_i hne
      rw [if_neg hne] at h
      revert h
      cases lookupWhole env m spec t with
      | panic => intro _; rfl
      | diverge => intro _; rfl
      | ok w =>
        cases w with
        | some c => intro _; rfl
        | none =>
          simp only [Res.ok_bind]
          cases lookupParts env m spec t with
          | panic => intro _; rfl
          | diverge => intro _; rfl
          | ok w =>
            cases w with
            | some c => intro _; rfl
            | none =>
              simp only [Res.ok_bind]
              split
              · intro _; rfl
              · split
                · intro h; exact ih _ h
                · intro _; rfl

/-- The lookup budget is irrelevant. -/
theorem getCodecClassAux_eq (env : Env) (m : Str) (spec : Int) (n : Nat) (ty : Str) (h : ty.length < n) :
    getCodecClassAux env m spec n ty = getCodecClass env m spec ty := by
  obtain ⟨k, rfl⟩ : ∃ k, n = (ty.length + 1) + k := ⟨n - (ty.length + 1), by omega⟩
  exact getCodecClassAux_fuel env m spec _ k ty (getCodecClass_ne_diverge env m spec ty)

end ScaleGo
