import Verif.Lemmas.Portable

/-! # Relations kept by the expansion of types other than some

As `Frame` in `Lemmas/Portable.lean`, where entering a text need only keep the relation for the types in `S`. -/

namespace ScaleGo

/-- A relation between states that every step satisfies that enters a text of a type in `S` or registers a definition. -/
structure FrameOn (cfg : SiCfg) (I : SiState → SiState → Prop) (S : Nat → Prop) : Prop where
  refl : ∀ st, I st st
  trans : ∀ a b c, I a b → I b c → I a c
  setId : ∀ st i t, S i → I st (st.setId i t)
  register : ∀ st key d st', Submitted cfg key d → st.register cfg key d = .ok st' → I st st'

section
variable {cfg : SiCfg} {I : SiState → SiState → Prop} {S : Nat → Prop} (F : FrameOn cfg I S) {rec : SiRec}
  (hrec : ∀ b i st r, rec b i st = .ok r → I st r.2)
include F hrec

theorem subTypeOf_on {i : Nat} {st : SiState} {r : Str × SiState} (hr : subTypeOf rec i st = .ok r) : I st r.2 := by
  unfold subTypeOf at hr
  split at hr
  · cases hr; exact F.refl _
  · exact hrec _ _ _ _ hr

theorem subTypesOf_on {is : List Nat} {st : SiState} {r : List Str × SiState} (hr : subTypesOf rec is st = .ok r) : I st r.2 := by
  induction is generalizing st r with
  | nil => cases hr; exact F.refl _
  | cons i is ih =>
    unfold subTypesOf at hr
    rw [Res.bind_eq_ok] at hr
    obtain ⟨a, ha, hr⟩ := hr
    rw [Res.bind_eq_ok] at hr
    obtain ⟨q, hq, hr⟩ := hr
    cases hr
    exact F.trans _ _ _ (subTypeOf_on F hrec ha) (ih (r := q) hq)

theorem expandGeneric_on {word : Str} {id k : Nat} {st : SiState} {r : Str × SiState} (hS : S id)
    (hr : expandGeneric rec word id k st = .ok r) : I st r.2 := by
  unfold expandGeneric at hr
  rw [Res.bind_eq_ok] at hr
  obtain ⟨a, ha, hr⟩ := hr
  cases hr
  exact F.trans _ _ _ (subTypeOf_on F hrec ha) (F.setId _ _ _ hS)

theorem enumRows_on {prev : Option Nat} {vs : List SiVariant} {st : SiState} {r : List (List Str) × SiState}
    (hr : enumRows rec prev vs st = .ok r) : I st r.2 := by
  induction vs generalizing prev st r with
  | nil => cases hr; exact F.refl _
  | cons v vs ih =>
    unfold enumRows at hr
    rw [Res.bind_eq_ok] at hr
    obtain ⟨a, ha, hr⟩ := hr
    rw [Res.bind_eq_ok] at hr
    obtain ⟨q, hq, hr⟩ := hr
    cases hr
    refine F.trans _ a.2 _ ?_ (ih (r := q) hq)
    unfold variantType at ha
    split at ha
    · cases ha; exact F.refl _
    · exact subTypeOf_on F hrec ha
    · rw [Res.bind_eq_ok] at ha
      obtain ⟨x, hx, ha⟩ := ha
      cases ha
      exact subTypesOf_on F hrec hx

theorem registerParam_on {key name : Str} {t : SiType} {st st' : SiState}
    (hk : key = b!"ExtrinsicSignature" ∨ key = b!"ExtrinsicSigner") (hx : ∃ i, IsExtrinsic (cfg.types i))
    (hr : registerParam cfg rec key name t st = .ok st') : I st st' := by
  unfold registerParam at hr
  split at hr
  · cases hr; exact F.refl _
  · rw [Res.bind_eq_ok] at hr
    obtain ⟨a, ha, hr⟩ := hr
    exact F.trans _ _ _ (hrec _ _ _ _ ha) (F.register _ _ _ _ (.inr ⟨rfl, .inl ⟨hk, hx⟩⟩) hr)

theorem dealDef_on {i : Nat} {st : SiState} {r : Str × SiState} (hS : S i) (hr : dealDef cfg rec i (cfg.types i) st = .ok r) :
    I st r.2 := by
  unfold dealDef at hr
  split at hr
  · next fs ht =>
    unfold expandComposite at hr
    rw [Res.bind_eq_ok] at hr
    obtain ⟨st1, h1, hr⟩ := hr
    have hs1 : I st st1 := by
      unfold expandExtrinsicParams at h1
      split at h1
      · next hx =>
        rw [Res.bind_eq_ok] at h1
        obtain ⟨a, ha, h1⟩ := h1
        exact F.trans _ _ _ (registerParam_on F hrec (.inl rfl) ⟨i, hx⟩ ha) (registerParam_on F hrec (.inr rfl) ⟨i, hx⟩ h1)
      · cases h1; exact F.refl _
    refine F.trans _ _ _ hs1 ?_
    split at hr
    · split at hr
      · cases hr
      · rw [Res.bind_eq_ok] at hr
        obtain ⟨a, ha, hr⟩ := hr
        cases hr
        exact F.trans _ _ _ (hrec _ _ _ _ ha) (F.setId _ _ _ hS)
    · split at hr
      · unfold expandNewtype at hr
        split at hr
        · cases hr; exact F.setId _ _ _ hS
        · rw [Res.bind_eq_ok] at hr
          obtain ⟨a, ha, hr⟩ := hr
          rw [Res.bind_eq_ok] at hr
          obtain ⟨n, hn, hr⟩ := hr
          rw [Res.bind_eq_ok] at hr
          obtain ⟨st2, h2, hr⟩ := hr
          cases hr
          refine F.trans _ a.2 _ ?_ (F.trans _ _ _ (F.setId _ _ _ hS) (F.register _ _ _ _ (.inl ⟨rfl, rfl, .inl ⟨i, hn, name_composite ht hn⟩⟩) h2))
          unfold newtypeSub at ha
          split at ha
          · cases ha; exact F.refl _
          · split at ha
            · cases ha; exact F.refl _
            · exact hrec _ _ _ _ ha
      · unfold expandStruct at hr
        rw [Res.bind_eq_ok] at hr
        obtain ⟨a, ha, hr⟩ := hr
        rw [Res.bind_eq_ok] at hr
        obtain ⟨n, hn, hr⟩ := hr
        rw [Res.bind_eq_ok] at hr
        obtain ⟨st2, h2, hr⟩ := hr
        cases hr
        exact F.trans _ _ _ (subTypesOf_on F hrec ha) (F.trans _ _ _ (F.register _ _ _ _ (.inl ⟨rfl, rfl, .inl ⟨i, hn, name_composite ht hn⟩⟩) h2) (F.setId _ _ _ hS))
  · unfold expandArray at hr
    split at hr
    · cases hr; exact F.setId _ _ _ hS
    · rw [Res.bind_eq_ok] at hr
      obtain ⟨a, ha, hr⟩ := hr
      cases hr
      exact F.trans _ _ _ (subTypeOf_on F hrec ha) (F.setId _ _ _ hS)
  · exact expandGeneric_on F hrec hS hr
  · next ks ht =>
    unfold expandTuple at hr
    split at hr
    · cases hr; exact F.setId _ _ _ hS
    · rw [Res.bind_eq_ok] at hr
      obtain ⟨a, ha, hr⟩ := hr
      rw [Res.bind_eq_ok] at hr
      obtain ⟨st2, h2, hr⟩ := hr
      cases hr
      exact F.trans _ _ _ (subTypesOf_on F hrec ha) (F.trans _ _ _ (F.register _ _ _ _ (.inl ⟨rfl, rfl, .inr (.inl ⟨_, i, ks, rfl, ht⟩)⟩) h2) (F.setId _ _ _ hS))
  · exact expandGeneric_on F hrec hS hr
  · cases hr; exact F.setId _ _ _ hS
  · cases hr; exact F.refl _
  · next vs ht =>
    unfold dealVariant at hr
    split at hr
    · cases hr
    · next p ps hp =>
      split at hr
      · unfold expandOption at hr
        split at hr
        · cases hr
        · exact expandGeneric_on F hrec hS hr
      next h1 =>
        split at hr
        · unfold expandResult at hr
          split at hr
          · rw [Res.bind_eq_ok] at hr
            obtain ⟨a, ha, hr⟩ := hr
            rw [Res.bind_eq_ok] at hr
            obtain ⟨b, hb, hr⟩ := hr
            cases hr
            exact F.trans _ _ _ (subTypeOf_on F hrec ha) (F.trans _ _ _ (subTypeOf_on F hrec hb) (F.setId _ _ _ hS))
          · cases hr
        next hR =>
          split at hr
          · cases hr; exact F.setId _ _ _ hS
          next h3 =>
            split at hr
            · cases hr; exact F.setId _ _ _ hS
            next h4 =>
              split at hr
              · next hpc =>
                rw [Res.bind_eq_ok] at hr
                obtain ⟨n, hn, hr⟩ := hr
                rw [Res.bind_eq_ok] at hr
                obtain ⟨st2, h2, hr⟩ := hr
                cases hr
                refine F.trans _ _ _ (F.setId _ _ _ hS) (F.register _ _ _ _ (.inr ⟨rfl, .inr ⟨i, ?_, hn, name_variant ht hp h1 hR h3 h4 hn⟩⟩) h2)
                rw [hp]
                have := sliceIndex_mem_iff.1 hpc
                simpa using this
              · unfold expandEnum at hr
                rw [Res.bind_eq_ok] at hr
                obtain ⟨a, ha, hr⟩ := hr
                rw [Res.bind_eq_ok] at hr
                obtain ⟨n, hn, hr⟩ := hr
                rw [Res.bind_eq_ok] at hr
                obtain ⟨st2, h2, hr⟩ := hr
                cases hr
                exact F.trans _ _ _ (enumRows_on F hrec ha)
                  (F.trans _ _ _ (F.register _ _ _ _ (.inl ⟨rfl, rfl, .inl ⟨i, hn, name_variant ht hp h1 hR h3 h4 hn⟩⟩) h2) (F.setId _ _ _ hS))
  · cases hr; exact F.setId _ _ _ hS
  · cases hr; exact F.setId _ _ _ hS

end

end ScaleGo
