import Verif.Model.ScaleInfo
import Verif.Lemmas.Names

/-! # Type texts of a portable registry -/

namespace ScaleGo

/-- Whether the composite is treated as `WrapperOpaque` (types/scaleInfo.go:250). -/
def IsWrapper (t : SiType) : Prop :=
  2 ≤ t.path.length ∧ (lastOf t.path = b!"WrapperKeepOpaque" ∨ lastOf t.path = b!"WrapperOpaque")

/-- Variant types that are not registered as enums (types/scaleInfo.go:489-500). -/
def IsCallTag (t : SiType) : Prop :=
  lastOf t.path = b!"Call" ∨ lastOf t.path = b!"Event" ∨ lastOf t.path = b!"RuntimeCall"

/-- A composite with no or several fields, registered as struct (types/scaleInfo.go:274-290). -/
def IsStruct (t : SiType) : Prop := ∃ fs, t.typ = .composite fs ∧ fs.length ≠ 1 ∧ ¬ IsWrapper t

/-- A variant type registered as enum (types/scaleInfo.go:501-504). -/
def IsEnum (t : SiType) : Prop :=
  ∃ vs p ps, t.typ = .variant vs ∧ t.path = p :: ps ∧ equalFold p b!"Option" = false ∧ equalFold p b!"Result" = false ∧
    ¬ IsCallTag t

/-- The type `sp_runtime:...:UncheckedExtrinsic` (types/scaleInfo.go:241). -/
def IsExtrinsic (t : SiType) : Prop :=
  2 ≤ t.path.length ∧ t.path.head? = some b!"sp_runtime" ∧ lastOf t.path = b!"UncheckedExtrinsic"

/-- Types whose text is entered before any other type is expanded: primitive types, types of the crate `primitive_types`, and
the account id when it is the first type. Types expanded regardless of an existing text are not among them. -/
structure EarlyOK (cfg : SiCfg) (A : Nat → Prop) : Prop where
  inside : ∀ i, A i → i < cfg.count
  kind : ∀ i, A i → (∃ p, (cfg.types i).typ = .primitive p ∧ (cfg.types i).path = []) ∨
    (cfg.types i).path.head? = some b!"primitive_types" ∨ i = 0 ∧ (cfg.types i).path.head? = some b!"sp_core" ∧ lastOf (cfg.types i).path = b!"AccountId32" ∧
      ∃ f, (cfg.types i).typ = .composite [f]
  wrapper : ∀ i n p ps, IsWrapper (cfg.types i) → (cfg.types i).params = (n, p) :: ps → ¬ A p
  extrinsic : ∀ i name p, IsExtrinsic (cfg.types i) → name = b!"Signature" ∨ name = b!"Address" →
    findParameter name (cfg.types i).params = some p → ¬ A p
  core : ∀ i, (cfg.types i).path.head? = some b!"sp_core" → A i → i = 0

/-- No type is treated as entered early. -/
def NoEarly : Nat → Prop := fun _ => False

theorem earlyOK_none (cfg : SiCfg) : EarlyOK cfg NoEarly :=
  ⟨fun _ h => h.elim, fun _ h => h.elim, fun _ _ _ _ _ _ h => h, fun _ _ _ _ _ _ h => h, fun _ _ h => h.elim⟩

/-- The type texts that may stand for a portable type, where those in `A` have their text from the start. -/
inductive Text (cfg : SiCfg) (A : Nat → Prop) : Nat → Str → Prop
  | name {i n} : ¬ A i → nameSiType cfg (cfg.types i) (some i) = .ok n → n ≠ [] → Text cfg A i n
  | emptyName {i} : ¬ A i → IsStruct (cfg.types i) ∨ IsEnum (cfg.types i) → nameSiType cfg (cfg.types i) (some i) = .ok [] →
      Text cfg A i []
  | override {i} : ¬ A i → overriderTypesName (cfg.types i) ≠ [] → Text cfg A i (overriderTypesName (cfg.types i))
  | primitive {i p} : (cfg.types i).typ = .primitive p → Text cfg A i p
  | primitiveTypes {i} : (cfg.types i).path.head? = some b!"primitive_types" → Text cfg A i (lastOf (cfg.types i).path)
  | account {i f} : (cfg.types i).typ = .composite [f] → (cfg.types i).path ≠ [] →
      lastOf (cfg.types i).path = b!"AccountId32" → Text cfg A i b!"AccountId"
  | wrapper {i fs n p ps s} : ¬ A i → (cfg.types i).typ = .composite fs → IsWrapper (cfg.types i) →
      (cfg.types i).params = (n, p) :: ps → Text cfg A p s → Text cfg A i (b!"WrapperOpaque<" ++ s ++ b!">")
  | newtype {i f s} : ¬ A i → (cfg.types i).typ = .composite [f] → ¬ IsWrapper (cfg.types i) →
      lastOf (cfg.types i).path ≠ b!"AccountId32" → Text cfg A f.type s → Text cfg A i s
  | selfNewtype {i f} : ¬ A i → (cfg.types i).typ = .composite [f] → f.type = i → Text cfg A i b!"NULL"
  | arrayZero {i k} : ¬ A i → (cfg.types i).typ = .array 0 k → Text cfg A i b!"NULL"
  | array {i n k s} : ¬ A i → (cfg.types i).typ = .array n k → n ≠ 0 → Text cfg A k s →
      Text cfg A i (b!"[" ++ s ++ b!"; " ++ natToDec n ++ b!"]")
  | sequence {i k s} : ¬ A i → (cfg.types i).typ = .sequence k → Text cfg A k s → Text cfg A i (b!"Vec" ++ b!"<" ++ s ++ b!">")
  | compact {i k s} : ¬ A i → (cfg.types i).typ = .compact k → Text cfg A k s → Text cfg A i (b!"compact" ++ b!"<" ++ s ++ b!">")
  | tupleNil {i} : ¬ A i → (cfg.types i).typ = .tuple [] → Text cfg A i b!"NULL"
  | tuple {i} (ps : List (Nat × Str)) : ¬ A i → (cfg.types i).typ = .tuple (ps.map (·.1)) → ps ≠ [] →
      (∀ p ∈ ps, Text cfg A p.1 p.2) → Text cfg A i (b!"Tuple:" ++ (ps.map (·.2)).flatten)
  | bits {i} : ¬ A i → (cfg.types i).typ = .bitSequence → Text cfg A i b!"BitVec"
  | range {i} : ¬ A i → (cfg.types i).typ = .range → Text cfg A i []
  | option {i vs p ps n q qs s} : ¬ A i → (cfg.types i).typ = .variant vs → (cfg.types i).path = p :: ps →
      equalFold p b!"Option" = true → (cfg.types i).params = (n, q) :: qs → Text cfg A q s →
      Text cfg A i (b!"option" ++ b!"<" ++ s ++ b!">")
  | result {i vs p ps n q m q' qs s s'} : ¬ A i → (cfg.types i).typ = .variant vs → (cfg.types i).path = p :: ps →
      equalFold p b!"Option" = false → equalFold p b!"Result" = true → (cfg.types i).params = (n, q) :: (m, q') :: qs →
      Text cfg A q s → Text cfg A q' s' → Text cfg A i (b!"Result<" ++ s ++ b!"," ++ s' ++ b!">")
  | call {i vs} : ¬ A i → (cfg.types i).typ = .variant vs → IsCallTag (cfg.types i) → Text cfg A i b!"Call"
  | nothing {i} : ¬ A i → (cfg.types i).typ = .none → Text cfg A i b!"NULL"
  | dealtPrimitive {i p} : ¬ A i → (cfg.types i).typ = .primitive p → Text cfg A i b!"NULL"

/-- All names in the table stand for their type. -/
structure IdsOK (cfg : SiCfg) (A : Nat → Prop) (st : SiState) : Prop where
  text : ∀ i t, st.ids i = some t → Text cfg A i t
  early : ∀ i, A i → (st.ids i).isSome = true

theorem IdsOK.setId {cfg : SiCfg} {A : Nat → Prop} {st : SiState} (h : IdsOK cfg A st) {i : Nat} {t : Str} (ht : Text cfg A i t) :
    IdsOK cfg A (st.setId i t) := by
  refine ⟨fun j s hs => ?_, fun j hj => ?_⟩
  · simp only [SiState.setId] at hs
    split at hs
    · next e => cases hs; rw [e]; exact ht
    · exact h.text j s hs
  · simp only [SiState.setId]
    split
    · rfl
    · exact h.early j hj

theorem IdsOK.late {cfg : SiCfg} {A : Nat → Prop} {st : SiState} (h : IdsOK cfg A st) {i : Nat} (hi : st.ids i = none) : ¬ A i := by
  intro hA
  have := h.early i hA
  rw [hi] at this
  cases this

theorem register_ids {cfg : SiCfg} {st st' : SiState} {key : Str} {d : TypeDef} (h : st.register cfg key d = .ok st') :
    st'.ids = st.ids := by
  unfold SiState.register at h
  rw [Res.bind_eq_ok] at h
  obtain ⟨r, _, h⟩ := h
  cases h
  rfl

theorem IdsOK.register {cfg : SiCfg} {A : Nat → Prop} {st st' : SiState} (h : IdsOK cfg A st) {key : Str} {d : TypeDef}
    (hr : st.register cfg key d = .ok st') : IdsOK cfg A st' := by
  refine ⟨?_, ?_⟩ <;> rw [register_ids hr]
  · exact h.text
  · exact h.early

/-- What a recursive call guarantees. -/
def RecOK (cfg : SiCfg) (A : Nat → Prop) (rec : SiRec) : Prop :=
  ∀ b i st r, ¬ A i → IdsOK cfg A st → rec b i st = .ok r → Text cfg A i r.1 ∧ IdsOK cfg A r.2

section
variable {cfg : SiCfg} {A : Nat → Prop} {rec : SiRec} (hrec : RecOK cfg A rec)
include hrec

theorem subTypeOf_ok {i : Nat} {st : SiState} {r : Str × SiState} (h : IdsOK cfg A st) (hr : subTypeOf rec i st = .ok r) :
    Text cfg A i r.1 ∧ IdsOK cfg A r.2 := by
  unfold subTypeOf at hr
  cases e : st.ids i with
  | some t => rw [e] at hr; cases hr; exact ⟨h.text i t e, h⟩
  | none => rw [e] at hr; exact hrec _ _ _ _ (h.late e) h hr

theorem subTypesOf_ok {is : List Nat} {st : SiState} {r : List Str × SiState} (h : IdsOK cfg A st)
    (hr : subTypesOf rec is st = .ok r) :
    (∃ ps : List (Nat × Str), ps.map (·.1) = is ∧ ps.map (·.2) = r.1 ∧ ∀ p ∈ ps, Text cfg A p.1 p.2) ∧ IdsOK cfg A r.2 := by
  induction is generalizing st r with
  | nil => cases hr; exact ⟨⟨[], rfl, rfl, by simp⟩, h⟩
  | cons i is ih =>
    unfold subTypesOf at hr
    rw [Res.bind_eq_ok] at hr
    obtain ⟨a, ha, hr⟩ := hr
    rw [Res.bind_eq_ok] at hr
    obtain ⟨q, hq, hr⟩ := hr
    cases hr
    obtain ⟨h1, h2⟩ := subTypeOf_ok hrec h ha
    obtain ⟨⟨ps, e1, e2, h3⟩, h4⟩ := ih h2 hq
    refine ⟨⟨(i, a.1) :: ps, by simp [e1], by simp [e2], ?_⟩, h4⟩
    intro p hp
    rcases List.mem_cons.1 hp with rfl | hp
    · exact h1
    · exact h3 p hp

theorem registerParam_ok {key name : Str} {t : SiType} {st st' : SiState} (h : IdsOK cfg A st)
    (hA : ∀ p, findParameter name t.params = some p → ¬ A p) (hr : registerParam cfg rec key name t st = .ok st') : IdsOK cfg A st' := by
  unfold registerParam at hr
  cases e : findParameter name t.params with
  | none => rw [e] at hr; cases hr; exact h
  | some i =>
    rw [e] at hr
    simp only [Res.bind_eq_ok] at hr
    obtain ⟨a, ha, hr⟩ := hr
    exact (hrec _ _ _ _ (hA _ e) h ha).2.register hr

theorem expandExtrinsicParams_ok {i : Nat} {st st' : SiState} (hE : EarlyOK cfg A) (h : IdsOK cfg A st)
    (hr : expandExtrinsicParams cfg rec (cfg.types i) st = .ok st') : IdsOK cfg A st' := by
  unfold expandExtrinsicParams at hr
  split at hr
  · next hx =>
    rw [Res.bind_eq_ok] at hr
    obtain ⟨a, ha, hr⟩ := hr
    exact registerParam_ok hrec (registerParam_ok hrec h (fun p => hE.extrinsic i _ p hx (.inl rfl)) ha)
      (fun p => hE.extrinsic i _ p hx (.inr rfl)) hr
  · cases hr; exact h

theorem expandGeneric_ok {word : Str} {id k : Nat} {st : SiState} {r : Str × SiState} (h : IdsOK cfg A st)
    (ht : ∀ s, Text cfg A k s → Text cfg A id (word ++ b!"<" ++ s ++ b!">")) (hr : expandGeneric rec word id k st = .ok r) :
    Text cfg A id r.1 ∧ IdsOK cfg A r.2 := by
  unfold expandGeneric at hr
  rw [Res.bind_eq_ok] at hr
  obtain ⟨a, ha, hr⟩ := hr
  cases hr
  obtain ⟨h1, h2⟩ := subTypeOf_ok hrec h ha
  exact ⟨ht _ h1, h2.setId (ht _ h1)⟩

theorem enumRows_ids {prev : Option Nat} {vs : List SiVariant} {st : SiState} {r : List (List Str) × SiState} (h : IdsOK cfg A st)
    (hr : enumRows rec prev vs st = .ok r) : IdsOK cfg A r.2 := by
  induction vs generalizing prev st r with
  | nil => cases hr; exact h
  | cons v vs ih =>
    unfold enumRows at hr
    rw [Res.bind_eq_ok] at hr
    obtain ⟨a, ha, hr⟩ := hr
    rw [Res.bind_eq_ok] at hr
    obtain ⟨q, hq, hr⟩ := hr
    cases hr
    refine ih (r := q) ?_ hq
    unfold variantType at ha
    split at ha
    · cases ha; exact h
    · exact (subTypeOf_ok hrec h ha).2
    · rw [Res.bind_eq_ok] at ha
      obtain ⟨x, hx, ha⟩ := ha
      cases ha
      exact (subTypesOf_ok hrec h hx).2

end

theorem sliceIndex_mem_iff {a : Str} {l : List Str} : (sliceIndex a l).isSome = true ↔ a ∈ l := by
  induction l with
  | nil => simp [sliceIndex]
  | cons b l ih =>
    unfold sliceIndex
    split
    · next e => simp [e]
    · next e =>
      rw [Option.isSome_map, ih, List.mem_cons]
      exact ⟨.inr, fun h => h.resolve_left fun h => e h.symm⟩

theorem palletCall_last {p : List Str} (h : palletCall p = true) : lastOf p = b!"Call" := by
  unfold palletCall at h
  split at h
  · next a b tl e =>
    have : p = (a :: b :: tl).reverse := by rw [← e, List.reverse_reverse]
    simp at h
    rw [this, h.2]
    simp [lastOf]
  · cases h

/-- Everything `dealOneSiType` returns or enters is a text for the type in question. -/
theorem deal_text {cfg : SiCfg} {A : Nat → Prop} (hE : EarlyOK cfg A) (fuel : Nat) : RecOK cfg A (dealOneSiType cfg fuel) := by
  induction fuel with
  | zero => intro b i st r _ _ hr; cases hr
  | succ fuel hrec =>
    intro b i st r hiA h hr
    have main : ∀ {r}, dealDef cfg (dealOneSiType cfg fuel) i (cfg.types i) st = .ok r → Text cfg A i r.1 ∧ IdsOK cfg A r.2 := by
      intro r hr
      unfold dealDef at hr
      split at hr
      · next fs ht =>
        unfold expandComposite at hr
        rw [Res.bind_eq_ok] at hr
        obtain ⟨st1, h1, hr⟩ := hr
        have hs1 := expandExtrinsicParams_ok hrec hE h h1
        split at hr
        · next hw =>
          have hW : IsWrapper (cfg.types i) := ⟨hw.1, by have := sliceIndex_mem_iff.1 hw.2; simpa using this⟩
          split at hr
          · cases hr
          · next n p ps hp =>
            rw [Res.bind_eq_ok] at hr
            obtain ⟨a, ha, hr⟩ := hr
            cases hr
            obtain ⟨h2, h3⟩ := hrec _ _ _ _ (hE.wrapper i n p ps hW hp) hs1 ha
            have h4 : Text cfg A i (b!"WrapperOpaque<" ++ a.1 ++ b!">") := .wrapper hiA ht hW hp h2
            exact ⟨h4, h3.setId h4⟩
        · next hw =>
          have hW : ¬ IsWrapper (cfg.types i) := fun hW => hw ⟨hW.1, sliceIndex_mem_iff.2 (by simpa using hW.2)⟩
          split at hr
          · next f =>
            unfold expandNewtype at hr
            split at hr
            · next hacc =>
              cases hr
              have h4 : Text cfg A i b!"AccountId" := .account ht hacc.1 hacc.2
              exact ⟨h4, hs1.setId h4⟩
            · next hacc =>
              have hA : lastOf (cfg.types i).path ≠ b!"AccountId32" := by
                intro e
                refine hacc ⟨?_, e⟩
                intro e'
                rw [e'] at e
                cases e
              rw [Res.bind_eq_ok] at hr
              obtain ⟨a, ha, hr⟩ := hr
              rw [Res.bind_eq_ok] at hr
              obtain ⟨n, hn, hr⟩ := hr
              rw [Res.bind_eq_ok] at hr
              obtain ⟨st2, h2, hr⟩ := hr
              cases hr
              have key : Text cfg A i a.1 ∧ IdsOK cfg A a.2 := by
                unfold newtypeSub at ha
                split at ha
                · next s hs => cases ha; exact ⟨.newtype hiA ht hW hA (hs1.text _ _ hs), hs1⟩
                · next hs =>
                  split at ha
                  · next e => cases ha; exact ⟨.selfNewtype hiA ht e, hs1⟩
                  · have := hrec _ _ _ _ (hs1.late hs) hs1 ha
                    exact ⟨.newtype hiA ht hW hA this.1, this.2⟩
              exact ⟨key.1, (key.2.setId key.1).register h2⟩
          · next hne =>
            unfold expandStruct at hr
            rw [Res.bind_eq_ok] at hr
            obtain ⟨a, ha, hr⟩ := hr
            rw [Res.bind_eq_ok] at hr
            obtain ⟨n, hn, hr⟩ := hr
            rw [Res.bind_eq_ok] at hr
            obtain ⟨st2, h2, hr⟩ := hr
            cases hr
            have h3 := (subTypesOf_ok hrec hs1 ha).2
            have h4 : Text cfg A i n := by
              by_cases e : n = []
              · subst e
                refine .emptyName hiA (.inl ⟨fs, ht, ?_, hW⟩) hn
                intro hl
                obtain ⟨f, rfl⟩ := List.length_eq_one_iff.1 hl
                exact hne f rfl
              · exact .name hiA hn e
            exact ⟨h4, (h3.register h2).setId h4⟩
      · next len k ht =>
        unfold expandArray at hr
        split at hr
        · next e => cases hr; subst e; exact ⟨.arrayZero hiA ht, h.setId (.arrayZero hiA ht)⟩
        · next e =>
          rw [Res.bind_eq_ok] at hr
          obtain ⟨a, ha, hr⟩ := hr
          cases hr
          obtain ⟨h1, h2⟩ := subTypeOf_ok hrec h ha
          exact ⟨.array hiA ht e h1, h2.setId (.array hiA ht e h1)⟩
      · next k ht => exact expandGeneric_ok hrec h (fun s hs => .sequence hiA ht hs) hr
      · next types ht =>
        unfold expandTuple at hr
        split at hr
        · next e => subst e; cases hr; exact ⟨.tupleNil hiA ht, h.setId (.tupleNil hiA ht)⟩
        · next e =>
          rw [Res.bind_eq_ok] at hr
          obtain ⟨a, ha, hr⟩ := hr
          rw [Res.bind_eq_ok] at hr
          obtain ⟨st2, h2, hr⟩ := hr
          cases hr
          obtain ⟨⟨ps, e1, e2, h3⟩, h4⟩ := subTypesOf_ok hrec h ha
          have h5 : Text cfg A i (b!"Tuple:" ++ a.1.flatten) := by
            rw [← e2]
            exact .tuple ps hiA (by rw [e1]; exact ht) (by rintro rfl; exact e e1.symm) h3
          exact ⟨h5, (h4.register h2).setId h5⟩
      · next k ht => exact expandGeneric_ok hrec h (fun s hs => .compact hiA ht hs) hr
      · next ht => cases hr; exact ⟨.bits hiA ht, h.setId (.bits hiA ht)⟩
      · next ht => cases hr; exact ⟨.range hiA ht, h⟩
      · next vs ht =>
        unfold dealVariant at hr
        split at hr
        · cases hr
        · next p ps hp =>
          split at hr
          · next ho =>
            unfold expandOption at hr
            split at hr
            · cases hr
            · next n q qs hq => exact expandGeneric_ok hrec h (fun s hs => .option hiA ht hp ho hq hs) hr
          · next ho =>
            have ho : equalFold p b!"Option" = false := by simpa using ho
            split at hr
            · next hres =>
              unfold expandResult at hr
              split at hr
              · next n q m q' qs hq =>
                rw [Res.bind_eq_ok] at hr
                obtain ⟨a, ha, hr⟩ := hr
                rw [Res.bind_eq_ok] at hr
                obtain ⟨b, hb, hr⟩ := hr
                cases hr
                obtain ⟨h1, h2⟩ := subTypeOf_ok hrec h ha
                obtain ⟨h3, h4⟩ := subTypeOf_ok hrec h2 hb
                have h5 := Text.result hiA ht hp ho hres hq h1 h3
                exact ⟨h5, h4.setId h5⟩
              · cases hr
            · next hnr =>
              split at hr
              · next hpc =>
                cases hr
                have h5 : Text cfg A i b!"Call" := .call hiA ht (.inl (hp ▸ palletCall_last hpc))
                exact ⟨h5, h.setId h5⟩
              · split at hr
                · next hpc =>
                  cases hr
                  have h5 : Text cfg A i b!"Call" := .call hiA ht (by
                    have := sliceIndex_mem_iff.1 hpc
                    unfold IsCallTag
                    rw [hp]
                    simp at this
                    tauto)
                  exact ⟨h5, h.setId h5⟩
                · next hce =>
                  split at hr
                  · next hpc =>
                    rw [Res.bind_eq_ok] at hr
                    obtain ⟨n, hn, hr⟩ := hr
                    rw [Res.bind_eq_ok] at hr
                    obtain ⟨st2, h2, hr⟩ := hr
                    cases hr
                    have h5 : Text cfg A i b!"Call" := .call hiA ht (by
                      have := sliceIndex_mem_iff.1 hpc
                      unfold IsCallTag
                      rw [hp]
                      simp at this
                      tauto)
                    exact ⟨h5, (h.setId h5).register h2⟩
                  · next hrc =>
                    unfold expandEnum at hr
                    rw [Res.bind_eq_ok] at hr
                    obtain ⟨a, ha, hr⟩ := hr
                    rw [Res.bind_eq_ok] at hr
                    obtain ⟨n, hn, hr⟩ := hr
                    rw [Res.bind_eq_ok] at hr
                    obtain ⟨st2, h2, hr⟩ := hr
                    cases hr
                    have h5 : Text cfg A i n := by
                      by_cases e : n = []
                      · subst e
                        refine .emptyName hiA (.inr ⟨vs, p, ps, ht, hp, ho, by simpa using hnr, ?_⟩) hn
                        rw [sliceIndex_mem_iff] at hce hrc
                        unfold IsCallTag
                        rw [hp]
                        simp at hce hrc
                        tauto
                      · exact .name hiA hn e
                    exact ⟨h5, ((enumRows_ids hrec h ha).register h2).setId h5⟩
      · next p ht => cases hr; exact ⟨.dealtPrimitive hiA ht, h.setId (.dealtPrimitive hiA ht)⟩
      · next ht => cases hr; exact ⟨.nothing hiA ht, h.setId (.nothing hiA ht)⟩
    unfold dealOneSiType at hr
    simp only at hr
    split at hr
    · next e => cases hr; exact ⟨.override hiA e, h.setId (.override hiA e)⟩
    · split at hr
      · rw [Res.bind_eq_ok] at hr
        obtain ⟨n, hn, hr⟩ := hr
        split at hr
        · next e => cases hr; exact ⟨.name hiA hn e, h⟩
        · exact main hr
      · exact main hr

/-! ## Frame: what every step preserves -/

/-- The keys under which the registry itself enters definitions. -/
def OwnKey (cfg : SiCfg) (key : Str) : Prop :=
  (∃ i, nameSiType cfg (cfg.types i) (some i) = .ok key ∧ key = generateName cfg (cfg.types i) (some i)) ∨ (∃ s i ks, key = b!"Tuple:" ++ s ∧ (cfg.types i).typ = .tuple ks) ∨
    (∃ s, key = b!"primitive_types:" ++ s)

/-- The definitions passed to `RegCustomTypes`: those of the registry itself, and three aliases without V14 mark. -/
def Submitted (cfg : SiCfg) (key : Str) (d : TypeDef) : Prop :=
  (d.v14 = cfg.v14 ∧ d.specVec = cfg.spec ∧ OwnKey cfg key) ∨
  (d.v14 = false ∧ ((key = b!"ExtrinsicSignature" ∨ key = b!"ExtrinsicSigner") ∧ (∃ i, IsExtrinsic (cfg.types i)) ∨
    ∃ i, lastOf (cfg.types i).path = b!"RuntimeCall" ∧ nameSiType cfg (cfg.types i) (some i) = .ok key ∧ key = generateName cfg (cfg.types i) (some i)))

theorem name_composite {cfg : SiCfg} {t : SiType} {id : Option Nat} {fs : List SiField} {n : Str} (ht : t.typ = .composite fs)
    (h : nameSiType cfg t id = .ok n) : n = generateName cfg t id := by
  unfold nameSiType at h
  rw [ht] at h
  cases h; rfl

theorem name_variant {cfg : SiCfg} {t : SiType} {id : Option Nat} {vs : List SiVariant} {n p : Str} {ps : List Str} (ht : t.typ = .variant vs)
    (hp : t.path = p :: ps) (h1 : ¬ equalFold p b!"Option" = true) (h2 : ¬ equalFold p b!"Result" = true) (h3 : ¬ palletCall (p :: ps) = true)
    (h4 : ¬ (sliceIndex (lastOf (p :: ps)) [b!"Call", b!"Event"]).isSome = true) (h : nameSiType cfg t id = .ok n) : n = generateName cfg t id := by
  unfold nameSiType at h
  rw [ht, hp] at h
  simp only [h1, h2, h3, h4, Bool.or_false, Bool.false_eq_true, if_false] at h
  cases h; rfl

/-- A relation between states that every step satisfies. -/
structure Frame (cfg : SiCfg) (I : SiState → SiState → Prop) : Prop where
  refl : ∀ st, I st st
  trans : ∀ a b c, I a b → I b c → I a c
  setId : ∀ st i t, I st (st.setId i t)
  register : ∀ st key d st', Submitted cfg key d → st.register cfg key d = .ok st' → I st st'

section
variable {cfg : SiCfg} {I : SiState → SiState → Prop} (F : Frame cfg I) {rec : SiRec}
  (hrec : ∀ b i st r, rec b i st = .ok r → I st r.2)
include F hrec

theorem subTypeOf_frame {i : Nat} {st : SiState} {r : Str × SiState} (hr : subTypeOf rec i st = .ok r) : I st r.2 := by
  unfold subTypeOf at hr
  split at hr
  · cases hr; exact F.refl _
  · exact hrec _ _ _ _ hr

theorem subTypesOf_frame {is : List Nat} {st : SiState} {r : List Str × SiState} (hr : subTypesOf rec is st = .ok r) : I st r.2 := by
  induction is generalizing st r with
  | nil => cases hr; exact F.refl _
  | cons i is ih =>
    unfold subTypesOf at hr
    rw [Res.bind_eq_ok] at hr
    obtain ⟨a, ha, hr⟩ := hr
    rw [Res.bind_eq_ok] at hr
    obtain ⟨q, hq, hr⟩ := hr
    cases hr
    exact F.trans _ _ _ (subTypeOf_frame F hrec ha) (ih (r := q) hq)

theorem expandGeneric_frame {word : Str} {id k : Nat} {st : SiState} {r : Str × SiState}
    (hr : expandGeneric rec word id k st = .ok r) : I st r.2 := by
  unfold expandGeneric at hr
  rw [Res.bind_eq_ok] at hr
  obtain ⟨a, ha, hr⟩ := hr
  cases hr
  exact F.trans _ _ _ (subTypeOf_frame F hrec ha) (F.setId _ _ _)

theorem enumRows_frame {prev : Option Nat} {vs : List SiVariant} {st : SiState} {r : List (List Str) × SiState}
    (hr : enumRows rec prev vs st = .ok r) : I st r.2 := by
  induction vs generalizing prev st r with
  | nil => cases hr; exact F.refl _
  | cons v vs ih =>
    unfold enumRows at hr
    rw [Res.bind_eq_ok] at hr
    obtain ⟨a, ha, hr⟩ := hr
    rw [Res.bind_eq_ok] at hr
    obtain ⟨q, hq, hr⟩ := hr
    cases hr
    refine F.trans _ a.2 _ ?_ (ih (r := q) hq)
    unfold variantType at ha
    split at ha
    · cases ha; exact F.refl _
    · exact subTypeOf_frame F hrec ha
    · rw [Res.bind_eq_ok] at ha
      obtain ⟨x, hx, ha⟩ := ha
      cases ha
      exact subTypesOf_frame F hrec hx

theorem registerParam_frame {key name : Str} {t : SiType} {st st' : SiState}
    (hk : key = b!"ExtrinsicSignature" ∨ key = b!"ExtrinsicSigner") (hx : ∃ i, IsExtrinsic (cfg.types i))
    (hr : registerParam cfg rec key name t st = .ok st') : I st st' := by
  unfold registerParam at hr
  split at hr
  · cases hr; exact F.refl _
  · rw [Res.bind_eq_ok] at hr
    obtain ⟨a, ha, hr⟩ := hr
    exact F.trans _ _ _ (hrec _ _ _ _ ha) (F.register _ _ _ _ (.inr ⟨rfl, .inl ⟨hk, hx⟩⟩) hr)

theorem dealDef_frame {i : Nat} {st : SiState} {r : Str × SiState} (hr : dealDef cfg rec i (cfg.types i) st = .ok r) :
    I st r.2 := by
  unfold dealDef at hr
  split at hr
  · next fs ht =>
    unfold expandComposite at hr
    rw [Res.bind_eq_ok] at hr
    obtain ⟨st1, h1, hr⟩ := hr
    have hs1 : I st st1 := by
      unfold expandExtrinsicParams at h1
      split at h1
      · next hx =>
        rw [Res.bind_eq_ok] at h1
        obtain ⟨a, ha, h1⟩ := h1
        exact F.trans _ _ _ (registerParam_frame F hrec (.inl rfl) ⟨i, hx⟩ ha) (registerParam_frame F hrec (.inr rfl) ⟨i, hx⟩ h1)
      · cases h1; exact F.refl _
    refine F.trans _ _ _ hs1 ?_
    split at hr
    · split at hr
      · cases hr
      · rw [Res.bind_eq_ok] at hr
        obtain ⟨a, ha, hr⟩ := hr
        cases hr
        exact F.trans _ _ _ (hrec _ _ _ _ ha) (F.setId _ _ _)
    · split at hr
      · unfold expandNewtype at hr
        split at hr
        · cases hr; exact F.setId _ _ _
        · rw [Res.bind_eq_ok] at hr
          obtain ⟨a, ha, hr⟩ := hr
          rw [Res.bind_eq_ok] at hr
          obtain ⟨n, hn, hr⟩ := hr
          rw [Res.bind_eq_ok] at hr
          obtain ⟨st2, h2, hr⟩ := hr
          cases hr
          refine F.trans _ a.2 _ ?_ (F.trans _ _ _ (F.setId _ _ _) (F.register _ _ _ _ (.inl ⟨rfl, rfl, .inl ⟨i, hn, name_composite ht hn⟩⟩) h2))
          unfold newtypeSub at ha
          split at ha
          · cases ha; exact F.refl _
          · split at ha
            · cases ha; exact F.refl _
            · exact hrec _ _ _ _ ha
      · unfold expandStruct at hr
        rw [Res.bind_eq_ok] at hr
        obtain ⟨a, ha, hr⟩ := hr
        rw [Res.bind_eq_ok] at hr
        obtain ⟨n, hn, hr⟩ := hr
        rw [Res.bind_eq_ok] at hr
        obtain ⟨st2, h2, hr⟩ := hr
        cases hr
        exact F.trans _ _ _ (subTypesOf_frame F hrec ha) (F.trans _ _ _ (F.register _ _ _ _ (.inl ⟨rfl, rfl, .inl ⟨i, hn, name_composite ht hn⟩⟩) h2) (F.setId _ _ _))
  · unfold expandArray at hr
    split at hr
    · cases hr; exact F.setId _ _ _
    · rw [Res.bind_eq_ok] at hr
      obtain ⟨a, ha, hr⟩ := hr
      cases hr
      exact F.trans _ _ _ (subTypeOf_frame F hrec ha) (F.setId _ _ _)
  · exact expandGeneric_frame F hrec hr
  · next ks ht =>
    unfold expandTuple at hr
    split at hr
    · cases hr; exact F.setId _ _ _
    · rw [Res.bind_eq_ok] at hr
      obtain ⟨a, ha, hr⟩ := hr
      rw [Res.bind_eq_ok] at hr
      obtain ⟨st2, h2, hr⟩ := hr
      cases hr
      exact F.trans _ _ _ (subTypesOf_frame F hrec ha) (F.trans _ _ _ (F.register _ _ _ _ (.inl ⟨rfl, rfl, .inr (.inl ⟨_, i, ks, rfl, ht⟩)⟩) h2) (F.setId _ _ _))
  · exact expandGeneric_frame F hrec hr
  · cases hr; exact F.setId _ _ _
  · cases hr; exact F.refl _
  · next vs ht =>
    unfold dealVariant at hr
    split at hr
    · cases hr
    · next p ps hp =>
      split at hr
      · unfold expandOption at hr
        split at hr
        · cases hr
        · exact expandGeneric_frame F hrec hr
      next h1 =>
        split at hr
        · unfold expandResult at hr
          split at hr
          · rw [Res.bind_eq_ok] at hr
            obtain ⟨a, ha, hr⟩ := hr
            rw [Res.bind_eq_ok] at hr
            obtain ⟨b, hb, hr⟩ := hr
            cases hr
            exact F.trans _ _ _ (subTypeOf_frame F hrec ha) (F.trans _ _ _ (subTypeOf_frame F hrec hb) (F.setId _ _ _))
          · cases hr
        next hR =>
          split at hr
          · cases hr; exact F.setId _ _ _
          next h3 =>
            split at hr
            · cases hr; exact F.setId _ _ _
            next h4 =>
              split at hr
              · next hpc =>
                rw [Res.bind_eq_ok] at hr
                obtain ⟨n, hn, hr⟩ := hr
                rw [Res.bind_eq_ok] at hr
                obtain ⟨st2, h2, hr⟩ := hr
                cases hr
                refine F.trans _ _ _ (F.setId _ _ _) (F.register _ _ _ _ (.inr ⟨rfl, .inr ⟨i, ?_, hn, name_variant ht hp h1 hR h3 h4 hn⟩⟩) h2)
                rw [hp]
                have := sliceIndex_mem_iff.1 hpc
                simpa using this
              · unfold expandEnum at hr
                rw [Res.bind_eq_ok] at hr
                obtain ⟨a, ha, hr⟩ := hr
                rw [Res.bind_eq_ok] at hr
                obtain ⟨n, hn, hr⟩ := hr
                rw [Res.bind_eq_ok] at hr
                obtain ⟨st2, h2, hr⟩ := hr
                cases hr
                exact F.trans _ _ _ (enumRows_frame F hrec ha)
                  (F.trans _ _ _ (F.register _ _ _ _ (.inl ⟨rfl, rfl, .inl ⟨i, hn, name_variant ht hp h1 hR h3 h4 hn⟩⟩) h2) (F.setId _ _ _))
  · cases hr; exact F.setId _ _ _
  · cases hr; exact F.setId _ _ _

end

theorem deal_frame {cfg : SiCfg} {I : SiState → SiState → Prop} (F : Frame cfg I) (fuel : Nat) (b : Bool) (i : Nat) (st : SiState)
    (r : Str × SiState) (hr : dealOneSiType cfg fuel b i st = .ok r) : I st r.2 := by
  induction fuel generalizing b i st r with
  | zero => cases hr
  | succ fuel hrec =>
    unfold dealOneSiType at hr
    simp only at hr
    split at hr
    · cases hr; exact F.setId _ _ _
    · split at hr
      · rw [Res.bind_eq_ok] at hr
        obtain ⟨n, hn, hr⟩ := hr
        split at hr
        · cases hr; exact F.refl _
        · exact dealDef_frame F hrec hr
      · exact dealDef_frame F hrec hr

theorem siLoop_frame {f : Nat → SiState → Res SiState} {I : SiState → SiState → Prop} (hrefl : ∀ st, I st st)
    (htrans : ∀ a b c, I a b → I b c → I a c) (hf : ∀ i st st', f i st = .ok st' → I st st') :
    ∀ (n i : Nat) (st st' : SiState), siLoop f i n st = .ok st' → I st st' := by
  intro n
  induction n with
  | zero => intro i st st' h; cases h; exact hrefl _
  | succ n ih =>
    intro i st st' h
    unfold siLoop at h
    rw [Res.bind_eq_ok] at h
    obtain ⟨a, ha, h⟩ := h
    exact htrans _ _ _ (hf _ _ _ ha) (ih _ _ _ h)

theorem registerPrimitive_frame {cfg : SiCfg} {I : SiState → SiState → Prop} (F : Frame cfg I) {id : Nat} {text : Str}
    {st st' : SiState} (h : registerPrimitive cfg id text st = .ok st') : I st st' := by
  unfold registerPrimitive at h
  split at h
  · cases h
  · exact F.trans _ _ _ (F.setId _ _ _) (F.register _ _ _ _ (.inl ⟨rfl, rfl, .inr (.inr ⟨_, rfl⟩)⟩) h)

theorem passPrimitive_frame {cfg : SiCfg} {I : SiState → SiState → Prop} (F : Frame cfg I) (i : Nat) (st st' : SiState)
    (h : passPrimitive cfg i st = .ok st') : I st st' := by
  unfold passPrimitive at h
  split at h
  · exact registerPrimitive_frame F h
  · cases h; exact F.refl _

theorem passPrimitiveTypes_frame {cfg : SiCfg} {I : SiState → SiState → Prop} (F : Frame cfg I) (i : Nat) (st st' : SiState)
    (h : passPrimitiveTypes cfg i st = .ok st') : I st st' := by
  unfold passPrimitiveTypes at h
  split at h
  · exact registerPrimitive_frame F h
  · cases h; exact F.refl _

theorem passSpCore_frame {cfg : SiCfg} {I : SiState → SiState → Prop} (F : Frame cfg I) (fuel i : Nat) (st st' : SiState)
    (h : passSpCore cfg fuel i st = .ok st') : I st st' := by
  unfold passSpCore at h
  split at h
  · rw [Res.bind_eq_ok] at h
    obtain ⟨a, ha, h⟩ := h
    cases h
    exact deal_frame F _ _ _ _ _ ha
  · cases h; exact F.refl _

theorem passRest_frame {cfg : SiCfg} {I : SiState → SiState → Prop} (F : Frame cfg I) (fuel i : Nat) (st st' : SiState)
    (h : passRest cfg fuel i st = .ok st') : I st st' := by
  unfold passRest at h
  split at h
  · cases h; exact F.refl _
  · rw [Res.bind_eq_ok] at h
    obtain ⟨a, ha, h⟩ := h
    cases h
    exact deal_frame F _ _ _ _ _ ha

theorem registerTypes_frame {cfg : SiCfg} {I : SiState → SiState → Prop} (F : Frame cfg I) {fuel : Nat} {st st' : SiState}
    (h : registerTypes cfg fuel st = .ok st') : I st st' := by
  unfold registerTypes at h
  rw [Res.bind_eq_ok] at h
  obtain ⟨a, ha, h⟩ := h
  rw [Res.bind_eq_ok] at h
  obtain ⟨b, hb, h⟩ := h
  rw [Res.bind_eq_ok] at h
  obtain ⟨c, hc, h⟩ := h
  exact F.trans _ _ _ (siLoop_frame F.refl F.trans (passPrimitive_frame F) _ _ _ _ ha)
    (F.trans _ _ _ (siLoop_frame F.refl F.trans (passPrimitiveTypes_frame F) _ _ _ _ hb)
      (F.trans _ _ _ (siLoop_frame F.refl F.trans (passSpCore_frame F fuel) _ _ _ _ hc)
        (siLoop_frame F.refl F.trans (passRest_frame F fuel) _ _ _ _ h)))

/-! ## Every type gets a text -/

theorem frame_ids (cfg : SiCfg) : Frame cfg (fun a b => ∀ i, (a.ids i).isSome = true → (b.ids i).isSome = true) where
  refl := fun _ _ h => h
  trans := fun _ _ _ h1 h2 i h => h2 i (h1 i h)
  setId := fun st i t j h => by
    simp only [SiState.setId]
    split
    · rfl
    · exact h
  register := fun st key d st' _ h i hi => by rw [register_ids h]; exact hi

theorem deal_sets {cfg : SiCfg} {fuel i : Nat} {st : SiState} {r : Str × SiState} (hn : (cfg.types i).typ ≠ .range)
    (hr : dealOneSiType cfg fuel false i st = .ok r) : r.2.ids i = some r.1 := by
  have hset : ∀ (st : SiState) (t : Str), (st.setId i t).ids i = some t := fun st t => by simp [SiState.setId]
  cases fuel with
  | zero => cases hr
  | succ fuel =>
    unfold dealOneSiType at hr
    simp only [Bool.false_eq_true, if_false] at hr
    split at hr
    · cases hr; exact hset _ _
    · unfold dealDef at hr
      have hgen : ∀ {w k r} {st : SiState}, expandGeneric (dealOneSiType cfg fuel) w i k st = .ok r → r.2.ids i = some r.1 := by
        intro w k r st h
        unfold expandGeneric at h
        rw [Res.bind_eq_ok] at h
        obtain ⟨a, ha, h⟩ := h
        cases h
        exact hset _ _
      split at hr
      · unfold expandComposite at hr
        rw [Res.bind_eq_ok] at hr
        obtain ⟨st1, h1, hr⟩ := hr
        split at hr
        · split at hr
          · cases hr
          · rw [Res.bind_eq_ok] at hr
            obtain ⟨a, ha, hr⟩ := hr
            cases hr
            exact hset _ _
        · split at hr
          · unfold expandNewtype at hr
            split at hr
            · cases hr; exact hset _ _
            · rw [Res.bind_eq_ok] at hr
              obtain ⟨a, ha, hr⟩ := hr
              rw [Res.bind_eq_ok] at hr
              obtain ⟨n, hn, hr⟩ := hr
              rw [Res.bind_eq_ok] at hr
              obtain ⟨st2, h2, hr⟩ := hr
              cases hr
              show st2.ids i = _
              rw [register_ids h2]
              exact hset _ _
          · unfold expandStruct at hr
            rw [Res.bind_eq_ok] at hr
            obtain ⟨a, ha, hr⟩ := hr
            rw [Res.bind_eq_ok] at hr
            obtain ⟨n, hn, hr⟩ := hr
            rw [Res.bind_eq_ok] at hr
            obtain ⟨st2, h2, hr⟩ := hr
            cases hr
            exact hset _ _
      · unfold expandArray at hr
        split at hr
        · cases hr; exact hset _ _
        · rw [Res.bind_eq_ok] at hr
          obtain ⟨a, ha, hr⟩ := hr
          cases hr
          exact hset _ _
      · exact hgen hr
      · unfold expandTuple at hr
        split at hr
        · cases hr; exact hset _ _
        · rw [Res.bind_eq_ok] at hr
          obtain ⟨a, ha, hr⟩ := hr
          rw [Res.bind_eq_ok] at hr
          obtain ⟨st2, h2, hr⟩ := hr
          cases hr
          exact hset _ _
      · exact hgen hr
      · cases hr; exact hset _ _
      · next h => exact absurd h hn
      · unfold dealVariant at hr
        split at hr
        · cases hr
        · split at hr
          · unfold expandOption at hr
            split at hr
            · cases hr
            · exact hgen hr
          · split at hr
            · unfold expandResult at hr
              split at hr
              · rw [Res.bind_eq_ok] at hr
                obtain ⟨a, ha, hr⟩ := hr
                rw [Res.bind_eq_ok] at hr
                obtain ⟨b, hb, hr⟩ := hr
                cases hr
                exact hset _ _
              · cases hr
            · split at hr
              · cases hr; exact hset _ _
              · split at hr
                · cases hr; exact hset _ _
                · split at hr
                  · rw [Res.bind_eq_ok] at hr
                    obtain ⟨n, hn, hr⟩ := hr
                    rw [Res.bind_eq_ok] at hr
                    obtain ⟨st2, h2, hr⟩ := hr
                    cases hr
                    show st2.ids i = _
                    rw [register_ids h2]
                    exact hset _ _
                  · unfold expandEnum at hr
                    rw [Res.bind_eq_ok] at hr
                    obtain ⟨a, ha, hr⟩ := hr
                    rw [Res.bind_eq_ok] at hr
                    obtain ⟨n, hn, hr⟩ := hr
                    rw [Res.bind_eq_ok] at hr
                    obtain ⟨st2, h2, hr⟩ := hr
                    cases hr
                    exact hset _ _
      · cases hr; exact hset _ _
      · cases hr; exact hset _ _

/-- An invariant that one turn establishes for its index and that later turns keep holds for all indices after the loop. -/
theorem siLoop_each {f : Nat → SiState → Res SiState} {P : Nat → SiState → Prop}
    (hf : ∀ i st st', f i st = .ok st' → P i st') (hk : ∀ i j st st', f i st = .ok st' → P j st → P j st') :
    ∀ (n i : Nat) (st st' : SiState), siLoop f i n st = .ok st' → ∀ j, i ≤ j → j < i + n → P j st' := by
  intro n
  induction n with
  | zero => intro i st st' h j h1 h2; omega
  | succ n ih =>
    intro i st st' h j h1 h2
    unfold siLoop at h
    rw [Res.bind_eq_ok] at h
    obtain ⟨a, ha, h⟩ := h
    by_cases e : j = i
    · subst e
      exact siLoop_frame (I := fun a b => P j a → P j b) (fun _ h => h) (fun _ _ _ h1 h2 h => h2 (h1 h))
        (fun i st st' h => hk i j st st' h) _ _ _ _ h (hf _ _ _ ha)
    · exact ih _ _ _ h j (by omega) (by omega)

theorem siLoop_inv {f : Nat → SiState → Res SiState} {P : SiState → Prop} (hf : ∀ i st st', f i st = .ok st' → P st → P st') :
    ∀ (n i : Nat) (st st' : SiState), siLoop f i n st = .ok st' → P st → P st' :=
  siLoop_frame (I := fun a b => P a → P b) (fun _ h => h) (fun _ _ _ h1 h2 h => h2 (h1 h)) hf

/-- Texts entered before any type is expanded. -/
structure StartOK (cfg : SiCfg) (A : Nat → Prop) (st : SiState) : Prop where
  text : ∀ i t, st.ids i = some t → Text cfg A i t
  prim : ∀ i, A i → i ≠ 0 ∨ (cfg.types i).path.head? ≠ some b!"sp_core" → (st.ids i).isSome = true

theorem registerPrimitive_text {cfg : SiCfg} {A : Nat → Prop} {i : Nat} {t : Str} {st st' : SiState}
    (h : registerPrimitive cfg i t st = .ok st') (ht : Text cfg A i t) (h0 : ∀ i t, st.ids i = some t → Text cfg A i t) :
    ∀ i t, st'.ids i = some t → Text cfg A i t := by
  unfold registerPrimitive at h
  split at h
  · cases h
  · rw [register_ids h]
    intro j s hs
    simp only [SiState.setId] at hs
    split at hs
    · next e => cases hs; rw [e]; exact ht
    · exact h0 j s hs

/-- After the loops over primitive types. -/
theorem primitives_text {cfg : SiCfg} {A : Nat → Prop} (hE : EarlyOK cfg A) {st a b : SiState}
    (ha : siLoop (passPrimitive cfg) 0 cfg.count st = .ok a) (hb : siLoop (passPrimitiveTypes cfg) 0 cfg.count a = .ok b)
    (h0 : ∀ i t, st.ids i = some t → Text cfg A i t) : StartOK cfg A b := by
  have hset : ∀ {i t st st'}, registerPrimitive cfg i t st = .ok st' → (st'.ids i).isSome = true := by
    intro i t st st' h
    unfold registerPrimitive at h
    split at h
    · cases h
    · rw [register_ids h]; simp [SiState.setId]
  have h1 := siLoop_inv (P := fun st => ∀ i t, st.ids i = some t → Text cfg A i t) (fun i st st' h h0 => by
    unfold passPrimitive at h
    split at h
    · next p e => exact registerPrimitive_text h (.primitive e) h0
    · cases h; exact h0) _ _ _ _ ha h0
  have h2 := siLoop_inv (P := fun st => ∀ i t, st.ids i = some t → Text cfg A i t) (fun i st st' h h0 => by
    unfold passPrimitiveTypes at h
    split at h
    · next e => exact registerPrimitive_text h (.primitiveTypes e) h0
    · cases h; exact h0) _ _ _ _ hb h1
  refine ⟨h2, fun i hA hi => ?_⟩
  have hc := hE.inside i hA
  have keep := fun i => siLoop_inv (P := fun st => (st.ids i).isSome = true)
    (fun j st st' h h0 => passPrimitiveTypes_frame (frame_ids cfg) j st st' h i h0) _ _ _ _ hb
  rcases hE.kind i hA with ⟨p, hp, _⟩ | hp | ⟨e0, hsp, _⟩
  · refine keep i (siLoop_each (P := fun i st => (∃ p, (cfg.types i).typ = .primitive p) → (st.ids i).isSome = true) ?_ ?_ _ _ _ _ ha
      i (Nat.zero_le _) (by omega) ⟨p, hp⟩)
    · rintro i st st' h ⟨p, hp⟩
      unfold passPrimitive at h
      rw [hp] at h
      exact hset h
    · exact fun i j st st' h hj hr => passPrimitive_frame (frame_ids cfg) i st st' h j (hj hr)
  · refine siLoop_each (P := fun i st => (cfg.types i).path.head? = some b!"primitive_types" → (st.ids i).isSome = true) ?_ ?_ _ _ _ _ hb
      i (Nat.zero_le _) (by omega) hp
    · intro i st st' h hp
      unfold passPrimitiveTypes at h
      rw [if_pos hp] at h
      exact hset h
    · exact fun i j st st' h hj hr => passPrimitiveTypes_frame (frame_ids cfg) i st st' h j (hj hr)
  · rcases hi with h | h
    · exact absurd e0 h
    · exact absurd hsp h

theorem siLoop_from {f : Nat → SiState → Res SiState} {I : SiState → SiState → Prop} (hrefl : ∀ st, I st st)
    (htrans : ∀ a b c, I a b → I b c → I a c) {j : Nat} (hf : ∀ i st st', j ≤ i → f i st = .ok st' → I st st') :
    ∀ (n i : Nat) (st st' : SiState), j ≤ i → siLoop f i n st = .ok st' → I st st' := by
  intro n
  induction n with
  | zero => intro i st st' _ h; cases h; exact hrefl _
  | succ n ih =>
    intro i st st' hj h
    unfold siLoop at h
    rw [Res.bind_eq_ok] at h
    obtain ⟨a, ha, h⟩ := h
    exact htrans _ _ _ (hf _ _ _ hj ha) (ih _ _ _ (by omega) h)

/-- The first turn of the loop over `sp_core`, when the first type is an account id. -/
theorem firstCore {cfg : SiCfg} {fuel : Nat} {st st' : SiState} {f : SiField} (hsp : (cfg.types 0).path.head? = some b!"sp_core")
    (hl : lastOf (cfg.types 0).path = b!"AccountId32") (ht : (cfg.types 0).typ = .composite [f])
    (h : passSpCore cfg fuel 0 st = .ok st') : st' = st.setId 0 b!"AccountId" := by
  have hp : (cfg.types 0).path ≠ [] := by intro e; rw [e] at hsp; cases hsp
  have hjoin : ∀ s : Str, (115 : UInt8) :: 117 :: s ≠ joinSep b!":" (cfg.types 0).path := by
    intro s he
    match hq : (cfg.types 0).path with
    | [] => exact hp hq
    | [x] =>
      rw [hq] at hsp he
      cases hsp
      cases he
    | x :: y :: l =>
      rw [hq] at hsp he
      cases hsp
      rw [show joinSep b!":" (b!"sp_core" :: y :: l) = b!"sp_core" ++ b!":" ++ joinSep b!":" (y :: l) from rfl] at he
      cases he
  have ho : overriderTypesName (cfg.types 0) = [] := by
    unfold overriderTypesName
    rw [ht]
    simp only
    rw [if_neg (fun h => hjoin _ h.1.symm), if_neg (fun h => hjoin _ h.1.symm)]
  unfold passSpCore at h
  rw [if_pos hsp, Res.bind_eq_ok] at h
  obtain ⟨r, hr, h⟩ := h
  cases h
  cases fuel with
  | zero => cases hr
  | succ fuel =>
    unfold dealOneSiType at hr
    simp only [ho, ne_eq, not_true_eq_false, if_false, Bool.false_eq_true] at hr
    unfold dealDef at hr
    rw [ht] at hr
    simp only at hr
    unfold expandComposite expandExtrinsicParams at hr
    rw [if_neg (by rintro ⟨_, h, _⟩; rw [hsp] at h; revert h; decide), Res.ok_bind,
      if_neg (by rintro ⟨_, h⟩; rw [hl] at h; revert h; decide)] at hr
    simp only at hr
    unfold expandNewtype at hr
    rw [if_pos ⟨hp, hl⟩] at hr
    cases hr
    rfl

/-- The loop over `sp_core` after its first turn, if that enters an account id. -/
theorem coreLoop {cfg : SiCfg} {A : Nat → Prop} (hE : EarlyOK cfg A) {fuel : Nat} {st st' : SiState} (hst : StartOK cfg A st)
    (h : siLoop (passSpCore cfg fuel) 0 cfg.count st = .ok st') :
    ∃ b j n, (b = st ∨ b = st.setId 0 b!"AccountId" ∧ (∃ f, (cfg.types 0).typ = .composite [f]) ∧ (cfg.types 0).path ≠ [] ∧
        lastOf (cfg.types 0).path = b!"AccountId32") ∧ IdsOK cfg A b ∧
      siLoop (passSpCore cfg fuel) j n b = .ok st' ∧ ∀ i, j ≤ i → (cfg.types i).path.head? = some b!"sp_core" → ¬ A i := by
  by_cases hA : A 0 ∧ (cfg.types 0).path.head? = some b!"sp_core"
  · obtain ⟨hA, hsp⟩ := hA
    have hp : (cfg.types 0).path ≠ [] := by intro e; rw [e] at hsp; cases hsp
    obtain ⟨n, hn⟩ : ∃ n, cfg.count = n + 1 := ⟨cfg.count - 1, by have := hE.inside 0 hA; omega⟩
    rw [hn] at h
    unfold siLoop at h
    rw [Res.bind_eq_ok] at h
    obtain ⟨a, ha, h⟩ := h
    rcases hE.kind 0 hA with ⟨p, _, hpr⟩ | hpr | ⟨_, _, hl, f, ht⟩
    · rw [hpr] at hsp; cases hsp
    · rw [hsp] at hpr; exact absurd hpr (by decide)
    · have e := firstCore hsp hl ht ha
      subst e
      refine ⟨_, 0 + 1, n, .inr ⟨rfl, ⟨f, ht⟩, hp, hl⟩, ⟨?_, ?_⟩, h, ?_⟩
      · intro j s hs
        simp only [SiState.setId] at hs
        split at hs
        · next e => cases hs; rw [e]; exact .account ht hp hl
        · exact hst.text j s hs
      · intro j hj
        simp only [SiState.setId]
        split
        · rfl
        · next e => exact hst.prim j hj (.inl e)
      · intro i hi hs hAi
        have := hE.core i hs hAi
        omega
  · refine ⟨st, 0, cfg.count, .inl rfl, ⟨hst.text, fun i hi => hst.prim i hi ?_⟩, h, ?_⟩
    · by_cases e : i = 0
      · subst e; exact .inr fun hs => hA ⟨hi, hs⟩
      · exact .inl e
    · intro i _ hs hAi
      have := hE.core i hs hAi
      subst this
      exact hA ⟨hAi, hs⟩

/-- After `ProcessSiType` every id has a text, and it stands for the type. -/
theorem registerTypes_text {cfg : SiCfg} {A : Nat → Prop} (hE : EarlyOK cfg A) {fuel : Nat} {st st' : SiState}
    (h : registerTypes cfg fuel st = .ok st') (h0 : ∀ i t, st.ids i = some t → Text cfg A i t) :
    IdsOK cfg A st' ∧ ∀ i < cfg.count, (cfg.types i).typ ≠ .range → ∃ t, st'.ids i = some t := by
  unfold registerTypes at h
  rw [Res.bind_eq_ok] at h
  obtain ⟨a, ha, h⟩ := h
  rw [Res.bind_eq_ok] at h
  obtain ⟨b, hb, h⟩ := h
  rw [Res.bind_eq_ok] at h
  obtain ⟨c, hc, h⟩ := h
  obtain ⟨b', j, n, _, hb', hc, hj⟩ := coreLoop hE (primitives_text hE ha hb h0) hc
  have h3 : IdsOK cfg A c := siLoop_from (I := fun a b => IdsOK cfg A a → IdsOK cfg A b) (fun _ h => h)
    (fun _ _ _ h1 h2 h => h2 (h1 h)) (j := j) (fun i st st' hi h h0 => by
    unfold passSpCore at h
    split at h
    · next hs =>
      rw [Res.bind_eq_ok] at h
      obtain ⟨x, hx, h⟩ := h
      cases h
      exact (deal_text hE fuel _ _ _ _ (hj i hi hs) h0 hx).2
    · cases h; exact h0) _ _ _ _ (Nat.le_refl _) hc hb'
  refine ⟨siLoop_inv (P := IdsOK cfg A) (fun i st st' h h0 => by
    unfold passRest at h
    split at h
    · cases h; exact h0
    · next hi =>
      rw [Res.bind_eq_ok] at h
      obtain ⟨x, hx, h⟩ := h
      cases h
      exact (deal_text hE fuel _ _ _ _ (h0.late hi) h0 hx).2) _ _ _ _ h h3, ?_⟩
  intro i hi hr
  have := siLoop_each (P := fun i st => (cfg.types i).typ ≠ .range → (st.ids i).isSome = true) (fun i st st' h hr => by
    unfold passRest at h
    split at h
    · next e => cases h; rw [e]; rfl
    · rw [Res.bind_eq_ok] at h
      obtain ⟨x, hx, h⟩ := h
      cases h
      rw [deal_sets hr hx]; rfl)
    (fun i j st st' h hj hr => passRest_frame (frame_ids cfg) fuel i st st' h j (hj hr)) _ _ _ _ h i (Nat.zero_le _) (by omega) hr
  exact Option.isSome_iff_exists.1 this

theorem process_text {cfg : SiCfg} {fuel : Nat} {reg : RegState} {st : SiState} (h : processSiType cfg fuel reg = .ok st) :
    ∃ dup, countNames cfg 0 cfg.count (fun _ => 0) = .ok dup ∧ IdsOK { cfg with dup := dup } NoEarly st ∧
      ∀ i < cfg.count, (cfg.types i).typ ≠ .range → ∃ t, st.ids i = some t := by
  unfold processSiType at h
  rw [Res.bind_eq_ok] at h
  obtain ⟨dup, hd, h⟩ := h
  exact ⟨dup, hd, registerTypes_text (earlyOK_none _) h (fun i t ht => by cases ht)⟩

/-! ## Registration of one definition -/

/-- What one call of `RegCustomTypes` does to the tables: nothing, or one entry under the lower-case key. -/
theorem regAlias_effect {fuel : Nat} {key : Str} {d : TypeDef} {st st' : RegState} {k : Str} (hk : d.kind = b!"string")
    (h : regAlias fuel [(key, d)] st k d = .ok st') :
    st'.v14 = st.v14 ∧ (st'.env = st.env ∨ ∃ c, st'.env = regCustomKey st.env k c) := by
  have ht : ∀ {st'}, regAliasText st k (convertType d.typeString) = .ok st' →
      st'.v14 = st.v14 ∧ (st'.env = st.env ∨ ∃ c, st'.env = regCustomKey st.env k c) := by
    intro st' h
    unfold regAliasText at h
    rw [Res.bind_eq_ok] at h
    obtain ⟨c, _, h⟩ := h
    cases c with
    | none => cases h; exact ⟨rfl, .inl rfl⟩
    | some c => cases h; exact ⟨rfl, .inr ⟨c, rfl⟩⟩
  unfold regAlias at h
  simp only at h
  split at h
  · next c _ => cases h; exact ⟨rfl, .inr ⟨c, rfl⟩⟩
  · split at h
    · next e he =>
      have hed : e = d := by
        unfold tableGet at he
        split at he
        · cases he; rfl
        · cases he
      rw [if_pos (by rw [hed]; exact hk)] at h
      split at h
      · next c _ => cases h; exact ⟨rfl, .inr ⟨c, rfl⟩⟩
      · exact ht h
    · exact ht h

theorem regPlain_effect {st st' : RegState} {k : Str} {d : TypeDef} (h : regPlain st k d = .ok st') :
    st'.v14 = st.v14 ∧ (st'.env = st.env ∨ ∃ c, st'.env = regCustomKey st.env k c) := by
  unfold regPlain at h
  split at h
  · rw [Res.bind_eq_ok] at h
    obtain ⟨l, _, h⟩ := h
    cases h; exact ⟨rfl, .inr ⟨_, rfl⟩⟩
  · split at h
    · rw [Res.bind_eq_ok] at h
      obtain ⟨l, _, h⟩ := h
      cases h; exact ⟨rfl, .inr ⟨_, rfl⟩⟩
    · split at h
      · cases h; exact ⟨rfl, .inr ⟨_, rfl⟩⟩
      · cases h; exact ⟨rfl, .inl rfl⟩

/-- `V14Types` with one more entry. -/
def RegState.mark (st : RegState) (key : Str) (d : TypeDef) : RegState :=
  { st with v14 := fun k => if k = key then some d else st.v14 k }

/-- One definition, registered with version 0. -/
theorem regOne_cases {fuel : Nat} {st : RegState} {key : Str} {d : TypeDef} (hs : d.v14 = true → d.specVec = 0) :
    (d.v14 = true ∧ (st.v14 key).isSome = true ∧ regCustomTypes fuel st [(key, d)] = .ok st) ∨
    (d.v14 = true ∧ st.v14 key = none ∧ regCustomTypes fuel st [(key, d)] =
      (if d.kind = b!"string" then regAlias fuel [(key, d)] (st.mark key d) (toLower key) d
        else regPlain (st.mark key d) (toLower key) d)) ∨
    (d.v14 = false ∧ regCustomTypes fuel st [(key, d)] =
      (if d.kind = b!"string" then regAlias fuel [(key, d)] st (toLower key) d else regPlain st (toLower key) d)) := by
  have fin : ∀ (st1 : RegState), ((do
      let r ← (if d.kind = b!"string" then (do
          let st ← regAlias fuel [(key, d)] st1 (toLower key) d
          Res.ok (some st))
        else do
          let st ← regPlain st1 (toLower key) d
          Res.ok (some st))
      match r with
      | none => .ok st
      | some st => regLoop fuel [(key, d)] st []) : Res RegState) =
      (if d.kind = b!"string" then regAlias fuel [(key, d)] st1 (toLower key) d else regPlain st1 (toLower key) d) := by
    intro st1
    split
    · cases regAlias fuel [(key, d)] st1 (toLower key) d <;> rfl
    · cases regPlain st1 (toLower key) d <;> rfl
  unfold regCustomTypes regLoop regEntry v14Key
  cases hv : d.v14 with
  | false =>
    refine .inr (.inr ⟨rfl, ?_⟩)
    simp only [if_true, Res.ok_bind]
    exact fin st
  | true =>
    simp only [Bool.true_eq_false, if_false]
    cases he : st.v14 key with
    | some e =>
      refine .inl ⟨by trivial, by rfl, ?_⟩
      simp only [hs hv, if_true, Res.ok_bind]
    | none =>
      refine .inr (.inl ⟨by trivial, by trivial, ?_⟩)
      simp only [Res.ok_bind]
      exact fin (st.mark key d)

theorem regOne_effect {fuel : Nat} {st st' : RegState} {key : Str} {d : TypeDef} (hs : d.v14 = true → d.specVec = 0)
    (h : regCustomTypes fuel st [(key, d)] = .ok st') :
    (d.v14 = true ∧ (st.v14 key).isSome = true ∧ st' = st) ∨
    (d.v14 = true ∧ st.v14 key = none ∧ st'.v14 = (st.mark key d).v14 ∧ (st'.env = st.env ∨ ∃ c, st'.env = regCustomKey st.env (toLower key) c)) ∨
    (d.v14 = false ∧ st'.v14 = st.v14 ∧ (st'.env = st.env ∨ ∃ c, st'.env = regCustomKey st.env (toLower key) c)) := by
  have key' : ∀ {st1 st' : RegState}, (if d.kind = b!"string" then regAlias fuel [(key, d)] st1 (toLower key) d
      else regPlain st1 (toLower key) d) = .ok st' →
      st'.v14 = st1.v14 ∧ (st'.env = st1.env ∨ ∃ c, st'.env = regCustomKey st1.env (toLower key) c) := by
    intro st1 st' h
    split at h
    · next hk => exact regAlias_effect hk h
    · exact regPlain_effect h
  rcases regOne_cases (fuel := fuel) (st := st) (key := key) hs with ⟨h1, h2, h3⟩ | ⟨h1, h2, h3⟩ | ⟨h1, h3⟩
  · rw [h3] at h; cases h; exact .inl ⟨h1, h2, rfl⟩
  · rw [h3] at h; exact .inr (.inl ⟨h1, h2, key' h⟩)
  · rw [h3] at h; exact .inr (.inr ⟨h1, key' h⟩)

/-- Entries under other keys stay. -/
theorem regCustomKey_other (env : Env) {key k : Str} (c : Cls) (h : k ≠ key) : (regCustomKey env key c).reg k = env.reg k := by
  unfold regCustomKey
  split
  · rfl
  · simp [setReg, h]

end ScaleGo
