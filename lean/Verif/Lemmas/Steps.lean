import Verif.Lemmas.Portable

/-! # The steps of a portable registry

`ProcessSiType` as a sequence of elementary steps, each entering one text or one definition that is described by the portable
types. -/

namespace ScaleGo

/-- A composite with one field that is registered as an alias (types/scaleInfo.go:261-273). -/
def IsNewtype (t : SiType) : Prop :=
  ∃ f, t.typ = .composite [f] ∧ ¬ IsWrapper t ∧ lastOf t.path ≠ b!"AccountId32" ∧ overriderTypesName t = []

/-- The texts entered for types without definition of their own. -/
inductive Direct (cfg : SiCfg) (A : Nat → Prop) : Nat → Str → Prop
  | override {i} : ¬ A i → overriderTypesName (cfg.types i) ≠ [] → Direct cfg A i (overriderTypesName (cfg.types i))
  | account {i f} : (cfg.types i).typ = .composite [f] → (cfg.types i).path ≠ [] →
      lastOf (cfg.types i).path = b!"AccountId32" → Direct cfg A i b!"AccountId"
  | wrapper {i fs n p ps s} : ¬ A i → (cfg.types i).typ = .composite fs → IsWrapper (cfg.types i) →
      (cfg.types i).params = (n, p) :: ps → Text cfg A p s → Direct cfg A i (b!"WrapperOpaque<" ++ s ++ b!">")
  | arrayZero {i k} : ¬ A i → (cfg.types i).typ = .array 0 k → Direct cfg A i b!"NULL"
  | array {i n k s} : ¬ A i → (cfg.types i).typ = .array n k → n ≠ 0 → Text cfg A k s →
      Direct cfg A i (b!"[" ++ s ++ b!"; " ++ natToDec n ++ b!"]")
  | sequence {i k s} : ¬ A i → (cfg.types i).typ = .sequence k → Text cfg A k s → Direct cfg A i (b!"Vec" ++ b!"<" ++ s ++ b!">")
  | compact {i k s} : ¬ A i → (cfg.types i).typ = .compact k → Text cfg A k s → Direct cfg A i (b!"compact" ++ b!"<" ++ s ++ b!">")
  | tupleNil {i} : ¬ A i → (cfg.types i).typ = .tuple [] → Direct cfg A i b!"NULL"
  | bits {i} : ¬ A i → (cfg.types i).typ = .bitSequence → Direct cfg A i b!"BitVec"
  | option {i vs p ps n q qs s} : ¬ A i → (cfg.types i).typ = .variant vs → (cfg.types i).path = p :: ps →
      equalFold p b!"Option" = true → (cfg.types i).params = (n, q) :: qs → Text cfg A q s →
      Direct cfg A i (b!"option" ++ b!"<" ++ s ++ b!">")
  | result {i vs p ps n q m q' qs s s'} : ¬ A i → (cfg.types i).typ = .variant vs → (cfg.types i).path = p :: ps →
      equalFold p b!"Option" = false → equalFold p b!"Result" = true → (cfg.types i).params = (n, q) :: (m, q') :: qs →
      Text cfg A q s → Text cfg A q' s' → Direct cfg A i (b!"Result<" ++ s ++ b!"," ++ s' ++ b!">")
  | call {i vs} : ¬ A i → (cfg.types i).typ = .variant vs → IsCallTag (cfg.types i) → lastOf (cfg.types i).path ≠ b!"RuntimeCall" → Direct cfg A i b!"Call"
  | nothing {i} : ¬ A i → (cfg.types i).typ = .none → Direct cfg A i b!"NULL"
  | dealtPrimitive {i p} : ¬ A i → (cfg.types i).typ = .primitive p → Direct cfg A i b!"NULL"

/-- Texts for a list of ids. -/
def Texts (cfg : SiCfg) (A : Nat → Prop) (ids : List Nat) (ts : List Str) : Prop := List.Forall₂ (Text cfg A) ids ts

/-- The text of a variant (types/scaleInfo.go:387-415). -/
inductive VariantText (cfg : SiCfg) (A : Nat → Prop) : SiVariant → Str → Prop
  | empty {v} : v.fields = [] → VariantText cfg A v b!"empty"
  | one {v f t} : v.fields = [f] → Text cfg A f.type t → VariantText cfg A v t
  | many {v ts} : 2 ≤ v.fields.length → Texts cfg A (v.fields.map SiField.type) ts →
      VariantText cfg A v (jsonRows (zipRows (fieldNames 0 v.fields) (ts.map convertType)))

/-- The rows of an enum whose variants have the given texts, in ascending order of index. -/
def layout : Option Nat → List (SiVariant × Str) → List (List Str)
  | _, [] => []
  | prev, p :: ps =>
    gapRows (match prev with
      | none => p.1.index
      | some q => p.1.index - q - 1) ++ [p.1.name, p.2] :: layout (some p.1.index) ps

/-- The rows under which an enum is registered. -/
def EnumRows (cfg : SiCfg) (A : Nat → Prop) (variants : List SiVariant) (rows : List (List Str)) : Prop :=
  ∃ ps : List (SiVariant × Str), ps.map (·.1) = sortBy SiVariant.index variants ∧ (∀ p ∈ ps, VariantText cfg A p.1 p.2) ∧
    rows = if ps.any (fun p => p.1.fields ≠ []) then layout none ps else valueRows (ps.map (·.1))

/-- The keys under which the parameters of an extrinsic type are registered (types/scaleInfo.go:242-247). -/
def ParamKey (key name : Str) : Prop := key = b!"ExtrinsicSignature" ∧ name = b!"Signature" ∨ key = b!"ExtrinsicSigner" ∧ name = b!"Address"

/-- The parameter of an extrinsic type that is registered under the key. -/
def ParamOf (cfg : SiCfg) (key : Str) (i : Nat) : Prop :=
  ∃ x name, IsExtrinsic (cfg.types x) ∧ ParamKey key name ∧ findParameter name (cfg.types x).params = some i

/-- All parameters of the type, if it is an extrinsic type, satisfy `P`. -/
def ParamsDone (cfg : SiCfg) (P : Str → Nat → SiState → Prop) (x : Nat) (st : SiState) : Prop :=
  IsExtrinsic (cfg.types x) → ∀ key name i, ParamKey key name → findParameter name (cfg.types x).params = some i → P key i st

/-- The elementary steps, where `P` holds of the parameters of an extrinsic type before its own text is entered. -/
inductive StepP (cfg : SiCfg) (A : Nat → Prop) (P : Str → Nat → SiState → Prop) : SiState → SiState → Prop
  | set {st i t} : Direct cfg A i t → StepP cfg A P st (st.setId i t)
  | struct {st st' i fs n ts} : ¬ A i → (cfg.types i).typ = .composite fs → fs.length ≠ 1 → ¬ IsWrapper (cfg.types i) →
      nameSiType cfg (cfg.types i) (some i) = .ok n → Texts cfg A (fs.map SiField.type) ts →
      st.register cfg n (structDef cfg (zipRows (fieldNames 1 fs) ts)) = .ok st' → ParamsDone cfg P i st →
      StepP cfg A P st (st'.setId i n)
  | enum {st st' i vs n rows} : ¬ A i → (cfg.types i).typ = .variant vs → IsEnum (cfg.types i) →
      nameSiType cfg (cfg.types i) (some i) = .ok n → EnumRows cfg A vs rows →
      st.register cfg n (enumDef cfg rows) = .ok st' → StepP cfg A P st (st'.setId i n)
  | newtype {st st' i f n s} : ¬ A i → (cfg.types i).typ = .composite [f] → IsNewtype (cfg.types i) →
      nameSiType cfg (cfg.types i) (some i) = .ok n →
      (Text cfg A f.type s ∧ (st.ids f.type = some s ∨ (cfg.types f.type).typ = .range) ∨ f.type = i ∧ s = b!"NULL") →
      (st.setId i s).register cfg n (aliasDef cfg s) = .ok st' → ParamsDone cfg P i st → StepP cfg A P st st'
  | tuple {st st' i ks ts} : ¬ A i → (cfg.types i).typ = .tuple ks → ks ≠ [] → Texts cfg A ks ts →
      st.register cfg (b!"Tuple:" ++ ts.flatten) (structDef cfg (zipRows (colNames 1 ks.length) ts)) = .ok st' →
      StepP cfg A P st (st'.setId i (b!"Tuple:" ++ ts.flatten))
  | primitive {st st' i p c} : ((cfg.types i).typ = .primitive p ∨
        (cfg.types i).path.head? = some b!"primitive_types" ∧ p = lastOf (cfg.types i).path) →
      st.reg.env.reg (toLower p) = some c →
      (st.setId i p).register cfg (b!"primitive_types:" ++ p) (aliasDef cfg p) = .ok st' → StepP cfg A P st st'
  | param {st st' key i s} : ParamOf cfg key i → Text cfg A i s →
      st.register cfg key { kind := b!"string", typeString := s } = .ok st' → StepP cfg A P st st'
  | runtimeCall {st st' i vs n} : ¬ A i → (cfg.types i).typ = .variant vs → lastOf (cfg.types i).path = b!"RuntimeCall" →
      nameSiType cfg (cfg.types i) (some i) = .ok n →
      (st.setId i b!"Call").register cfg n { kind := b!"string", typeString := b!"Call" } = .ok st' → StepP cfg A P st st'

/-- The elementary steps. -/
abbrev Step (cfg : SiCfg) (A : Nat → Prop) : SiState → SiState → Prop := StepP cfg A fun _ _ _ => True

/-- Any number of steps. -/
inductive StepsP (cfg : SiCfg) (A : Nat → Prop) (P : Str → Nat → SiState → Prop) : SiState → SiState → Prop
  | refl {st} : StepsP cfg A P st st
  | cons {a b c} : StepP cfg A P a b → StepsP cfg A P b c → StepsP cfg A P a c

/-- Any number of steps. -/
abbrev Steps (cfg : SiCfg) (A : Nat → Prop) : SiState → SiState → Prop := StepsP cfg A fun _ _ _ => True

theorem StepsP.one {cfg : SiCfg} {A : Nat → Prop} {P : Str → Nat → SiState → Prop} {a b : SiState} (h : StepP cfg A P a b) :
    StepsP cfg A P a b := .cons h .refl

theorem StepsP.trans {cfg : SiCfg} {A : Nat → Prop} {P : Str → Nat → SiState → Prop} {a b c : SiState} (h1 : StepsP cfg A P a b)
    (h2 : StepsP cfg A P b c) : StepsP cfg A P a c := by
  induction h1 with
  | refl => exact h2
  | cons h _ ih => exact .cons h (ih h2)

/-- An invariant kept by every step is kept by all. -/
theorem StepsP.inv {cfg : SiCfg} {A : Nat → Prop} {P : Str → Nat → SiState → Prop} {Q : SiState → Prop} {a b : SiState}
    (h : StepsP cfg A P a b) (hQ : ∀ {a b}, StepP cfg A P a b → Q a → Q b) (ha : Q a) : Q b := by
  induction h with
  | refl => exact ha
  | cons h _ ih => exact ih (hQ h ha)

/-- Steps are steps whatever holds of the parameters. -/
theorem StepP.plain {cfg : SiCfg} {A : Nat → Prop} {P : Str → Nat → SiState → Prop} {a b : SiState} (h : StepP cfg A P a b) : Step cfg A a b := by
  cases h with
  | set h => exact .set h
  | struct h1 h2 h3 h4 h5 h6 h7 => exact .struct h1 h2 h3 h4 h5 h6 h7 fun _ _ _ _ _ _ => trivial
  | enum h1 h2 h3 h4 h5 h6 => exact .enum h1 h2 h3 h4 h5 h6
  | newtype h1 h2 h3 h4 h5 h6 => exact .newtype h1 h2 h3 h4 h5 h6 fun _ _ _ _ _ _ => trivial
  | tuple h1 h2 h3 h4 h5 => exact .tuple h1 h2 h3 h4 h5
  | primitive h1 h2 h3 => exact .primitive h1 h2 h3
  | param h1 h2 h3 => exact .param h1 h2 h3
  | runtimeCall h1 h2 h3 h4 h5 => exact .runtimeCall h1 h2 h3 h4 h5

/-- What must be known of `P` and of an invariant `I`: both are kept, and `P` holds after a parameter has been registered. -/
structure Tracks (cfg : SiCfg) (A : Nat → Prop) (I : SiState → Prop) (P : Str → Nat → SiState → Prop) : Prop where
  inv : ∀ {a b}, StepP cfg A P a b → I a → I b
  kept : ∀ {a b key i}, StepP cfg A P a b → I a → P key i a → P key i b
  done : ∀ {st st' key i s}, ParamOf cfg key i → Text cfg A i s → st.ids i = some s ∨ (cfg.types i).typ = .range → I st →
    st.register cfg key { kind := b!"string", typeString := s } = .ok st' → P key i st'

theorem tracks_nothing (cfg : SiCfg) (A : Nat → Prop) : Tracks cfg A (fun _ => True) fun _ _ _ => True :=
  ⟨fun _ _ => trivial, fun _ _ _ => trivial, fun _ _ _ _ _ => trivial⟩

theorem texts_of_pairs {cfg : SiCfg} {A : Nat → Prop} {ps : List (Nat × Str)} (h : ∀ p ∈ ps, Text cfg A p.1 p.2) :
    Texts cfg A (ps.map (·.1)) (ps.map (·.2)) := by
  induction ps with
  | nil => exact .nil
  | cons p ps ih => exact .cons (h p (by simp)) (ih fun q hq => h q (by simp [hq]))

section
variable {cfg : SiCfg} {A : Nat → Prop} {rec : SiRec} (hrec : RecOK cfg A rec)
  {I : SiState → Prop} {P : Str → Nat → SiState → Prop} (hI : Tracks cfg A I P)
  (hsteps : ∀ b i st r, ¬ A i → IdsOK cfg A st → I st → rec b i st = .ok r → StepsP cfg A P st r.2)
include hrec hI hsteps

omit hrec hI in
theorem subTypeOf_steps {i : Nat} {st : SiState} {r : Str × SiState} (h : IdsOK cfg A st) (hi : I st) (hr : subTypeOf rec i st = .ok r) :
    StepsP cfg A P st r.2 := by
  unfold subTypeOf at hr
  split at hr
  · cases hr; exact .refl
  · next e => exact hsteps _ _ _ _ (h.late e) h hi hr

theorem subTypesOf_steps {is : List Nat} {st : SiState} {r : List Str × SiState} (h : IdsOK cfg A st) (hi : I st)
    (hr : subTypesOf rec is st = .ok r) : StepsP cfg A P st r.2 := by
  induction is generalizing st r with
  | nil => cases hr; exact .refl
  | cons i is ih =>
    unfold subTypesOf at hr
    rw [Res.bind_eq_ok] at hr
    obtain ⟨a, ha, hr⟩ := hr
    rw [Res.bind_eq_ok] at hr
    obtain ⟨q, hq, hr⟩ := hr
    cases hr
    have hs := subTypeOf_steps hsteps h hi ha
    exact hs.trans (ih (r := q) (subTypeOf_ok hrec h ha).2 (hs.inv hI.inv hi) hq)

omit hI hsteps in
theorem subTypesOf_texts {is : List Nat} {st : SiState} {r : List Str × SiState} (h : IdsOK cfg A st)
    (hr : subTypesOf rec is st = .ok r) : Texts cfg A is r.1 := by
  obtain ⟨⟨ps, e1, e2, h3⟩, _⟩ := subTypesOf_ok hrec h hr
  rw [← e1, ← e2]
  exact texts_of_pairs h3

omit hI in
theorem expandGeneric_steps {word : Str} {id k : Nat} {st : SiState} {r : Str × SiState} (h : IdsOK cfg A st) (hi : I st)
    (ht : ∀ s, Text cfg A k s → Direct cfg A id (word ++ b!"<" ++ s ++ b!">")) (hr : expandGeneric rec word id k st = .ok r) :
    StepsP cfg A P st r.2 := by
  unfold expandGeneric at hr
  rw [Res.bind_eq_ok] at hr
  obtain ⟨a, ha, hr⟩ := hr
  cases hr
  exact (subTypeOf_steps hsteps h hi ha).trans (.one (.set (ht _ (subTypeOf_ok hrec h ha).1)))

theorem variantType_steps {v : SiVariant} {st : SiState} {r : Str × SiState} (h : IdsOK cfg A st) (hi : I st)
    (hr : variantType rec v st = .ok r) : StepsP cfg A P st r.2 ∧ IdsOK cfg A r.2 ∧ VariantText cfg A v r.1 := by
  unfold variantType at hr
  split at hr
  · next e => cases hr; exact ⟨.refl, h, .empty e⟩
  · next f e =>
    obtain ⟨h1, h2⟩ := subTypeOf_ok hrec h hr
    exact ⟨subTypeOf_steps hsteps h hi hr, h2, .one e h1⟩
  · next fs hne hne' =>
    rw [Res.bind_eq_ok] at hr
    obtain ⟨x, hx, hr⟩ := hr
    cases hr
    refine ⟨subTypesOf_steps hrec hI hsteps h hi hx, (subTypesOf_ok hrec h hx).2, .many ?_ (subTypesOf_texts hrec h hx)⟩
    match e : v.fields with
    | [] => exact absurd e (by simpa using hne)
    | [f] => exact absurd e (by simpa using hne' f)
    | _ :: _ :: _ => simp

theorem enumRows_steps {prev : Option Nat} {vs : List SiVariant} {st : SiState} {r : List (List Str) × SiState} (h : IdsOK cfg A st) (hi : I st)
    (hr : enumRows rec prev vs st = .ok r) : StepsP cfg A P st r.2 ∧ ∃ ps : List (SiVariant × Str), ps.map (·.1) = vs ∧
      (∀ p ∈ ps, VariantText cfg A p.1 p.2) ∧ r.1 = layout prev ps := by
  induction vs generalizing prev st r with
  | nil => cases hr; exact ⟨.refl, [], rfl, by simp, rfl⟩
  | cons v vs ih =>
    unfold enumRows at hr
    rw [Res.bind_eq_ok] at hr
    obtain ⟨a, ha, hr⟩ := hr
    rw [Res.bind_eq_ok] at hr
    obtain ⟨q, hq, hr⟩ := hr
    cases hr
    obtain ⟨h1, h2, h3⟩ := variantType_steps hrec hI hsteps h hi ha
    obtain ⟨h4, ps, e1, h5, e2⟩ := ih (r := q) h2 (h1.inv hI.inv hi) hq
    refine ⟨h1.trans h4, (v, a.1) :: ps, by simp [e1], ?_, by simp only [layout, e2]; cases prev <;> rfl⟩
    intro p hp
    rcases List.mem_cons.1 hp with rfl | hp
    · exact h3
    · exact h5 p hp

theorem registerParam_steps {x : Nat} {key name : Str} {st st' : SiState} (h : IdsOK cfg A st) (hi : I st) (hx : IsExtrinsic (cfg.types x))
    (hk : ParamKey key name) (hA : ∀ p, findParameter name (cfg.types x).params = some p → ¬ A p)
    (hfalse : ∀ {j st r}, (cfg.types j).typ ≠ .range → rec false j st = .ok r → r.2.ids j = some r.1)
    (hr : registerParam cfg rec key name (cfg.types x) st = .ok st') :
    StepsP cfg A P st st' ∧ ∀ i, findParameter name (cfg.types x).params = some i → P key i st' := by
  unfold registerParam at hr
  split at hr
  · next e => cases hr; exact ⟨.refl, fun i hi => by rw [e] at hi; cases hi⟩
  · next p e =>
    rw [Res.bind_eq_ok] at hr
    obtain ⟨a, ha, hr⟩ := hr
    have hs := hsteps _ _ _ _ (hA _ e) h hi ha
    have hp : ParamOf cfg key p := ⟨x, name, hx, hk, e⟩
    have ht := (hrec _ _ _ _ (hA _ e) h ha).1
    refine ⟨hs.trans (.one (.param hp ht hr)), fun i hi' => ?_⟩
    rw [e] at hi'
    cases hi'
    refine hI.done hp ht ?_ (hs.inv hI.inv hi) hr
    by_cases e : (cfg.types p).typ = .range
    · exact .inr e
    · exact .inl (hfalse e ha)

theorem expandExtrinsicParams_steps {i : Nat} {st st' : SiState} (hE : EarlyOK cfg A) (h : IdsOK cfg A st) (hi : I st)
    (hfalse : ∀ {j st r}, (cfg.types j).typ ≠ .range → rec false j st = .ok r → r.2.ids j = some r.1)
    (hr : expandExtrinsicParams cfg rec (cfg.types i) st = .ok st') : StepsP cfg A P st st' ∧ ParamsDone cfg P i st' := by
  unfold expandExtrinsicParams at hr
  split at hr
  · next hx =>
    rw [Res.bind_eq_ok] at hr
    obtain ⟨a, ha, hr⟩ := hr
    have hp1 := fun p => hE.extrinsic i _ p hx (.inl rfl)
    have hp2 := fun p => hE.extrinsic i _ p hx (.inr rfl)
    obtain ⟨s1, d1⟩ := registerParam_steps hrec hI hsteps h hi hx (.inl ⟨rfl, rfl⟩) hp1 hfalse ha
    have hi1 := s1.inv hI.inv hi
    obtain ⟨s2, d2⟩ := registerParam_steps hrec hI hsteps (registerParam_ok hrec h hp1 ha) hi1 hx (.inr ⟨rfl, rfl⟩) hp2 hfalse hr
    refine ⟨s1.trans s2, ?_⟩
    rintro _ key name p (⟨rfl, rfl⟩ | ⟨rfl, rfl⟩) hf
    · exact (s2.inv (Q := fun st => I st ∧ P _ p st) (fun hs h => ⟨hI.inv hs h.1, hI.kept hs h.1 h.2⟩) ⟨hi1, d1 p hf⟩).2
    · exact d2 p hf
  · next hx => cases hr; exact ⟨.refl, fun h => absurd h hx⟩

theorem dealDef_steps {i : Nat} {st : SiState} {r : Str × SiState} (hE : EarlyOK cfg A) (hiA : ¬ A i) (h : IdsOK cfg A st) (hi : I st) (hov : overriderTypesName (cfg.types i) = [])
    (hfalse : ∀ {j st r}, (cfg.types j).typ ≠ .range → rec false j st = .ok r → r.2.ids j = some r.1)
    (hr : dealDef cfg rec i (cfg.types i) st = .ok r) : StepsP cfg A P st r.2 := by
  unfold dealDef at hr
  split at hr
  · next fs ht =>
    unfold expandComposite at hr
    rw [Res.bind_eq_ok] at hr
    obtain ⟨st1, h1, hr⟩ := hr
    have hi1 := expandExtrinsicParams_ok hrec hE h h1
    obtain ⟨hs1, hd1⟩ := expandExtrinsicParams_steps hrec hI hsteps hE h hi hfalse h1
    have hJ1 := hs1.inv hI.inv hi
    have hkeep : ∀ {st2}, StepsP cfg A P st1 st2 → ParamsDone cfg P i st2 := by
      intro st2 hs hx key name p hk hf
      exact (hs.inv (Q := fun st => I st ∧ P _ p st) (fun hs h => ⟨hI.inv hs h.1, hI.kept hs h.1 h.2⟩) ⟨hJ1, hd1 hx key name p hk hf⟩).2
    refine hs1.trans ?_
    split at hr
    · next hw =>
      have hW : IsWrapper (cfg.types i) := ⟨hw.1, by have := sliceIndex_mem_iff.1 hw.2; simpa using this⟩
      split at hr
      · cases hr
      · next n p ps hp =>
        rw [Res.bind_eq_ok] at hr
        obtain ⟨a, ha, hr⟩ := hr
        cases hr
        have hpA := hE.wrapper i n p ps hW hp
        exact (hsteps _ _ _ _ hpA hi1 hJ1 ha).trans (.one (.set (.wrapper hiA ht hW hp (hrec _ _ _ _ hpA hi1 ha).1)))
    · next hw =>
      have hW : ¬ IsWrapper (cfg.types i) := fun hW => hw ⟨hW.1, sliceIndex_mem_iff.2 (by simpa using hW.2)⟩
      split at hr
      · next f =>
        unfold expandNewtype at hr
        split at hr
        · next hacc => cases hr; exact .one (.set (.account ht hacc.1 hacc.2))
        · next hacc =>
          have hA : lastOf (cfg.types i).path ≠ b!"AccountId32" := by
            intro e
            refine hacc ⟨?_, e⟩
            intro e'
            rw [e'] at e
            cases e
          rw [Res.bind_eq_ok] at hr
          obtain ⟨a, ha, hr⟩ := hr
          rw [Res.bind_eq_ok] at hr
          obtain ⟨n, hn, hr⟩ := hr
          rw [Res.bind_eq_ok] at hr
          obtain ⟨st2, h2, hr⟩ := hr
          cases hr
          have hN : IsNewtype (cfg.types i) := ⟨f, ht, hW, hA, hov⟩
          unfold newtypeSub at ha
          split at ha
          · next s hs =>
            cases ha
            exact .one (.newtype hiA ht hN hn (.inl ⟨hi1.text _ _ hs, .inl hs⟩) h2 hd1)
          · next hs =>
            split at ha
            · next e => cases ha; exact .one (.newtype hiA ht hN hn (.inr ⟨e, rfl⟩) h2 hd1)
            · have hs2 := hsteps _ _ _ _ (hi1.late hs) hi1 hJ1 ha
              refine hs2.trans (.one (.newtype hiA ht hN hn (.inl ⟨(hrec _ _ _ _ (hi1.late hs) hi1 ha).1, ?_⟩) h2 (hkeep hs2)))
              by_cases e : (cfg.types f.type).typ = .range
              · exact .inr e
              · exact .inl (hfalse e ha)
      · next hne =>
        unfold expandStruct at hr
        rw [Res.bind_eq_ok] at hr
        obtain ⟨a, ha, hr⟩ := hr
        rw [Res.bind_eq_ok] at hr
        obtain ⟨n, hn, hr⟩ := hr
        rw [Res.bind_eq_ok] at hr
        obtain ⟨st2, h2, hr⟩ := hr
        cases hr
        have hs2 := subTypesOf_steps hrec hI hsteps hi1 hJ1 ha
        refine hs2.trans (.one (.struct hiA ht ?_ hW hn (subTypesOf_texts hrec hi1 ha) h2 (hkeep hs2)))
        intro hl
        obtain ⟨f, rfl⟩ := List.length_eq_one_iff.1 hl
        exact hne f rfl
  · next len k ht =>
    unfold expandArray at hr
    split at hr
    · next e => cases hr; subst e; exact .one (.set (.arrayZero hiA ht))
    · next e =>
      rw [Res.bind_eq_ok] at hr
      obtain ⟨a, ha, hr⟩ := hr
      cases hr
      exact (subTypeOf_steps hsteps h hi ha).trans (.one (.set (.array hiA ht e (subTypeOf_ok hrec h ha).1)))
  · next k ht => exact expandGeneric_steps hrec hsteps h hi (fun s hs => .sequence hiA ht hs) hr
  · next types ht =>
    unfold expandTuple at hr
    split at hr
    · next e => subst e; cases hr; exact .one (.set (.tupleNil hiA ht))
    · next e =>
      rw [Res.bind_eq_ok] at hr
      obtain ⟨a, ha, hr⟩ := hr
      rw [Res.bind_eq_ok] at hr
      obtain ⟨st2, h2, hr⟩ := hr
      cases hr
      exact (subTypesOf_steps hrec hI hsteps h hi ha).trans (.one (.tuple hiA ht e (subTypesOf_texts hrec h ha) h2))
  · next k ht => exact expandGeneric_steps hrec hsteps h hi (fun s hs => .compact hiA ht hs) hr
  · next ht => cases hr; exact .one (.set (.bits hiA ht))
  · cases hr; exact .refl
  · next vs ht =>
    unfold dealVariant at hr
    split at hr
    · cases hr
    · next p ps hp =>
      split at hr
      · next ho =>
        unfold expandOption at hr
        split at hr
        · cases hr
        · next n q qs hq => exact expandGeneric_steps hrec hsteps h hi (fun s hs => .option hiA ht hp ho hq hs) hr
      · next ho =>
        have ho : equalFold p b!"Option" = false := by simpa using ho
        split at hr
        · next hres =>
          unfold expandResult at hr
          split at hr
          · next n q m q' qs hq =>
            rw [Res.bind_eq_ok] at hr
            obtain ⟨a, ha, hr⟩ := hr
            rw [Res.bind_eq_ok] at hr
            obtain ⟨b, hb, hr⟩ := hr
            cases hr
            obtain ⟨h1, h2⟩ := subTypeOf_ok hrec h ha
            have hs1 := subTypeOf_steps hsteps h hi ha
            exact hs1.trans ((subTypeOf_steps hsteps h2 (hs1.inv hI.inv hi) hb).trans
              (.one (.set (.result hiA ht hp ho hres hq h1 (subTypeOf_ok hrec h2 hb).1))))
          · cases hr
        · next hnr =>
          have hcall : lastOf (p :: ps) = b!"Call" ∨ lastOf (p :: ps) = b!"Event" ∨ lastOf (p :: ps) = b!"RuntimeCall" →
              IsCallTag (cfg.types i) := by
            unfold IsCallTag
            rw [hp]
            exact fun h => h
          split at hr
          · next hpc =>
            cases hr
            refine .one (.set (.call hiA ht (hcall (.inl (palletCall_last hpc))) ?_))
            rw [hp, palletCall_last hpc]
            decide
          · split at hr
            · next hpc =>
              cases hr
              have := sliceIndex_mem_iff.1 hpc
              simp only [List.mem_cons, List.not_mem_nil, or_false] at this
              refine .one (.set (.call hiA ht (hcall (by tauto)) ?_))
              rw [hp]
              rcases this with e | e <;> rw [e] <;> decide
            · next hce =>
              split at hr
              · next hpc =>
                rw [Res.bind_eq_ok] at hr
                obtain ⟨n, hn, hr⟩ := hr
                rw [Res.bind_eq_ok] at hr
                obtain ⟨st2, h2, hr⟩ := hr
                cases hr
                refine .one (.runtimeCall hiA ht ?_ hn h2)
                have := sliceIndex_mem_iff.1 hpc
                rw [hp]
                simpa using this
              · next hrc =>
                unfold expandEnum at hr
                rw [Res.bind_eq_ok] at hr
                obtain ⟨a, ha, hr⟩ := hr
                rw [Res.bind_eq_ok] at hr
                obtain ⟨n, hn, hr⟩ := hr
                rw [Res.bind_eq_ok] at hr
                obtain ⟨st2, h2, hr⟩ := hr
                cases hr
                obtain ⟨h3, qs, e1, h4, e2⟩ := enumRows_steps hrec hI hsteps h hi ha
                refine h3.trans (.one (.enum hiA ht ⟨vs, p, ps, ht, hp, ho, by simpa using hnr, ?_⟩ hn ⟨qs, e1, h4, rfl⟩ ?_))
                · rw [sliceIndex_mem_iff] at hce hrc
                  unfold IsCallTag
                  rw [hp]
                  simp at hce hrc
                  tauto
                · have hany : (qs.any fun p => p.1.fields ≠ []) = (sortBy SiVariant.index vs).any (fun v => v.fields ≠ []) := by
                    rw [← e1, List.any_map]
                    rfl
                  rw [hany, e1, ← e2]
                  exact h2
  · next p ht => cases hr; exact .one (.set (.dealtPrimitive hiA ht))
  · next ht => cases hr; exact .one (.set (.nothing hiA ht))

end

theorem deal_steps {cfg : SiCfg} {A : Nat → Prop} {I : SiState → Prop} {P : Str → Nat → SiState → Prop} (hE : EarlyOK cfg A)
    (hI : Tracks cfg A I P) (fuel : Nat) (b : Bool) (i : Nat) (st : SiState) (r : Str × SiState) (hiA : ¬ A i) (h : IdsOK cfg A st) (hi : I st)
    (hr : dealOneSiType cfg fuel b i st = .ok r) : StepsP cfg A P st r.2 := by
  induction fuel generalizing b i st r with
  | zero => cases hr
  | succ fuel ih =>
    have main : overriderTypesName (cfg.types i) = [] → dealDef cfg (dealOneSiType cfg fuel) i (cfg.types i) st = .ok r →
        StepsP cfg A P st r.2 := fun hov => dealDef_steps (deal_text hE fuel) hI ih hE hiA h hi hov deal_sets
    unfold dealOneSiType at hr
    simp only at hr
    split at hr
    · next e => cases hr; exact .one (.set (.override hiA e))
    · next e =>
      have e : overriderTypesName (cfg.types i) = [] := by simpa using e
      split at hr
      · rw [Res.bind_eq_ok] at hr
        obtain ⟨n, hn, hr⟩ := hr
        split at hr
        · cases hr; exact .refl
        · exact main e hr
      · exact main e hr

theorem registerPrimitive_steps {cfg : SiCfg} {A : Nat → Prop} {P : Str → Nat → SiState → Prop} {i : Nat} {p : Str} {st st' : SiState}
    (h : registerPrimitive cfg i p st = .ok st')
    (hp : (cfg.types i).typ = .primitive p ∨ (cfg.types i).path.head? = some b!"primitive_types" ∧ p = lastOf (cfg.types i).path) :
    StepsP cfg A P st st' := by
  unfold registerPrimitive at h
  split at h
  · cases h
  · next c hc => exact .one (.primitive hp hc h)

/-- `ProcessSiType` is a sequence of steps. -/
theorem registerTypes_stepsP {cfg : SiCfg} {A : Nat → Prop} {I : SiState → Prop} {P : Str → Nat → SiState → Prop} (hE : EarlyOK cfg A)
    (hI : Tracks cfg A I P) {fuel : Nat} {st st' : SiState} (h : registerTypes cfg fuel st = .ok st') (hi : I st) (h0 : ∀ i t, st.ids i = some t → Text cfg A i t) : StepsP cfg A P st st' := by
  unfold registerTypes at h
  rw [Res.bind_eq_ok] at h
  obtain ⟨a, ha, h⟩ := h
  rw [Res.bind_eq_ok] at h
  obtain ⟨b, hb, h⟩ := h
  rw [Res.bind_eq_ok] at h
  obtain ⟨c, hc, h⟩ := h
  have s1 : StepsP cfg A P st a := by
    refine siLoop_frame (I := StepsP cfg A P) (fun _ => .refl) (fun _ _ _ => StepsP.trans) ?_ _ _ _ _ ha
    intro i st st' h
    unfold passPrimitive at h
    split at h
    · next p hp => exact registerPrimitive_steps h (.inl hp)
    · cases h; exact .refl
  have s2 : StepsP cfg A P a b := by
    refine siLoop_frame (I := StepsP cfg A P) (fun _ => .refl) (fun _ _ _ => StepsP.trans) ?_ _ _ _ _ hb
    intro i st st' h
    unfold passPrimitiveTypes at h
    split at h
    · next hp => exact registerPrimitive_steps h (.inr ⟨hp, rfl⟩)
    · cases h; exact .refl
  obtain ⟨b', j, n, hfirst, hb', hc, hj⟩ := coreLoop hE (primitives_text hE ha hb h0) hc
  have s3 : StepsP cfg A P b b' := by
    rcases hfirst with rfl | ⟨rfl, ⟨f, ht⟩, hp, hl⟩
    · exact .refl
    · exact .one (.set (.account ht hp hl))
  let J : SiState → SiState → Prop := fun a b => IdsOK cfg A a → I a → StepsP cfg A P a b ∧ IdsOK cfg A b
  have hrefl : ∀ st, J st st := fun _ h _ => ⟨.refl, h⟩
  have htrans : ∀ a b c, J a b → J b c → J a c := fun a b c h1 h2 h hi => by
    obtain ⟨s1, i1⟩ := h1 h hi
    obtain ⟨s2, i2⟩ := h2 i1 (s1.inv hI.inv hi)
    exact ⟨s1.trans s2, i2⟩
  have p3 : J b' c := by
    refine siLoop_from hrefl htrans (j := j) ?_ _ _ _ _ (Nat.le_refl _) hc
    intro i st st' hle h hJ hi
    unfold passSpCore at h
    split at h
    · next hs =>
      rw [Res.bind_eq_ok] at h
      obtain ⟨x, hx, h⟩ := h
      cases h
      exact ⟨deal_steps hE hI _ _ _ _ _ (hj i hle hs) hJ hi hx, (deal_text hE _ _ _ _ _ (hj i hle hs) hJ hx).2⟩
    · cases h; exact ⟨.refl, hJ⟩
  have p4 : J c st' := by
    refine siLoop_frame hrefl htrans ?_ _ _ _ _ h
    intro i st st' h hJ hi
    unfold passRest at h
    split at h
    · cases h; exact ⟨.refl, hJ⟩
    · next hn =>
      rw [Res.bind_eq_ok] at h
      obtain ⟨x, hx, h⟩ := h
      cases h
      exact ⟨deal_steps hE hI _ _ _ _ _ (hJ.late hn) hJ hi hx, (deal_text hE _ _ _ _ _ (hJ.late hn) hJ hx).2⟩
  have s := s1.trans (s2.trans s3)
  exact s.trans (htrans _ _ _ p3 p4 hb' (s.inv hI.inv hi)).1

theorem registerTypes_steps {cfg : SiCfg} {A : Nat → Prop} (hE : EarlyOK cfg A) {fuel : Nat} {st st' : SiState}
    (h : registerTypes cfg fuel st = .ok st') (h0 : ∀ i t, st.ids i = some t → Text cfg A i t) : Steps cfg A st st' :=
  registerTypes_stepsP hE (tracks_nothing cfg A) h trivial h0

end ScaleGo
