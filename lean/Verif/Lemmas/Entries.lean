import Verif.Lemmas.Steps
import Verif.Lemmas.History

/-! # What a portable registry enters into the type table -/

namespace ScaleGo

/-- The aliases a portable registry enters: key and text. -/
inductive Alias (cfg : SiCfg) (A : Nat → Prop) : Str → Str → Prop
  | newtype {i f n s} : (cfg.types i).typ = .composite [f] → IsNewtype (cfg.types i) →
      nameSiType cfg (cfg.types i) (some i) = .ok n → (Text cfg A f.type s ∨ f.type = i ∧ s = b!"NULL") → Alias cfg A n s
  | primitive {i p} : ((cfg.types i).typ = .primitive p ∨
      (cfg.types i).path.head? = some b!"primitive_types" ∧ p = lastOf (cfg.types i).path) →
      Alias cfg A (b!"primitive_types:" ++ p) p
  | signature {i s} : ParamOf cfg b!"ExtrinsicSignature" i → Text cfg A i s → Alias cfg A b!"ExtrinsicSignature" s
  | signer {i s} : ParamOf cfg b!"ExtrinsicSigner" i → Text cfg A i s → Alias cfg A b!"ExtrinsicSigner" s
  | runtimeCall {i vs n} : (cfg.types i).typ = .variant vs → lastOf (cfg.types i).path = b!"RuntimeCall" →
      nameSiType cfg (cfg.types i) (some i) = .ok n → Alias cfg A n b!"Call"

/-- The classes a portable registry may enter under a key, given the table it starts with. -/
inductive Def (cfg : SiCfg) (A : Nat → Prop) (base : Str → Option Cls) : Str → Cls → Prop
  | struct {i fs n ts} : (cfg.types i).typ = .composite fs → fs.length ≠ 1 → ¬ IsWrapper (cfg.types i) →
      nameSiType cfg (cfg.types i) (some i) = .ok n → Texts cfg A (fs.map SiField.type) ts →
      Def cfg A base (toLower n) (.struct (newStruct (List.zip (fieldNames 1 fs) ts)))
  | enum {i vs n rows l} : (cfg.types i).typ = .variant vs → IsEnum (cfg.types i) →
      nameSiType cfg (cfg.types i) (some i) = .ok n → EnumRows cfg A vs rows → mappingRows rows = .ok l →
      Def cfg A base (toLower n) (.enum [] (newStruct l))
  | tuple {i ks ts} : (cfg.types i).typ = .tuple ks → ks ≠ [] → Texts cfg A ks ts →
      Def cfg A base (toLower (b!"Tuple:" ++ ts.flatten)) (.struct (newStruct (List.zip (colNames 1 ks.length) ts)))
  | aliasBase {key s k c} : Alias cfg A key s → k = toLower (convertType s) ∨ k = toLower s → base k = some c →
      Def cfg A base (toLower key) c
  | aliasDef {key s k c} : Alias cfg A key s → k = toLower (convertType s) ∨ k = toLower s → Def cfg A base k c →
      Def cfg A base (toLower key) c
  | aliasForm {key s c} : Alias cfg A key s → base (toLower (convertType s)) = none → aliasClass (convertType s) = .ok (some c) →
      Def cfg A base (toLower key) c

theorem mappingRows_zip : ∀ a b : List Str, mappingRows (zipRows a b) = .ok (List.zip a b)
  | [], b => by cases b <;> rfl
  | _ :: _, [] => rfl
  | x :: a, y :: b => by
    have := mappingRows_zip a b
    unfold zipRows at this ⊢
    simp only [List.zipWith_cons_cons, mappingRows, this, Res.ok_bind, List.zip_cons_cons]

/-- All entries come from the start or from the portable types, and none is lost. -/
structure EnvSound (cfg : SiCfg) (A : Nat → Prop) (base : Str → Option Cls) (st : SiState) : Prop where
  entry : ∀ k c, st.reg.env.reg k = some c → base k = some c ∨ Def cfg A base k c
  keeps : ∀ k, st.reg.env.reg k = none → base k = none

/-- Registration without version, or without the V14 mark. -/
def Unversioned (cfg : SiCfg) : Prop := cfg.v14 = true → cfg.spec = 0

theorem regCustomKey_entry_of {env : Env} {key k : Str} {c c' : Cls} (h : (regCustomKey env key c).reg k = some c') :
    env.reg k = some c' ∨ k = key ∧ c' = c := by
  unfold regCustomKey at h
  split at h
  · exact .inl h
  · simp only [setReg] at h
    split at h
    · next e => cases h; exact .inr ⟨e, rfl⟩
    · exact .inl h

theorem register_eq {cfg : SiCfg} {st st' : SiState} {key : Str} {d : TypeDef} (h : st.register cfg key d = .ok st') :
    regCustomTypes cfg.eqFuel st.reg [(key, d)] = .ok st'.reg ∧ st'.ids = st.ids := by
  unfold SiState.register at h
  rw [Res.bind_eq_ok] at h
  obtain ⟨r, hr, h⟩ := h
  cases h
  exact ⟨hr, rfl⟩

/-- The entry made by a definition that is not an alias. -/
theorem regPlain_entry {st st' : RegState} {key : Str} {d : TypeDef} (h : regPlain st key d = .ok st') {k : Str} {c : Cls}
    (hc : st'.env.reg k = some c) (hk : d.kind = b!"struct" ∨ d.kind = b!"enum") :
    st.env.reg k = some c ∨ k = key ∧ ∃ l, mappingRows d.mapping = .ok l ∧
      (d.kind = b!"struct" ∧ c = .struct (newStruct l) ∨ d.kind = b!"enum" ∧ c = .enum d.values (newStruct l)) := by
  unfold regPlain at h
  split at h
  · next e =>
    rw [Res.bind_eq_ok] at h
    obtain ⟨l, hl, h⟩ := h
    cases h
    exact (regCustomKey_entry_of hc).imp id fun ⟨a, b⟩ => ⟨a, l, hl, .inl ⟨e, b⟩⟩
  · split at h
    · next e =>
      rw [Res.bind_eq_ok] at h
      obtain ⟨l, hl, h⟩ := h
      cases h
      exact (regCustomKey_entry_of hc).imp id fun ⟨a, b⟩ => ⟨a, l, hl, .inr ⟨e, b⟩⟩
    · tauto

/-- The entry made by an alias. -/
theorem regAlias_entry {fuel : Nat} {key0 : Str} {d : TypeDef} {st st' : RegState} {key : Str} (hd : d.kind = b!"string")
    (h : regAlias fuel [(key0, d)] st key d = .ok st') {k : Str} {c : Cls} (hc : st'.env.reg k = some c) :
    st.env.reg k = some c ∨ k = key ∧ (st.env.reg (toLower (convertType d.typeString)) = some c ∨
      st.env.reg (toLower d.typeString) = some c ∨
      st.env.reg (toLower (convertType d.typeString)) = none ∧ aliasClass (convertType d.typeString) = .ok (some c)) := by
  have ht : st.env.reg (toLower (convertType d.typeString)) = none → regAliasText st key (convertType d.typeString) = .ok st' →
      st.env.reg k = some c ∨ k = key ∧ (st.env.reg (toLower (convertType d.typeString)) = some c ∨
      st.env.reg (toLower d.typeString) = some c ∨
      st.env.reg (toLower (convertType d.typeString)) = none ∧ aliasClass (convertType d.typeString) = .ok (some c)) := by
    intro hnone h
    unfold regAliasText at h
    rw [Res.bind_eq_ok] at h
    obtain ⟨c', hc', h⟩ := h
    cases c' with
    | none => cases h; exact .inl hc
    | some c' =>
      cases h
      exact (regCustomKey_entry_of hc).imp id fun ⟨a, b⟩ => ⟨a, .inr (.inr ⟨hnone, b ▸ hc'⟩)⟩
  unfold regAlias at h
  simp only at h
  split at h
  · next c' hc' =>
    cases h
    exact (regCustomKey_entry_of hc).imp id fun ⟨a, b⟩ => ⟨a, .inl (b ▸ hc')⟩
  · next hnone =>
    split at h
    · next e he =>
      have hed : e = d := by
        unfold tableGet at he
        split at he
        · cases he; rfl
        · cases he
      subst hed
      rw [if_pos hd] at h
      split at h
      · next c' hc' =>
        cases h
        exact (regCustomKey_entry_of hc).imp id fun ⟨a, b⟩ => ⟨a, .inr (.inl (b ▸ hc'))⟩
      · exact ht hnone h
    · exact ht hnone h

/-- Entries are never removed. -/
theorem regCustomKey_mono {env : Env} {key k : Str} {c : Cls} (h : (env.reg k).isSome = true) :
    ((regCustomKey env key c).reg k).isSome = true := by
  unfold regCustomKey
  split
  · exact h
  · simp only [setReg]
    split
    · rfl
    · exact h

theorem register_mono {cfg : SiCfg} {st st' : SiState} {key k : Str} {d : TypeDef} (hs : d.v14 = true → d.specVec = 0)
    (hr : st.register cfg key d = .ok st') (h : (st.reg.env.reg k).isSome = true) : (st'.reg.env.reg k).isSome = true := by
  have main : (st'.reg.env = st.reg.env ∨ ∃ c, st'.reg.env = regCustomKey st.reg.env (toLower key) c) →
      (st'.reg.env.reg k).isSome = true := by
    rintro (e | ⟨c, e⟩)
    · rw [e]; exact h
    · rw [e]; exact regCustomKey_mono h
  rcases regOne_effect hs (register_eq hr).1 with ⟨_, _, e⟩ | ⟨_, _, _, e⟩ | ⟨_, _, e⟩
  · rw [e]; exact h
  · exact main e
  · exact main e

section
variable {cfg : SiCfg} {A : Nat → Prop} {base : Str → Option Cls}

theorem EnvSound.setId {st : SiState} (h : EnvSound cfg A base st) (i : Nat) (t : Str) : EnvSound cfg A base (st.setId i t) := ⟨h.entry, h.keeps⟩

theorem keeps_register {st st' : SiState} {key : Str} {d : TypeDef} (h : EnvSound cfg A base st)
    (hr : st.register cfg key d = .ok st') (hs : d.v14 = true → d.specVec = 0) : ∀ k, st'.reg.env.reg k = none → base k = none := by
  intro k hk
  refine h.keeps k ?_
  rw [← Option.not_isSome_iff_eq_none] at hk ⊢
  exact fun h => hk (register_mono hs hr h)

theorem sound_plain {st st' : SiState} {key : Str} {d : TypeDef} (h : EnvSound cfg A base st)
    (hr : st.register cfg key d = .ok st') (hs : d.v14 = true → d.specVec = 0) (hk : d.kind = b!"struct" ∨ d.kind = b!"enum")
    (hdef : ∀ l c, mappingRows d.mapping = .ok l → (d.kind = b!"struct" ∧ c = .struct (newStruct l) ∨
      d.kind = b!"enum" ∧ c = .enum d.values (newStruct l)) → Def cfg A base (toLower key) c) : EnvSound cfg A base st' := by
  refine ⟨?_, keeps_register h hr hs⟩
  intro k c hc
  have hne : d.kind ≠ b!"string" := by rcases hk with e | e <;> rw [e] <;> decide
  have hr := (register_eq hr).1
  have main : ∀ {st1 : RegState}, regPlain st1 (toLower key) d = .ok st'.reg → st1.env = st.reg.env →
      base k = some c ∨ Def cfg A base k c := by
    intro st1 hr he
    rcases regPlain_entry hr hc hk with h1 | ⟨rfl, l, hl, h2⟩
    · exact h.entry k c (he ▸ h1)
    · exact .inr (hdef l c hl h2)
  rcases regOne_cases (fuel := cfg.eqFuel) (st := st.reg) (key := key) hs with ⟨_, _, e⟩ | ⟨_, _, e⟩ | ⟨_, e⟩
  · have e' := Res.ok.inj (e.symm.trans hr); exact h.entry k c (by rw [e']; exact hc)
  · rw [e, if_neg hne] at hr; exact main hr rfl
  · rw [e, if_neg hne] at hr; exact main hr rfl

theorem sound_alias {st st' : SiState} {key s : Str} {d : TypeDef} (h : EnvSound cfg A base st)
    (hr : st.register cfg key d = .ok st') (hs : d.v14 = true → d.specVec = 0) (hk : d.kind = b!"string") (hd : d.typeString = s) (ha : Alias cfg A key s) :
    EnvSound cfg A base st' := by
  subst hd
  refine ⟨?_, keeps_register h hr hs⟩
  intro k c hc
  have hr := (register_eq hr).1
  have from' : ∀ {k'}, st.reg.env.reg k' = some c → (k' = toLower (convertType d.typeString) ∨ k' = toLower d.typeString) →
      Def cfg A base (toLower key) c := fun h1 h2 => (h.entry _ c h1).elim (.aliasBase ha h2) (.aliasDef ha h2)
  have main : ∀ {st1 : RegState}, regAlias cfg.eqFuel [(key, d)] st1 (toLower key) d = .ok st'.reg → st1.env = st.reg.env →
      base k = some c ∨ Def cfg A base k c := by
    intro st1 hr he
    rcases regAlias_entry hk hr hc with h1 | ⟨rfl, h1 | h1 | ⟨h0, h1⟩⟩
    · exact h.entry k c (he ▸ h1)
    · exact .inr (from' (he ▸ h1) (.inl rfl))
    · exact .inr (from' (he ▸ h1) (.inr rfl))
    · exact .inr (.aliasForm ha (h.keeps _ (he ▸ h0)) h1)
  rcases regOne_cases (fuel := cfg.eqFuel) (st := st.reg) (key := key) hs with ⟨_, _, e⟩ | ⟨_, _, e⟩ | ⟨_, e⟩
  · have e' := Res.ok.inj (e.symm.trans hr); exact h.entry k c (by rw [e']; exact hc)
  · rw [e, if_pos hk] at hr; exact main hr rfl
  · rw [e, if_pos hk] at hr; exact main hr rfl

/-- Every step keeps the table sound. -/
theorem EnvSound.step (hu : Unversioned cfg) {a b : SiState} (h : Step cfg A a b) (ha : EnvSound cfg A base a) : EnvSound cfg A base b := by
  cases h with
  | set => exact ha.setId _ _
  | struct _ ht hl hw hn hts hr =>
    refine EnvSound.setId (sound_plain ha hr hu (.inl rfl) ?_) _ _
    rintro l c hl' (⟨_, rfl⟩ | ⟨h, _⟩)
    · replace hl' := (mappingRows_zip _ _).symm.trans hl'
      cases hl'
      exact .struct ht hl hw hn hts
    · exact absurd (show (_ : Str) = _ from h) (by dsimp only [structDef, enumDef]; decide)
  | enum _ ht hen hn hrows hr =>
    refine EnvSound.setId (sound_plain ha hr hu (.inr rfl) ?_) _ _
    rintro l c hl' (⟨h, _⟩ | ⟨_, rfl⟩)
    · exact absurd (show (_ : Str) = _ from h) (by dsimp only [structDef, enumDef]; decide)
    · exact .enum ht hen hn hrows hl'
  | newtype _ ht hnt hn hsub hr =>
    exact sound_alias (ha.setId _ _) hr hu rfl rfl (.newtype ht hnt hn (hsub.imp (·.1) id))
  | tuple _ ht hne hts hr =>
    refine EnvSound.setId (sound_plain ha hr hu (.inl rfl) ?_) _ _
    rintro l c hl' (⟨_, rfl⟩ | ⟨h, _⟩)
    · replace hl' := (mappingRows_zip _ _).symm.trans hl'
      cases hl'
      exact .tuple ht hne hts
    · exact absurd (show (_ : Str) = _ from h) (by dsimp only [structDef, enumDef]; decide)
  | primitive hp _ hr => exact sound_alias (ha.setId _ _) hr hu rfl rfl (.primitive hp)
  | param hk ht hr =>
    refine sound_alias ha hr (fun h => by cases h) rfl rfl ?_
    obtain ⟨x, name, hx, ⟨rfl, rfl⟩ | ⟨rfl, rfl⟩, hf⟩ := hk
    · exact .signature ⟨x, _, hx, .inl ⟨rfl, rfl⟩, hf⟩ ht
    · exact .signer ⟨x, _, hx, .inr ⟨rfl, rfl⟩, hf⟩ ht
  | runtimeCall _ ht hl hn hr => exact sound_alias (ha.setId _ _) hr (fun h => by cases h) rfl rfl (.runtimeCall ht hl hn)

end

/-! ## Entries exist -/

theorem regCustomKey_set {env : Env} {key : Str} {c : Cls} (h : (35 : UInt8) ∉ key) : (regCustomKey env key c).reg key = some c := by
  unfold regCustomKey
  rw [splitSep_absent 35 (by decide) h]
  simp [setReg]

/-- A struct or enum definition is entered, unless the key is already recorded. -/
theorem register_enters {cfg : SiCfg} {st st' : SiState} {key : Str} {d : TypeDef} (hr : st.register cfg key d = .ok st')
    (hs : d.v14 = true → d.specVec = 0) (hk : d.kind = b!"struct" ∨ d.kind = b!"enum") (hh : (35 : UInt8) ∉ key) :
    (d.v14 = true ∧ (st.reg.v14 key).isSome = true ∧ st'.reg = st.reg) ∨ (st'.reg.env.reg (toLower key)).isSome = true := by
  have hne : d.kind ≠ b!"string" := by rcases hk with e | e <;> rw [e] <;> decide
  have hr := (register_eq hr).1
  have hh' : (35 : UInt8) ∉ toLower key := hash_lower hh
  have main : ∀ {st1 st2 : RegState}, regPlain st1 (toLower key) d = .ok st2 → (st2.env.reg (toLower key)).isSome = true := by
    intro st1 st2 h
    unfold regPlain at h
    split at h
    · rw [Res.bind_eq_ok] at h
      obtain ⟨l, _, h⟩ := h
      cases h
      simp only [regCustomKey_set hh', Option.isSome_some]
    · split at h
      · rw [Res.bind_eq_ok] at h
        obtain ⟨l, _, h⟩ := h
        cases h
        simp only [regCustomKey_set hh', Option.isSome_some]
      · tauto
  rcases regOne_cases (fuel := cfg.eqFuel) (st := st.reg) (key := key) hs with ⟨h1, h2, e⟩ | ⟨_, _, e⟩ | ⟨_, e⟩
  · exact .inl ⟨h1, h2, (Res.ok.inj (e.symm.trans hr)).symm⟩
  · rw [e, if_neg hne] at hr; exact .inr (main hr)
  · rw [e, if_neg hne] at hr; exact .inr (main hr)

/-- What is recorded after registration. -/
theorem register_records {cfg : SiCfg} {st st' : SiState} {key k : Str} {d : TypeDef} (hr : st.register cfg key d = .ok st')
    (hs : d.v14 = true → d.specVec = 0) (h : (st'.reg.v14 k).isSome = true) :
    (st.reg.v14 k).isSome = true ∨ k = key ∧ d.v14 = true := by
  rcases regOne_effect hs (register_eq hr).1 with ⟨_, _, e⟩ | ⟨h1, _, e, _⟩ | ⟨_, e, _⟩
  · rw [e] at h; exact .inl h
  · rw [e] at h
    simp only [RegState.mark] at h
    split at h
    · next e => exact .inr ⟨e, h1⟩
    · exact .inl h
  · rw [e] at h; exact .inl h

/-- Keys that are never entered as alias. -/
def NoAlias (cfg : SiCfg) (A : Nat → Prop) (key : Str) : Prop := ∀ s, ¬ Alias cfg A key s

/-- If the key is recorded and no alias, it has an entry. -/
def Recorded (cfg : SiCfg) (A : Nat → Prop) (key : Str) (st : SiState) : Prop :=
  NoAlias cfg A key → (35 : UInt8) ∉ key → (st.reg.v14 key).isSome = true → (st.reg.env.reg (toLower key)).isSome = true

theorem recorded_plain {cfg : SiCfg} {A : Nat → Prop} {st st' : SiState} {key k : Str} {d : TypeDef} (h : Recorded cfg A k st)
    (hr : st.register cfg key d = .ok st') (hs : d.v14 = true → d.specVec = 0) (hk : d.kind = b!"struct" ∨ d.kind = b!"enum") :
    Recorded cfg A k st' := by
  intro ha hh hv
  rcases register_records hr hs hv with h1 | ⟨rfl, _⟩
  · exact register_mono hs hr (h ha hh h1)
  · rcases register_enters hr hs hk hh with ⟨_, h2, e⟩ | h2
    · rw [e]; exact h ha hh h2
    · exact h2

theorem recorded_alias {cfg : SiCfg} {A : Nat → Prop} {st st' : SiState} {key s k : Str} {d : TypeDef} (h : Recorded cfg A k st)
    (hr : st.register cfg key d = .ok st') (hs : d.v14 = true → d.specVec = 0) (hk : Alias cfg A key s) :
    Recorded cfg A k st' := by
  intro ha hh hv
  rcases register_records hr hs hv with h1 | ⟨rfl, _⟩
  · exact register_mono hs hr (h ha hh h1)
  · exact absurd hk (ha s)

theorem Recorded.step {cfg : SiCfg} {A : Nat → Prop} (hu : Unversioned cfg) {a b : SiState} {k : Str} (h : Step cfg A a b) (ha : Recorded cfg A k a) :
    Recorded cfg A k b := by
  cases h with
  | set => exact ha
  | struct _ ht hl hw hn hts hr => have := recorded_plain ha hr hu (.inl rfl); exact this
  | enum _ ht hen hn hrows hr => have := recorded_plain ha hr hu (.inr rfl); exact this
  | newtype _ ht hnt hn hsub hr =>
    exact recorded_alias (st := SiState.setId a _ _) ha hr hu (.newtype ht hnt hn (hsub.imp (·.1) id))
  | tuple _ ht hne hts hr => have := recorded_plain ha hr hu (.inl rfl); exact this
  | primitive hp _ hr => exact recorded_alias (st := SiState.setId a _ _) ha hr hu (.primitive hp)
  | param hk ht hr =>
    obtain ⟨x, name, hx, ⟨rfl, rfl⟩ | ⟨rfl, rfl⟩, hf⟩ := hk
    · exact recorded_alias ha hr (fun h => by cases h) (.signature ⟨x, _, hx, .inl ⟨rfl, rfl⟩, hf⟩ ht)
    · exact recorded_alias ha hr (fun h => by cases h) (.signer ⟨x, _, hx, .inr ⟨rfl, rfl⟩, hf⟩ ht)
  | runtimeCall _ ht hl hn hr =>
    exact recorded_alias (st := SiState.setId a _ _) ha hr (fun h => by cases h) (.runtimeCall ht hl hn)

theorem step_mono {cfg : SiCfg} {A : Nat → Prop} (hu : Unversioned cfg) {a b : SiState} (h : Step cfg A a b) {k : Str}
    (hk : (a.reg.env.reg k).isSome = true) : (b.reg.env.reg k).isSome = true := by
  cases h with
  | set => exact hk
  | struct _ ht hl hw hn hts hr => have := register_mono (d := structDef cfg _) hu hr hk; exact this
  | enum _ ht hen hn hrows hr => have := register_mono (d := enumDef cfg _) hu hr hk; exact this
  | newtype _ ht hnt hn hsub hr => exact register_mono (st := SiState.setId a _ _) (d := aliasDef cfg _) hu hr hk
  | tuple _ ht hne hts hr => have := register_mono (d := structDef cfg _) hu hr hk; exact this
  | primitive hp _ hr => exact register_mono (st := SiState.setId a _ _) (d := aliasDef cfg _) hu hr hk
  | param hk' ht hr => exact register_mono (fun h => by cases h) hr hk
  | runtimeCall _ ht hl hn hr => exact register_mono (st := SiState.setId a _ _) (fun h => by cases h) hr hk

/-! ## The definition of a named type -/

/-- Registered as struct or enum. -/
def IsOwn (t : SiType) : Prop := IsStruct t ∨ IsEnum t

theorem isStruct_not {t : SiType} (h : IsStruct t) : ∃ fs, t.typ = .composite fs ∧ fs.length ≠ 1 ∧ ¬ IsWrapper t := h

theorem own_override {t : SiType} (h : IsOwn t) : overriderTypesName t = [] := by
  rcases h with ⟨fs, h, hl, _⟩ | ⟨vs, p, ps, h, _⟩
  · unfold overriderTypesName
    rw [h]
    match fs with
    | [] => rfl
    | [f] => exact absurd rfl hl
    | _ :: _ :: _ => rfl
  · unfold overriderTypesName
    rw [h]

theorem direct_not_own {cfg : SiCfg} {A : Nat → Prop} {i : Nat} {t : Str} (h : Direct cfg A i t) : ¬ IsOwn (cfg.types i) := by
  intro ho
  cases h with
  | override _ h => exact h (own_override ho)
  | account h _ _ =>
    rcases ho with ⟨fs, h', hl, _⟩ | ⟨vs, p, ps, h', _⟩
    · rw [h] at h'; cases h'; exact hl rfl
    · rw [h] at h'; cases h'
  | wrapper _ h hw _ _ =>
    rcases ho with ⟨fs, h', hl, hw'⟩ | ⟨vs, p, ps, h', _⟩
    · exact hw' hw
    · rw [h] at h'; cases h'
  | option _ h hp ho' _ _ =>
    rcases ho with ⟨fs, h', _⟩ | ⟨vs, p, ps, h', hp', h1, h2, _⟩
    · rw [h] at h'; cases h'
    · rw [hp] at hp'; cases hp'; rw [ho'] at h1; cases h1
  | result _ h hp _ hr' _ _ _ =>
    rcases ho with ⟨fs, h', _⟩ | ⟨vs, p, ps, h', hp', h1, h2, _⟩
    · rw [h] at h'; cases h'
    · rw [hp] at hp'; cases hp'; rw [hr'] at h2; cases h2
  | call _ h hc =>
    rcases ho with ⟨fs, h', _⟩ | ⟨vs, p, ps, h', hp', h1, h2, h3⟩
    · rw [h] at h'; cases h'
    · exact h3 hc
  | _ =>
    rename_i h
    rcases ho with ⟨fs, h', _⟩ | ⟨vs, p, ps, h', _⟩ <;> simp_all

theorem newtype_not_own {t : SiType} (h : IsNewtype t) : ¬ IsOwn t := by
  obtain ⟨f, h, _⟩ := h
  rintro (⟨fs, h', hl, _⟩ | ⟨vs, p, ps, h', _⟩)
  · rw [h] at h'; cases h'; exact hl rfl
  · rw [h] at h'; cases h'

/-- Once its text is entered, the type has an entry under its name. -/
def OwnEntries (cfg : SiCfg) (A : Nat → Prop) (i : Nat) (n : Str) (st : SiState) : Prop :=
  IsOwn (cfg.types i) → (cfg.types i).path.head? ≠ some b!"primitive_types" →
    nameSiType cfg (cfg.types i) (some i) = .ok n → NoAlias cfg A n → (35 : UInt8) ∉ n → (st.ids i).isSome = true →
    (st.reg.env.reg (toLower n)).isSome = true

theorem OwnEntries.step {cfg : SiCfg} {A : Nat → Prop} (hu : Unversioned cfg) {a b : SiState} {i : Nat} {n : Str} (h : Step cfg A a b)
    (hrec : Recorded cfg A n a) (ha : OwnEntries cfg A i n a) : OwnEntries cfg A i n b := by
  intro ho hp hn hna hh hi
  have hb := Recorded.step hu h hrec
  have old : (a.ids i).isSome = true → (b.reg.env.reg (toLower n)).isSome = true :=
    fun hi => step_mono hu h (ha ho hp hn hna hh hi)
  have own : ∀ {st' : SiState} {j m d}, a.register cfg m d = .ok st' → (d.v14 = true → d.specVec = 0) →
      (d.kind = b!"struct" ∨ d.kind = b!"enum") → nameSiType cfg (cfg.types j) (some j) = .ok m → b.ids = (st'.setId j m).ids →
      b.reg = st'.reg → (b.reg.env.reg (toLower n)).isSome = true := by
    intro st' j m d hr hs hk hm e1 e2
    rw [e1] at hi
    by_cases e : i = j
    · subst e
      rw [hn] at hm
      cases hm
      rcases register_enters hr hs hk hh with ⟨_, h2, e3⟩ | h2
      · rw [e2, e3]
        exact hrec hna hh h2
      · rw [e2]; exact h2
    · simp only [SiState.setId, if_neg e, (register_eq hr).2] at hi
      exact old hi
  have set : ∀ {j t}, b.ids = (a.setId j t).ids → ¬ (IsOwn (cfg.types j) ∧ (cfg.types j).path.head? ≠ some b!"primitive_types") →
      (b.reg.env.reg (toLower n)).isSome = true := by
    intro j t e hj
    rw [e] at hi
    by_cases e : i = j
    · subst e; exact absurd ⟨ho, hp⟩ hj
    · simp only [SiState.setId, if_neg e] at hi
      exact old hi
  cases h with
  | set hd => exact set rfl fun h => direct_not_own hd h.1
  | struct _ ht hl hw hm hts hr => exact own hr hu (.inl rfl) hm rfl rfl
  | enum _ ht hen hm hrows hr => exact own hr hu (.inr rfl) hm rfl rfl
  | newtype _ ht hnt hm hsub hr => exact set (register_eq hr).2 fun h => newtype_not_own hnt h.1
  | @tuple st' j ks ts _ ht hne hts hr =>
    refine set (j := j) (t := b!"Tuple:" ++ ts.flatten) ?_ ?_
    · show (st'.setId j _).ids = _
      simp only [SiState.setId, (register_eq hr).2]
    · rintro ⟨⟨fs, h', _⟩ | ⟨vs, p, ps, h', _⟩, _⟩ <;> rw [ht] at h' <;> cases h'
  | primitive hpr _ hr =>
    refine set (register_eq hr).2 ?_
    rintro ⟨h1, h2⟩
    rcases hpr with h | ⟨h, _⟩
    · rcases h1 with ⟨fs, h', _⟩ | ⟨vs, p, ps, h', _⟩ <;> rw [h] at h' <;> cases h'
    · exact h2 h
  | param hk ht hr => exact old (by rw [(register_eq hr).2] at hi; exact hi)
  | runtimeCall _ ht hl hm hr =>
    refine set (register_eq hr).2 ?_
    rintro ⟨⟨fs, h', _⟩ | ⟨vs, p, ps, h', _, _, _, hc⟩, _⟩
    · rw [ht] at h'; cases h'
    · exact hc (.inr (.inr hl))

/-- No other key of the registry is the same name up to letter case. -/
structure Apart (cfg : SiCfg) (i : Nat) (n : Str) : Prop where
  names : ∀ j m, nameSiType cfg (cfg.types j) (some j) = .ok m → toLower m = toLower n → j = i
  tuple : ¬ b!"tuple:" <+: toLower n
  primitive : ¬ b!"primitive_types:" <+: toLower n
  signature : toLower n ≠ b!"extrinsicsignature"
  signer : toLower n ≠ b!"extrinsicsigner"

theorem alias_key {cfg : SiCfg} {A : Nat → Prop} {i : Nat} {n key s : Str} (ho : IsOwn (cfg.types i)) (hA : Apart cfg i n) (h : Alias cfg A key s) :
    toLower key ≠ toLower n := by
  intro e
  cases h with
  | newtype h1 h2 h3 _ =>
    have := hA.names _ _ h3 e
    subst this
    exact newtype_not_own h2 ho
  | primitive h =>
    refine hA.primitive ?_
    rw [← e, toLower_append]
    exact List.prefix_append _ _
  | signature _ => exact hA.signature e.symm
  | signer _ => exact hA.signer e.symm
  | runtimeCall h1 h2 h3 =>
    have := hA.names _ _ h3 e
    subst this
    rcases ho with ⟨fs, h', _⟩ | ⟨vs, p, ps, h', _, _, _, hc⟩
    · rw [h1] at h'; cases h'
    · exact hc (.inr (.inr h2))

/-- The class a struct or enum is entered as. -/
inductive OwnClass (cfg : SiCfg) (A : Nat → Prop) (i : Nat) : Cls → Prop
  | struct {fs ts} : (cfg.types i).typ = .composite fs → Texts cfg A (fs.map SiField.type) ts →
      OwnClass cfg A i (.struct (newStruct (List.zip (fieldNames 1 fs) ts)))
  | enum {vs rows l} : (cfg.types i).typ = .variant vs → EnumRows cfg A vs rows → mappingRows rows = .ok l →
      OwnClass cfg A i (.enum [] (newStruct l))

theorem def_own {cfg : SiCfg} {A : Nat → Prop} {base : Str → Option Cls} {i : Nat} {n k : Str} {c : Cls} (ho : IsOwn (cfg.types i))
    (hA : Apart cfg i n) (h : Def cfg A base k c) (hk : k = toLower n) : OwnClass cfg A i c := by
  cases h with
  | struct h1 h2 h3 h4 h5 =>
    have := hA.names _ _ h4 hk
    subst this
    exact .struct h1 h5
  | enum h1 h2 h3 h4 h5 =>
    have := hA.names _ _ h3 hk
    subst this
    exact .enum h1 h4 h5
  | tuple h1 h2 h3 =>
    refine absurd ?_ hA.tuple
    rw [← hk, toLower_append]
    exact List.prefix_append _ _
  | aliasBase h1 _ _ => exact absurd hk (alias_key ho hA h1)
  | aliasDef h1 _ _ => exact absurd hk (alias_key ho hA h1)
  | aliasForm h1 _ _ => exact absurd hk (alias_key ho hA h1)

/-- After `ProcessSiType` every struct and enum with a name of its own is entered as described. -/
theorem process_own {cfg : SiCfg} {A : Nat → Prop} (hE : EarlyOK cfg A) {fuel : Nat} {reg : RegState} {st : SiState} (h : registerTypes cfg fuel ⟨reg, fun _ => none⟩ = .ok st)
    (hu : Unversioned cfg) {i : Nat} {n : Str} (hi : i < cfg.count) (ho : IsOwn (cfg.types i))
    (hp : (cfg.types i).path.head? ≠ some b!"primitive_types") (hn : nameSiType cfg (cfg.types i) (some i) = .ok n)
    (hA : Apart cfg i n) (hh : (35 : UInt8) ∉ n) (hfresh : reg.env.reg (toLower n) = none)
    (hv : reg.v14 n = none) :
    ∃ c, st.reg.env.reg (toLower n) = some c ∧ OwnClass cfg A i c := by
  have h0 : ∀ i t, (⟨reg, fun _ => none⟩ : SiState).ids i = some t → Text cfg A i t := fun _ _ h => by cases h
  have hs := registerTypes_steps hE h h0
  have hna : NoAlias cfg A n := fun s hs => alias_key ho hA hs rfl
  have hr : Recorded cfg A n st ∧ OwnEntries cfg A i n st := by
    refine hs.inv (Q := fun st => Recorded cfg A n st ∧ OwnEntries cfg A i n st)
      (fun hs hp => ⟨Recorded.step hu hs hp.1, OwnEntries.step hu hs hp.1 hp.2⟩) ⟨?_, ?_⟩
    · intro _ _ h; rw [hv] at h; cases h
    · intro _ _ _ _ _ h; cases h
  have hsound : EnvSound cfg A reg.env.reg st := hs.inv (EnvSound.step hu) ⟨fun k c h => .inl h, fun _ h => h⟩
  obtain ⟨t, ht⟩ := (registerTypes_text hE h h0).2 i hi (by
    rcases ho with ⟨fs, h', _⟩ | ⟨vs, p, ps, h', _⟩ <;> rw [h'] <;> simp)
  obtain ⟨c, hc⟩ := Option.isSome_iff_exists.1 (hr.2 ho hp hn hna hh (by rw [ht]; rfl))
  refine ⟨c, hc, ?_⟩
  rcases hsound.entry _ _ hc with h | h
  · rw [hfresh] at h; cases h
  · exact def_own ho hA h rfl

end ScaleGo
