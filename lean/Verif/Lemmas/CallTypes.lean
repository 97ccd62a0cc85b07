import Verif.Lemmas.V14

/-! # The types of calls in a portable registry -/

namespace ScaleGo
open ScaleGo.Spec

/-- Variant types that stand for calls (types/scaleInfo.go:489-500). -/
def CallLike (t : SiType) : Prop :=
  ∃ vs p ps, t.typ = .variant vs ∧ t.path = p :: ps ∧ equalFold p b!"Option" = false ∧ equalFold p b!"Result" = false ∧ p ≠ b!"primitive_types" ∧
    (lastOf (p :: ps) = b!"Call" ∨ lastOf (p :: ps) = b!"RuntimeCall")

section
variable {cfg : SiCfg} {A : Nat → Prop} {base : Str → Option Cls}

theorem call_late (hE : EarlyOK cfg A) {i : Nat} (h : CallLike (cfg.types i)) : ¬ A i := by
  obtain ⟨vs, p, ps, h1, h2, _, _, h3, _⟩ := h
  intro hA
  rcases hE.kind i hA with ⟨q, h, _⟩ | h | ⟨_, _, _, f, h⟩
  · rw [h1] at h; cases h
  · rw [h2] at h; exact h3 (Option.some.inj h)
  · rw [h1] at h; cases h

/-- The texts of the types of calls: `Call`, or the name of the type. -/
theorem call_text {i : Nat} {t : Str} (h : CallLike (cfg.types i)) (ht : Text cfg A i t) :
    t = b!"Call" ∨ lastOf (cfg.types i).path = b!"RuntimeCall" ∧ nameSiType cfg (cfg.types i) (some i) = .ok t ∧ t ≠ [] := by
  obtain ⟨vs, p, ps, h1, h2, h3, h4, h5, h6⟩ := h
  have nocomp : ∀ fs, (cfg.types i).typ ≠ .composite fs := fun fs e => by rw [h1] at e; cases e
  cases ht with
  | name _ hn hne =>
    right
    refine ⟨?_, hn, hne⟩
    rcases h6 with h6 | h6
    · exfalso
      have hc : (sliceIndex (lastOf (p :: ps)) [b!"Call", b!"Event"]).isSome = true := by rw [h6]; decide
      simp only [nameSiType, h1, h2, h3, h4, Bool.or_self, Bool.false_eq_true, if_false, hc, if_true] at hn
      split at hn <;> exact hne (Res.ok.inj hn).symm
    · rw [h2]; exact h6
  | emptyName _ ho _ =>
    exfalso
    rcases ho with ⟨fs, e, _⟩ | ⟨_, _, _, _, _, _, _, hc⟩
    · exact nocomp _ e
    · refine hc ?_
      unfold IsCallTag
      rw [h2]
      exact h6.imp id .inr
  | override _ hne => exact absurd (by unfold overriderTypesName; rw [h1]) hne
  | primitive e => rw [h1] at e; cases e
  | primitiveTypes e => rw [h2] at e; exact absurd (Option.some.inj e) h5
  | account e => exact absurd e (nocomp _)
  | wrapper _ e => exact absurd e (nocomp _)
  | newtype _ e => exact absurd e (nocomp _)
  | selfNewtype _ e => exact absurd e (nocomp _)
  | option _ _ e e' => rw [h2] at e; cases e; rw [h3] at e'; cases e'
  | result _ _ e _ e' => rw [h2] at e; cases e; rw [h4] at e'; cases e'
  | call => exact .inl rfl
  | _ => simp_all

/-- Once their text has been entered, types of calls have an entry under their name. -/
def CallsNamed (cfg : SiCfg) (st : SiState) : Prop :=
  ∀ i n, CallLike (cfg.types i) → lastOf (cfg.types i).path = b!"RuntimeCall" → nameSiType cfg (cfg.types i) (some i) = .ok n →
    (st.ids i).isSome = true → (st.reg.env.reg (toLower n)).isSome = true

theorem CallsNamed.step (hT : Tidy cfg A base) (hcall : base b!"call" = some .call) {a b : SiState} (h : Step cfg A a b)
    (hs : EnvSound cfg A base a) (hc : CallsNamed cfg a) : CallsNamed cfg b := by
  have hu := hT.unversioned
  intro i n hl hlast hn hi
  have old : (a.ids i).isSome = true → (b.reg.env.reg (toLower n)).isSome = true := fun hi => step_mono hu h (hc i n hl hlast hn hi)
  obtain ⟨vs, p, ps, h1, h2, h3, h4, h5, h6⟩ := hl
  have same : ∀ {st' : SiState} {j : Nat} {t : Str}, st'.ids = a.ids → i ≠ j → ((st'.setId j t).ids i).isSome = true → (a.ids i).isSome = true := by
    intro st' j t e hne hi
    simp only [SiState.setId, if_neg hne, e] at hi
    exact hi
  have reged : ∀ {st st' : SiState} {m d}, st.register cfg m d = .ok st' → st'.ids = st.ids := fun h => (register_eq h).2
  cases h with
  | @set j t hd =>
    by_cases e : i = j
    · subst e
      exfalso
      cases hd with
      | override _ hne => exact absurd (by unfold overriderTypesName; rw [h1]) hne
      | option _ _ e e' => rw [h2] at e; cases e; rw [h3] at e'; cases e'
      | result _ _ e _ e' => rw [h2] at e; cases e; rw [h4] at e'; cases e'
      | call _ _ _ hr => exact hr hlast
      | _ => simp_all
    · exact old (same rfl e hi)
  | @struct st' j fs n ts hA ht hl hw hm hts hr =>
    refine old (same (reged hr) ?_ hi)
    rintro rfl
    rw [h1] at ht; cases ht
  | @enum st' j vs n rows hA ht hen hm hrows hr =>
    refine old (same (reged hr) ?_ hi)
    rintro rfl
    obtain ⟨_, _, _, _, _, _, _, hc⟩ := hen
    exact hc (.inr (.inr hlast))
  | @newtype st' j f n s hA ht hnt hm hsub hr =>
    rw [reged hr] at hi
    refine old (same (st' := a) rfl ?_ hi)
    rintro rfl
    rw [h1] at ht; cases ht
  | @tuple st' j ks ts hA ht hne hts hr =>
    refine old (same (reged hr) ?_ hi)
    rintro rfl
    rw [h1] at ht; cases ht
  | @primitive st' j q c hp hq hr =>
    rw [reged hr] at hi
    refine old (same (st' := a) rfl ?_ hi)
    rintro rfl
    rcases hp with e | ⟨e, _⟩
    · rw [h1] at e; cases e
    · rw [h2] at e; exact h5 (Option.some.inj e)
  | @param st' key j s hk ht hr =>
    rw [reged hr] at hi
    exact old hi
  | @runtimeCall st' j ws m hA ht hlm hm hr =>
    by_cases e : i = j
    · subst e
      rw [hn] at hm
      cases hm
      have hav : Avail (a.setId i b!"Call") b!"Call" := by
        left
        show (a.reg.env.reg (toLower (convertType b!"Call"))).isSome = true
        rw [show toLower (convertType b!"Call") = b!"call" by kernel_rfl, entry_lasts hT hs hcall (by decide)]
        rfl
      rcases alias_enters hr (fun h => by cases h) rfl (name_hash hT hn) hav with ⟨h, _⟩ | h
      · cases h
      · exact h
    · rw [reged hr] at hi
      exact old (same (st' := a) rfl e hi)

/-- The entry under the name of a type of calls is that of calls. -/
theorem call_entry (hT : Tidy cfg A base) (hcall : base b!"call" = some .call) {st : SiState} (hs : EnvSound cfg A base st) {i : Nat} {n : Str} {c : Cls}
    (hl : CallLike (cfg.types i)) (hlast : lastOf (cfg.types i).path = b!"RuntimeCall") (hn : nameSiType cfg (cfg.types i) (some i) = .ok n) (hne : n ≠ [])
    (h : st.reg.env.reg (toLower n) = some c) : c = .call := by
  have ha := hT.apart i n hn hne
  obtain ⟨vs, p, ps, h1, h2, h3, h4, h5, h6⟩ := hl
  have nodef : ∀ {c}, ¬ Def cfg A base b!"call" c := by
    intro c h
    rcases def_fresh hT h with h | h | h | h | h
    · cases h
    · rw [hcall] at h; cases h
    · exact absurd h (by decide)
    · exact absurd h (by decide)
    · exact absurd h (by decide)
  have al : ∀ {key s}, Alias cfg A key s → toLower key = toLower n → s = b!"Call" := by
    intro key s h e
    cases h with
    | newtype e1 _ e3 _ =>
      have := ha.names _ _ e3 e
      subst this
      rw [h1] at e1; cases e1
    | primitive _ => exact absurd (by rw [← e, toLower_append]; exact List.prefix_append _ _) ha.primitive
    | signature _ => exact absurd e.symm ha.signature
    | signer _ => exact absurd e.symm ha.signer
    | runtimeCall => rfl
  have kc : toLower (convertType b!"Call") = b!"call" := by kernel_rfl
  have key : ∀ {s k}, s = b!"Call" → k = toLower (convertType s) ∨ k = toLower s → k = b!"call" := by
    rintro s k rfl (rfl | rfl)
    · exact kc
    · decide
  rcases hs.entry _ _ h with h | h
  · rw [hT.fresh i n hn hne] at h; cases h
  · generalize hk : toLower n = k at h
    cases h with
    | struct e1 _ _ e2 =>
      have := ha.names _ _ e2 hk.symm
      subst this
      rw [h1] at e1; cases e1
    | enum _ hen e2 =>
      have := ha.names _ _ e2 hk.symm
      subst this
      obtain ⟨_, _, _, _, _, _, _, hc⟩ := hen
      exact absurd (.inr (.inr hlast)) hc
    | tuple => exact absurd (by rw [hk, lower_tuple]; exact List.prefix_append _ _) ha.tuple
    | aliasBase e1 e2 e3 =>
      rw [key (al e1 hk.symm) e2, hcall] at e3
      exact (Option.some.inj e3).symm
    | aliasDef e1 e2 e3 =>
      rw [key (al e1 hk.symm) e2] at e3
      exact absurd e3 nodef
    | aliasForm e1 e2 e3 =>
      rw [al e1 hk.symm, kc, hcall] at e2
      cases e2

/-- After all types have been entered, names of types of calls are those of calls. -/
theorem calls_entered (hE : EarlyOK cfg A) {fuel : Nat} {reg : RegState} {st : SiState}
    (h : registerTypes cfg fuel ⟨reg, fun _ => none⟩ = .ok st) (hT : Tidy cfg A reg.env.reg) (hcall : reg.env.reg b!"call" = some .call)
    {i : Nat} {n : Str} (hl : CallLike (cfg.types i)) (hlast : lastOf (cfg.types i).path = b!"RuntimeCall")
    (hn : nameSiType cfg (cfg.types i) (some i) = .ok n) (hne : n ≠ []) : st.reg.env.reg (toLower n) = some .call := by
  have h0 : ∀ i t, (⟨reg, fun _ => none⟩ : SiState).ids i = some t → Text cfg A i t := fun _ _ h => by cases h
  have hs := registerTypes_steps hE h h0
  have ht := registerTypes_text hE h h0
  obtain ⟨h1, h2⟩ : EnvSound cfg A reg.env.reg st ∧ CallsNamed cfg st := by
    refine hs.inv (Q := fun st => EnvSound cfg A reg.env.reg st ∧ CallsNamed cfg st) ?_ ?_
    · exact fun hs hp => ⟨EnvSound.step hT.unversioned hs hp.1, hp.2.step hT hcall hs hp.1⟩
    · exact ⟨⟨fun k c h => .inl h, fun _ h => h⟩, fun _ _ _ _ _ h => by cases h⟩
  obtain ⟨vs, -, -, hv, -⟩ := id hl
  obtain ⟨t, hi⟩ := ht.2 i (by
    by_contra hlt
    have := hT.closed i (by omega)
    rw [hv] at this
    cases this) (by rw [hv]; simp)
  obtain ⟨c, hc⟩ := Option.isSome_iff_exists.1 (h2 i n hl hlast hn (by rw [hi]; rfl))
  rw [hc, call_entry hT hcall h1 hl hlast hn hne hc]

/-- The texts of lists of calls. -/
theorem list_text {i k : Nat} {t : Str} (h1 : (cfg.types i).typ = .sequence k) (h2 : (cfg.types i).path = []) (ht : Text cfg A i t) :
    ∃ s, Text cfg A k s ∧ t = generic b!"Vec" s := by
  cases ht with
  | name _ hn hne => simp only [nameSiType, h1] at hn; exact absurd (Res.ok.inj hn).symm hne
  | emptyName _ ho _ => rcases ho with ⟨fs, e, _⟩ | ⟨_, _, _, e, _⟩ <;> rw [h1] at e <;> cases e
  | override _ hne => exact absurd (by unfold overriderTypesName; rw [h1]) hne
  | primitiveTypes e => rw [h2] at e; cases e
  | sequence _ e hs => rw [h1] at e; cases e; exact ⟨_, hs, by simp [generic]⟩
  | _ => simp_all

/-- No module overrides the name of a type of calls. -/
theorem call_never {i : Nat} {n : Str} (hl : CallLike (cfg.types i)) (hlast : lastOf (cfg.types i).path = b!"RuntimeCall")
    (hn : nameSiType cfg (cfg.types i) (some i) = .ok n) (hne : n ≠ []) : NeverOverridden n := by
  have hin : b!"RuntimeCall" <:+: n := by
    obtain ⟨vs, p, ps, h1, h2, h3, h4, h5, h6⟩ := hl
    have hg : n = [] ∨ n = generateName cfg (cfg.types i) (some i) := by
      simp only [nameSiType, h1, h2, h3, h4, Bool.or_self, Bool.false_eq_true, if_false] at hn
      split at hn
      · exact .inl (Res.ok.inj hn).symm
      · split at hn
        · exact .inl (Res.ok.inj hn).symm
        · exact .inr (Res.ok.inj hn).symm
    have hp : (cfg.types i).path ≠ [] := by rw [h2]; simp
    have join : ∀ q : List Str, q ≠ [] → lastOf q <:+ joinSep b!":" q := by
      intro q
      induction q with
      | nil => intro h; exact absurd rfl h
      | cons a q ih =>
        intro _
        cases q with
        | nil => exact List.suffix_refl _
        | cons b q =>
          rw [joinSep_cons (by simp)]
          have := ih (by simp)
          exact this.trans (List.suffix_append _ _)
    have hpn : b!"RuntimeCall" <:+ pathName cfg (cfg.types i) := by
      have := join _ hp
      rw [hlast] at this
      unfold pathName
      split
      · exact this
      · exact this.trans (List.suffix_append _ _)
    rcases hg with rfl | rfl
    · exact absurd rfl hne
    · unfold generateName
      dsimp only
      split
      · exact hpn.isInfix.trans (by rw [List.append_assoc]; exact (List.prefix_append _ _).isInfix)
      · exact hpn.isInfix
  intro row hr p hp e
  rw [← toLower_eq_iff] at e
  have key : ∀ row ∈ typesModules, ∀ p ∈ row.2, ¬ b!"runtimecall" <:+: toLower p.1 := by decide +kernel
  refine key row hr p hp ?_
  rw [e]
  obtain ⟨a, b, rfl⟩ := hin
  rw [toLower_append, toLower_append]
  exact ⟨_, _, rfl⟩

end

end ScaleGo
