import Verif.Lemmas.Portable
import Verif.Lemmas.KernelRfl
import Verif.Model.Base
import Verif.Props.C56
import Verif.Props.C38

/-!
# C55: type definitions of the newest metadata are used

English claim: after decoding metadata, the types it describes are the ones used for decoding, even if earlier metadata
described types of the same path differently.

The claim is false as stated: `RegCustomTypes` (types/customType.go:41-63) skips a V14 definition whose name is already
known when no version is given, so the definition of the earlier metadata stays in use (`C55_claim_false`, and for every
registry `C55_stale`).  It holds for the structs whose name was not in use before (`C55_partial`).
-/

namespace ScaleGo
namespace Spec

/-- The name a primitive portable type is decoded under. -/
def primitiveName : SiDef → Option Str
  | .primitive n => some n
  | _ => none

/-- A struct of at least two fields, all of primitive type, with their names and types in order. -/
def PlainStruct (cfg : SiCfg) (i : Nat) (rows : List (Str × Str)) : Prop :=
  ∃ fs, (cfg.types i).typ = .composite fs ∧ 2 ≤ fs.length ∧
    fs.map (fun f => (some f.name, primitiveName (cfg.types f.type).typ)) = rows.map (fun r => (some r.1, some r.2))

/-- The struct `i` has the name `n`, which no other type of the metadata has, which no rule of the type texts changes, and
which no version range or module override covers; its fields are named and of primitive types. -/
structure NewStruct (cfg : SiCfg) (i : Nat) (rows : List (Str × Str)) (n : Str) : Prop where
  inside : i < cfg.count
  plain : PlainStruct cfg i rows
  named : ∀ r ∈ rows, r.1 ≠ []
  noWrapper : ¬ IsWrapper (cfg.types i)
  noPrimitive : (cfg.types i).path.head? ≠ some b!"primitive_types"
  name : nameSiType cfg (cfg.types i) (some i) = .ok n
  apart : Apart cfg i n
  unversioned : Unversioned cfg
  bytes : CfgBytes cfg (· ≠ 35)
  verbatim : Verbatim n
  notOverridden : NotOverridden [] n
  fields : ∀ fs, (cfg.types i).typ = .composite fs → ∀ f ∈ fs, f.type < cfg.count ∧ (cfg.types f.type).path = []
  params : ∀ j, IsWrapper (cfg.types j) ∨ IsExtrinsic (cfg.types j) → ∀ x ∈ (cfg.types j).params,
    primitiveName (cfg.types x.2).typ = none

/-- No type of the metadata has this name, up to letter case. -/
def NotNamed (cfg : SiCfg) (n : Str) : Prop :=
  ∀ dup j m, nameSiType { cfg with dup := dup } (cfg.types j) (some j) = .ok m → toLower m ≠ toLower n

end Spec

open ScaleGo.Spec

/-- The full claim, for structs of primitive fields: whatever metadata was processed before, the structs of the metadata
processed last are decoded with its fields. -/
def C55Claim : Prop :=
  ∀ (old new : SiCfg) (fuel : Nat) (reg : RegState) (st st' : SiState), processSiType old fuel reg = .ok st →
    processSiType new fuel st.reg = .ok st' → ∀ i < new.count, ∀ rows, PlainStruct new i rows →
      ∃ t, st'.ids i = some t ∧ Resolves st'.reg.env [] new.spec t (.struct (some rows)) []

/-- A definition whose name is already recorded is skipped when no version is given. -/
theorem C55_kept (fuel : Nat) (reg : RegState) (key : Str) (d : TypeDef) (hv : d.v14 = true) (hs : d.specVec = 0)
    (hk : (reg.v14 key).isSome = true) : regCustomTypes fuel reg [(key, d)] = .ok reg := by
  rcases regOne_cases (fuel := fuel) (st := reg) (key := key) (fun _ => hs) with ⟨_, _, h⟩ | ⟨_, h, _⟩ | ⟨h, _⟩
  · exact h
  · rw [h] at hk; cases hk
  · rw [hv] at h; cases h

/-- The two aliases every portable registry may replace. -/
def ReplacedAlias (k : Str) : Prop := k = toLower b!"ExtrinsicSignature" ∨ k = toLower b!"ExtrinsicSigner"

/-- For every registry: a name that earlier metadata recorded keeps the definition it had, whatever the new metadata says
under that name. -/
theorem C55_stale (cfg : SiCfg) (fuel : Nat) (reg : RegState) (st : SiState) (h : processSiType cfg fuel reg = .ok st)
    (hv : cfg.v14 = true) (hs : cfg.spec = 0) (key : Str) (hk : (reg.v14 key).isSome = true)
    (hname : ∀ dup i n, nameSiType { cfg with dup := dup } (cfg.types i) (some i) = .ok n → toLower n = toLower key →
      n = key ∧ lastOf (cfg.types i).path ≠ b!"RuntimeCall")
    (ht : ¬ b!"tuple:" <+: toLower key) (hp : ¬ b!"primitive_types:" <+: toLower key) (ha : ¬ ReplacedAlias (toLower key)) :
    st.reg.env.reg (toLower key) = reg.env.reg (toLower key) := by
  unfold processSiType at h
  rw [Res.bind_eq_ok] at h
  obtain ⟨dup, _, h⟩ := h
  have F : Frame { cfg with dup := dup } (fun a b => (a.reg.v14 key).isSome = true →
      (b.reg.v14 key).isSome = true ∧ b.reg.env.reg (toLower key) = a.reg.env.reg (toLower key)) := by
    refine ⟨fun a h => ⟨h, rfl⟩, ?_, fun a i s h => ⟨h, rfl⟩, ?_⟩
    · intro a b c hab hbc ha
      obtain ⟨h1, h2⟩ := hab ha
      obtain ⟨h3, h4⟩ := hbc h1
      exact ⟨h3, h4.trans h2⟩
    · intro a k d b hsub hreg hka
      unfold SiState.register at hreg
      rw [Res.bind_eq_ok] at hreg
      obtain ⟨r, hr, hb⟩ := hreg
      cases hb
      have other : toLower k ≠ toLower key → (r.env = a.reg.env ∨ ∃ c, r.env = regCustomKey a.reg.env (toLower k) c) →
          r.env.reg (toLower key) = a.reg.env.reg (toLower key) := by
        rintro hne (he | ⟨c, he⟩)
        · rw [he]
        · rw [he, regCustomKey_other _ _ (Ne.symm hne)]
      rcases hsub with ⟨hdv, hds, hown⟩ | ⟨hdv, hkey⟩
      · have hown' : toLower k = toLower key → k = key := by
          intro he
          rcases hown with ⟨i, hn, _⟩ | ⟨s, _, _, rfl, _⟩ | ⟨s, rfl⟩
          · exact (hname dup i k hn he).1
          · exact absurd (he ▸ (by rw [toLower_append]; exact List.prefix_append _ _)) ht
          · exact absurd (he ▸ (by rw [toLower_append]; exact List.prefix_append _ _)) hp
        rcases regOne_effect (fun _ => hds.trans hs) hr with ⟨_, _, rfl⟩ | ⟨_, h2, h3, h4⟩ | ⟨h1, _⟩
        · exact ⟨hka, rfl⟩
        · have hne : k ≠ key := by rintro rfl; rw [h2] at hka; cases hka
          refine ⟨?_, other (fun he => hne (hown' he)) h4⟩
          rw [h3]
          simp only [RegState.mark]
          rw [if_neg (Ne.symm hne)]
          exact hka
        · rw [hdv, hv] at h1; cases h1
      · rcases regOne_effect (fun h => by rw [hdv] at h; cases h) hr with ⟨h1, _⟩ | ⟨h1, _⟩ | ⟨_, h2, h3⟩
        · rw [hdv] at h1; cases h1
        · rw [hdv] at h1; cases h1
        · refine ⟨by rw [h2]; exact hka, other ?_ h3⟩
          intro he
          rcases hkey with ⟨rfl | rfl, _⟩ | ⟨i, hl, hn, _⟩
          · exact ha (.inl he.symm)
          · exact ha (.inr he.symm)
          · exact (hname dup i k hn he).2 hl
  exact (registerTypes_frame F h hk).2

/-- The primitive types of the registry. -/
def Primitives (cfg : SiCfg) (j : Nat) : Prop := j < cfg.count ∧ (cfg.types j).path = [] ∧ ∃ p, (cfg.types j).typ = .primitive p

theorem findParameter_mem {name : Str} {p : Nat} : ∀ {l : List (Str × Nat)}, findParameter name l = some p → ∃ x ∈ l, x.2 = p
  | [], h => by cases h
  | (a, b) :: l, h => by
    unfold findParameter at h
    split at h
    · cases h; exact ⟨_, List.mem_cons_self .., rfl⟩
    · obtain ⟨x, hx, e⟩ := findParameter_mem h
      exact ⟨x, List.mem_cons_of_mem _ hx, e⟩

theorem earlyOK_primitives {cfg : SiCfg} (hp : ∀ j, IsWrapper (cfg.types j) ∨ IsExtrinsic (cfg.types j) → ∀ x ∈ (cfg.types j).params,
    primitiveName (cfg.types x.2).typ = none) : EarlyOK cfg (Primitives cfg) := by
  refine ⟨fun _ h => h.1, fun _ ⟨_, h1, p, h2⟩ => .inl ⟨p, h2, h1⟩, ?_, ?_, ?_⟩
  · rintro i n p ps hw he ⟨_, _, q, hq⟩
    have := hp i (.inl hw) (n, p) (by rw [he]; exact List.mem_cons_self ..)
    rw [hq] at this
    cases this
  · rintro i name p hx _ he ⟨_, _, q, hq⟩
    obtain ⟨x, hm, rfl⟩ := findParameter_mem he
    have := hp i (.inr hx) x hm
    rw [hq] at this
    cases this
  · rintro i h ⟨_, hp, _⟩
    rw [hp] at h
    cases h

theorem text_of_primitive {cfg : SiCfg} {j : Nat} {p t : Str} (hj : Primitives cfg j) (hp : (cfg.types j).typ = .primitive p)
    (h : Text cfg (Primitives cfg) j t) : t = p := by
  cases h with
  | primitive h => rw [hp] at h; cases h; rfl
  | primitiveTypes h => rw [hj.2.1] at h; cases h
  | account h => rw [hp] at h; cases h
  | _ => contradiction

/-- The keys a portable registry records: names, tuples, primitives and the two types of extrinsics. -/
theorem step_records {cfg : SiCfg} {A : Nat → Prop} (hu : Unversioned cfg) {a b : SiState} {n : Str} (h : Step cfg A a b)
    (hn : ∀ j m, nameSiType cfg (cfg.types j) (some j) = .ok m → toLower m ≠ toLower n)
    (ht : ¬ b!"tuple:" <+: toLower n) (hp : ¬ b!"primitive_types:" <+: toLower n)
    (ha : a.reg.v14 n = none) : b.reg.v14 n = none := by
  have key : ∀ {st st' : SiState} {k : Str} {d : TypeDef}, st.register cfg k d = .ok st' → (d.v14 = true → d.specVec = 0) →
      (k = n → d.v14 = false) → st.reg.v14 n = none → st'.reg.v14 n = none := by
    intro st st' k d hr hs hk h0
    by_contra hne
    have : (st'.reg.v14 n).isSome = true := by
      cases e : st'.reg.v14 n with
      | none => exact absurd e hne
      | some _ => rfl
    rcases register_records hr hs this with h | ⟨h1, h2⟩
    · rw [h0] at h; cases h
    · rw [hk h1.symm] at h2; cases h2
  cases h with
  | set => exact ha
  | struct _ _ _ _ h1 _ hr => have := key (d := structDef cfg _) hr hu (fun e => absurd (congrArg toLower e) (hn _ _ h1)) ha; exact this
  | enum _ _ _ h1 _ hr => have := key (d := enumDef cfg _) hr hu (fun e => absurd (congrArg toLower e) (hn _ _ h1)) ha; exact this
  | newtype _ _ _ h1 _ hr => exact key (st := SiState.setId a _ _) (d := aliasDef cfg _) hr hu (fun e => absurd (congrArg toLower e) (hn _ _ h1)) ha
  | tuple _ _ _ _ hr =>
    have := key (d := structDef cfg _) hr hu (fun e => absurd (e ▸ toLower_append .. ▸ List.prefix_append _ _) ht) ha
    exact this
  | primitive _ _ hr =>
    refine key (st := SiState.setId a _ _) (d := aliasDef cfg _) hr hu (fun e => absurd ?_ hp) ha
    rw [← e, toLower_append]
    exact List.prefix_append _ _
  | param _ _ hr => exact key hr (fun h => by cases h) (fun _ => rfl) ha
  | runtimeCall _ _ _ h1 hr =>
    exact key (st := SiState.setId a _ _) hr (fun h => by cases h) (fun _ => rfl) ha

/-- Metadata without a type of this name adds no entry for it. -/
theorem unnamed_untouched {cfg : SiCfg} {fuel : Nat} {reg : RegState} {st : SiState} {n : Str} (h : processSiType cfg fuel reg = .ok st)
    (hu : Unversioned cfg) (hb : CfgBytes cfg (· ≠ 35)) (hn : NotNamed cfg n)
    (ht : ¬ b!"tuple:" <+: toLower n) (hp : ¬ b!"primitive_types:" <+: toLower n) (hs : toLower n ≠ b!"extrinsicsignature")
    (hg : toLower n ≠ b!"extrinsicsigner") (h1 : reg.env.reg (toLower n) = none) (h2 : reg.v14 n = none) :
    st.reg.env.reg (toLower n) = none ∧ st.reg.v14 n = none ∧ st.reg.env.special = reg.env.special := by
  unfold processSiType at h
  rw [Res.bind_eq_ok] at h
  obtain ⟨dup, _, h⟩ := h
  have hsteps := registerTypes_steps (earlyOK_none { cfg with dup := dup }) h (fun _ _ h => by cases h)
  refine ⟨?_, hsteps.inv (Q := fun s => s.reg.v14 n = none) (fun hs => step_records (cfg := { cfg with dup := dup }) hu hs (hn dup) ht hp) h2,
    steps_special (cfg := { cfg with dup := dup }) hu ⟨hb.path, hb.pre, hb.primitive⟩ hsteps⟩
  have hsound : EnvSound { cfg with dup := dup } NoEarly reg.env.reg st :=
    hsteps.inv (EnvSound.step (cfg := { cfg with dup := dup }) hu) ⟨fun k c h => .inl h, fun _ h => h⟩
  have hal : ∀ {key s}, Alias { cfg with dup := dup } NoEarly key s → toLower key ≠ toLower n := by
    intro key s ha
    cases ha with
    | newtype _ _ h _ => exact hn dup _ _ h
    | primitive _ =>
      refine fun e => hp ?_
      rw [← e, toLower_append]
      exact List.prefix_append _ _
    | signature _ => exact fun e => hs e.symm
    | signer _ => exact fun e => hg e.symm
    | runtimeCall _ _ h => exact hn dup _ _ h
  cases e : st.reg.env.reg (toLower n) with
  | none => rfl
  | some c =>
    exfalso
    rcases hsound.entry _ _ e with h | h
    · rw [h1] at h; cases h
    · generalize hk : toLower n = k at h
      cases h with
      | struct _ _ _ h _ => exact hn dup _ _ h hk.symm
      | enum _ _ h _ _ => exact hn dup _ _ h hk.symm
      | tuple _ _ _ =>
        refine ht ?_
        rw [hk, toLower_append]
        exact List.prefix_append _ _
      | aliasBase h _ _ => exact hal h hk.symm
      | aliasDef h _ _ => exact hal h hk.symm
      | aliasForm h _ _ => exact hal h hk.symm

theorem plain_texts {cfg : SiCfg} : ∀ (fs : List SiField) (ts : List Str) (rows : List (Str × Str)) (k : Nat),
    (∀ f ∈ fs, f.type < cfg.count ∧ (cfg.types f.type).path = []) → (∀ r ∈ rows, r.1 ≠ []) →
    fs.map (fun f => (some f.name, primitiveName (cfg.types f.type).typ)) = rows.map (fun r => (some r.1, some r.2)) →
    Texts cfg (Primitives cfg) (fs.map SiField.type) ts → List.zip (fieldNames k fs) ts = rows
  | [], ts, rows, k, _, _, hm, _ => by
    cases rows with
    | nil => rfl
    | cons _ _ => cases hm
  | f :: fs, ts, rows, k, hf, hr, hm, hts => by
    cases rows with
    | nil => cases hm
    | cons r rows =>
      cases hts with
      | @cons _ t _ ts ht hts =>
        simp only [List.map_cons, List.cons.injEq, Prod.mk.injEq, Option.some.injEq] at hm
        obtain ⟨⟨h1, h2⟩, h3⟩ := hm
        have hn : f.name ≠ [] := by rw [h1]; exact hr _ (List.mem_cons_self ..)
        have hp : (cfg.types f.type).typ = .primitive r.2 := by
          cases e : (cfg.types f.type).typ with
          | primitive q => rw [e] at h2; cases h2; rfl
          | _ => rw [e] at h2; cases h2
        have hf0 := hf f (List.mem_cons_self ..)
        have := text_of_primitive ⟨hf0.1, hf0.2, _, hp⟩ hp ht
        subst this
        rw [fieldNames, if_neg hn, List.zip_cons_cons, plain_texts fs ts rows (k + 1) (fun g hg => hf g (List.mem_cons_of_mem _ hg))
          (fun g hg => hr g (List.mem_cons_of_mem _ hg)) h3 hts, h1]

/-- **C55**, names not in use: whatever metadata was processed before, a struct of primitive fields of the metadata processed
last is decoded with its fields, if neither the start registry nor the earlier metadata uses its name.  What is missing from
the full claim: a name in use keeps its old definition (`C55_stale`). -/
theorem C55_partial (old new : SiCfg) (dup : Str → Nat) (fuel fuel' : Nat) (reg : RegState) (st st' : SiState) (i : Nat)
    (rows : List (Str × Str)) (n : Str) (h1 : processSiType old fuel reg = .ok st) (h2 : processSiType new fuel' st.reg = .ok st')
    (hd : countNames new 0 new.count (fun _ => 0) = .ok dup) (hN : NewStruct { new with dup := dup } i rows n)
    (hu : Unversioned old) (hb : CfgBytes old (· ≠ 35)) (hold : NotNamed old n) (hreg : reg.env.reg (toLower n) = none)
    (hv : reg.v14 n = none) (hrange : findSpecial new.spec (reg.env.special (toLower n)) = none) :
    st'.ids i = some n ∧ Resolves st'.reg.env [] new.spec n (.struct (some rows)) [] := by
  obtain ⟨hreg', hv', hsp⟩ := unnamed_untouched h1 hu hb hold hN.apart.tuple hN.apart.primitive hN.apart.signature hN.apart.signer hreg hv
  obtain ⟨fs, ht, hl, hm⟩ := hN.plain
  have hE := earlyOK_primitives hN.params
  have ho : IsStruct (new.types i) := ⟨fs, ht, by omega, hN.noWrapper⟩
  unfold processSiType at h2
  rw [hd, Res.ok_bind] at h2
  obtain ⟨c, hc, hown⟩ := process_own hE h2 hN.unversioned hN.inside (.inl ho) hN.noPrimitive hN.name hN.apart
    (fun hm => name_bytes hN.bytes (by decide) hN.name _ hm rfl) hreg' hv'
  have hsp' := steps_special hN.unversioned hN.bytes (registerTypes_steps hE h2 (fun _ _ h => by cases h))
  have hcls : c = .struct (some rows) := by
    cases hown with
    | enum h' _ _ => rw [ht] at h'; cases h'
    | struct h' hts =>
      rw [ht] at h'
      cases h'
      rw [plain_texts fs _ rows 1 (hN.fields fs ht) hN.named hm hts]
      have hne : rows ≠ [] := by
        rintro rfl
        rw [List.map_nil, List.map_eq_nil_iff] at hm
        rw [hm] at hl
        simp at hl
      rw [show newStruct rows = some rows from if_neg hne]
  subst hcls
  constructor
  · obtain ⟨hI, hA⟩ := registerTypes_text hE h2 (fun _ _ h => by cases h)
    obtain ⟨t, hti⟩ := hA i hN.inside (by show (new.types i).typ ≠ _; rw [ht]; simp)
    rw [hti]
    have htext := hI.text _ _ hti
    have hname := hN.name
    cases htext with
    | name _ h _ => rw [hname] at h; cases h; rfl
    | emptyName _ _ h => rw [hname] at h; cases h; rfl
    | override _ h => exact absurd (own_override (.inl ho)) h
    | primitiveTypes h => exact absurd h hN.noPrimitive
    | wrapper _ _ h => exact absurd h hN.noWrapper
    | account h => rw [ht] at h; cases h; simp at hl
    | newtype _ h => rw [ht] at h; cases h; simp at hl
    | selfNewtype _ h => rw [ht] at h; cases h; simp at hl
    | primitive h => rw [ht] at h; cases h
    | arrayZero _ h => rw [ht] at h; cases h
    | array _ h => rw [ht] at h; cases h
    | sequence _ h => rw [ht] at h; cases h
    | compact _ h => rw [ht] at h; cases h
    | tupleNil _ h => rw [ht] at h; cases h
    | tuple _ _ h => rw [ht] at h; cases h
    | bits _ h => rw [ht] at h; cases h
    | range _ h => rw [ht] at h; cases h
    | option _ h => rw [ht] at h; cases h
    | result _ h => rw [ht] at h; cases h
    | call _ h => rw [ht] at h; cases h
    | nothing _ h => rw [ht] at h; cases h
    | dealtPrimitive _ h => rw [ht] at h; cases h
  · refine resolves_entered (convertType_verbatim hN.verbatim) ?_ hN.notOverridden ?_
    · obtain ⟨⟨c, r, h, _⟩, _⟩ := hN.verbatim.trimmed
      rw [h]; simp
    · unfold Entered
      rw [hsp', hsp, hrange, hc]
      rfl

/-- The earlier metadata: `a::B` has the fields `a` and `b`. -/
def oldMetadata : SiCfg where
  types := fun i => match i with
    | 0 => { path := [b!"a", b!"B"], typ := .composite [⟨b!"a", 1, []⟩, ⟨b!"b", 1, []⟩] }
    | 1 => { typ := .primitive b!"U8" }
    | _ => {}
  count := 2

/-- The newer metadata: `a::B` has the fields `a` and `c`, the second one larger. -/
def newMetadata : SiCfg where
  types := fun i => match i with
    | 0 => { path := [b!"a", b!"B"], typ := .composite [⟨b!"a", 1, []⟩, ⟨b!"c", 2, []⟩] }
    | 1 => { typ := .primitive b!"U8" }
    | 2 => { typ := .primitive b!"U32" }
    | _ => {}
  count := 3

/-- The struct of the newer metadata is decoded with the fields of the earlier one. -/
theorem C55_old_fields : ∃ st st', processSiType oldMetadata 3 ⟨baseEnv dummyExt, fun _ => none⟩ = .ok st ∧
    processSiType newMetadata 3 st.reg = .ok st' ∧ st'.ids 0 = some b!"a:B" ∧
    Resolves st'.reg.env [] 0 b!"a:B" (.struct (some [(b!"a", b!"U8"), (b!"b", b!"U8")])) [] := by
  refine ⟨_, _, rfl, rfl, ?_, ?_⟩
  · kernel_rfl
  · unfold Resolves; kernel_rfl

theorem C55_claim_false : ¬ C55Claim := by
  intro h
  obtain ⟨st, st', h1, h2, h3, h4⟩ := C55_old_fields
  obtain ⟨t, ht, hr⟩ := h _ _ _ _ _ _ h1 h2 0 (by decide) [(b!"a", b!"U8"), (b!"c", b!"U32")] ⟨_, rfl, by decide, rfl⟩
  rw [h3] at ht
  cases ht
  unfold Resolves at h4 hr
  rw [show newMetadata.spec = 0 from rfl, h4] at hr
  simp only [Res.ok.injEq, Option.some.injEq, Prod.mk.injEq, Cls.struct.injEq, List.cons.injEq] at hr
  exact absurd hr.1.2.1.1 (by decide)

/-- The newer metadata, processed after the earlier one, meets the hypotheses of `C55_stale` for the name `a:B`. -/
example : ∃ st st', processSiType oldMetadata 3 ⟨baseEnv dummyExt, fun _ => none⟩ = .ok st ∧
    processSiType newMetadata 3 st.reg = .ok st' ∧ st'.reg.env.reg b!"a:b" = st.reg.env.reg b!"a:b" := by
  refine ⟨_, _, rfl, rfl, ?_⟩
  refine C55_stale newMetadata 3 _ _ rfl rfl rfl b!"a:B" ?_ ?_ (by decide) (by decide) (by unfold ReplacedAlias; decide)
  · kernel_rfl
  · intro dup i n hn he
    match i with
    | 0 =>
      refine ⟨?_, by decide⟩
      have hn' : (if dup b!"a:B" > 1 then b!"a:B@0" else b!"a:B") = n := Res.ok.inj hn
      split at hn'
      · subst hn'; exact absurd he (by decide)
      · exact hn'.symm
    | 1 => cases hn; exact absurd he (by decide)
    | 2 => cases hn; exact absurd he (by decide)
    | (k + 3) => cases hn; exact absurd he (by decide)

/-- Metadata with another struct, `a::C`. -/
def otherMetadata : SiCfg where
  types := fun i => match i with
    | 0 => { path := [b!"a", b!"C"], typ := .composite [⟨b!"a", 1, []⟩, ⟨b!"b", 1, []⟩] }
    | 1 => { typ := .primitive b!"U8" }
    | _ => {}
  count := 2

/-- The newer metadata, processed after metadata with another struct, meets the hypotheses of `C55_partial`. -/
example : ∃ st st', processSiType otherMetadata 3 ⟨baseEnv dummyExt, fun _ => none⟩ = .ok st ∧
    processSiType newMetadata 3 st.reg = .ok st' ∧ st'.ids 0 = some b!"a:B" ∧
    Resolves st'.reg.env [] 0 b!"a:B" (.struct (some [(b!"a", b!"U8"), (b!"c", b!"U32")])) [] := by
  refine ⟨_, _, rfl, rfl, ?_⟩
  refine C55_partial otherMetadata newMetadata (fun s => if s = b!"a:B" then 1 else 0) 3 3 ⟨baseEnv dummyExt, fun _ => none⟩ _ _ 0 _ b!"a:B" rfl rfl
    (by show Res.ok _ = _; congr 1) ?_ (fun _ => rfl) ?_ ?_ ?_ rfl ?_
  · exact {
      inside := (by decide : 0 < 3)
      plain := ⟨_, rfl, (by decide : 2 ≤ 2), rfl⟩
      named := by decide
      noWrapper := fun h => by rcases h.2 with h | h <;> exact absurd (show b!"B" = _ from h) (by decide)
      noPrimitive := (by decide : some b!"a" ≠ some b!"primitive_types")
      name := by kernel_rfl
      apart := {
        names := by
          intro j n hn he
          match j with
          | 0 => rfl
          | 1 => cases hn; exact absurd he (by decide)
          | 2 => cases hn; exact absurd he (by decide)
          | (k + 3) => cases hn; exact absurd he (by decide)
        tuple := by decide
        primitive := by decide
        signature := by decide
        signer := by decide }
      unversioned := fun _ => rfl
      bytes := {
        path := by
          intro i
          match i with
          | 0 => exact (by decide : ∀ s ∈ [b!"a", b!"B"], ∀ c ∈ s, c ≠ 35)
          | 1 => intro s hs; cases hs
          | 2 => intro s hs; cases hs
          | (k + 3) => intro s hs; cases hs
        pre := by intro c hc; cases hc
        primitive := by
          intro i p hp
          match i with
          | 0 => cases hp
          | 1 => cases hp; decide
          | 2 => cases hp; decide
          | (k + 3) => cases hp }
      verbatim := ⟨⟨⟨97, b!":B", rfl, by decide⟩, 66, b!"a:", rfl, by decide⟩, by decide, by decide, by decide,
        fun h => absurd ((toLower_eq_iff _ _).2 h) (by decide)⟩
      notOverridden := by decide
      fields := by
        intro fs h
        cases h
        intro f hf
        simp only [List.mem_cons, List.not_mem_nil, or_false] at hf
        rcases hf with rfl | rfl <;> exact ⟨(by decide : _ < 3), rfl⟩
      params := by
        intro j h x hx
        match j with
        | 0 => cases hx
        | 1 => cases hx
        | 2 => cases hx
        | (k + 3) => cases hx }
  · exact {
      path := by
        intro i
        match i with
        | 0 => exact (by decide : ∀ s ∈ [b!"a", b!"C"], ∀ c ∈ s, c ≠ 35)
        | 1 => intro s hs; cases hs
        | (k + 2) => intro s hs; cases hs
      pre := by intro c hc; cases hc
      primitive := by
        intro i p hp
        match i with
        | 0 => cases hp
        | 1 => cases hp; decide
        | (k + 2) => cases hp }
  · intro dup j m hm
    match j with
    | 0 =>
      have hm' : (if dup b!"a:C" > 1 then b!"a:C@0" else b!"a:C") = m := Res.ok.inj hm
      split at hm' <;> subst hm' <;> decide
    | 1 => cases hm; decide
    | (k + 2) => cases hm; decide
  · kernel_rfl
  · kernel_rfl

end ScaleGo
