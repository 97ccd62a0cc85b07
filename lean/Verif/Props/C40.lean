import Mathlib.Data.List.Nodup
import Verif.Model.Metadata
import Verif.Model.Base
import Verif.Lemmas.Strings
import Verif.Lemmas.KernelRfl
import Verif.Lemmas.Names

/-! # C40: metadata comparison -/

namespace ScaleGo

namespace Spec

/-- The texts by which two argument types are compared differ (in other than letter case). -/
def TextDiffers (env : Env) (fuel : Nat) (a b : Str) : Prop :=
  ∃ x y, typeStructText env fuel a 0 = .ok x ∧ typeStructText env fuel b 0 = .ok y ∧ ¬ SameName x y

/-- Another number of arguments, or arguments at one position whose types compare as different. -/
def ArgsDiffer (env : Env) (fuel : Nat) (as bs : List Str) : Prop :=
  as.length ≠ bs.length ∨ ∃ (i : Nat) (a b : Str), as[i]? = some a ∧ bs[i]? = some b ∧ TextDiffers env fuel a b

/-- `name(type,type,...)` -/
def sigShown (s : Sig) : Str := s.1 ++ b!"(" ++ List.intercalate b!"," s.2 ++ b!")"

/-- `c` reports exactly the items of `new` with a new name and those whose arguments differ from the old item of that name. -/
def ReportsSigs (env : Env) (fuel : Nat) (new old : List Sig) (c : ChangesList) : Prop :=
  (∀ t, t ∈ c.new ↔ ∃ s ∈ new, (∀ o ∈ old, o.1 ≠ s.1) ∧ t = sigShown s) ∧
  (∀ ch, ch ∈ c.changes ↔ ∃ s ∈ new, ∃ o ∈ old, o.1 = s.1 ∧ ArgsDiffer env fuel s.2 o.2 ∧ ch = ⟨sigShown o, sigShown s⟩)

/-- The calls and events of a module as compared. -/
def callsOfModule (m : MetaModule) : List Sig := (m.calls.getD []).map fun c => (c.name, c.args.map (·.2))

def eventsOfModule (m : MetaModule) : List Sig := (m.events.getD []).map fun e => (e.name, e.args)

/-- Names of modules, and of the calls and events of each, are distinct. -/
def NamesDistinct (l : List MetaModule) : Prop :=
  (l.map (·.name)).Nodup ∧ ∀ m ∈ l, ((callsOfModule m).map (·.1)).Nodup ∧ ((eventsOfModule m).map (·.1)).Nodup

/-- The result mentions the module. -/
def Mentions (r : CompareResult) (name : Str) : Prop := name ∈ r.newModules ∨ ∃ c, (name, c) ∈ r.moduleChanges

end Spec

open ScaleGo.Spec

/-- C40 in full, for what the model has of the metadata (modules, calls, events): nothing for equal metadata; a module on one
side only is mentioned; so is a module with a call or event on one side only, or with different argument types. -/
def C40Claim : Prop :=
  ∀ (env : Env) (m d : List MetaModule), NamesDistinct m → NamesDistinct d →
    ∃ fuel r, compareMetadata env fuel m d = .ok r ∧
      (m = d → r = ⟨[], []⟩) ∧
      (∀ x ∈ m, (∀ y ∈ d, y.name ≠ x.name) → Mentions r x.name) ∧
      (∀ y ∈ d, (∀ x ∈ m, x.name ≠ y.name) → Mentions r y.name) ∧
      (∀ x ∈ m, ∀ y ∈ d, x.name = y.name →
        ¬ (∀ n, (∃ s ∈ callsOfModule x, s.1 = n) ↔ ∃ o ∈ callsOfModule y, o.1 = n) ∨
        ¬ (∀ n, (∃ s ∈ eventsOfModule x, s.1 = n) ↔ ∃ o ∈ eventsOfModule y, o.1 = n) ∨
        (∃ s ∈ callsOfModule x, ∃ o ∈ callsOfModule y, s.1 = o.1 ∧ s.2 ≠ o.2) ∨
        (∃ s ∈ eventsOfModule x, ∃ o ∈ eventsOfModule y, s.1 = o.1 ∧ s.2 ≠ o.2) → Mentions r x.name)

/-! ## Names -/

theorem findSig_none {name : Str} {l : List Sig} : findSig name l = none ↔ ∀ o ∈ l, o.1 ≠ name := by
  induction l with
  | nil => simp [findSig]
  | cons s l ih =>
    unfold findSig
    split
    · rename_i h; simp [h]
    · rename_i h; simp [ih, h]

theorem findSig_some {name : Str} {l : List Sig} (hn : (l.map (·.1)).Nodup) {s : Sig} :
    findSig name l = some s ↔ s ∈ l ∧ s.1 = name := by
  induction l with
  | nil => simp [findSig]
  | cons a l ih =>
    rw [List.map_cons, List.nodup_cons] at hn
    unfold findSig
    split
    · rename_i h
      constructor
      · intro e; cases e; exact ⟨List.mem_cons_self, h⟩
      · rintro ⟨hm, hs⟩
        rcases List.mem_cons.1 hm with rfl | hm
        · rfl
        · exact absurd (List.mem_map.2 ⟨s, hm, by rw [hs, h]⟩) hn.1
    · rename_i h
      rw [ih hn.2]
      constructor
      · rintro ⟨hm, hs⟩; exact ⟨List.mem_cons_of_mem _ hm, hs⟩
      · rintro ⟨hm, hs⟩
        rcases List.mem_cons.1 hm with rfl | hm
        · exact absurd hs h
        · exact ⟨hm, hs⟩

theorem findModule_none {name : Str} {l : List MetaModule} : findModule name l = none ↔ ∀ y ∈ l, y.name ≠ name := by
  induction l with
  | nil => simp [findModule]
  | cons s l ih =>
    unfold findModule
    split
    · rename_i h; simp [h]
    · rename_i h; simp [ih, h]

theorem findModule_some {name : Str} {l : List MetaModule} (hn : (l.map (·.name)).Nodup) {y : MetaModule} :
    findModule name l = some y ↔ y ∈ l ∧ y.name = name := by
  induction l with
  | nil => simp [findModule]
  | cons a l ih =>
    rw [List.map_cons, List.nodup_cons] at hn
    unfold findModule
    split
    · rename_i h
      constructor
      · intro e; cases e; exact ⟨List.mem_cons_self, h⟩
      · rintro ⟨hm, hs⟩
        rcases List.mem_cons.1 hm with rfl | hm
        · rfl
        · exact absurd (List.mem_map.2 ⟨y, hm, by rw [hs, h]⟩) hn.1
    · rename_i h
      rw [ih hn.2]
      constructor
      · rintro ⟨hm, hs⟩; exact ⟨List.mem_cons_of_mem _ hm, hs⟩
      · rintro ⟨hm, hs⟩
        rcases List.mem_cons.1 hm with rfl | hm
        · exact absurd hs h
        · exact ⟨hm, hs⟩

theorem joinSep_intercalate (sep : Str) (l : List Str) : joinSep sep l = List.intercalate sep l := by
  induction l with
  | nil => rfl
  | cons a l ih =>
    cases l with
    | nil => simp [joinSep, List.intercalate, List.intersperse]
    | cons b l =>
      rw [joinSep, ih]
      simp [List.intercalate, List.intersperse]

theorem sigText_eq (s : Sig) : sigText s = sigShown s := by
  unfold sigText sigShown
  rw [joinSep_intercalate]

/-! ## Items -/

theorem eqTypes_ok {env : Env} {fuel : Nat} {a b : Str} {r : Bool} (h : eqTypes env fuel a b = .ok r) :
    r = false ↔ TextDiffers env fuel a b := by
  unfold eqTypes at h
  unfold TextDiffers
  cases hx : typeStructText env fuel a 0 with
  | panic => rw [hx] at h; cases h
  | diverge => rw [hx] at h; cases h
  | ok x =>
    cases hy : typeStructText env fuel b 0 with
    | panic => rw [hx, hy] at h; cases h
    | diverge => rw [hx, hy] at h; cases h
    | ok y =>
      rw [hx, hy] at h
      simp only [Res.ok_bind, Res.ok.injEq] at h
      subst h
      unfold equalFold
      constructor
      · intro he
        refine ⟨x, y, rfl, rfl, fun hs => ?_⟩
        rw [(toLower_eq_iff x y).2 hs] at he
        simp at he
      · rintro ⟨x', y', h1, h2, h3⟩
        cases h1
        cases h2
        rw [beq_eq_false_iff_ne]
        exact fun he => h3 ((toLower_eq_iff _ _).1 he)

theorem compareArgs_ok {env : Env} {fuel : Nat} {ch : CompareChange} {as bs : List Str} {l : List CompareChange}
    (h : compareArgs env fuel ch as bs = .ok l) :
    ∀ x, x ∈ l ↔ x = ch ∧ ∃ (i : Nat) (a b : Str), as[i]? = some a ∧ bs[i]? = some b ∧ TextDiffers env fuel a b := by
  induction as generalizing bs l with
  | nil => simp only [compareArgs, Res.ok.injEq] at h; subst h; simp
  | cons a as ih =>
    cases bs with
    | nil => simp only [compareArgs, Res.ok.injEq] at h; subst h; simp
    | cons b bs =>
      rw [compareArgs] at h
      cases he : eqTypes env fuel a b with
      | panic => rw [he] at h; cases h
      | diverge => rw [he] at h; cases h
      | ok same =>
        cases hr : compareArgs env fuel ch as bs with
        | panic => rw [he, hr] at h; cases h
        | diverge => rw [he, hr] at h; cases h
        | ok rest =>
          rw [he, hr] at h
          simp only [Res.ok_bind, Res.ok.injEq] at h
          subst h
          have e0 := eqTypes_ok he
          intro x
          have split' : (∃ (i : Nat) (a' b' : Str), (a :: as)[i]? = some a' ∧ (b :: bs)[i]? = some b' ∧ TextDiffers env fuel a' b') ↔
              TextDiffers env fuel a b ∨ ∃ (i : Nat) (a' b' : Str), as[i]? = some a' ∧ bs[i]? = some b' ∧ TextDiffers env fuel a' b' := by
            constructor
            · rintro ⟨i, a', b', h1, h2, h3⟩
              cases i with
              | zero =>
                rw [List.getElem?_cons_zero] at h1 h2
                cases h1
                cases h2
                exact .inl h3
              | succ i => exact .inr ⟨i, a', b', by simpa using h1, by simpa using h2, h3⟩
            · rintro (h | ⟨i, a', b', h1, h2, h3⟩)
              · exact ⟨0, a, b, rfl, rfl, h⟩
              · exact ⟨i + 1, a', b', by simpa using h1, by simpa using h2, h3⟩
          rw [split']
          cases same with
          | true =>
            have : ¬ TextDiffers env fuel a b := fun hd => by simpa using e0.2 hd
            simp only [if_true, ih hr, this, false_or]
          | false =>
            have : TextDiffers env fuel a b := e0.1 rfl
            simp only [Bool.false_eq_true, if_false, List.mem_cons, ih hr, this, true_or, and_true]
            constructor
            · rintro (h | ⟨h, -⟩) <;> exact h
            · exact .inl

theorem compareSigs_ok {env : Env} {fuel : Nat} {dest : List Sig} (hd : (dest.map (·.1)).Nodup) {l : List Sig} {c : ChangesList}
    (h : compareSigs env fuel dest l = .ok c) : ReportsSigs env fuel l dest c := by
  induction l generalizing c with
  | nil => simp only [compareSigs, Res.ok.injEq] at h; subst h; simp [ReportsSigs]
  | cons s l ih =>
    rw [compareSigs] at h
    cases hf : findSig s.1 dest with
    | none =>
      rw [hf] at h
      dsimp only at h
      cases hr : compareSigs env fuel dest l with
      | panic => rw [hr] at h; cases h
      | diverge => rw [hr] at h; cases h
      | ok r =>
        rw [hr] at h
        simp only [Res.ok_bind, Res.ok.injEq] at h
        subst h
        obtain ⟨i1, i2⟩ := ih hr
        have hno := findSig_none.1 hf
        refine ⟨fun t => ?_, fun ch => ?_⟩
        · simp only [List.mem_cons, i1, exists_eq_or_imp, sigText_eq]
          exact or_congr ⟨fun h => ⟨hno, h⟩, fun h => h.2⟩ Iff.rfl
        · simp only [i2, List.mem_cons, exists_eq_or_imp]
          constructor
          · exact .inr
          · rintro (⟨o, ho, he, -⟩ | h)
            · exact absurd he (hno o ho)
            · exact h
    | some o =>
      rw [hf] at h
      dsimp only at h
      obtain ⟨ho, hon⟩ := (findSig_some hd).1 hf
      have huniq : ∀ o' ∈ dest, o'.1 = s.1 → o' = o := fun o' ho' he => by
        have := (findSig_some hd).2 ⟨ho', he⟩
        rw [hf] at this
        exact (Option.some.inj this).symm
      have new_step : ∀ {r : ChangesList}, ReportsSigs env fuel l dest r → ∀ t, t ∈ r.new ↔
          ∃ s' ∈ s :: l, (∀ o ∈ dest, o.1 ≠ s'.1) ∧ t = sigShown s' := by
        intro r hr t
        rw [hr.1]
        simp only [List.mem_cons, exists_eq_or_imp]
        constructor
        · exact .inr
        · rintro (⟨h, -⟩ | h)
          · exact absurd hon (h o ho)
          · exact h
      have changes_step : ∀ (ch : CompareChange), (∃ s' ∈ s :: l, ∃ o ∈ dest, o.1 = s'.1 ∧ ArgsDiffer env fuel s'.2 o.2 ∧
            ch = ⟨sigShown o, sigShown s'⟩) ↔
          (ArgsDiffer env fuel s.2 o.2 ∧ ch = ⟨sigShown o, sigShown s⟩) ∨
          ∃ s' ∈ l, ∃ o ∈ dest, o.1 = s'.1 ∧ ArgsDiffer env fuel s'.2 o.2 ∧ ch = ⟨sigShown o, sigShown s'⟩ := by
        intro ch
        simp only [List.mem_cons, exists_eq_or_imp]
        refine or_congr ⟨?_, ?_⟩ Iff.rfl
        · rintro ⟨o', ho', he, hr⟩
          rw [huniq o' ho' he] at hr
          exact hr
        · exact fun hr => ⟨o, ho, hon, hr⟩
      split at h
      · rename_i hlen
        cases hr : compareSigs env fuel dest l with
        | panic => rw [hr] at h; cases h
        | diverge => rw [hr] at h; cases h
        | ok r =>
          rw [hr] at h
          simp only [Res.ok_bind, Res.ok.injEq] at h
          subst h
          refine ⟨new_step (r := r) (ih hr), fun ch => ?_⟩
          rw [changes_step]
          simp only [List.mem_cons, (ih hr).2, sigText_eq]
          exact or_congr ⟨fun h => ⟨.inl hlen, h⟩, fun h => h.2⟩ Iff.rfl
      · rename_i hlen
        cases hc : compareArgs env fuel ⟨sigText o, sigText s⟩ s.2 o.2 with
        | panic => rw [hc] at h; cases h
        | diverge => rw [hc] at h; cases h
        | ok cs =>
          cases hr : compareSigs env fuel dest l with
          | panic => rw [hc, hr] at h; cases h
          | diverge => rw [hc, hr] at h; cases h
          | ok r =>
            rw [hc, hr] at h
            simp only [Res.ok_bind, Res.ok.injEq] at h
            subst h
            refine ⟨new_step (r := r) (ih hr), fun ch => ?_⟩
            rw [changes_step]
            simp only [List.mem_append, (ih hr).2, compareArgs_ok hc, sigText_eq]
            refine or_congr ⟨fun h => ⟨.inr h.2, h.1⟩, fun h => ⟨h.2, ?_⟩⟩ Iff.rfl
            rcases h.1 with h | h
            · exact absurd h hlen
            · exact h

/-! ## Modules -/

theorem compareModule_ok {env : Env} {fuel : Nat} {x y : MetaModule} {c : ModuleChange}
    (h1 : ((callsOfModule y).map (·.1)).Nodup) (h2 : ((eventsOfModule y).map (·.1)).Nodup) (h : compareModule env fuel x y = .ok c) :
    ∃ cc ce, ReportsSigs env fuel (callsOfModule x) (callsOfModule y) cc ∧ ReportsSigs env fuel (eventsOfModule x) (eventsOfModule y) ce ∧
      c = ⟨if cc.new = [] ∧ cc.changes = [] then none else some cc, if ce.new = [] ∧ ce.changes = [] then none else some ce⟩ := by
  unfold compareModule at h
  cases hc : compareSigs env fuel ((y.calls.getD []).map callSig) ((x.calls.getD []).map callSig) with
  | panic => rw [hc] at h; cases h
  | diverge => rw [hc] at h; cases h
  | ok cc =>
    cases he : compareSigs env fuel ((y.events.getD []).map eventSig) ((x.events.getD []).map eventSig) with
    | panic => rw [hc, he] at h; cases h
    | diverge => rw [hc, he] at h; cases h
    | ok ce =>
      rw [hc, he] at h
      simp only [Res.ok_bind, Res.ok.injEq] at h
      subst h
      exact ⟨cc, ce, compareSigs_ok h1 hc, compareSigs_ok h2 he, rfl⟩

theorem tableGet_assocSet {α : Type} (m : List (Str × α)) (k k' : Str) (v : α) :
    tableGet (assocSet m k v) k' = if k' = k then some v else tableGet m k' := by
  induction m with
  | nil =>
    simp only [assocSet, tableGet]
    by_cases h : k' = k
    · simp [h]
    · simp [h, Ne.symm h]
  | cons p m ih =>
    obtain ⟨k0, v0⟩ := p
    unfold assocSet
    by_cases h0 : k0 = k
    · rw [if_pos h0]
      simp only [tableGet]
      by_cases h : k' = k
      · simp [h]
      · simp [h, Ne.symm h, h0]
    · rw [if_neg h0]
      simp only [tableGet]
      by_cases h : k0 = k'
      · subst h; simp [h0]
      · simp only [h, if_false, ih]

theorem compareLoop_ok {env : Env} {fuel : Nat} {dest : List MetaModule} {m : List MetaModule} (hm : (m.map (·.name)).Nodup)
    {r0 r : CompareResult} (h : compareLoop env fuel dest m r0 = .ok r) :
    (∀ n, n ∈ r.newModules ↔ n ∈ r0.newModules ∨ ∃ x ∈ m, x.name = n ∧ ∀ y ∈ dest, y.name ≠ n) ∧
    (∀ x ∈ m, ∀ y, findModule x.name dest = some y → tableGet r0.moduleChanges x.name = none → ∃ c, compareModule env fuel x y = .ok c ∧
      tableGet r.moduleChanges x.name = if c.calls.isSome || c.events.isSome then some c else none) ∧
    (∀ n, (∀ x ∈ m, x.name = n → findModule n dest = none) → tableGet r.moduleChanges n = tableGet r0.moduleChanges n) := by
  induction m generalizing r0 with
  | nil => simp only [compareLoop, Res.ok.injEq] at h; subst h; simp
  | cons x m ih =>
    rw [List.map_cons, List.nodup_cons] at hm
    have hx : ∀ z ∈ m, z.name ≠ x.name := fun z hz e => hm.1 (List.mem_map.2 ⟨z, hz, e⟩)
    rw [compareLoop] at h
    cases hf : findModule x.name dest with
    | none =>
      rw [hf] at h
      obtain ⟨i1, i2, i3⟩ := ih hm.2 h
      refine ⟨fun n => ?_, ?_, ?_⟩
      · rw [i1]
        simp only [List.mem_append, List.mem_cons, List.not_mem_nil, or_false, exists_eq_or_imp]
        constructor
        · rintro ((h | rfl) | h)
          · exact .inl h
          · exact .inr (.inl ⟨rfl, findModule_none.1 hf⟩)
          · exact .inr (.inr h)
        · rintro (h | ⟨h, -⟩ | h)
          · exact .inl (.inl h)
          · exact .inl (.inr h.symm)
          · exact .inr h
      · intro z hz y hy hn
        rcases List.mem_cons.1 hz with rfl | hz
        · rw [hf] at hy; cases hy
        · exact i2 z hz y hy hn
      · intro n hn
        exact i3 n (fun z hz => hn z (List.mem_cons_of_mem _ hz))
    | some d =>
      rw [hf] at h
      dsimp only at h
      cases hc : compareModule env fuel x d with
      | panic => rw [hc] at h; cases h
      | diverge => rw [hc] at h; cases h
      | ok c =>
        rw [hc] at h
        rw [Res.ok_bind] at h
        obtain ⟨i1, i2, i3⟩ := ih hm.2 h
        have hget : ∀ n, tableGet (if c.calls.isSome || c.events.isSome then
            { r0 with moduleChanges := assocSet r0.moduleChanges x.name c } else r0).moduleChanges n =
            if n = x.name ∧ (c.calls.isSome || c.events.isSome) = true then some c else tableGet r0.moduleChanges n := by
          intro n
          by_cases hb : (c.calls.isSome || c.events.isSome) = true
          · rw [if_pos hb]
            dsimp only
            rw [tableGet_assocSet]
            by_cases hn : n = x.name
            · rw [if_pos hn, if_pos ⟨hn, hb⟩]
            · rw [if_neg hn, if_neg (fun h => hn h.1)]
          · rw [if_neg hb, if_neg (fun h => hb h.2)]
        have hnew : (if c.calls.isSome || c.events.isSome then
            { r0 with moduleChanges := assocSet r0.moduleChanges x.name c } else r0).newModules = r0.newModules := by
          split <;> rfl
        refine ⟨fun n => ?_, ?_, ?_⟩
        · rw [i1, hnew]
          simp only [List.mem_cons, exists_eq_or_imp]
          refine or_congr Iff.rfl ⟨.inr, ?_⟩
          rintro (⟨rfl, h⟩ | h)
          · rw [findModule_none.2 h] at hf; cases hf
          · exact h
        · intro z hz y hy hn
          rcases List.mem_cons.1 hz with rfl | hz
          · rw [hf] at hy
            cases hy
            refine ⟨c, hc, ?_⟩
            rw [i3 _ (fun w hw e => absurd e (hx w hw)), hget, hn]
            simp
          · refine i2 z hz y hy ?_
            rw [hget, if_neg (fun h => hx z hz h.1), hn]
        · intro n hn
          rw [i3 n (fun z hz => hn z (List.mem_cons_of_mem _ hz)), hget, if_neg]
          rintro ⟨rfl, -⟩
          rw [hn x List.mem_cons_self rfl] at hf
          cases hf

/-- What a comparison that returns reports, exactly: the modules with new names; for each module of both sides the items with
new names and the items whose arguments differ (in number or comparison text) — a module is left out when there are none.
Missing against the full property: items only in the old metadata, storage, types that differ but have equal comparison texts. -/
theorem C40_partial (env : Env) (fuel : Nat) (m d : List MetaModule) (hm : NamesDistinct m) (hd : NamesDistinct d) (r : CompareResult)
    (h : compareMetadata env fuel m d = .ok r) :
    (∀ n, n ∈ r.newModules ↔ (∃ x ∈ m, x.name = n) ∧ ∀ y ∈ d, y.name ≠ n) ∧
    (∀ x ∈ m, ∀ y ∈ d, x.name = y.name → ∃ cc ce,
      ReportsSigs env fuel (callsOfModule x) (callsOfModule y) cc ∧ ReportsSigs env fuel (eventsOfModule x) (eventsOfModule y) ce ∧
      tableGet r.moduleChanges x.name =
        if cc = ⟨[], []⟩ ∧ ce = ⟨[], []⟩ then none
        else some ⟨if cc = ⟨[], []⟩ then none else some cc, if ce = ⟨[], []⟩ then none else some ce⟩) ∧
    (∀ n, (¬ ∃ x ∈ m, ∃ y ∈ d, x.name = n ∧ y.name = n) → tableGet r.moduleChanges n = none) := by
  obtain ⟨h1, h2, h3⟩ := compareLoop_ok hm.1 h
  refine ⟨fun n => ?_, fun x hx y hy e => ?_, fun n hn => ?_⟩
  · rw [h1]
    simp only [List.not_mem_nil, false_or]
    constructor
    · rintro ⟨x, hx, e, hno⟩; exact ⟨⟨x, hx, e⟩, hno⟩
    · rintro ⟨⟨x, hx, e⟩, hno⟩; exact ⟨x, hx, e, hno⟩
  · obtain ⟨c, hc, hr⟩ := h2 x hx y ((findModule_some hd.1).2 ⟨hy, e.symm⟩) rfl
    obtain ⟨cc, ce, r1, r2, rfl⟩ := compareModule_ok (hd.2 y hy).1 (hd.2 y hy).2 hc
    refine ⟨cc, ce, r1, r2, ?_⟩
    rw [hr]
    have em : ∀ c : ChangesList, c = ⟨[], []⟩ ↔ c.new = [] ∧ c.changes = [] := fun c => by cases c; simp
    simp only [em]
    by_cases hc : cc.new = [] ∧ cc.changes = [] <;> by_cases he : ce.new = [] ∧ ce.changes = [] <;> simp [hc, he]
  · rw [h3 n]
    · rfl
    · intro x hx e
      rw [findModule_none]
      intro y hy e'
      exact hn ⟨x, hx, y, hy, e, e'⟩

/-- In particular a call (or event) added under a new name, or with other arguments, makes the module appear. -/
theorem C40_mentioned_partial (env : Env) (fuel : Nat) (m d : List MetaModule) (hm : NamesDistinct m) (hd : NamesDistinct d)
    (r : CompareResult) (h : compareMetadata env fuel m d = .ok r) :
    (∀ x ∈ m, (∀ y ∈ d, y.name ≠ x.name) → Mentions r x.name) ∧
    (∀ x ∈ m, ∀ y ∈ d, x.name = y.name →
      ((∃ s ∈ callsOfModule x, ∀ o ∈ callsOfModule y, o.1 ≠ s.1) ∨ (∃ s ∈ eventsOfModule x, ∀ o ∈ eventsOfModule y, o.1 ≠ s.1) ∨
       (∃ s ∈ callsOfModule x, ∃ o ∈ callsOfModule y, o.1 = s.1 ∧ ArgsDiffer env fuel s.2 o.2) ∨
       (∃ s ∈ eventsOfModule x, ∃ o ∈ eventsOfModule y, o.1 = s.1 ∧ ArgsDiffer env fuel s.2 o.2)) → Mentions r x.name) := by
  obtain ⟨h1, h2, -⟩ := C40_partial env fuel m d hm hd r h
  refine ⟨fun x hx hno => .inl ((h1 _).2 ⟨⟨x, hx, rfl⟩, hno⟩), fun x hx y hy e hr => .inr ?_⟩
  obtain ⟨cc, ce, r1, r2, hg⟩ := h2 x hx y hy e
  have key : ¬ (cc = ⟨[], []⟩ ∧ ce = ⟨[], []⟩) := by
    rintro ⟨rfl, rfl⟩
    rcases hr with ⟨s, hs, hn⟩ | ⟨s, hs, hn⟩ | ⟨s, hs, o, ho, e, ha⟩ | ⟨s, hs, o, ho, e, ha⟩
    · simpa using (r1.1 _).2 ⟨s, hs, hn, rfl⟩
    · simpa using (r2.1 _).2 ⟨s, hs, hn, rfl⟩
    · simpa using (r1.2 _).2 ⟨s, hs, o, ho, e, ha, rfl⟩
    · simpa using (r2.2 _).2 ⟨s, hs, o, ho, e, ha, rfl⟩
  rw [if_neg key] at hg
  have : ∀ (l : List (Str × ModuleChange)) k v, tableGet l k = some v → (k, v) ∈ l := by
    intro l k v
    induction l with
    | nil => intro h; cases h
    | cons p l ih =>
      obtain ⟨k', v'⟩ := p
      intro h
      rw [tableGet] at h
      split at h
      · rename_i e
        cases h
        rw [e]
        exact List.mem_cons_self
      · exact List.mem_cons_of_mem _ (ih h)
  exact ⟨_, this _ _ _ hg⟩

/-! ## Metadata against itself -/

theorem eqTypes_self {env : Env} {fuel : Nat} {a : Str} {r : Bool} (h : eqTypes env fuel a a = .ok r) : r = true := by
  cases r with
  | true => rfl
  | false =>
    obtain ⟨x, y, h1, h2, h3⟩ := (eqTypes_ok h).1 rfl
    rw [h1] at h2
    cases h2
    exact absurd ((toLower_eq_iff x x).1 rfl) h3

theorem compareArgs_self {env : Env} {fuel : Nat} {ch : CompareChange} {as : List Str} {l : List CompareChange}
    (h : compareArgs env fuel ch as as = .ok l) : l = [] := by
  rw [List.eq_nil_iff_forall_not_mem]
  intro x hx
  obtain ⟨-, i, a, b, h1, h2, x, y, h3, h4, h5⟩ := (compareArgs_ok h x).1 hx
  rw [h1] at h2
  cases h2
  rw [h3] at h4
  cases h4
  exact h5 ((toLower_eq_iff x x).1 rfl)

theorem reportsSigs_self {env : Env} {fuel : Nat} {l : List Sig} (hn : (l.map (·.1)).Nodup) {c : ChangesList}
    (h : ReportsSigs env fuel l l c) : c = ⟨[], []⟩ := by
  obtain ⟨new, changes⟩ := c
  have e1 : new = [] := by
    rw [List.eq_nil_iff_forall_not_mem]
    intro t ht
    obtain ⟨s, hs, hno, -⟩ := (h.1 t).1 ht
    exact hno s hs rfl
  have e2 : changes = [] := by
    rw [List.eq_nil_iff_forall_not_mem]
    intro ch hch
    obtain ⟨s, hs, o, ho, e, hd, -⟩ := (h.2 ch).1 hch
    have : s = o := by
      have h1 := (findSig_some hn).2 ⟨hs, rfl⟩
      have h2 := (findSig_some hn).2 ⟨ho, e⟩
      rw [h1] at h2
      exact Option.some.inj h2
    subst this
    rcases hd with hd | ⟨i, a, b, h1, h2, x, y, h3, h4, h5⟩
    · exact hd rfl
    · rw [h1] at h2
      cases h2
      rw [h3] at h4
      cases h4
      exact h5 ((toLower_eq_iff x x).1 rfl)
  rw [e1, e2]

theorem compareLoop_self {env : Env} {fuel : Nat} {dest : List MetaModule} (hd : NamesDistinct dest) {m : List MetaModule}
    (hm : ∀ x ∈ m, x ∈ dest) {r0 r : CompareResult} (h : compareLoop env fuel dest m r0 = .ok r) : r = r0 := by
  induction m generalizing r0 with
  | nil => simp only [compareLoop, Res.ok.injEq] at h; exact h.symm
  | cons x m ih =>
    rw [compareLoop, (findModule_some hd.1).2 ⟨hm x List.mem_cons_self, rfl⟩] at h
    dsimp only at h
    cases hc : compareModule env fuel x x with
    | panic => rw [hc] at h; cases h
    | diverge => rw [hc] at h; cases h
    | ok c =>
      have hn := hd.2 x (hm x List.mem_cons_self)
      obtain ⟨cc, ce, r1, r2, rfl⟩ := compareModule_ok hn.1 hn.2 hc
      rw [reportsSigs_self hn.1 r1, reportsSigs_self hn.2 r2] at hc
      rw [hc, Res.ok_bind] at h
      exact ih (fun z hz => hm z (List.mem_cons_of_mem _ hz)) h

/-- Comparing metadata with itself reports nothing, whenever the comparison returns. -/
theorem C40_self (env : Env) (fuel : Nat) (m : List MetaModule) (hm : NamesDistinct m) (r : CompareResult)
    (h : compareMetadata env fuel m m = .ok r) : r = ⟨[], []⟩ :=
  compareLoop_self hm (fun _ hx => hx) h

/-! ## When it returns -/

theorem eqTypes_total {env : Env} {fuel : Nat} {a b : Str} (ha : ∃ x, typeStructText env fuel a 0 = .ok x)
    (hb : ∃ x, typeStructText env fuel b 0 = .ok x) : ∃ r, eqTypes env fuel a b = .ok r := by
  obtain ⟨x, hx⟩ := ha
  obtain ⟨y, hy⟩ := hb
  unfold eqTypes
  rw [hx, hy]
  exact ⟨_, rfl⟩

theorem compareArgs_total {env : Env} {fuel : Nat} {ch : CompareChange} {as bs : List Str}
    (ha : ∀ a ∈ as, ∃ x, typeStructText env fuel a 0 = .ok x) (hb : ∀ b ∈ bs, ∃ x, typeStructText env fuel b 0 = .ok x) :
    ∃ r, compareArgs env fuel ch as bs = .ok r := by
  induction as generalizing bs with
  | nil => exact ⟨[], rfl⟩
  | cons a as ih =>
    cases bs with
    | nil => exact ⟨[], rfl⟩
    | cons b bs =>
      obtain ⟨s, hs⟩ := eqTypes_total (ha a List.mem_cons_self) (hb b List.mem_cons_self)
      obtain ⟨r, hr⟩ := ih (fun z hz => ha z (List.mem_cons_of_mem _ hz)) (fun z hz => hb z (List.mem_cons_of_mem _ hz))
      rw [compareArgs, hs, hr]
      exact ⟨_, rfl⟩

theorem findSig_mem {name : Str} {l : List Sig} {s : Sig} (h : findSig name l = some s) : s ∈ l := by
  induction l with
  | nil => cases h
  | cons a l ih =>
    unfold findSig at h
    split at h
    · cases h; exact List.mem_cons_self
    · exact List.mem_cons_of_mem _ (ih h)

theorem findModule_mem {name : Str} {l : List MetaModule} {y : MetaModule} (h : findModule name l = some y) : y ∈ l := by
  induction l with
  | nil => cases h
  | cons a l ih =>
    unfold findModule at h
    split at h
    · cases h; exact List.mem_cons_self
    · exact List.mem_cons_of_mem _ (ih h)

theorem compareSigs_total {env : Env} {fuel : Nat} {dest l : List Sig}
    (hd : ∀ s ∈ dest, ∀ a ∈ s.2, ∃ x, typeStructText env fuel a 0 = .ok x)
    (hl : ∀ s ∈ l, ∀ a ∈ s.2, ∃ x, typeStructText env fuel a 0 = .ok x) : ∃ r, compareSigs env fuel dest l = .ok r := by
  induction l with
  | nil => exact ⟨_, rfl⟩
  | cons s l ih =>
    obtain ⟨r, hr⟩ := ih (fun z hz => hl z (List.mem_cons_of_mem _ hz))
    rw [compareSigs]
    cases hf : findSig s.1 dest with
    | none => rw [hr]; exact ⟨_, rfl⟩
    | some o =>
      dsimp only
      obtain ⟨c, hc⟩ := compareArgs_total (ch := ⟨sigText o, sigText s⟩) (hl s List.mem_cons_self) (hd o (findSig_mem hf))
      rw [hr, hc]
      split <;> exact ⟨_, rfl⟩

/-- All argument types of a module have comparison texts. -/
def Spec.HasTexts (env : Env) (fuel : Nat) (l : List MetaModule) : Prop :=
  ∀ x ∈ l, ∀ s ∈ callsOfModule x ++ eventsOfModule x, ∀ a ∈ s.2, ∃ t, typeStructText env fuel a 0 = .ok t

/-- The comparison returns when the comparison texts of all argument types exist (`C41` says when). -/
theorem C40_returns_partial (env : Env) (fuel : Nat) (m d : List MetaModule) (hm : HasTexts env fuel m) (hd : HasTexts env fuel d) :
    ∃ r, compareMetadata env fuel m d = .ok r := by
  unfold compareMetadata
  generalize CompareResult.mk [] [] = r0
  induction m generalizing r0 with
  | nil => exact ⟨_, rfl⟩
  | cons x m ih =>
    rw [compareLoop]
    cases hf : findModule x.name d with
    | none => exact ih (fun z hz => hm z (List.mem_cons_of_mem _ hz)) _
    | some y =>
      have hy := hd y (findModule_mem hf)
      have hx := hm x List.mem_cons_self
      obtain ⟨cc, h1⟩ := compareSigs_total (env := env) (fuel := fuel) (dest := callsOfModule y) (l := callsOfModule x)
        (fun s hs => hy s (List.mem_append_left _ hs)) (fun s hs => hx s (List.mem_append_left _ hs))
      obtain ⟨ce, h2⟩ := compareSigs_total (env := env) (fuel := fuel) (dest := eventsOfModule y) (l := eventsOfModule x)
        (fun s hs => hy s (List.mem_append_right _ hs)) (fun s hs => hx s (List.mem_append_right _ hs))
      have h3 : compareModule env fuel x y = .ok ⟨orNil cc, orNil ce⟩ := by
        unfold compareModule
        rw [show (y.calls.getD []).map callSig = callsOfModule y from rfl, show (x.calls.getD []).map callSig = callsOfModule x from rfl,
          show (y.events.getD []).map eventSig = eventsOfModule y from rfl, show (x.events.getD []).map eventSig = eventsOfModule x from rfl,
          h1, h2]
        rfl
      dsimp only
      rw [h3, Res.ok_bind]
      exact ih (fun z hz => hm z (List.mem_cons_of_mem _ hz)) _

/-! ## What is not reported -/

/-- Modules that exist only in the old metadata change nothing in the result. -/
theorem C40_removed_wrong (env : Env) (fuel : Nat) (m d gone : List MetaModule) (hg : ∀ y ∈ gone, ∀ x ∈ m, x.name ≠ y.name) :
    compareMetadata env fuel m (d ++ gone) = compareMetadata env fuel m d := by
  have hf : ∀ n, (∀ y ∈ gone, y.name ≠ n) → findModule n (d ++ gone) = findModule n d := by
    intro n hn
    induction d with
    | nil => rw [List.nil_append, findModule_none.2 hn]; rfl
    | cons a d ih =>
      rw [List.cons_append, findModule, findModule, ih]
  unfold compareMetadata
  generalize CompareResult.mk [] [] = r0
  induction m generalizing r0 with
  | nil => rfl
  | cons x m ih =>
    rw [compareLoop, compareLoop, hf x.name (fun y hy => (hg y hy x List.mem_cons_self).symm)]
    have ih' := ih (fun y hy z hz => hg y hy z (List.mem_cons_of_mem _ hz))
    cases findModule x.name d with
    | none => exact ih' _
    | some y =>
      dsimp only
      cases compareModule env fuel x y with
      | panic => rfl
      | diverge => rfl
      | ok c => rw [Res.ok_bind, Res.ok_bind]; exact ih' _

/-- A module `A` with one call `f` taking one argument of type `t`. -/
def oneCall (t : Str) : MetaModule := ⟨b!"A", 0, some [⟨b!"f", [(b!"x", t)], 0⟩], none⟩

/-- An argument changed from one unknown type to another is not reported: both comparison texts are empty. -/
theorem C40_unknown_wrong (env : Env) (fuel : Nat) (t u : Str) (ht : getCodecClass env [] 0 t = .ok none)
    (hu : getCodecClass env [] 0 u = .ok none) : compareMetadata env (fuel + 1) [oneCall t] [oneCall u] = .ok ⟨[], []⟩ := by
  have h1 : typeStructText env (fuel + 1) t 0 = .ok [] := by rw [typeStructText, ht]; rfl
  have h2 : typeStructText env (fuel + 1) u 0 = .ok [] := by rw [typeStructText, hu]; rfl
  have h3 : eqTypes env (fuel + 1) t u = .ok true := by unfold eqTypes; rw [h1, h2]; rfl
  unfold compareMetadata
  simp only [compareLoop, oneCall, findModule, if_true, compareModule, Option.getD_some, List.map_cons, List.map_nil, callSig, compareSigs,
    findSig, ne_eq, not_true_eq_false, if_false, compareArgs, h3, Res.ok_bind, Option.getD_none, List.append_nil, List.length_cons]
  rfl

example : getCodecClass (baseEnv dummyExt) [] 0 b!"Foo" = .ok none ∧ getCodecClass (baseEnv dummyExt) [] 0 b!"Bar" = .ok none :=
  ⟨by kernel_rfl, by kernel_rfl⟩

theorem C40_claim_false : ¬ C40Claim := by
  intro h
  obtain ⟨fuel, r, h1, -, -, h2, -⟩ := h (baseEnv dummyExt) [] [oneCall b!"u32"] ⟨List.nodup_nil, by simp⟩
    ⟨by simp, by simp [oneCall, callsOfModule, eventsOfModule]⟩
  cases h1
  rcases h2 _ List.mem_cons_self (by simp) with h | ⟨c, h⟩ <;> simp at h

example : NamesDistinct [oneCall b!"u32"] ∧ NamesDistinct [oneCall b!"u64"] ∧ HasTexts (baseEnv dummyExt) 3 [oneCall b!"u32"] ∧
    compareMetadata (baseEnv dummyExt) 3 [oneCall b!"u32"] [oneCall b!"u64"] =
      .ok ⟨[], [(b!"A", ⟨some ⟨[], [⟨b!"f(u64)", b!"f(u32)"⟩]⟩, none⟩)]⟩ := by
  refine ⟨⟨by simp, by simp [oneCall, callsOfModule, eventsOfModule]⟩, ⟨by simp, by simp [oneCall, callsOfModule, eventsOfModule]⟩, ?_, by kernel_rfl⟩
  intro x hx s hs a ha
  simp [oneCall] at hx
  subst hx
  simp [callsOfModule, eventsOfModule] at hs
  subst hs
  simp at ha
  subst ha
  exact ⟨b!"U32", by kernel_rfl⟩

end ScaleGo
