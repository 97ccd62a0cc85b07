import Verif.Lemmas.AliasText
import Mathlib.Data.List.Perm.Basic

/-! # C33: bulk registration does not depend on map iteration order

`regCustomTypes` takes the entries in the order in which one run iterates over the Go map. -/

namespace ScaleGo

open ScaleGo.Spec

/-- The full property: two runs over the same map give the same lookups. -/
def C33Claim : Prop :=
  ∀ (fuel : Nat) (st : RegState) (l l' : List (Str × TypeDef)), (l.map (·.1)).Nodup → l.Perm l' →
    ∀ st₁ st₂, regCustomTypes fuel st l = .ok st₁ → regCustomTypes fuel st l' = .ok st₂ →
      ∀ m v t, getCodecClass st₁.env m v t = getCodecClass st₂.env m v t

/-- Two table states with the same plain entries and the same selections by version. -/
def Agree (a b : Env) : Prop :=
  (∀ k, a.reg k = b.reg k) ∧ (∀ k v, findSpecial v (a.special k) = findSpecial v (b.special k)) ∧ a.ext = b.ext

theorem Agree.refl (a : Env) : Agree a a := ⟨fun _ => rfl, fun _ _ => rfl, rfl⟩

theorem Agree.trans {a b c : Env} (h : Agree a b) (h' : Agree b c) : Agree a c :=
  ⟨fun k => (h.1 k).trans (h'.1 k), fun k v => (h.2.1 k v).trans (h'.2.1 k v), h.2.2.trans h'.2.2⟩

theorem Agree.instant {a b : Env} (h : Agree a b) (m t : Str) (v : Int) : getCodecInstant a m t v = getCodecInstant b m t v := by
  unfold getCodecInstant
  simp only [h.1, h.2.1]

theorem Agree.class {a b : Env} (h : Agree a b) (m t : Str) (v : Int) : getCodecClass a m v t = getCodecClass b m v t := by
  unfold getCodecClass
  generalize t.length + 1 = n
  induction n generalizing t with
  | zero => rfl
  | succ n ih =>
    unfold getCodecClassAux
    simp only [lookupWhole, lookupParts, lookupTuple, h.instant, ih]

theorem Agree.store {a b : Env} (h : Agree a b) (e : Entry) : Agree (storeEntry a e) (storeEntry b e) := by
  refine ⟨fun k => ?_, fun k v => ?_, ?_⟩
  · rw [storeEntry_reg, storeEntry_reg, h.1]
  · rw [storeEntry_special, storeEntry_special, findSpecial_append, findSpecial_append, h.2.1]
  · have := storeAll_ext a [e]
    have h2 := storeAll_ext b [e]
    simp only [List.foldl_cons, List.foldl_nil] at this h2
    rw [this, h2, h.2.2]

/-- Two entries that may be registered in either order: they have different names, or one of them has a version range and
the other has none, or their ranges do not meet. -/
def Spec.Separate (e f : Entry) : Prop :=
  SameName e.name f.name →
    (e.range = none ↔ f.range ≠ none) ∨ ∃ r s, e.range = some r ∧ f.range = some s ∧ ∀ v, ¬ (r.Has v ∧ s.Has v)

theorem SameName.symm' {a b : Str} (h : SameName a b) : SameName b a := by
  rw [← toLower_eq_iff] at *; exact h.symm

theorem Spec.Separate.symm {e f : Entry} (h : Separate e f) : Separate f e := by
  intro hn
  rcases h (SameName.symm' hn) with h | ⟨r, s, h1, h2, h3⟩
  · left
    constructor
    · intro hf he; exact (h.1 he) hf
    · intro he; by_contra hf; exact he (h.2 hf)
  · exact .inr ⟨s, r, h2, h1, fun v hv => h3 v ⟨hv.2, hv.1⟩⟩

theorem code_range_has {r : Range} {v : Int} (h : v ≥ (r.lo : Int) ∧ v ≤ r.codeHi) : r.Has v := by
  refine ⟨h.1, fun n hn => ?_⟩
  have := h.2
  simp only [Spec.Range.codeHi, hn] at this
  exact this

theorem store_comm (a : Env) {e f : Entry} (h : Separate e f) :
    Agree (storeEntry (storeEntry a e) f) (storeEntry (storeEntry a f) e) := by
  refine ⟨fun k => ?_, fun k v => ?_, ?_⟩
  · simp only [storeEntry_reg]
    by_cases h1 : f.range = none ∧ toLower f.name = k <;> by_cases h2 : e.range = none ∧ toLower e.name = k
    · exfalso
      have hn : SameName e.name f.name := (toLower_eq_iff _ _).1 (h2.2.trans h1.2.symm)
      rcases h hn with h | ⟨r, s, h3, _⟩
      · exact (h.1 h2.1) h1.1
      · rw [h2.1] at h3; simp at h3
    · simp [h1, h2]
    · simp [h1, h2]
    · simp [h1, h2]
  · simp only [storeEntry_special, findSpecial_append]
    rw [Option.or_assoc, Option.or_assoc]
    congr 1
    cases he : e.range with
    | none => simp [findSpecial]
    | some r =>
      cases hf : f.range with
      | none => simp [findSpecial]
      | some s =>
        simp only
        by_cases h1 : toLower e.name = k <;> by_cases h2 : toLower f.name = k
        · rw [if_pos h1, if_pos h2]
          simp only [findSpecial]
          by_cases c1 : v ≥ (r.lo : Int) ∧ v ≤ r.codeHi <;> by_cases c2 : v ≥ (s.lo : Int) ∧ v ≤ s.codeHi
          · exfalso
            have hn : SameName e.name f.name := (toLower_eq_iff _ _).1 (h1.trans h2.symm)
            rcases h hn with h | ⟨r', s', h3, h4, h5⟩
            · rw [he, hf] at h; simp at h
            · rw [he] at h3; rw [hf] at h4
              cases h3; cases h4
              exact h5 v ⟨code_range_has c1, code_range_has c2⟩
          · simp [c1, c2]
          · simp [c1, c2]
          · simp [c1, c2]
        · rw [if_pos h1, if_neg h2]; simp [findSpecial]
        · rw [if_neg h1, if_pos h2]; simp [findSpecial]
        · rw [if_neg h1, if_neg h2]
  · have h1 := storeAll_ext a [e, f]
    have h2 := storeAll_ext a [f, e]
    simp only [List.foldl_cons, List.foldl_nil] at h1 h2
    rw [h1, h2]

theorem store_perm {l l' : List Entry} (hp : l.Perm l') (hs : l.Pairwise Separate) :
    ∀ a b, Agree a b → Agree (l.foldl storeEntry a) (l'.foldl storeEntry b) := by
  induction hp with
  | nil => intro a b h; exact h
  | cons e _ ih =>
    intro a b h
    rw [List.foldl_cons, List.foldl_cons]
    exact ih (List.pairwise_cons.1 hs).2 _ _ (h.store e)
  | swap e f l =>
    intro a b h
    simp only [List.foldl_cons]
    have hfe : Separate f e := (List.pairwise_cons.1 hs).1 e (by simp)
    have h1 : Agree (storeEntry (storeEntry a f) e) (storeEntry (storeEntry b e) f) :=
      (store_comm a hfe).trans ((h.store e).store f)
    generalize storeEntry (storeEntry a f) e = x at h1
    generalize storeEntry (storeEntry b e) f = y at h1
    clear hs hfe h
    induction l generalizing x y with
    | nil => exact h1
    | cons g l ih =>
      rw [List.foldl_cons, List.foldl_cons]
      exact ih _ _ (h1.store g)
  | trans hp1 _ ih1 ih2 =>
    intro a b h
    exact (ih1 hs a b h).trans (ih2 ((hp1.pairwise_iff (fun h => Separate.symm h)).1 hs) b b (Agree.refl b))

/-- What an item of the batch says, when that does not depend on the rest of the batch: it is a definition of its own, an
alias of a type that was known before and is not redefined by the batch, or an alias of a composed text that has no entry. -/
inductive Spec.Says (env : Env) (redefined : Str → Prop) : TypeDef → Cls → Prop where
  | own (d : TypeDef) (c : Cls) (h : Defines d c) : Says env redefined d c
  | known (d : TypeDef) (c : Cls) (hk : d.kind = b!"string") (h : env.reg (toLower (convertType d.typeString)) = some c)
      (hr : ¬ redefined (toLower (convertType d.typeString))) : Says env redefined d c
  | composed (d : TypeDef) (c : Cls) (hk : d.kind = b!"string") (h : env.reg (toLower (convertType d.typeString)) = none)
      (hr : ¬ redefined (toLower (convertType d.typeString))) (h35 : 35 ∉ convertType d.typeString)
      (hc : Composes (convertType d.typeString) c) : Says env redefined d c

theorem key_absent {e : Entry} {key t : Str} (h : KeyText e key) (h35 : 35 ∉ t) (hn : e.range = none → toLower e.name ≠ toLower t) : key ≠ t := by
  rintro rfl
  unfold KeyText at h
  cases hr : e.range with
  | none =>
    rw [hr] at h
    exact hn hr (congrArg toLower h.symm)
  | some r =>
    rw [hr] at h
    obtain ⟨u, _, rfl⟩ := h
    exact h35 (by simp)

theorem tableGet_absent {α : Type} {l : List (Str × α)} {t : Str} (h : ∀ p ∈ l, p.1 ≠ t) : tableGet l t = none := by
  cases e : tableGet l t with
  | none => rfl
  | some x => exact absurd rfl (h _ (tableGet_mem e))

theorem storeEntry_keeps (env : Env) (e : Entry) (k : Str) (h : e.range = none → toLower e.name ≠ k) :
    (storeEntry env e).reg k = env.reg k := by
  rw [storeEntry_reg, if_neg]
  rintro ⟨h1, h2⟩
  exact h h1 h2

theorem regLoop_says (fuel : Nat) (all : List (Str × TypeDef)) (env₀ : Env) (es₀ : List Entry) (es : List Entry)
    (rs : List (Str × TypeDef)) (st : RegState)
    (hkeep : ∀ k, (∀ e ∈ es₀, e.range = none → toLower e.name ≠ k) → st.env.reg k = env₀.reg k)
    (hall : ∀ r ∈ all, ∃ e ∈ es₀, KeyText e r.1) (hsub : ∀ e ∈ es, e ∈ es₀) (hf : ∀ e ∈ es, e.Keyed)
    (h : List.Forall₂ (fun e r => KeyText e r.1 ∧ r.2.v14 = false ∧
      Says env₀ (fun k => ∃ e ∈ es₀, e.range = none ∧ toLower e.name = k) r.2 e.cls) es rs) :
    regLoop fuel all st rs = .ok { st with env := es.foldl storeEntry st.env } := by
  induction h generalizing st with
  | nil => rfl
  | @cons e r es rs hr _ ih =>
    obtain ⟨k, d⟩ := r
    obtain ⟨h1, h2, h3⟩ := hr
    have hstep : regEntry fuel all st k d = .ok (some { st with env := storeEntry st.env e }) := by
      rw [← regCustomKey_entry st.env (hf e (by simp)) h1]
      generalize hc : e.cls = c at *
      cases h3 with
      | own hd => exact regEntry_defines fuel all st k h2 hd
      | known hk hreg hnr =>
        unfold regEntry v14Key
        simp only at h2 hk hreg hnr
        simp only [h2, if_true, Res.ok_bind, hk]
        unfold regAlias
        have : st.env.reg (toLower (convertType d.typeString)) = some c := by
          rw [hkeep _ (fun e he h4 h5 => hnr ⟨e, he, h4, h5⟩), hreg]
        simp only [this]
        rfl
      | composed hk hreg hnr h35 hcl =>
        unfold regEntry v14Key
        simp only at h2 hk hreg hnr h35 hcl
        simp only [h2, if_true, Res.ok_bind, hk]
        unfold regAlias
        have : st.env.reg (toLower (convertType d.typeString)) = none := by
          rw [hkeep _ (fun e he h4 h5 => hnr ⟨e, he, h4, h5⟩), hreg]
        have h6 : tableGet all (convertType d.typeString) = none := tableGet_absent fun p hp => by
          obtain ⟨e, he, hkt⟩ := hall p hp
          exact key_absent hkt h35 fun h4 h5 => hnr ⟨e, he, h4, h5⟩
        simp only [this, h6, regAliasText, aliasClass_composes hcl]
        rfl
    unfold regLoop
    rw [hstep]
    simp only [Res.ok_bind]
    rw [ih]
    · rfl
    · intro k' hk'
      simp only
      rw [storeEntry_keeps _ _ _ (hk' e (hsub e (by simp)))]
      exact hkeep k' hk'
    · exact fun e he => hsub e (by simp [he])
    · exact fun e he => hf e (by simp [he])

theorem forall₂_keys {P : Entry → Str × TypeDef → Prop} {es : List Entry} {l : List (Str × TypeDef)}
    (h : List.Forall₂ (fun e r => KeyText e r.1 ∧ P e r) es l) : ∀ r ∈ l, ∃ e ∈ es, KeyText e r.1 := by
  induction h with
  | nil => simp
  | cons h _ ih =>
    intro r hr
    rcases List.mem_cons.1 hr with rfl | hr
    · exact ⟨_, by simp, h.1⟩
    · obtain ⟨e, he, hk⟩ := ih r hr
      exact ⟨e, by simp [he], hk⟩

/-- The property for batches of own definitions and of aliases of already known types or of composed texts, where no two plain keys are
equal up to letter case and version ranges of one name do not overlap.  Missing from the full property: aliases of types defined in
the same batch, where the order matters (`C33_claim_false`). -/
theorem C33_partial (fuel : Nat) (st : RegState) (es : List Entry) (l l' : List (Str × TypeDef)) (hp : l.Perm l')
    (hf : ∀ e ∈ es, e.Keyed) (hsep : es.Pairwise Separate)
    (h : List.Forall₂ (fun e r => KeyText e r.1 ∧ r.2.v14 = false ∧
      Says st.env (fun k => ∃ e ∈ es, e.range = none ∧ toLower e.name = k) r.2 e.cls) es l) :
    ∃ st₁ st₂, regCustomTypes fuel st l = .ok st₁ ∧ regCustomTypes fuel st l' = .ok st₂ ∧
      (∀ m v t, getCodecClass st₁.env m v t = getCodecClass st₂.env m v t) := by
  obtain ⟨es', hpe, h'⟩ : ∃ es', es.Perm es' ∧ List.Forall₂ (fun e r => KeyText e r.1 ∧ r.2.v14 = false ∧
      Says st.env (fun k => ∃ e ∈ es, e.range = none ∧ toLower e.name = k) r.2 e.cls) es' l' := by
    obtain ⟨es', h1, h2⟩ := List.perm_comp_forall₂ hp.symm h.flip
    exact ⟨es', h2.symm, h1.flip⟩
  have hkeys := forall₂_keys h
  have r1 := regLoop_says fuel l st.env es es l st (fun k _ => rfl) hkeys (fun e he => he) hf h
  have r2 := regLoop_says fuel l' st.env es es' l' st (fun k _ => rfl) (fun r hr => hkeys r (hp.mem_iff.2 hr)) (fun e he => hpe.mem_iff.2 he)
    (fun e he => hf e (hpe.mem_iff.2 he)) h'
  exact ⟨_, _, r1, r2, fun m v t => (store_perm hpe hsep _ _ (Agree.refl _)).class m t v⟩

/-- A chain of aliases: `a` is `b`, `b` is `c`, `c` is `u32`. -/
def chain : List (Str × TypeDef) :=
  [(b!"a", { kind := b!"string", typeString := b!"b" }), (b!"b", { kind := b!"string", typeString := b!"c" }),
   (b!"c", { kind := b!"string", typeString := b!"u32" })]

/-- The full property fails: run over in this order `a` stays unknown, in the opposite order it is a `u32`. -/
theorem C33_claim_false : ¬ C33Claim := by
  intro h
  have key := h 0 ⟨baseEnv dummyExt, fun _ => none⟩ chain chain.reverse (by decide) chain.reverse_perm.symm
    ⟨setReg (setReg (baseEnv dummyExt) b!"b" .u32) b!"c" .u32, fun _ => none⟩
    ⟨setReg (setReg (setReg (baseEnv dummyExt) b!"c" .u32) b!"b" .u32) b!"a" .u32, fun _ => none⟩ (by kernel_rfl) (by kernel_rfl) [] 0 b!"a"
  have e1 : getCodecClass (setReg (setReg (baseEnv dummyExt) b!"b" .u32) b!"c" .u32) [] 0 b!"a" = .ok none := by kernel_rfl
  have e2 : getCodecClass (setReg (setReg (setReg (baseEnv dummyExt) b!"c" .u32) b!"b" .u32) b!"a" .u32) [] 0 b!"a" =
      .ok (some (.u32, [])) := by kernel_rfl
  rw [e1, e2] at key
  simp at key

/-- Overlapping ranges of one name: the definition registered first is used in the common versions, so the order matters. -/
theorem C33_overlap_order (env : Env) (k : Str) (c₁ c₂ : Cls) (lo₁ hi₁ lo₂ hi₂ v : Int) (h : env.special k = [])
    (h₁ : lo₁ ≤ v ∧ v ≤ hi₁) (h₂ : lo₂ ≤ v ∧ v ≤ hi₂) :
    findSpecial v ((addSpecial (addSpecial env k (lo₁, hi₁, c₁)) k (lo₂, hi₂, c₂)).special k) = some c₁ ∧
    findSpecial v ((addSpecial (addSpecial env k (lo₂, hi₂, c₂)) k (lo₁, hi₁, c₁)).special k) = some c₂ := by
  simp [addSpecial, h, findSpecial, h₁, h₂]

/-- A batch with two ranges of one name, a plain definition of the same name and an alias of a known type. -/
example : ∃ st₁ st₂, regCustomTypes 0 ⟨baseEnv dummyExt, fun _ => none⟩
      [(b!"Foo#0-10", { kind := b!"set", values := [b!"a"], bits := 8 }), (b!"Foo#11-?", { kind := b!"set", values := [b!"b"], bits := 8 }),
       (b!"Foo", { kind := b!"struct", mapping := [[b!"x", b!"u8"]] }), (b!"Bar", { kind := b!"string", typeString := b!"Balance" })] = .ok st₁ ∧
    regCustomTypes 0 ⟨baseEnv dummyExt, fun _ => none⟩
      [(b!"Bar", { kind := b!"string", typeString := b!"Balance" }), (b!"Foo#11-?", { kind := b!"set", values := [b!"b"], bits := 8 }),
       (b!"Foo", { kind := b!"struct", mapping := [[b!"x", b!"u8"]] }), (b!"Foo#0-10", { kind := b!"set", values := [b!"a"], bits := 8 })] = .ok st₂ ∧
    (∀ m v t, getCodecClass st₁.env m v t = getCodecClass st₂.env m v t) := by
  refine C33_partial 0 ⟨baseEnv dummyExt, fun _ => none⟩
    [⟨b!"Foo", some ⟨0, some 10⟩, .set [b!"a"] 8⟩, ⟨b!"Foo", some ⟨11, none⟩, .set [b!"b"] 8⟩,
     ⟨b!"Foo", none, .struct (some [(b!"x", b!"u8")])⟩, ⟨b!"Bar", none, .balance⟩] _ _ (by decide) ?_ ?_ ?_
  · intro e he
    simp only [List.mem_cons, List.not_mem_nil, or_false] at he
    rcases he with rfl | rfl | rfl | rfl <;> refine ⟨by decide, fun r hr => ?_⟩ <;> simp only [Option.some.injEq, reduceCtorEq] at hr <;>
      subst hr <;> exact ⟨by decide, by simp⟩
  · refine .cons ?_ (.cons ?_ (.cons ?_ (.cons ?_ .nil)))
    · intro f hf
      simp only [List.mem_cons, List.not_mem_nil, or_false] at hf
      rcases hf with rfl | rfl | rfl
      · refine fun _ => .inr ⟨_, _, rfl, rfl, fun v hv => ?_⟩
        have := hv.1.2 10 rfl
        have := hv.2.1
        simp only at this
        omega
      · exact fun _ => .inl (by simp)
      · exact fun _ => .inl (by simp)
    · intro f hf
      simp only [List.mem_cons, List.not_mem_nil, or_false] at hf
      rcases hf with rfl | rfl
      · exact fun _ => .inl (by simp)
      · exact fun _ => .inl (by simp)
    · intro f hf
      simp only [List.mem_cons, List.not_mem_nil, or_false] at hf
      subst hf
      exact fun h => absurd h (by decide +kernel)
    · intro f hf; simp at hf
  · refine .cons ⟨⟨b!"0-10", ⟨b!"0", b!"10", ⟨by decide, by decide, by decide, by decide⟩, ⟨by decide, by decide, by decide, by decide⟩, rfl⟩, rfl⟩, rfl,
      .own _ _ (.set _ rfl)⟩ (.cons ⟨⟨b!"11-?", ⟨b!"11", b!"?", ⟨by decide, by decide, by decide, by decide⟩, rfl, rfl⟩, rfl⟩, rfl,
      .own _ _ (.set _ rfl)⟩ (.cons ⟨rfl, rfl, .own _ _ (.struct _ _ rfl (by simp) rfl)⟩ (.cons ⟨rfl, rfl, .known _ _ rfl (by decide +kernel) ?_⟩ .nil)))
    rintro ⟨e, he, h1, h2⟩
    simp only [List.mem_cons, List.not_mem_nil, or_false] at he
    rcases he with rfl | rfl | rfl | rfl <;> simp at h1 <;> revert h2 <;> decide +kernel

/-- A batch with aliases of composed texts that name a type of the same batch. -/
example (st : RegState) (h1 : st.env.reg b!"vec<foo>" = none) (h2 : st.env.reg b!"[foo; 3]" = none) :
    ∃ st₁ st₂, regCustomTypes 0 st [(b!"Foo", { kind := b!"struct", mapping := [[b!"x", b!"u8"]] }), (b!"Foos", { kind := b!"string", typeString := b!"Vec<Foo>" }),
      (b!"Three", { kind := b!"string", typeString := b!"[Foo; 3]" })] = .ok st₁ ∧
    regCustomTypes 0 st [(b!"Three", { kind := b!"string", typeString := b!"[Foo; 3]" }), (b!"Foos", { kind := b!"string", typeString := b!"Vec<Foo>" }),
      (b!"Foo", { kind := b!"struct", mapping := [[b!"x", b!"u8"]] })] = .ok st₂ ∧
    (∀ m v t, getCodecClass st₁.env m v t = getCodecClass st₂.env m v t) := by
  have c1 : convertType b!"Vec<Foo>" = b!"Vec<Foo>" := by kernel_rfl
  have c2 : convertType b!"[Foo; 3]" = b!"[Foo; 3]" := by kernel_rfl
  refine C33_partial 0 st [⟨b!"Foo", none, .struct (some [(b!"x", b!"u8")])⟩, ⟨b!"Foos", none, .vec b!"Foo"⟩, ⟨b!"Three", none, .fixedArray 3 b!"Foo"⟩] _ _ (by decide) ?_ ?_ ?_
  · intro e he
    simp only [List.mem_cons, List.not_mem_nil, or_false] at he
    rcases he with rfl | rfl | rfl <;> exact ⟨by decide, fun r hr => by cases hr⟩
  · refine .cons ?_ (.cons ?_ (.cons (by simp) .nil))
    · intro f hf
      simp only [List.mem_cons, List.not_mem_nil, or_false] at hf
      rcases hf with rfl | rfl <;> exact fun h => absurd h (by decide +kernel)
    · intro f hf
      simp only [List.mem_cons, List.not_mem_nil, or_false] at hf
      subst hf
      exact fun h => absurd h (by decide +kernel)
  · refine .cons ⟨rfl, rfl, .own _ _ (.struct _ _ rfl (by simp) rfl)⟩ (.cons ⟨rfl, rfl, .composed _ _ rfl ?_ ?_ ?_ ?_⟩ (.cons ⟨rfl, rfl, .composed _ _ rfl ?_ ?_ ?_ ?_⟩ .nil))
    · rw [c1]; exact h1
    · rw [c1]
      rintro ⟨e, he, -, h3⟩
      simp only [List.mem_cons, List.not_mem_nil, or_false] at he
      rcases he with rfl | rfl | rfl <;> revert h3 <;> decide +kernel
    · rw [c1]; decide
    · rw [c1]; exact .vec b!"Foo" (by simp) (by decide)
    · rw [c2]; exact h2
    · rw [c2]
      rintro ⟨e, he, -, h3⟩
      simp only [List.mem_cons, List.not_mem_nil, or_false] at he
      rcases he with rfl | rfl | rfl <;> revert h3 <;> decide +kernel
    · rw [c2]; decide
    · rw [c2]
      exact .array b!"Foo" 1 3 ⟨⟨70, b!"oo", rfl, by decide⟩, ⟨111, b!"Fo", rfl, by decide⟩⟩ (by decide) (by decide)

end ScaleGo
