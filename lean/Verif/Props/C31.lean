import Verif.Props.C30

/-! # C31: spec-version ranges select the right definition -/

namespace ScaleGo

open ScaleGo.Spec

/-- The full property. Registering a history with version ranges makes a decode at version `v` (an unsigned 32-bit number)
use the earliest registered definition whose range contains `v`; when no range contains `v`, the result is that of the
history without the ranged definitions. -/
def C31Claim : Prop :=
  ∀ (fuel : Nat) (st : RegState) (es : List Entry) (rs : List (Str × TypeDef)) (m s : Str) (v : Nat),
    (∀ e ∈ es, e.Fits) → List.Forall₂ Registers es rs → (∀ k, st.env.special k = []) → v < 2 ^ 32 →
    PlainName s → hasPrefix s b!"BoundedBTreeSet" = false →
    ∃ st', registerAll fuel st rs = .ok st' ∧
      (∀ c, FirstRange s v es c → getCodecClass st'.env m v s = .ok (some (c, []))) ∧
      (NoRange s v es → getCodecClass st'.env m v s =
        getCodecClass ((es.filter (fun e => e.range.isNone)).foldl storeEntry st.env) m v s)

/-- Without ranged entries the stored tables are those of the plain entries. -/
theorem storeAll_reg_filter (es : List Entry) (env : Env) (k : Str) :
    (es.foldl storeEntry env).reg k = ((es.filter (fun e => e.range.isNone)).foldl storeEntry env).reg k := by
  have agree : ∀ (l : List Entry) (a b : Env), a.reg k = b.reg k →
      (l.foldl storeEntry a).reg k = (l.foldl storeEntry b).reg k := by
    intro l
    induction l with
    | nil => intro a b h; exact h
    | cons e l ih =>
      intro a b h
      rw [List.foldl_cons, List.foldl_cons]
      exact ih _ _ (by rw [storeEntry_reg, storeEntry_reg, h])
  induction es generalizing env with
  | nil => rfl
  | cons e es ih =>
    rw [List.foldl_cons, ih]
    cases hr : e.range with
    | none => rw [List.filter_cons_of_pos (by simp [hr]), List.foldl_cons]
    | some r =>
      rw [List.filter_cons_of_neg (by simp [hr])]
      exact agree _ _ _ (by rw [storeEntry_reg]; simp [hr])

theorem storeAll_special_filter (es : List Entry) (env : Env) (k : Str) :
    ((es.filter (fun e => e.range.isNone)).foldl storeEntry env).special k = env.special k := by
  induction es generalizing env with
  | nil => rfl
  | cons e es ih =>
    cases hr : e.range with
    | none =>
      rw [List.filter_cons_of_pos (by simp [hr]), List.foldl_cons, ih, storeEntry_special]
      simp [hr]
    | some r =>
      rw [List.filter_cons_of_neg (by simp [hr]), ih]

/-- The property for versions up to 99999999 (as which the code reads an open upper end, `C31_open_end`) and names without
module override (`C31_override_ignores_ranges`), in any module. -/
theorem C31_partial (fuel : Nat) (st : RegState) (es : List Entry) (rs : List (Str × TypeDef)) (m s : Str) (v : Int)
    (hf : ∀ e ∈ es, e.Fits) (h : List.Forall₂ Registers es rs) (hsp : ∀ k, st.env.special k = []) (hv : v ≤ 99999999)
    (hs : PlainName s) (hb : hasPrefix s b!"BoundedBTreeSet" = false) (hm : NotOverridden m s) :
    ∃ st', registerAll fuel st rs = .ok st' ∧
      (∀ c, FirstRange s v es c → getCodecClass st'.env m v s = .ok (some (c, []))) ∧
      (NoRange s v es → getCodecClass st'.env m v s =
        getCodecClass ((es.filter (fun e => e.range.isNone)).foldl storeEntry st.env) m v s) := by
  refine ⟨_, registerAll_entries fuel st es rs hf h, ?_, ?_⟩
  · intro c hc
    rw [getCodecClass_plain _ v hs hb (moduleType_notOverridden hm)]
    simp only [storeAll_first hv hc st.env (by rw [hsp]; rfl), Option.some_or, Option.map_some]
  · intro hno
    rw [getCodecClass_plain _ v hs hb (moduleType_notOverridden hm),
      getCodecClass_plain _ v hs hb (moduleType_notOverridden hm)]
    simp only [storeAll_none hv hno, storeAll_special_filter, storeAll_reg_filter es st.env]

/-- The version range decides: some range of the name contains the version, or none does. -/
theorem C31_covers (s : Str) (v : Int) (es : List Entry) : (∃ c, FirstRange s v es c) ∨ NoRange s v es := by
  classical
  induction es with
  | nil => right; intro e he; simp at he
  | cons e es ih =>
    by_cases h : ∃ r, SameName e.name s ∧ e.range = some r ∧ r.Has v
    · obtain ⟨r, h1, h2, h3⟩ := h
      exact .inl ⟨_, .here e r es h1 h2 h3⟩
    · have h' : ∀ r, SameName e.name s → e.range = some r → ¬ r.Has v := fun r h1 h2 h3 => h ⟨r, h1, h2, h3⟩
      rcases ih with ⟨c, hc⟩ | hn
      · exact .inl ⟨c, .later e es c h' hc⟩
      · right
        intro e' he'
        rcases List.mem_cons.1 he' with rfl | he'
        · exact h'
        · exact hn e' he'

/-- A range with open upper end does not apply above 99999999: such a decode is as if the range were not there. -/
theorem C31_open_end (env : Env) (e : Entry) (r : Range) (hr : e.range = some r) (ho : r.hi = none) (k : Str) (v : Int)
    (hv : 99999999 < v) : findSpecial v ((storeEntry env e).special k) = findSpecial v (env.special k) := by
  rw [storeEntry_special, findSpecial_append, hr]
  simp only
  split
  · have : r.codeHi = 99999999 := by simp [Spec.Range.codeHi, ho]
    simp only [findSpecial, this]
    rw [if_neg (by omega), Option.or_none]
  · simp [findSpecial]

/-- Inside the module `assets` the type `Balance` is the override `TAssetBalance`, and no range registered for it (under any
spelling) is ever used: keys are stored in lower case but the override name is looked up as written. -/
theorem C31_override_ignores_ranges (fuel : Nat) (st : RegState) (es : List Entry) (rs : List (Str × TypeDef)) (v : Int)
    (hf : ∀ e ∈ es, e.Fits) (h : List.Forall₂ Registers es rs) (hsp : ∀ k, st.env.special k = []) :
    ∃ st', registerAll fuel st rs = .ok st' ∧
      getCodecInstant st'.env b!"assets" b!"Balance" v = .ok (st'.env.reg b!"tassetbalance") := by
  refine ⟨_, registerAll_entries fuel st es rs hf h, ?_⟩
  have hk : ∀ (l : List Entry) (env : Env), env.special b!"TAssetBalance" = [] →
      (l.foldl storeEntry env).special b!"TAssetBalance" = [] := by
    intro l
    induction l with
    | nil => intro env h; exact h
    | cons e l ih =>
      intro env h
      rw [List.foldl_cons]
      refine ih _ ?_
      rw [storeEntry_special, h]
      cases e.range with
      | none => rfl
      | some r =>
        have hne : toLower e.name ≠ b!"TAssetBalance" := by
          intro he
          have h1 : toLower (toLower e.name) = toLower b!"TAssetBalance" := by rw [he]
          rw [toLower_idem, he] at h1
          exact absurd h1 (by decide)
        simp [hne]
  unfold getCodecInstant
  have e1 : moduleType (toLower b!"Balance") b!"assets" = b!"TAssetBalance" := by decide +kernel
  have e2 : toLower b!"TAssetBalance" = b!"tassetbalance" := by decide
  simp only [e1, hk es st.env (hsp _), findSpecial, e2]
  split <;> (rename_i h; simp [h])

/-- The full property fails: a definition registered for versions from 0 on is not used at version 100000000. -/
theorem C31_claim_false : ¬ C31Claim := by
  intro h
  obtain ⟨st', h1, h2, _⟩ := h 0 ⟨baseEnv dummyExt, fun _ => none⟩ [⟨b!"foo", some ⟨0, none⟩, .set [b!"a"] 8⟩]
    [(b!"foo#0-?", { kind := b!"set", values := [b!"a"], bits := 8 })] [] b!"foo" 100000000
    (by
      intro e he
      simp only [List.mem_singleton] at he
      subst he
      refine ⟨by decide, ?_⟩
      intro r hr
      simp only [Option.some.injEq] at hr
      subst hr
      exact ⟨by decide, by simp⟩)
    (.cons ⟨⟨b!"0-?", ⟨b!"0", b!"?", ⟨by decide, by decide, by decide, by decide⟩, rfl, rfl⟩, rfl⟩, .set _ rfl, rfl⟩ .nil)
    (fun _ => rfl) (by simp) (by decide) (by decide)
  have h3 := h2 (.set [b!"a"] 8) (.here ⟨b!"foo", some ⟨0, none⟩, .set [b!"a"] 8⟩ ⟨0, none⟩ _ ((toLower_eq_iff _ _).1 rfl) rfl
    ⟨by simp, by simp⟩)
  have h4 : registerAll 0 ⟨baseEnv dummyExt, fun _ => none⟩ [(b!"foo#0-?", { kind := b!"set", values := [b!"a"], bits := 8 })] =
      .ok ⟨addSpecial (baseEnv dummyExt) b!"foo" (0, 99999999, .set [b!"a"] 8), fun _ => none⟩ := by kernel_rfl
  rw [h4] at h1
  cases h1
  have h5 : getCodecClass (addSpecial (baseEnv dummyExt) b!"foo" (0, 99999999, .set [b!"a"] 8)) [] ((100000000 : Nat) : Int) b!"foo" =
      .ok none := by kernel_rfl
  rw [h5] at h3
  simp at h3

/-- Two overlapping ranges and a plain definition. -/
def rangeHistory : List Entry :=
  [⟨b!"Weight", none, .u64⟩, ⟨b!"Weight", some ⟨10, some 20⟩, .u32⟩, ⟨b!"weight", some ⟨15, none⟩, .u128⟩]

example : FirstRange b!"WEIGHT" 17 rangeHistory .u32 :=
  .later _ _ _ (by intro r _ h; simp at h) (.here ⟨b!"Weight", some ⟨10, some 20⟩, .u32⟩ ⟨10, some 20⟩ _ ((toLower_eq_iff _ _).1 rfl) rfl ⟨by decide, by simp⟩)

example : NoRange b!"WEIGHT" 9 rangeHistory := by
  intro e he r _ hr ⟨h1, _⟩
  simp only [rangeHistory, List.mem_cons, List.not_mem_nil, or_false] at he
  rcases he with rfl | rfl | rfl <;> simp at hr <;> subst hr <;> simp at h1

/-- The hypotheses are met by keys as they appear in the type files. -/
example : ∃ st', registerAll 0 ⟨baseEnv dummyExt, fun _ => none⟩
      [(b!"Keys#0-1019", { kind := b!"set", values := [b!"a"], bits := 8 }), (b!"Keys#1020-?", { kind := b!"set", values := [b!"b"], bits := 8 })] = .ok st' ∧
    getCodecClass st'.env b!"session" 1020 b!"keys" = .ok (some (.set [b!"b"] 8, [])) := by
  obtain ⟨st', h1, h2, _⟩ := C31_partial 0 ⟨baseEnv dummyExt, fun _ => none⟩
    [⟨b!"Keys", some ⟨0, some 1019⟩, .set [b!"a"] 8⟩, ⟨b!"Keys", some ⟨1020, none⟩, .set [b!"b"] 8⟩]
    [(b!"Keys#0-1019", { kind := b!"set", values := [b!"a"], bits := 8 }), (b!"Keys#1020-?", { kind := b!"set", values := [b!"b"], bits := 8 })]
    b!"session" b!"keys" 1020
    (by
      intro e he
      simp only [List.mem_cons, List.not_mem_nil, or_false] at he
      rcases he with rfl | rfl <;> refine ⟨by decide, fun r hr => ?_⟩ <;> simp only [Option.some.injEq] at hr <;> subst hr <;>
        exact ⟨by decide, by simp⟩)
    (.cons ⟨⟨b!"0-1019", ⟨b!"0", b!"1019", ⟨by decide, by decide, by decide, by decide⟩, ⟨by decide, by decide, by decide, by decide⟩, rfl⟩, rfl⟩, .set _ rfl, rfl⟩
      (.cons ⟨⟨b!"1020-?", ⟨b!"1020", b!"?", ⟨by decide, by decide, by decide, by decide⟩, rfl, rfl⟩, rfl⟩, .set _ rfl, rfl⟩ .nil))
    (fun _ => rfl) (by decide) (by decide) (by decide) (by decide +kernel)
  refine ⟨st', h1, h2 _ (.later _ _ _ ?_ (.here ⟨b!"Keys", some ⟨1020, none⟩, .set [b!"b"] 8⟩ ⟨1020, none⟩ _ ((toLower_eq_iff _ _).1 rfl) rfl ⟨by decide, by simp⟩))⟩
  intro r _ hr hh
  simp only [Option.some.injEq] at hr
  subst hr
  have := hh.2 1019 rfl
  omega

end ScaleGo
