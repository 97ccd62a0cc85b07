import Verif.Lemmas.Entries
import Verif.Lemmas.Dec

/-! # The bytes of type texts -/

namespace ScaleGo

/-- The bytes of the words and signs that texts are composed with. -/
def textBytes : Str := b!"@:;,<>[] 0123456789AccountIdWrapperOpaqueNULLVeccompactTupleBitVecoptionResultCallSubstrateFixedU64SubstrateFixedI128"

/-- Every byte of the paths, the path prefix and the primitive names is as stated. -/
structure CfgBytes (cfg : SiCfg) (P : UInt8 → Prop) : Prop where
  path : ∀ i, ∀ s ∈ (cfg.types i).path, ∀ c ∈ s, P c
  pre : ∀ c ∈ cfg.pathPrefix, P c
  primitive : ∀ i p, (cfg.types i).typ = .primitive p → ∀ c ∈ p, P c

theorem mem_joinSep {sep : Str} {c : UInt8} : ∀ {l : List Str}, c ∈ joinSep sep l → c ∈ sep ∨ ∃ s ∈ l, c ∈ s
  | [], h => by simp [joinSep] at h
  | [a], h => .inr ⟨a, by simp, by simpa [joinSep] using h⟩
  | a :: b :: l, h => by
    have e : joinSep sep (a :: b :: l) = a ++ sep ++ joinSep sep (b :: l) := rfl
    rw [e] at h
    simp only [List.mem_append] at h
    rcases h with (h | h) | h
    · exact .inr ⟨a, by simp, h⟩
    · exact .inl h
    · rcases mem_joinSep h with h | ⟨s, hs, h⟩
      · exact .inl h
      · exact .inr ⟨s, by simp at hs ⊢; tauto, h⟩

theorem natToDec_bytes (n : Nat) : ∀ c ∈ natToDec n, c ∈ b!"0123456789" := by
  intro c hc
  have := List.all_eq_true.1 (natToDec_digits n) c hc
  have key := forall_byte (P := fun c => isDigit c = true → c ∈ b!"0123456789") (by decide +kernel)
  exact key c this

/-- The bytes that occur in the names of portable types besides those of the paths. -/
def nameBytes : Str := b!":@0123456789"

section
variable {cfg : SiCfg} {A : Nat → Prop} {P : UInt8 → Prop} (hc : CfgBytes cfg P) (hP : ∀ c ∈ nameBytes, P c)
include hc hP

theorem pathName_bytes (i : Nat) : ∀ c ∈ pathName cfg (cfg.types i), P c := by
  have hj : ∀ c ∈ joinSep b!":" (cfg.types i).path, P c := by
    intro c h
    rcases mem_joinSep h with h | ⟨s, hs, h⟩
    · exact hP c ((by decide : ∀ c ∈ b!":", c ∈ nameBytes) c h)
    · exact hc.path i s hs c h
  intro c h
  unfold pathName at h
  split at h
  · exact hj c h
  · simp only [List.mem_append] at h
    rcases h with (h | h) | h
    · exact hc.pre c h
    · exact hP c (by revert h; revert c; decide)
    · exact hj c h

theorem name_bytes {i : Nat} {n : Str} (h : nameSiType cfg (cfg.types i) (some i) = .ok n) : ∀ c ∈ n, P c := by
  have hg : ∀ c ∈ generateName cfg (cfg.types i) (some i), P c := by
    intro c h
    simp only [generateName] at h
    split at h
    · simp only [List.mem_append] at h
      rcases h with (h | h) | h
      · exact pathName_bytes hc hP i c h
      · exact hP c (by revert h; revert c; decide)
      · exact hP c ((by decide : ∀ c ∈ b!"0123456789", c ∈ nameBytes) c (natToDec_bytes i c h))
    · exact pathName_bytes hc hP i c h
  have hnil : ∀ {n : Str}, (Res.ok [] : Res Str) = .ok n → ∀ c ∈ n, P c := by
    intro n h; cases h; simp
  have hgen : ∀ {n : Str}, Res.ok (generateName cfg (cfg.types i) (some i)) = .ok n → ∀ c ∈ n, P c := by
    intro n h; cases h; exact hg
  unfold nameSiType at h
  split at h
  · exact hgen h
  · split at h
    · cases h
    · split at h
      · exact hnil h
      · split at h
        · exact hnil h
        · split at h
          · exact hnil h
          · exact hgen h
  · exact hnil h

end

section
variable {cfg : SiCfg} {A : Nat → Prop} {P : UInt8 → Prop} (hc : CfgBytes cfg P) (hP : ∀ c ∈ textBytes, P c)
include hc hP

theorem text_bytes {i : Nat} {t : Str} (h : Text cfg A i t) : ∀ c ∈ t, P c := by
  have lit : ∀ {s : Str}, (∀ c ∈ s, c ∈ textBytes) → ∀ c ∈ s, P c := fun h c hs => hP c (h c hs)
  have app : ∀ {a b : Str}, (∀ c ∈ a, P c) → (∀ c ∈ b, P c) → ∀ c ∈ a ++ b, P c := by
    intro a b ha hb c h
    rcases List.mem_append.1 h with h | h
    · exact ha c h
    · exact hb c h
  have last : ∀ i, ∀ c ∈ lastOf (cfg.types i).path, P c := by
    intro i c h
    unfold lastOf at h
    rw [List.getLastD_eq_getLast?] at h
    cases e : (cfg.types i).path.getLast? with
    | none => rw [e] at h; simp at h
    | some s =>
      rw [e] at h
      exact hc.path i s (List.mem_of_getLast? e) c h
  induction h with
  | name _ h _ => exact name_bytes hc (fun c h => hP c ((by decide : ∀ c ∈ nameBytes, c ∈ textBytes) c h)) h
  | emptyName _ _ _ => simp
  | @override i _ h =>
    have key : ∀ t : SiType, overriderTypesName t = [] ∨ overriderTypesName t = b!"SubstrateFixedU64" ∨
        overriderTypesName t = b!"SubstrateFixedI128" := by
      intro t
      unfold overriderTypesName
      split
      · split
        · exact .inr (.inl rfl)
        · split
          · exact .inr (.inr rfl)
          · exact .inl rfl
      · exact .inl rfl
    rcases key (cfg.types i) with e | e | e <;> rw [e]
    · simp
    · exact lit (by decide)
    · exact lit (by decide)
  | primitive h => exact hc.primitive _ _ h
  | primitiveTypes h => exact last _
  | account _ _ _ => exact lit (by decide)
  | wrapper _ _ _ _ _ ih => exact app (app (lit (by decide)) ih) (lit (by decide))
  | newtype _ _ _ _ _ ih => exact ih
  | selfNewtype _ _ _ => exact lit (by decide)
  | arrayZero _ _ => exact lit (by decide)
  | @array _ n _ _ _ _ _ _ ih =>
    exact app (app (app (app (lit (by decide)) ih) (lit (by decide)))
      (lit fun c h => (by decide : ∀ c ∈ b!"0123456789", c ∈ textBytes) c (natToDec_bytes n c h))) (lit (by decide))
  | sequence _ _ _ ih => exact app (app (app (lit (by decide)) (lit (by decide))) ih) (lit (by decide))
  | compact _ _ _ ih => exact app (app (app (lit (by decide)) (lit (by decide))) ih) (lit (by decide))
  | tupleNil _ _ => exact lit (by decide)
  | tuple ps _ _ _ _ ih =>
    refine app (lit (by decide)) ?_
    intro c h
    obtain ⟨s, hs, h⟩ := List.mem_flatten.1 h
    obtain ⟨p, hp, rfl⟩ := List.mem_map.1 hs
    exact ih p hp c h
  | bits _ _ => exact lit (by decide)
  | range _ _ => simp
  | option _ _ _ _ _ _ ih => exact app (app (app (lit (by decide)) (lit (by decide))) ih) (lit (by decide))
  | result _ _ _ _ _ _ _ _ ih1 ih2 => exact app (app (app (app (lit (by decide)) ih1) (lit (by decide))) ih2) (lit (by decide))
  | call _ _ _ => exact lit (by decide)
  | nothing _ _ => exact lit (by decide)
  | dealtPrimitive _ _ => exact lit (by decide)

end

/-! ## Version ranges -/

theorem regCustomKey_special {env : Env} {key : Str} {c : Cls} (h : (35 : UInt8) ∉ key) :
    (regCustomKey env key c).special = env.special := by
  unfold regCustomKey
  rw [splitSep_absent 35 (by decide) h]
  rfl

theorem register_special {cfg : SiCfg} {st st' : SiState} {key : Str} {d : TypeDef} (hr : st.register cfg key d = .ok st')
    (hs : d.v14 = true → d.specVec = 0) (hh : (35 : UInt8) ∉ key) : st'.reg.env.special = st.reg.env.special := by
  have main : (st'.reg.env = st.reg.env ∨ ∃ c, st'.reg.env = regCustomKey st.reg.env (toLower key) c) →
      st'.reg.env.special = st.reg.env.special := by
    rintro (e | ⟨c, e⟩)
    · rw [e]
    · rw [e]; exact regCustomKey_special (hash_lower hh)
  rcases regOne_effect hs (register_eq hr).1 with ⟨_, _, e⟩ | ⟨_, _, _, e⟩ | ⟨_, _, e⟩
  · rw [e]
  · exact main e
  · exact main e

theorem texts_flatten_bytes {cfg : SiCfg} {A : Nat → Prop} {P : UInt8 → Prop} (hc : CfgBytes cfg P) (hP : ∀ c ∈ textBytes, P c) {ks : List Nat}
    {ts : List Str} (h : Texts cfg A ks ts) : ∀ c ∈ ts.flatten, P c := by
  unfold Texts at h
  induction h with
  | nil => simp
  | cons h1 _ ih =>
    intro c h
    simp only [List.flatten_cons, List.mem_append] at h
    rcases h with h | h
    · exact text_bytes hc hP h1 c h
    · exact ih c h

/-- A portable registry without `#` in its names leaves the version ranges alone. -/
theorem step_special {cfg : SiCfg} {A : Nat → Prop} (hu : Unversioned cfg) (hc : CfgBytes cfg (· ≠ 35)) {a b : SiState} (h : Step cfg A a b) :
    b.reg.env.special = a.reg.env.special := by
  have hP : ∀ c ∈ textBytes, c ≠ 35 := by decide
  have nn : ∀ {s : Str}, (∀ c ∈ s, c ≠ 35) → (35 : UInt8) ∉ s := fun h hm => h _ hm rfl
  have nm : ∀ {i n}, nameSiType cfg (cfg.types i) (some i) = .ok n → (35 : UInt8) ∉ n := fun h => nn (name_bytes hc (by decide) h)
  cases h with
  | set => rfl
  | struct _ ht hl hw hn hts hr => have := register_special hr hu (nm hn); exact this
  | enum _ ht hen hn hrows hr => have := register_special hr hu (nm hn); exact this
  | newtype _ ht hnt hn hsub hr => exact register_special (st := SiState.setId a _ _) (d := aliasDef cfg _) hr hu (nm hn)
  | tuple _ ht hne hts hr =>
    have := register_special hr hu (by
      rw [List.mem_append, not_or]
      exact ⟨by decide, nn (texts_flatten_bytes hc hP hts)⟩)
    exact this
  | primitive hp _ hr =>
    refine register_special (st := SiState.setId a _ _) (d := aliasDef cfg _) hr hu ?_
    rw [List.mem_append, not_or]
    refine ⟨by decide, nn ?_⟩
    rcases hp with hp | ⟨hp, rfl⟩
    · exact text_bytes (A := A) hc hP (.primitive hp)
    · exact text_bytes (A := A) hc hP (.primitiveTypes hp)
  | param hk ht hr =>
    refine register_special hr (fun h => by cases h) ?_
    obtain ⟨x, name, hx, ⟨rfl, rfl⟩ | ⟨rfl, rfl⟩, hf⟩ := hk <;> decide
  | runtimeCall _ ht hl hn hr => exact register_special (st := SiState.setId a _ _) hr (fun h => by cases h) (nm hn)

theorem steps_special {cfg : SiCfg} {A : Nat → Prop} (hu : Unversioned cfg) (hc : CfgBytes cfg (· ≠ 35)) {a b : SiState} (h : Steps cfg A a b) :
    b.reg.env.special = a.reg.env.special := by
  induction h with
  | refl => rfl
  | cons h _ ih => rw [ih, step_special hu hc h]

end ScaleGo
