import Verif.Lemmas.Sugar
import Verif.Props.C92

/-! # C93: texts of generic code stand for the types without the marks

English claim: whatever the registry, a type text with the marks of generic source code (`T::`, `<T as Trait>::`, `<T as Config>::`,
`<T>`, `<T, I>`, `VecDeque`) at any depth is encoded and decoded exactly as the text without them. -/

namespace ScaleGo
open _root_.Spec (Shape Part Scale Leaf Names substrate TypeOver SugarOver RustType Means runtimeTypes compactTypes commaText TraitMark GenericMark Marked Sugar)
open ScaleGo.Spec

/-- The two texts are the same to the library. -/
structure Same (env : Env) (r t : Str) : Prop where
  decode : ∀ n ctx st, pau env n ctx r st = pau env n ctx t st
  encode : ∀ n ctx v, enc env n ctx r v = enc env n ctx t v

/-- The full claim. -/
def C93Claim : Prop := ∀ (env : Env) (r t : Str), Sugar (fun _ => True) r t → Same env r t

/-! ## What holds -/

/-- Lookups depend on the rewritten text only. -/
theorem lookup_converted (env : Env) (m : Str) (spec : Int) {r t : Str} (h : convertType r = convertType t) :
    getCodecClass env m spec r = getCodecClass env m spec t := by
  rw [← getCodecClassAux_eq env m spec (r.length + t.length + 1) r (by omega), ← getCodecClassAux_eq env m spec (r.length + t.length + 1) t (by omega)]
  unfold getCodecClassAux
  rw [h]

theorem same_converted (env : Env) {r t : Str} (h : convertType r = convertType t) (hr : toLower r ≠ b!"null") (ht : toLower t ≠ b!"null") :
    Same env r t := by
  constructor
  · intro n ctx st
    cases n with
    | zero => rfl
    | succ n => unfold pau; rw [lookup_converted env _ _ h]
  · intro n ctx v
    cases n with
    | zero => rfl
    | succ n =>
      have nn : ∀ {x : Str}, toLower x ≠ b!"null" → equalFold x b!"Null" = false := fun hx => by
        unfold equalFold
        rw [beq_eq_false_iff_ne]
        exact hx
      unfold enc
      rw [lookup_converted env _ _ h, nn hr, nn ht]

theorem sugar_not_null {N : Names} (hN : Wordy N) {D : Str → Prop} {r t : Str} (h : SugarOver N D r t) : toLower r ≠ b!"null" := by
  intro e
  have key : ∀ {s : Str} {c : UInt8}, c ∈ s → lowerByte c ∉ b!"null" → toLower s ≠ b!"null" := fun hc hn e =>
    hn (by rw [← e]; exact List.mem_map.2 ⟨_, hc, rfl⟩)
  cases h with
  | name h hm =>
    obtain ⟨p, s, h1, h2, rfl⟩ := hm
    rcases h1 with rfl | ⟨rfl | rfl | rfl, -⟩
    · rcases h2 with rfl | ⟨rfl | rfl, -⟩
      · rw [List.nil_append, List.append_nil] at e
        exact over_not_null hN (.name h) e
      · exact key (c := 60) (by simp) (by decide) e
      · exact key (c := 60) (by simp) (by decide) e
    · exact key (c := 58) (by simp) (by decide) e
    · exact key (c := 58) (by simp) (by decide) e
    · exact key (c := 58) (by simp) (by decide) e
  | compact _ _ => exact key (c := 60) (by simp) (by decide) e
  | vec _ => exact key (c := 60) (by simp) (by decide) e
  | deque _ _ => exact key (c := 60) (by simp) (by decide) e
  | option _ => exact key (c := 60) (by simp) (by decide) e
  | array n _ => exact key (c := 91) (by simp) (by decide) e
  | tuple _ _ _ => exact key (c := 40) (by simp) (by decide) e

/-- All marks but those of the later name of the trait are without effect, in every registry and for all names that are words. -/
theorem C93_words_partial (N : Names) (hN : Wordy N) (env : Env) (r t : Str)
    (h : SugarOver N (· ∈ [b!"T::", b!"VecDeque<", b!"<T>", b!"<T as Trait>::", b!"<T, I>"]) r t) : Same env r t :=
  same_converted env (convert_sugar hN h) (sugar_not_null hN h) (over_not_null hN (sugar_over h))

/-- In particular for the names of Substrate. -/
theorem C93_partial (env : Env) (r t : Str) (h : Sugar (· ∈ [b!"T::", b!"VecDeque<", b!"<T>", b!"<T as Trait>::", b!"<T, I>"]) r t) : Same env r t :=
  C93_words_partial substrate substrate_wordy env r t h

/-- With the built-in types, values of generic type texts have the encodings of what the texts mean; types of other names may have been
registered. -/
theorem C93_values_partial (env : Env) (ctx : Ctx) (ectx : ECtx) (raw ty : Str) (v r : Val) (b : Str) (hB : BuiltIn env)
    (hs : Sugar (· ∈ [b!"T::", b!"VecDeque<", b!"<T>", b!"<T as Trait>::", b!"<T, I>"]) raw ty)
    (hm : ∀ n ∈ ownModules, ¬ SameName ctx.module n) (h : Scale Read Supported ty v r b) :
    Encodes env ectx raw v b ∧ Decodes env ctx raw b r [] := by
  obtain ⟨⟨N, h1⟩, ⟨M, h2⟩⟩ := C92_registry_partial env ctx ectx ty ty v r b hB hm h (.inl rfl)
  have e := C93_partial env raw ty hs
  exact ⟨⟨N, fun n hn => by rw [e.encode]; exact h1 n hn⟩, M, fun n hn pre suf cs hl => by rw [e.decode]; exact h2 n hn pre suf cs hl⟩

/-! ## What does not -/

/-- The tuple of the next theorem is split within its parentheses. -/
theorem C93_config (ext : Ext) (spec : Int) : Resolves (loadedEnv ext) [] spec b!"(u32, (<T as Config>::u16, u8))"
    (.struct (some [(b!"col1", b!"u32"), (b!"col2", b!"(<T as Config>::u16"), (b!"col3", b!"u8)")])) [] := by
  unfold Resolves loadedEnv; rw [loadedReg_fast]; kernel_rfl

theorem config_sugar : Sugar (fun _ => True) b!"(u32, (<T as Config>::u16, u8))" b!"(u32, (u16, u8))" := by
  have plain : ∀ {w : Str} {sh}, (w, sh) ∈ runtimeTypes → Sugar (fun _ => True) w w := fun {w} {_} h => .name h ⟨[], [], .inl rfl, .inl rfl, by simp⟩
  have h0 : Sugar (fun _ => True) b!"<T as Config>::u16" b!"u16" :=
    .name (sh := .uint 2) (by simp [substrate, runtimeTypes]) ⟨b!"<T as Config>::", [], .inr ⟨.inr (.inr rfl), trivial⟩, .inl rfl, rfl⟩
  have h1 : Sugar (fun _ => True) b!"(<T as Config>::u16, u8)" b!"(u16, u8)" :=
    .tuple [(b!"<T as Config>::u16", b!"u16"), (b!"u8", b!"u8")] (by simp) (forall_pair h0 (plain (sh := .uint 1) (by simp [runtimeTypes])))
  exact .tuple [(b!"u32", b!"u32"), (b!"(<T as Config>::u16, u8)", b!"(u16, u8)")] (by simp) (forall_pair (plain (sh := .uint 4) (by simp [runtimeTypes])) h1)

/-- The full claim is false: a tuple within a tuple cannot be decoded when its first member is a type of the trait `Config`. -/
theorem C93_claim_false : ¬ C93Claim := by
  intro hc
  have h := (hc (loadedEnv dummyExt) _ _ config_sugar).decode 10 ⟨[], 0, none⟩ ⟨⟨[1, 0, 0, 0, 2, 0, 3], 0⟩, []⟩
  have h1 : pau (loadedEnv dummyExt) 10 ⟨[], 0, none⟩ b!"(u32, (<T as Config>::u16, u8))" ⟨⟨[1, 0, 0, 0, 2, 0, 3], 0⟩, []⟩ = .panic := by
    unfold loadedEnv; rw [loadedReg_fast]; kernel_rfl
  have h2 : pau (loadedEnv dummyExt) 10 ⟨[], 0, none⟩ b!"(u32, (u16, u8))" ⟨⟨[1, 0, 0, 0, 2, 0, 3], 0⟩, []⟩ =
      .ok (.map [(b!"col1", .uint 4 1), (b!"col2", .map [(b!"col1", .uint 2 2), (b!"col2", .int 3)])], ⟨⟨[1, 0, 0, 0, 2, 0, 3], 7⟩, []⟩) := by
    unfold loadedEnv; rw [loadedReg_fast]; kernel_rfl
  rw [h1, h2] at h
  cases h

/-! ## An example -/

/-- The marks of a type text of the module `Democracy`. -/
theorem deposit_sugar : Sugar (· ∈ [b!"T::", b!"VecDeque<", b!"<T>", b!"<T as Trait>::", b!"<T, I>"])
    b!"VecDeque<(PropIndex, <T as Trait>::Hash, Option<BalanceOf<T, I>>, T::AccountId)>" b!"Vec<(PropIndex, Hash, Option<BalanceOf>, AccountId)>" := by
  have h1 : Sugar (· ∈ [b!"T::", b!"VecDeque<", b!"<T>", b!"<T as Trait>::", b!"<T, I>"]) b!"PropIndex" b!"PropIndex" :=
    .name (sh := .uint 4) (by simp [substrate, runtimeTypes]) ⟨[], [], .inl rfl, .inl rfl, rfl⟩
  have h2 : Sugar (· ∈ [b!"T::", b!"VecDeque<", b!"<T>", b!"<T as Trait>::", b!"<T, I>"]) b!"<T as Trait>::Hash" b!"Hash" :=
    .name (sh := .hash 32) (by simp [substrate, runtimeTypes]) ⟨b!"<T as Trait>::", [], .inr ⟨.inr (.inl rfl), by decide⟩, .inl rfl, rfl⟩
  have h3 : Sugar (· ∈ [b!"T::", b!"VecDeque<", b!"<T>", b!"<T as Trait>::", b!"<T, I>"]) b!"Option<BalanceOf<T, I>>" b!"Option<BalanceOf>" :=
    .option (r := b!"BalanceOf<T, I>") (t := b!"BalanceOf")
      (.name (sh := .balance) (by simp [substrate, runtimeTypes]) ⟨[], b!"<T, I>", .inl rfl, .inr ⟨.inr rfl, by decide⟩, rfl⟩)
  have h4 : Sugar (· ∈ [b!"T::", b!"VecDeque<", b!"<T>", b!"<T as Trait>::", b!"<T, I>"]) b!"T::AccountId" b!"AccountId" :=
    .name (sh := .account) (by simp [substrate, runtimeTypes]) ⟨b!"T::", [], .inr ⟨.inl rfl, by decide⟩, .inl rfl, rfl⟩
  refine .deque (by decide) (.tuple [(b!"PropIndex", b!"PropIndex"), (b!"<T as Trait>::Hash", b!"Hash"), (b!"Option<BalanceOf<T, I>>", b!"Option<BalanceOf>"),
    (b!"T::AccountId", b!"AccountId")] (by simp) ?_)
  intro p hp
  rcases List.mem_cons.1 hp with rfl | hp
  · exact h1
  rcases List.mem_cons.1 hp with rfl | hp
  · exact h2
  rcases List.mem_cons.1 hp with rfl | hp
  · exact h3
  rw [List.mem_singleton.1 hp]
  exact h4

/-- They are without effect. -/
example (env : Env) (n : Nat) (ctx : Ctx) (st : St) :
    pau env n ctx b!"VecDeque<(PropIndex, <T as Trait>::Hash, Option<BalanceOf<T, I>>, T::AccountId)>" st =
      pau env n ctx b!"Vec<(PropIndex, Hash, Option<BalanceOf>, AccountId)>" st := (C93_partial env _ _ deposit_sugar).decode n ctx st

end ScaleGo
