import Verif.Lemmas.PortableEntries
import Verif.Props.C64

/-! # Texts of portable types are looked up as described -/

set_option linter.unusedSectionVars false

namespace ScaleGo
open _root_.Spec (Shape Payload labelled numbered payload primitiveShapes crateShapes compactShapes byteNames Layer)
open ScaleGo.Spec

section
variable {cfg : SiCfg} {A : Nat → Prop} {base : Str → Option Cls}

/-- Only the table of types changes. -/
def SameRest (a b : Env) : Prop := b.special = a.special ∧ b.ext = a.ext

theorem regCustomKey_rest {env : Env} {key : Str} {c : Cls} (h : (35 : UInt8) ∉ key) : SameRest env (regCustomKey env key c) := by
  unfold regCustomKey
  rw [splitSep_absent 35 (by decide) h]
  exact ⟨rfl, rfl⟩

theorem register_rest {st st' : SiState} {key : Str} {d : TypeDef} (hs : d.v14 = true → d.specVec = 0)
    (hr : st.register cfg key d = .ok st') (hh : (35 : UInt8) ∉ key) : SameRest st.reg.env st'.reg.env := by
  have main : (st'.reg.env = st.reg.env ∨ ∃ c, st'.reg.env = regCustomKey st.reg.env (toLower key) c) → SameRest st.reg.env st'.reg.env := by
    rintro (e | ⟨c, e⟩)
    · rw [e]; exact ⟨rfl, rfl⟩
    · rw [e]; exact regCustomKey_rest (hash_lower hh)
  rcases regOne_effect hs (register_eq hr).1 with ⟨_, _, e⟩ | ⟨_, _, _, e⟩ | ⟨_, _, e⟩
  · rw [e]; exact ⟨rfl, rfl⟩
  · exact main e
  · exact main e

theorem step_rest (hT : Tidy cfg A base) {a b : SiState} (h : Step cfg A a b) : SameRest a.reg.env b.reg.env := by
  have hu := hT.unversioned
  cases h with
  | set => exact ⟨rfl, rfl⟩
  | struct _ ht hl hw hn hts hr => have := register_rest (d := structDef cfg _) hu hr (name_hash hT hn); exact this
  | enum _ ht hen hn hrows hr => have := register_rest (d := enumDef cfg _) hu hr (name_hash hT hn); exact this
  | newtype _ ht hnt hn hsub hr => exact register_rest (st := SiState.setId a _ _) (d := aliasDef cfg _) hu hr (name_hash hT hn)
  | tuple hA ht hne hts hr =>
    have := register_rest (d := structDef cfg _) hu hr (clean_hash (text_clean hT.names (texts_tuple hA ht hne hts)))
    exact this
  | primitive hp _ hr =>
    refine register_rest (st := SiState.setId a _ _) (d := aliasDef cfg _) hu hr ?_
    have pl : ∀ {s : Str}, PlainName s → (35 : UInt8) ∉ b!"primitive_types:" ++ s := by
      intro s h hm
      rcases List.mem_append.1 hm with hm | hm
      · exact absurd hm (by decide)
      · exact absurd (List.all_eq_true.1 h.2 _ hm) (by decide)
    rcases hp with hp | ⟨hp, rfl⟩
    · exact pl (hT.names.primitive _ _ hp).1.1
    · exact pl (hT.names.segments _ _ (lastOf_mem (by intro e'; rw [e'] at hp; cases hp))).1
  | param hk' ht hr =>
    refine register_rest (fun h => by cases h) hr ?_
    obtain ⟨x, name, hx, ⟨rfl, rfl⟩ | ⟨rfl, rfl⟩, hf⟩ := hk' <;> decide
  | runtimeCall _ ht hl hn hr => exact register_rest (st := SiState.setId a _ _) (fun h => by cases h) hr (name_hash hT hn)

/-- Texts that are understood by their form. -/
inductive Formed (cfg : SiCfg) (A : Nat → Prop) : Str → Shape Nat → Prop
  | bytes {p} : p ∈ byteNames → Formed cfg A (generic b!"Vec" p) (.bytes .bytes)
  | seq {k s} : Text cfg A k s → toLower s ≠ b!"u8" → Formed cfg A (generic b!"Vec" s) (.seq k)
  | byteArray {n p} : p ∈ byteNames → n ≠ 0 → n < 2 ^ 63 → Formed cfg A (arrayText p 1 n) (.byteArray n)
  | array {n k s} : n ≠ 0 → n < 2 ^ 63 → Low cfg A k → Text cfg A k s → toLower s ≠ b!"u8" → Formed cfg A (arrayText s 1 n) (.array n k)
  | compact {s sh} : (s, sh) ∈ compactShapes → Formed cfg A (generic b!"compact" s) sh
  | wrapped {k s w sh} : Text cfg A k s → Covered cfg A k w → (w, sh) ∈ wrappedShapes → Formed cfg A (generic b!"compact" s) sh
  | option {q s} : Text cfg A q s → s ≠ b!"bool" → Formed cfg A (generic b!"option" s) (.option q)
  | result {q q' s s'} : Text cfg A q s → Text cfg A q' s' → (44 : UInt8) ∉ s → (44 : UInt8) ∉ s' →
      Formed cfg A (generic b!"Result" (s ++ b!"," ++ s')) (.result q q')

theorem own_aliased {i : Nat} {sh : Shape Nat} (h : OwnShape cfg A i sh) : Aliased cfg A sh := by cases h <;> exact trivial

/-- The state after all portable types have been entered. -/
structure Loaded (cfg : SiCfg) (A : Nat → Prop) (base : Env) (st : SiState) : Prop where
  entries : ∀ t sh, View cfg A t sh → ∀ c, st.reg.env.reg (toLower t) = some c →
    base.reg (toLower t) = some c ∨ Def cfg A base.reg (toLower t) c
  kept : ∀ k c, base.reg k = some c → Lasting k → st.reg.env.reg k = some c
  vec : ∀ s, st.reg.env.reg (b!"vec<" ++ s) = none
  ids : ∀ i t, st.ids i = some t → Text cfg A i t
  named : ∀ t sh, View cfg A t sh → (st.reg.env.reg (toLower t)).isSome = true ∨ Formed cfg A t sh
  rest : SameRest base st.reg.env
  generics : ∀ k, (60 : UInt8) ∈ k ∨ (91 : UInt8) ∈ k → ¬ b!"tuple:" <+: k → ¬ b!"primitive_types:" <+: k → st.reg.env.reg k = base.reg k

theorem process_loaded (hE : EarlyOK cfg A) {fuel : Nat} {reg : RegState} {st : SiState}
    (h : registerTypes cfg fuel ⟨reg, fun _ => none⟩ = .ok st) (hT : Tidy cfg A reg.env.reg) (hS : Stock reg.env.reg)
    (hv : cfg.v14 = true → ∀ n, reg.v14 n = none) : Loaded cfg A reg.env st := by
  have h0 : ∀ i t, (⟨reg, fun _ => none⟩ : SiState).ids i = some t → Text cfg A i t := fun _ _ h => by cases h
  have hs := registerTypes_steps hE h h0
  have ht := registerTypes_text hE h h0
  have hall : EnvSound cfg A reg.env.reg st ∧ Complete cfg A st ∧ SameRest reg.env st.reg.env := by
    refine hs.inv (Q := fun st => EnvSound cfg A reg.env.reg st ∧ Complete cfg A st ∧ SameRest reg.env st.reg.env) ?_ ?_
    · intro a b hs hp
      have := step_rest hT hs
      exact ⟨EnvSound.step hT.unversioned hs hp.1, Complete.step hT hS hs hp.1 hp.2.1, this.1.trans hp.2.2.1, this.2.trans hp.2.2.2⟩
    · refine ⟨⟨fun k c h => .inl h, fun _ h => h⟩, ⟨?_, ?_, ?_, ?_⟩, rfl, rfl⟩
      · intro h14 k _ _ h; rw [hv h14] at h; cases h
      · intro _ _ _ h; cases h
      · rintro _ _ _ _ (⟨h14, h⟩ | h)
        · rw [hv h14] at h; cases h
        · cases h
      · intro _ _ _ _ _ h; cases h
  obtain ⟨hsound, hc, hrest⟩ := hall
  have some_id : ∀ {i}, (cfg.types i).typ ≠ .none → (cfg.types i).typ ≠ .range → ∃ t, st.ids i = some t := by
    intro i h1 h2
    refine ht.2 i ?_ h2
    by_contra hlt
    exact h1 (hT.closed i (by omega))
  refine ⟨fun t _ _ c h => hsound.entry _ c h, fun k c h hk => entry_lasts hT hsound h hk, entry_vec hT hS hsound, ht.1.text, ?_, hrest,
    fun _ h1 h2 h3 => entry_generic hT hsound h1 h2 h3⟩
  intro t sh hv
  have hcv := view_convert hT.names hv
  have hcl := view_clean hT.names hv
  cases hv with
  | stock h =>
    obtain ⟨⟨k, c⟩, h1, h2⟩ := List.mem_map.1 ((by decide +kernel : ∀ t ∈ stockNames, toLower t ∈ stockClasses.map Prod.fst) t (stock_name h))
    rw [← h2, entry_kept hT hS hsound h1]
    exact .inl rfl
  | own h1 h2 h3 h4 h5 =>
    left
    have h60 : (60 : UInt8) ∉ t := fun h => (name_plain hT.names h3 60 h).1 rfl
    have h91 : (91 : UInt8) ∉ t := fun h => (name_plain hT.names h3 91 h).2.1 rfl
    have nb : ¬ (t = b!"Vec<U8>" ∨ t = b!"Vec<u8>") := by rintro (rfl | rfl) <;> exact h60 (by decide)
    obtain ⟨u, hu⟩ := some_id (by rcases h2 with ⟨fs, h', _⟩ | ⟨vs, p, ps, h', _⟩ <;> rw [h'] <;> simp)
      (by rcases h2 with ⟨fs, h', _⟩ | ⟨vs, p, ps, h', _⟩ <;> rw [h'] <;> simp)
    have := text_ownName (ht.1.text _ _ hu) h1 h2
    rw [h3] at this
    cases this
    have := hc.avail _ _ _ hu (.own h1 h2 h5) (own_aliased h5)
    unfold Avail at this
    rcases hcv with ⟨e, _⟩ | e
    · exact absurd e nb
    · rw [e, alias_name hcl h60 h91] at this
      rcases this with h | ⟨c, h⟩
      · exact h
      · cases h
  | renamed h1 h2 h3 h4 h5 h6 h7 h8 =>
    left
    obtain ⟨u, hu⟩ := some_id (by rw [h3]; simp) (by rw [h3]; simp)
    exact hc.renamed _ _ _ ⟨h1, h2, h3, h4, h5, h6, _, h7, h8⟩ (.inr (by rw [hu]; rfl))
  | bytes h => exact .inr (.bytes h)
  | seq h h1 => exact .inr (.seq h h1)
  | byteArray h0 h1 h2 => exact .inr (.byteArray h0 h1 h2)
  | array h1 h2 h3 h4 h5 => exact .inr (.array h1 h2 h3 h4 h5)
  | compact h => exact .inr (.compact h)
  | wrapped h1 h2 h3 _ => exact .inr (.wrapped h1 h2 h3)
  | tuple h1 h2 h3 h4 h5 =>
    left
    obtain ⟨u, hu⟩ := some_id (by rw [h2]; simp) (by rw [h2]; simp)
    obtain ⟨us, h6, h7⟩ := hc.tuple _ _ h1 h2 h3 (by rw [hu]; rfl)
    rw [lower_tuple, h4 _ _ h5 h6, ← lower_tuple]
    exact h7
  | option h h1 => exact .inr (.option h h1)
  | result h h' h1 h2 => exact .inr (.result h h' h1 h2)

theorem stock_kept {base : Env} {st : SiState} (hS : Stock base.reg) (hL : Loaded cfg A base st) {k : Str} {c : Cls}
    (hb : (k, c) ∈ stockClasses) : st.reg.env.reg k = some c :=
  hL.kept k c (hS.entry _ hb) ((by decide +kernel : ∀ p ∈ stockClasses, Lasting p.1) _ hb)

/-- The class of a text in every module that does not override it and for every version. -/
def LooksUp (env : Env) (t : Str) (c : Cls) (s : Str) : Prop :=
  ∀ m spec, NotOverridden m (convertType t) → Resolves env m spec t c s

/-- The module overrides none of the names of the metadata. -/
def Untouched (cfg : SiCfg) (m : Str) : Prop :=
  ∀ i n, nameSiType cfg (cfg.types i) (some i) = .ok n → n ≠ [] → NotOverridden m n

/-- No module overrides the text. -/
def NeverOverridden (t : Str) : Prop := ∀ row ∈ typesModules, ∀ p ∈ row.2, ¬ SameName p.1 t

instance (t : Str) : Decidable (NeverOverridden t) :=
  inferInstanceAs (Decidable (∀ row ∈ typesModules, ∀ p ∈ row.2, ¬ SameName p.1 t))

theorem NeverOverridden.apply {t : Str} (h : NeverOverridden t) (m : Str) : NotOverridden m t := fun row hr _ => h row hr

/-- Only plain names are overridden. -/
theorem never_symbol {t : Str} {c : UInt8} (hc : c ∈ [58, 60, 91]) (h : c ∈ t) : NeverOverridden t := by
  intro row hr p hp e
  rw [← toLower_eq_iff] at e
  have key : ∀ row ∈ typesModules, ∀ p ∈ row.2, ∀ c ∈ [58, 60, 91], c ∉ toLower p.1 := by decide +kernel
  refine key row hr p hp c hc ?_
  rw [e]
  have : toLower [c] = [c] := (by decide : ∀ c ∈ [(58 : UInt8), 60, 91], toLower [c] = [c]) c hc
  obtain ⟨a, b, rfl⟩ := List.append_of_mem h
  show c ∈ (a ++ c :: b).map _
  rw [List.map_append, List.map_cons]
  have e2 : [lowerByte c] = [c] := this
  simp [(List.cons.inj e2).1]

theorem resolves_converted {env : Env} {m t u : Str} {spec : Int} {c : Cls} (hv : convertType t = u) (hne : u ≠ [])
    (hm : NotOverridden m u) (he : Entered env spec u c) : Resolves env m spec t c [] := by
  have hi : getCodecInstant env m u spec = .ok (some c) := by
    unfold getCodecInstant
    simp only [moduleType_notOverridden hm, toLower_idem]
    unfold Entered at he
    cases e : findSpecial spec (env.special (toLower u)) with
    | some c' => rw [e] at he; simpa using he
    | none =>
      rw [e] at he
      simp only [Option.none_or] at he
      simp only [he]
  unfold Resolves getCodecClass getCodecClassAux
  simp only [hv, if_neg hne]
  unfold lookupWhole
  split
  · rw [hi]; rfl
  · next hend =>
    have : partsOf u = none := by unfold partsOf; rw [if_neg hend]
    unfold lookupParts
    rw [this, hi]
    rfl

theorem notOverridden_nil (t : Str) : NotOverridden [] t := by
  intro row hr h
  exact absurd h ((by decide +kernel : ∀ row ∈ typesModules, ¬ SameName row.1 []) row hr)

section
variable {env0 : Env} {st : SiState} (hT : Tidy cfg A env0.reg) (hS : Stock env0.reg) (hL : Loaded cfg A env0 st)
  (hsp : env0.special = fun _ => []) (hj : ReadsRows env0.ext)
include hT hS hL hsp

omit hT hS in
theorem looksUp_entry {t u : Str} {c : Cls} (hv : convertType t = u) (hne : u ≠ []) (hc : st.reg.env.reg (toLower u) = some c) :
    LooksUp st.reg.env t c [] := by
  intro m spec hm
  refine resolves_converted hv hne (hv ▸ hm) ?_
  unfold Entered
  rw [hL.rest.1, hsp]
  exact hc

theorem looksUp_bytes {t : Str} (h : (t = b!"Vec<U8>" ∨ t = b!"Vec<u8>") ∨ t = b!"Bytes" ∨ t = b!"vec<u8>") : LooksUp st.reg.env t .bytes [] := by
  refine looksUp_entry hL hsp (u := b!"Bytes") ?_ (by simp) (stock_kept hS hL (c := .bytes) (by decide +kernel))
  rcases h with (rfl | rfl) | rfl | rfl <;> kernel_rfl

omit hT hS in
theorem looksUp_wrapper {w a : Str} {c : Cls} (hw : PlainName w) (hn : NeverOverridden w) (ha : a ≠ []) (hv : Verbatim (generic w a))
    (hu : st.reg.env.reg (toLower (generic w a)) = none) (hc : st.reg.env.reg (toLower w) = some c) :
    LooksUp st.reg.env (generic w a) c a := by
  intro m spec hm
  rw [convertType_verbatim hv] at hm
  refine C36_wrapper_partial _ m spec w a c hw ha hv (hn.apply m) hm ⟨?_, hu⟩ ?_
  · rw [hL.rest.1, hsp]; rfl
  · unfold Entered
    rw [hL.rest.1, hsp]
    exact hc

omit hT hS in
theorem looksUp_array {s : Str} {n : Nat} (hs : Trimmed s) (hn : n < 2 ^ 63) (hv : Verbatim (arrayText s 1 n))
    (hu : st.reg.env.reg (toLower (arrayText s 1 n)) = none) : LooksUp st.reg.env (arrayText s 1 n) (.fixedArray n (toLower s)) [] := by
  intro m spec hm
  have := C64_resolves st.reg.env m spec s 1 n hs hn ⟨hv, by rwa [convertType_verbatim hv] at hm, by rw [hL.rest.1, hsp]; rfl, hu⟩
  rw [← toLower_eq_spec] at this
  exact this

theorem fixed_words :
    (∀ t ∈ [b!"U64", b!"u64"], ∃ s, Resolves st.reg.env [] 0 t .u64 s) ∧ ∀ t ∈ [b!"U128", b!"u128"], ∃ s, Resolves st.reg.env [] 0 t .u128 s :=
  ⟨List.forall_mem_cons.2 ⟨⟨[], looksUp_entry hL hsp (u := b!"U64") (by kernel_rfl) (by simp) (stock_kept hS hL (c := .u64) (by decide +kernel)) [] 0
      (notOverridden_nil _)⟩, List.forall_mem_cons.2 ⟨⟨[], looksUp_entry hL hsp (u := b!"u64") (by kernel_rfl) (by simp)
      (stock_kept hS hL (c := .u64) (by decide +kernel)) [] 0 (notOverridden_nil _)⟩, List.forall_mem_nil _⟩⟩,
    List.forall_mem_cons.2 ⟨⟨[], looksUp_entry hL hsp (u := b!"U128") (by kernel_rfl) (by simp) (stock_kept hS hL (c := .u128) (by decide +kernel)) [] 0
      (notOverridden_nil _)⟩, List.forall_mem_cons.2 ⟨⟨[], looksUp_entry hL hsp (u := b!"u128") (by kernel_rfl) (by simp)
      (stock_kept hS hL (c := .u128) (by decide +kernel)) [] 0 (notOverridden_nil _)⟩, List.forall_mem_nil _⟩⟩⟩

include hj

omit hT hS hsp in
theorem reads_rows : ReadsRows st.reg.env.ext := by rw [hL.rest.2]; exact hj

/-- Every text is looked up as what it stands for, if the number types that may be compact are. -/
theorem view_looksUp_of {t : Str} {sh : Shape Nat} (hf : WordsFor cfg A st.reg.env sh) (hv : View cfg A t sh) :
    ∃ c s, LooksUp st.reg.env t c s ∧ Stands cfg A st.reg.env c s sh := by
  have hw := fixed_words hT hS hL hsp
  have hcl := view_clean hT.names hv
  rcases view_convert hT.names hv with ⟨hb, rfl⟩ | hcv
  · exact ⟨_, _, looksUp_bytes hT hS hL hsp (.inl hb), bytes_stands⟩
  have hver : Verbatim t := by
    refine hcl.verbatim fun h => ?_
    rw [hcl.convert_bytes h] at hcv
    subst hcv
    exact absurd h (by decide)
  cases hr : st.reg.env.reg (toLower t) with
  | some c =>
    exact ⟨c, [], looksUp_entry hL hsp hcv hcl.ne_nil hr, entry_stands hT hS (reads_rows hL hj) hf hv (hL.entries _ _ hv _ hr)⟩
  | none =>
    rcases hL.named t sh hv with h | h
    · rw [hr] at h; cases h
    cases h with
    | @bytes p h =>
      refine ⟨_, _, looksUp_bytes hT hS hL hsp (.inl ?_), bytes_stands⟩
      simp only [byteNames, List.mem_cons, List.not_mem_nil, or_false] at h
      rcases h with rfl | rfl
      · exact .inl rfl
      · exact .inr rfl
    | @seq k s h h1 =>
      refine ⟨.vec [], s, looksUp_wrapper hL hsp (by decide +kernel) (by decide +kernel) (text_clean hT.names h).ne_nil hver hr
        (stock_kept hS hL (by decide +kernel)), .seq s, ⟨rfl, rfl⟩, s, rfl, spelled_text h⟩
    | byteArray h0 h1 h2 =>
      exact ⟨_, [], looksUp_array hL hsp (byte_clean h0).trimmed h2 hver hr, byteArray_stands h1 (by rw [toLower_idem]; exact byte_lower h0)⟩
    | @array n k s h1 h2 h3 h4 h5 =>
      exact ⟨_, [], looksUp_array hL hsp (text_clean hT.names h4).trimmed h2 hver hr, array_stands ⟨s, h4, .inr (.inr ⟨h3, rfl⟩)⟩
        (by rw [toLower_idem]; exact h5)⟩
    | @compact s sh h =>
      have hs := compact_clean _ h
      refine ⟨.compact [], s, looksUp_wrapper hL hsp (by decide +kernel) (by decide +kernel) hs.ne_nil hver hr (stock_kept hS hL (by decide +kernel)), ?_⟩
      simp only [compactShapes, List.mem_cons, Prod.mk.injEq, List.not_mem_nil, or_false] at h
      rcases h with ⟨rfl, rfl⟩ | ⟨rfl, rfl⟩ | ⟨rfl, rfl⟩ | ⟨rfl, rfl⟩ | ⟨rfl, rfl⟩ | ⟨rfl, rfl⟩
      · rw [show toLower (generic b!"compact" b!"U32") = b!"compact<u32>" by decide,
          stock_kept hS hL (c := .compactU32) (by decide +kernel)] at hr
        cases hr
      · obtain ⟨s, hs⟩ := hw.1 b!"U64" (by decide)
        exact ⟨.compact (2 ^ 64) false, ⟨[], .u64, s, rfl, by decide, by decide, hs⟩, rfl⟩
      · obtain ⟨s, hs⟩ := hw.2 b!"U128" (by decide)
        exact ⟨.compact (2 ^ 128) true, ⟨[], .u128, s, rfl, by decide, by decide, hs⟩, rfl⟩
      · rw [show toLower (generic b!"compact" b!"u32") = b!"compact<u32>" by decide,
          stock_kept hS hL (c := .compactU32) (by decide +kernel)] at hr
        cases hr
      · obtain ⟨s, hs⟩ := hw.1 b!"u64" (by decide)
        exact ⟨.compact (2 ^ 64) false, ⟨[], .u64, s, rfl, by decide, by decide, hs⟩, rfl⟩
      · obtain ⟨s, hs⟩ := hw.2 b!"u128" (by decide)
        exact ⟨.compact (2 ^ 128) true, ⟨[], .u128, s, rfl, by decide, by decide, hs⟩, rfl⟩
    | @wrapped k s w sh h1 h2 h3 =>
      have hs := (text_clean hT.names h1).ne_nil
      exact ⟨.compact [], s, looksUp_wrapper hL hsp (by decide +kernel) (by decide +kernel) hs hver hr (stock_kept hS hL (by decide +kernel)),
        wrapped_stands hf h1 h2 h3 (.inl rfl) hs (by simp [effSub, hs])⟩
    | @option q s h h1 =>
      have hs := (text_clean hT.names h).ne_nil
      have e : effSub [] s = s := by unfold effSub; rw [if_neg hs]
      exact ⟨.option [], s, looksUp_wrapper hL hsp (by decide +kernel) (by decide +kernel) hs hver hr (stock_kept hS hL (by decide +kernel)),
        .option s, ⟨hs, h1, [], rfl, e, e⟩, s, rfl, spelled_text h⟩
    | @result q q' s s' h h' h1 h2 =>
      have hs : s ++ b!"," ++ s' ≠ [] := by simp
      have e : effSub [] (s ++ b!"," ++ s') = s ++ b!"," ++ s' := by unfold effSub; rw [if_neg hs]
      exact ⟨.result [], s ++ b!"," ++ s', looksUp_wrapper hL hsp (by decide +kernel) (by decide +kernel) hs hver hr
        (stock_kept hS hL (by decide +kernel)), .result s s', ⟨[], rfl, e, e⟩, s, s', rfl, spelled_text h, spelled_text h', h1, h2⟩

/-- Every text in lower case is looked up as what it stands for, if the number types that may be compact are. -/
theorem lower_looksUp_of {t : Str} {sh : Shape Nat} (hf : WordsFor cfg A st.reg.env sh) (hv : View cfg A t sh) (hl : LowShape cfg A sh) :
    ∃ c s, LooksUp st.reg.env (toLower t) c s ∧ Stands cfg A st.reg.env c s sh := by
  have hw := fixed_words hT hS hL hsp
  have hcl := view_clean hT.names hv
  rcases view_lower hT.names hv with ⟨hb, rfl⟩ | hnv
  · exact ⟨_, _, looksUp_bytes hT hS hL hsp (.inr (.inr (by rcases hb with rfl | rfl <;> rfl))), bytes_stands⟩
  have hver : Verbatim (toLower t) := by
    refine hcl.verbatim_lower fun h => hnv ?_
    rw [← toLower_eq_iff] at h
    rw [h]; decide
  have hne : toLower t ≠ [] := by
    have := hcl.ne_nil
    cases t with
    | nil => exact absurd rfl this
    | cons x u => simp [toLower]
  have low : ∀ {k s}, Low cfg A k → Text cfg A k s → Spelled cfg A k (toLower s) := fun hk h => ⟨_, h, .inr (.inr ⟨hk, rfl⟩)⟩
  have lne : ∀ {s : Str}, s ≠ [] → toLower s ≠ [] := fun {s} h => by
    cases s with
    | nil => exact absurd rfl h
    | cons x u => simp [toLower]
  cases hr : st.reg.env.reg (toLower t) with
  | some c =>
    exact ⟨c, [], looksUp_entry hL hsp (convertType_verbatim hver) hne (by rw [toLower_idem]; exact hr),
      entry_stands hT hS (reads_rows hL hj) hf hv (hL.entries _ _ hv _ hr)⟩
  | none =>
    rcases hL.named t sh hv with h | h
    · rw [hr] at h; cases h
    rw [← toLower_idem] at hr
    cases h with
    | @bytes p h => exact absurd (by simp only [byteNames, List.mem_cons, List.not_mem_nil, or_false] at h; rcases h with rfl | rfl <;> rfl) hnv
    | @seq k s h h1 =>
      have hs := lne (text_clean hT.names h).ne_nil
      rw [lower_generic] at hver hr ⊢
      exact ⟨.vec [], toLower s, looksUp_wrapper hL hsp (by decide +kernel) (by decide +kernel) hs hver hr
        (stock_kept hS hL (by decide +kernel)), .seq (toLower s), ⟨rfl, rfl⟩, _, rfl, low hl h⟩
    | @byteArray n p h0 h1 h2 =>
      rw [lower_arrayText, byte_lower h0] at hver hr ⊢
      exact ⟨_, [], looksUp_array hL hsp (byte_clean (p := b!"u8") (by decide)).trimmed h2 hver hr, byteArray_stands h1 (by decide)⟩
    | @array n k s h1 h2 h3 h4 h5 =>
      rw [lower_arrayText] at hver hr ⊢
      have := looksUp_array hL hsp (trimmed_lower (text_clean hT.names h4).trimmed) h2 hver hr
      rw [toLower_idem] at this
      exact ⟨_, [], this, array_stands (low hl h4) (by rw [toLower_idem]; exact h5)⟩
    | @compact s sh h =>
      have hs := lne (compact_clean _ h).ne_nil
      rw [lower_generic] at hver hr ⊢
      refine ⟨.compact [], toLower s, looksUp_wrapper hL hsp (by decide +kernel) (by decide +kernel) hs hver hr
        (stock_kept hS hL (by decide +kernel)), ?_⟩
      have h32 : ∀ {s : Str}, toLower (generic (toLower b!"compact") (toLower s)) = b!"compact<u32>" →
          st.reg.env.reg (toLower (generic (toLower b!"compact") (toLower s))) ≠ none := by
        intro s e h
        rw [e, stock_kept hS hL (c := .compactU32) (by decide +kernel)] at h
        cases h
      have h64 : Stands cfg A st.reg.env (.compact []) b!"u64" (.compact (2 ^ 64) false) := by
        obtain ⟨s, hs⟩ := hw.1 b!"u64" (by decide)
        exact ⟨.compact (2 ^ 64) false, ⟨[], .u64, s, rfl, by decide, by decide, hs⟩, rfl⟩
      have h128 : Stands cfg A st.reg.env (.compact []) b!"u128" (.compact (2 ^ 128) true) := by
        obtain ⟨s, hs⟩ := hw.2 b!"u128" (by decide)
        exact ⟨.compact (2 ^ 128) true, ⟨[], .u128, s, rfl, by decide, by decide, hs⟩, rfl⟩
      simp only [compactShapes, List.mem_cons, Prod.mk.injEq, List.not_mem_nil, or_false] at h
      rcases h with ⟨rfl, rfl⟩ | ⟨rfl, rfl⟩ | ⟨rfl, rfl⟩ | ⟨rfl, rfl⟩ | ⟨rfl, rfl⟩ | ⟨rfl, rfl⟩
      · exact absurd hr (h32 (by decide))
      · exact h64
      · exact h128
      · exact absurd hr (h32 (by decide))
      · exact h64
      · exact h128
    | @wrapped k s w sh h1 h2 h3 =>
      have hs := lne (text_clean hT.names h1).ne_nil
      rw [lower_generic] at hver hr ⊢
      exact ⟨.compact [], toLower s, looksUp_wrapper hL hsp (by decide +kernel) (by decide +kernel) hs hver hr
        (stock_kept hS hL (by decide +kernel)), wrapped_stands hf h1 h2 h3 (.inr rfl) hs (by simp [effSub, hs])⟩
    | @option q s h h1 =>
      have hs := lne (text_clean hT.names h).ne_nil
      have e : effSub [] (toLower s) = toLower s := by unfold effSub; rw [if_neg hs]
      rw [lower_generic] at hver hr ⊢
      exact ⟨.option [], toLower s, looksUp_wrapper hL hsp (by decide +kernel) (by decide +kernel) hs hver hr
        (stock_kept hS hL (by decide +kernel)), .option (toLower s), ⟨hs, hl.2 s h, [], rfl, e, e⟩, _, rfl, low hl.1 h⟩
    | @result q q' s s' h h' h1 h2 =>
      have comma : ∀ {s : Str}, (44 : UInt8) ∉ s → (44 : UInt8) ∉ toLower s := by
        intro s hn hm
        obtain ⟨d, hd, e⟩ := List.mem_map.1 hm
        have := forall_byte (P := fun d => lowerByte d = 44 → d = 44) (by decide +kernel) d e
        exact hn (this ▸ hd)
      have hs : toLower s ++ b!"," ++ toLower s' ≠ [] := by simp
      have e : effSub [] (toLower s ++ b!"," ++ toLower s') = toLower s ++ b!"," ++ toLower s' := by unfold effSub; rw [if_neg hs]
      rw [lower_generic, toLower_append, toLower_append, show toLower b!"," = b!"," by rfl] at hver hr ⊢
      exact ⟨.result [], toLower s ++ b!"," ++ toLower s', looksUp_wrapper hL hsp (by decide +kernel) (by decide +kernel) hs hver hr
        (stock_kept hS hL (by decide +kernel)), .result (toLower s) (toLower s'), ⟨[], rfl, e, e⟩, _, _, rfl, low hl.1 h, low hl.2 h',
        comma h1, comma h2⟩

/-- The number types that may be compact are looked up. -/
theorem words_ok : WordsOK cfg A st.reg.env := by
  refine ⟨(fixed_words hT hS hL hsp).1, (fixed_words hT hS hL hsp).2, fun k s w sh h1 h2 h3 t ht => ?_⟩
  have hv := wrapped_view hT h1 h2 h3
  have hf : WordsFor cfg A st.reg.env w := by
    rintro ⟨b, d, rfl⟩
    simp [wrappedShapes] at h3
  have hl : LowShape cfg A w := by
    simp only [wrappedShapes, List.mem_cons, Prod.mk.injEq, List.not_mem_nil, or_false] at h3
    rcases h3 with ⟨rfl, _⟩ | ⟨rfl, _⟩ | ⟨rfl, _⟩ <;> trivial
  rcases ht with rfl | rfl
  · obtain ⟨c, u, h4, h5⟩ := view_looksUp_of hT hS hL hsp hj hf hv
    exact ⟨c, u, h4 [] 0 (notOverridden_nil _), h5⟩
  · obtain ⟨c, u, h4, h5⟩ := lower_looksUp_of hT hS hL hsp hj hf hv hl
    exact ⟨c, u, h4 [] 0 (notOverridden_nil _), h5⟩

/-- Every text is looked up as what it stands for. -/
theorem view_looksUp {t : Str} {sh : Shape Nat} (hv : View cfg A t sh) :
    ∃ c s, LooksUp st.reg.env t c s ∧ Stands cfg A st.reg.env c s sh :=
  view_looksUp_of hT hS hL hsp hj (fun _ => words_ok hT hS hL hsp hj) hv

/-- Every text in lower case is looked up as what it stands for. -/
theorem lower_looksUp {t : Str} {sh : Shape Nat} (hv : View cfg A t sh) (hl : LowShape cfg A sh) :
    ∃ c s, LooksUp st.reg.env (toLower t) c s ∧ Stands cfg A st.reg.env c s sh :=
  lower_looksUp_of hT hS hL hsp hj (fun _ => words_ok hT hS hL hsp hj) hv hl

omit hL hsp hj in
theorem view_not_null {t : Str} {sh : Shape Nat} (h : View cfg A t sh) : toLower t ≠ b!"null" := by
  have nm : ∀ {j n}, nameSiType cfg (cfg.types j) (some j) = .ok n → n ≠ [] → toLower n ≠ b!"null" := by
    intro j n h1 h2 e
    have := hT.fresh _ _ h1 h2
    rw [e, hS.entry (b!"null", .null) (by decide +kernel)] at this
    cases this
  cases h with
  | stock h => exact (by decide +kernel : ∀ t ∈ stockNames, toLower t ≠ b!"null") t (stock_name h)
  | own h1 h2 h3 h4 h5 => exact nm h3 h4
  | renamed h1 h2 h3 h4 h5 h6 h7 h8 => exact nm h5 h6
  | _ => exact fun e => absurd (List.cons.inj e).1 (by decide)

/-- However a type is spelled, it is looked up as what it stands for. -/
theorem spelled_looksUp {i : Nat} {t : Str} {sh : Shape Nat} (hc : Covered cfg A i sh) (hn : sh ≠ .null) (h : Spelled cfg A i t) :
    ∃ c s, LooksUp st.reg.env t c s ∧ Stands cfg A st.reg.env c s sh ∧ toLower t ≠ b!"null" := by
  obtain ⟨u, ht, h⟩ := h
  have hv := view hc hT.names ht hn
  have hnn := view_not_null hT hS hv
  rcases h with rfl | rfl | ⟨hf, rfl⟩
  · obtain ⟨c, s, h1, h2⟩ := view_looksUp hT hS hL hsp hj hv
    exact ⟨c, s, h1, h2, hnn⟩
  · rcases view_convert hT.names hv with ⟨hb, rfl⟩ | e
    · have : convertType u = b!"Bytes" := by rcases hb with rfl | rfl <;> kernel_rfl
      rw [this]
      exact ⟨_, _, looksUp_bytes hT hS hL hsp (.inr (.inl rfl)), bytes_stands, by decide⟩
    · rw [e]
      obtain ⟨c, s, h1, h2⟩ := view_looksUp hT hS hL hsp hj hv
      exact ⟨c, s, h1, h2, hnn⟩
  · obtain ⟨c, s, h1, h2⟩ := lower_looksUp hT hS hL hsp hj hv (low_shape hc hf)
    exact ⟨c, s, h1, h2, by rw [toLower_idem]; exact hnn⟩

omit hS hL hsp hj in
theorem view_notOverridden {m : Str} (hm : Untouched cfg m) {t : Str} {sh : Shape Nat} (h : View cfg A t sh) : NotOverridden m t := by
  have sym : ∀ c : UInt8, c ∈ [58, 60, 91] → c ∈ t → NotOverridden m t := fun c hc h => (never_symbol hc h).apply m
  cases h with
  | stock h => exact ((by decide +kernel : ∀ t ∈ stockNames, NeverOverridden t) t (stock_name h)).apply m
  | own h1 h2 h3 h4 h5 => exact hm _ _ h3 h4
  | renamed h1 h2 h3 h4 h5 h6 h7 h8 => exact hm _ _ h5 h6
  | byteArray | array => exact sym 91 (by decide) (by simp [arrayText])
  | tuple => exact sym 58 (by decide) (by simp)
  | _ => exact sym 60 (by decide) (by simp [generic])

omit hS hL hsp hj in
/-- Every spelling of a covered type is left alone by a module that overrides no names of the metadata. -/
theorem spelled_notOverridden {m : Str} (hm : Untouched cfg m) {i : Nat} {t : Str} {sh : Shape Nat} (hc : Covered cfg A i sh) (hn : sh ≠ .null)
    (h : Spelled cfg A i t) : NotOverridden m (convertType t) := by
  obtain ⟨u, ht, h⟩ := h
  have hv := view hc hT.names ht hn
  have hno := view_notOverridden hT hm hv
  have hb : NotOverridden m b!"Bytes" := (by decide +kernel : NeverOverridden b!"Bytes").apply m
  have hu : NotOverridden m (convertType u) := by
    rcases view_convert hT.names hv with ⟨h, rfl⟩ | e
    · have : convertType u = b!"Bytes" := by rcases h with rfl | rfl <;> kernel_rfl
      rw [this]; exact hb
    · rw [e]; exact hno
  rcases h with rfl | rfl | ⟨hf, rfl⟩
  · exact hu
  · rcases view_convert hT.names hv with ⟨h, rfl⟩ | e
    · have : convertType u = b!"Bytes" := by rcases h with rfl | rfl <;> kernel_rfl
      rw [this, show convertType b!"Bytes" = b!"Bytes" by kernel_rfl]; exact hb
    · rw [e]; exact hu
  · have hcl := view_clean hT.names hv
    rcases view_lower hT.names hv with ⟨hb', rfl⟩ | hnv
    · rw [show convertType (toLower u) = b!"Bytes" by rcases hb' with rfl | rfl <;> kernel_rfl]; exact hb
    rw [convertType_verbatim (hcl.verbatim_lower fun h => hnv (by rw [← toLower_eq_iff] at h; rw [h]; decide))]
    intro row hr h1 p hp h2
    refine hno row hr h1 p hp ?_
    rw [← toLower_eq_iff] at h2 ⊢
    rwa [toLower_idem] at h2

/-- The library looks up every spelling of a portable type as the shape of the type. -/
theorem spelled_shape {ctx : Ctx} {ectx : ECtx} (hm : Untouched cfg ctx.module) {i : Nat} {t : Str} {sh : Shape Nat}
    (hc : Covered cfg A i sh) (h : Spelled cfg A i t) :
    ∃ sh', HasShape st.reg.env ctx ectx t sh' ∧ Like (Spelled cfg A) sh sh' := by
  by_cases hn : sh = .null
  · subst hn
    obtain ⟨u, ht, h⟩ := h
    have e := text_null hc ht
    subst e
    have hk : st.reg.env.reg b!"null" = some .null := stock_kept hS hL (by decide +kernel)
    have nn : ∀ {t}, toLower (convertType t) = b!"null" → NotOverridden ctx.module (convertType t) := fun {t} h row hr h1 p hp h2 => by
      rw [← toLower_eq_iff, h] at h2
      exact (by decide +kernel : ∀ row ∈ typesModules, ∀ p ∈ row.2, toLower p.1 ≠ b!"null") row hr p hp h2
    refine ⟨.null, .inr ⟨rfl, ?_⟩, rfl⟩
    rcases h with rfl | rfl | ⟨_, rfl⟩
    · exact ⟨⟨[], looksUp_entry hL hsp (u := b!"NULL") (by kernel_rfl) (by simp) hk _ _ (nn (by kernel_rfl))⟩, by decide⟩
    · exact ⟨⟨[], looksUp_entry hL hsp (u := b!"NULL") (by kernel_rfl) (by simp) hk _ _ (nn (by kernel_rfl))⟩, by kernel_rfl⟩
    · exact ⟨⟨[], looksUp_entry hL hsp (u := b!"null") (by kernel_rfl) (by simp) hk _ _ (nn (by kernel_rfl))⟩, by decide⟩
  · obtain ⟨c, s, h1, ⟨sh', h2, h3⟩, h4⟩ := spelled_looksUp hT hS hL hsp hj hc hn h
    refine ⟨sh', .inl ⟨c, s, s, h1 _ _ (spelled_notOverridden hT hm hc hn h), ⟨h1 _ _ (notOverridden_nil _), ?_⟩, h2⟩, h3⟩
    rw [← toLower_eq_spec]; exact h4

omit hj in
theorem empty_shape {ctx : Ctx} {ectx : ECtx} : HasShape st.reg.env ctx ectx b!"empty" .unit := by
  have := looksUp_entry hL hsp (t := b!"empty") (u := b!"empty") (by kernel_rfl) (by simp) (stock_kept hS hL (c := .empty) (by decide +kernel))
  exact .inl ⟨.empty, [], [], this _ _ ((by decide +kernel : NeverOverridden (convertType b!"empty")).apply _), ⟨this _ _ (notOverridden_nil _), by decide⟩, rfl⟩

omit hj in
theorem len_ok {ctx : Ctx} : LenOK st.reg.env ctx ∧ LenEncOK st.reg.env := by
  have := looksUp_entry hL hsp (t := b!"Compact<u32>") (u := b!"Compact<u32>") (by kernel_rfl) (by simp)
    (stock_kept hS hL (c := .compactU32) (by decide +kernel))
  exact ⟨⟨[], this _ _ ((by decide +kernel : NeverOverridden (convertType b!"Compact<u32>")).apply _)⟩, [], this _ _ (notOverridden_nil _), by decide⟩

end

end

theorem view_not_origin {base : Str → Option Cls} (hT : Tidy cfg A base) (h0 : base b!"origincaller" ≠ none) {t : Str} {sh : Shape Nat}
    (h : View cfg A t sh) : toLower t ≠ b!"origincaller" := by
  have nm : ∀ {j n}, nameSiType cfg (cfg.types j) (some j) = .ok n → n ≠ [] → toLower n ≠ b!"origincaller" := by
    intro j n h1 h2 e
    have := hT.fresh _ _ h1 h2
    rw [e] at this
    exact h0 this
  cases h with
  | stock h => exact (by decide +kernel : ∀ t ∈ stockNames, toLower t ≠ b!"origincaller") t (stock_name h)
  | own h1 h2 h3 h4 h5 => exact nm h3 h4
  | renamed h1 h2 h3 h4 h5 h6 h7 h8 => exact nm h5 h6
  | @option q s h h1 =>
    intro e
    have := angle_generic b!"option" s
    rw [e] at this
    exact absurd this (by decide)
  | _ => exact fun e => absurd (List.cons.inj e).1 (by decide)

/-- The state after the type of the origins has been entered as well. -/
theorem Loaded.origin {base : Env} {st : SiState} (hT : Tidy cfg A base.reg) (h0 : base.reg b!"origincaller" ≠ none) (hL : Loaded cfg A base st)
    (l : List (Str × Nat)) :
    Loaded cfg A base { st with reg := { st.reg with env := registerOriginCaller st.reg.env l } } := by
  have e : ∀ k, (registerOriginCaller st.reg.env l).reg k =
      if k = b!"origincaller" then some (.enum [] (some (originRows (sortBy (·.2) l) []))) else st.reg.env.reg k := fun k => rfl
  refine ⟨fun t sh hv c hc => ?_, fun k c hc hk => ?_, fun s => ?_, hL.ids, fun t sh hv => ?_, hL.rest, fun k h1 h2 h3 => ?_⟩
  · have hc : (registerOriginCaller st.reg.env l).reg (toLower t) = some c := hc
    rw [e, if_neg (view_not_origin hT h0 hv)] at hc
    exact hL.entries t sh hv c hc
  · show (registerOriginCaller st.reg.env l).reg k = some c
    rw [e, if_neg hk.2.2.2.2]
    exact hL.kept k c hc hk
  · show (registerOriginCaller st.reg.env l).reg _ = none
    have hn : b!"vec<" ++ s ≠ b!"origincaller" := fun h => absurd (List.cons.inj h).1 (by decide)
    rw [e, if_neg hn]
    exact hL.vec s
  · show ((registerOriginCaller st.reg.env l).reg (toLower t)).isSome = true ∨ _
    rw [e, if_neg (view_not_origin hT h0 hv)]
    exact hL.named t sh hv
  · show (registerOriginCaller st.reg.env l).reg k = _
    rw [e, if_neg (by rintro rfl; exact absurd h1 (by decide))]
    exact hL.generics k h1 h2 h3

end ScaleGo
