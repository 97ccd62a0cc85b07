import Verif.Props.C85
import Verif.Model.Abi
import Verif.Lemmas.KernelRfl

/-!
# C86: registering a contract leaves the types of the chain as they were

English claim: the types of a contract are registered under a prefix.  If no name in use begins with this prefix, then every
type text that decodes before the registration decodes to the same value afterwards.

The claim is false, because the names of tuples do not get the prefix and are ambiguous. -/

namespace ScaleGo

/-- Names that belong to the prefix. -/
def Spec.Prefixed (pre k : Str) : Prop := toLower (pre ++ b!":") <+: k

/-- The full claim. -/
def C86Claim : Prop :=
  ∀ (types : List AbiType) (pre : Str) (eqFuel fuel : Nat) (dec dec' : SiDecoder) (reg reg' : RegState), pre ≠ [] → (35 : UInt8) ∉ pre →
    (∀ k, Spec.Prefixed pre k → reg.env.reg k = none ∧ reg.env.special k = []) → abiRegister types pre eqFuel fuel dec reg = .ok (dec', reg') →
    ∀ (n : Nat) (ctx : Ctx) (t : Str) (s : St) (r : Val × St), pau reg.env n ctx t s = .ok r → pau reg'.env n ctx t s = .ok r

/-! ## What is true -/

/-- Names without the prefix that a contract may use: those of tuples, of primitive types and of the parts of extrinsics. -/
inductive Spec.Shared (types : List AbiType) (k : Str) : Prop
  | tuple (a : AbiType) (ks : List Nat) : a ∈ types → a.typ.tuple = some ks → b!"tuple:" <+: k → Shared types k
  | primitive : b!"primitive_types:" <+: k → Shared types k
  | extrinsic (a : AbiType) : a ∈ types → a.path.head? = some b!"sp_runtime" →
      (b!"extrinsicsignature" <+: k ∨ b!"extrinsicsigner" <+: k) → Shared types k

theorem touches_prefix {P key k : Str} (hP : (35 : UInt8) ∉ toLower P) (hk : toLower P <+: toLower key) (h : Spec.Touches key k) :
    toLower P <+: k := by
  rcases h with rfl | h | h
  · exact hk
  · rcases Nat.lt_or_ge k.length (toLower P).length with hl | hl
    · have : k ++ b!"#" <+: toLower P := List.prefix_of_prefix_length_le h hk (by simp; omega)
      exact absurd (this.subset (by simp)) hP
    · exact List.prefix_of_prefix_length_le hk ((List.prefix_append _ _).trans h) hl
  · exact hk.trans ((List.prefix_append _ _).trans h)

theorem abiTypes_mem : ∀ {l : List AbiType} {i : Nat}, (abiTypes l i = {} ∨ ∃ a ∈ l, abiTypes l i = a.toScale)
  | [], _ => .inl rfl
  | a :: l, i => by
    unfold abiTypes
    split
    · rcases @abiTypes_mem l i with h | ⟨b, hb, h⟩
      exacts [.inl h, .inr ⟨b, List.mem_cons_of_mem _ hb, h⟩]
    · split
      · exact .inr ⟨a, List.mem_cons_self, rfl⟩
      · exact .inl rfl

theorem toScale_tuple {d : AbiDef} {ks : List Nat} (h : d.toScale = .tuple ks) : d.tuple = some ks := by
  unfold AbiDef.toScale at h
  repeat' split at h
  all_goals first | (cases h; assumption) | cases h

theorem pathName_prefix {cfg : SiCfg} (hp : cfg.pathPrefix ≠ []) (t : SiType) (id : Option Nat) :
    cfg.pathPrefix ++ b!":" <+: generateName cfg t id := by
  have : cfg.pathPrefix ++ b!":" <+: pathName cfg t := by
    unfold pathName
    rw [if_neg hp]
    exact List.prefix_append _ _
  unfold generateName
  split
  · exact this
  · split
    · rw [List.append_assoc]; exact this.trans (List.prefix_append _ _)
    · exact this

theorem lower_prefix {a b : Str} (h : a <+: b) : toLower a <+: toLower b := by
  obtain ⟨r, rfl⟩ := h
  rw [toLower_append]
  exact List.prefix_append _ _

theorem lower_hash_free {P : Str} (h : (35 : UInt8) ∉ P) : (35 : UInt8) ∉ toLower (P ++ b!":") := by
  intro hm
  simp only [toLower, List.map_append, List.mem_append, List.mem_map] at hm
  have key : ∀ b : UInt8, lowerByte b = 35 → b = 35 := forall_byte (P := fun b => lowerByte b = 35 → b = 35) (by decide +kernel)
  rcases hm with ⟨b, hb, e⟩ | ⟨b, hb, e⟩
  · rw [key b e] at hb; exact h hb
  · rw [key b e] at hb; exact absurd hb (by decide)

theorem abi_frame (types : List AbiType) (cfg : SiCfg) (ht : cfg.types = abiTypes types) (hp : cfg.pathPrefix ≠ [])
    (hh : (35 : UInt8) ∉ cfg.pathPrefix) : Frame cfg (fun a b => b.reg.env.ext = a.reg.env.ext ∧ ∀ k, ¬ Spec.Prefixed cfg.pathPrefix k →
      ¬ Spec.Shared types k → Spec.SameEntries a.reg.env b.reg.env k) where
  refl := fun _ => ⟨rfl, fun _ _ _ => ⟨rfl, rfl⟩⟩
  trans := fun _ _ _ h1 h2 => ⟨h2.1.trans h1.1, fun k a b => ⟨(h2.2 k a b).1.trans (h1.2 k a b).1, (h2.2 k a b).2.trans (h1.2 k a b).2⟩⟩
  setId := fun _ _ _ => ⟨rfl, fun _ _ _ => ⟨rfl, rfl⟩⟩
  register := by
    intro st key d st' hsub h
    unfold SiState.register at h
    rw [Res.bind_eq_ok] at h
    obtain ⟨r, hr, h⟩ := h
    cases h
    obtain ⟨h1, h2⟩ := C85_register _ _ _ _ hr
    refine ⟨h1, fun k hk hs => h2 k fun p hp' => ?_⟩
    cases List.mem_singleton.mp hp'
    intro ht'
    have gen : ∀ i, key = generateName cfg (cfg.types i) (some i) → False := by
      rintro i rfl
      exact hk (touches_prefix (P := cfg.pathPrefix ++ b!":") (lower_hash_free hh) (lower_prefix (pathName_prefix hp (cfg.types i) (some i))) ht')
    have ext : (∃ i, IsExtrinsic (cfg.types i)) → (b!"extrinsicsignature" <+: k ∨ b!"extrinsicsigner" <+: k) → False := by
      rintro ⟨i, _, hi, _⟩ hk'
      rw [ht] at hi
      rcases @abiTypes_mem types i with e | ⟨a, ha, e⟩
      · rw [e] at hi; cases hi
      · rw [e] at hi; exact hs (.extrinsic a ha hi hk')
    rcases hsub with ⟨_, _, ⟨i, _, e⟩ | ⟨s, i, ks, rfl, hi⟩ | ⟨s, rfl⟩⟩ | ⟨_, ⟨rfl | rfl, hx⟩ | ⟨i, _, _, e⟩⟩
    · exact gen i e
    · rw [ht] at hi
      have hk' := touches_prefix (P := b!"Tuple:") (by decide) (lower_prefix (List.prefix_append _ _)) ht'
      rcases @abiTypes_mem types i with e | ⟨a, ha, e⟩
      · rw [e] at hi; cases hi
      · rw [e] at hi; exact hs (.tuple a ks ha (toScale_tuple hi) hk')
    · exact hs (.primitive (touches_prefix (P := b!"primitive_types:") (by decide) (lower_prefix (List.prefix_append _ _)) ht'))
    · exact ext hx (.inl (touches_prefix (P := b!"ExtrinsicSignature") (by decide) (List.prefix_refl _) ht'))
    · exact ext hx (.inr (touches_prefix (P := b!"ExtrinsicSigner") (by decide) (List.prefix_refl _) ht'))
    · exact gen i e

/-- Registering a contract changes the entries of names with the prefix and of shared names only. -/
theorem C86_entries (types : List AbiType) (pre : Str) (eqFuel fuel : Nat) (dec dec' : SiDecoder) (reg reg' : RegState) (hp : pre ≠ [])
    (hh : (35 : UInt8) ∉ pre) (h : abiRegister types pre eqFuel fuel dec reg = .ok (dec', reg')) :
    reg'.env.ext = reg.env.ext ∧ ∀ k, ¬ Spec.Prefixed pre k → ¬ Spec.Shared types k → Spec.SameEntries reg.env reg'.env k := by
  unfold abiRegister processOn at h
  rw [Res.bind_eq_ok] at h
  obtain ⟨dup, _, h⟩ := h
  rw [Res.bind_eq_ok] at h
  obtain ⟨st, hst, h⟩ := h
  cases h
  exact registerTypes_frame (abi_frame types { abiCfg types pre dec.spec eqFuel with dup := dup } rfl hp hh) hst

/-- What the claim says of types that lead to neither names with the prefix nor shared names. -/
theorem C86_decode_partial (types : List AbiType) (pre : Str) (eqFuel fuel : Nat) (dec dec' : SiDecoder) (reg reg' : RegState) (hp : pre ≠ [])
    (hh : (35 : UInt8) ∉ pre) (h : abiRegister types pre eqFuel fuel dec reg = .ok (dec', reg')) (ctx : Ctx) (t : Str)
    (hu : ∀ u, Spec.Uses reg.env (Spec.Within ctx.md ctx.module) (fun s => s = ctx.spec ∨ s = 0) (Spec.Reads reg.env.ext.rows ctx.md) t u →
      ∀ m, Spec.Within ctx.md ctx.module m → ∀ k ∈ Spec.namesOf m u, ¬ Spec.Prefixed pre k ∧ ¬ Spec.Shared types k) (n : Nat) (s : St) :
    pau reg'.env n ctx t s = pau reg.env n ctx t s := by
  obtain ⟨hx, hs⟩ := C86_entries types pre eqFuel fuel dec dec' reg reg' hp hh h
  exact C85_decode _ _ (Spec.Within ctx.md ctx.module) (fun s => s = ctx.spec ∨ s = 0) ctx.md t (.inr (.inl rfl)) (.inr rfl)
    (fun d key e h1 h2 => .inr (.inr ⟨d, key, e, h1, h2, rfl⟩)) hx (fun u h m hm k hk => hs k (hu u h m hm k hk).1 (hu u h m hm k hk).2) n ctx
    ⟨.inl rfl, .inl rfl, .inl rfl⟩ s

/-- The same for encoding. -/
theorem C86_encode_partial (types : List AbiType) (pre : Str) (eqFuel fuel : Nat) (dec dec' : SiDecoder) (reg reg' : RegState) (hp : pre ≠ [])
    (hh : (35 : UInt8) ∉ pre) (h : abiRegister types pre eqFuel fuel dec reg = .ok (dec', reg')) (ctx : ECtx) (t : Str)
    (hu : ∀ u, Spec.Uses reg.env (· = []) (fun s => s = ctx.spec ∨ s = -1) (Spec.Writes reg.env.ext.rows ctx.md) t u →
      ∀ k ∈ Spec.namesOf [] u, ¬ Spec.Prefixed pre k ∧ ¬ Spec.Shared types k) (n : Nat) (v : Val) : enc reg'.env n ctx t v = enc reg.env n ctx t v := by
  obtain ⟨hx, hs⟩ := C86_entries types pre eqFuel fuel dec dec' reg reg' hp hh h
  exact C85_encode _ _ (fun s => s = ctx.spec ∨ s = -1) ctx.md t (.inr rfl) hx (fun u h k hk => hs k (hu u h k hk).1 (hu u h k hk).2) n ctx
    (.inl rfl) (.inl rfl) v

/-! ## Registering twice -/

/-- After a registration the decoder cannot register a contract with named types, unless it is initialised again. -/
theorem C86_again (types types' : List AbiType) (pre pre' : Str) (eqFuel fuel eqFuel' fuel' : Nat) (dec dec' : SiDecoder) (reg reg' : RegState)
    (h : abiRegister types pre eqFuel fuel dec reg = .ok (dec', reg')) (a : AbiType) (fs : List SiField)
    (h0 : abiTypes types' 0 = a.toScale) (ha : a.toScale.typ = .composite fs) (hc : types' ≠ []) (hp : pre' ≠ []) :
    abiRegister types' pre' eqFuel' fuel' dec' reg' = .panic := by
  have hd : dec'.dup = none := by
    unfold abiRegister processOn at h
    rw [Res.bind_eq_ok] at h
    obtain ⟨dup, _, h⟩ := h
    rw [Res.bind_eq_ok] at h
    obtain ⟨st, hst, h⟩ := h
    cases h; rfl
  have hn : ∃ m, abiCount types' = m + 1 := by
    have : ∀ l : List AbiType, l ≠ [] → 0 < abiCount l := by
      intro l
      induction l with
      | nil => intro h; exact absurd rfl h
      | cons b l ih =>
        intro _
        unfold abiCount
        split
        · next hb => exact ih (by rintro rfl; cases hb)
        · omega
    exact ⟨_, (Nat.succ_pred_eq_of_pos (this types' hc)).symm⟩
  obtain ⟨m, hm⟩ := hn
  have hg : ∀ (cfg : SiCfg) (t : SiType), cfg.pathPrefix ≠ [] → generateName cfg t none ≠ [] := by
    intro cfg t hp e
    have := (pathName_prefix hp t none).length_le
    rw [e] at this
    simp at this
  unfold abiRegister processOn
  rw [hd]
  show (countNamesNil _ 0 (abiCount types')).bind _ >>= _ = _
  rw [hm, countNamesNil]
  have : nameSiType (abiCfg types' pre' dec'.spec eqFuel') ((abiCfg types' pre' dec'.spec eqFuel').types 0) none =
      .ok (generateName (abiCfg types' pre' dec'.spec eqFuel') a.toScale none) := by
    show nameSiType _ (abiTypes types' 0) none = _
    rw [h0]
    unfold nameSiType
    rw [ha]
  rw [this, Res.ok_bind, if_neg (hg _ _ hp)]
  rfl

/-! ## The full claim is false -/

/-- A chain with the type `(u8, (u8, u16))`. -/
def chainTuples : SiCfg where
  types := fun i => match i with
    | 0 => { typ := .primitive b!"U8" }
    | 1 => { typ := .primitive b!"U16" }
    | 2 => { typ := .tuple [0, 1] }
    | 3 => { typ := .tuple [0, 2] }
    | _ => {}
  count := 4

/-- A contract with the type `(u8, (u8,), u16)`. -/
def contractTuples : List AbiType :=
  [{ id := 0, typ := { primitive := some b!"u8" } }, { id := 1, typ := { primitive := some b!"u16" } }, { id := 2, typ := { tuple := some [0] } },
    { id := 3, typ := { tuple := some [0, 2, 1] } }]

/-- The definitions that these types of the chain lead to. -/
def chainDefs : List (Str × TypeDef) :=
  [(b!"Tuple:U8U16", structDef chainTuples [[b!"col1", b!"U8"], [b!"col2", b!"U16"]]),
    (b!"Tuple:U8Tuple:U8U16", structDef chainTuples [[b!"col1", b!"U8"], [b!"col2", b!"Tuple:U8U16"]])]

/-- The library in which these definitions are registered. -/
def chainReg : RegState := match regCustomTypes 9 ⟨baseEnv dummyExt, fun _ => none⟩ chainDefs with
  | .ok reg => reg
  | _ => ⟨baseEnv dummyExt, fun _ => none⟩

theorem chainReg_ok : regCustomTypes 9 ⟨baseEnv dummyExt, fun _ => none⟩ chainDefs = .ok chainReg := by kernel_rfl

/-- The library and the decoder after registering the contract. -/
def contractReg : SiDecoder × RegState := match abiRegister contractTuples b!"pre" 9 9 (SiDecoder.init {}) chainReg with
  | .ok p => p
  | _ => ({}, chainReg)

theorem contractReg_ok : abiRegister contractTuples b!"pre" 9 9 (SiDecoder.init {}) chainReg =
    .ok (contractReg.1, contractReg.2) := by kernel_rfl

/-- The library after reading the types of the chain. -/
def tupleState : SiState := match processSiType chainTuples 5 ⟨baseEnv dummyExt, fun _ => none⟩ with
  | .ok st => st
  | _ => ⟨⟨baseEnv dummyExt, fun _ => none⟩, fun _ => none⟩

/-- The entries of the tuples are the ones that the types of the chain give. -/
example : processSiType chainTuples 5 ⟨baseEnv dummyExt, fun _ => none⟩ = .ok tupleState := by kernel_rfl
example : tupleState.ids 3 = some b!"Tuple:U8Tuple:U8U16" := by kernel_rfl
example : tupleState.reg.env.reg b!"tuple:u8tuple:u8u16" = chainReg.env.reg b!"tuple:u8tuple:u8u16" := by kernel_rfl
example : tupleState.reg.env.reg b!"tuple:u8u16" = chainReg.env.reg b!"tuple:u8u16" := by kernel_rfl

/-- A value of `(u8, (u8, u16))` before the contract has been registered. -/
theorem tuple_before : pau chainReg.env 9 ⟨[], 0, none⟩ b!"Tuple:U8Tuple:U8U16" ⟨⟨[1, 2, 3, 4], 0⟩, []⟩ =
    .ok (.map [(b!"col1", .int 1), (b!"col2", .map [(b!"col1", .int 2), (b!"col2", .uint 2 1027)])], ⟨⟨[1, 2, 3, 4], 4⟩, []⟩) := by
  kernel_rfl

/-- The same bytes under the same text afterwards. -/
theorem tuple_after : pau contractReg.2.env 9 ⟨[], 0, none⟩ b!"Tuple:U8Tuple:U8U16" ⟨⟨[1, 2, 3, 4], 0⟩, []⟩ =
    .ok (.map [(b!"col1", .int 1), (b!"col2", .map [(b!"col1", .int 2)]), (b!"col3", .uint 2 1027)], ⟨⟨[1, 2, 3, 4], 4⟩, []⟩) := by
  kernel_rfl

/-- Sequences of numbers are as before. -/
example (n : Nat) (s : St) : pau contractReg.2.env n ⟨[], 0, none⟩ b!"Vec<u16>" s = pau chainReg.env n ⟨[], 0, none⟩ b!"Vec<u16>" s := by
  refine C86_decode_partial contractTuples b!"pre" 9 9 _ _ _ _ (by decide) (by decide) contractReg_ok ⟨[], 0, none⟩ _ (fun u hu m hm k hk => ?_) n s
  have hm : m = [] := by
    rcases hm with h | h | ⟨_, _, _, h, _⟩
    exacts [h, h, by cases h]
  subst hm
  have key : ∀ u, u = b!"Vec<u16>" ∨ u = b!"Compact<u32>" ∨ u = b!"u16" → ∀ k ∈ Spec.namesOf [] u,
      b!"pre:".isPrefixOf k = false ∧ b!"tuple:".isPrefixOf k = false ∧ b!"primitive_types:".isPrefixOf k = false ∧
        b!"extrinsicsigner".isPrefixOf k = false ∧ b!"extrinsicsignature".isPrefixOf k = false := by
    rintro u (rfl | rfl | rfl) <;> decide +kernel
  have no : ∀ {p k : Str}, p.isPrefixOf k = false → ¬ p <+: k := fun h h' => by rw [List.isPrefixOf_iff_prefix.2 h'] at h; cases h
  obtain ⟨h1, h2, h3, h4, h5⟩ := key u (vec_uses (env := chainReg.env) (by kernel_rfl) (by kernel_rfl) (by kernel_rfl) hu) k hk
  refine ⟨no h1, ?_⟩
  rintro (⟨_, _, _, _, h⟩ | h | ⟨_, _, _, h | h⟩)
  exacts [no h2 h, no h3 h, no h5 h, no h4 h]

/-- A second contract cannot be registered with the same decoder. -/
example : abiRegister [{ id := 0, path := [b!"Counter"], typ := { composite := some [] } }] b!"other" 9 9 contractReg.1 contractReg.2 = .panic :=
  C86_again contractTuples _ b!"pre" _ 9 9 9 9 _ _ _ _ contractReg_ok { id := 0, path := [b!"Counter"], typ := { composite := some [] } } []
    rfl rfl (by decide) (by decide)

/-- No name begins with `pre:`. -/
theorem pre_free (k : Str) (h : Spec.Prefixed b!"pre" k) : chainReg.env.reg k = none ∧ chainReg.env.special k = [] := by
  have h : b!"pre:" <+: k := h
  obtain ⟨_, hs⟩ := C85_register _ _ _ _ chainReg_ok
  obtain ⟨h1, h2⟩ := hs k fun p hp ht => by
    have : b!"tuple:" <+: k := by
      simp only [chainDefs, List.mem_cons, List.not_mem_nil, or_false] at hp
      rcases hp with rfl | rfl <;>
        exact touches_prefix (P := b!"Tuple:") (by decide) (lower_prefix (List.isPrefixOf_iff_prefix.1 (by decide))) ht
    obtain ⟨r, rfl⟩ := h
    obtain ⟨r', e⟩ := this
    cases e
  rw [h1, h2]
  refine ⟨?_, rfl⟩
  show tableGet baseReg k = none
  cases hc : tableGet baseReg k with
  | none => rfl
  | some c =>
    have := mem_of_tableGet hc
    have all : ∀ p ∈ baseReg, b!"pre:".isPrefixOf p.1 = false := by decide +kernel
    have := all _ this
    rw [List.isPrefixOf_iff_prefix.2 h] at this
    cases this

/-- The full claim is false: the type `(u8, (u8, u16))` of a chain is replaced by the type `(u8, (u8,), u16)` of a contract. -/
theorem C86_claim_false : ¬ C86Claim := by
  intro h
  have := h contractTuples b!"pre" 9 9 _ contractReg.1 chainReg contractReg.2 (by decide) (by decide) pre_free contractReg_ok 9 _ _ _ _ tuple_before
  rw [tuple_after] at this
  cases this

end ScaleGo
