import Verif.Props.C81
import Verif.Props.C86

/-!
# C87: values of the types of a contract are encoded and decoded as the ABI describes

English claim: after the types of a contract have been registered, with or without the types of a chain before them, a value of
a type of the ABI is written as the bytes that SCALE prescribes for its type definition, and these bytes are read as the value.

The claim is false, because an ABI spells the type of truth values `bool`, and an option of `bool` is taken for the type
`OptionBool`, which has one byte. -/

namespace Spec
open ScaleGo (Str AbiDef AbiType SiField SiVariant SiDef SiType)

/-- The definition that an ABI gives, when it has one of the known kinds. -/
inductive AbiDefines : AbiDef → SiDef → Prop
  | composite (fs : List SiField) : AbiDefines { composite := some fs } (.composite fs)
  | variant (vs : List SiVariant) : AbiDefines { variant := some vs } (.variant vs)
  | sequence (t : Nat) : AbiDefines { sequence := some t } (.sequence t)
  | array (n t : Nat) : AbiDefines { array := some (n, t) } (.array n t)
  | tuple (ts : List Nat) : AbiDefines { tuple := some ts } (.tuple ts)
  | primitive (p : Str) : AbiDefines { primitive := some p } (.primitive p)
  | compact (t : Nat) : AbiDefines { compact := some t } (.compact t)
  | bits : AbiDefines { bitSequence := true } .bitSequence
  | range : AbiDefines { range := true } .range

/-- The types of an ABI by their ids. -/
structure AbiDescribes (types : List AbiType) (T : Nat → SiType) : Prop where
  path : ∀ a ∈ types, (T a.id).path = a.path
  params : ∀ a ∈ types, (T a.id).params = a.params
  typ : ∀ a ∈ types, AbiDefines a.typ (T a.id).typ
  other : ∀ i, (∀ a ∈ types, a.id ≠ i) → T i = {}

end Spec

namespace ScaleGo
open _root_.Spec (Shape Scale Layer primitiveShapes AbiDefines AbiDescribes WPallet PType WExtension)
open ScaleGo.Spec

/-- What the registry must contain: the built-in types, and none of the texts with arguments as a name of its own. -/
structure Equipped (reg : RegState) : Prop where
  stock : Stock reg.env.reg
  special : reg.env.special = fun _ => []
  rows : ReadsRows reg.env.ext

/-- The full claim. -/
def C87Claim : Prop :=
  ∀ (types : List AbiType) (T : Nat → SiType) (pre : Str) (eqFuel fuel : Nat) (dec dec' : SiDecoder) (reg reg' : RegState) (ctx : Ctx) (ectx : ECtx), AbiDescribes types T →
    Equipped reg → pre ≠ [] → abiRegister types pre eqFuel fuel dec reg = .ok (dec', reg') → ∀ (i : Nat) (v r : Val) (b : Str), i < types.length →
    Scale (Layer T) (SupportedBy fun _ => True) i v r b →
    Encodes reg'.env ectx (abiTypeName dec' i) v b ∧ Decodes reg'.env ctx (abiTypeName dec' i) b r []

/-- The configuration that an ABI is registered with, once its names have been counted. -/
def countedCfg (types : List AbiType) (pre : Str) (eqFuel : Nat) (dec : SiDecoder) (dup : Str → Nat) : SiCfg :=
  { abiCfg types pre dec.spec eqFuel with dup := dup }

theorem abi_loaded {types : List AbiType} {pre : Str} {eqFuel fuel : Nat} {dec dec' : SiDecoder} {reg reg' : RegState} {dup : Str → Nat}
    {A : Nat → Prop} (hd : countNamesOn (abiCfg types pre dec.spec eqFuel) dec.dup = .ok dup) (hq : Equipped reg)
    (hE : EarlyOK (countedCfg types pre eqFuel dec dup) A) (hT : Tidy (countedCfg types pre eqFuel dec dup) A reg.env.reg)
    (h : abiRegister types pre eqFuel fuel dec reg = .ok (dec', reg')) :
    Loaded (countedCfg types pre eqFuel dec dup) A reg.env ⟨reg', dec'.ids⟩ := by
  unfold abiRegister processOn at h
  rw [hd, Res.ok_bind, Res.bind_eq_ok] at h
  obtain ⟨st, hst, h⟩ := h
  cases h
  exact process_loaded hE hst hT hq.stock (fun h => by cases h)

/-- No module overrides a name with the prefix. -/
theorem abi_untouched {types : List AbiType} {pre : Str} {eqFuel : Nat} {dec : SiDecoder} {dup : Str → Nat} (hp : pre ≠ []) (m : Str) :
    Untouched (countedCfg types pre eqFuel dec dup) m := by
  intro i n h hn row hr _ p hm hsame
  have h58 : (58 : UInt8) ∈ n := by
    unfold nameSiType at h
    have gen : (58 : UInt8) ∈ generateName (countedCfg types pre eqFuel dec dup) ((countedCfg types pre eqFuel dec dup).types i) (some i) :=
      (pathName_prefix hp _ _).subset (by simp)
    repeat' split at h
    all_goals first | (cases h; exact gen) | (cases h; exact absurd rfl hn) | cases h
  have e := (toLower_eq_iff _ _).2 hsame
  have : (58 : UInt8) ∈ toLower p.1 := by
    rw [e]
    exact List.mem_map.2 ⟨58, h58, by decide⟩
  exact (by decide +kernel : ∀ row ∈ typesModules, ∀ p ∈ row.2, (58 : UInt8) ∉ toLower p.1) row hr p hm this

/-- Encoding and decoding follow the ABI for covered types with names that do not get in each other's way. -/
theorem C87_partial (types : List AbiType) (pre : Str) (eqFuel fuel : Nat) (dec dec' : SiDecoder) (reg reg' : RegState) (dup : Str → Nat)
    (A : Nat → Prop) (ctx : Ctx) (ectx : ECtx) (hd : countNamesOn (abiCfg types pre dec.spec eqFuel) dec.dup = .ok dup) (hq : Equipped reg)
    (hE : EarlyOK (countedCfg types pre eqFuel dec dup) A) (hT : Tidy (countedCfg types pre eqFuel dec dup) A reg.env.reg)
    (hp : pre ≠ []) (h : abiRegister types pre eqFuel fuel dec reg = .ok (dec', reg'))
    (i : Nat) (t : Str) (v r : Val) (b : Str) (hi : dec'.ids i = some t)
    (hs : Scale (Covered (countedCfg types pre eqFuel dec dup) A) (SupportedBy fun _ => True) i v r b) :
    Encodes reg'.env ectx (abiTypeName dec' i) v b ∧ Decodes reg'.env ctx (abiTypeName dec' i) b r [] := by
  have hL := abi_loaded hd hq hE hT h
  obtain ⟨h1, h2⟩ := len_ok hT hq.stock hL hq.special (ctx := ctx)
  have e : abiTypeName dec' i = t := by unfold abiTypeName; rw [hi]; rfl
  rw [e]
  exact C28_partial _ _ _ (HasShape reg'.env ctx ectx) h1 h2 (fun _ _ h => h) _ _ _ _
    (scale_spelled hT hq.stock hL hq.special hq.rows (abi_untouched hp _) hs t ⟨t, hL.ids i t hi, .inl rfl⟩)

theorem toScale_defines {d : AbiDef} {t : SiDef} (h : AbiDefines d t) : d.toScale = t := by cases h <;> rfl

/-- The library takes the types of the ABI as they are described. -/
theorem abiTypes_describes : ∀ {types : List AbiType} {T : Nat → SiType}, (∀ a ∈ types, T a.id = a.toScale) →
    ∀ i, (∃ a ∈ types, a.id = i) → abiTypes types i = T i
  | [], _, _, _, ⟨_, h, _⟩ => by cases h
  | a :: rest, T, h, i, ⟨x, hx, he⟩ => by
    unfold abiTypes
    split
    · next hr =>
      obtain ⟨y, hy, e⟩ := List.any_eq_true.1 hr
      exact abiTypes_describes (fun a ha => h a (List.mem_cons_of_mem _ ha)) i ⟨y, hy, by simpa using e⟩
    · next hr =>
      rcases List.mem_cons.1 hx with rfl | hx
      · rw [if_pos he, ← he, h _ List.mem_cons_self]
      · exact absurd (List.any_eq_true.2 ⟨x, hx, by simpa using he⟩) hr

theorem abiTypes_absent : ∀ {types : List AbiType} {i : Nat}, (∀ a ∈ types, a.id ≠ i) → abiTypes types i = {}
  | [], _, _ => rfl
  | a :: rest, i, h => by
    unfold abiTypes
    rw [if_neg (h a List.mem_cons_self), abiTypes_absent fun a ha => h a (List.mem_cons_of_mem _ ha)]
    split <;> rfl

theorem abiTypes_eq {types : List AbiType} {T : Nat → SiType} (h : AbiDescribes types T) : abiTypes types = T := by
  have h1 : ∀ a ∈ types, T a.id = a.toScale := by
    intro a ha
    have e := h.path a ha
    have e' := h.params a ha
    have e'' := (toScale_defines (h.typ a ha)).symm
    revert e e' e''
    generalize T a.id = t
    cases t
    rintro rfl rfl rfl
    rfl
  funext i
  by_cases hi : ∃ a ∈ types, a.id = i
  · exact abiTypes_describes h1 i hi
  · have : ∀ a ∈ types, a.id ≠ i := fun a ha e => hi ⟨a, ha, e⟩
    rw [abiTypes_absent this, h.other i this]

/-- What is covered is what the ABI describes. -/
theorem C87_covered (types : List AbiType) (T : Nat → SiType) (hT : AbiDescribes types T) (pre : Str) (eqFuel : Nat) (dec : SiDecoder) (dup : Str → Nat) (A : Nat → Prop) (i : Nat)
    (sh : Shape Nat) (h : Covered (countedCfg types pre eqFuel dec dup) A i sh) : Layer T i sh :=
  abiTypes_eq hT ▸ C59_covered h

/-! ## Registries that are equipped -/

theorem ready_equipped {reg : RegState} (h : Ready reg) : Equipped reg := ⟨h.stock, h.special, h.rows⟩

theorem arrayText_bracket (s : Str) (n : Nat) : (91 : UInt8) ∈ arrayText s 1 n := by rw [arrayText_one]; simp

/-- A registry to which the types of metadata or of a contract have been added is equipped again. -/
theorem loaded_equipped {cfg : SiCfg} {A : Nat → Prop} {reg : RegState} {st : SiState} (hq : Equipped reg) (hL : Loaded cfg A reg.env st) :
    Equipped st.reg := by
  have gen : ∀ k, ((60 : UInt8) ∈ k ∨ (91 : UInt8) ∈ k) → k.head? ≠ some 116 → k.head? ≠ some 112 → st.reg.env.reg k = reg.env.reg k := by
    intro k h h1 h2
    refine hL.generics k h ?_ ?_
    · rintro ⟨r, rfl⟩; exact h1 rfl
    · rintro ⟨r, rfl⟩; exact h2 rfl
  refine ⟨⟨fun p hp => ?_, fun s => ?_, fun s => ?_, fun s => ?_, ?_, fun s c hc => ?_, ?_, fun s n c hc => ?_⟩, ?_, ?_⟩
  · exact hL.kept _ _ (hq.stock.entry p hp) ((by decide +kernel : ∀ p ∈ stockClasses, Lasting p.1) p hp)
  · exact hL.vec s
  · rw [gen _ (.inl (by simp)) (by simp) (by simp)]; exact hq.stock.option s
  · rw [gen _ (.inl (by simp)) (by simp) (by simp)]; exact hq.stock.result s
  · rw [gen _ (.inl (by decide)) (by decide) (by decide), gen _ (.inl (by decide)) (by decide) (by decide)]; exact hq.stock.compact
  · rw [gen _ (.inl (by simp [generic])) (by simp [generic]) (by simp [generic])] at hc; exact hq.stock.compacts s c hc
  · intro h
    cases e : reg.env.reg b!"moment" with
    | none => exact hq.stock.moment e
    | some c => rw [hL.kept _ _ e (by decide +kernel)] at h; cases h
  · rw [gen _ (.inr (arrayText_bracket s n)) (by rw [arrayText_one]; simp) (by rw [arrayText_one]; simp)] at hc
    exact hq.stock.array s n c hc
  · rw [hL.rest.1]; exact hq.special
  · rw [hL.rest.2]; exact hq.rows

/-- A contract can be registered after another. -/
theorem C87_after_contract (types : List AbiType) (pre : Str) (eqFuel fuel : Nat) (dec dec' : SiDecoder) (reg reg' : RegState) (dup : Str → Nat)
    (A : Nat → Prop) (hd : countNamesOn (abiCfg types pre dec.spec eqFuel) dec.dup = .ok dup) (hq : Equipped reg)
    (hE : EarlyOK (countedCfg types pre eqFuel dec dup) A) (hT : Tidy (countedCfg types pre eqFuel dec dup) A reg.env.reg)
    (h : abiRegister types pre eqFuel fuel dec reg = .ok (dec', reg')) : Equipped reg' :=
  loaded_equipped hq (abi_loaded hd hq hE hT h)

/-- A contract can be registered after V14 metadata that is understood. -/
theorem C87_after_v14 (reg : RegState) (spec : Int) (md0 : Option MD) (l : List (Nat × PType)) (ps : List WPallet) (t v : Nat) (xs : List WExtension)
    (b : Str) (dup : Str → Nat) (A : Nat → Prop) (fuel : Nat) (st : SiState) (hr : MetaReady reg) (hw : Written14 l ps t v xs b) (hR : Regular l ps)
    (hU : Understood l spec reg dup A fuel st) : ∃ out, Settles (fun n => processV14 n reg ⟨[], spec, md0⟩) b out ∧ Equipped out.reg := by
  obtain ⟨out, h1, h2, h3⟩ := C79_partial reg spec md0 l ps t v xs b dup A fuel st hr hw hR hU
  refine ⟨out, h1, ?_⟩
  rw [h3]
  exact loaded_equipped (ready_equipped hr.toReady) ((hU.loaded hr.toReady).origin hU.tidy hr.origin _)

/-- The same for V15 metadata. -/
theorem C87_after_v15 (reg : RegState) (spec : Int) (md0 : Option MD) (x : W15) (b : Str) (dup : Str → Nat) (A : Nat → Prop) (fuel : Nat) (st : SiState)
    (hr : MetaReady reg) (hF : x.Fits) (hw : EncW15 x b) (hR : Regular x.types (x.pallets.map Prod.fst)) (hU : Understood x.types spec reg dup A fuel st) :
    ∃ out, Settles (fun n => processV15 n reg ⟨[], spec, md0⟩) b out ∧ Equipped out.reg := by
  obtain ⟨out, h1, h2, h3⟩ := C80_exact reg spec md0 x b dup A fuel st hr hF hw hR hU
  refine ⟨out, h1, ?_⟩
  rw [h3]
  exact loaded_equipped (ready_equipped hr.toReady) ((hU.loaded hr.toReady).origin hU.tidy hr.origin _)

/-! ## The full claim is false -/

/-- An ABI with `bool` and `Option<bool>`. -/
def boolAbi : List AbiType :=
  [{ id := 0, typ := { primitive := some b!"bool" } },
   { id := 1, path := [b!"Option"], params := [(b!"T", 0)], typ := { variant := some [⟨b!"None", [], 0⟩, ⟨b!"Some", [⟨[], 0, []⟩], 1⟩] } }]

/-- What the registration gives. -/
def boolReg : SiDecoder × RegState := match abiRegister boolAbi b!"c" 9 9 (SiDecoder.init {}) rowsReg with
  | .ok x => x
  | _ => ({}, rowsReg)

theorem boolReg_ok : abiRegister boolAbi b!"c" 9 9 (SiDecoder.init {}) rowsReg = .ok (boolReg.1, boolReg.2) := by kernel_rfl

theorem bool_name : abiTypeName boolReg.1 1 = b!"option<bool>" := by kernel_rfl

/-- The second byte of `Some(true)` is not read. -/
theorem bool_short (n : Nat) : pau boolReg.2.env (n + 9) ⟨[], 0, none⟩ b!"option<bool>" ⟨⟨[1, 1], 0⟩, []⟩ = .ok (.bool true, ⟨⟨[1, 1], 1⟩, []⟩) := by
  kernel_rfl

/-- The full claim is false: one byte of an option of a truth value stays unread. -/
theorem C87_claim_false : ¬ C87Claim := by
  intro h
  have hd : AbiDescribes boolAbi (abiTypes boolAbi) := by
    refine ⟨?_, ?_, ?_, fun i hi => abiTypes_absent hi⟩
    · simp only [boolAbi, List.forall_mem_cons]; exact ⟨rfl, rfl, by simp⟩
    · simp only [boolAbi, List.forall_mem_cons]; exact ⟨rfl, rfl, by simp⟩
    · simp only [boolAbi, List.forall_mem_cons]; exact ⟨.primitive _, .variant _, by simp⟩
  have hs : Scale (Layer (abiTypes boolAbi)) (SupportedBy fun _ => True) 1 (.bool true) (.bool true) [1, 1] :=
    .some (el := 0) (Layer.option (p := b!"Option") (ps := []) (n := b!"T") (qs := []) rfl rfl (by decide) rfl)
      (.leaf (sh := .bool) (.primitive (p := b!"bool") rfl (by simp [primitiveShapes])) ⟨true, rfl, rfl, rfl⟩ trivial)
      (show ¬ CountsAsNone (.bool true) by simp [CountsAsNone])
  obtain ⟨N, hN⟩ := (h boolAbi _ b!"c" 9 9 (SiDecoder.init {}) boolReg.1 rowsReg boolReg.2 ⟨[], 0, none⟩ ECtx.none hd (ready_equipped rows_ready)
    (by decide) boolReg_ok 1 _ _ _ (by decide) hs).2
  have h1 := hN (N + 9) (by omega) [] [] [] (by decide)
  rw [bool_name] at h1
  have h2 := bool_short N
  rw [show (([] : Str) ++ ([1, 1] ++ []) : Str) = [1, 1] from rfl, show ([] : Str).length = 0 from rfl, h2] at h1
  cases h1

/-! ## The hypotheses are met -/

/-- The types of `contract/metadata.json`: `u128`, `Result<(), LangError>`, `()`, `LangError`, `Result<u128, LangError>`, `AccountId`,
`[u8; 32]`, `u8`. -/
def flipAbi : List AbiType :=
  [{ id := 0, typ := { primitive := some b!"u128" } },
   { id := 1, path := [b!"Result"], params := [(b!"T", 2), (b!"E", 3)],
     typ := { variant := some [⟨b!"Ok", [⟨[], 2, []⟩], 0⟩, ⟨b!"Err", [⟨[], 3, []⟩], 1⟩] } },
   { id := 2, typ := { tuple := some [] } },
   { id := 3, path := [b!"ink_primitives", b!"LangError"], typ := { variant := some [⟨b!"CouldNotReadInput", [], 1⟩] } },
   { id := 4, path := [b!"Result"], params := [(b!"T", 0), (b!"E", 3)],
     typ := { variant := some [⟨b!"Ok", [⟨[], 0, []⟩], 0⟩, ⟨b!"Err", [⟨[], 3, []⟩], 1⟩] } },
   { id := 5, path := [b!"ink_primitives", b!"types", b!"AccountId"], typ := { composite := some [⟨[], 6, b!"[u8; 32]"⟩] } },
   { id := 6, typ := { array := some (32, 7) } },
   { id := 7, typ := { primitive := some b!"u8" } }]

def flipError : Str := b!"flip:ink_primitives:LangError"
def flipAccount : Str := b!"flip:ink_primitives:types:AccountId"

def flipDup : Str → Nat := fun k => if k = flipAccount then (if k = flipError then 0 + 1 else 0) + 1 else if k = flipError then 0 + 1 else 0

theorem flip_counted : countNamesOn (abiCfg flipAbi b!"flip" 0 9) (SiDecoder.init {}).dup = .ok flipDup := rfl

def flip : SiCfg := countedCfg flipAbi b!"flip" 9 (SiDecoder.init {}) flipDup

def flipEarly (i : Nat) : Prop := i = 0 ∨ i = 7

theorem flip_rest (k : Nat) : flip.types (k + 8) = {} := by
  show abiTypes flipAbi (k + 8) = {}
  have h : ∀ j, j < 8 → (j == k + 8) = false := fun j hj => by simp; omega
  have h' : ∀ j, j < 8 → ¬ j = k + 8 := fun j hj => by omega
  simp [flipAbi, abiTypes]

theorem flip_paths : ∀ i, (flip.types i).path ∈ [[], [b!"Result"], [b!"ink_primitives", b!"LangError"], [b!"ink_primitives", b!"types", b!"AccountId"]] := by
  refine demo_cases ?_ ?_ ?_ ?_ ?_ ?_ ?_ ?_ (fun k => ?_)
  rotate_right
  · rw [flip_rest]; exact List.mem_cons_self
  all_goals decide

theorem flip_names : ∀ i n, nameSiType flip (flip.types i) (some i) = .ok n → n = [] ∨ (i, n) ∈ [(3, flipError), (5, flipAccount)] := by
  refine demo_cases ?_ ?_ ?_ ?_ ?_ ?_ ?_ ?_ (fun k n h => ?_)
  rotate_right
  · rw [flip_rest] at h
    cases h
    exact .inl rfl
  all_goals intro n h; cases h; decide

theorem flip_typ : ∀ i, (flip.types i).typ ∈ [.none, .primitive b!"u128", .primitive b!"u8", .tuple [], .array 32 7, .composite [⟨[], 6, b!"[u8; 32]"⟩],
    .variant [⟨b!"CouldNotReadInput", [], 1⟩], .variant [⟨b!"Ok", [⟨[], 2, []⟩], 0⟩, ⟨b!"Err", [⟨[], 3, []⟩], 1⟩],
    .variant [⟨b!"Ok", [⟨[], 0, []⟩], 0⟩, ⟨b!"Err", [⟨[], 3, []⟩], 1⟩]] := by
  refine demo_cases ?_ ?_ ?_ ?_ ?_ ?_ ?_ ?_ (fun k => ?_)
  rotate_right
  · rw [flip_rest]; exact List.mem_cons_self
  all_goals decide

theorem flip_early : EarlyOK flip flipEarly where
  inside := by rintro i (rfl | rfl) <;> decide
  kind := by
    rintro i (rfl | rfl)
    · exact .inl ⟨_, rfl, rfl⟩
    · exact .inl ⟨_, rfl, rfl⟩
  wrapper := by
    intro i n p ps h
    have := flip_paths i
    revert h
    unfold IsWrapper
    generalize (flip.types i).path = q at this
    revert q
    intro q hq h
    exfalso
    revert q
    decide
  extrinsic := by
    intro i name p h
    have := flip_paths i
    revert h
    unfold IsExtrinsic
    generalize (flip.types i).path = q at this
    intro h
    exfalso
    revert q
    decide
  core := by
    rintro i h (rfl | rfl) <;> cases h

theorem flip_plain : PlainNames flip where
  segments := by
    intro i
    have := flip_paths i
    generalize (flip.types i).path = q at this
    intro s hs
    refine ident_of ?_
    revert q
    intro q hq
    revert s
    revert q
    decide
  pre := fun _ => ident_of (by decide)
  named := by
    refine demo_cases ?_ ?_ ?_ ?_ ?_ ?_ ?_ ?_ (fun k => ?_)
    rotate_right
    · rw [flip_rest]
      rintro (⟨_, h⟩ | ⟨_, h⟩) <;> cases h
    all_goals rintro (⟨_, h⟩ | ⟨_, h⟩) <;> first | (cases h; done) | (intro e; cases e)
  primitive := by
    intro i p h
    have := flip_typ i
    rw [h] at this
    simp only [List.mem_cons, reduceCtorEq, List.not_mem_nil, or_false, false_or, SiDef.primitive.injEq] at this
    rcases this with rfl | rfl <;> exact ⟨ident_of (by decide), by decide⟩
  crate := by
    intro i
    have := flip_paths i
    generalize (flip.types i).path = q at this
    revert q
    decide
  whole := by
    intro i
    unfold pathName
    have := flip_paths i
    generalize (flip.types i).path = q at this
    revert q
    decide
  range := by
    intro i h
    have := flip_typ i
    rw [h] at this
    simp at this

theorem flip_tuple {i : Nat} {ks : List Nat} (h : (flip.types i).typ = .tuple ks) : ks = [] := by
  have := flip_typ i
  rw [h] at this
  simpa using this

theorem flip_tidy : Tidy flip flipEarly startReg.env.reg where
  names := flip_plain
  unversioned := fun h => by cases h
  apart := by
    intro i n h hne
    have hi := (flip_names i n h).resolve_left hne
    have hnames : ∀ j m, nameSiType flip (flip.types j) (some j) = .ok m → toLower m = toLower n → j = i := by
      intro j m h' e
      rcases flip_names j m h' with rfl | hj
      · cases n with
        | nil => exact absurd rfl hne
        | cons => cases e
      · exact (by decide : ∀ p ∈ [(3, flipError), (5, flipAccount)], ∀ q ∈ [(3, flipError), (5, flipAccount)],
          toLower q.2 = toLower p.2 → q.1 = p.1) _ hi _ hj e
    have rest : ∀ p ∈ [(3, flipError), (5, flipAccount)], ¬ b!"tuple:" <+: toLower p.2 ∧ ¬ b!"primitive_types:" <+: toLower p.2 ∧
        toLower p.2 ≠ b!"extrinsicsignature" ∧ toLower p.2 ≠ b!"extrinsicsigner" := by decide
    obtain ⟨h1, h2, h3, h4⟩ := rest _ hi
    exact ⟨hnames, h1, h2, h3, h4⟩
  fresh := by
    intro i n h hne
    have hi := (flip_names i n h).resolve_left hne
    rw [startReg_fast]
    exact (by decide +kernel : ∀ p ∈ [(3, flipError), (5, flipAccount)], fastReg (toLower p.2) = none) _ hi
  tuples := by
    intro i j ks ls ts us h1 h2 _ _ _
    rw [flip_tuple h1, flip_tuple h2]
  freshTuples := fun _ _ _ _ _ _ => start_tuples _
  closed := by
    intro i hi
    obtain ⟨k, rfl⟩ := Nat.exists_eq_add_of_le' hi
    show (flip.types (k + 8)).typ = .none
    rw [flip_rest]

theorem flip_done : ∃ x : SiDecoder × RegState, abiRegister flipAbi b!"flip" 9 9 (SiDecoder.init {}) startReg = .ok x ∧
    x.1.ids 4 = some (b!"Result<u128," ++ flipError ++ b!">") ∧ x.1.ids 5 = some b!"[u8; 32]" := by
  rw [startReg_fast]
  exact ⟨_, rfl, rfl, rfl⟩

theorem flip_late {i : Nat} (h : i ≠ 0 ∧ i ≠ 7) : Late flip flipEarly i := by
  refine ⟨fun e => e.elim h.1 h.2, ?_⟩
  have := flip_paths i
  generalize (flip.types i).path = q at this
  revert q
  decide

theorem flip_not_call (i : Nat) : ¬ IsCallTag (flip.types i) := by
  have := flip_paths i
  unfold IsCallTag
  generalize (flip.types i).path = q at this
  revert q
  decide

theorem flip_not_wrapper (i : Nat) : ¬ IsWrapper (flip.types i) := by
  have := flip_paths i
  unfold IsWrapper
  generalize (flip.types i).path = q at this
  revert q
  decide

theorem flip_own : IsOwn (flip.types 3) := .inr ⟨_, _, _, rfl, rfl, by decide, by decide, flip_not_call 3⟩

theorem flip_error : Covered flip flipEarly 3 (.names [(b!"CouldNotReadInput", 1)]) :=
  .own (flip_late (by decide)) flip_own (OwnShape.names (vs := [⟨b!"CouldNotReadInput", [], 1⟩]) rfl (by decide) (by decide) (by decide) (by decide) (by decide))

theorem flip_u128 : Covered flip flipEarly 0 .u128 := .primitive (p := b!"u128") (.inl rfl) rfl (by decide) (by simp [primitiveShapes])

theorem flip_result : Covered flip flipEarly 4 (.result 0 3) := by
  refine .result (p := b!"Result") (flip_late (by decide)) rfl rfl (by decide) (flip_not_call 4) rfl (fun s hs => ?_) (fun s hs => ?_)
  · rw [text_primitive (p := b!"u128") hs (.inl rfl) rfl (by decide)]
    decide
  · have := text_ownName hs (flip_late (by decide)) flip_own
    cases this
    decide

theorem flip_bytes : Covered flip flipEarly 6 (.byteArray 32) :=
  .byteArray (p := b!"u8") (flip_late (by decide)) rfl (by decide) (by decide) (.inr rfl) (by decide) rfl (by decide)

theorem flip_account : Covered flip flipEarly 5 (.byteArray 32) :=
  .newtype (f := ⟨[], 6, b!"[u8; 32]"⟩) (flip_late (by decide)) ⟨_, rfl, flip_not_wrapper 5, by decide, by decide⟩ rfl (by decide) trivial flip_bytes

/-- The hypotheses of `C87_partial` are met: results of messages of the contract. -/
example (x : SiDecoder × RegState) (h : abiRegister flipAbi b!"flip" 9 9 (SiDecoder.init {}) startReg = .ok (x.1, x.2)) (ctx : Ctx) (ectx : ECtx)
    (n : Nat) (hn : n < 2 ^ 128) (v : Val) (s : Str) (hv : U128Input v n) (hs : _root_.Spec.IsNumeral s n) :
    (Encodes x.2.env ectx (abiTypeName x.1 4) (.map [(b!"Ok", v)]) (0 :: _root_.Spec.leBytes 16 n) ∧
      Decodes x.2.env ctx (abiTypeName x.1 4) (0 :: _root_.Spec.leBytes 16 n) (.map [(b!"Ok", .str s)]) []) ∧
    (Encodes x.2.env ectx (abiTypeName x.1 4) (.map [(b!"Error", .str b!"CouldNotReadInput")]) [1, 1] ∧
      Decodes x.2.env ctx (abiTypeName x.1 4) [1, 1] (.map [(b!"Error", .str b!"CouldNotReadInput")]) []) := by
  have hi : x.1.ids 4 = some (b!"Result<u128," ++ flipError ++ b!">") := by
    obtain ⟨y, h1, h2, _⟩ := flip_done
    rw [h] at h1
    cases h1
    exact h2
  have go := fun v r b hs => C87_partial flipAbi b!"flip" 9 9 (SiDecoder.init {}) x.1 startReg x.2 flipDup flipEarly ctx ectx flip_counted
    (ready_equipped start_ready.toReady) flip_early flip_tidy (by decide) h 4 _ v r b hi hs
  exact ⟨go _ _ _ (.resultOk flip_result (.leaf flip_u128 ⟨n, s, hn, hv, hs, rfl, rfl⟩ trivial) ⟨trivial, trivial⟩),
    go _ _ _ (.resultErr flip_result (.leaf flip_error ⟨_, 1, List.mem_cons_self, rfl, rfl, rfl⟩ trivial) ⟨trivial, trivial⟩)⟩

/-- Accounts of the contract. -/
example (x : SiDecoder × RegState) (h : abiRegister flipAbi b!"flip" 9 9 (SiDecoder.init {}) startReg = .ok (x.1, x.2)) (ctx : Ctx) (ectx : ECtx) :
    Encodes x.2.env ectx (abiTypeName x.1 5) (.str (shown .bytes (List.replicate 32 255))) (List.replicate 32 255) ∧
      Decodes x.2.env ctx (abiTypeName x.1 5) (List.replicate 32 255) (.str (shown .bytes (List.replicate 32 255))) [] := by
  have hi : x.1.ids 5 = some b!"[u8; 32]" := by
    obtain ⟨y, h1, _, h2⟩ := flip_done
    rw [h] at h1
    cases h1
    exact h2
  refine C87_partial flipAbi b!"flip" 9 9 (SiDecoder.init {}) x.1 startReg x.2 flipDup flipEarly ctx ectx flip_counted
    (ready_equipped start_ready.toReady) flip_early flip_tidy (by decide) h 5 _ _ _ _ hi (.leaf flip_account ⟨by simp, rfl, rfl⟩ ?_)
  rintro ⟨_, t, h⟩
  exact absurd (List.cons.inj h).1 (by decide)

end ScaleGo
