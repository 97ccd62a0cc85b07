import Verif.Lemmas.V15
import Verif.Props.C79

/-! # C80: V15 metadata gives the tables it describes -/

namespace ScaleGo
open _root_.Spec (WText WAll WList WOpt FText FList FId WPallet EncPallet EncPallet15 FPallet WExtension EncExtrinsic15 FExtension WRegistry
  FRegistry PType WEntry WKind WApi WMethod WCustom EncTail15 FApi FCustom EncApi EncMethod EncCustom hasherNames)
open ScaleGo.Spec

/-! ## What the metadata says -/

/-- V15 metadata. -/
structure W15 where
  types : List (Nat × PType)
  pallets : List (WPallet × List Str)
  version : Nat
  address : Nat
  call : Nat
  signature : Nat
  extra : Nat
  extensions : List WExtension
  type : Nat
  apis : List WApi
  outer : Nat × Nat × Nat
  custom : List WCustom

/-- The lengths and numbers are in range. -/
structure W15.Fits (x : W15) : Prop where
  types : FRegistry x.types
  pallets : FList (fun p => FPallet p.1 ∧ FList FText p.2) x.pallets
  version : x.version < 256
  ids : ∀ t ∈ [x.address, x.call, x.signature, x.extra], FId t
  extensions : FList FExtension x.extensions
  type : FId x.type
  apis : FList FApi x.apis
  outer : FId x.outer.1 ∧ FId x.outer.2.1 ∧ FId x.outer.2.2
  custom : FCustom x.custom

/-- Encoding of V15 metadata. -/
def EncW15 (x : W15) (b : Str) : Prop :=
  ∃ b1 b2 b3 b4, WRegistry x.types b1 ∧ WList EncPallet15 x.pallets b2 ∧
    EncExtrinsic15 x.version x.address x.call x.signature x.extra x.extensions b3 ∧ EncTail15 x.type x.apis x.outer x.custom b4 ∧
    b = b1 ++ (b2 ++ b3) ++ b4

/-- The output has the described modules and tables; `check` as in `DescribedKeys`. -/
structure Described15 (check : Bool) (x : W15) (ids : Nat → Option Str) (out : V15Out) : Prop where
  common : DescribedOut check x.types (x.pallets.map Prod.fst) x.extensions ids out.toV14Out
  type : out.type = x.type
  apis : out.apis = x.apis.map (keptApi ids)
  outer : out.outer = x.outer
  custom : out.custom = keptCustom x.custom

/-- V15 metadata whose types are entered under names of their own gives what it describes; as in V14 metadata, a map with one
hasher has one key. -/
def C80Claim : Prop :=
  ∀ (reg : RegState) (spec : Int) (md : Option MD) (x : W15) (b : Str) (dup : Str → Nat) (A : Nat → Prop) (fuel : Nat) (st : SiState),
    MetaReady reg → x.Fits → EncW15 x b → Regular x.types (x.pallets.map Prod.fst) → Understood x.types spec reg dup A fuel st →
    ∃ out, Settles (fun n => processV15 n reg ⟨[], spec, md⟩) b out ∧ Described15 true x st.ids out

/-- What `processV15` does after the part that V14 and V15 have in common. -/
def tail15 (ctx : Ctx) (n : Nat) (o : V14Out × (Nat → Option Str)) : Dec V15Out := fun st => do
  let (type, st) ← readInt (pau o.1.reg.env n) ctx b!"SiLookupTypeId" st
  let (apis, st) ← readVec (pau o.1.reg.env n) ctx (readApi (pau o.1.reg.env n) ctx o.2) st
  let (call, st) ← readInt (pau o.1.reg.env n) ctx b!"SiLookupTypeId" st
  let (event, st) ← readInt (pau o.1.reg.env n) ctx b!"SiLookupTypeId" st
  let (error, st) ← readInt (pau o.1.reg.env n) ctx b!"SiLookupTypeId" st
  let (custom, st) ← pau o.1.reg.env n ctx b!"BTreeMap<Text, CustomValueMetadata15>" st
  .ok ({ o.1 with type := type, apis := apis, outer := (call, event, error), custom := custom }, st)

theorem processV15_parts (n : Nat) (reg : RegState) (ctx : Ctx) (st : St) : processV15 n reg ctx st =
    (processCommon false readPallet15 b!"ExtrinsicMetadataV15" n reg ctx st >>= fun p => tail15 ctx n p.1 p.2) := rfl

/-- What comes of V15 metadata: everything as described, but the key of a map is split whenever it is a tuple. -/
theorem C80_exact (reg : RegState) (spec : Int) (md : Option MD) (x : W15) (b : Str) (dup : Str → Nat) (A : Nat → Prop) (fuel : Nat) (st : SiState)
    (hr : MetaReady reg) (hF : x.Fits) (hw : EncW15 x b) (hR : Regular x.types (x.pallets.map Prod.fst)) (hU : Understood x.types spec reg dup A fuel st) :
    ∃ out, Settles (fun n => processV15 n reg ⟨[], spec, md⟩) b out ∧ Described15 false x st.ids out ∧
      out.reg = { st.reg with env := registerOriginCaller st.reg.env (x.pallets.map fun p => (keptText p.1.name, p.1.index)) } := by
  obtain ⟨b1, b2, b3, b4, h1, h2, h3, h4, rfl⟩ := hw
  have hL := hU.loaded hr.toReady
  obtain ⟨texts, ht, hf, hd⟩ := texts_described (check := false) hU hR
  have hp := loaded_pallets hr hL hU.tidy (ctx := ⟨[], spec, md⟩) notOverridden_nil
  have hx := loaded_extrinsic hr hL hU.tidy (ctx := ⟨[], spec, md⟩) notOverridden_nil
  have ht' : eachRes (palletText false (wireCfg x.types spec) st.ids)
      (x.pallets.map fun p => { keptPallet p.1 with docs := p.2.map keptText }) = .ok texts := by
    rw [eachRes_ok] at ht ⊢
    rw [List.map_map, List.forall₂_map_left_iff] at ht
    rw [List.forall₂_map_left_iff]
    exact ht
  have hC := settles_common (check := false) (ctx := ⟨[], spec, md⟩) (pallet := readPallet15) (extrinsic := b!"ExtrinsicMetadataV15")
    (hr.portable spec md) h1 hF.types hU.done (C78_reads15 _ _ _ _ hp h2 hF.pallets) ht'
    (settles_extrinsic15 hx _ h3 hF.ids hF.version hF.extensions)
  have hO := hL.origin hU.tidy hr.origin ((x.pallets.map fun p => { keptPallet p.1 with docs := p.2.map keptText : Pallet }).map fun p => (p.name, p.index))
  have hT := loaded_tail hr hO hU.tidy (ctx := ⟨[], spec, md⟩) notOverridden_nil
  have h5 := settles_tail hT st.ids (fun type apis outer custom => V15Out.mk (metaOut texts
    ⟨x.extensions.map fun x => keptText x.identifier, x.extensions.map fun x => (keptText x.identifier, siText st.ids x.type)⟩ st
    (x.pallets.map fun p => { keptPallet p.1 with docs := p.2.map keptText })) type apis outer custom) h4 hF.type hF.apis hF.outer hF.custom
  have h6 := settles_step (k := fun n p => tail15 ⟨[], spec, md⟩ n p.1 p.2) hC h5
  refine ⟨_, h6, ?_, ?_⟩
  · exact ⟨⟨hd, described_calls hR hf, described_events hR hf, rfl⟩, rfl, rfl, rfl, rfl⟩
  · simp only [metaOut, List.map_map]
    rfl

/-- No map has a tuple with more members than hashers as its key. -/
def NoTupleKey (x : W15) : Prop :=
  ∀ p ∈ x.pallets, ∀ s ∈ p.1.storage, ∀ e ∈ s.2, ∀ hs k v t ts, e.kind = .map hs k v → (k, t) ∈ x.types → t.typ = .tuple ts → ts.length ≤ hs.length

/-- Without such maps the output is as described. -/
theorem C80_partial (reg : RegState) (spec : Int) (md : Option MD) (x : W15) (b : Str) (dup : Str → Nat) (A : Nat → Prop) (fuel : Nat) (st : SiState)
    (hr : MetaReady reg) (hF : x.Fits) (hw : EncW15 x b) (hR : Regular x.types (x.pallets.map Prod.fst)) (hU : Understood x.types spec reg dup A fuel st)
    (hk : NoTupleKey x) :
    ∃ out, Settles (fun n => processV15 n reg ⟨[], spec, md⟩) b out ∧ Described15 true x st.ids out ∧
      out.reg = { st.reg with env := registerOriginCaller st.reg.env (x.pallets.map fun p => (keptText p.1.name, p.1.index)) } := by
  obtain ⟨out, h1, h2, h3⟩ := C80_exact reg spec md x b dup A fuel st hr hF hw hR hU
  refine ⟨out, h1, { h2 with common := { h2.common with pallets := ?_ } }, h3⟩
  have key : ∀ p ∈ x.pallets.map Prod.fst, ∀ t, DescribedPallet false x.types st.ids p t → DescribedPallet true x.types st.ids p t := by
    intro p hp t hd
    obtain ⟨q, hq, rfl⟩ := List.mem_map.1 hp
    refine { hd with storage := ?_ }
    have : ∀ e ∈ (q.1.storage.getD ([], [])).2, ∀ y, DescribedStorage false x.types st.ids e y → DescribedStorage true x.types st.ids e y := by
      intro e he y hy
      refine ⟨hy.1, ?_⟩
      have hy := hy.2
      cases hkind : e.kind with
      | plain t => rw [hkind] at hy; exact hy
      | map hs k v =>
        rw [hkind] at hy
        obtain ⟨keys, ⟨t, ht, hc⟩, hy⟩ := hy
        refine ⟨keys, ⟨t, ht, ?_⟩, hy⟩
        cases hst : q.1.storage with
        | none => rw [hst] at he; cases he
        | some s =>
          rw [hst] at he
          rcases hc with ⟨ts, h1, h2, -, h3⟩ | ⟨h1, h2⟩
          · exact .inl ⟨ts, h1, h2, fun _ => hk q hq s hst e he hs k v t ts hkind ht h1, h3⟩
          · refine .inr ⟨fun ts a b => ?_, h2⟩
            have := (h1 ts a b).1
            cases this
    have hl := hd.storage
    revert this hl
    generalize (q.1.storage.getD ([], [])).2 = m
    generalize t.storage = r
    intro this hl
    induction hl with
    | nil => exact .nil
    | cons a _ ih => exact .cons (this _ (by simp) _ a) (ih fun e he => this e (by simp [he]))
  have hl := h2.common.pallets
  revert key hl
  generalize x.pallets.map Prod.fst = m
  generalize out.pallets = r
  intro key hl
  induction hl with
  | nil => exact .nil
  | cons a _ ih => exact .cons (key _ (by simp) _ a) (ih fun e he => key e (by simp [he]))

/-! ## Encodings exist -/

/-- Whatever fits can be written. -/
theorem C80_written (x : W15) (h : x.Fits) : ∃ b, EncW15 x b := by
  have id : ∀ n, FId n → ∃ b, Spec.IsCompact n b := fun n h => isCompact_exists n (Nat.lt_trans h (by decide))
  have text : ∀ s, FText s → ∃ b, WText s b := fun s h => by
    obtain ⟨c, hc⟩ := isCompact_exists s.length (Nat.lt_trans h (by decide))
    exact ⟨_, c, hc, rfl⟩
  have pallet : ∀ p : WPallet × List Str, FPallet p.1 ∧ FList FText p.2 → ∃ b, EncPallet15 p b := by
    rintro p ⟨h1, h2⟩
    obtain ⟨_, _, _, _, ⟨b1, _, hb, _⟩, _⟩ := C78_written [p.1] ⟨by simp, by simpa using h1⟩
    obtain ⟨b2, hb2⟩ := wList_exists text p.2 h2
    exact ⟨_, b1, b2, hb, hb2, rfl⟩
  have ext : ∀ e, FExtension e → ∃ b, _root_.Spec.EncExtension e b := by
    rintro e ⟨h1, h2, h3⟩
    obtain ⟨b1, h1⟩ := text _ h1
    obtain ⟨b2, h2⟩ := id _ h2
    obtain ⟨b3, h3⟩ := id _ h3
    exact ⟨_, b1, b2, b3, h1, h2, h3, rfl⟩
  have method : ∀ m, _root_.Spec.FMethod m → ∃ b, EncMethod m b := by
    rintro m ⟨h1, h2, h3, h4⟩
    obtain ⟨b1, h1⟩ := text _ h1
    obtain ⟨b2, h2⟩ := wList_exists (P := fun i b => ∃ c d, WText i.1 c ∧ Spec.IsCompact i.2 d ∧ b = c ++ d) (fun i h => by
      obtain ⟨c, hc⟩ := text _ h.1
      obtain ⟨d, hd⟩ := id _ h.2
      exact ⟨_, c, d, hc, hd, rfl⟩) m.inputs h2
    obtain ⟨b3, h3⟩ := id _ h3
    obtain ⟨b4, h4⟩ := wList_exists text _ h4
    exact ⟨_, b1, b2, b3, b4, h1, h2, h3, h4, rfl⟩
  have api : ∀ a, FApi a → ∃ b, EncApi a b := by
    rintro a ⟨h1, h2, h3⟩
    obtain ⟨b1, h1⟩ := text _ h1
    obtain ⟨b2, h2⟩ := wList_exists method _ h2
    obtain ⟨b3, h3⟩ := wList_exists text _ h3
    exact ⟨_, b1, b2, b3, h1, h2, h3, rfl⟩
  obtain ⟨b1, h1⟩ := C77_written _ h.types
  obtain ⟨b2, h2⟩ := wList_exists pallet _ h.pallets
  obtain ⟨c1, k1⟩ := id _ (h.ids x.address (by simp))
  obtain ⟨c2, k2⟩ := id _ (h.ids x.call (by simp))
  obtain ⟨c3, k3⟩ := id _ (h.ids x.signature (by simp))
  obtain ⟨c4, k4⟩ := id _ (h.ids x.extra (by simp))
  obtain ⟨c5, k5⟩ := wList_exists ext _ h.extensions
  obtain ⟨d1, e1⟩ := id _ h.type
  obtain ⟨d2, e2⟩ := wList_exists api _ h.apis
  obtain ⟨d3, e3⟩ := id _ h.outer.1
  obtain ⟨d4, e4⟩ := id _ h.outer.2.1
  obtain ⟨d5, e5⟩ := id _ h.outer.2.2
  obtain ⟨d6, e6⟩ := wAll_exists (P := EncCustom) (fun c (h : FText c.name ∧ FId c.type ∧ FText c.value) => by
    obtain ⟨b1, h1⟩ := text _ h.1
    obtain ⟨b2, h2⟩ := id _ h.2.1
    obtain ⟨b3, h3⟩ := text _ h.2.2
    exact ⟨_, b1, b2, b3, h1, h2, h3, rfl⟩) x.custom h.custom.2
  obtain ⟨c6, k6⟩ := isCompact_exists x.custom.length (Nat.lt_of_le_of_lt h.custom.1 (by decide))
  exact ⟨_, b1, b2, _, _, h1, h2, ⟨c1, c2, c3, c4, c5, k1, k2, k3, k4, k5, rfl⟩,
    ⟨d1, d2, d3, d4, d5, _, e1, e2, e3, e4, e5, ⟨c6, d6, k6, e6, rfl⟩, rfl⟩, rfl⟩

/-! ## The claim is false: a map whose only key is a pair -/

/-- The types `u16` and `(u16, u16)`. -/
def pairTypes : List (Nat × PType) := [(0, ⟨[], [], .primitive 4, []⟩), (1, ⟨[], [], .tuple [0, 0], []⟩)]

/-- A pallet with a map from pairs to numbers, with one hasher. -/
def pairMeta : W15 where
  types := pairTypes
  pallets := [(⟨b!"P", some (b!"P", [⟨b!"Of", 0, .map [5] 1 0, [], []⟩]), none, none, [], none, 3⟩, [])]
  version := 4
  address := 0
  call := 0
  signature := 0
  extra := 0
  extensions := []
  type := 0
  apis := []
  outer := (0, 0, 0)
  custom := []

def pairCfg : SiCfg where
  types := fun i => match i with
    | 0 => { typ := .primitive b!"U16" }
    | 1 => { typ := .tuple [0, 0] }
    | _ => {}
  count := 2

theorem pair_cases {P : Nat → Prop} (h0 : P 0) (h1 : P 1) (h : ∀ k, P (k + 2)) : ∀ i, P i
  | 0 => h0 | 1 => h1 | (k + 2) => h k

theorem pair_wire : wireCfg pairTypes 0 = pairCfg := by
  have h : ∀ i, (wireCfg pairTypes 0).types i = pairCfg.types i := by
    refine pair_cases ?_ ?_ (fun k => ?_)
    iterate 2 exact (by decide +kernel)
    show portableType (kept pairTypes) (k + 2) = {}
    unfold portableType
    rw [List.find?_eq_none.2]
    intro p hp
    have : p.1 ∈ List.range 2 := by
      have : p.1 ∈ (kept pairTypes).map Prod.fst := List.mem_map.2 ⟨p, List.mem_reverse.1 hp, rfl⟩
      exact (by decide +kernel : (kept pairTypes).map Prod.fst = List.range 2) ▸ this
    have := List.mem_range.1 this
    simp only [beq_iff_eq]
    omega
  have hc : (wireCfg pairTypes 0).count = pairCfg.count := by decide +kernel
  show SiCfg.mk (wireCfg pairTypes 0).types (wireCfg pairTypes 0).count _ _ _ _ _ = SiCfg.mk pairCfg.types pairCfg.count _ _ _ _ _
  rw [funext h, hc]
  rfl

theorem pair_path (i : Nat) : (pairCfg.types i).path = [] := by
  revert i
  exact pair_cases rfl rfl fun _ => rfl

theorem pair_params (i : Nat) : (pairCfg.types i).params = [] := by
  revert i
  exact pair_cases rfl rfl fun _ => rfl

theorem pair_name (i : Nat) (n : Str) (h : nameSiType pairCfg (pairCfg.types i) (some i) = .ok n) : n = [] := by
  revert i
  exact pair_cases (fun h => by cases h; rfl) (fun h => by cases h; rfl) fun _ h => by cases h; rfl

theorem pair_early : EarlyOK pairCfg (· = 0) where
  inside := by rintro i rfl; decide
  kind := by rintro i rfl; exact .inl ⟨_, rfl, rfl⟩
  wrapper := by
    intro i n p ps _ h
    rw [pair_params] at h
    cases h
  extrinsic := by
    intro i name p _ _ h
    rw [pair_params] at h
    cases h
  core := fun _ _ h => h

theorem pair_plain : PlainNames pairCfg where
  segments := by
    intro i s hs
    rw [pair_path] at hs
    cases hs
  pre := fun h => absurd rfl h
  named := pair_cases (by rintro (⟨_, h⟩ | ⟨_, h⟩) <;> cases h) (by rintro (⟨_, h⟩ | ⟨_, h⟩) <;> cases h)
    fun _ => by rintro (⟨_, h⟩ | ⟨_, h⟩) <;> cases h
  primitive := pair_cases (fun p h => by cases h; exact ⟨ident_of (by decide), by decide⟩) (fun p h => by cases h) fun _ p h => by cases h
  crate := by
    intro i h
    rw [pair_path] at h
    cases h
  whole := fun i h => absurd (pair_path i) h
  range := pair_cases (fun h => by cases h) (fun h => by cases h) fun _ h => by cases h

theorem pair_tidy : Tidy pairCfg (· = 0) startReg.env.reg where
  names := pair_plain
  unversioned := fun _ => rfl
  apart := fun i n h hne => absurd (pair_name i n h) hne
  fresh := fun i n h hne => absurd (pair_name i n h) hne
  tuples := by
    have one : ∀ i ks, (pairCfg.types i).typ = .tuple ks → ks = [0, 0] :=
      pair_cases (fun _ h => by cases h) (fun _ h => by cases h; rfl) fun _ _ h => by cases h
    intro i j ks ls ts us h1 h2 _ _ _
    rw [one _ _ h1, one _ _ h2]
  freshTuples := fun _ _ _ _ _ _ => start_tuples _
  closed := by
    intro i hi
    obtain ⟨k, rfl⟩ := Nat.exists_eq_add_of_le' hi
    rfl

theorem pair_done : ∃ st, processSiType pairCfg 5 startReg = .ok st ∧ st.ids 0 = some b!"U16" ∧ st.ids 1 = some b!"Tuple:U16U16" := by
  rw [startReg_fast]
  exact ⟨_, rfl, rfl, rfl⟩

theorem pair_understood {st : SiState} (h : processSiType pairCfg 5 startReg = .ok st) :
    Understood pairTypes 0 startReg (fun _ => 0) (· = 0) 5 st := by
  constructor <;> rw [pair_wire]
  · rfl
  · exact pair_early
  · exact pair_tidy
  · exact h

theorem pair_regular : Regular pairMeta.types (pairMeta.pallets.map Prod.fst) where
  numbered := rfl
  pallets := by decide
  calls := by simp [pairMeta]
  events := by simp [pairMeta]
  errors := by simp [pairMeta]
  constants := by simp [pairMeta]
  keys := by simp [pairMeta, pairTypes]

theorem pair_fits : pairMeta.Fits where
  types := by simp [pairMeta, pairTypes, FRegistry, FList, FId, _root_.Spec.FType, _root_.Spec.FDef]
  pallets := by simp [pairMeta, FList, FPallet, FText, _root_.Spec.FEntry, _root_.Spec.FKind, FId]
  version := by decide
  ids := by simp [pairMeta, FId]
  extensions := by simp [pairMeta, FList]
  type := by simp [pairMeta, FId]
  apis := by simp [pairMeta, FList]
  outer := by simp [pairMeta, FId]
  custom := by simp [pairMeta, FCustom]

theorem pair_written : ∃ b, EncW15 pairMeta b ∧ b.length < 2 ^ 63 := by
  have sm : ∀ n : Nat, n < 64 → Spec.IsCompact n [UInt8.ofNat (4 * n)] := fun n h => .inl ⟨h,
    (by decide : ∀ n < 64, [UInt8.ofNat (4 * n)] = Spec.leBytes 1 (4 * n)) n h⟩
  have no : ∀ {α : Type} {P : α → Str → Prop}, WList P [] [0] := ⟨_, _, sm 0 (by decide), rfl, rfl⟩
  have tx : ∀ s : Str, s.length < 64 → WText s ([UInt8.ofNat (4 * s.length)] ++ s) := fun s h => ⟨_, sm _ h, rfl⟩
  have c0 := sm 0 (by decide)
  refine ⟨_, ⟨_, _, _, _, ⟨_, _, sm 2 (by decide), ⟨_, _, ⟨_, _, c0, ⟨_, _, _, _, no, no, rfl, no, rfl⟩, rfl⟩,
      ⟨_, _, ⟨_, _, sm 1 (by decide), ⟨_, _, _, _, no, no, ⟨_, ⟨_, _, sm 2 (by decide), ⟨_, _, c0, ⟨_, _, c0, rfl, rfl⟩, rfl⟩, rfl⟩, rfl⟩, no, rfl⟩, rfl⟩,
        rfl, rfl⟩, rfl⟩, rfl⟩,
    ⟨_, _, sm 1 (by decide), ⟨_, _, ⟨_, _, ⟨_, _, _, _, _, _, tx _ (by decide),
      ⟨_, ⟨_, _, tx _ (by decide), ⟨_, _, sm 1 (by decide), ⟨_, _, ⟨_, _, _, _, tx _ (by decide),
        ⟨_, _, _, ⟨_, _, sm 1 (by decide), ⟨_, _, rfl, rfl, rfl⟩, rfl⟩, sm 1 (by decide), c0, rfl⟩, tx _ (by decide), no, rfl⟩, rfl, rfl⟩, rfl⟩, rfl⟩, rfl⟩,
      rfl, rfl, no, rfl, rfl⟩, no, rfl⟩, rfl, rfl⟩, rfl⟩,
    ⟨_, _, _, _, _, c0, c0, c0, c0, no, rfl⟩,
    ⟨_, _, _, _, _, _, c0, no, c0, c0, c0, no, rfl⟩, rfl⟩, ?_⟩
  decide

/-- At most one output. -/
theorem settles_unique {α : Type} {f : Nat → Dec α} {b : Str} {a c : α} (hl : b.length < 2 ^ 63) (h1 : Settles f b a) (h2 : Settles f b c) : a = c := by
  obtain ⟨N, h1⟩ := h1
  obtain ⟨M, h2⟩ := h2
  have e1 := h1 (N + M) (by omega) [] [] [] (by simpa using hl)
  have e2 := h2 (N + M) (by omega) [] [] [] (by simpa using hl)
  rw [e1] at e2
  injection e2 with e2
  exact (Prod.mk.inj e2).1

/-- The map has one hasher and two keys. -/
theorem C80_claim_false : ¬ C80Claim := by
  intro h
  obtain ⟨st, hs, -, -⟩ := pair_done
  obtain ⟨b, hb, hl⟩ := pair_written
  obtain ⟨out, h1, h2⟩ := h startReg 0 none pairMeta b _ _ 5 st start_ready pair_fits hb pair_regular (pair_understood hs)
  obtain ⟨out', h1', h2', -⟩ := C80_exact startReg 0 none pairMeta b _ _ 5 st start_ready pair_fits hb pair_regular (pair_understood hs)
  cases settles_unique hl h1 h1'
  have p1 := h2.common.pallets
  have p2 := h2'.common.pallets
  generalize out.pallets = r at p1 p2
  cases p1 with
  | cons a1 _ =>
    cases p2 with
    | cons a2 _ =>
      have s1 := a1.storage
      have s2 := a2.storage
      generalize PalletText.storage _ = q at s1 s2
      cases s1 with
      | cons c1 _ =>
        cases s2 with
        | cons c2 _ =>
          obtain ⟨_, keys, ⟨t, ht, k1⟩, e1⟩ := c1
          obtain ⟨_, keys', ⟨t', ht', k2⟩, e2⟩ := c2
          simp only [pairMeta, pairTypes, List.mem_cons, Prod.mk.injEq, List.not_mem_nil, or_false] at ht ht'
          simp only [show (1 : Nat) ≠ 0 from by decide, false_and, false_or, true_and] at ht ht'
          subst ht ht'
          rw [e1] at e2
          have ek := (StorageText.map.inj e2).2.1
          subst ek
          rcases k1 with ⟨ts, h1, -, h2, -⟩ | ⟨-, h1⟩
          · cases h1
            exact absurd (h2 rfl) (by decide)
          · rcases k2 with ⟨ts, h2, -, -, h3⟩ | ⟨h2, -⟩
            · cases h2
              rw [h1] at h3
              simp at h3
            · exact absurd (h2 _ rfl (by simp)).1 (by decide)

/-! ## The hypotheses are met -/

/-- The types and pallets of the example of C79 with documentation, an api, and a custom value. -/
def demoMeta : W15 where
  types := demoTypes
  pallets := demoPallets.map fun p => (p, [b!"About"])
  version := 4
  address := 3
  call := 4
  signature := 0
  extra := 0
  extensions := [⟨b!"CheckNonce", 3, 0⟩]
  type := 0
  apis := [⟨b!"Core", [⟨b!"version", [(b!"at", 5)], 3, []⟩], []⟩]
  outer := (4, 4, 4)
  custom := [⟨b!"k", 3, [1, 2]⟩]

theorem demoMeta_fits : demoMeta.Fits where
  types := by
    simp [demoMeta, demoTypes, FRegistry, FList, FId, _root_.Spec.FType, _root_.Spec.FDef, FText, _root_.Spec.FVariant, _root_.Spec.FField]
  pallets := by simp [demoMeta, demoPallets, FList, FPallet, FText, _root_.Spec.FEntry, _root_.Spec.FKind, _root_.Spec.FConst, FId]
  version := by decide
  ids := by simp [demoMeta, FId]
  extensions := by simp [demoMeta, FList, FExtension, FText, FId]
  type := by simp [demoMeta, FId]
  apis := by simp [demoMeta, FList, FApi, _root_.Spec.FMethod, FText, FId]
  outer := by simp [demoMeta, FId]
  custom := by simp [demoMeta, FCustom, FText, FId]

/-- The api and the custom value are listed, with texts for types, and call 7 of the pallet 5 is in the table. -/
example : ∃ b out, Settles (fun n => processV15 n startReg ⟨[], 0, none⟩) b out ∧
    out.apis = [(b!"Core", [⟨b!"version", [(b!"at", 5, b!"option<Vec<U8>>")], (3, b!"U16"), []⟩], [])] ∧
    out.custom = .slice [.map [(b!"k", .map [(b!"type", .int 3), (b!"value", .str b!"0x0102")])]] ∧
    out.callIndex (_root_.Spec.hexText [5, 7]) = some ⟨b!"C", b!"Left", [(b!"x", b!"U16"), (b!"y", b!"option<Vec<U8>>")]⟩ := by
  obtain ⟨st, hs, h3, h0, h5⟩ := demo_done
  obtain ⟨b, hb⟩ := C80_written _ demoMeta_fits
  have e : demoMeta.pallets.map Prod.fst = demoPallets := by simp [demoMeta, Function.comp_def]
  obtain ⟨out, h1, h2, -⟩ := C80_partial startReg 0 none demoMeta b _ _ 5 st start_ready demoMeta_fits hb (by rw [e]; exact demo_regular) (demo_understood hs) (by
    intro p hp s hs e he hs k v t ts hk ht htt
    simp only [demoMeta, demoTypes, List.mem_cons, Prod.mk.injEq, List.not_mem_nil, or_false] at ht
    rcases ht with ⟨-, rfl⟩ | ⟨-, rfl⟩ | ⟨-, rfl⟩ | ⟨-, rfl⟩ | ⟨-, rfl⟩ | ⟨-, rfl⟩ | ⟨-, rfl⟩ | ⟨-, rfl⟩ <;> cases htt)
  have t3 : siText st.ids 3 = b!"U16" := by unfold siText; rw [h3]; rfl
  have t5 : siText st.ids 5 = b!"option<Vec<U8>>" := by unfold siText; rw [h5]; rfl
  refine ⟨b, out, h1, ?_, ?_, ?_⟩
  · rw [h2.apis]
    simp [demoMeta, keptApi, keptMethod, t3, t5]
    decide +kernel
  · rw [h2.custom]
    kernel_rfl
  · refine (h2.common.calls 5 7 _).2 ⟨_, by rw [e]; exact List.mem_cons_self, rfl, 4, _, rfl, ⟨_, by simp [demoMeta, demoTypes]; rfl, rfl⟩,
      ⟨b!"C", _, 7, []⟩, by simp; rfl, rfl, ?_⟩
    simp [fieldName, t3, t5]
    decide +kernel

end ScaleGo
