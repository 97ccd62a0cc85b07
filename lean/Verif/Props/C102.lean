import Verif.Lemmas.ChainTypes
import Verif.Props.C100

/-! # C102: type texts over the names a chain registers mean what the chain says

English claim: after `RegCustomTypes` has been given the types of a chain — structures, enums, lists of names and other names for types,
possibly for ranges of versions, in one list or several — every type text over these names and those of Substrate is encoded and decoded,
in each version, as the definitions in force say. -/

namespace ScaleGo
open _root_.Spec (Shape Payload Part Scale Leaf Names substrate TypeOver MeansOver RustType Means runtimeTypes compactTypes commaText
  Decl ChainType Limits Declares InForce extend vocabulary coreNames Proper ProperAll SugarOver
  OModule OCall FOld EncOld)
open ScaleGo.Spec

/-- The full claim. -/
def C102Claim : Prop :=
  ∀ (fuel : Nat) (ext : Ext) (v14 : Str → Option TypeDef) (v : Int) (ls : List (List ChainType)) (rss : List (List (Str × TypeDef))), v ≤ 99999999 →
    ProperAll unlimited ls v → List.Forall₂ (List.Forall₂ GivenAs) ls rss →
    ∃ st, registerLists fuel ⟨loadedEnv ext, v14⟩ rss = .ok st ∧
      ∀ (ctx : Ctx) (ectx : ECtx) (ty : Str) (x r : Val) (b : Str), ctx.spec = v → ectx.spec = v → Foreign (vocabulary unlimited ls v) ctx.module →
        Scale (MeansOver (vocabulary unlimited ls v) (fun _ => True) (fun _ => True)) (fun _ _ _ _ => True) ty x r b →
        Encodes st.env ectx ty x b ∧ Decodes st.env ctx ty b r []

/-! ## What holds -/

theorem knows_substrate (ext : Ext) (v : Int) : Knows (loadedEnv ext) v substrate [] where
  speaks := (builtIn_loaded ext).speaks
  wordy := substrate_wordy
  free _ _ := ⟨rfl, fun _ _ => rfl⟩
  brackets _ _ := trivial
  plain _ _ := rfl

theorem vocabulary_append (lim : Limits) (pre : List (List ChainType)) (l : List ChainType) (v : Int) :
    vocabulary lim (pre ++ [l]) v = extend lim (vocabulary lim pre v) l v := by simp [vocabulary]

theorem lists_known {v : Int} (fuel : Nat) (hv : v ≤ 99999999) : ∀ (ls pre : List (List ChainType)) (rss : List (List (Str × TypeDef))) (st : RegState),
    ProperAll limits (pre ++ ls) v → Knows st.env v (vocabulary limits pre v) pre.flatten → List.Forall₂ (List.Forall₂ GivenAs) ls rss →
    ∃ env', registerLists fuel st rss = .ok { st with env := env' } ∧ Knows env' v (vocabulary limits (pre ++ ls) v) (pre ++ ls).flatten ∧
      ∀ t, (∀ e ∈ ls.flatten, ¬ SameName e.name t) → env'.reg (toLower t) = st.env.reg (toLower t) ∧ env'.special (toLower t) = st.env.special (toLower t) := by
  intro ls
  induction ls with
  | nil =>
    intro pre rss st _ hK hg
    cases hg
    exact ⟨st.env, rfl, by simpa using hK, fun t _ => ⟨rfl, rfl⟩⟩
  | cons l ls ih =>
    intro pre rss st hP hK hg
    cases hg with
    | cons h1 h2 =>
      obtain ⟨e1, r1, k1, -, o1⟩ := knows_extend fuel hv hK (hP pre l ls rfl) h1
      obtain ⟨e2, r2, k2, o2⟩ := ih (pre ++ [l]) _ { st with env := e1 } (by simpa using hP) (by rw [vocabulary_append]; simpa using k1) h2
      refine ⟨e2, ?_, by simpa using k2, fun t ht => ?_⟩
      · unfold registerLists
        rw [r1]
        exact r2
      · have a1 := o1 t fun e he => ht e (by simp [he])
        have a2 := o2 t fun e he => ht e (by simp only [List.flatten_cons, List.mem_append]; exact .inr he)
        exact ⟨a2.1.trans a1.1, a2.2.trans a1.2⟩

/-- What is known after the lists. -/
theorem lists_loaded (fuel : Nat) (ext : Ext) (v14 : Str → Option TypeDef) {v : Int} {ls : List (List ChainType)} {rss : List (List (Str × TypeDef))} (hv : v ≤ 99999999)
    (hP : ProperAll limits ls v) (hg : List.Forall₂ (List.Forall₂ GivenAs) ls rss) :
    ∃ env', registerLists fuel ⟨loadedEnv ext, v14⟩ rss = .ok ⟨env', v14⟩ ∧ Knows env' v (vocabulary limits ls v) ls.flatten ∧
      ∀ t, (∀ e ∈ ls.flatten, ¬ SameName e.name t) → Held env' t := by
  obtain ⟨env', h1, h2, h3⟩ := lists_known fuel hv ls [] rss ⟨loadedEnv ext, v14⟩ (by simpa using hP) (knows_substrate ext v) hg
  exact ⟨env', h1, by simpa using h2, fun t ht => ⟨(h3 t ht).1, (h3 t ht).2⟩⟩

/-- With the restrictions of `limits` every type text over the names of the chain and of Substrate, also as generic code has it, is
encoded and decoded as the definitions in force say. -/
theorem C102_partial (fuel : Nat) (ext : Ext) (v14 : Str → Option TypeDef) (v : Int) (ls : List (List ChainType)) (rss : List (List (Str × TypeDef))) (hv : v ≤ 99999999)
    (hP : ProperAll limits ls v) (hg : List.Forall₂ (List.Forall₂ GivenAs) ls rss) :
    ∃ st, registerLists fuel ⟨loadedEnv ext, v14⟩ rss = .ok st ∧
      ∀ (ctx : Ctx) (ectx : ECtx) (raw ty : Str) (x r : Val) (b : Str), ctx.spec = v → ectx.spec = v → Foreign (vocabulary limits ls v) ctx.module →
        Cased ty raw ∨ SugarOver (vocabulary limits ls v) (· ∈ [b!"T::", b!"VecDeque<", b!"<T>", b!"<T as Trait>::", b!"<T, I>"]) raw ty →
        Scale (ReadOver (vocabulary limits ls v)) Supported ty x r b → Encodes st.env ectx raw x b ∧ Decodes st.env ctx raw b r [] := by
  obtain ⟨env', h1, h2, -⟩ := lists_loaded fuel ext v14 hv hP hg
  refine ⟨_, h1, fun ctx ectx raw ty x r b hc he hm hr h => ?_⟩
  rcases hr with hr | hr
  · exact over_partial h2.wordy h2.speaks ctx ectx ty raw x r b hc he hm h hr
  · obtain ⟨⟨N, g1⟩, ⟨M, g2⟩⟩ := over_partial h2.wordy h2.speaks ctx ectx ty ty x r b hc he hm h (.refl _)
    have e := C93_words_partial _ h2.wordy env' raw ty hr
    exact ⟨⟨N, fun n hn => by rw [e.encode]; exact g1 n hn⟩, M, fun n hn pre suf cs hl => by rw [e.decode]; exact g2 n hn pre suf cs hl⟩

/-! ## Metadata, calls, events and extrinsics -/

/-- The texts by which metadata is read. -/
def metaTexts : List Str :=
  [b!"Compact<u32>", b!"String", b!"Text", b!"HexBytes", b!"bool", b!"U8", b!"SiLookupTypeId", b!"Vec<String>", b!"Vec<Text>", b!"Vec<StorageHasher>", b!"StorageHasher",
   b!"StorageModify", b!"StorageFunctionTypeV14", b!"PalletCallMetadataV14", b!"PalletEventMetadataV14", b!"PalletErrorMetadataV14",
   b!"StorageFunctionType", b!"u8", b!"Bytes", b!"Vec<Bytes>", b!"ExtrinsicMetadata"]

/-- The names by which metadata, calls, events and extrinsics are read and written. -/
def systemNames : List Str :=
  [b!"String", b!"Text", b!"HexBytes", b!"bool", b!"U8", b!"SiLookupTypeId", b!"StorageHasher", b!"StorageModify", b!"StorageFunctionTypeV14",
   b!"PalletCallMetadataV14", b!"PalletEventMetadataV14", b!"PalletErrorMetadataV14", b!"StorageFunctionType", b!"Bytes", b!"ExtrinsicMetadata",
   b!"Call", b!"Address", b!"u32", b!"Hash", b!"ExtrinsicSignature", b!"Ed25519Signature", b!"Sr25519Signature", b!"EcdsaSignature", b!"EraExtrinsic",
   b!"Compact", b!"u64", b!"Balance", b!"AccountId", b!"Vec", b!"Struct", b!"u8"]

theorem meta_plain : ∀ t ∈ metaTexts, ∀ w ∈ consulted (t.length + 1) t, NeverOverridden w ∧ ((40 ∈ w ∨ 60 ∈ w ∨ 91 ∈ w) ∨ w ∈ systemNames) := by
  decide +kernel

/-- Registries with the built-in entries of these names read metadata. -/
theorem readsOld_held {env : Env} (h : ∀ t ∈ metaTexts, ∀ w ∈ consulted (t.length + 1) t, Held env w) (ctx : Ctx) : ReadsOld env ctx := by
  have key : ∀ t ∈ metaTexts, ∀ c s, Resolves (loadedEnv dummyExt) [] 0 t c s → Resolves env ctx.module ctx.spec t c s := by
    intro t ht c s hr
    unfold Resolves getCodecClass at hr ⊢
    rw [lookup_held dummyExt ctx.module ctx.spec _ t fun w hw => ⟨h t ht w hw, (meta_plain t ht w hw).1⟩]
    exact hr
  have hL := loaded_readsOld dummyExt 0 none
  refine { len := ?_, string := key _ (by decide) _ _ hL.string, text := key _ (by decide) _ _ hL.text, hexBytes := key _ (by decide) _ _ hL.hexBytes,
           bool := key _ (by decide) _ _ hL.bool, u8 := key _ (by decide) _ _ hL.u8, id := key _ (by decide) _ _ hL.id, strings := key _ (by decide) _ _ hL.strings,
           texts := key _ (by decide) _ _ hL.texts, hashers := key _ (by decide) _ _ hL.hashers, hasher := key _ (by decide) _ _ hL.hasher,
           modify := key _ (by decide) _ _ hL.modify, kind := key _ (by decide) _ _ hL.kind, call := key _ (by decide) _ _ hL.call,
           event := key _ (by decide) _ _ hL.event, error := key _ (by decide) _ _ hL.error, oldKind := key _ (by decide) _ _ hL.oldKind,
           byte := key _ (by decide) _ _ hL.byte, bytes := key _ (by decide) _ _ hL.bytes, manyBytes := key _ (by decide) _ _ hL.manyBytes,
           extrinsic := key _ (by decide) _ _ hL.extrinsic }
  obtain ⟨s, hs⟩ := hL.len
  exact ⟨s, key _ (by decide) _ _ hs⟩

/-- If the chain leaves the names of the system alone, its metadata of the versions 9 to 13 is read, and afterwards values, calls, events and
extrinsics whose types are texts over its names follow that metadata. -/
theorem C102_chain_partial (fuel : Nat) (ext : Ext) (v14 : Str → Option TypeDef) (spec : Int) (ls : List (List ChainType)) (rss : List (List (Str × TypeDef)))
    (hv : spec ≤ 99999999) (hP : ProperAll limits ls spec) (hg : List.Forall₂ (List.Forall₂ GivenAs) ls rss)
    (hn : ∀ e ∈ ls.flatten, ∀ w ∈ systemNames, ¬ SameName e.name w)
    (v : Nat) (ctx : Ctx) (l : List OModule) (xv : Nat) (exts : List Str) (b : Str) (h9 : 9 ≤ v) (h13 : v ≤ 13)
    (hf : FOld v l xv exts) (hd : DistinctIndex v l) (hw : EncOld v l xv exts b) (hl : b.length < 2 ^ 63) :
    ∃ st out, registerLists fuel ⟨loadedEnv ext, v14⟩ rss = .ok st ∧ Gives (fun n => processOld v n st ctx) b out ∧ ∀ md, UsesOldAll v md out →
      let N := vocabulary limits ls spec
      let R : TextRel := fun t y r b => GoodOver N t y r b ∨ AccountValue t y r b
      let ok : OModule → Prop := fun x => Foreign N (keptText x.name)
      WorksOld (· = spec) (GoodOver N) R v l ok out.reg.env md ∧
      ReadsOldChain (· = spec) (GoodOver N) R v l exts ok (fun b => b.head? = some 255) (InOldOrder v) out.reg.env md ∧
      (12 ≤ v → ∀ x c i j as, IsOldCall v l x c i j → OldArguments (GoodOver N) (c.args.map Prod.snd) as → ∀ q g t, OldFits v exts q → OldGiven q i j as g →
        g.signer = .str t → IsHexOf t q.signerB → (q.body i j as).length < 2 ^ 30 → IsWritten out.reg.env spec md g (q.body i j as)) := by
  obtain ⟨env', h1, h2, h3⟩ := lists_loaded fuel ext v14 hv hP hg
  have names : ∀ e ∈ ls.flatten, Word e.name := by
    intro e he
    obtain ⟨l, hl, he'⟩ := List.mem_flatten.1 he
    obtain ⟨p, s, hps⟩ := List.append_of_mem hl
    exact (hP p l s hps).names e he'
  have held : ∀ w, ((40 ∈ w ∨ 60 ∈ w ∨ 91 ∈ w) ∨ w ∈ systemNames) → Held env' w := by
    intro w hw
    refine h3 w fun e he => ?_
    rcases hw with hw | hw
    · exact word_apart (names e he) hw
    · exact hn e he w hw
  have hR : ReadsOld env' ctx := readsOld_held (fun t ht w hw => held w (meta_plain t ht w hw).2) ctx
  have hO : ReadyOver env' (· = spec) (vocabulary limits ls spec) :=
    { toSpeaks := h2.speaks, others := fun w hw => held w ((by decide : ∀ w ∈ [b!"Call", b!"Address", b!"u32", b!"Hash", b!"Vec<Hash>"], (40 ∈ w ∨ 60 ∈ w ∨ 91 ∈ w) ∨ w ∈ systemNames) w hw) }
  have hS : SignHeld env' :=
    { sign := fun w hw => held w ((by decide : ∀ w ∈ signWords, (40 ∈ w ∨ 60 ∈ w ∨ 91 ∈ w) ∨ w ∈ systemNames) w hw)
      ints := fun w hw => held w ((by decide : ∀ w ∈ [b!"Compact", b!"Compact<u64>", b!"u64", b!"Compact<Balance>", b!"Balance", b!"AccountId"],
        (40 ∈ w ∨ 60 ∈ w ∨ 91 ∈ w) ∨ w ∈ systemNames) w hw)
      address := held _ (by decide) }
  obtain ⟨out, read, rest, rfl, -, g1, g2, g3⟩ := C82_exact v ⟨env', v14⟩ ctx l xv exts b hR hf hd hw
  have hO' : ReadyOver out.reg.env (· = spec) (vocabulary limits ls spec) := by
    rw [g3]
    split
    · exact hO
    · exact readyOver_origin h2.wordy hO _
  have hS' : SignHeld out.reg.env := by
    rw [g3]
    split
    · exact hS
    · exact signHeld_origin hS _
  refine ⟨_, out, h1, g1.gives hl, fun md hm => ⟨worksOver_of h2.wordy h9 g2 hO' md hm.1, readsOver_of h2.wordy h9 h13 g2 hO' hS' md hm, ?_⟩⟩
  intro h12 x c i j as hc ha q g t hq hgv hs ht hlen
  exact writtenOver_of h2.wordy h12 h13 g2 hO' hS' md hm x c i j as hc ha q g spec t q.signerB rfl hq hgv hs ht hlen

/-! ## What does not -/

/-- A name for another name gets the definition without versions of that name, even where one with versions is in force. -/
theorem C102_name_of_name (fuel : Nat) (st : RegState) (k t : Str) (c : Cls) (ht : convertType t = t) (hr : st.env.reg (toLower t) = some c) :
    regCustomTypes fuel st [(k, (Decl.same t).row)] = .ok { st with env := regCustomKey st.env (toLower k) c } := by
  simp [regCustomTypes, regLoop, regEntry, v14Key, Decl.row, regAlias, ht, hr]

/-- A name for an array of arrays is not entered at all. -/
theorem C102_array_of_arrays (fuel : Nat) (st : RegState) (k el : Str) (n : Nat) (he : 59 ∈ el)
    (ht : convertType (b!"[" ++ el ++ b!"; " ++ natToDec n ++ b!"]") = b!"[" ++ el ++ b!"; " ++ natToDec n ++ b!"]")
    (hr : st.env.reg (toLower (b!"[" ++ el ++ b!"; " ++ natToDec n ++ b!"]")) = none) :
    regCustomTypes fuel st [(k, (Decl.same (b!"[" ++ el ++ b!"; " ++ natToDec n ++ b!"]")).row)] = .ok st := by
  have h : aliasClass (b!"[" ++ el ++ b!"; " ++ natToDec n ++ b!"]") = .ok none := by
    have e : b!"[" ++ el ++ b!"; " ++ natToDec n ++ b!"]" = (91 :: (el ++ 59 :: (32 :: natToDec n))) ++ [93] := by simp
    rw [e]
    unfold aliasClass
    rw [if_neg (by simp), not_generic rfl (by decide)]
    dsimp only
    rw [if_neg (fun h => absurd h.2.1 (by simp)), if_pos ⟨fun h => by have := congrArg List.length h; simp at this; omega, by simp, by unfold endsWith; rw [List.getLast?_concat]; rfl⟩,
      List.cons_append, List.drop_succ_cons, List.drop_zero, List.dropLast_concat]
    obtain ⟨a, r, rfl, ha⟩ := List.eq_append_cons_of_mem he
    obtain ⟨a', r', e', ha'⟩ := List.eq_append_cons_of_mem (show 59 ∈ r ++ 59 :: 32 :: natToDec n by simp)
    rw [List.append_assoc, List.cons_append, show (b!";" : Str) = [59] from rfl, splitSep_one 59 _ _ ha, e', splitSep_one 59 _ _ ha']
    cases h : splitSep r' [59] with
    | nil => exact absurd h (splitSepAux_ne_nil _ _ _ _)
    | cons x l => rfl
  generalize b!"[" ++ el ++ b!"; " ++ natToDec n ++ b!"]" = t at *
  have hd : regAlias fuel [(k, (Decl.same t).row)] st (toLower k) (Decl.same t).row = .ok st := by
    have hx : regAliasText st (toLower k) t = .ok st := by
      unfold regAliasText
      rw [h]
      rfl
    unfold regAlias
    simp only [Decl.row, ht, hr, hx]
    split
    · rename_i e he
      have := tableGet_mem he
      simp only [List.mem_singleton, Prod.mk.injEq] at this
      obtain ⟨_, rfl⟩ := this
      simp [hr]
    · rfl
  have h1 : regEntry fuel [(k, (Decl.same t).row)] st k (Decl.same t).row = .ok (some st) := by
    unfold regEntry
    rw [show v14Key fuel st k (Decl.same t).row = .ok (some (st, k)) from rfl]
    change (regAlias fuel [(k, (Decl.same t).row)] st (toLower k) (Decl.same t).row >>= fun st => .ok (some st)) = _
    rw [hd]
    rfl
  unfold regCustomTypes regLoop
  rw [h1]
  rfl

/-- A chain with a name for an array of arrays. -/
def gridTypes : List ChainType := [{ name := b!"Grid", decl := .same b!"[[u8; 1]; 1]" }]

theorem grid_declared (N : Names) : Declares unlimited N (.same b!"[[u8; 1]; 1]") (.array 1 b!"[u8; 1]") :=
  .text (.array (t := b!"[u8; 1]") 1 trivial (.array (t := b!"u8") 1 (.name (sh := .null) (by decide : PlainName b!"u8"))) (by decide) trivial) (by decide : ¬ PlainName _) (by simp) (by simp) trivial

theorem grid_proper (v : Int) : ProperAll unlimited [gridTypes] v := by
  intro past l rest h
  obtain ⟨rfl, rfl, rfl⟩ : past = [] ∧ l = gridTypes ∧ rest = [] := by
    cases past with
    | nil => simpa [eq_comm] using h
    | cons a p => simp at h
  constructor
  · simp only [gridTypes, List.mem_singleton, forall_eq]
    exact (by decide : PlainName b!"Grid")
  · decide
  · simp [gridTypes]
  · simp only [gridTypes, List.mem_singleton, forall_eq]
    exact ⟨_, grid_declared _⟩
  · simp [gridTypes]
  · simp
  · simp only [gridTypes, List.mem_singleton, forall_eq, List.flatten_nil, List.not_mem_nil, false_implies, implies_true, and_true, Decl.same.injEq]
    rintro t rfl
    decide

/-- The full claim is false: a name for an array of arrays cannot be decoded. -/
theorem C102_claim_false : ¬ C102Claim := by
  intro hc
  obtain ⟨st, h1, h2⟩ := hc 0 dummyExt (fun _ => none) 0 [gridTypes] [[(b!"Grid", (Decl.same b!"[[u8; 1]; 1]").row)]] (by decide) (grid_proper 0)
    (.cons (.cons ⟨rfl, rfl⟩ .nil) .nil)
  have e : registerLists 0 ⟨loadedEnv dummyExt, fun _ => none⟩ [[(b!"Grid", (Decl.same b!"[[u8; 1]; 1]").row)]] = .ok ⟨loadedEnv dummyExt, fun _ => none⟩ := by
    unfold registerLists
    rw [show b!"[[u8; 1]; 1]" = b!"[" ++ b!"[u8; 1]" ++ b!"; " ++ natToDec 1 ++ b!"]" by rfl, C102_array_of_arrays 0 _ _ b!"[u8; 1]" 1 (by decide) (by kernel_rfl)
      (by unfold loadedEnv; rw [loadedReg_fast]; kernel_rfl)]
    rfl
  obtain rfl := Res.ok.inj (e.symm.trans h1)
  have hN : ∀ t, (vocabulary unlimited [gridTypes] 0).free t ↔ ¬ SameName b!"Grid" t := by
    intro t
    simp [vocabulary, extend, substrate, gridTypes]
  have hg : (vocabulary unlimited [gridTypes] 0).type b!"Grid" (.array 1 b!"[u8; 1]") :=
    .inl ⟨_, List.mem_singleton.2 rfl, rfl, by simp [InForce, gridTypes], grid_declared _⟩
  have hs : Scale (MeansOver (vocabulary unlimited [gridTypes] 0) (fun _ => True) (fun _ => True)) (fun _ _ _ _ => True) b!"Grid" (.slice [.str (shown .bytes [1])])
      (.slice [.str (shown .bytes [1])]) [1] :=
    .array [⟨[], b!"[u8; 1]", .str (shown .bytes [1]), .str (shown .bytes [1]), [1]⟩] (.name hg) rfl
      (by
        simp only [List.mem_singleton, forall_eq]
        exact .leaf (.byteArray 1 trivial ((hN _).2 (by decide))) ⟨rfl, rfl, rfl⟩ trivial) trivial
  obtain ⟨n, h⟩ := (h2 ⟨[], 0, none⟩ ⟨0, none⟩ _ _ _ _ rfl rfl (foreign_nil _) hs).2
  have h1 := h (n + 10) (by omega) [] [] [] (by decide)
  have h2 : pau (loadedEnv dummyExt) 10 ⟨[], 0, none⟩ b!"Grid" ⟨⟨[1], 0⟩, []⟩ = .panic := by
    unfold loadedEnv; rw [loadedReg_fast]; kernel_rfl
  cases h1.symm.trans ((pau_mono _ (by omega : 10 ≤ n + 10) _ _ _).panic h2)

/-! ## An example -/

/-- Types of a chain, some of them like those of Centrifuge: a name for a name, a name for an array, a structure, an enum, values by name,
values with numbers, and a type that differs between versions. -/
def sampleTypes : List ChainType :=
  [{ name := b!"Points", decl := .same b!"u32" }, { name := b!"ResourceId", decl := .same b!"[u8; 32]" },
   { name := b!"EraPoints", decl := .struct [(b!"total", b!"Points"), (b!"individual", b!"Vec<Points>")] },
   { name := b!"Outcome", decl := .enum [(b!"Won", b!"Points"), (b!"Lost", b!"Null")] },
   { name := b!"Stage", decl := .values [b!"Open", b!"Closed"] }, { name := b!"Level", decl := .numbers [(b!"Low", 1), (b!"High", 4)] },
   { name := b!"Rate", range := some ⟨0, some 234⟩, decl := .same b!"u32" }, { name := b!"Rate", range := some ⟨235, none⟩, decl := .same b!"u64" }]

/-- Types that are given later. -/
def laterTypes : List ChainType := [{ name := b!"Scores", decl := .same b!"Vec<EraPoints>" }, { name := b!"Score", decl := .same b!"Points" }]

def sampleRows : List (Str × TypeDef) :=
  [(b!"Points", { kind := b!"string", typeString := b!"u32" }), (b!"ResourceId", { kind := b!"string", typeString := b!"[u8; 32]" }),
   (b!"EraPoints", { kind := b!"struct", mapping := [[b!"total", b!"Points"], [b!"individual", b!"Vec<Points>"]] }),
   (b!"Outcome", { kind := b!"enum", mapping := [[b!"Won", b!"Points"], [b!"Lost", b!"Null"]] }),
   (b!"Stage", { kind := b!"enum", values := [b!"Open", b!"Closed"] }), (b!"Level", { kind := b!"enum", mapping := [[b!"Low", b!"1"], [b!"High", b!"4"]] }),
   (b!"Rate#0-234", { kind := b!"string", typeString := b!"u32" }), (b!"Rate#235-?", { kind := b!"string", typeString := b!"u64" })]

def laterRows : List (Str × TypeDef) :=
  [(b!"Scores", { kind := b!"string", typeString := b!"Vec<EraPoints>" }), (b!"Score", { kind := b!"string", typeString := b!"Points" })]

theorem sample_given : List.Forall₂ (List.Forall₂ GivenAs) [sampleTypes, laterTypes] [sampleRows, laterRows] := by
  refine .cons ?_ (.cons (.cons ⟨rfl, rfl⟩ (.cons ⟨rfl, rfl⟩ .nil)) .nil)
  refine .cons ⟨rfl, rfl⟩ (.cons ⟨rfl, rfl⟩ (.cons ⟨rfl, rfl⟩ (.cons ⟨rfl, rfl⟩ (.cons ⟨rfl, rfl⟩ (.cons ⟨rfl, rfl⟩ (.cons ⟨?_, rfl⟩ (.cons ⟨?_, rfl⟩ .nil)))))))
  · exact ⟨b!"0-234", ⟨b!"0", b!"234", by unfold _root_.Spec.IsNumeral; decide, by unfold UpperText _root_.Spec.IsNumeral; decide, rfl⟩, rfl⟩
  · exact ⟨b!"235-?", ⟨b!"235", b!"?", by unfold _root_.Spec.IsNumeral; decide, rfl, rfl⟩, rfl⟩

instance (w : Str) : Decidable (Word w) :=
  decidable_of_iff (PlainName w ∧ 2 ≤ w.length ∧ ¬ b!"BoundedBTreeSet" <+: w ∧ ¬ b!"VecDeque" <:+ w ∧ toLower w ≠ b!"null" ∧
      toLower w ≠ b!"origincaller" ∧ (toLower w = b!"u8" → w = b!"u8") ∧ (toLower w = b!"bool" → w = b!"bool"))
    ⟨fun ⟨h1, h2, h3, h4, h5, h6, h7, h8⟩ => ⟨h1, h2, h3, h4, h5, h6, h7, h8⟩, fun h => ⟨h.1, h.2, h.3, h.4, h.5, h.6, h.7, h.8⟩⟩

theorem sample_apart : sampleTypes.Pairwise fun e f => SameName e.name f.name →
    (e.range = none ↔ f.range ≠ none) ∨ ∃ r s, e.range = some r ∧ f.range = some s ∧ ∀ v, ¬ (r.Has v ∧ s.Has v) := by
  have h : sampleTypes.Pairwise fun e f => SameName e.name f.name → e.range.map (fun r => (r.lo, r.hi)) = some (0, some 234) ∧
      f.range.map (fun r => (r.lo, r.hi)) = some (235, none) := by
    unfold sampleTypes
    decide +kernel
  refine h.imp fun h hn => ?_
  obtain ⟨r, hr, e1⟩ := Option.map_eq_some_iff.1 (h hn).1
  obtain ⟨s, hs, e2⟩ := Option.map_eq_some_iff.1 (h hn).2
  refine .inr ⟨r, s, hr, hs, ?_⟩
  rintro v ⟨h1, h2⟩
  simp only [Prod.mk.injEq] at e1 e2
  have := h1.2 234 e1.2
  have := h2.1
  omega

theorem limits_word {w : Str} (h : Word w) : TypeOver limits.names w := .name (sh := .null) h

theorem sample_stands {e : ChainType} (he : e ∈ sampleTypes) : ∃ sh, Declares limits substrate e.decl sh := by
  simp only [sampleTypes, List.mem_cons, List.not_mem_nil, or_false] at he
  rcases he with rfl | rfl | rfl | rfl | rfl | rfl | rfl | rfl
  · exact ⟨.uint 4, .name (by simp [substrate, runtimeTypes])⟩
  · refine ⟨.byteArray 32, .text (.byteArray 32 ⟨by decide, by decide⟩ trivial) (by decide : ¬ Word _) (by simp) (by simp) ⟨?_, by decide⟩⟩
    intro el n e
    have hc := congrArg (List.count 59) e
    simp only [List.count_append] at hc
    rw [show List.count 59 b!"[u8; 32]" = 1 by decide, show List.count 59 b!"; " = 1 by decide] at hc
    exact List.count_eq_zero.1 (by omega)
  · exact ⟨_, .struct _⟩
  · refine ⟨_, .enum _ (by simp) (by decide) (by decide) ?_⟩
    simp only [List.mem_cons, List.not_mem_nil, or_false, forall_eq_or_imp, forall_eq]
    refine ⟨⟨.inl (limits_word (by decide)), ?_, ?_⟩, .inr trivial, ?_, ?_⟩
    · rintro ⟨r, h⟩; cases h
    · intro h; exact absurd (h.2 80 (by simp)) (by decide)
    · rintro ⟨r, h⟩; cases h
    · intro h; exact absurd (h.2 78 (by simp)) (by decide)
  · exact ⟨_, .values _ (by decide) (by decide) (by decide)⟩
  · exact ⟨_, .numbers _ (by simp) (by decide) (by decide) (by decide)⟩
  · exact ⟨.uint 4, .name (by simp [substrate, runtimeTypes])⟩
  · exact ⟨.uint 8, .name (by simp [substrate, runtimeTypes])⟩

/-- A definition without versions is in force. -/
theorem sample_plain {w : Str} (h : ∀ f ∈ sampleTypes, SameName f.name w → f.range.isNone = true) (v : Int) (d : Decl) : InForce sampleTypes v ⟨w, none, d⟩ := by
  intro f hf hn r hr
  have := h f hf hn
  rw [hr] at this
  cases this

theorem sample_points (v : Int) : (vocabulary limits [sampleTypes] v).type b!"Points" (.uint 4) :=
  .inl ⟨⟨b!"Points", none, .same b!"u32"⟩, List.mem_cons_self, rfl, sample_plain (by decide +kernel) v _, .name (by simp [substrate, runtimeTypes])⟩

theorem sample_proper (v : Int) : ProperAll limits [sampleTypes, laterTypes] v := by
  intro past l rest h
  have hc : past = [] ∧ l = sampleTypes ∨ past = [sampleTypes] ∧ l = laterTypes := by
    rcases past with _ | ⟨a, _ | ⟨b, p⟩⟩
    · simp only [List.nil_append, List.cons.injEq] at h
      exact .inl ⟨rfl, h.1.symm⟩
    · simp only [List.cons_append, List.nil_append, List.cons.injEq] at h
      exact .inr ⟨by rw [h.1], h.2.1.symm⟩
    · simp at h
  rcases hc with ⟨rfl, rfl⟩ | ⟨rfl, rfl⟩
  · refine ⟨(by decide +kernel : ∀ e ∈ sampleTypes, Word e.name), by decide +kernel, ?_, fun e he => sample_stands he, sample_apart, by simp, ?_⟩
    · have : ∀ e ∈ sampleTypes, ∀ r ∈ e.range.map (fun r => (r.lo, r.hi)), r.1 < 2 ^ 32 ∧ ∀ h ∈ r.2, h < 2 ^ 32 := by decide +kernel
      intro e he r hr
      exact this e he _ (by rw [hr]; rfl)
    · refine fun e he t ht => ⟨?_, by simp⟩
      simp only [sampleTypes, List.mem_cons, List.not_mem_nil, or_false] at he
      rcases he with rfl | rfl | rfl | rfl | rfl | rfl | rfl | rfl <;> cases ht <;> decide +kernel
  · refine ⟨(by decide +kernel : ∀ e ∈ laterTypes, Word e.name), by decide +kernel, by simp [laterTypes], ?_, ?_, ?_, ?_⟩
    · intro e he
      simp only [laterTypes, List.mem_cons, List.not_mem_nil, or_false] at he
      rcases he with rfl | rfl
      · refine ⟨.seq b!"EraPoints", .text (.vec (t := b!"EraPoints") (limits_word (by decide)) (by decide) trivial) (by decide : ¬ Word _) (by simp) (by simp) ⟨?_, by decide⟩⟩
        intro el n e
        cases e
      · exact ⟨_, .name (sample_points v)⟩
    · unfold laterTypes
      exact .cons (by simp only [List.mem_singleton, forall_eq]; exact fun h => absurd h (by decide)) (.cons (by simp) .nil)
    · have : ∀ e ∈ laterTypes, ∀ f ∈ [sampleTypes].flatten, ¬ SameName f.name e.name := by decide +kernel
      exact fun e he f hf hn => absurd hn (this e he f hf)
    · intro e he t ht
      simp only [laterTypes, List.mem_cons, List.not_mem_nil, or_false] at he
      have h0 : ∀ t ∈ [b!"Vec<EraPoints>", b!"Points"], (∀ f ∈ laterTypes, ¬ SameName f.name t) ∧ ∀ f ∈ [sampleTypes].flatten, SameName f.name t → f.range.isNone = true := by
        decide +kernel
      have h1 : t ∈ [b!"Vec<EraPoints>", b!"Points"] := by rcases he with rfl | rfl <;> cases ht <;> simp
      exact ⟨(h0 t h1).1, fun f hf hn => Option.isNone_iff_eq_none.1 ((h0 t h1).2 f hf hn)⟩

/-- A name of the first list, in force in the version, after both. -/
theorem sample_name {v : Int} {e : ChainType} {sh : Shape Str} (he : e ∈ sampleTypes) (h : InForce sampleTypes v e) (hd : Declares limits substrate e.decl sh) :
    (vocabulary limits [sampleTypes, laterTypes] v).type e.name sh :=
  .inr ⟨.inl ⟨e, he, rfl, h, hd⟩, fun f hf hn => absurd hn ((by decide +kernel : ∀ e ∈ sampleTypes, ∀ f ∈ laterTypes, ¬ SameName f.name e.name) e he f hf)⟩

/-- `Rate` has eight bytes in version 300. -/
theorem rate_later : (vocabulary limits [sampleTypes, laterTypes] 300).type b!"Rate" (.uint 8) :=
  sample_name (e := ⟨b!"Rate", some ⟨235, none⟩, .same b!"u64"⟩) (by simp [sampleTypes]) ⟨by decide, by simp⟩ (.name (by simp [substrate, runtimeTypes]))

/-- It has four bytes in version 100. -/
theorem rate_earlier : (vocabulary limits [sampleTypes, laterTypes] 100).type b!"Rate" (.uint 4) :=
  sample_name (e := ⟨b!"Rate", some ⟨0, some 234⟩, .same b!"u32"⟩) (by simp [sampleTypes]) ⟨by decide, by simp⟩ (.name (by simp [substrate, runtimeTypes]))

example (ext : Ext) : ∃ st, registerLists 0 ⟨loadedEnv ext, fun _ => none⟩ [sampleRows, laterRows] = .ok st ∧
    Encodes st.env ⟨300, none⟩ b!"T::Rate" (.int 7) [7, 0, 0, 0, 0, 0, 0, 0] ∧ Decodes st.env ⟨[], 300, none⟩ b!"Rate" [7, 0, 0, 0, 0, 0, 0, 0] (.uint 8 7) [] := by
  obtain ⟨st, h1, h2⟩ := C102_partial 0 ext (fun _ => none) 300 _ _ (by decide) (sample_proper 300) sample_given
  have hs : Scale (ReadOver (vocabulary limits [sampleTypes, laterTypes] 300)) Supported b!"Rate" (.int 7) (.uint 8 7) [7, 0, 0, 0, 0, 0, 0, 0] :=
    .leaf (.name rate_later) ⟨7, by decide, rfl, rfl, rfl, rfl⟩ trivial
  exact ⟨st, h1, (h2 ⟨[], 300, none⟩ ⟨300, none⟩ _ _ _ _ _ rfl rfl (foreign_nil _) (.inr (.name rate_later ⟨b!"T::", [], .inr ⟨.inl rfl, by simp⟩, .inl rfl, rfl⟩)) hs).1,
    (h2 ⟨[], 300, none⟩ ⟨300, none⟩ _ _ _ _ _ rfl rfl (foreign_nil _) (.inl (.refl _)) hs).2⟩

/-- The names of the system are left alone. -/
example : ∀ e ∈ [sampleTypes, laterTypes].flatten, ∀ w ∈ systemNames, ¬ SameName e.name w := by decide +kernel

end ScaleGo
