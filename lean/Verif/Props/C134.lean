import Verif.Props.C133
import Verif.Props.C84
import Verif.Props.C114

/-! # C134: metadata is read alike after loading any shipped files

The decoder of metadata looks its own parts up in the global tables, which the files in `network/` may change.  One of them does redefine a
name that is used there: chainx has `String`, as an alias of `Text`. -/

namespace ScaleGo

open ScaleGo.Spec (SameEntries)
open _root_.Spec (Bounded MetaFile behindMagic WRegistry FRegistry PType)

/-- The part of a key before a version range, in lower case. -/
def baseName (k : Str) : Str := (toLower k).takeWhile (· != 35)

theorem takeWhile_hash {k r : Str} (h : (35 : UInt8) ∉ k) (hr : r = [] ∨ ∃ s, r = 35 :: s) : (k ++ r).takeWhile (· != 35) = k := by
  induction k with
  | nil => rcases hr with rfl | ⟨s, rfl⟩ <;> rfl
  | cons a k ih =>
    have ha : a ≠ 35 := fun e => h (by rw [e]; exact List.mem_cons_self)
    rw [List.cons_append, List.takeWhile_cons, if_pos (by simpa using ha), ih fun hm => h (List.mem_cons_of_mem _ hm)]

/-- Keys of another base name do not touch a name. -/
theorem baseName_touches {key k : Str} (hk : (35 : UInt8) ∉ k) (h : Spec.Touches key k) : baseName key = k := by
  unfold baseName
  rcases h with h | ⟨r, h⟩ | ⟨r, h⟩
  · rw [← h]
    simpa using takeWhile_hash hk (.inl rfl)
  · rw [← h, List.append_assoc]
    exact takeWhile_hash hk (.inr ⟨r, rfl⟩)
  · exact absurd (by rw [← h]; simp) hk

section
variable {W : List Str} {ext : Ext}

/-- The names have their built-in entries. -/
def KeepsNames (W : List Str) (ext : Ext) (env : Env) : Prop := env.ext = ext ∧ ∀ k ∈ W, SameEntries (loadedEnv ext) env k

/-- The check of a file: names of the list are defined as aliases of names of the list with the same class only, and these are not names of the file. -/
def keptBy (W : List Str) (T : List (Str × TypeDef)) : Bool := T.all fun p => !W.contains (baseName p.1) ||
  (p.2.v14 == false && p.2.kind == b!"string" && !(toLower p.1).contains 35 && (tableGet T p.2.typeString).isNone &&
    W.contains (toLower (convertType p.2.typeString)) && fastReg (toLower p.1) == fastReg (toLower (convertType p.2.typeString)) && (fastReg (toLower p.1)).isSome)

theorem loadedEnv_fast (ext : Ext) (k : Str) : (loadedEnv ext).reg k = fastReg k := by
  unfold loadedEnv
  exact congrFun loadedReg_fast k

theorem KeepsNames.entry {T all : List (Str × TypeDef)} {fuel : Nat} {st st' : RegState} (hW : ∀ k ∈ W, (35 : UInt8) ∉ k) (h : KeepsNames W ext st.env)
    (hok : keptBy W T = true) {k : Str} {d : TypeDef} (hkd : Reach T k d) (hr : regEntry fuel all st k d = .ok (some st')) : KeepsNames W ext st'.env := by
  obtain ⟨hx, hch⟩ := regEntry_changed hr
  by_cases hb : baseName k ∈ W
  · obtain ⟨d0, hd0⟩ := Option.isSome_iff_exists.mp hkd.isSome
    have hc := List.all_eq_true.mp hok _ (mem_of_tableGet hd0)
    replace hc := (Bool.or_eq_true_iff.mp hc).resolve_left (by simpa using hb)
    simp only [Bool.and_eq_true, beq_iff_eq, Option.isNone_iff_eq_none] at hc
    obtain ⟨⟨⟨⟨⟨⟨hv, hs⟩, hn⟩, ht⟩, hm⟩, he⟩, hi⟩ := hc
    have hd : d = d0 := by
      cases hkd with
      | here h1 => rw [hd0] at h1; exact (Option.some.inj h1).symm
      | next h1 _ h2 =>
        rw [hd0] at h1
        cases h1
        have := h2.isSome
        rw [ht] at this
        cases this
    subst hd
    have hn : (35 : UInt8) ∉ toLower k := by simpa using hn
    have hm : toLower (convertType d.typeString) ∈ W := by simpa using hm
    obtain ⟨c, hc⟩ := Option.isSome_iff_exists.mp hi
    have hreg : st.env.reg (toLower (convertType d.typeString)) = some c := by
      rw [(h.2 _ hm).1]
      rw [loadedEnv_fast, ← he, hc]
    have e : st' = { st with env := regCustomKey st.env (toLower k) c } := by
      have h1 : v14Key fuel st k d = .ok (some (st, k)) := by unfold v14Key; rw [if_pos hv]
      have h2 : regAlias fuel all st (toLower k) d = .ok { st with env := regCustomKey st.env (toLower k) c } := by
        unfold regAlias
        simp only [hreg]
      unfold regEntry at hr
      simp only [h1, Res.ok_bind, if_pos hs, h2] at hr
      exact (Option.some.inj (Res.ok.inj hr)).symm
    refine ⟨hx.trans h.1, fun n hnW => ?_⟩
    rw [e]
    refine ⟨?_, ?_⟩
    · by_cases hnk : n = toLower k
      · subst hnk
        rw [loadedEnv_fast, hc]
        exact regCustomKey_set hn
      · exact (regCustomKey_other st.env c hnk).trans (h.2 n hnW).1
    · exact (congrFun (regCustomKey_special hn) n).trans (h.2 n hnW).2
  · refine ⟨hx.trans h.1, fun n hn => ?_⟩
    have h1 := hch n fun ht => hb (by rw [baseName_touches (hW n hn) ht]; exact hn)
    have h2 := h.2 n hn
    exact ⟨h1.1.trans h2.1, h1.2.trans h2.2⟩

theorem KeepsNames.loop {T all : List (Str × TypeDef)} {fuel : Nat} (hW : ∀ k ∈ W, (35 : UInt8) ∉ k) (hok : keptBy W T = true) :
    ∀ (m : List (Str × TypeDef)), (∀ p ∈ m, Reach T p.1 p.2) → ∀ {st st' : RegState}, KeepsNames W ext st.env →
      regLoop fuel all st m = .ok st' → KeepsNames W ext st'.env
  | [], _, st, st', h, hr => by rw [regLoop] at hr; cases hr; exact h
  | (k, d) :: m, hm, st, st', h, hr => by
    rw [regLoop] at hr
    obtain ⟨o, h1, hr⟩ := Res.bind_eq_ok.mp hr
    cases o with
    | none => cases hr; exact h
    | some s1 => exact KeepsNames.loop hW hok m (fun p hp => hm p (List.mem_cons_of_mem _ hp)) (h.entry hW hok (hm (k, d) List.mem_cons_self) h1) hr

theorem KeepsNames.file {N : List (Str × Network.Entry)} (hW : ∀ k ∈ W, (35 : UInt8) ∉ k) (hn : (N.map Prod.fst).Nodup)
    (hok : keptBy W (Network.table N) = true) {st s : RegState} (h : KeepsNames W ext st.env) (hr : RunsTo N st s) : KeepsNames W ext s.env := by
  obtain ⟨order, m, f, ho, hl, hrun⟩ := hr
  rw [load_eq] at hl
  rw [← table_keys] at ho hn
  generalize Network.table N = T at *
  obtain ⟨hinv, hpost⟩ := inheritLoop_inv order T (.start T)
  have hn2 : ((inheritLoop order T).map Prod.fst).Nodup := by rw [hinv.keys]; exact hn
  refine KeepsNames.loop hW hok m (fun p hp => ?_) h hrun
  have hp2 := hl.mem_iff.mp hp
  refine (hpost p.1 (.inl ?_) p.2 (tableGet_of_mem hn2 hp2)).reach
  rw [ho.mem_iff, ← hinv.keys]
  exact List.mem_map.mpr ⟨_, hp2, rfl⟩

end

/-! ## The names that metadata is read with -/

/-- The texts by which the decoder of metadata reads (`ReadsRoot`, `ReadsPortable`, `ReadsPallets`, `ReadsOld`, `Unlisted`, `ReadsExtrinsic`,
`ReadsTail`). -/
def metadataTexts : List Str :=
  [b!"Compact<u32>", b!"Option<Compact<u32>>", b!"MetadataVersion", b!"Text", b!"u8", b!"u32", b!"SiLookupTypeId", b!"SiPath", b!"Vec<Text>",
    b!"Vec<SiField>", b!"Vec<SiVariant>", b!"Vec<SiTypeParameter>", b!"Option<Text>", b!"Option<SiLookupTypeId>", b!"SiField", b!"SiVariant",
    b!"SiTypeParameter", b!"SiTypeDef", b!"SiTypeDefComposite", b!"SiTypeDefVariant", b!"SiTypeDefSequence", b!"SiTypeDefArray",
    b!"SiTypeDefTuple", b!"SiTypeDefPrimitive", b!"SiTypeDefCompact", b!"SiTypeDefBitSequence", b!"SiType", b!"PortableType",
    b!"PortableRegistry", b!"String", b!"HexBytes", b!"bool", b!"U8", b!"Vec<String>", b!"Vec<StorageHasher>", b!"StorageHasher",
    b!"StorageModify", b!"StorageFunctionTypeV14", b!"PalletCallMetadataV14", b!"PalletEventMetadataV14", b!"PalletErrorMetadataV14",
    b!"StorageFunctionType", b!"Bytes", b!"Vec<Bytes>", b!"ExtrinsicMetadata", b!"Vec<MetadataV6Module>", b!"Vec<MetadataV6ModuleStorage>",
    b!"Vec<MetadataV6ModuleConstants>", b!"Vec<MetadataV7Module>", b!"MetadataV6Module", b!"MetadataV6ModuleStorage",
    b!"MetadataV6ModuleConstants", b!"MetadataV7Module", b!"Vec<SignedExtensionMetadataV14>", b!"SignedExtensionMetadataV14",
    b!"ExtrinsicMetadataV14", b!"ExtrinsicMetadataV15", b!"BTreeMap<Text, CustomValueMetadata15>", b!" CustomValueMetadata15",
    b!"MetadataV0Decoder", b!"MetadataV1Decoder", b!"MetadataV2Decoder", b!"MetadataV3Decoder", b!"MetadataV4Decoder", b!"MetadataV5Decoder",
    b!"MetadataV6Decoder", b!"MetadataV7Decoder", b!"MetadataV8Decoder", b!"MetadataV9Decoder", b!"MetadataV10Decoder", b!"MetadataV11Decoder",
    b!"MetadataV12Decoder", b!"MetadataV13Decoder", b!"MetadataV14Decoder", b!"MetadataV15Decoder"]

/-- The names that these texts are looked up under. -/
def metaNames : List Str :=
  [b!"compact<u32>", b!"compact", b!"option<compact<u32>>", b!"option", b!"metadataversion", b!"text", b!"u8", b!"u32", b!"silookuptypeid",
    b!"sipath", b!"vec<text>", b!"vec", b!"vec<sifield>", b!"vec<sivariant>", b!"vec<sitypeparameter>", b!"option<text>",
    b!"option<silookuptypeid>", b!"sifield", b!"sivariant", b!"sitypeparameter", b!"sitypedef", b!"sitypedefcomposite", b!"sitypedefvariant",
    b!"sitypedefsequence", b!"sitypedefarray", b!"sitypedeftuple", b!"sitypedefprimitive", b!"sitypedefcompact", b!"sitypedefbitsequence",
    b!"sitype", b!"portabletype", b!"portableregistry", b!"string", b!"hexbytes", b!"bool", b!"vec<string>", b!"vec<storagehasher>",
    b!"storagehasher", b!"storagemodify", b!"storagefunctiontypev14", b!"palletcallmetadatav14", b!"palleteventmetadatav14",
    b!"palleterrormetadatav14", b!"storagefunctiontype", b!"bytes", b!"vec<bytes>", b!"extrinsicmetadata", b!"vec<metadatav6module>",
    b!"vec<metadatav6modulestorage>", b!"vec<metadatav6moduleconstants>", b!"vec<metadatav7module>", b!"metadatav6module",
    b!"metadatav6modulestorage", b!"metadatav6moduleconstants", b!"metadatav7module", b!"vec<signedextensionmetadatav14>",
    b!"signedextensionmetadatav14", b!"extrinsicmetadatav14", b!"extrinsicmetadatav15", b!"btreemap<text, customvaluemetadata15>",
    b!"btreemap", b!"customvaluemetadata15", b!"metadatav0decoder", b!"metadatav1decoder", b!"metadatav2decoder", b!"metadatav3decoder",
    b!"metadatav4decoder", b!"metadatav5decoder", b!"metadatav6decoder", b!"metadatav7decoder", b!"metadatav8decoder", b!"metadatav9decoder",
    b!"metadatav10decoder", b!"metadatav11decoder", b!"metadatav12decoder", b!"metadatav13decoder", b!"metadatav14decoder",
    b!"metadatav15decoder"]

theorem metaNames_all : (metadataTexts.all fun t => (Spec.namesOf [] t).all fun k => metaNames.contains k) = true := by kernel_rfl

theorem metaNames_plain : ∀ k ∈ metaNames, (35 : UInt8) ∉ k := by decide +kernel

theorem shipped_keptBy : (Network.shipped.all fun f => keptBy metaNames (Network.table f.2)) = true := by kernel_rfl

theorem shipped_keeps (ext : Ext) (st s : RegState) (hst : st.env = loadedEnv ext) (hr : Relation.ReflTransGen LoadsShipped st s) :
    KeepsNames metaNames ext s.env := by
  induction hr with
  | refl => rw [hst]; exact ⟨rfl, fun _ _ => ⟨rfl, rfl⟩⟩
  | tail _ h1 ih =>
    obtain ⟨f, hf, h1⟩ := h1
    exact ih.file metaNames_plain (shipped_nodup hf) (List.all_eq_true.mp shipped_keptBy f hf) h1

/-! ## The properties -/

section
variable (ext : Ext) (st s : RegState) (hst : st.env = loadedEnv ext) (hr : Relation.ReflTransGen LoadsShipped st s)
include hst hr

/-- Every text that metadata is read with is looked up as with the built-in definitions alone, for every version. -/
theorem C134_texts (t : Str) (ht : t ∈ metadataTexts) (spec : Int) : getCodecClass s.env [] spec t = getCodecClass (loadedEnv ext) [] spec t := by
  refine C85_lookup _ _ _ _ _ fun k hk => (shipped_keeps ext st s hst hr).2 k ?_
  simpa using List.all_eq_true.mp (List.all_eq_true.mp metaNames_all t ht) k hk

/-- What the parts of metadata are read with means what it should. -/
theorem C134_reads (spec : Int) (md : Option MD) : ReadsRoot s.env ⟨[], spec, md⟩ ∧ ReadsPortable s.env ⟨[], spec, md⟩ ∧
    ReadsOld s.env ⟨[], spec, md⟩ ∧ Unlisted s.env ⟨[], spec, md⟩ := by
  have hc := C134_texts ext st s hst hr
  have hres : ∀ t, t ∈ metadataTexts → ∀ c x, Resolves (loadedEnv ext) [] spec t c x → Resolves s.env [] spec t c x :=
    fun t ht c x h => (hc t ht spec).trans h
  refine ⟨?_, ?_, ?_, ?_⟩
  · obtain ⟨h1, h2, h3, h4⟩ := loaded_readsRoot ext spec md
    refine ⟨(hc _ (by decide +kernel) spec).trans h1, (hc _ (by decide +kernel) spec).trans h2, (hc _ (by decide +kernel) spec).trans h3, fun n hn => ?_⟩
    exact (hc n ((by decide +kernel : ∀ n ∈ versionNames, n ∈ metadataTexts) n hn) spec).trans (h4 n hn)
  · have h := loaded_readsPortable ext spec md
    obtain ⟨x, hx⟩ := h.len
    cases h
    constructor
    · exact ⟨x, (hc _ (by decide +kernel) spec).trans hx⟩
    all_goals
      refine hres _ ?_ _ _ ?_
      on_goal 2 => with_reducible assumption
      decide +kernel
  · have h := loaded_readsOld ext spec md
    obtain ⟨x, hx⟩ := h.len
    obtain ⟨⟨⟩⟩ := h
    constructor
    on_goal 1 => constructor
    · exact ⟨x, (hc _ (by decide +kernel) spec).trans hx⟩
    all_goals
      refine hres _ ?_ _ _ ?_
      on_goal 2 => with_reducible assumption
      decide +kernel
  · obtain ⟨h1, h2, h3, h4⟩ := loaded_unlisted ext spec md
    refine ⟨⟨h1.1, ?_, ?_⟩, ⟨h2.1, ?_, ?_⟩, ⟨h3.1, ?_, ?_⟩, ⟨h4.1, ?_, ?_⟩⟩
    · exact (hc _ (by decide +kernel) spec).trans h1.2.1
    · exact (hc _ (by decide +kernel) spec).trans h1.2.2
    · exact (hc _ (by decide +kernel) spec).trans h2.2.1
    · exact (hc _ (by decide +kernel) spec).trans h2.2.2
    · exact (hc _ (by decide +kernel) spec).trans h3.2.1
    · exact (hc _ (by decide +kernel) spec).trans h3.2.2
    · exact (hc _ (by decide +kernel) spec).trans h4.2.1
    · exact (hc _ (by decide +kernel) spec).trans h4.2.2

/-- Metadata of versions 9 to 13 gives the modules and tables it describes. -/
theorem C134_old (v : UInt8) (spec : Int) (md : Option MD) (l : List Spec.OModule) (xv : Nat) (exts : List Str) (b data : Str)
    (h9 : 9 ≤ v.toNat) (h13 : v.toNat ≤ 13) (hf : Spec.FOld v.toNat l xv exts) (hd : DistinctIndex v.toNat l) (hw : Spec.EncOld v.toNat l xv exts b)
    (hm : MetaFile v b data) (hl : Bounded data) :
    ∃ N out, (∀ n, N ≤ n → decodeMetadata n s ⟨[], spec, md⟩ data = .ok (some ⟨versionNames[v.toNat]?.getD [], v.toNat, .old out⟩)) ∧
      DescribedOld v.toNat Spec.hasherNames l (if v.toNat < 12 then none else some exts) out :=
  have h := C134_reads ext st s hst hr spec md
  C83_old v s spec md l xv exts b data h9 h13 h.1 h.2.2.1 hf hd hw hm hl

/-- Metadata of versions 14 and 15 gives the types it begins with. -/
theorem C134_types (v : UInt8) (spec : Int) (md : Option MD) (l : List (Nat × PType)) (b rest data : Str) (h14 : 14 ≤ v.toNat) (h15 : v.toNat ≤ 15)
    (hw : WRegistry l b) (hf : FRegistry l) (hm : MetaFile v (b ++ rest) data) (hl : Bounded data) :
    ∃ N, ∀ n, N ≤ n → portableRegistry n s.env ⟨[], spec, md⟩ data = .ok (.types (kept l)) :=
  have h := C134_reads ext st s hst hr spec md
  C84_types v s ⟨[], spec, md⟩ l b rest data h14 h15 h.1 h.2.1 hw hf hm hl

/-- The processor of version 8 gives the modules it is given, and those of versions 6 and 7 refuse all modules. -/
theorem C134_early (spec : Int) (md : Option MD) (l : List Spec.OModule) (b : Str) :
    (Spec.FList (Spec.FOModule 8) l → Spec.EncEarly 8 l b →
      ∃ out, Settles (fun n => processEarly 8 n s ⟨[], spec, md⟩) b out ∧ DescribedOld 8 Spec.hasherNames l none out ∧ out.reg = s) ∧
    ∀ v, v = 6 ∨ v = 7 → Spec.EncEarly v l b → l ≠ [] → l.length ≤ 524288 → Fails (fun n => processEarly v n s ⟨[], spec, md⟩) b :=
  have h := C134_reads ext st s hst hr spec md
  ⟨C114_version8 s ⟨[], spec, md⟩ l b h.2.2.1, fun v hv hw hl hs => C114_refused v s ⟨[], spec, md⟩ l b hv h.2.2.1.len h.2.2.2 hw hl hs⟩

/-- Anything else is reported as no metadata. -/
theorem C134_error (spec : Int) (md : Option MD) (data : Str) (hl : Bounded data) (n : Nat) (hn : 2 ≤ n) :
    decodeMetadata n s ⟨[], spec, md⟩ data = .ok none ↔ behindMagic data = none :=
  C83_error s ⟨[], spec, md⟩ data (C134_reads ext st s hst hr spec md).1 hl n hn

end

/-! ## Examples -/

/-- Chainx, then kusama: the names of both are known, and `String` is entered anew. -/
theorem chainx_kusama : ∃ s, Relation.ReflTransGen LoadsShipped ⟨loadedEnv dummyExt, fun _ => none⟩ s ∧
    (enc s.env 9 ⟨0, none⟩ b!"Token" (.str b!"PCX"), enc s.env 9 ⟨0, none⟩ b!"Weight" (.int 7)) = (.ok b!"0c504358", .ok b!"0700000000000000") := by
  have hf : Network.shipped[6]? = some (b!"chainx", Network.chainx) := by kernel_rfl
  have hg : Network.shipped[27]? = some (b!"kusama", Network.kusama) := by kernel_rfl
  exact loads_of_afterTwo (List.mem_of_getElem? hf) (List.mem_of_getElem? hg) (q := fun env =>
    (enc env 9 ⟨0, none⟩ b!"Token" (.str b!"PCX"), enc env 9 ⟨0, none⟩ b!"Weight" (.int 7))) (by kernel_rfl)

/-- The metadata of version 13 of the example of C82 afterwards. -/
example (b data : Str) (hw : Spec.EncOld 13 modules13 4 [b!"CheckEra"] b) (hm : MetaFile 13 b data) (hl : Bounded data) :
    ∃ s N out, (enc s.env 9 ⟨0, none⟩ b!"Weight" (.int 7) = .ok b!"0700000000000000") ∧
      (∀ n, N ≤ n → decodeMetadata n s ⟨[], 0, none⟩ data = .ok (some ⟨b!"MetadataV13Decoder", 13, .old out⟩)) ∧
      out.extrinsic = some ⟨[b!"CheckEra"], []⟩ := by
  obtain ⟨s, h, e⟩ := chainx_kusama
  obtain ⟨N, out, h1, h2⟩ := C134_old _ _ s rfl h 13 0 none modules13 4 _ b data (by decide) (by decide) modules13_fit (fun _ => by decide) hw hm hl
  exact ⟨s, N, out, congrArg Prod.snd e, h1, h2.extrinsic.trans (by kernel_rfl)⟩

end ScaleGo
