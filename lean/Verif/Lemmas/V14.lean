import Verif.Lemmas.PortableLoaded
import Verif.Lemmas.SiMono
import Verif.Props.C59
import Verif.Props.C78

/-! # Metadata read after its types have been entered -/

namespace ScaleGo
open _root_.Spec (WText WAll WList WOpt FText FList FId WPallet EncPallet EncPallet15 FPallet hasherNames modifierNames WExtension
  EncExtension EncExtrinsic14 EncExtrinsic15 FExtension WRegistry FRegistry PType)
open ScaleGo.Spec

/-- A step that does not read. -/
theorem settles_res {α β : Type} {r : Nat → Res α} {k : Nat → α → Dec β} {b : Str} {a : α} {c : β} (h : ∃ N, ∀ n, N ≤ n → r n = .ok a)
    (h2 : Settles (fun n => k n a) b c) : Settles (fun n st => r n >>= fun a => k n a st) b c := by
  obtain ⟨N, h⟩ := h
  obtain ⟨M, h2⟩ := h2
  refine ⟨max N M, fun n hn => ?_⟩
  have := h2 n (by omega)
  intro pre suf cs hl
  show (r n >>= _) = _
  rw [h n (by omega)]
  exact this pre suf cs hl

/-- Entries of the library by which the rest of metadata is read. -/
def metaClasses : List (Str × Cls) :=
  [(b!"string", .string), (b!"text", .string), (b!"hexbytes", .hexBytes), (b!"bool", .bool), (b!"u8", .u8), (b!"silookuptypeid", .compactU32),
    (b!"vec", .vec []), (b!"storagehasher", .enum hasherNames none), (b!"storagemodify", .enum modifierNames none),
    (b!"storagefunctiontypev14", .enum [b!"PlainType", b!"Map"] none),
    (b!"palletcallmetadatav14", .struct (some [(b!"type", b!"SiLookupTypeId")])),
    (b!"palleteventmetadatav14", .struct (some [(b!"type", b!"SiLookupTypeId")])),
    (b!"palleterrormetadatav14", .struct (some [(b!"type", b!"SiLookupTypeId")])),
    (b!"signedextensionmetadatav14", .struct (some [(b!"identifier", b!"Text"), (b!"type", b!"SiLookupTypeId"),
      (b!"additionalSigned", b!"SiLookupTypeId")])),
    (b!"extrinsicmetadatav14", .struct (some [(b!"type", b!"SiLookupTypeId"), (b!"version", b!"u8"),
      (b!"signedExtensions", b!"Vec<SignedExtensionMetadataV14>")])),
    (b!"extrinsicmetadatav15", .struct (some [(b!"version", b!"u8"), (b!"addressType", b!"SiLookupTypeId"),
      (b!"callType", b!"SiLookupTypeId"), (b!"signatureType", b!"SiLookupTypeId"), (b!"extraType", b!"SiLookupTypeId"),
      (b!"signedExtensions", b!"Vec<SignedExtensionMetadataV14>")])),
    (b!"call", .call), (b!"hash", .hash 32), (b!"u32", .u32), (b!"bytes", .bytes), (b!"btreemap", .btreeMap []),
    (b!"customvaluemetadata15", .struct (some [(b!"type", b!"SiLookupTypeId"), (b!"value", b!"Bytes")]))]

/-- The library before it reads metadata. -/
structure MetaReady (reg : RegState) : Prop extends Ready reg where
  portable : ∀ spec md, ReadsPortable reg.env ⟨[], spec, md⟩
  classes : ∀ p ∈ metaClasses, reg.env.reg p.1 = some p.2
  origin : reg.env.reg b!"origincaller" ≠ none
  custom : reg.env.reg b!"btreemap<text, customvaluemetadata15>" = none

theorem metaClasses_fast : ∀ p ∈ metaClasses, fastReg p.1 = some p.2 := by decide +kernel

/-- The library as it starts is in this state. -/
theorem loaded_metaReady (ext : Ext) (h : ReadsRows ext) : MetaReady ⟨loadedEnv ext, fun _ => none⟩ := by
  refine ⟨loaded_ready ext h, loaded_readsPortable ext, ?_, ?_, ?_⟩
  · show ∀ p ∈ metaClasses, loadedReg p.1 = some p.2
    rw [loadedReg_fast]
    exact metaClasses_fast
  · have : ∀ k, (fastReg k).isSome = true → (⟨loadedEnv ext, fun _ => none⟩ : RegState).env.reg k ≠ none := by
      intro k h e
      have e : loadedReg k = none := e
      rw [← loadedReg_fast, e] at h
      cases h
    exact this b!"origincaller" (by decide +kernel)
  · have : ∀ k, fastReg k = none → (⟨loadedEnv ext, fun _ => none⟩ : RegState).env.reg k = none := by
      intro k h
      show loadedReg k = none
      rw [loadedReg_fast, h]
    exact this b!"btreemap<text, customvaluemetadata15>" (by decide +kernel)

theorem metaClasses_lasting : ∀ p ∈ metaClasses, Lasting p.1 := by decide +kernel

section
variable {cfg : SiCfg} {A : Nat → Prop} {reg : RegState} {st : SiState} (hR : MetaReady reg) (hL : Loaded cfg A reg.env st)
include hR hL

theorem meta_looksUp {t : Str} {c : Cls} (hm : (toLower t, c) ∈ metaClasses) (hv : convertType t = t) :
    LooksUp st.reg.env t c [] := by
  have hne : t ≠ [] := by
    rintro rfl
    exact (metaClasses_lasting _ hm).1 rfl
  exact looksUp_entry hL hR.special hv hne <| hL.kept _ _ (hR.classes _ hm) (metaClasses_lasting _ hm)

theorem meta_vec {t a : Str} (ht : t = generic b!"Vec" a) (ha : Clean a) (hv : ¬ SameName t b!"Vec<u8>") :
    LooksUp st.reg.env t (.vec []) a := by
  subst ht
  have hc : Clean (generic b!"Vec" a) := by
    have := Clean.generic (w := b!"Vec") (by decide) ha
    simpa [generic] using this
  refine looksUp_wrapper hL hR.special (by decide) (by decide +kernel) ha.ne_nil (hc.verbatim hv) ?_ ?_
  · have : toLower (generic b!"Vec" a) = b!"vec<" ++ toLower (a ++ b!">") := toLower_append b!"Vec<" (a ++ b!">")
    rw [this]
    exact hL.vec _
  · exact hL.kept _ _ (hR.classes (b!"vec", .vec []) (by decide +kernel)) (by decide +kernel)

/-- With the types of the metadata entered, its pallets are still read by the same classes. -/
theorem loaded_pallets (hT : Tidy cfg A reg.env.reg) {ctx : Ctx} (hm : ∀ t, NotOverridden ctx.module t) :
    ReadsPallets st.reg.env ctx := by
  have one : ∀ {t : Str} {c : Cls}, (toLower t, c) ∈ metaClasses → convertType t = t →
      Resolves st.reg.env ctx.module ctx.spec t c [] := fun h1 h2 => meta_looksUp hR hL h1 h2 _ _ (hm _)
  have many : ∀ {t a : Str}, t = generic b!"Vec" a → Clean a → ¬ SameName t b!"Vec<u8>" →
      Resolves st.reg.env ctx.module ctx.spec t (.vec []) a := fun h1 h2 h3 => meta_vec hR hL h1 h2 h3 _ _ (hm _)
  constructor
  · exact (len_ok hT hR.stock hL hR.special).1
  case strings => exact many (by decide) (clean_word (by decide) (by decide) (by decide) (by decide)) (by decide)
  case texts => exact many (by decide) (clean_word (by decide) (by decide) (by decide) (by decide)) (by decide)
  case hashers => exact many (by decide) (clean_word (by decide) (by decide) (by decide) (by decide)) (by decide)
  all_goals exact one (by decide +kernel) (by kernel_rfl)

end

/-! ## The extrinsic part -/

/-- The texts by which the extrinsic part is read mean what frame-metadata says. -/
structure ReadsExtrinsic (env : Env) (ctx : Ctx) : Prop where
  len : LenOK env ctx
  text : Resolves env ctx.module ctx.spec b!"Text" .string []
  u8 : Resolves env ctx.module ctx.spec b!"u8" .u8 []
  id : Resolves env ctx.module ctx.spec b!"SiLookupTypeId" .compactU32 []
  exts : Resolves env ctx.module ctx.spec b!"Vec<SignedExtensionMetadataV14>" (.vec []) b!"SignedExtensionMetadataV14"
  ext : Resolves env ctx.module ctx.spec b!"SignedExtensionMetadataV14" (.struct (some [(b!"identifier", b!"Text"),
    (b!"type", b!"SiLookupTypeId"), (b!"additionalSigned", b!"SiLookupTypeId")])) []
  v14 : Resolves env ctx.module ctx.spec b!"ExtrinsicMetadataV14" (.struct (some [(b!"type", b!"SiLookupTypeId"), (b!"version", b!"u8"),
    (b!"signedExtensions", b!"Vec<SignedExtensionMetadataV14>")])) []
  v15 : Resolves env ctx.module ctx.spec b!"ExtrinsicMetadataV15" (.struct (some [(b!"version", b!"u8"),
    (b!"addressType", b!"SiLookupTypeId"), (b!"callType", b!"SiLookupTypeId"), (b!"signatureType", b!"SiLookupTypeId"),
    (b!"extraType", b!"SiLookupTypeId"), (b!"signedExtensions", b!"Vec<SignedExtensionMetadataV14>")])) []

theorem loaded_extrinsic {cfg : SiCfg} {A : Nat → Prop} {reg : RegState} {st : SiState} (hR : MetaReady reg) (hL : Loaded cfg A reg.env st)
    (hT : Tidy cfg A reg.env.reg) {ctx : Ctx} (hm : ∀ t, NotOverridden ctx.module t) : ReadsExtrinsic st.reg.env ctx := by
  have one : ∀ {t : Str} {c : Cls}, (toLower t, c) ∈ metaClasses → convertType t = t →
      Resolves st.reg.env ctx.module ctx.spec t c [] := fun h1 h2 => meta_looksUp hR hL h1 h2 _ _ (hm _)
  constructor
  · exact (len_ok hT hR.stock hL hR.special).1
  case exts => exact meta_vec hR hL (by decide) (clean_word (by decide) (by decide) (by decide) (by decide)) (by decide) _ _ (hm _)
  all_goals exact one (by decide +kernel) (by kernel_rfl)

section
variable {env : Env} {ctx : Ctx}

theorem reads_extension (h : ReadsExtrinsic env ctx) (x : WExtension) (b : Str) (hw : EncExtension x b) (hf : FExtension x) :
    ReadsAs env ctx b!"SignedExtensionMetadataV14" b readExtension (keptText x.identifier, x.type) := by
  obtain ⟨b1, b2, b3, ⟨c, hc, rfl⟩, h2, h3, rfl⟩ := hw
  obtain ⟨f1, f2, f3⟩ := hf
  have d1 := C19_decode env ctx _ _ .string x.identifier c (by simp) h.text h.len f1 hc
  have d2 := C14_decode env ctx _ _ _ _ (Nat.lt_trans f2 (by decide)) h2 h.id
  have d3 := C14_decode env ctx _ _ _ _ (Nat.lt_trans f3 (by decide)) h3 h.id
  have := C22_decode env ctx b!"SignedExtensionMetadataV14" [] [⟨b!"identifier", _, _, _, []⟩, ⟨b!"type", _, _, b2, []⟩,
    ⟨b!"additionalSigned", _, _, b3, []⟩] (by simp) h.ext (by
      simp only [List.mem_cons, List.not_mem_nil, or_false]; rintro f (rfl | rfl | rfl) <;> assumption)
  exact ⟨_, by simpa [bytesOf, callsOf] using this, rfl⟩

theorem settles_extrinsic14 (h : ReadsExtrinsic env ctx) {t v : Nat} {l : List WExtension} {b : Str} (ids : Nat → Option Str)
    (hw : EncExtrinsic14 t v l b) (ht : FId t) (hv : v < 256) (hf : FList FExtension l) :
    Settles (fun n => readExtrinsicMeta (pau env n) ctx b!"ExtrinsicMetadataV14" ids) b
      ⟨l.map fun x => keptText x.identifier, l.map fun x => (keptText x.identifier, siText ids x.type)⟩ := by
  obtain ⟨b1, b2, h1, h2, rfl⟩ := hw
  have d1 := C14_decode env ctx _ _ _ _ (Nat.lt_trans ht (by decide)) h1 h.id
  have d2 := C07_decode env ctx b!"u8" 1 v [] (by simp) hv h.u8
  obtain ⟨w, d3, r3, _⟩ := reads_list h.len h.exts rfl (reads_extension h) h2 hf
  have := C22_decode env ctx b!"ExtrinsicMetadataV14" [] [⟨b!"type", _, _, b1, []⟩, ⟨b!"version", _, _, Spec.leBytes 1 v, []⟩,
    ⟨b!"signedExtensions", _, w, b2, []⟩] (by simp) h.v14 (by
      simp only [List.mem_cons, List.not_mem_nil, or_false]; rintro f (rfl | rfl | rfl) <;> assumption)
  refine settles_last (settles_decodes (by simpa [bytesOf, callsOf] using this)) ?_
  show Settles (fun _ st => jsonList readExtension w >>= fun exts =>
    Res.ok ((⟨exts.map Prod.fst, exts.map fun e => (e.1, siText ids e.2)⟩ : ExtrinsicMeta), st)) [] _
  rw [r3]
  have := settles_pure (⟨(l.map fun x => (keptText x.identifier, x.type)).map Prod.fst,
    (l.map fun x => (keptText x.identifier, x.type)).map fun e => (e.1, siText ids e.2)⟩ : ExtrinsicMeta)
  simp only [List.map_map] at this
  simp only [Res.ok_bind, List.map_map]
  exact this

theorem settles_extrinsic15 (h : ReadsExtrinsic env ctx) {v a c s e : Nat} {l : List WExtension} {b : Str} (ids : Nat → Option Str)
    (hw : EncExtrinsic15 v a c s e l b) (hi : ∀ t ∈ [a, c, s, e], FId t) (hv : v < 256) (hf : FList FExtension l) :
    Settles (fun n => readExtrinsicMeta (pau env n) ctx b!"ExtrinsicMetadataV15" ids) b
      ⟨l.map fun x => keptText x.identifier, l.map fun x => (keptText x.identifier, siText ids x.type)⟩ := by
  obtain ⟨b1, b2, b3, b4, b5, h1, h2, h3, h4, h5, rfl⟩ := hw
  have id : ∀ {t d}, t ∈ [a, c, s, e] → Spec.IsCompact t d → Decodes env ctx b!"SiLookupTypeId" d (.int t) [] :=
    fun ht hc => C14_decode env ctx _ _ _ _ (Nat.lt_trans (hi _ ht) (by decide)) hc h.id
  have d0 := C07_decode env ctx b!"u8" 1 v [] (by simp) hv h.u8
  have d1 := id (by simp) h1
  have d2 := id (by simp) h2
  have d3 := id (by simp) h3
  have d4 := id (by simp) h4
  obtain ⟨w, d5, r5, _⟩ := reads_list h.len h.exts rfl (reads_extension h) h5 hf
  have := C22_decode env ctx b!"ExtrinsicMetadataV15" [] [⟨b!"version", _, _, Spec.leBytes 1 v, []⟩, ⟨b!"addressType", _, _, b1, []⟩,
    ⟨b!"callType", _, _, b2, []⟩, ⟨b!"signatureType", _, _, b3, []⟩, ⟨b!"extraType", _, _, b4, []⟩,
    ⟨b!"signedExtensions", _, w, b5, []⟩] (by simp) h.v15 (by
      simp only [List.mem_cons, List.not_mem_nil, or_false]; rintro f (rfl | rfl | rfl | rfl | rfl | rfl) <;> assumption)
  refine settles_last (settles_decodes (by simpa [bytesOf, callsOf] using this)) ?_
  show Settles (fun _ st => jsonList readExtension w >>= fun exts =>
    Res.ok ((⟨exts.map Prod.fst, exts.map fun e => (e.1, siText ids e.2)⟩ : ExtrinsicMeta), st)) [] _
  rw [r5]
  have := settles_pure (⟨(l.map fun x => (keptText x.identifier, x.type)).map Prod.fst,
    (l.map fun x => (keptText x.identifier, x.type)).map fun e => (e.1, siText ids e.2)⟩ : ExtrinsicMeta)
  simp only [List.map_map] at this
  simp only [Res.ok_bind, List.map_map]
  exact this

end

/-! ## The whole -/

/-- The configuration made from a registry. -/
def wireCfg (l : List (Nat × PType)) (spec : Int) : SiCfg := { portableCfg (kept l) with spec := spec }

/-- What comes of the modules, the extensions and the tables. -/
def metaOut (texts : List PalletText) (ext : ExtrinsicMeta) (st : SiState) (ps : List Pallet) : V14Out :=
  ⟨texts, callsV14 (texts.map PalletText.mod) (fun _ => none), eventsV14 (texts.map PalletText.mod) (fun _ => none), ext,
    { st.reg with env := registerOriginCaller st.reg.env (ps.map fun p => (p.name, p.index)) }⟩

theorem settles_common {check : Bool} {pallet : Rec → Ctx → Dec Pallet} {extrinsic : Str} {reg : RegState} {ctx : Ctx}
    {l : List (Nat × PType)} {b1 b2 b3 : Str} {st : SiState} {ps : List Pallet} {texts : List PalletText} {ext : ExtrinsicMeta} {N : Nat}
    (hp : ReadsPortable reg.env ctx) (hw : WRegistry l b1) (hf : FRegistry l) (hs : processSiType (wireCfg l ctx.spec) N reg = .ok st)
    (h2 : Settles (fun n => readVec (pau st.reg.env n) ctx (pallet (pau st.reg.env n) ctx)) b2 ps)
    (ht : eachRes (palletText check (wireCfg l ctx.spec) st.ids) ps = .ok texts)
    (h3 : Settles (fun n => readExtrinsicMeta (pau st.reg.env n) ctx extrinsic st.ids) b3 ext) :
    Settles (fun n => processCommon check pallet extrinsic n reg ctx) (b1 ++ (b2 ++ b3)) (metaOut texts ext st ps, st.ids) := by
  obtain ⟨v, d, r⟩ := C77_reads _ _ _ _ hp hw hf
  refine settles_step (settles_decodes d) ?_
  refine settles_res (r := fun _ => initPortable v) (k := fun n portable st => _) ⟨0, fun _ _ => r⟩ ?_
  refine settles_res (r := fun n => processSiType (wireCfg l ctx.spec) n reg) (k := fun n si st => _)
    ⟨N, fun n hn => (processSiType_mono _ _ hn).ok hs⟩ ?_
  refine settles_step h2 ?_
  refine settles_res (r := fun _ => eachRes (palletText check (wireCfg l ctx.spec) st.ids) ps) (k := fun n texts st => _) ⟨0, fun _ _ => ht⟩ ?_
  refine settles_last h3 ?_
  exact settles_pure _

end ScaleGo
