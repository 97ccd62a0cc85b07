import Verif.Lemmas.V14
import Verif.Props.C24

/-! # The part of V15 metadata behind the extrinsic -/

namespace ScaleGo
open _root_.Spec (WText WAll WList WOpt FText FList FId WMethod WApi WCustom EncMethod EncApi EncCustom EncTail15 FMethod FApi FCustom)
open ScaleGo.Spec

/-- The texts by which this part is read mean what frame-metadata says. -/
structure ReadsTail (env : Env) (ctx : Ctx) : Prop where
  len : LenOK env ctx
  text : Resolves env ctx.module ctx.spec b!"Text" .string []
  texts : Resolves env ctx.module ctx.spec b!"Vec<Text>" (.vec []) b!"Text"
  bytes : Resolves env ctx.module ctx.spec b!"Bytes" .bytes []
  id : Resolves env ctx.module ctx.spec b!"SiLookupTypeId" .compactU32 []
  custom : Resolves env ctx.module ctx.spec b!"BTreeMap<Text, CustomValueMetadata15>" (.btreeMap []) b!"Text, CustomValueMetadata15"
  value : Resolves env ctx.module ctx.spec b!" CustomValueMetadata15" (.struct (some [(b!"type", b!"SiLookupTypeId"), (b!"value", b!"Bytes")])) []

theorem custom_verbatim : Verbatim (generic b!"BTreeMap" b!"Text, CustomValueMetadata15") := by
  constructor
  · exact ⟨⟨66, _, rfl, by decide⟩, 62, b!"BTreeMap<Text, CustomValueMetadata15", rfl, by decide⟩
  · decide +kernel
  · decide +kernel
  · decide +kernel
  · decide +kernel

theorem loaded_tail {cfg : SiCfg} {A : Nat → Prop} {reg : RegState} {st : SiState} (hR : MetaReady reg) (hL : Loaded cfg A reg.env st)
    (hT : Tidy cfg A reg.env.reg) {ctx : Ctx} (hm : ∀ t, NotOverridden ctx.module t) : ReadsTail st.reg.env ctx := by
  have one : ∀ {t : Str} {c : Cls}, (toLower t, c) ∈ metaClasses → convertType t = t →
      Resolves st.reg.env ctx.module ctx.spec t c [] := fun h1 h2 => meta_looksUp hR hL h1 h2 _ _ (hm _)
  constructor
  · exact (len_ok hT hR.stock hL hR.special).1
  case texts => exact meta_vec hR hL (by decide) (clean_word (by decide) (by decide) (by decide) (by decide)) (by decide) _ _ (hm _)
  case custom =>
    refine looksUp_wrapper hL hR.special (w := b!"BTreeMap") (a := b!"Text, CustomValueMetadata15") (by decide) (by decide +kernel) (by decide) custom_verbatim ?_ ?_ _ _ (hm _)
    · rw [hL.generics _ (.inl (by decide)) (by decide) (by decide)]
      exact hR.custom
    · exact hL.kept _ _ (hR.classes (b!"btreemap", .btreeMap []) (by decide +kernel)) (by decide +kernel)
  case value =>
    refine looksUp_entry hL hR.special (u := b!"CustomValueMetadata15") (by kernel_rfl) (by decide) ?_ _ _ (hm _)
    exact hL.kept _ _ (hR.classes (b!"customvaluemetadata15", _) (by decide +kernel)) (by decide +kernel)
  all_goals exact one (by decide +kernel) (by kernel_rfl)

/-- What is kept of a method. -/
def keptMethod (ids : Nat → Option Str) (x : WMethod) : ApiMethod :=
  ⟨keptText x.name, x.inputs.map fun i => (keptText i.1, i.2, siText ids i.2), (x.output, siText ids x.output), x.docs.map keptText⟩

/-- What is kept of an api. -/
def keptApi (ids : Nat → Option Str) (x : WApi) : Str × List ApiMethod × List Str :=
  (keptText x.name, x.methods.map (keptMethod ids), x.docs.map keptText)

/-- What is kept of the custom values: a list of maps with one entry each. -/
def keptCustom (l : List WCustom) : Val :=
  mkSlice (l.map fun x => .map [(keptText x.name, .map [(b!"type", .int x.type), (b!"value", .str (shown .bytes x.value))])])

section
variable {env : Env} {ctx : Ctx}

theorem tail_text (h : ReadsTail env ctx) {s b : Str} (hw : WText s b) (hf : FText s) : Decodes env ctx b!"Text" b (.str (keptText s)) [] := by
  obtain ⟨c, hc, rfl⟩ := hw
  exact C19_decode env ctx _ _ .string s c (by simp) h.text h.len hf hc

theorem tail_docs (h : ReadsTail env ctx) {l : List Str} {b : Str} (hw : WList WText l b) (hf : FList FText l) :
    Settles (fun n => readStrs (pau env n) ctx b!"Vec<Text>") b (l.map keptText) :=
  settles_strs h.len h.texts rfl (k := keptText) (fun _ _ => tail_text h) hw hf

theorem tail_id (h : ReadsTail env ctx) {n : Nat} {b : Str} (hw : _root_.Spec.IsCompact n b) (hf : FId n) :
    Settles (fun m => readInt (pau env m) ctx b!"SiLookupTypeId") b n :=
  settles_int (C14_decode env ctx _ _ n b (Nat.lt_trans hf (by decide)) hw h.id)

theorem settles_method (h : ReadsTail env ctx) (ids : Nat → Option Str) (x : WMethod) (b : Str) (hw : EncMethod x b) (hf : FMethod x) :
    Settles (fun n => readApiMethod (pau env n) ctx ids) b (keptMethod ids x) := by
  obtain ⟨b1, b2, b3, b4, h1, h2, h3, h4, rfl⟩ := hw
  obtain ⟨f1, f2, f3, f4⟩ := hf
  refine settles_step (settles_str (tail_text h h1 f1)) ?_
  refine settles_step (settles_vec (k := fun i : Str × Nat => (keptText i.1, i.2, siText ids i.2)) h.len ?_ h2 f2) ?_
  · rintro i b ⟨c, d, hc, hd, rfl⟩ hf
    refine settles_step (settles_str (tail_text h hc hf.1)) ?_
    exact settles_last (tail_id h hd hf.2) (settles_pure _)
  refine settles_step (tail_id h h3 f3) ?_
  exact settles_last (tail_docs h h4 f4) (settles_pure _)

theorem settles_api (h : ReadsTail env ctx) (ids : Nat → Option Str) (x : WApi) (b : Str) (hw : EncApi x b) (hf : FApi x) :
    Settles (fun n => readApi (pau env n) ctx ids) b (keptApi ids x) := by
  obtain ⟨b1, b2, b3, h1, h2, h3, rfl⟩ := hw
  obtain ⟨f1, f2, f3⟩ := hf
  refine settles_step (settles_str (tail_text h h1 f1)) ?_
  refine settles_step (settles_vec h.len (settles_method h ids) h2 f2) ?_
  exact settles_last (tail_docs h h3 f3) (settles_pure _)

theorem customs_items (h : ReadsTail env ctx) : ∀ (l : List WCustom) (d : Str), WAll EncCustom l d → (∀ x ∈ l, FText x.name ∧ FId x.type ∧ FText x.value) →
    ∃ items : List (Item × Item), items.length = l.length ∧ (items.map fun x => x.1.2.1 ++ x.2.2.1).flatten = d ∧
      (items.map fun x => x.1.2.2 ++ x.2.2.2).flatten = [] ∧
      (items.map fun x => Val.map [(env.ext.toStr x.1.1, x.2.1)]) =
        (l.map fun x => .map [(keptText x.name, .map [(b!"type", .int x.type), (b!"value", .str (shown .bytes x.value))])]) ∧
      (∀ x ∈ items, Decodes env ctx b!"Text" x.1.2.1 x.1.1 x.1.2.2) ∧
      (∀ x ∈ items, Decodes env ctx b!" CustomValueMetadata15" x.2.2.1 x.2.1 x.2.2.2)
  | [], d, hw, _ => ⟨[], rfl, by have : d = [] := hw; subst this; rfl, rfl, rfl, by simp, by simp⟩
  | a :: l, d, hw, hf => by
    obtain ⟨c, d, ⟨b1, b2, b3, h1, h2, ⟨c3, h3, rfl⟩, rfl⟩, hd, rfl⟩ := hw
    obtain ⟨items, i1, i2, i3, i4, i5, i6⟩ := customs_items h l d hd fun x hx => hf x (by simp [hx])
    obtain ⟨f1, f2, f3⟩ := hf a (by simp)
    have d1 := C14_decode env ctx _ _ _ _ (Nat.lt_trans f2 (by decide)) h2 h.id
    have d2 := C19_decode env ctx _ _ .bytes a.value c3 (by simp) h.bytes h.len f3 h3
    have := C22_decode env ctx b!" CustomValueMetadata15" [] [⟨b!"type", _, _, b2, []⟩, ⟨b!"value", _, _, c3 ++ a.value, []⟩] (by simp) h.value (by
      simp only [List.mem_cons, List.not_mem_nil, or_false]; rintro f (rfl | rfl) <;> assumption)
    refine ⟨((.str (keptText a.name), b1, []), (.map [(b!"type", .int a.type), (b!"value", .str (shown .bytes a.value))], b2 ++ (c3 ++ a.value), [])) :: items,
      by simp [i1], by simp [i2], by simpa using i3, ?_, ?_, ?_⟩
    · simp only [List.map_cons, i4]
      rfl
    · intro x hx
      rcases List.mem_cons.1 hx with rfl | hx
      · exact tail_text h h1 f1
      · exact i5 x hx
    · intro x hx
      rcases List.mem_cons.1 hx with rfl | hx
      · have e : Val.map [(b!"type", .int a.type), (b!"value", .str (shown .bytes a.value))] = .map (valuesOf
            [⟨b!"type", b!"SiLookupTypeId", .int a.type, b2, []⟩, ⟨b!"value", b!"Bytes", .str (shown .bytes a.value), c3 ++ a.value, []⟩]) := rfl
        rw [e]
        simpa [bytesOf, callsOf] using this
      · exact i6 x hx

theorem tail_custom (h : ReadsTail env ctx) {l : List WCustom} {b : Str} (hw : WList EncCustom l b) (hf : FCustom l) :
    Decodes env ctx b!"BTreeMap<Text, CustomValueMetadata15>" b (keptCustom l) [] := by
  obtain ⟨c, d, hc, hd, rfl⟩ := hw
  obtain ⟨items, i1, i2, i3, i4, i5, i6⟩ := customs_items h l d hd hf.2
  have := C24_map_partial env ctx b!"BTreeMap<Text, CustomValueMetadata15>" [] b!"Text, CustomValueMetadata15" b!"Text" b!" CustomValueMetadata15" c items
    h.custom h.len (by decide) (by decide) (by decide) (by rw [i1]; exact hf.1) (by rw [i1]; exact hc) i5 i6
  rw [i2, i3, i4] at this
  exact this

/-- The part behind the extrinsic. -/
theorem settles_tail {α : Type} (h : ReadsTail env ctx) (ids : Nat → Option Str) (k : Nat → List (Str × List ApiMethod × List Str) → Nat × Nat × Nat → Val → α)
    {t : Nat} {apis : List WApi} {outer : Nat × Nat × Nat} {custom : List WCustom} {b : Str} (hw : EncTail15 t apis outer custom b) (ht : FId t)
    (ha : FList FApi apis) (ho : FId outer.1 ∧ FId outer.2.1 ∧ FId outer.2.2) (hc : FCustom custom) :
    Settles (fun n st => do
      let (type, st) ← readInt (pau env n) ctx b!"SiLookupTypeId" st
      let (apis, st) ← readVec (pau env n) ctx (readApi (pau env n) ctx ids) st
      let (call, st) ← readInt (pau env n) ctx b!"SiLookupTypeId" st
      let (event, st) ← readInt (pau env n) ctx b!"SiLookupTypeId" st
      let (error, st) ← readInt (pau env n) ctx b!"SiLookupTypeId" st
      let (custom, st) ← pau env n ctx b!"BTreeMap<Text, CustomValueMetadata15>" st
      Res.ok (k type apis (call, event, error) custom, st)) b (k t (apis.map (keptApi ids)) outer (keptCustom custom)) := by
  obtain ⟨b1, b2, b3, b4, b5, b6, h1, h2, h3, h4, h5, h6, rfl⟩ := hw
  obtain ⟨o1, o2, o3⟩ := outer
  refine settles_step (tail_id h h1 ht) ?_
  refine settles_step (settles_vec h.len (settles_api h ids) h2 ha) ?_
  refine settles_step (tail_id h h3 ho.1) ?_
  refine settles_step (tail_id h h4 ho.2.1) ?_
  refine settles_step (tail_id h h5 ho.2.2) ?_
  exact settles_last (settles_decodes (tail_custom h h6 hc)) (settles_pure _)

end

end ScaleGo
