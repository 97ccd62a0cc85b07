import Verif.Lemmas.BuiltinIndex
import Verif.Lemmas.KernelRfl
import Verif.Model.Portable
import Verif.Props.C07
import Verif.Props.C19
import Verif.Props.C20
import Verif.Props.C21
import Verif.Props.C22
import Verif.Props.C23
import Verif.Spec.Portable

/-! # C77: the portable registry is read as it was written -/

namespace ScaleGo
open _root_.Spec (WText WAll WList WOpt WField WVariant WParam WDef WType WPortable WRegistry FText FList FId FField FVariant FDef
  FType FRegistry PField PVariant PParam PDef PType primitiveNames)

/-- The texts by which a registry is read mean what scale-info says. -/
structure ReadsPortable (env : Env) (ctx : Ctx) : Prop where
  len : LenOK env ctx
  text : Resolves env ctx.module ctx.spec b!"Text" .string []
  u8 : Resolves env ctx.module ctx.spec b!"u8" .u8 []
  u32 : Resolves env ctx.module ctx.spec b!"u32" .u32 []
  id : Resolves env ctx.module ctx.spec b!"SiLookupTypeId" .compactU32 []
  path : Resolves env ctx.module ctx.spec b!"SiPath" (.vec b!"Text") []
  texts : Resolves env ctx.module ctx.spec b!"Vec<Text>" (.vec []) b!"Text"
  fields : Resolves env ctx.module ctx.spec b!"Vec<SiField>" (.vec []) b!"SiField"
  variants : Resolves env ctx.module ctx.spec b!"Vec<SiVariant>" (.vec []) b!"SiVariant"
  params : Resolves env ctx.module ctx.spec b!"Vec<SiTypeParameter>" (.vec []) b!"SiTypeParameter"
  optText : Resolves env ctx.module ctx.spec b!"Option<Text>" (.option []) b!"Text"
  optId : Resolves env ctx.module ctx.spec b!"Option<SiLookupTypeId>" (.option []) b!"SiLookupTypeId"
  field : Resolves env ctx.module ctx.spec b!"SiField" (.struct (some [(b!"name", b!"Option<Text>"), (b!"type", b!"SiLookupTypeId"),
    (b!"typeName", b!"Option<Text>"), (b!"docs", b!"Vec<Text>")])) []
  variant : Resolves env ctx.module ctx.spec b!"SiVariant" (.struct (some [(b!"name", b!"Text"), (b!"fields", b!"Vec<SiField>"),
    (b!"index", b!"u8"), (b!"docs", b!"Vec<Text>")])) []
  param : Resolves env ctx.module ctx.spec b!"SiTypeParameter" (.struct (some [(b!"name", b!"Text"),
    (b!"type", b!"Option<SiLookupTypeId>")])) []
  def' : Resolves env ctx.module ctx.spec b!"SiTypeDef" (.enum [] (some [(b!"Composite", b!"SiTypeDefComposite"),
    (b!"Variant", b!"SiTypeDefVariant"), (b!"Sequence", b!"SiTypeDefSequence"), (b!"Array", b!"SiTypeDefArray"),
    (b!"Tuple", b!"SiTypeDefTuple"), (b!"Primitive", b!"SiTypeDefPrimitive"), (b!"Compact", b!"SiTypeDefCompact"),
    (b!"BitSequence", b!"SiTypeDefBitSequence"), (b!"Range", b!"SiTypeDefRange"), (b!"HistoricMetaCompat", b!"String")])) []
  composite : Resolves env ctx.module ctx.spec b!"SiTypeDefComposite" (.struct (some [(b!"fields", b!"Vec<SiField>")])) []
  variantDef : Resolves env ctx.module ctx.spec b!"SiTypeDefVariant" (.struct (some [(b!"variants", b!"Vec<SiVariant>")])) []
  sequence : Resolves env ctx.module ctx.spec b!"SiTypeDefSequence" (.struct (some [(b!"type", b!"SiLookupTypeId")])) []
  array : Resolves env ctx.module ctx.spec b!"SiTypeDefArray" (.struct (some [(b!"len", b!"u32"), (b!"type", b!"SiLookupTypeId")])) []
  tuple : Resolves env ctx.module ctx.spec b!"SiTypeDefTuple" (.vec b!"SiLookupTypeId") []
  primitive : Resolves env ctx.module ctx.spec b!"SiTypeDefPrimitive" (.enum primitiveNames none) []
  compact : Resolves env ctx.module ctx.spec b!"SiTypeDefCompact" (.struct (some [(b!"type", b!"SiLookupTypeId")])) []
  bits : Resolves env ctx.module ctx.spec b!"SiTypeDefBitSequence" (.struct (some [(b!"bitStoreType", b!"SiLookupTypeId"),
    (b!"bitOrderType", b!"SiLookupTypeId")])) []
  type : Resolves env ctx.module ctx.spec b!"SiType" (.struct (some [(b!"path", b!"SiPath"), (b!"params", b!"Vec<SiTypeParameter>"),
    (b!"def", b!"SiTypeDef"), (b!"docs", b!"Vec<Text>")])) []
  portable : Resolves env ctx.module ctx.spec b!"PortableType" (.struct (some [(b!"id", b!"SiLookupTypeId"), (b!"type", b!"SiType")])) []
  registry : Resolves env ctx.module ctx.spec b!"PortableRegistry" (.vec b!"PortableType") []

/-- The tables of the library after loading do. -/
theorem loaded_readsPortable (ext : Ext) (spec : Int) (md : Option MD) : ReadsPortable (loadedEnv ext) ⟨[], spec, md⟩ := by
  constructor
  · exact ⟨[], by unfold Resolves loadedEnv; rw [loadedReg_fast]; kernel_rfl⟩
  all_goals (unfold Resolves loadedEnv; rw [loadedReg_fast]; kernel_rfl)

/-- A text as the decoder returns it. -/
def keptText (s : Str) : Str := shown .string s

/-- What is kept of a field: absent names become empty. -/
def keptField (f : PField) : SiField := ⟨(f.name.map keptText).getD [], f.type, (f.typeName.map keptText).getD []⟩

/-- What is kept of a variant. -/
def keptVariant (v : PVariant) : SiVariant := ⟨keptText v.name, v.fields.map keptField, v.index⟩

/-- What is kept of a type parameter: an absent type becomes type 0. -/
def keptParam (p : PParam) : Str × Nat := (keptText p.name, p.type.getD 0)

/-- What is kept of a definition: the empty tuple becomes no definition. -/
def keptDef : PDef → SiDef
  | .composite fs => .composite (fs.map keptField)
  | .variant vs => .variant (vs.map keptVariant)
  | .sequence t => .sequence t
  | .array n t => .array n t
  | .tuple [] => .none
  | .tuple ts => .tuple ts
  | .primitive i => .primitive (primitiveNames[i]?.getD [])
  | .compact t => .compact t
  | .bitSequence _ _ => .bitSequence

/-- What is kept of a type. -/
def keptType (t : PType) : SiType := ⟨t.path.map keptText, t.params.map keptParam, keptDef t.typ⟩

/-- What is kept of a registry. -/
def kept (l : List (Nat × PType)) : List (Nat × SiType) := l.map fun p => (p.1, keptType p.2)

/-- The bytes decode to a value that is read as `x`. -/
def ReadsAs {β : Type} (env : Env) (ctx : Ctx) (ty b : Str) (read : Val → Res β) (x : β) : Prop :=
  ∃ v, Decodes env ctx ty b v [] ∧ read v = .ok x

section
variable {env : Env} {ctx : Ctx}

theorem reads_text (h : ReadsPortable env ctx) (s b : Str) (hw : WText s b) (hf : FText s) :
    ReadsAs env ctx b!"Text" b jsonText (keptText s) := by
  obtain ⟨c, hc, rfl⟩ := hw
  exact ⟨_, C19_decode env ctx _ _ .string s c (by simp) h.text h.len hf hc, rfl⟩

theorem reads_id (h : ReadsPortable env ctx) (n : Nat) (b : Str) (hw : Spec.IsCompact n b) (hf : FId n) :
    ReadsAs env ctx b!"SiLookupTypeId" b jsonInt n :=
  ⟨_, C14_decode env ctx _ _ n b (Nat.lt_trans hf (by decide)) hw h.id, rfl⟩

theorem reads_all {α β : Type} {P : α → Str → Prop} {F : α → Prop} {read : Val → Res β} {k : α → β} {el : Str}
    (hi : ∀ a b, P a b → F a → ReadsAs env ctx el b read (k a)) :
    ∀ (l : List α) (d : Str), WAll P l d → (∀ a ∈ l, F a) →
      ∃ items : List Item, items.length = l.length ∧ (items.map (·.2.1)).flatten = d ∧ (items.map (·.2.2)).flatten = [] ∧
        (∀ x ∈ items, Decodes env ctx el x.2.1 x.1 x.2.2) ∧ jsonEach read (items.map (·.1)) = .ok (l.map k)
  | [], d, hw, _ => ⟨[], rfl, hw.symm, rfl, by simp, rfl⟩
  | a :: l, d, hw, hf => by
    obtain ⟨c, e, hc, he, rfl⟩ := hw
    obtain ⟨v, hv, hr⟩ := hi a c hc (hf a (by simp))
    obtain ⟨items, h1, h2, h3, h4, h5⟩ := reads_all hi l e he (fun x hx => hf x (by simp [hx]))
    refine ⟨(v, c, []) :: items, by simp [h1], by simp [h2], by simpa using h3, ?_, ?_⟩
    · intro x hx
      rcases List.mem_cons.1 hx with rfl | hx
      · exact hv
      · exact h4 x hx
    · show (read v >>= fun a => jsonEach read (items.map (·.1)) >>= fun l => Res.ok (a :: l)) = _
      rw [hr, h5]
      rfl

theorem reads_list {α β : Type} {P : α → Str → Prop} {F : α → Prop} {read : Val → Res β} {k : α → β} {ty sub el : Str} {cls : Cls}
    (hL : LenOK env ctx) (hr : Resolves env ctx.module ctx.spec ty cls sub) (hv : vecElem cls sub = some el)
    (hi : ∀ a b, P a b → F a → ReadsAs env ctx el b read (k a)) {l : List α} {b : Str} (hw : WList P l b) (hf : FList F l) :
    ∃ v, Decodes env ctx ty b v [] ∧ jsonList read v = .ok (l.map k) ∧ (l ≠ [] → isJsonNull v = false) ∧ (l = [] → v = .nilSlice) := by
  obtain ⟨c, d, hc, hd, rfl⟩ := hw
  obtain ⟨items, h1, h2, h3, h4, h5⟩ := reads_all hi l d hd hf.2
  have := C20_decode env ctx ty sub el cls items c hv hr hL (h1 ▸ hf.1) (h1 ▸ hc) h4
  rw [h2, h3] at this
  refine ⟨_, this, ?_, ?_, ?_⟩
  · cases items with
    | nil =>
      have : l = [] := List.eq_nil_of_length_eq_zero (by simpa using h1.symm)
      subst this; rfl
    | cons x xs => exact h5
  · intro hl
    cases items with
    | nil => exact absurd (List.eq_nil_of_length_eq_zero (by simpa using h1.symm)) hl
    | cons x xs => rfl
  · rintro rfl
    have : items = [] := List.eq_nil_of_length_eq_zero (by simpa using h1)
    subst this; rfl

theorem reads_opt {α β : Type} {P : α → Str → Prop} {F : α → Prop} {read : Val → Res β} {k : α → β} {ty el : Str} {z : β}
    (hr : Resolves env ctx.module ctx.spec ty (.option []) el) (he : el ≠ []) (hb : el ≠ b!"bool")
    (hi : ∀ a b, P a b → F a → ReadsAs env ctx el b read (k a)) (hz : read .nil = .ok z) {o : Option α} {b : Str} (hw : WOpt P o b)
    (hf : ∀ a ∈ o, F a) : ReadsAs env ctx ty b read ((o.map k).getD z) := by
  cases o with
  | none => exact ⟨_, hw ▸ C21_decode_none env ctx ty [] el hr, hz⟩
  | some a =>
    obtain ⟨c, hc, rfl⟩ := hw
    obtain ⟨v, hv, hr'⟩ := hi a c hc (hf a rfl)
    refine ⟨v, C21_decode_some env ctx ty [] el el c 1 v [] ?_ he hb (by decide) hr hv, hr'⟩
    simp [effSub, he]

theorem reads_texts (h : ReadsPortable env ctx) {l : List Str} {b : Str} (hw : WList WText l b) (hf : FList FText l) :
    ReadsAs env ctx b!"Vec<Text>" b (jsonList jsonText) (l.map keptText) := by
  obtain ⟨v, h1, h2, _⟩ := reads_list h.len h.texts rfl (reads_text h) hw hf
  exact ⟨v, h1, h2⟩

theorem reads_field (h : ReadsPortable env ctx) (f : PField) (b : Str) (hw : WField f b) (hf : FField f) :
    ReadsAs env ctx b!"SiField" b readField (keptField f) := by
  obtain ⟨b1, b2, b3, b4, h1, h2, h3, h4, rfl⟩ := hw
  obtain ⟨f1, f2, f3, f4⟩ := hf
  obtain ⟨v1, d1, r1⟩ := reads_opt h.optText (by decide) (by decide) (reads_text h) (z := []) rfl h1 f1
  obtain ⟨v2, d2, r2⟩ := reads_id h _ _ h2 f2
  obtain ⟨v3, d3, r3⟩ := reads_opt h.optText (by decide) (by decide) (reads_text h) (z := []) rfl h3 f3
  obtain ⟨v4, d4, r4⟩ := reads_texts h h4 f4
  have := C22_decode env ctx b!"SiField" [] [⟨b!"name", _, v1, b1, []⟩, ⟨b!"type", _, v2, b2, []⟩, ⟨b!"typeName", _, v3, b3, []⟩,
    ⟨b!"docs", _, v4, b4, []⟩] (by simp) h.field (by
      simp only [List.mem_cons, List.not_mem_nil, or_false]; rintro f (rfl | rfl | rfl | rfl) <;> assumption)
  refine ⟨_, by simpa [bytesOf, callsOf] using this, ?_⟩
  show (jsonText v1 >>= fun name => jsonInt v2 >>= fun type => jsonText v3 >>= fun tn => jsonList jsonText v4 >>= fun _ =>
    Res.ok (⟨name, type, tn⟩ : SiField)) = _
  rw [r1, r2, r3, r4]
  rfl

theorem reads_variant (h : ReadsPortable env ctx) (w : PVariant) (b : Str) (hw : WVariant w b) (hf : FVariant w) :
    ReadsAs env ctx b!"SiVariant" b readVariant (keptVariant w) := by
  obtain ⟨b1, b2, b4, h1, h2, h4, rfl⟩ := hw
  obtain ⟨f1, f2, f3, f4⟩ := hf
  obtain ⟨v1, d1, r1⟩ := reads_text h _ _ h1 f1
  obtain ⟨v2, d2, r2, _⟩ := reads_list h.len h.fields rfl (reads_field h) h2 f2
  have d3 := C07_decode env ctx b!"u8" 1 w.index [] (by simp) f3 h.u8
  obtain ⟨v4, d4, r4⟩ := reads_texts h h4 f4
  have := C22_decode env ctx b!"SiVariant" [] [⟨b!"name", _, v1, b1, []⟩, ⟨b!"fields", _, v2, b2, []⟩,
    ⟨b!"index", b!"u8", uintValue 1 w.index, Spec.leBytes 1 w.index, []⟩, ⟨b!"docs", _, v4, b4, []⟩] (by simp) h.variant (by
      simp only [List.mem_cons, List.not_mem_nil, or_false]; rintro f (rfl | rfl | rfl | rfl) <;> assumption)
  refine ⟨_, by simpa [bytesOf, callsOf] using this, ?_⟩
  show (jsonText v1 >>= fun name => jsonList readField v2 >>= fun fields => jsonInt (uintValue 1 w.index) >>= fun index =>
    jsonList jsonText v4 >>= fun _ => Res.ok (⟨name, fields, index⟩ : SiVariant)) = _
  rw [r1, r2, r4]
  rfl

theorem reads_param (h : ReadsPortable env ctx) (p : PParam) (b : Str) (hw : WParam p b) (hf : FText p.name ∧ ∀ n ∈ p.type, FId n) :
    ReadsAs env ctx b!"SiTypeParameter" b readParam (keptParam p) := by
  obtain ⟨b1, b2, h1, h2, rfl⟩ := hw
  obtain ⟨f1, f2⟩ := hf
  obtain ⟨v1, d1, r1⟩ := reads_text h _ _ h1 f1
  obtain ⟨v2, d2, r2⟩ := reads_opt h.optId (by decide) (by decide) (reads_id h) (k := fun n => n) (z := 0) rfl h2 f2
  have := C22_decode env ctx b!"SiTypeParameter" [] [⟨b!"name", _, v1, b1, []⟩, ⟨b!"type", _, v2, b2, []⟩] (by simp) h.param (by
      simp only [List.mem_cons, List.not_mem_nil, or_false]; rintro f (rfl | rfl) <;> assumption)
  refine ⟨_, by simpa [bytesOf, callsOf] using this, ?_⟩
  show (jsonText v1 >>= fun name => jsonInt v2 >>= fun type => Res.ok (name, type)) = _
  rw [r1, r2]
  show Res.ok _ = _
  unfold keptParam
  rw [Option.map_id']

/-- One field. -/
theorem decodes_single {ty n t b : Str} {v : Val} (hr : Resolves env ctx.module ctx.spec ty (.struct (some [(n, t)])) [])
    (hd : Decodes env ctx t b v []) : Decodes env ctx ty b (.map [(n, v)]) [] := by
  have := C22_decode env ctx ty [] [⟨n, t, v, b, []⟩] (by simp) hr (by
      simp only [List.mem_cons, List.not_mem_nil, or_false]; rintro f rfl; assumption)
  simpa [bytesOf, callsOf, valuesOf] using this

/-- Two fields. -/
theorem decodes_pair {ty n t m u b c : Str} {v w : Val} (hr : Resolves env ctx.module ctx.spec ty (.struct (some [(n, t), (m, u)])) [])
    (hn : n ≠ m) (hd : Decodes env ctx t b v []) (hd' : Decodes env ctx u c w []) :
    Decodes env ctx ty (b ++ c) (.map [(n, v), (m, w)]) [] := by
  have := C22_decode env ctx ty [] [⟨n, t, v, b, []⟩, ⟨m, u, w, c, []⟩] (by simpa using hn) hr (by
      simp only [List.mem_cons, List.not_mem_nil, or_false]; rintro f (rfl | rfl) <;> assumption)
  simpa [bytesOf, callsOf, valuesOf] using this

theorem def_not_cLike : ¬ CLike [(b!"Composite", b!"SiTypeDefComposite"),
    (b!"Variant", b!"SiTypeDefVariant"), (b!"Sequence", b!"SiTypeDefSequence"), (b!"Array", b!"SiTypeDefArray"),
    (b!"Tuple", b!"SiTypeDefTuple"), (b!"Primitive", b!"SiTypeDefPrimitive"), (b!"Compact", b!"SiTypeDefCompact"),
    (b!"BitSequence", b!"SiTypeDefBitSequence"), (b!"Range", b!"SiTypeDefRange"), (b!"HistoricMetaCompat", b!"String")] := by
  intro h
  have := h (b!"Composite", b!"SiTypeDefComposite") (by simp)
  exact absurd (this.2 83 (by simp)) (by decide)

theorem rows_head {t : Str} (h : t.head? ≠ some 91) : ¬ LooksLikeRows t := by
  rintro ⟨r, rfl⟩
  exact h rfl

theorem reads_def (h : ReadsPortable env ctx) (w : PDef) (b : Str) (hw : WDef w b) (hf : FDef w) :
    ReadsAs env ctx b!"SiTypeDef" b readDef (keptDef w) := by
  have data : ∀ (i : UInt8) (name t b : Str) (v : Val), _ → t.head? ≠ some 91 → t ≠ [] → Decodes env ctx t b v [] →
    Decodes env ctx b!"SiTypeDef" (i :: b) (.map [(name, v)]) [] :=
    fun i name t b v ht hh hne hd => C23_decode_data env ctx _ _ _ _ i name t b v [] def_not_cLike ht hne (rows_head hh) h.def' hd
  cases w with
  | composite fs =>
    obtain ⟨c, hc, rfl⟩ := hw
    obtain ⟨v, d, r, _⟩ := reads_list h.len h.fields rfl (reads_field h) hc hf
    refine ⟨_, data 0 b!"Composite" _ c _ rfl (by decide) (by decide) (decodes_single h.composite d), ?_⟩
    show (jsonList readField v >>= fun fs => Res.ok (SiDef.composite fs)) = _
    rw [r]; rfl
  | variant vs =>
    obtain ⟨c, hc, rfl⟩ := hw
    obtain ⟨v, d, r, _⟩ := reads_list h.len h.variants rfl (reads_variant h) hc hf
    refine ⟨_, data 1 b!"Variant" _ c _ rfl (by decide) (by decide) (decodes_single h.variantDef d), ?_⟩
    show (jsonList readVariant v >>= fun fs => Res.ok (SiDef.variant fs)) = _
    rw [r]; rfl
  | sequence t =>
    obtain ⟨c, hc, rfl⟩ := hw
    obtain ⟨v, d, r⟩ := reads_id h _ _ hc hf
    refine ⟨_, data 2 b!"Sequence" _ c _ rfl (by decide) (by decide) (decodes_single h.sequence d), ?_⟩
    show (jsonInt v >>= fun t => Res.ok (SiDef.sequence t)) = _
    rw [r]; rfl
  | array n t =>
    obtain ⟨c, hc, rfl⟩ := hw
    obtain ⟨v, d, r⟩ := reads_id h _ _ hc hf.2
    have d' := C07_decode env ctx b!"u32" 4 n [] (by simp) hf.1 h.u32
    refine ⟨_, data 3 b!"Array" _ _ _ rfl (by decide) (by decide) (decodes_pair h.array (by decide) d' d), ?_⟩
    show (jsonInt (uintValue 4 n) >>= fun n => jsonInt v >>= fun t => Res.ok (SiDef.array n t)) = _
    rw [r]; rfl
  | tuple ts =>
    obtain ⟨c, hc, rfl⟩ := hw
    obtain ⟨v, d, r, hne, he⟩ := reads_list h.len h.tuple rfl (reads_id h) (k := fun n => n) hc hf
    refine ⟨_, data 4 b!"Tuple" _ c _ rfl (by decide) (by decide) d, ?_⟩
    show (if isJsonNull v then Res.ok SiDef.none else readKind b!"Tuple" v) = _
    cases ts with
    | nil => rw [he rfl]; rfl
    | cons t ts =>
      rw [hne (by simp), if_neg (by simp)]
      show (jsonList jsonInt v >>= fun ts => Res.ok (SiDef.tuple ts)) = _
      rw [r, List.map_id']; rfl
  | primitive i =>
    have hw : b = 5 :: Spec.leBytes 1 i := hw
    have hf : i < 15 := hf
    subst hw
    have hb : Spec.leBytes 1 i = [UInt8.ofNat i] := by
      simp [Spec.leBytes, Nat.mod_eq_of_lt (show i < 256 by omega)]
    have hi : (UInt8.ofNat i).toNat = i := by simp; omega
    have hn : ∀ i < 15, ∃ name, primitiveNames[i]? = some name ∧ name ≠ [] ∧ name.getD 0 0 ≠ 0 := by decide
    obtain ⟨name, h1, h2, _⟩ := hn i hf
    have d := (C23_decode_names env ctx _ _ primitiveNames (UInt8.ofNat i) h.primitive).1 name (by rw [hi]; exact h1) h2
    rw [hb]
    refine ⟨_, data 5 b!"Primitive" _ _ _ rfl (by decide) (by decide) d, ?_⟩
    show Res.ok (SiDef.primitive name) = Res.ok (SiDef.primitive (primitiveNames[i]?.getD []))
    rw [h1]; rfl
  | compact t =>
    obtain ⟨c, hc, rfl⟩ := hw
    obtain ⟨v, d, r⟩ := reads_id h _ _ hc hf
    refine ⟨_, data 6 b!"Compact" _ c _ rfl (by decide) (by decide) (decodes_single h.compact d), ?_⟩
    show (jsonInt v >>= fun t => Res.ok (SiDef.compact t)) = _
    rw [r]; rfl
  | bitSequence s o =>
    obtain ⟨c, e, hc, he, rfl⟩ := hw
    obtain ⟨v, d, r⟩ := reads_id h _ _ hc hf.1
    obtain ⟨v', d', r'⟩ := reads_id h _ _ he hf.2
    refine ⟨_, data 7 b!"BitSequence" _ _ _ rfl (by decide) (by decide) (decodes_pair h.bits (by decide) d d'), ?_⟩
    show (jsonInt v >>= fun _ => jsonInt v' >>= fun _ => Res.ok SiDef.bitSequence) = _
    rw [r, r']; rfl

theorem reads_type (h : ReadsPortable env ctx) (t : PType) (b : Str) (hw : WType t b) (hf : FType t) :
    ReadsAs env ctx b!"SiType" b readType (keptType t) := by
  obtain ⟨b1, b2, b3, b4, h1, h2, h3, h4, rfl⟩ := hw
  obtain ⟨f1, f2, f3, f4⟩ := hf
  obtain ⟨v1, d1, r1, _⟩ := reads_list h.len h.path rfl (reads_text h) h1 f1
  obtain ⟨v2, d2, r2, _⟩ := reads_list h.len h.params rfl (reads_param h) h2 f2
  obtain ⟨v3, d3, r3⟩ := reads_def h _ _ h3 f3
  obtain ⟨v4, d4, r4⟩ := reads_texts h h4 f4
  have := C22_decode env ctx b!"SiType" [] [⟨b!"path", _, v1, b1, []⟩, ⟨b!"params", _, v2, b2, []⟩, ⟨b!"def", _, v3, b3, []⟩,
    ⟨b!"docs", _, v4, b4, []⟩] (by simp) h.type (by
      simp only [List.mem_cons, List.not_mem_nil, or_false]; rintro f (rfl | rfl | rfl | rfl) <;> assumption)
  refine ⟨_, by simpa [bytesOf, callsOf] using this, ?_⟩
  show (jsonList jsonText v1 >>= fun path => jsonList readParam v2 >>= fun params => readDef v3 >>= fun d =>
    jsonList jsonText v4 >>= fun _ => Res.ok (⟨path, params, d⟩ : SiType)) = _
  rw [r1, r2, r3, r4]
  rfl

theorem reads_portable (h : ReadsPortable env ctx) (p : Nat × PType) (b : Str) (hw : WPortable p b) (hf : FId p.1 ∧ FType p.2) :
    ReadsAs env ctx b!"PortableType" b readPortable (p.1, keptType p.2) := by
  obtain ⟨c, e, h1, h2, rfl⟩ := hw
  obtain ⟨v1, d1, r1⟩ := reads_id h _ _ h1 hf.1
  obtain ⟨v2, d2, r2⟩ := reads_type h _ _ h2 hf.2
  refine ⟨_, decodes_pair h.portable (by decide) d1 d2, ?_⟩
  show (jsonInt v1 >>= fun id => readType v2 >>= fun t => Res.ok (id, t)) = _
  rw [r1, r2]
  rfl

end

/-- A registry in its encoding is decoded whole, and what is read of it is, in order, every id with the path, the parameters
and the definition of its type. -/
theorem C77_reads (env : Env) (ctx : Ctx) (l : List (Nat × PType)) (b : Str) (h : ReadsPortable env ctx) (hw : WRegistry l b)
    (hf : FRegistry l) : ∃ v, Decodes env ctx b!"PortableRegistry" b v [] ∧ initPortable v = .ok (kept l) := by
  obtain ⟨v, d, r, _⟩ := reads_list h.len h.registry rfl (reads_portable h) hw hf
  exact ⟨v, d, r⟩

/-- The map made from a registry without repeated ids has exactly the types of the registry. -/
theorem C77_lookup (l : List (Nat × PType)) (hd : (l.map Prod.fst).Nodup) :
    (∀ p ∈ l, (portableCfg (kept l)).types p.1 = keptType p.2) ∧ (∀ i, i ∉ l.map Prod.fst → (portableCfg (kept l)).types i = {}) ∧
    (portableCfg (kept l)).count = l.length := by
  have hk : (kept l).map Prod.fst = l.map Prod.fst := by simp [kept, Function.comp_def]
  refine ⟨fun p hp => ?_, fun i hi => ?_, ?_⟩
  · show portableType _ _ = _
    unfold portableType
    cases hf : (kept l).reverse.find? (fun q => q.1 == p.1) with
    | none =>
      have := List.find?_eq_none.1 hf (p.1, keptType p.2) (by simp only [kept, List.mem_reverse, List.mem_map]; exact ⟨p, hp, rfl⟩)
      simp at this
    | some q =>
      have h1 := List.find?_some hf
      have h2 := List.mem_of_find?_eq_some hf
      simp only [kept, List.mem_reverse, List.mem_map] at h2
      obtain ⟨r, hr, rfl⟩ := h2
      have : r = p := List.inj_on_of_nodup_map hd hr hp (by simpa using h1)
      rw [this]
  · show portableType _ _ = _
    unfold portableType
    cases hf : (kept l).reverse.find? (fun q => q.1 == i) with
    | none => rfl
    | some q =>
      have h1 := List.find?_some hf
      have h2 := List.mem_of_find?_eq_some hf
      refine absurd ?_ hi
      rw [← hk]
      simp only [List.mem_reverse] at h2
      exact List.mem_map.2 ⟨q, h2, by simpa using h1⟩
  · show (portableCfg.uniqueNats ((kept l).map Prod.fst)).length = _
    rw [hk]
    have : ∀ ns : List Nat, ns.Nodup → portableCfg.uniqueNats ns = ns := by
      intro ns
      induction ns with
      | nil => exact fun _ => rfl
      | cons n ns ih =>
        intro h
        have := ih (List.nodup_cons.1 h).2
        unfold portableCfg.uniqueNats
        simp only [this]
        rw [if_neg (by simpa using (List.nodup_cons.1 h).1)]
    rw [this _ hd, List.length_map]

/-- Of entries with the same id the last one counts. -/
theorem C77_last (l m : List (Nat × SiType)) (i : Nat) (t : SiType) (h : ∀ p ∈ m, p.1 ≠ i) : portableType (l ++ (i, t) :: m) i = t := by
  unfold portableType
  have : (l ++ (i, t) :: m).reverse.find? (fun p => p.1 == i) = some (i, t) := by
    rw [List.reverse_append, List.reverse_cons, List.append_assoc, List.find?_append,
      List.find?_eq_none.2 (fun p hp => by simpa using h p (by simpa using hp))]
    simp
  rw [this]

/-- A registry without what has no influence on the encoding of values: documentation, store and order of bit sequences. -/
def PDef.plain : PDef → PDef
  | .composite fs => .composite (fs.map fun f => { f with docs := [] })
  | .variant vs => .variant (vs.map fun v => { v with docs := [], fields := v.fields.map fun f => { f with docs := [] } })
  | .bitSequence _ _ => .bitSequence 0 0
  | d => d

/-- See `PDef.plain`. -/
def plainly (l : List (Nat × PType)) : List (Nat × PType) := l.map fun p => (p.1, { p.2 with docs := [], typ := PDef.plain p.2.typ })

/-- The full claim: registries that are read alike are alike, up to documentation. -/
def C77Claim : Prop :=
  ∀ (env : Env) (ctx : Ctx) (l m : List (Nat × PType)) (b c : Str) (v w : Val), ReadsPortable env ctx → WRegistry l b → FRegistry l →
    WRegistry m c → FRegistry m → Decodes env ctx b!"PortableRegistry" b v [] → Decodes env ctx b!"PortableRegistry" c w [] →
    initPortable v = initPortable w → plainly l = plainly m

/-- A registry with one type that has one parameter. -/
def oneParam (t : Option Nat) : List (Nat × PType) := [(0, ⟨[b!"P"], [⟨b!"T", t⟩], .tuple [], []⟩)]

theorem oneParam_fits (t : Option Nat) (h : ∀ n ∈ t, FId n) : FRegistry (oneParam t) := by
  refine ⟨by simp [oneParam], fun p hp => ?_⟩
  simp only [oneParam, List.mem_singleton] at hp
  subst hp
  refine ⟨by simp [FId], ⟨by simp, by simp [FText]⟩, ⟨by simp, ?_⟩, ⟨by simp, by simp⟩, ⟨by simp, by simp⟩⟩
  simpa [FText] using h

/-- The bytes of `oneParam`. -/
def oneParamBytes (p : Str) : Str := [4, 0, 4, 4, 80, 4, 4, 84] ++ p ++ [4, 0, 0]

theorem compact_zero : Spec.IsCompact 0 [0] := .inl ⟨by decide, by decide⟩
theorem compact_one : Spec.IsCompact 1 [4] := .inl ⟨by decide, by decide⟩

theorem oneParam_bytes (t : Option Nat) (p : Str) (h : WOpt Spec.IsCompact t p) : WRegistry (oneParam t) (oneParamBytes p) := by
  have text : ∀ c : UInt8, WText [c] [4, c] := fun c => ⟨_, compact_one, rfl⟩
  have one : ∀ {α : Type} {P : α → Str → Prop} {a : α} {b : Str}, P a b → WList P [a] (4 :: b) :=
    fun h => ⟨_, _, compact_one, ⟨_, [], h, rfl, rfl⟩, by simp⟩
  have none' : ∀ {α : Type} {P : α → Str → Prop}, WList P [] [0] := ⟨_, _, compact_zero, rfl, rfl⟩
  have hp : WPortable (0, ⟨[b!"P"], [⟨b!"T", t⟩], .tuple [], []⟩) (0 :: 4 :: 4 :: 80 :: 4 :: 4 :: 84 :: (p ++ [4, 0, 0])) :=
    ⟨[0], _, compact_zero, ⟨_, _, _, _, one (text 80), one ⟨_, _, text 84, h, rfl⟩, ⟨_, none', rfl⟩, none', rfl⟩, by simp⟩
  have := one hp
  exact this

/-- The full claim is false: a parameter without type is read like one whose type is type 0. -/
theorem C77_claim_false : ¬ C77Claim := by
  intro hc
  have hr := loaded_readsPortable dummyExt 0 none
  have w1 := oneParam_bytes none [0] rfl
  have w2 := oneParam_bytes (some 0) [1, 0] ⟨_, compact_zero, rfl⟩
  have f1 := oneParam_fits none (by simp)
  have f2 := oneParam_fits (some 0) (by simp [FId])
  obtain ⟨v, d1, r1⟩ := C77_reads _ _ _ _ hr w1 f1
  obtain ⟨w, d2, r2⟩ := C77_reads _ _ _ _ hr w2 f2
  have := hc _ _ _ _ _ _ v w hr w1 f1 w2 f2 d1 d2 (by rw [r1, r2]; rfl)
  simp [plainly, oneParam] at this

/-- The texts of a registry that are kept. -/
def PField.Texts (f : PField) : Prop := (∀ s ∈ f.name, Spec.IsText s) ∧ ∀ s ∈ f.typeName, Spec.IsText s

/-- See `PField.Texts`. -/
def PDef.Texts : PDef → Prop
  | .composite fs => ∀ f ∈ fs, PField.Texts f
  | .variant vs => ∀ v ∈ vs, Spec.IsText v.name ∧ ∀ f ∈ v.fields, PField.Texts f
  | _ => True

/-- See `PField.Texts`. -/
def PType.Texts (t : PType) : Prop := (∀ s ∈ t.path, Spec.IsText s) ∧ (∀ p ∈ t.params, Spec.IsText p.name) ∧ PDef.Texts t.typ

/-- Absent names and empty names taken for the same. -/
def PField.loose (f : PField) : PField := { f with name := some (f.name.getD []), typeName := some (f.typeName.getD []), docs := [] }

/-- See `PField.loose`. -/
def PDef.loose : PDef → PDef
  | .composite fs => .composite (fs.map PField.loose)
  | .variant vs => .variant (vs.map fun v => { v with docs := [], fields := v.fields.map PField.loose })
  | .bitSequence _ _ => .bitSequence 0 0
  | d => d

/-- Absent names and empty names taken for the same, and absent parameter types and the type 0. -/
def loosely (l : List (Nat × PType)) : List (Nat × PType) := l.map fun p => (p.1, { p.2 with
  docs := [], typ := PDef.loose p.2.typ, params := p.2.params.map fun q => { q with type := some (q.type.getD 0) } })

theorem keptText_of {s : Str} (h : Spec.IsText s) : keptText s = s := by
  unfold keptText shown
  rw [if_pos ⟨.inr rfl, h⟩]

theorem map_keep {α β γ : Type} {T : α → Prop} {k : α → β} {g : α → γ} (h : ∀ a a', T a → T a' → k a = k a' → g a = g a') :
    ∀ l m : List α, (∀ a ∈ l, T a) → (∀ a ∈ m, T a) → l.map k = m.map k → l.map g = m.map g
  | [], [], _, _, _ => rfl
  | [], _ :: _, _, _, e => by simp at e
  | _ :: _, [], _, _, e => by simp at e
  | a :: l, a' :: m, hl, hm, e => by
    simp only [List.map_cons, List.cons.injEq] at e ⊢
    exact ⟨h a a' (hl a (by simp)) (hm a' (by simp)) e.1,
      map_keep h l m (fun x hx => hl x (by simp [hx])) (fun x hx => hm x (by simp [hx])) e.2⟩

theorem keptOpt_of {o : Option Str} (h : ∀ s ∈ o, Spec.IsText s) : (o.map keptText).getD [] = o.getD [] := by
  cases o with
  | none => rfl
  | some s => exact keptText_of (h s rfl)

theorem keptField_loose (f g : PField) (hf : PField.Texts f) (hg : PField.Texts g) (h : keptField f = keptField g) :
    PField.loose f = PField.loose g := by
  unfold keptField at h
  rw [keptOpt_of hf.1, keptOpt_of hf.2, keptOpt_of hg.1, keptOpt_of hg.2] at h
  simp only [SiField.mk.injEq] at h
  unfold PField.loose
  rw [h.1, h.2.1, h.2.2]

theorem keptDef_loose (d e : PDef) (hd : PDef.Texts d) (he : PDef.Texts e) (fd : FDef d) (fe : FDef e) (h : keptDef d = keptDef e) :
    PDef.loose d = PDef.loose e := by
  have tup : ∀ ts : List Nat, keptDef (.tuple ts) = .none ∧ ts = [] ∨ keptDef (.tuple ts) = .tuple ts ∧ ts ≠ [] := by
    intro ts; cases ts <;> simp [keptDef]
  cases d with
  | composite fs =>
    cases e with
    | composite gs =>
      simp only [keptDef, SiDef.composite.injEq] at h
      simp only [PDef.loose, PDef.composite.injEq]
      exact map_keep keptField_loose _ _ hd he h
    | tuple ts => rcases tup ts with ⟨t, _⟩ | ⟨t, _⟩ <;> rw [t] at h <;> simp [keptDef] at h
    | _ => simp [keptDef] at h
  | variant vs =>
    cases e with
    | variant ws =>
      simp only [keptDef, SiDef.variant.injEq] at h
      simp only [PDef.loose, PDef.variant.injEq]
      refine map_keep (T := fun v : PVariant => Spec.IsText v.name ∧ ∀ f ∈ v.fields, PField.Texts f) (fun v w hv hw e => ?_) _ _ hd he h
      unfold keptVariant at e
      rw [keptText_of hv.1, keptText_of hw.1] at e
      simp only [SiVariant.mk.injEq] at e
      rw [map_keep keptField_loose _ _ hv.2 hw.2 e.2.1, e.1, e.2.2]
    | tuple ts => rcases tup ts with ⟨t, _⟩ | ⟨t, _⟩ <;> rw [t] at h <;> simp [keptDef] at h
    | _ => simp [keptDef] at h
  | tuple ts =>
    cases e with
    | tuple us =>
      rcases tup ts with ⟨t, et⟩ | ⟨t, _⟩ <;> rcases tup us with ⟨u, eu⟩ | ⟨u, _⟩ <;> rw [t, u] at h
      · rw [et, eu]
      · simp at h
      · simp at h
      · rw [SiDef.tuple.inj h]
    | _ => rcases tup ts with ⟨t, _⟩ | ⟨t, _⟩ <;> rw [t] at h <;> simp [keptDef] at h
  | primitive i =>
    cases e with
    | primitive j =>
      have : ∀ i < 15, ∀ j < 15, primitiveNames[i]?.getD [] = primitiveNames[j]?.getD [] → i = j := by decide
      rw [this i fd j fe (by simpa [keptDef] using h)]
    | tuple ts => rcases tup ts with ⟨t, _⟩ | ⟨t, _⟩ <;> rw [t] at h <;> simp [keptDef] at h
    | _ => simp [keptDef] at h
  | bitSequence s o =>
    cases e with
    | bitSequence s' o' => rfl
    | tuple ts => rcases tup ts with ⟨t, _⟩ | ⟨t, _⟩ <;> rw [t] at h <;> simp [keptDef] at h
    | _ => simp [keptDef] at h
  | _ =>
    cases e with
    | tuple ts => rcases tup ts with ⟨t, _⟩ | ⟨t, _⟩ <;> rw [t] at h <;> simp [keptDef] at h
    | _ => simp [keptDef] at h <;> simp [h]

/-- Registries that are read alike are alike up to documentation, absent names that become empty, and absent parameter types
that become type 0, when all names are printable texts.  Missing from the claim: those cases, and other names, which are read as
hexadecimal digits. -/
theorem C77_partial (env : Env) (ctx : Ctx) (l m : List (Nat × PType)) (b c : Str) (v w : Val) (h : ReadsPortable env ctx)
    (hl : WRegistry l b) (fl : FRegistry l) (hm : WRegistry m c) (fm : FRegistry m) (tl : ∀ p ∈ l, PType.Texts p.2)
    (tm : ∀ p ∈ m, PType.Texts p.2) (hb : b.length < 2 ^ 63) (hc : c.length < 2 ^ 63)
    (dv : Decodes env ctx b!"PortableRegistry" b v []) (dw : Decodes env ctx b!"PortableRegistry" c w [])
    (e : initPortable v = initPortable w) : loosely l = loosely m := by
  obtain ⟨v', d1, r1⟩ := C77_reads _ _ _ _ h hl fl
  obtain ⟨w', d2, r2⟩ := C77_reads _ _ _ _ h hm fm
  rw [decodes_val_unique dv d1 hb, decodes_val_unique dw d2 hc, r1, r2] at e
  refine map_keep (T := fun p => PType.Texts p.2 ∧ FType p.2) (fun p q hp hq e => ?_) l m (fun p hp => ⟨tl p hp, (fl.2 p hp).2⟩)
    (fun p hp => ⟨tm p hp, (fm.2 p hp).2⟩) (Res.ok.inj e)
  simp only [keptType, Prod.mk.injEq, SiType.mk.injEq] at e
  obtain ⟨e1, e2, e3, e4⟩ := e
  have p1 := map_keep (T := Spec.IsText) (g := fun s => s) (fun s t hs ht e => by rwa [keptText_of hs, keptText_of ht] at e) _ _
    hp.1.1 hq.1.1 e2
  have p2 := map_keep (T := fun p : PParam => Spec.IsText p.name) (g := fun q : PParam => { q with type := some (q.type.getD 0) })
    (fun s t hs ht e => by
      unfold keptParam at e
      rw [keptText_of hs, keptText_of ht] at e
      simp only [Prod.mk.injEq] at e
      rw [e.1, e.2]) _ _ hp.1.2.1 hq.1.2.1 e3
  have p3 := keptDef_loose _ _ hp.1.2.2 hq.1.2.2 hp.2.2.2.1 hq.2.2.2.1 e4
  simp only [List.map_id'] at p1
  show (p.1, (⟨p.2.path, _, _, []⟩ : PType)) = (q.1, (⟨q.2.path, _, _, []⟩ : PType))
  rw [e1, p1, p2, p3]

theorem wAll_exists {α : Type} {P : α → Str → Prop} {F : α → Prop} (h : ∀ a, F a → ∃ b, P a b) :
    ∀ l : List α, (∀ a ∈ l, F a) → ∃ b, WAll P l b
  | [], _ => ⟨[], rfl⟩
  | a :: l, hf => by
    obtain ⟨b, hb⟩ := h a (hf a (by simp))
    obtain ⟨c, hc⟩ := wAll_exists h l (fun x hx => hf x (by simp [hx]))
    exact ⟨_, b, c, hb, hc, rfl⟩

theorem wList_exists {α : Type} {P : α → Str → Prop} {F : α → Prop} (h : ∀ a, F a → ∃ b, P a b) (l : List α) (hf : FList F l) :
    ∃ b, WList P l b := by
  obtain ⟨b, hb⟩ := wAll_exists h l hf.2
  obtain ⟨c, hc⟩ := isCompact_exists l.length (Nat.lt_of_le_of_lt hf.1 (by decide))
  exact ⟨_, c, b, hc, hb, rfl⟩

theorem wOpt_exists {α : Type} {P : α → Str → Prop} {F : α → Prop} (h : ∀ a, F a → ∃ b, P a b) (o : Option α) (hf : ∀ a ∈ o, F a) :
    ∃ b, WOpt P o b := by
  cases o with
  | none => exact ⟨[0], rfl⟩
  | some a =>
    obtain ⟨b, hb⟩ := h a (hf a rfl)
    exact ⟨_, b, hb, rfl⟩

/-- Every registry that fits has an encoding. -/
theorem C77_written (l : List (Nat × PType)) (hf : FRegistry l) : ∃ b, WRegistry l b := by
  have id : ∀ n, FId n → ∃ b, Spec.IsCompact n b := fun n h => isCompact_exists n (Nat.lt_trans h (by decide))
  have text : ∀ s, FText s → ∃ b, WText s b := fun s h => by
    obtain ⟨c, hc⟩ := isCompact_exists s.length (Nat.lt_trans h (by decide))
    exact ⟨_, c, hc, rfl⟩
  have field : ∀ f, FField f → ∃ b, WField f b := fun f h => by
    obtain ⟨b1, h1⟩ := wOpt_exists text f.name h.1
    obtain ⟨b2, h2⟩ := id _ h.2.1
    obtain ⟨b3, h3⟩ := wOpt_exists text f.typeName h.2.2.1
    obtain ⟨b4, h4⟩ := wList_exists text f.docs h.2.2.2
    exact ⟨_, b1, b2, b3, b4, h1, h2, h3, h4, rfl⟩
  have variant : ∀ v, FVariant v → ∃ b, WVariant v b := fun v h => by
    obtain ⟨b1, h1⟩ := text _ h.1
    obtain ⟨b2, h2⟩ := wList_exists field v.fields h.2.1
    obtain ⟨b4, h4⟩ := wList_exists text v.docs h.2.2.2
    exact ⟨_, b1, b2, b4, h1, h2, h4, rfl⟩
  have param : ∀ p : PParam, (FText p.name ∧ ∀ n ∈ p.type, FId n) → ∃ b, WParam p b := fun p h => by
    obtain ⟨b1, h1⟩ := text _ h.1
    obtain ⟨b2, h2⟩ := wOpt_exists id p.type h.2
    exact ⟨_, b1, b2, h1, h2, rfl⟩
  have typ : ∀ d, FDef d → ∃ b, WDef d b := fun d h => by
    cases d with
    | composite fs => obtain ⟨b, hb⟩ := wList_exists field fs h; exact ⟨_, b, hb, rfl⟩
    | variant vs => obtain ⟨b, hb⟩ := wList_exists variant vs h; exact ⟨_, b, hb, rfl⟩
    | sequence t => obtain ⟨b, hb⟩ := id t h; exact ⟨_, b, hb, rfl⟩
    | array n t => obtain ⟨b, hb⟩ := id t h.2; exact ⟨_, b, hb, rfl⟩
    | tuple ts => obtain ⟨b, hb⟩ := wList_exists id ts h; exact ⟨_, b, hb, rfl⟩
    | primitive i => exact ⟨_, rfl⟩
    | compact t => obtain ⟨b, hb⟩ := id t h; exact ⟨_, b, hb, rfl⟩
    | bitSequence s o =>
      obtain ⟨b, hb⟩ := id s h.1
      obtain ⟨c, hc⟩ := id o h.2
      exact ⟨_, b, c, hb, hc, rfl⟩
  refine wList_exists (fun p h => ?_) l hf
  obtain ⟨b0, h0⟩ := id _ h.1
  obtain ⟨b1, h1⟩ := wList_exists text p.2.path h.2.1
  obtain ⟨b2, h2⟩ := wList_exists param p.2.params h.2.2.1
  obtain ⟨b3, h3⟩ := typ _ h.2.2.2.1
  obtain ⟨b4, h4⟩ := wList_exists text p.2.docs h.2.2.2.2
  exact ⟨_, b0, _, h0, ⟨b1, b2, b3, b4, h1, h2, h3, h4, rfl⟩, rfl⟩

/-- A concrete registry, as the library reads it with its own tables. -/
example : ∃ v, Decodes (loadedEnv dummyExt) ⟨[], 0, none⟩ b!"PortableRegistry" [4, 0, 4, 4, 80, 4, 4, 84, 1, 0, 4, 0, 0] v [] ∧
    initPortable v = .ok [(0, ⟨[b!"P"], [(b!"T", 0)], .none⟩)] :=
  C77_reads _ _ _ _ (loaded_readsPortable _ _ _) (oneParam_bytes (some 0) [1, 0] ⟨_, compact_zero, rfl⟩) (oneParam_fits _ (by simp [FId]))

/-- Three types with a variant, a tuple and a primitive type, which are read as given. -/
example : ∃ b v, Decodes (loadedEnv dummyExt) ⟨[], 0, none⟩ b!"PortableRegistry" b v [] ∧ initPortable v = .ok
    [(0, ⟨[], [], .primitive b!"U32"⟩), (1, ⟨[], [], .tuple [0, 0]⟩),
      (7, ⟨[b!"pallet", b!"Ev"], [(b!"T", 0)], .variant [⟨b!"A", [⟨b!"x", 1, []⟩], 3⟩]⟩)] := by
  obtain ⟨b, hb⟩ := C77_written [(0, ⟨[], [], .primitive 5, []⟩), (1, ⟨[], [], .tuple [0, 0], [b!"pair"]⟩),
    (7, ⟨[b!"pallet", b!"Ev"], [⟨b!"T", none⟩], .variant [⟨b!"A", [⟨some b!"x", 1, none, []⟩], 3, []⟩], []⟩)]
    (by simp [FRegistry, FList, FId, FType, FDef, FText, FVariant, FField])
  obtain ⟨v, d, r⟩ := C77_reads _ _ _ b (loaded_readsPortable dummyExt 0 none) hb
    (by simp [FRegistry, FList, FId, FType, FDef, FText, FVariant, FField])
  refine ⟨b, v, d, r.trans ?_⟩
  have t : ∀ s ∈ [b!"pallet", b!"Ev", b!"T", b!"A", b!"x"], keptText s = s := fun s hs => keptText_of (by
    unfold Spec.IsText
    revert s
    decide)
  simp only [List.mem_cons, List.not_mem_nil, or_false, forall_eq_or_imp, forall_eq] at t
  simp [kept, keptType, keptDef, keptParam, keptVariant, keptField, t, primitiveNames]

end ScaleGo
