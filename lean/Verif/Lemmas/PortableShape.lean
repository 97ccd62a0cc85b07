import Verif.Lemmas.Layer
import Verif.Lemmas.JsonRows

/-! # The classes found for the texts of portable types -/

namespace ScaleGo
open _root_.Spec (Shape Payload labelled numbered payload primitiveShapes crateShapes compactShapes byteNames)
open ScaleGo.Spec

/-- The entries that the texts of portable types rely on. -/
def stockClasses : List (Str × Cls) :=
  [(b!"bool", .bool), (b!"str", .string), (b!"u8", .u8), (b!"u16", .u16), (b!"u32", .u32), (b!"u64", .u64), (b!"u128", .u128),
   (b!"u256", .u256), (b!"i8", .intFixed 1), (b!"i16", .intFixed 2), (b!"i32", .intFixed 4), (b!"i64", .intFixed 8),
   (b!"i128", .intFixed 16), (b!"i256", .intFixed 32), (b!"h160", .hash 20), (b!"h256", .hash 32), (b!"h512", .hash 64),
   (b!"accountid", .accountId), (b!"bitvec", .bitVec), (b!"bytes", .bytes), (b!"null", .null), (b!"empty", .empty),
   (b!"vec", .vec []), (b!"option", .option []), (b!"compact", .compact []), (b!"compact<u32>", .compactU32),
   (b!"result", .result [])]

/-- A type table as the library starts with. -/
structure Stock (base : Str → Option Cls) : Prop where
  entry : ∀ p ∈ stockClasses, base p.1 = some p.2
  vec : ∀ s, base (b!"vec<" ++ s) = none
  option : ∀ s, base (b!"option<" ++ s) = none
  result : ∀ s, base (b!"result<" ++ s) = none
  compact : base b!"compact<u64>" = none ∧ base b!"compact<u128>" = none
  compacts : ∀ s c, base (generic b!"compact" s) = some c → s = b!"u32" ∨ s = b!"moment"
  moment : base b!"moment" ≠ none
  array : ∀ s n c, base (arrayText s 1 n) = some c → c = .fixedArray n s ∨ s = b!"u8" ∧ c = .fixedU8 n

/-- Portable types whose names do not get in each other's way. -/
structure Tidy (cfg : SiCfg) (A : Nat → Prop) (base : Str → Option Cls) : Prop where
  names : PlainNames cfg
  unversioned : Unversioned cfg
  apart : ∀ i n, nameSiType cfg (cfg.types i) (some i) = .ok n → n ≠ [] → Apart cfg i n
  fresh : ∀ i n, nameSiType cfg (cfg.types i) (some i) = .ok n → n ≠ [] → base (toLower n) = none
  tuples : ∀ i j ks ls ts us, (cfg.types i).typ = .tuple ks → (cfg.types j).typ = .tuple ls → Texts cfg A ks ts → Texts cfg A ls us →
    toLower ts.flatten = toLower us.flatten → ks = ls
  freshTuples : ∀ i ks ts, (cfg.types i).typ = .tuple ks → ks ≠ [] → Texts cfg A ks ts → base (b!"tuple:" ++ toLower ts.flatten) = none
  closed : ∀ i, cfg.count ≤ i → (cfg.types i).typ = .none

/-- The ways a portable type is spelled. -/
def Spelled (cfg : SiCfg) (A : Nat → Prop) (i : Nat) (t : Str) : Prop :=
  ∃ s, Text cfg A i s ∧ (t = s ∨ t = convertType s ∨ Low cfg A i ∧ t = toLower s)

/-- The same fields, with related types. -/
def LikeFields {α : Type} (R : α → Str → Prop) (fs : List (Str × α)) (gs : List (Str × Str)) : Prop :=
  List.Forall₂ (fun f g => f.1 = g.1 ∧ R f.2 g.2) fs gs

/-- The same payload, with related types. -/
def LikePayload {α : Type} (R : α → Str → Prop) : Payload α → Payload Str → Prop
  | .unit, p => p = .one b!"empty"
  | .one k, p => ∃ t, p = .one t ∧ R k t
  | .fields fs, p => ∃ gs, p = .fields gs ∧ LikeFields R fs gs

/-- The same shape, with related types. -/
def Like {α : Type} (R : α → Str → Prop) : Shape α → Shape Str → Prop
  | .uint w, sh => sh = .uint w
  | .u128, sh => sh = .u128
  | .u256, sh => sh = .u256
  | .int w, sh => sh = .int w
  | .bool, sh => sh = .bool
  | .null, sh => sh = .null
  | .unit, sh => sh = .unit
  | .compact32, sh => sh = .compact32
  | .compact b d, sh => sh = .compact b d
  | .bytes k, sh => sh = .bytes k
  | .hash n, sh => sh = .hash n
  | .account, sh => sh = .account
  | .balance, sh => sh = .balance
  | .era, sh => sh = .era
  | .byteArray n, sh => sh = .byteArray n
  | .bitVec, sh => sh = .bitVec
  | .names cs, sh => ∃ ds, sh = .names ds ∧ cs ⊆ ds
  | .optionBool, sh => sh = .optionBool
  | .seq k, sh => ∃ t, sh = .seq t ∧ R k t
  | .option k, sh => ∃ t, sh = .option t ∧ R k t
  | .struct fs, sh => ∃ gs, sh = .struct gs ∧ LikeFields R fs gs
  | .enum vs, sh => ∃ ws, sh = .enum ws ∧ List.Forall₂ (fun v w => v.1 = w.1 ∧ v.2.1 = w.2.1 ∧ LikePayload R v.2.2 w.2.2) vs ws
  | .array n k, sh => ∃ t, sh = .array n t ∧ R k t
  | .result k l, sh => ∃ t u, sh = .result t u ∧ R k t ∧ R l u ∧ (44 : UInt8) ∉ t ∧ (44 : UInt8) ∉ u
  | _, _ => False

/-- A class, with an argument, that stands for the shape. -/
def Stands (cfg : SiCfg) (A : Nat → Prop) (env : Env) (c : Cls) (s : Str) (sh : Shape Nat) : Prop :=
  ∃ sh', ClassIs env c s s sh' ∧ Like (Spelled cfg A) sh sh'

/-! ## Texts -/

theorem lower_generic (w s : Str) : toLower (generic w s) = generic (toLower w) (toLower s) := by
  simp only [generic, toLower, List.map_append, List.map_cons, List.map_nil]
  rfl

section
variable {cfg : SiCfg} {A : Nat → Prop} {base : Str → Option Cls}

theorem text_bytes_clean (hP : PlainNames cfg) {P : UInt8 → Prop} (hn : ∀ c, isNameByte c = true → P c) : CfgBytes cfg P := by
  have hi : ∀ {s : Str}, Ident s → ∀ c ∈ s, P c := fun h c hc => hn c (List.all_eq_true.1 h.1.2 c hc)
  refine ⟨fun i s hs => hi (hP.segments i s hs), ?_, fun i p hp => hi (hP.primitive i p hp).1⟩
  by_cases h : cfg.pathPrefix = []
  · rw [h]; simp
  · exact hi (hP.pre h)

theorem name_plain (hP : PlainNames cfg) {i : Nat} {n : Str} (h : nameSiType cfg (cfg.types i) (some i) = .ok n) :
    ∀ c ∈ n, c ≠ 60 ∧ c ≠ 91 ∧ c ≠ 35 := by
  refine name_bytes (P := fun c => c ≠ 60 ∧ c ≠ 91 ∧ c ≠ 35) (text_bytes_clean hP ?_) (by decide) h
  exact forall_byte (P := fun c => isNameByte c = true → c ≠ 60 ∧ c ≠ 91 ∧ c ≠ 35) (by decide +kernel)

theorem mem_lower {c : UInt8} {s : Str} (h : c ∈ toLower s) (hc : c ∈ b!"<[#:") : c ∈ s := by
  obtain ⟨d, hd, rfl⟩ := List.mem_map.1 h
  have := forall_byte (P := fun d => lowerByte d ∈ b!"<[#:" → lowerByte d = d) (by decide +kernel) d hc
  rw [this]; exact hd

/-- The texts with an entry from the start. -/
def stockNames : List Str :=
  [b!"Bool", b!"Str", b!"U8", b!"U16", b!"U32", b!"U64", b!"U128", b!"U256", b!"I8", b!"I16", b!"I32", b!"I64", b!"I128", b!"I256",
   b!"bool", b!"str", b!"u8", b!"u16", b!"u32", b!"u64", b!"u128", b!"u256", b!"i8", b!"i16", b!"i32", b!"i64", b!"i128", b!"i256",
   b!"H160", b!"H256", b!"H512", b!"U256", b!"AccountId", b!"BitVec"]

theorem stock_name {t : Str} {sh : Shape Nat} (h : (t, sh) ∈ stockShapes) : t ∈ stockNames := by
  have e : stockShapes.map Prod.fst = stockNames := rfl
  rw [← e]
  exact List.mem_map.2 ⟨_, h, rfl⟩

theorem stock_clean {t : Str} {sh : Shape Nat} (h : (t, sh) ∈ stockShapes) : Clean t := by
  have : ∀ t ∈ stockNames, (t ≠ [] ∧ t.all isNameByte = true) ∧ isDigit (t.headD 0) = false ∧ t ≠ b!"T" ∧ ¬ b!"BoundedBTreeSet" <+: t := by
    decide +kernel
  obtain ⟨h1, h2, h3, h4⟩ := this t (stock_name h)
  exact clean_word h1 h2 h3 h4

theorem byte_clean {p : Str} (h : p ∈ byteNames) : Clean p := by
  refine stock_clean (sh := .uint 1) ?_
  simp only [byteNames, List.mem_cons, List.not_mem_nil, or_false] at h
  rcases h with rfl | rfl <;> simp [stockShapes, primitiveShapes]

theorem byte_lower {p : Str} (h : p ∈ byteNames) : toLower p = b!"u8" := (by decide : ∀ p ∈ byteNames, toLower p = b!"u8") p h

theorem clean_generic {w s : Str} (hw : w ∈ openWords) (hs : Clean s) : Clean (generic w s) := by
  have := Clean.generic hw hs
  simpa [generic] using this

theorem clean_result {s s' : Str} (hs : Clean s) (hs' : Clean s') : Clean (generic b!"Result" (s ++ b!"," ++ s')) := by
  have := Clean.generic (w := b!"Result") (by decide) (hs.comma hs')
  simpa [generic] using this

theorem clean_array {s : Str} (n : Nat) (hs : Clean s) : Clean (arrayText s 1 n) := by
  have := Clean.array n hs
  simpa [arrayText] using this

theorem compact_clean : ∀ p ∈ compactShapes, Clean p.1 := by
  simp only [compactShapes, List.forall_mem_cons]
  refine ⟨?_, ?_, ?_, ?_, ?_, ?_, by simp⟩
  · exact stock_clean (sh := .uint 4) (by simp [stockShapes, primitiveShapes])
  · exact stock_clean (sh := .uint 8) (by simp [stockShapes, primitiveShapes])
  · exact stock_clean (sh := .u128) (by simp [stockShapes, primitiveShapes])
  · exact stock_clean (sh := .uint 4) (by simp [stockShapes, primitiveShapes])
  · exact stock_clean (sh := .uint 8) (by simp [stockShapes, primitiveShapes])
  · exact stock_clean (sh := .u128) (by simp [stockShapes, primitiveShapes])

theorem texts_clean (hP : PlainNames cfg) {ks : List Nat} {ts : List Str} (h : Texts cfg A ks ts) : ∀ t ∈ ts, Clean t := by
  induction h with
  | nil => simp
  | cons h _ ih =>
    intro t ht
    rcases List.mem_cons.1 ht with rfl | ht
    · exact text_clean hP h
    · exact ih t ht

theorem view_clean (hP : PlainNames cfg) {t : Str} {sh : Shape Nat} (h : View cfg A t sh) : Clean t := by
  cases h with
  | stock h => exact stock_clean h
  | own _ _ h hne _ => exact (name_clean hP h).resolve_left hne
  | renamed _ _ _ _ h hne _ _ => exact (name_clean hP h).resolve_left hne
  | bytes h => exact clean_generic (by decide) (byte_clean h)
  | seq h _ => exact clean_generic (by decide) (text_clean hP h)
  | byteArray h _ _ => exact clean_array _ (byte_clean h)
  | array _ _ _ h _ => exact clean_array _ (text_clean hP h)
  | compact h => exact clean_generic (by decide) (compact_clean _ h)
  | wrapped h _ _ _ => exact clean_generic (by decide) (text_clean hP h)
  | tuple _ _ hne _ h =>
    refine Clean.tuple ?_ (texts_clean hP h)
    rintro rfl
    cases h
    exact hne rfl
  | option h _ => exact clean_generic (by decide) (text_clean hP h)
  | result h h' _ _ => exact clean_result (text_clean hP h) (text_clean hP h')

/-- Only lists of bytes have another spelling. -/
theorem view_lower (hP : PlainNames cfg) {t : Str} {sh : Shape Nat} (h : View cfg A t sh) :
    (t = b!"Vec<U8>" ∨ t = b!"Vec<u8>") ∧ sh = .bytes .bytes ∨ toLower t ≠ b!"vec<u8>" := by
  have nm : ∀ {i n}, nameSiType cfg (cfg.types i) (some i) = .ok n → toLower n ≠ b!"vec<u8>" := by
    intro i n h e
    exact (name_plain hP h 60 (mem_lower (by rw [e]; decide) (by decide))).1 rfl
  have hd : ∀ {s : Str} {c : UInt8}, s.head? = some c → c ≠ 118 → c ≠ 86 → toLower s ≠ b!"vec<u8>" := by
    intro s c hs h1 h2 e
    cases s with
    | nil => cases e
    | cons d s =>
      cases hs
      have : lowerByte c = 118 := (List.cons.inj e).1
      have key := forall_byte (P := fun c => lowerByte c = 118 → c = 118 ∨ c = 86) (by decide +kernel) c this
      tauto
  cases h with
  | stock h =>
    refine .inr ?_
    exact (by decide +kernel : ∀ t ∈ stockNames, toLower t ≠ b!"vec<u8>") _ (stock_name h)
  | own _ _ h hne _ => exact .inr (nm h)
  | renamed _ _ _ _ h hne _ _ => exact .inr (nm h)
  | bytes h =>
    simp only [byteNames, List.mem_cons, List.not_mem_nil, or_false] at h
    rcases h with rfl | rfl
    · exact .inl ⟨.inl rfl, rfl⟩
    · exact .inl ⟨.inr rfl, rfl⟩
  | seq h h1 =>
    refine .inr fun e => h1 ?_
    rw [lower_generic] at e
    have e' : b!"vec<" ++ (toLower _ ++ [62]) = b!"vec<" ++ (b!"u8" ++ [62]) := e
    exact List.append_cancel_right (List.append_cancel_left e')
  | byteArray _ _ _ => exact .inr (hd (c := 91) rfl (by decide) (by decide))
  | array _ _ _ h _ => exact .inr (hd (c := 91) rfl (by decide) (by decide))
  | compact h => exact .inr (hd (c := 99) rfl (by decide) (by decide))
  | wrapped => exact .inr (hd (c := 99) rfl (by decide) (by decide))
  | tuple _ _ hne _ h => exact .inr (hd (c := 84) rfl (by decide) (by decide))
  | option h _ => exact .inr (hd (c := 111) rfl (by decide) (by decide))
  | result h h' _ _ => exact .inr (hd (c := 82) rfl (by decide) (by decide))

theorem view_convert (hP : PlainNames cfg) {t : Str} {sh : Shape Nat} (h : View cfg A t sh) :
    (t = b!"Vec<U8>" ∨ t = b!"Vec<u8>") ∧ sh = .bytes .bytes ∨ convertType t = t := by
  rcases view_lower hP h with h1 | h1
  · exact .inl h1
  · refine .inr (convertType_verbatim ((view_clean hP h).verbatim fun e => h1 ?_))
    rw [← toLower_eq_iff] at e
    rw [e]; decide

/-! ## Structs and enums -/

theorem labelled_like {R : Nat → Str → Prop} : ∀ (k : Nat) (fs : List SiField) (ts : List Str),
    List.Forall₂ R (fs.map SiField.type) ts → LikeFields R (labelled k fs) (List.zip (fieldNames k fs) ts)
  | _, [], ts, h => by cases h; exact .nil
  | k, f :: fs, ts, h => by
    cases h with
    | cons h1 h2 => exact .cons ⟨rfl, h1⟩ (labelled_like (k + 1) fs _ h2)

theorem numbered_like {R : Nat → Str → Prop} : ∀ (k : Nat) (ks : List Nat) (ts : List Str),
    List.Forall₂ R ks ts → LikeFields R (numbered k ks) (List.zip (colNames k ks.length) ts)
  | _, [], ts, h => by cases h; exact .nil
  | k, i :: ks, ts, h => by
    cases h with
    | cons h1 h2 => exact .cons ⟨rfl, h1⟩ (numbered_like (k + 1) ks _ h2)

theorem spelled_text {i : Nat} {t : Str} (h : Text cfg A i t) : Spelled cfg A i t := ⟨t, h, .inl rfl⟩

theorem spelled_convert {i : Nat} {t : Str} (h : Text cfg A i t) : Spelled cfg A i (convertType t) := ⟨t, h, .inr (.inl rfl)⟩

theorem struct_is {env : Env} {fs : List (Str × Str)} : ClassIs env (.struct (newStruct fs)) [] [] (.struct fs) := by
  unfold newStruct
  split
  · next e => exact .inr ⟨e, rfl⟩
  · exact .inl rfl

theorem spelled_texts {ks : List Nat} {ts : List Str} (h : Texts cfg A ks ts) : List.Forall₂ (Spelled cfg A) ks ts :=
  h.imp fun _ _ h => spelled_text h

theorem spelled_converts {ks : List Nat} {ts : List Str} (h : Texts cfg A ks ts) : List.Forall₂ (Spelled cfg A) ks (ts.map convertType) := by
  induction h with
  | nil => exact .nil
  | cons h _ ih => exact .cons (spelled_convert h) ih

theorem text_ascii (hP : PlainNames cfg) {i : Nat} {t : Str} (h : Text cfg A i t) : ∀ c ∈ convertType t, c.toNat < 128 := by
  have hc := text_clean hP h
  rcases hc.convert with e | e
  · rw [e]
    intro c hm
    exact forall_byte (P := fun c => isTextByte c = true → c.toNat < 128) (by decide +kernel) c (hc.body.bytes c hm)
  · rw [e]; decide

theorem fieldNames_ascii : ∀ (k : Nat) (fs : List SiField), (∀ f ∈ fs, ∀ c ∈ f.name, c.toNat < 128) →
    ∀ n ∈ fieldNames k fs, ∀ c ∈ n, c.toNat < 128
  | _, [], _, n, h => by simp [fieldNames] at h
  | k, f :: fs, hf, n, h => by
    unfold fieldNames at h
    rcases List.mem_cons.1 h with rfl | h
    · split
      · intro c hc
        rcases List.mem_append.1 hc with hc | hc
        · exact (by decide : ∀ c ∈ b!"col", c.toNat < 128) c hc
        · exact (by decide : ∀ c ∈ b!"0123456789", c.toNat < 128) c (natToDec_bytes k c hc)
      · exact hf f (by simp)
    · exact fieldNames_ascii (k + 1) fs (fun g hg => hf g (by simp [hg])) n h

theorem zipRows_mem {a b : List Str} {r : List Str} (h : r ∈ zipRows a b) : ∃ x ∈ a, ∃ y ∈ b, r = [x, y] := by
  rw [← zip_zipRows] at h
  obtain ⟨p, hp, rfl⟩ := List.mem_map.1 h
  exact ⟨p.1, (List.of_mem_zip (a := p.1) (b := p.2) hp).1, p.2, (List.of_mem_zip (a := p.1) (b := p.2) hp).2, rfl⟩

theorem texts_mem {ks : List Nat} {ts : List Str} {t : Str} (h : Texts cfg A ks ts) (ht : t ∈ ts) : ∃ k, Text cfg A k t := by
  induction h with
  | nil => cases ht
  | cons h _ ih =>
    rcases List.mem_cons.1 ht with rfl | ht
    · exact ⟨_, h⟩
    · exact ih ht

/-- The text of a variant describes its payload. -/
theorem variant_is {env : Env} (hP : PlainNames cfg) (hj : ReadsRows env.ext) {v : SiVariant} {u : Str} (h : VariantText cfg A v u)
    (h1 : ∀ f ∈ v.fields, ∀ t, Text cfg A f.type t → ¬ LooksLikeRows t) (h2 : ∀ f ∈ v.fields, ∀ c ∈ f.name, c.toNat < 128) :
    ∃ p, VariantIs env u p ∧ LikePayload (Spelled cfg A) (payload v) p := by
  cases h with
  | empty e =>
    refine ⟨.one b!"empty", ⟨rfl, by decide, ?_⟩, ?_⟩
    · rintro ⟨r, e⟩; cases e
    · simp only [payload, e]; rfl
  | @one f _ e ht =>
    refine ⟨.one u, ⟨rfl, (text_clean hP ht).ne_nil, h1 f (by rw [e]; simp) u ht⟩, ?_⟩
    simp only [payload, e]
    exact ⟨u, rfl, spelled_text ht⟩
  | @many ts hl hts =>
    have hp : payload v = .fields (labelled 0 v.fields) := by
      unfold payload
      match e : v.fields with
      | [] => rw [e] at hl; simp at hl
      | [f] => rw [e] at hl; simp at hl
      | _ :: _ :: _ => rfl
    have htl : ts.length = v.fields.length := by
      have := hts.length_eq
      rw [List.length_map] at this
      exact this.symm
    have hzl : (List.zip (fieldNames 0 v.fields) (ts.map convertType)).length = v.fields.length := by
      simp [fieldNames_length, htl]
    have hne : zipRows (fieldNames 0 v.fields) (ts.map convertType) ≠ [] := by
      rw [← zip_zipRows]
      intro e
      have := congrArg List.length e
      rw [List.length_map, hzl] at this
      rw [this] at hl
      simp at hl
    refine ⟨.fields (List.zip (fieldNames 0 v.fields) (ts.map convertType)), ⟨jsonRows_head _ hne, jsonRows_length _ ?_ hne, ?_, ?_⟩, ?_⟩
    · intro r hr
      obtain ⟨x, _, y, _, rfl⟩ := zipRows_mem hr
      simp
    · intro e
      have := congrArg List.length e
      rw [hzl] at this
      rw [this] at hl
      simp at hl
    · rw [zip_zipRows]
      refine hj _ ?_
      intro r hr s hs
      obtain ⟨x, hx, y, hy, rfl⟩ := zipRows_mem hr
      simp only [List.mem_cons, List.not_mem_nil, or_false] at hs
      rcases hs with rfl | rfl
      · exact fieldNames_ascii 0 _ h2 s hx
      · obtain ⟨t, ht, rfl⟩ := List.mem_map.1 hy
        obtain ⟨k, hk⟩ := texts_mem hts ht
        exact text_ascii hP hk
    · rw [hp]
      exact ⟨_, rfl, labelled_like 0 _ _ (spelled_converts hts)⟩

/-- A text that begins like a name or an array is no number. -/
theorem clean_no_number {t : Str} (h : Clean t) : ¬ IsNumberText t := by
  intro hn
  obtain ⟨c, r, rfl, hc⟩ := h.head
  have h1 := hn.2 c (by simp)
  have key := forall_byte (P := fun c => 48 ≤ c.toNat ∧ c.toNat ≤ 57 → isDigit c = true ∧ c ≠ 91) (by decide +kernel) c h1
  rcases hc with ⟨_, hc⟩ | rfl
  · rw [key.1] at hc; cases hc
  · exact key.2 rfl

theorem variant_no_number (hP : PlainNames cfg) {v : SiVariant} {u : Str} (h : VariantText cfg A v u) : ¬ IsNumberText u := by
  cases h with
  | empty e => exact fun h => absurd (h.2 101 (by decide)) (by decide)
  | one e ht => exact clean_no_number (text_clean hP ht)
  | @many ts hl hts =>
    intro hn
    have hne : zipRows (fieldNames 0 v.fields) (ts.map convertType) ≠ [] := by
      rw [← zip_zipRows]
      intro e
      have := congrArg List.length e
      have htl := hts.length_eq
      rw [List.length_map, List.length_zip, fieldNames_length, List.length_map, List.length_nil] at this
      rw [List.length_map] at htl
      omega
    obtain ⟨r, e⟩ := jsonRows_head _ hne
    rw [e] at hn
    exact absurd (hn.2 91 (by simp)) (by decide)

/-- The class of a struct or enum stands for its shape. -/
theorem own_stands {env : Env} (hP : PlainNames cfg) (hj : ReadsRows env.ext) {i : Nat} {c : Cls} {sh : Shape Nat}
    (hc : OwnClass cfg A i c) (hs : OwnShape cfg A i sh) : Stands cfg A env c [] sh := by
  cases hc with
  | @struct fs ts h1 h2 =>
    cases hs with
    | struct h3 =>
      rw [h1] at h3
      cases h3
      exact ⟨_, struct_is, _, rfl, labelled_like 1 fs ts (spelled_texts h2)⟩
    | names h3 => rw [h1] at h3; cases h3
    | variant h3 => rw [h1] at h3; cases h3
  | @enum vs rows l h1 h2 h3 =>
    cases hs with
    | struct h4 => rw [h1] at h4; cases h4
    | names h4 hne hf hn hi hlt =>
      rw [h1] at h4
      cases h4
      have hp := enumRows_values h2 h3 hf
      obtain ⟨p1, p2, p3, p4⟩ := plain_rows h2 h3 hf
      have hl : l ≠ [] := by
        rintro rfl
        have := hp.length_eq
        simp at this
        exact hne (List.length_eq_zero_iff.1 this.symm)
      have hns : newStruct l = some l := by unfold newStruct; rw [if_neg hl]
      rw [hns]
      refine ⟨.names (l.map fun p => (p.1, _root_.Spec.digitsValue p.2)), .inl ⟨[], l, rfl, p1, rfl, ?_, ?_, ?_⟩, _, rfl, ?_⟩
      · rw [List.map_map]
        have e : (Prod.fst ∘ fun p : Str × Str => (p.1, _root_.Spec.digitsValue p.2)) = Prod.fst := rfl
        rw [e, (hp.map Prod.fst).nodup_iff, List.map_map]
        exact hn
      · rw [List.map_map]
        exact p4 hi
      · intro p hm
        obtain ⟨q, hq, rfl⟩ := List.mem_map.1 hm
        obtain ⟨v, hv, rfl⟩ := p2 q hq
        simp only
        rw [digitsValue_natToDec]
        exact hlt v hv
      · intro p hm
        obtain ⟨v, hv, rfl⟩ := List.mem_map.1 hm
        refine List.mem_map.2 ⟨_, p3 v hv, ?_⟩
        simp only
        rw [digitsValue_natToDec]
    | @variant _ v h4 hf hn hi hv hlt hem ht hasc =>
      rw [h1] at h4
      cases h4
      have hP' := enumRows_positions h2 h3 hi hf
      obtain ⟨u, hu, hvt⟩ := hP'.variant v hv
      obtain ⟨p, hp1, hp2⟩ := variant_is hP hj hvt ht hasc
      have hl : l ≠ [] := by rintro rfl; simp at hu
      have hns : newStruct l = some l := by unfold newStruct; rw [if_neg hl]
      rw [hns]
      refine ⟨.enum [(v.index, v.name, p)], ⟨[], l, rfl, ?_, ?_⟩, _, rfl, .cons ⟨rfl, rfl, hp2⟩ .nil⟩
      · intro hcl
        exact variant_no_number hP hvt (hcl _ (List.mem_of_getElem? hu))
      · intro w hw
        rw [List.mem_singleton] at hw
        subst hw
        refine ⟨hlt, u, hu, ?_, hp1⟩
        intro j w hj'
        by_cases hno : ∀ x ∈ vs, x.index ≠ j
        · have := hP'.gap j _ hj' hno
          exact absurd (congrArg Prod.fst this) hem
        · push Not at hno
          obtain ⟨x, hx, rfl⟩ := hno
          obtain ⟨t, ht', _⟩ := hP'.variant x hx
          rw [ht'] at hj'
          have en : x.name = v.name := congrArg Prod.fst (Option.some.inj hj')
          rw [List.inj_on_of_nodup_map hn hx hv en]

end

end ScaleGo
