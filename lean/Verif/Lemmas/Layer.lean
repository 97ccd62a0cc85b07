import Verif.Lemmas.CleanText
import Verif.Props.C28
import Verif.Props.C38

/-! # Portable types as shapes -/

namespace Spec
open ScaleGo (Str SiField SiVariant SiType SiDef natToDec)

/-- Fields with their names, or numbered from `k` on. -/
def labelled : Nat → List SiField → List (Str × Nat)
  | _, [] => []
  | k, f :: fs => (if f.name = [] then b!"col" ++ natToDec k else f.name, f.type) :: labelled (k + 1) fs

/-- The members of a tuple, numbered from `k` on. -/
def numbered : Nat → List Nat → List (Str × Nat)
  | _, [] => []
  | k, i :: is => (b!"col" ++ natToDec k, i) :: numbered (k + 1) is

/-- What a variant carries. -/
def payload (v : SiVariant) : Payload Nat :=
  match v.fields with
  | [] => .unit
  | [f] => .one f.type
  | fs => .fields (labelled 0 fs)

/-- The primitive types, as metadata and as contract ABIs call them. -/
def primitiveShapes : List (Str × Shape Nat) :=
  [(b!"Bool", .bool), (b!"Str", .bytes .string), (b!"U8", .uint 1), (b!"U16", .uint 2), (b!"U32", .uint 4), (b!"U64", .uint 8),
   (b!"U128", .u128), (b!"U256", .u256), (b!"I8", .int 1), (b!"I16", .int 2), (b!"I32", .int 4), (b!"I64", .int 8),
   (b!"I128", .int 16), (b!"I256", .int 32),
   (b!"bool", .bool), (b!"str", .bytes .string), (b!"u8", .uint 1), (b!"u16", .uint 2), (b!"u32", .uint 4), (b!"u64", .uint 8),
   (b!"u128", .u128), (b!"u256", .u256), (b!"i8", .int 1), (b!"i16", .int 2), (b!"i32", .int 4), (b!"i64", .int 8),
   (b!"i128", .int 16), (b!"i256", .int 32)]

/-- The names of bytes. -/
def byteNames : List Str := [b!"U8", b!"u8"]

/-- The types of the crate `primitive_types`. -/
def crateShapes : List (Str × Shape Nat) := [(b!"H160", .hash 20), (b!"H256", .hash 32), (b!"H512", .hash 64), (b!"U256", .u256)]

/-- What may be written compactly. -/
def compactShapes : List (Str × Shape Nat) :=
  [(b!"U32", .compact32), (b!"U64", .compact (2 ^ 64) false), (b!"U128", .compact (2 ^ 128) true),
   (b!"u32", .compact32), (b!"u64", .compact (2 ^ 64) false), (b!"u128", .compact (2 ^ 128) true)]

/-- What metadata may describe as compact: the numbers above and the smaller ones. -/
def compactNumbers : List (Str × Shape Nat) :=
  compactShapes ++ [(b!"U8", .compact (2 ^ 8) false), (b!"U16", .compact (2 ^ 16) false),
    (b!"u8", .compact (2 ^ 8) false), (b!"u16", .compact (2 ^ 16) false)]

/-- The last segment of a path. -/
def tail (t : SiType) : Str := t.path.getLastD []

/-- A byte. -/
def IsByte (t : SiType) : Prop := ∃ p ∈ byteNames, t.typ = .primitive p

/-- The type is a primitive type, possibly wrapped in types with one field. -/
inductive Bare (types : Nat → SiType) : Nat → Str → Prop
  | primitive {i p} : (types i).typ = .primitive p → Bare types i p
  | newtype {i f p} : (types i).typ = .composite [f] → (types i).path.head? ≠ some b!"primitive_types" → tail (types i) ≠ b!"AccountId32" →
      Bare types f.type p → Bare types i p

/-- The shape of a portable type. -/
inductive Layer (types : Nat → SiType) : Nat → Shape Nat → Prop
  | primitive {i p sh} : (types i).typ = .primitive p → (p, sh) ∈ primitiveShapes → Layer types i sh
  | crate {i sh} : (types i).path.head? = some b!"primitive_types" → (tail (types i), sh) ∈ crateShapes → Layer types i sh
  | account {i f} : (types i).typ = .composite [f] → tail (types i) = b!"AccountId32" → Layer types i .account
  | newtype {i f sh} : (types i).typ = .composite [f] → (types i).path.head? ≠ some b!"primitive_types" →
      tail (types i) ≠ b!"AccountId32" → Layer types f.type sh → Layer types i sh
  | struct {i fs} : (types i).typ = .composite fs → fs.length ≠ 1 → Layer types i (.struct (labelled 1 fs))
  | bytes {i k} : (types i).typ = .sequence k → IsByte (types k) → Layer types i (.bytes .bytes)
  | seq {i k} : (types i).typ = .sequence k → ¬ IsByte (types k) → Layer types i (.seq k)
  | byteArray {i n k} : (types i).typ = .array n k → n ≠ 0 → IsByte (types k) → Layer types i (.byteArray n)
  | array {i n k} : (types i).typ = .array n k → n ≠ 0 → ¬ IsByte (types k) → Layer types i (.array n k)
  | unit {i} : (types i).typ = .tuple [] ∨ (types i).typ = .none ∨ (∃ k, (types i).typ = .array 0 k) → Layer types i .null
  | compact {i k p sh} : (types i).typ = .compact k → Bare types k p → (p, sh) ∈ compactNumbers → Layer types i sh
  | tuple {i ks} : (types i).typ = .tuple ks → ks ≠ [] → Layer types i (.struct (numbered 1 ks))
  | bits {i} : (types i).typ = .bitSequence → Layer types i .bitVec
  | option {i vs p ps n q qs} : (types i).typ = .variant vs → (types i).path = p :: ps → asciiLower p = b!"option" →
      (types i).params = (n, q) :: qs → Layer types i (.option q)
  | result {i vs p ps n q m q' qs} : (types i).typ = .variant vs → (types i).path = p :: ps → asciiLower p = b!"result" →
      (types i).params = (n, q) :: (m, q') :: qs → Layer types i (.result q q')
  | names {i vs p ps} : (types i).typ = .variant vs → (types i).path = p :: ps → asciiLower p ≠ b!"option" →
      asciiLower p ≠ b!"result" → (∀ v ∈ vs, v.fields = []) → Layer types i (.names (vs.map fun v => (v.name, v.index)))
  | variant {i vs p ps v} : (types i).typ = .variant vs → (types i).path = p :: ps → asciiLower p ≠ b!"option" →
      asciiLower p ≠ b!"result" → v ∈ vs → (∃ w ∈ vs, w.fields ≠ []) → Layer types i (.enum [(v.index, v.name, payload v)])

end Spec

namespace ScaleGo
open _root_.Spec (Shape Payload labelled numbered payload primitiveShapes crateShapes compactShapes byteNames IsByte Layer)
open ScaleGo.Spec

/-- The text of the type is entered when it is met. -/
def Late (cfg : SiCfg) (A : Nat → Prop) (i : Nat) : Prop := ¬ A i ∧ (cfg.types i).path.head? ≠ some b!"primitive_types"

/-- No text of the type is `u8`. -/
def NotByte (cfg : SiCfg) (A : Nat → Prop) (k : Nat) : Prop := ∀ s, Text cfg A k s → toLower s ≠ b!"u8"

/-- No text of the type is `bool`, in any letter case. -/
def NotBool (cfg : SiCfg) (A : Nat → Prop) (k : Nat) : Prop := ∀ s, Text cfg A k s → toLower s ≠ b!"bool"

/-- Types whose texts may as well be written in lower case, as the element types of arrays are: there is no option of a truth value
among the types that the text is composed of. -/
inductive Low (cfg : SiCfg) (A : Nat → Prop) : Nat → Prop
  | mk {i} : (∀ k, (cfg.types i).typ = .sequence k → Low cfg A k) →
      (∀ f, Late cfg A i → IsNewtype (cfg.types i) → (cfg.types i).typ = .composite [f] → Low cfg A f.type) →
      (∀ vs p ps n q qs, (cfg.types i).typ = .variant vs → (cfg.types i).path = p :: ps → equalFold p b!"Option" = true →
        (cfg.types i).params = (n, q) :: qs → Low cfg A q) →
      (∀ vs p ps n q qs, (cfg.types i).typ = .variant vs → (cfg.types i).path = p :: ps → equalFold p b!"Option" = true →
        (cfg.types i).params = (n, q) :: qs → NotBool cfg A q) →
      (∀ vs p ps n q m q' qs, (cfg.types i).typ = .variant vs → (cfg.types i).path = p :: ps → equalFold p b!"Result" = true →
        (cfg.types i).params = (n, q) :: (m, q') :: qs → Low cfg A q) →
      (∀ vs p ps n q m q' qs, (cfg.types i).typ = .variant vs → (cfg.types i).path = p :: ps → equalFold p b!"Result" = true →
        (cfg.types i).params = (n, q) :: (m, q') :: qs → Low cfg A q') → Low cfg A i

/-- The types of a shape may be written in lower case. -/
def LowShape (cfg : SiCfg) (A : Nat → Prop) : Shape Nat → Prop
  | .seq k => Low cfg A k
  | .array _ k => Low cfg A k
  | .option q => Low cfg A q ∧ NotBool cfg A q
  | .result q q' => Low cfg A q ∧ Low cfg A q'
  | _ => True

/-- The shapes of structs and enums. -/
inductive OwnShape (cfg : SiCfg) (A : Nat → Prop) (i : Nat) : Shape Nat → Prop
  | struct {fs} : (cfg.types i).typ = .composite fs → OwnShape cfg A i (.struct (labelled 1 fs))
  | names {vs} : (cfg.types i).typ = .variant vs → vs ≠ [] → (∀ v ∈ vs, v.fields = []) → (vs.map SiVariant.name).Nodup →
      (vs.map SiVariant.index).Nodup → (∀ v ∈ vs, v.index < 256) → OwnShape cfg A i (.names (vs.map fun v => (v.name, v.index)))
  | variant {vs v} : (cfg.types i).typ = .variant vs → (∃ w ∈ vs, w.fields ≠ []) → (vs.map SiVariant.name).Nodup →
      (vs.map SiVariant.index).Nodup → v ∈ vs → v.index < 256 → v.name ≠ b!"empty" →
      (∀ f ∈ v.fields, ∀ t, Text cfg A f.type t → ¬ LooksLikeRows t) → (∀ f ∈ v.fields, ∀ c ∈ f.name, c.toNat < 128) →
      OwnShape cfg A i (.enum [(v.index, v.name, payload v)])

/-- All texts of a tuple are the same but for letter case. -/
def Settled (cfg : SiCfg) (A : Nat → Prop) (ks : List Nat) : Prop :=
  ∀ ts us, Texts cfg A ks ts → Texts cfg A ks us → toLower ts.flatten = toLower us.flatten

/-- No text of the type contains a comma. -/
def NoComma (cfg : SiCfg) (A : Nat → Prop) (k : Nat) : Prop := ∀ s, Text cfg A k s → (44 : UInt8) ∉ s

/-- No text of the type contains a semicolon, as the texts of arrays do. -/
def NoSemicolon (cfg : SiCfg) (A : Nat → Prop) (k : Nat) : Prop := ∀ s, Text cfg A k s → (59 : UInt8) ∉ s

/-- Shapes whose texts can be the text of an alias. -/
def Aliased (cfg : SiCfg) (A : Nat → Prop) : Shape Nat → Prop
  | .null => False
  | .result _ _ => False
  | .array _ k => NoSemicolon cfg A k
  | _ => True

theorem Aliased.ne_null {cfg : SiCfg} {A : Nat → Prop} {sh : Shape Nat} (h : Aliased cfg A sh) : sh ≠ .null := by rintro rfl; exact h

/-- What the compact forms of numbers of the metadata are, if they do not count as those of built-in types. -/
def wrappedShapes : List (Shape Nat × Shape Nat) :=
  [(.uint 4, .compact (2 ^ 32) false), (.uint 8, .compact (2 ^ 64) false), (.u128, .compact (2 ^ 128) true)]

/-- The layers that the library treats as described. -/
inductive Covered (cfg : SiCfg) (A : Nat → Prop) : Nat → Shape Nat → Prop
  | primitive {i p sh} : A i → (cfg.types i).typ = .primitive p → (cfg.types i).path.head? ≠ some b!"primitive_types" →
      (p, sh) ∈ primitiveShapes → Covered cfg A i sh
  | crate {i sh} : A i → (cfg.types i).path.head? = some b!"primitive_types" → (∀ p, (cfg.types i).typ ≠ .primitive p) →
      (lastOf (cfg.types i).path, sh) ∈ crateShapes → Covered cfg A i sh
  | account {i f} : A i → (cfg.types i).typ = .composite [f] → (cfg.types i).path.head? ≠ some b!"primitive_types" →
      lastOf (cfg.types i).path = b!"AccountId32" → Covered cfg A i .account
  | newtype {i f sh} : Late cfg A i → IsNewtype (cfg.types i) → (cfg.types i).typ = .composite [f] → f.type ≠ i → Aliased cfg A sh →
      Covered cfg A f.type sh → Covered cfg A i sh
  | own {i sh} : Late cfg A i → IsOwn (cfg.types i) → OwnShape cfg A i sh → Covered cfg A i sh
  | bytes {i k p} : Late cfg A i → (cfg.types i).typ = .sequence k → A k → p ∈ byteNames →
      (cfg.types k).typ = .primitive p → (cfg.types k).path.head? ≠ some b!"primitive_types" → Covered cfg A i (.bytes .bytes)
  | seq {i k} : Late cfg A i → (cfg.types i).typ = .sequence k → NotByte cfg A k → Covered cfg A i (.seq k)
  | byteArray {i n k p} : Late cfg A i → (cfg.types i).typ = .array n k → n ≠ 0 → n < 2 ^ 63 → A k →
      p ∈ byteNames → (cfg.types k).typ = .primitive p → (cfg.types k).path.head? ≠ some b!"primitive_types" → Covered cfg A i (.byteArray n)
  | array {i n k} : Late cfg A i → (cfg.types i).typ = .array n k → n ≠ 0 → n < 2 ^ 63 → Low cfg A k → NotByte cfg A k →
      Covered cfg A i (.array n k)
  | unit {i} : Late cfg A i → (cfg.types i).typ = .tuple [] ∨ (cfg.types i).typ = .none ∨ (∃ k, (cfg.types i).typ = .array 0 k) →
      Covered cfg A i .null
  | compact {i k p sh} : Late cfg A i → (cfg.types i).typ = .compact k → A k → (cfg.types k).typ = .primitive p →
      (cfg.types k).path.head? ≠ some b!"primitive_types" → (p, sh) ∈ compactShapes → Covered cfg A i sh
  | wrapped {i k w sh} : Late cfg A i → (cfg.types i).typ = .compact k → Covered cfg A k w → w ≠ .uint 4 → (w, sh) ∈ wrappedShapes →
      Covered cfg A i sh
  | tuple {i ks} : Late cfg A i → (cfg.types i).typ = .tuple ks → ks ≠ [] → Settled cfg A ks → Covered cfg A i (.struct (numbered 1 ks))
  | bits {i} : Late cfg A i → (cfg.types i).typ = .bitSequence → Covered cfg A i .bitVec
  | option {i vs p ps n q qs} : Late cfg A i → (cfg.types i).typ = .variant vs → (cfg.types i).path = p :: ps →
      equalFold p b!"Option" = true → ¬ IsCallTag (cfg.types i) → (cfg.types i).params = (n, q) :: qs → ¬ Text cfg A q b!"bool" →
      Covered cfg A i (.option q)
  | result {i vs p ps n q m q' qs} : Late cfg A i → (cfg.types i).typ = .variant vs → (cfg.types i).path = p :: ps →
      equalFold p b!"Result" = true → ¬ IsCallTag (cfg.types i) → (cfg.types i).params = (n, q) :: (m, q') :: qs →
      NoComma cfg A q → NoComma cfg A q' → Covered cfg A i (.result q q')

/-- A covered number is a primitive type, possibly wrapped. -/
theorem covered_bare {cfg : SiCfg} {A : Nat → Prop} {k : Nat} {w sh : Shape Nat} (h : Covered cfg A k w) (h4 : w ≠ .uint 4) (hw : (w, sh) ∈ wrappedShapes) :
    ∃ p, _root_.Spec.Bare cfg.types k p ∧ (p, sh) ∈ _root_.Spec.compactNumbers := by
  simp only [wrappedShapes, List.mem_cons, Prod.mk.injEq, List.not_mem_nil, or_false] at hw
  replace hw := hw.resolve_left fun h => h4 h.1
  induction h with
  | primitive _ h1 _ h2 =>
    refine ⟨_, .primitive h1, ?_⟩
    simp only [primitiveShapes, List.mem_cons, Prod.mk.injEq, List.not_mem_nil, or_false] at h2
    simp only [_root_.Spec.compactNumbers]
    rcases hw with ⟨rfl, rfl⟩ | ⟨rfl, rfl⟩ <;> simp at h2 <;> rcases h2 with rfl | rfl <;> simp [_root_.Spec.compactShapes]
  | newtype hl hn h1 _ _ _ ih =>
    obtain ⟨p, h3, h4⟩ := ih h4 hw
    obtain ⟨f, e, _, h2, _⟩ := hn
    exact ⟨p, .newtype h1 hl.2 h2 h3, h4⟩
  | crate _ _ _ h =>
    simp only [crateShapes, List.mem_cons, Prod.mk.injEq, List.not_mem_nil, or_false] at h
    rcases hw with ⟨rfl, rfl⟩ | ⟨rfl, rfl⟩ <;> simp at h
  | own _ _ h => cases h <;> simp at hw
  | compact _ _ _ _ _ h =>
    simp only [compactShapes, List.mem_cons, Prod.mk.injEq, List.not_mem_nil, or_false] at h
    rcases hw with ⟨rfl, rfl⟩ | ⟨rfl, rfl⟩ <;> simp at h
  | wrapped _ _ _ _ h =>
    simp only [wrappedShapes, List.mem_cons, Prod.mk.injEq, List.not_mem_nil, or_false] at h
    rcases hw with ⟨rfl, rfl⟩ | ⟨rfl, rfl⟩ <;> simp at h
  | _ => simp at hw

theorem covered_layer {cfg : SiCfg} {A : Nat → Prop} {i : Nat} {sh : Shape Nat} (hT : ∀ k, IsByte (cfg.types k) → ¬ NotByte cfg A k)
    (h : Covered cfg A i sh) : Layer cfg.types i sh := by
  have opt : ∀ p : Str, equalFold p b!"Option" = true ↔ _root_.Spec.asciiLower p = b!"option" := by
    intro p
    unfold equalFold
    rw [toLower_eq_spec, beq_iff_eq, show toLower b!"Option" = b!"option" by decide]
  have res : ∀ p : Str, equalFold p b!"Result" = true ↔ _root_.Spec.asciiLower p = b!"result" := by
    intro p
    unfold equalFold
    rw [toLower_eq_spec, beq_iff_eq, show toLower b!"Result" = b!"result" by decide]
  induction h with
  | primitive _ h1 _ h2 => exact .primitive h1 h2
  | crate _ h1 _ h2 => exact .crate h1 h2
  | account _ h1 _ h2 => exact .account h1 h2
  | newtype hl hn h1 _ _ _ ih =>
    obtain ⟨f, e, _, h2, _⟩ := hn
    exact .newtype h1 hl.2 h2 ih
  | own hl ho hs =>
    cases hs with
    | struct h1 =>
      rcases ho with ⟨fs, e, h2, _⟩ | ⟨vs, p, ps, e, _⟩
      · rw [h1] at e; cases e; exact .struct h1 h2
      · rw [h1] at e; cases e
    | names h1 h2 h3 =>
      rcases ho with ⟨fs, e, _⟩ | ⟨vs, p, ps, e, ep, h4, h5, _⟩
      · rw [h1] at e; cases e
      · exact .names h1 ep (fun h => by rw [(opt p).2 h] at h4; cases h4) (fun h => by rw [(res p).2 h] at h5; cases h5) h3
    | variant h1 h2 _ _ h3 =>
      rcases ho with ⟨fs, e, _⟩ | ⟨vs, p, ps, e, ep, h4, h5, _⟩
      · rw [h1] at e; cases e
      · exact .variant h1 ep (fun h => by rw [(opt p).2 h] at h4; cases h4) (fun h => by rw [(res p).2 h] at h5; cases h5) h3 h2
  | bytes _ h1 _ hb h2 => exact .bytes h1 ⟨_, hb, h2⟩
  | seq _ h1 h2 => exact .seq h1 fun h => hT _ h h2
  | byteArray _ h1 h2 _ _ hb h3 => exact .byteArray h1 h2 ⟨_, hb, h3⟩
  | array _ h1 h2 _ _ h3 => exact .array h1 h2 fun h => hT _ h h3
  | unit _ h => exact .unit h
  | compact _ h1 _ h2 _ h3 => exact .compact h1 (.primitive h2) (List.mem_append_left _ h3)
  | wrapped _ h1 h2 h3 h4 _ =>
    obtain ⟨p, h5, h6⟩ := covered_bare h2 h3 h4
    exact .compact h1 h5 h6
  | tuple _ h1 h2 _ => exact .tuple h1 h2
  | bits _ h => exact .bits h
  | option _ h1 h2 h3 _ h4 _ => exact .option h1 h2 ((opt _).1 h3) h4
  | result _ h1 h2 h3 _ h4 _ _ => exact .result h1 h2 ((res _).1 h3) h4

/-! ## Views -/

/-- The texts with an entry from the start, and what they stand for. -/
def stockShapes : List (Str × Shape Nat) := primitiveShapes ++ crateShapes ++ [(b!"AccountId", .account), (b!"BitVec", .bitVec)]

/-- How a text stands for a shape. -/
inductive View (cfg : SiCfg) (A : Nat → Prop) : Str → Shape Nat → Prop
  | stock {t sh} : (t, sh) ∈ stockShapes → View cfg A t sh
  | own {i n sh} : Late cfg A i → IsOwn (cfg.types i) → nameSiType cfg (cfg.types i) (some i) = .ok n → n ≠ [] → OwnShape cfg A i sh →
      View cfg A n sh
  | renamed {i f n sh} : Late cfg A i → IsNewtype (cfg.types i) → (cfg.types i).typ = .composite [f] → f.type ≠ i →
      nameSiType cfg (cfg.types i) (some i) = .ok n → n ≠ [] → Aliased cfg A sh → Covered cfg A f.type sh → View cfg A n sh
  | bytes {p} : p ∈ byteNames → View cfg A (generic b!"Vec" p) (.bytes .bytes)
  | seq {k s} : Text cfg A k s → toLower s ≠ b!"u8" → View cfg A (generic b!"Vec" s) (.seq k)
  | byteArray {n p} : p ∈ byteNames → n ≠ 0 → n < 2 ^ 63 → View cfg A (arrayText p 1 n) (.byteArray n)
  | array {n k s} : n ≠ 0 → n < 2 ^ 63 → Low cfg A k → Text cfg A k s → toLower s ≠ b!"u8" →
      View cfg A (arrayText s 1 n) (.array n k)
  | compact {s sh} : (s, sh) ∈ compactShapes → View cfg A (generic b!"compact" s) sh
  | wrapped {k s w sh} : Text cfg A k s → Covered cfg A k w → (w, sh) ∈ wrappedShapes → (w = .uint 4 → toLower s ≠ b!"u32") →
      View cfg A (generic b!"compact" s) sh
  | tuple {i ks ts} : Late cfg A i → (cfg.types i).typ = .tuple ks → ks ≠ [] → Settled cfg A ks → Texts cfg A ks ts →
      View cfg A (b!"Tuple:" ++ ts.flatten) (.struct (numbered 1 ks))
  | option {q s} : Text cfg A q s → s ≠ b!"bool" → View cfg A (generic b!"option" s) (.option q)
  | result {q q' s s'} : Text cfg A q s → Text cfg A q' s' → (44 : UInt8) ∉ s → (44 : UInt8) ∉ s' →
      View cfg A (generic b!"Result" (s ++ b!"," ++ s')) (.result q q')

section
variable {cfg : SiCfg} {A : Nat → Prop}

theorem text_primitive {i : Nat} {t p : Str} (h : Text cfg A i t) (hA : A i) (hp : (cfg.types i).typ = .primitive p)
    (hh : (cfg.types i).path.head? ≠ some b!"primitive_types") : t = p := by
  cases h with
  | primitive e => rw [hp] at e; cases e; rfl
  | primitiveTypes e => exact absurd e hh
  | account e _ _ => rw [hp] at e; cases e
  | _ => contradiction

theorem text_crate {i : Nat} {t : Str} (h : Text cfg A i t) (hA : A i) (hp : ∀ p, (cfg.types i).typ ≠ .primitive p)
    (hl : lastOf (cfg.types i).path ≠ b!"AccountId32") : t = lastOf (cfg.types i).path := by
  cases h with
  | primitive e => exact absurd e (hp _)
  | primitiveTypes e => rfl
  | account _ _ e => exact absurd e hl
  | _ => contradiction

theorem text_account {i : Nat} {t : Str} {f : SiField} (h : Text cfg A i t) (hA : A i) (hp : (cfg.types i).typ = .composite [f])
    (hh : (cfg.types i).path.head? ≠ some b!"primitive_types") : t = b!"AccountId" := by
  cases h with
  | primitive e => rw [hp] at e; cases e
  | primitiveTypes e => exact absurd e hh
  | account _ _ _ => rfl
  | _ => contradiction

theorem name_kind {i : Nat} {n : Str} (h : nameSiType cfg (cfg.types i) (some i) = .ok n) (hn : n ≠ []) :
    (∃ fs, (cfg.types i).typ = .composite fs) ∨ ∃ vs p ps, (cfg.types i).typ = .variant vs ∧ (cfg.types i).path = p :: ps ∧ equalFold p b!"Option" = false := by
  unfold nameSiType at h
  split at h
  · next e => exact .inl ⟨_, e⟩
  · next vs e =>
    split at h
    · cases h
    · next p ps e' =>
      refine .inr ⟨vs, p, ps, e, e', ?_⟩
      split at h
      · cases h; exact absurd rfl hn
      · next ho =>
        rw [Bool.or_eq_true, not_or] at ho
        simpa using ho.1
  · cases h; exact absurd rfl hn

theorem text_ownName {i : Nat} {t : Str} (h : Text cfg A i t) (hl : Late cfg A i) (ho : IsOwn (cfg.types i)) :
    nameSiType cfg (cfg.types i) (some i) = .ok t := by
  have hover := own_override ho
  rcases ho with ⟨fs, h1, h2, h3⟩ | ⟨vs, p, ps, h1, h2, h3, h4, h5⟩
  · cases h with
    | name _ hn _ => exact hn
    | emptyName _ _ hn => exact hn
    | override _ ho => exact absurd hover ho
    | primitiveTypes hh => exact absurd hh hl.2
    | account e => rw [h1] at e; cases e; simp at h2
    | wrapper _ _ hw => exact absurd hw h3
    | newtype _ e => rw [h1] at e; cases e; simp at h2
    | selfNewtype _ e => rw [h1] at e; cases e; simp at h2
    | _ => simp_all
  · cases h with
    | name _ hn _ => exact hn
    | emptyName _ _ hn => exact hn
    | override _ ho => exact absurd hover ho
    | primitiveTypes hh => exact absurd hh hl.2
    | option _ e1 e2 e3 => rw [h2] at e2; cases e2; rw [h3] at e3; cases e3
    | result _ e1 e2 e3 e4 => rw [h2] at e2; cases e2; rw [h4] at e4; cases e4
    | call _ _ hc => exact absurd hc h5
    | _ => simp_all

theorem text_newtype {i : Nat} {t : Str} {f : SiField} (h : Text cfg A i t) (hl : Late cfg A i) (hn : IsNewtype (cfg.types i))
    (hf : (cfg.types i).typ = .composite [f]) (hi : f.type ≠ i) : nameSiType cfg (cfg.types i) (some i) = .ok t ∧ t ≠ [] ∨ Text cfg A f.type t := by
  obtain ⟨f', e, hw, ha, ho⟩ := hn
  rw [hf] at e
  cases e
  cases h with
  | name _ h1 h2 => exact .inl ⟨h1, h2⟩
  | emptyName _ h' _ => exact absurd h' (newtype_not_own ⟨f, hf, hw, ha, ho⟩)
  | override _ h' => exact absurd ho h'
  | primitiveTypes hh => exact absurd hh hl.2
  | account _ _ e => exact absurd e ha
  | wrapper _ _ h' => exact absurd h' hw
  | newtype _ e _ _ h' => rw [hf] at e; cases e; exact .inr h'
  | selfNewtype _ e h' => rw [hf] at e; cases e; exact absurd h' hi
  | _ => simp_all

theorem not_name {i : Nat} {n : Str} (h : nameSiType cfg (cfg.types i) (some i) = .ok n) (hn : n ≠ [])
    (h1 : ∀ fs, (cfg.types i).typ ≠ .composite fs) (h2 : ∀ vs, (cfg.types i).typ ≠ .variant vs) : False := by
  rcases name_kind h hn with ⟨fs, e⟩ | ⟨vs, p, ps, e, _⟩
  · exact h1 _ e
  · exact h2 _ e

theorem not_own_of {t : SiType} (h1 : ∀ fs, t.typ ≠ .composite fs) (h2 : ∀ vs, t.typ ≠ .variant vs) : ¬ IsOwn t := by
  rintro (⟨fs, e, _⟩ | ⟨vs, p, ps, e, _⟩)
  · exact h1 _ e
  · exact h2 _ e

theorem override_none {t : SiType} (h1 : ∀ fs, t.typ ≠ .composite fs) : overriderTypesName t = [] := by
  unfold overriderTypesName
  split
  · next e => exact absurd e (h1 _)
  · rfl

/-- The text of a late type that is neither composite nor variant. -/
theorem text_other {i : Nat} {t : Str} (h : Text cfg A i t) (hl : Late cfg A i) (h1 : ∀ fs, (cfg.types i).typ ≠ .composite fs)
    (h2 : ∀ vs, (cfg.types i).typ ≠ .variant vs) :
    (∃ p, (cfg.types i).typ = .primitive p) ∨ (cfg.types i).typ = .range ∨ (∃ k, (cfg.types i).typ = .array 0 k) ∧ t = b!"NULL" ∨
    (∃ n k s, (cfg.types i).typ = .array n k ∧ n ≠ 0 ∧ Text cfg A k s ∧ t = arrayText s 1 n) ∨
    (∃ k s, (cfg.types i).typ = .sequence k ∧ Text cfg A k s ∧ t = generic b!"Vec" s) ∨
    (∃ k s, (cfg.types i).typ = .compact k ∧ Text cfg A k s ∧ t = generic b!"compact" s) ∨
    ((cfg.types i).typ = .tuple [] ∨ (cfg.types i).typ = .none) ∧ t = b!"NULL" ∨
    (∃ ks ts, (cfg.types i).typ = .tuple ks ∧ ks ≠ [] ∧ Texts cfg A ks ts ∧ t = b!"Tuple:" ++ ts.flatten) ∨
    (cfg.types i).typ = .bitSequence ∧ t = b!"BitVec" := by
  cases h with
  | name _ hn hne => exact (not_name hn hne h1 h2).elim
  | emptyName _ h' _ => exact absurd h' (not_own_of h1 h2)
  | override _ h' => exact absurd (override_none h1) h'
  | primitive e => exact .inl ⟨_, e⟩
  | primitiveTypes hh => exact absurd hh hl.2
  | account e _ _ => exact absurd e (h1 _)
  | wrapper _ e _ => exact absurd e (h1 _)
  | newtype _ e _ => exact absurd e (h1 _)
  | selfNewtype _ e _ => exact absurd e (h1 _)
  | arrayZero _ e => exact .inr (.inr (.inl ⟨⟨_, e⟩, rfl⟩))
  | array _ e hn hs => exact .inr (.inr (.inr (.inl ⟨_, _, _, e, hn, hs, by simp [arrayText]⟩)))
  | sequence _ e hs => exact .inr (.inr (.inr (.inr (.inl ⟨_, _, e, hs, by simp [generic]⟩))))
  | compact _ e hs => exact .inr (.inr (.inr (.inr (.inr (.inl ⟨_, _, e, hs, by simp [generic]⟩)))))
  | tupleNil _ e => exact .inr (.inr (.inr (.inr (.inr (.inr (.inl ⟨.inl e, rfl⟩))))))
  | tuple ps _ e hne hps =>
    exact .inr (.inr (.inr (.inr (.inr (.inr (.inr (.inl ⟨_, _, e, by simpa using hne, texts_of_pairs hps, rfl⟩)))))))
  | bits _ e => exact .inr (.inr (.inr (.inr (.inr (.inr (.inr (.inr ⟨e, rfl⟩)))))))
  | range _ e => exact .inr (.inl e)
  | option _ e => exact absurd e (h2 _)
  | result _ e => exact absurd e (h2 _)
  | call _ e _ => exact absurd e (h2 _)
  | nothing _ e => exact .inr (.inr (.inr (.inr (.inr (.inr (.inl ⟨.inr e, rfl⟩))))))
  | dealtPrimitive _ e => exact .inl ⟨_, e⟩

theorem text_option {i : Nat} {t : Str} {vs : List SiVariant} {p n : Str} {ps : List Str} {q : Nat} {qs : List (Str × Nat)}
    (h : Text cfg A i t) (hl : Late cfg A i) (h1 : (cfg.types i).typ = .variant vs) (h2 : (cfg.types i).path = p :: ps)
    (h3 : equalFold p b!"Option" = true) (h4 : ¬ IsCallTag (cfg.types i)) (h5 : (cfg.types i).params = (n, q) :: qs) :
    ∃ s, Text cfg A q s ∧ t = generic b!"option" s := by
  cases h with
  | name _ hn hne =>
    rcases name_kind hn hne with ⟨fs, e⟩ | ⟨vs, p', ps', e, e2, e3⟩
    · rw [h1] at e; cases e
    · rw [h2] at e2; cases e2; rw [h3] at e3; cases e3
  | emptyName _ h' _ =>
    rcases h' with ⟨fs, e, _⟩ | ⟨vs, p', ps', e, e2, e3, _⟩
    · rw [h1] at e; cases e
    · rw [h2] at e2; cases e2; rw [h3] at e3; cases e3
  | override _ h' => exact absurd (override_none (by rw [h1]; simp)) h'
  | primitiveTypes hh => exact absurd hh hl.2
  | option _ _ _ _ e hs => rw [h5] at e; cases e; exact ⟨_, hs, by simp [generic]⟩
  | result _ _ e2 e3 => rw [h2] at e2; cases e2; rw [h3] at e3; cases e3
  | call _ _ h' => exact absurd h' h4
  | _ => simp_all

theorem text_result {i : Nat} {t : Str} {vs : List SiVariant} {p n m : Str} {ps : List Str} {q q' : Nat} {qs : List (Str × Nat)}
    (h : Text cfg A i t) (hl : Late cfg A i) (h1 : (cfg.types i).typ = .variant vs) (h2 : (cfg.types i).path = p :: ps)
    (h3 : equalFold p b!"Result" = true) (h4 : ¬ IsCallTag (cfg.types i)) (h5 : (cfg.types i).params = (n, q) :: (m, q') :: qs) :
    ∃ s s', Text cfg A q s ∧ Text cfg A q' s' ∧ t = generic b!"Result" (s ++ b!"," ++ s') := by
  cases h with
  | name _ hn hne =>
    unfold nameSiType at hn
    rw [h1, h2] at hn
    simp only [h3, Bool.or_true, if_true] at hn
    cases hn
    exact absurd rfl hne
  | emptyName _ h' _ =>
    rcases h' with ⟨fs, e, _⟩ | ⟨vs, p', ps', e, e2, _, e3, _⟩
    · rw [h1] at e; cases e
    · rw [h2] at e2; cases e2; rw [h3] at e3; cases e3
  | override _ h' => exact absurd (override_none (by rw [h1]; simp)) h'
  | primitiveTypes hh => exact absurd hh hl.2
  | option _ _ e2 e3 =>
    rw [h2] at e2
    cases e2
    exfalso
    unfold equalFold at h3 e3
    rw [beq_iff_eq] at h3 e3
    rw [h3] at e3
    exact absurd e3 (by decide)
  | result _ _ _ _ _ e hs hs' => rw [h5] at e; cases e; exact ⟨_, _, hs, hs', by simp [generic]⟩
  | call _ _ h' => exact absurd h' h4
  | _ => simp_all

theorem crate_tail {t : Str} {sh : Shape Nat} (h : (t, sh) ∈ crateShapes) : t ≠ b!"AccountId32" := by
  simp only [crateShapes, List.mem_cons, Prod.mk.injEq, List.not_mem_nil, or_false] at h
  rcases h with ⟨rfl, _⟩ | ⟨rfl, _⟩ | ⟨rfl, _⟩ | ⟨rfl, _⟩ <;> decide

theorem own_not_null {i : Nat} {sh : Shape Nat} (h : OwnShape cfg A i sh) : sh ≠ .null := by cases h <;> simp

/-- A text of a covered type stands for its shape. -/
theorem view {i : Nat} {t : Str} {sh : Shape Nat} (h : Covered cfg A i sh) (hP : PlainNames cfg) (ht : Text cfg A i t) (hn : sh ≠ .null) :
    View cfg A t sh := by
  induction h with
  | primitive hA h1 h2 h3 =>
    obtain rfl := text_primitive ht hA h1 h2
    exact .stock (by simp [stockShapes, h3])
  | crate hA h1 h2 h3 =>
    obtain rfl := text_crate ht hA h2 (crate_tail h3)
    exact .stock (by simp [stockShapes, h3])
  | account hA h1 h2 h3 =>
    obtain rfl := text_account ht hA h1 h2
    exact .stock (by simp [stockShapes])
  | newtype hl hnt h1 h2 h3 hc ih =>
    rcases text_newtype ht hl hnt h1 h2 with ⟨h4, h5⟩ | h4
    · exact .renamed hl hnt h1 h2 h4 h5 h3 hc
    · exact ih h4 hn
  | own hl ho hs => exact .own hl ho (text_ownName ht hl ho) (text_clean hP ht).ne_nil hs
  | bytes hl h1 hA hb h2 h3 =>
    have := text_other ht hl (by rw [h1]; simp) (by rw [h1]; simp)
    simp only [h1, reduceCtorEq, false_and, exists_false, false_or, or_false, SiDef.sequence.injEq] at this
    obtain ⟨k, s, rfl, hs, rfl⟩ := this
    obtain rfl := text_primitive hs hA h2 h3
    exact .bytes hb
  | seq hl h1 h2 =>
    have := text_other ht hl (by rw [h1]; simp) (by rw [h1]; simp)
    simp only [h1, reduceCtorEq, false_and, exists_false, false_or, or_false, SiDef.sequence.injEq] at this
    obtain ⟨k, s, rfl, hs, rfl⟩ := this
    exact .seq hs (h2 s hs)
  | byteArray hl h1 h2 h3 hA hb h4 h5 =>
    have := text_other ht hl (by rw [h1]; simp) (by rw [h1]; simp)
    simp only [h1, reduceCtorEq, false_and, exists_false, false_or, or_false, SiDef.array.injEq] at this
    rcases this with ⟨⟨_, h, _⟩, _⟩ | ⟨n, k, s, ⟨rfl, rfl⟩, _, hs, rfl⟩
    · exact absurd h h2
    · obtain rfl := text_primitive hs hA h4 h5
      exact .byteArray hb h2 h3
  | array hl h1 h2 h3 h4 h5 =>
    have := text_other ht hl (by rw [h1]; simp) (by rw [h1]; simp)
    simp only [h1, reduceCtorEq, false_and, exists_false, false_or, or_false, SiDef.array.injEq] at this
    rcases this with ⟨⟨_, h, _⟩, _⟩ | ⟨n, k, s, ⟨rfl, rfl⟩, _, hs, rfl⟩
    · exact absurd h h2
    · exact .array h2 h3 h4 hs (h5 s hs)
  | unit _ _ => exact absurd rfl hn
  | compact hl h1 hA h2 h3 h4 =>
    have := text_other ht hl (by rw [h1]; simp) (by rw [h1]; simp)
    simp only [h1, reduceCtorEq, false_and, exists_false, false_or, or_false, SiDef.compact.injEq] at this
    obtain ⟨k, s, rfl, hs, rfl⟩ := this
    obtain rfl := text_primitive hs hA h2 h3
    exact .compact h4
  | wrapped hl h1 h2 h3 h4 _ =>
    have := text_other ht hl (by rw [h1]; simp) (by rw [h1]; simp)
    simp only [h1, reduceCtorEq, false_and, exists_false, false_or, or_false, SiDef.compact.injEq] at this
    obtain ⟨k, s, rfl, hs, rfl⟩ := this
    exact .wrapped hs h2 h4 fun e => absurd e h3
  | tuple hl h1 h2 h3 =>
    have := text_other ht hl (by rw [h1]; simp) (by rw [h1]; simp)
    simp only [h1, reduceCtorEq, false_and, exists_false, false_or, or_false, SiDef.tuple.injEq] at this
    rcases this with ⟨h, _⟩ | ⟨ks, ts, rfl, _, hs, rfl⟩
    · exact absurd h h2
    · exact .tuple hl h1 h2 h3 hs
  | bits hl h1 =>
    have := text_other ht hl (by rw [h1]; simp) (by rw [h1]; simp)
    simp only [h1, reduceCtorEq, false_and, exists_false, false_or, or_false, true_and] at this
    obtain rfl := this
    exact .stock (by simp [stockShapes])
  | option hl h1 h2 h3 h4 h5 h6 =>
    obtain ⟨s, hs, rfl⟩ := text_option ht hl h1 h2 h3 h4 h5
    exact .option hs (fun e => h6 (e ▸ hs))
  | result hl h1 h2 h3 h4 h5 h6 h7 =>
    obtain ⟨s, s', hs, hs', rfl⟩ := text_result ht hl h1 h2 h3 h4 h5
    exact .result hs hs' (h6 s hs) (h7 s' hs')

/-- Shapes without types that are spelled in the text. -/
def unspelled : Shape Nat → Bool
  | .seq _ => false
  | .array _ _ => false
  | .option _ => false
  | .result _ _ => false
  | _ => true

theorem low_unspelled {sh : Shape Nat} (h : unspelled sh = true) : LowShape cfg A sh := by
  cases sh <;> trivial

/-- The shape of a type whose text may be written in lower case. -/
theorem low_shape {i : Nat} {sh : Shape Nat} (h : Covered cfg A i sh) (hl : Low cfg A i) : LowShape cfg A sh := by
  induction h with
  | primitive _ _ _ h => exact low_unspelled ((by decide +kernel : ∀ p ∈ primitiveShapes, unspelled p.2 = true) _ h)
  | crate _ _ _ h => exact low_unspelled ((by decide +kernel : ∀ p ∈ crateShapes, unspelled p.2 = true) _ h)
  | compact _ _ _ _ _ h => exact low_unspelled ((by decide +kernel : ∀ p ∈ compactShapes, unspelled p.2 = true) _ h)
  | wrapped _ _ _ _ h =>
    simp only [wrappedShapes, List.mem_cons, Prod.mk.injEq, List.not_mem_nil, or_false] at h
    rcases h with ⟨_, rfl⟩ | ⟨_, rfl⟩ | ⟨_, rfl⟩ <;> trivial
  | own _ _ h => cases h <;> trivial
  | newtype h1 h2 h3 _ _ _ ih =>
    cases hl with
    | mk _ hn => exact ih (hn _ h1 h2 h3)
  | seq _ h1 _ =>
    cases hl with
    | mk hs => exact hs _ h1
  | array _ h1 _ _ h2 _ => exact h2
  | option _ h1 h2 h3 _ h4 _ =>
    cases hl with
    | mk _ _ ho hb => exact ⟨ho _ _ _ _ _ _ h1 h2 h3 h4, hb _ _ _ _ _ _ h1 h2 h3 h4⟩
  | result _ h1 h2 h3 _ h4 _ _ =>
    cases hl with
    | mk _ _ _ _ hr hr' => exact ⟨hr _ _ _ _ _ _ _ _ h1 h2 h3 h4, hr' _ _ _ _ _ _ _ _ h1 h2 h3 h4⟩
  | _ => trivial

/-- The text of a unit type. -/
theorem text_null {i : Nat} {t : Str} (h : Covered cfg A i .null) (ht : Text cfg A i t) : t = b!"NULL" := by
  generalize e : (Shape.null : Shape Nat) = sh at h
  cases h with
  | primitive _ _ _ h => subst e; simp [primitiveShapes] at h
  | crate _ _ _ h => subst e; simp [crateShapes] at h
  | newtype _ _ _ _ h => exact absurd e.symm h.ne_null
  | own _ _ h => exact absurd e.symm (own_not_null h)
  | compact _ _ _ _ _ h => subst e; simp [compactShapes] at h
  | wrapped _ _ _ _ h => subst e; simp [wrappedShapes] at h
  | unit hl h =>
    rcases h with h | h | ⟨k, h⟩
    · have := text_other ht hl (by rw [h]; simp) (by rw [h]; simp)
      simp [h] at this
      exact this
    · have := text_other ht hl (by rw [h]; simp) (by rw [h]; simp)
      simp [h] at this
      exact this
    · have := text_other ht hl (by rw [h]; simp) (by rw [h]; simp)
      simp [h] at this
      rcases this with rfl | ⟨_, _, _, ⟨rfl, _⟩, h, _⟩
      rfl
  | _ => cases e

end

end ScaleGo
