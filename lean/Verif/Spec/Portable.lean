import Verif.Model.Basic
import Verif.Spec.Compact

/-! # The portable registry of scale-info and how it is written

The structures follow the crate scale-info (`PortableRegistry`, `PortableType`, `Type`, `TypeDef`, …).  The relations say which
bytes are the SCALE encoding of a value. -/

namespace Spec

/-- A text, written as its length and its bytes. -/
def WText (s b : List UInt8) : Prop := ∃ c, IsCompact s.length c ∧ b = c ++ s

/-- Values written one after the other. -/
def WAll {α : Type} (P : α → List UInt8 → Prop) : List α → List UInt8 → Prop
  | [], b => b = []
  | a :: l, b => ∃ c d, P a c ∧ WAll P l d ∧ b = c ++ d

/-- A list, written as its length and its elements. -/
def WList {α : Type} (P : α → List UInt8 → Prop) (l : List α) (b : List UInt8) : Prop :=
  ∃ c d, IsCompact l.length c ∧ WAll P l d ∧ b = c ++ d

/-- An optional value: 00, or 01 and the value. -/
def WOpt {α : Type} (P : α → List UInt8 → Prop) : Option α → List UInt8 → Prop
  | none, b => b = [0]
  | some a, b => ∃ c, P a c ∧ b = 1 :: c

/-- `scale_info::Field`. -/
structure PField where
  name : Option (List UInt8)
  type : Nat
  typeName : Option (List UInt8)
  docs : List (List UInt8)

/-- `scale_info::Variant`. -/
structure PVariant where
  name : List UInt8
  fields : List PField
  index : Nat
  docs : List (List UInt8)

/-- `scale_info::TypeParameter`. -/
structure PParam where
  name : List UInt8
  type : Option Nat

/-- `scale_info::TypeDef`; a primitive type is given by its number. -/
inductive PDef where
  | composite (fields : List PField)
  | variant (variants : List PVariant)
  | sequence (type : Nat)
  | array (len type : Nat)
  | tuple (types : List Nat)
  | primitive (index : Nat)
  | compact (type : Nat)
  | bitSequence (store order : Nat)

/-- `scale_info::Type`. -/
structure PType where
  path : List (List UInt8)
  params : List PParam
  typ : PDef
  docs : List (List UInt8)

/-- Encoding of a field. -/
def WField (f : PField) (b : List UInt8) : Prop :=
  ∃ b1 b2 b3 b4, WOpt WText f.name b1 ∧ IsCompact f.type b2 ∧ WOpt WText f.typeName b3 ∧ WList WText f.docs b4 ∧
    b = b1 ++ b2 ++ b3 ++ b4

/-- Encoding of a variant. -/
def WVariant (v : PVariant) (b : List UInt8) : Prop :=
  ∃ b1 b2 b4, WText v.name b1 ∧ WList WField v.fields b2 ∧ WList WText v.docs b4 ∧ b = b1 ++ b2 ++ leBytes 1 v.index ++ b4

/-- Encoding of a type parameter. -/
def WParam (p : PParam) (b : List UInt8) : Prop := ∃ b1 b2, WText p.name b1 ∧ WOpt IsCompact p.type b2 ∧ b = b1 ++ b2

/-- Encoding of a definition: its number and its content. -/
def WDef : PDef → List UInt8 → Prop
  | .composite fs, b => ∃ c, WList WField fs c ∧ b = 0 :: c
  | .variant vs, b => ∃ c, WList WVariant vs c ∧ b = 1 :: c
  | .sequence t, b => ∃ c, IsCompact t c ∧ b = 2 :: c
  | .array n t, b => ∃ c, IsCompact t c ∧ b = 3 :: (leBytes 4 n ++ c)
  | .tuple ts, b => ∃ c, WList IsCompact ts c ∧ b = 4 :: c
  | .primitive i, b => b = 5 :: leBytes 1 i
  | .compact t, b => ∃ c, IsCompact t c ∧ b = 6 :: c
  | .bitSequence s o, b => ∃ c d, IsCompact s c ∧ IsCompact o d ∧ b = 7 :: (c ++ d)

/-- Encoding of a type. -/
def WType (t : PType) (b : List UInt8) : Prop :=
  ∃ b1 b2 b3 b4, WList WText t.path b1 ∧ WList WParam t.params b2 ∧ WDef t.typ b3 ∧ WList WText t.docs b4 ∧ b = b1 ++ b2 ++ b3 ++ b4

/-- Encoding of a type with its id. -/
def WPortable (p : Nat × PType) (b : List UInt8) : Prop := ∃ c d, IsCompact p.1 c ∧ WType p.2 d ∧ b = c ++ d

/-- Encoding of a registry. -/
def WRegistry : List (Nat × PType) → List UInt8 → Prop := WList WPortable

/-! What the numbers and lengths of an encoded registry may be.  The limit 524288 for lists is that of the library. -/

/-- Lengths of texts. -/
def FText (s : List UInt8) : Prop := s.length < 2 ^ 30

/-- Lengths of lists. -/
def FList {α : Type} (P : α → Prop) (l : List α) : Prop := l.length ≤ 524288 ∧ ∀ a ∈ l, P a

/-- Ids. -/
def FId (n : Nat) : Prop := n < 2 ^ 32

/-- Fields. -/
def FField (f : PField) : Prop := (∀ s ∈ f.name, FText s) ∧ FId f.type ∧ (∀ s ∈ f.typeName, FText s) ∧ FList FText f.docs

/-- Variants. -/
def FVariant (v : PVariant) : Prop := FText v.name ∧ FList FField v.fields ∧ v.index < 256 ∧ FList FText v.docs

/-- Definitions. -/
def FDef : PDef → Prop
  | .composite fs => FList FField fs
  | .variant vs => FList FVariant vs
  | .sequence t => FId t
  | .array n t => n < 2 ^ 32 ∧ FId t
  | .tuple ts => FList FId ts
  | .primitive i => i < 15
  | .compact t => FId t
  | .bitSequence s o => FId s ∧ FId o

/-- Types. -/
def FType (t : PType) : Prop :=
  FList FText t.path ∧ FList (fun p : PParam => FText p.name ∧ ∀ n ∈ p.type, FId n) t.params ∧ FDef t.typ ∧ FList FText t.docs

/-- Registries. -/
def FRegistry : List (Nat × PType) → Prop := FList fun p => FId p.1 ∧ FType p.2

/-- Names of the primitive types by number. -/
def primitiveNames : List (List UInt8) :=
  [b!"Bool", b!"Char", b!"Str", b!"U8", b!"U16", b!"U32", b!"U64", b!"U128", b!"U256", b!"I8", b!"I16", b!"I32", b!"I64", b!"I128",
    b!"I256"]

end Spec
