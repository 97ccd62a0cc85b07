import Verif.Spec.Portable

/-! # The pallets of V14 and V15 metadata and how they are written

The structures follow the crate frame-metadata (`v14.rs`, `v15.rs`). -/

namespace Spec

/-- `StorageEntryType`: a hasher is given by its number. -/
inductive WKind where
  | plain (type : Nat)
  | map (hashers : List Nat) (key value : Nat)

/-- `StorageEntryMetadata`. -/
structure WEntry where
  name : List UInt8
  modifier : Nat
  kind : WKind
  default : List UInt8
  docs : List (List UInt8)

/-- `PalletConstantMetadata`. -/
structure WConst where
  name : List UInt8
  type : Nat
  value : List UInt8
  docs : List (List UInt8)

/-- `PalletMetadata`; the storage is its prefix and its entries. -/
structure WPallet where
  name : List UInt8
  storage : Option (List UInt8 × List WEntry)
  calls : Option Nat
  event : Option Nat
  constants : List WConst
  error : Option Nat
  index : Nat

/-- Encoding of the type of an entry. -/
def EncKind : WKind → List UInt8 → Prop
  | .plain t, b => ∃ c, IsCompact t c ∧ b = 0 :: c
  | .map hs k v, b => ∃ c d e, WList (fun h b => b = leBytes 1 h) hs c ∧ IsCompact k d ∧ IsCompact v e ∧ b = 1 :: (c ++ d ++ e)

/-- Encoding of a storage entry. -/
def EncEntry (x : WEntry) (b : List UInt8) : Prop :=
  ∃ b1 b3 b4 b5, WText x.name b1 ∧ EncKind x.kind b3 ∧ WText x.default b4 ∧ WList WText x.docs b5 ∧
    b = b1 ++ (leBytes 1 x.modifier ++ (b3 ++ (b4 ++ b5)))

/-- Encoding of a constant. -/
def EncConst (x : WConst) (b : List UInt8) : Prop :=
  ∃ b1 b2 b3 b4, WText x.name b1 ∧ IsCompact x.type b2 ∧ WText x.value b3 ∧ WList WText x.docs b4 ∧ b = b1 ++ (b2 ++ (b3 ++ b4))

/-- Encoding of the storage of a pallet. -/
def EncStorage (x : List UInt8 × List WEntry) (b : List UInt8) : Prop :=
  ∃ b1 b2, WText x.1 b1 ∧ WList EncEntry x.2 b2 ∧ b = b1 ++ b2

/-- Encoding of a pallet. -/
def EncPallet (x : WPallet) (b : List UInt8) : Prop :=
  ∃ b1 b2 b3 b4 b5 b6, WText x.name b1 ∧ WOpt EncStorage x.storage b2 ∧ WOpt IsCompact x.calls b3 ∧ WOpt IsCompact x.event b4 ∧
    WList EncConst x.constants b5 ∧ WOpt IsCompact x.error b6 ∧ b = b1 ++ (b2 ++ (b3 ++ (b4 ++ (b5 ++ (b6 ++ leBytes 1 x.index)))))

/-- Encoding of a pallet of V15 metadata, which ends with documentation. -/
def EncPallet15 (x : WPallet × List (List UInt8)) (b : List UInt8) : Prop :=
  ∃ c d, EncPallet x.1 c ∧ WList WText x.2 d ∧ b = c ++ d

/-- `SignedExtensionMetadata`. -/
structure WExtension where
  identifier : List UInt8
  type : Nat
  additional : Nat

/-- Encoding of an extension. -/
def EncExtension (x : WExtension) (b : List UInt8) : Prop :=
  ∃ b1 b2 b3, WText x.identifier b1 ∧ IsCompact x.type b2 ∧ IsCompact x.additional b3 ∧ b = b1 ++ b2 ++ b3

/-- `ExtrinsicMetadata` of V14: type, version and extensions. -/
def EncExtrinsic14 (t v : Nat) (l : List WExtension) (b : List UInt8) : Prop :=
  ∃ b1 b2, IsCompact t b1 ∧ WList EncExtension l b2 ∧ b = b1 ++ leBytes 1 v ++ b2

/-- `ExtrinsicMetadata` of V15: version, the types of address, call, signature and extra, and extensions. -/
def EncExtrinsic15 (v a c s e : Nat) (l : List WExtension) (b : List UInt8) : Prop :=
  ∃ b1 b2 b3 b4 b5, IsCompact a b1 ∧ IsCompact c b2 ∧ IsCompact s b3 ∧ IsCompact e b4 ∧ WList EncExtension l b5 ∧
    b = leBytes 1 v ++ b1 ++ b2 ++ b3 ++ b4 ++ b5

/-- `RuntimeApiMethodMetadata`: the inputs are names and types. -/
structure WMethod where
  name : List UInt8
  inputs : List (List UInt8 × Nat)
  output : Nat
  docs : List (List UInt8)

/-- `RuntimeApiMetadata`. -/
structure WApi where
  name : List UInt8
  methods : List WMethod
  docs : List (List UInt8)

/-- Encoding of a method. -/
def EncMethod (x : WMethod) (b : List UInt8) : Prop :=
  ∃ b1 b2 b3 b4, WText x.name b1 ∧ WList (fun i b => ∃ c d, WText i.1 c ∧ IsCompact i.2 d ∧ b = c ++ d) x.inputs b2 ∧ IsCompact x.output b3 ∧
    WList WText x.docs b4 ∧ b = b1 ++ (b2 ++ (b3 ++ b4))

/-- Encoding of an api. -/
def EncApi (x : WApi) (b : List UInt8) : Prop :=
  ∃ b1 b2 b3, WText x.name b1 ∧ WList EncMethod x.methods b2 ∧ WList WText x.docs b3 ∧ b = b1 ++ (b2 ++ b3)

/-- A custom value: name, type and bytes. -/
structure WCustom where
  name : List UInt8
  type : Nat
  value : List UInt8

/-- Encoding of a custom value. -/
def EncCustom (x : WCustom) (b : List UInt8) : Prop :=
  ∃ b1 b2 b3, WText x.name b1 ∧ IsCompact x.type b2 ∧ WText x.value b3 ∧ b = b1 ++ (b2 ++ b3)

/-- The part of V15 metadata behind the extrinsic: type of the runtime, apis, types of the outer enums, custom values. -/
def EncTail15 (t : Nat) (apis : List WApi) (outer : Nat × Nat × Nat) (custom : List WCustom) (b : List UInt8) : Prop :=
  ∃ b1 b2 b3 b4 b5 b6, IsCompact t b1 ∧ WList EncApi apis b2 ∧ IsCompact outer.1 b3 ∧ IsCompact outer.2.1 b4 ∧ IsCompact outer.2.2 b5 ∧
    WList EncCustom custom b6 ∧ b = b1 ++ (b2 ++ (b3 ++ (b4 ++ (b5 ++ b6))))

/-- The names of the hashers, by number. -/
def hasherNames : List (List UInt8) :=
  [b!"Blake2_128", b!"Blake2_256", b!"Blake2_128Concat", b!"Twox128", b!"Twox256", b!"Twox64Concat", b!"Identity"]

/-- The names of the modifiers, by number. -/
def modifierNames : List (List UInt8) := [b!"Optional", b!"Default"]

/-! What the numbers and lengths may be, see `Spec.FText`. -/

/-- Types of entries. -/
def FKind : WKind → Prop
  | .plain t => FId t
  | .map hs k v => FList (· < 7) hs ∧ FId k ∧ FId v

/-- Storage entries. -/
def FEntry (x : WEntry) : Prop := FText x.name ∧ x.modifier < 2 ∧ FKind x.kind ∧ FText x.default ∧ FList FText x.docs

/-- Constants. -/
def FConst (x : WConst) : Prop := FText x.name ∧ FId x.type ∧ FText x.value ∧ FList FText x.docs

/-- Extensions. -/
def FExtension (x : WExtension) : Prop := FText x.identifier ∧ FId x.type ∧ FId x.additional

/-- Methods. -/
def FMethod (x : WMethod) : Prop := FText x.name ∧ FList (fun i => FText i.1 ∧ FId i.2) x.inputs ∧ FId x.output ∧ FList FText x.docs

/-- Apis. -/
def FApi (x : WApi) : Prop := FText x.name ∧ FList FMethod x.methods ∧ FList FText x.docs

/-- Custom values; the limit 1000 is that of the library. -/
def FCustom (l : List WCustom) : Prop := l.length ≤ 1000 ∧ ∀ x ∈ l, FText x.name ∧ FId x.type ∧ FText x.value

/-- Pallets. -/
def FPallet (x : WPallet) : Prop :=
  FText x.name ∧ (∀ s ∈ x.storage, FText s.1 ∧ FList FEntry s.2) ∧ (∀ n ∈ x.calls, FId n) ∧ (∀ n ∈ x.event, FId n) ∧
    FList FConst x.constants ∧ (∀ n ∈ x.error, FId n) ∧ x.index < 256

end Spec
