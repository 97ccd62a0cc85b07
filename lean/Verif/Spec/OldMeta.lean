import Verif.Spec.Pallets

/-! # Metadata of versions 9 to 13 and how it is written

The structures follow the crate frame-metadata (`RuntimeMetadataV9` to `RuntimeMetadataV13`).  Types are texts. -/

namespace Spec

/-- `StorageEntryType`: hashers are given by their numbers. -/
inductive OKind where
  | plain (type : List UInt8)
  | map (hasher : Nat) (key value : List UInt8) (linked : Bool)
  | double (hasher : Nat) (key key2 value : List UInt8) (hasher2 : Nat)
  | nmap (keys : List (List UInt8)) (hashers : List Nat) (value : List UInt8)

/-- `StorageEntryMetadata`. -/
structure OEntry where
  name : List UInt8
  modifier : Nat
  kind : OKind
  default : List UInt8
  docs : List (List UInt8)

/-- `ModuleConstantMetadata`. -/
structure OConst where
  name : List UInt8
  type : List UInt8
  value : List UInt8
  docs : List (List UInt8)

/-- `FunctionMetadata`: the arguments are names and types. -/
structure OCall where
  name : List UInt8
  args : List (List UInt8 × List UInt8)
  docs : List (List UInt8)

/-- `EventMetadata`. -/
structure OEvent where
  name : List UInt8
  args : List (List UInt8)
  docs : List (List UInt8)

/-- `ModuleMetadata`; the storage is its prefix and its entries, errors are names with documentation.  The index is there from
version 12 on. -/
structure OModule where
  name : List UInt8
  storage : Option (List UInt8 × List OEntry)
  calls : Option (List OCall)
  event : Option (List OEvent)
  constants : List OConst
  errors : List (List UInt8 × List (List UInt8))
  index : Nat

/-- The byte of a truth value. -/
def flagByte (b : Bool) : UInt8 := if b then 1 else 0

/-- Encoding of the type of an entry. -/
def EncOKind : OKind → List UInt8 → Prop
  | .plain t, b => ∃ c, WText t c ∧ b = 0 :: c
  | .map h k v l, b => ∃ c d, WText k c ∧ WText v d ∧ b = 1 :: (leBytes 1 h ++ (c ++ (d ++ [flagByte l])))
  | .double h k k2 v h2, b => ∃ c d e, WText k c ∧ WText k2 d ∧ WText v e ∧ b = 2 :: (leBytes 1 h ++ (c ++ (d ++ (e ++ leBytes 1 h2))))
  | .nmap ks hs v, b => ∃ c d e, WList WText ks c ∧ WList (fun h b => b = leBytes 1 h) hs d ∧ WText v e ∧ b = 3 :: (c ++ (d ++ e))

/-- Encoding of a storage entry. -/
def EncOEntry (x : OEntry) (b : List UInt8) : Prop :=
  ∃ b1 b3 b4 b5, WText x.name b1 ∧ EncOKind x.kind b3 ∧ WText x.default b4 ∧ WList WText x.docs b5 ∧
    b = b1 ++ (leBytes 1 x.modifier ++ (b3 ++ (b4 ++ b5)))

/-- Encoding of a constant. -/
def EncOConst (x : OConst) (b : List UInt8) : Prop :=
  ∃ b1 b2 b3 b4, WText x.name b1 ∧ WText x.type b2 ∧ WText x.value b3 ∧ WList WText x.docs b4 ∧ b = b1 ++ (b2 ++ (b3 ++ b4))

/-- Encoding of an argument. -/
def EncOArg (x : List UInt8 × List UInt8) (b : List UInt8) : Prop := ∃ c d, WText x.1 c ∧ WText x.2 d ∧ b = c ++ d

/-- Encoding of a call. -/
def EncOCall (x : OCall) (b : List UInt8) : Prop :=
  ∃ b1 b2 b3, WText x.name b1 ∧ WList EncOArg x.args b2 ∧ WList WText x.docs b3 ∧ b = b1 ++ (b2 ++ b3)

/-- Encoding of an event. -/
def EncOEvent (x : OEvent) (b : List UInt8) : Prop :=
  ∃ b1 b2 b3, WText x.name b1 ∧ WList WText x.args b2 ∧ WList WText x.docs b3 ∧ b = b1 ++ (b2 ++ b3)

/-- Encoding of an error. -/
def EncOError (x : List UInt8 × List (List UInt8)) (b : List UInt8) : Prop := ∃ c d, WText x.1 c ∧ WList WText x.2 d ∧ b = c ++ d

/-- Encoding of the storage of a module. -/
def EncOStorage (x : List UInt8 × List OEntry) (b : List UInt8) : Prop :=
  ∃ b1 b2, WText x.1 b1 ∧ WList EncOEntry x.2 b2 ∧ b = b1 ++ b2

/-- Encoding of a module in metadata of version `v`. -/
def EncOModule (v : Nat) (x : OModule) (b : List UInt8) : Prop :=
  ∃ b1 b2 b3 b4 b5 b6, WText x.name b1 ∧ WOpt EncOStorage x.storage b2 ∧ WOpt (WList EncOCall) x.calls b3 ∧
    WOpt (WList EncOEvent) x.event b4 ∧ WList EncOConst x.constants b5 ∧ WList EncOError x.errors b6 ∧
    b = b1 ++ (b2 ++ (b3 ++ (b4 ++ (b5 ++ (b6 ++ if v < 12 then [] else leBytes 1 x.index)))))

/-- Encoding of metadata of version `v`: the modules and, from version 11 on, version and extensions of extrinsics. -/
def EncOld (v : Nat) (l : List OModule) (xv : Nat) (exts : List (List UInt8)) (b : List UInt8) : Prop :=
  ∃ b1 b2, WList (EncOModule v) l b1 ∧ WList WText exts b2 ∧ b = b1 ++ if v < 11 then [] else leBytes 1 xv ++ b2

/-- The names of the hashers in metadata of version `v`, by number: `Blake2_128Concat` came with version 10, `Identity` with 11. -/
def hasherNamesOf (v : Nat) : List (List UInt8) :=
  if v < 10 then [b!"Blake2_128", b!"Blake2_256", b!"Twox128", b!"Twox256", b!"Twox64Concat"]
  else if v < 11 then [b!"Blake2_128", b!"Blake2_256", b!"Blake2_128Concat", b!"Twox128", b!"Twox256", b!"Twox64Concat"]
  else [b!"Blake2_128", b!"Blake2_256", b!"Blake2_128Concat", b!"Twox128", b!"Twox256", b!"Twox64Concat", b!"Identity"]

/-! What the numbers and lengths may be, see `Spec.FText`. -/

/-- Types of entries; the last kind came with version 13. -/
def FOKind (v : Nat) : OKind → Prop
  | .plain t => FText t
  | .map h k x _ => h < (hasherNamesOf v).length ∧ FText k ∧ FText x
  | .double h k k2 x h2 => h < (hasherNamesOf v).length ∧ FText k ∧ FText k2 ∧ FText x ∧ h2 < (hasherNamesOf v).length
  | .nmap ks hs x => v = 13 ∧ FList FText ks ∧ FList (· < (hasherNamesOf v).length) hs ∧ FText x

/-- Storage entries. -/
def FOEntry (v : Nat) (x : OEntry) : Prop :=
  FText x.name ∧ x.modifier < 2 ∧ FOKind v x.kind ∧ FText x.default ∧ FList FText x.docs

/-- Constants. -/
def FOConst (x : OConst) : Prop := FText x.name ∧ FText x.type ∧ FText x.value ∧ FList FText x.docs

/-- Calls. -/
def FOCall (x : OCall) : Prop := FText x.name ∧ FList (fun a => FText a.1 ∧ FText a.2) x.args ∧ FList FText x.docs

/-- Events. -/
def FOEvent (x : OEvent) : Prop := FText x.name ∧ FList FText x.args ∧ FList FText x.docs

/-- Errors. -/
def FOError (x : List UInt8 × List (List UInt8)) : Prop := FText x.1 ∧ FList FText x.2

/-- Modules. -/
def FOModule (v : Nat) (x : OModule) : Prop :=
  FText x.name ∧ (∀ s ∈ x.storage, FText s.1 ∧ FList (FOEntry v) s.2) ∧ (∀ l ∈ x.calls, FList FOCall l) ∧
    (∀ l ∈ x.event, FList FOEvent l) ∧ FList FOConst x.constants ∧ FList FOError x.errors ∧ x.index < 256

/-- Metadata. -/
def FOld (v : Nat) (l : List OModule) (xv : Nat) (exts : List (List UInt8)) : Prop :=
  FList (FOModule v) l ∧ xv < 256 ∧ FList FText exts

end Spec
