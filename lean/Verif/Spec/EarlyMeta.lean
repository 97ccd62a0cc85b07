import Verif.Spec.OldMeta

/-! # Metadata of versions 6 to 8 and how it is written

The structures follow the crate srml-metadata (`RuntimeMetadataV6` to `RuntimeMetadataV8`).  The parts are those of version 9, see
`Spec/OldMeta.lean`. -/

namespace Spec

/-- Encoding of a module of version 6: the prefix `p` of the storage is always there and stands before the entries, and there are no
errors. -/
def EncModule6 (p : List UInt8) (x : OModule) (b : List UInt8) : Prop :=
  (∀ s ∈ x.storage, s.1 = p) ∧ x.errors = [] ∧
    ∃ b1 b2 b3 b4 b5 b6, WText x.name b1 ∧ WText p b2 ∧ WOpt (WList EncOEntry) (x.storage.map (·.2)) b3 ∧ WOpt (WList EncOCall) x.calls b4 ∧
      WOpt (WList EncOEvent) x.event b5 ∧ WList EncOConst x.constants b6 ∧ b = b1 ++ (b2 ++ (b3 ++ (b4 ++ (b5 ++ b6))))

/-- Encoding of a module of version 7: there are no errors. -/
def EncModule7 (x : OModule) (b : List UInt8) : Prop :=
  x.errors = [] ∧
    ∃ b1 b2 b3 b4 b5, WText x.name b1 ∧ WOpt EncOStorage x.storage b2 ∧ WOpt (WList EncOCall) x.calls b3 ∧
      WOpt (WList EncOEvent) x.event b4 ∧ WList EncOConst x.constants b5 ∧ b = b1 ++ (b2 ++ (b3 ++ (b4 ++ b5)))

/-- Encoding of a module in metadata of version 6, 7 or 8.  Prefixes of modules without storage are left empty. -/
def EncEarlyModule (v : Nat) (x : OModule) (b : List UInt8) : Prop :=
  if v = 6 then EncModule6 ((x.storage.map (·.1)).getD []) x b else if v = 7 then EncModule7 x b else EncOModule v x b

/-- Encoding of metadata of version 6, 7 or 8. -/
def EncEarly (v : Nat) (l : List OModule) (b : List UInt8) : Prop := WList (EncEarlyModule v) l b

end Spec
