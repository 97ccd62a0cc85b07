import Verif.Model.Basic
import Verif.Spec.Compact

/-! # Metadata as a node gives it

The crate frame-metadata: `RuntimeMetadataPrefixed` is the number `0x6174656d` followed by the enum `RuntimeMetadata`, whose
index is the version.  `state_getMetadata` gives this; the runtime call `Metadata_metadata_at_version` gives
`Option<OpaqueMetadata>`, where `OpaqueMetadata` is the same as a vector of bytes. -/

namespace Spec

/-- Metadata of version `v` with body `b`, as it is or as `Option<OpaqueMetadata>`. -/
def MetaFile (v : UInt8) (b data : List UInt8) : Prop :=
  data = b!"meta" ++ v :: b ∨ ∃ c, b.length + 5 < 2 ^ 32 ∧ IsCompact (b.length + 5) c ∧ data = 1 :: (c ++ (b!"meta" ++ v :: b))

/-- Data of a length that leaves room for offsets. -/
def Bounded (data : List UInt8) : Prop := data.length < 2 ^ 62

/-- Length of an optional compact number at the start of the data, as far as the data go. -/
def optionLen : List UInt8 → Nat
  | [] => 0
  | f :: b =>
    if f = 0 then 1
    else match b with
      | [] => 1
      | c :: _ => 1 + compactLen c

/-- What follows the magic bytes, at the start or behind an optional compact number. -/
def behindMagic (data : List UInt8) : Option (List UInt8) :=
  if data.take 4 = b!"meta" then some (data.drop 4)
  else if (data.drop (optionLen data)).take 4 = b!"meta" then some ((data.drop (optionLen data)).drop 4)
  else none

end Spec
