import Verif.Spec.Compact
import Verif.Model.Value

/-! # Digest items of block headers

`DigestItem` of Substrate (primitives/runtime/src/generic/digest.rs; the kinds 1 to 3 and 7 as in version 2 of Substrate). -/

namespace Spec

open ScaleGo (Val)

/-- An entry of the digest of a block header. -/
inductive DigestItem
  | other (data : List UInt8)
  | authorities (ids : List (List UInt8))
  | trieRoot (root : List UInt8)
  | sealV0 (slot : Nat) (signature : List UInt8)
  | consensus (engine : Nat) (data : List UInt8)
  | sealed (engine : Nat) (data : List UInt8)
  | preRuntime (engine : Nat) (data : List UInt8)
  | signal (conf : Option (Nat × Nat))
  | environment

/-- A byte string with its length in front. -/
def Prefixed (d b : List UInt8) : Prop := d.length < 2 ^ 30 ∧ ∃ c, IsCompact d.length c ∧ b = c ++ d

/-- The bytes of an item: its kind, and its contents. -/
def DigestItem.Bytes : DigestItem → List UInt8 → Prop
  | .other d, b => ∃ p, Prefixed d p ∧ b = 0 :: p
  | .authorities ids, b => ids.length ≤ 524288 ∧ (∀ id ∈ ids, id.length = 32) ∧ ∃ c, IsCompact ids.length c ∧ b = 1 :: (c ++ ids.flatten)
  | .trieRoot r, b => r.length = 32 ∧ b = 2 :: r
  | .sealV0 slot sig, b => slot < 2 ^ 64 ∧ sig.length = 64 ∧ b = 3 :: (leBytes 8 slot ++ sig)
  | .consensus e d, b => e < 2 ^ 32 ∧ ∃ p, Prefixed d p ∧ b = 4 :: (leBytes 4 e ++ p)
  | .sealed e d, b => e < 2 ^ 32 ∧ ∃ p, Prefixed d p ∧ b = 5 :: (leBytes 4 e ++ p)
  | .preRuntime e d, b => e < 2 ^ 32 ∧ ∃ p, Prefixed d p ∧ b = 6 :: (leBytes 4 e ++ p)
  | .signal none, b => b = [7, 0, 0]
  | .signal (some (i, l)), b => i < 2 ^ 32 ∧ l < 2 ^ 32 ∧ b = 7 :: 0 :: 1 :: (leBytes 4 i ++ leBytes 4 l)
  | .environment, b => b = [8]

/-- The name of the kind of an item. -/
def DigestItem.kind : DigestItem → List UInt8
  | .other _ => b!"Other"
  | .authorities _ => b!"AuthoritiesChange"
  | .trieRoot _ => b!"ChangesTrieRoot"
  | .sealV0 .. => b!"SealV0"
  | .consensus .. => b!"Consensus"
  | .sealed .. => b!"Seal"
  | .preRuntime .. => b!"PreRuntime"
  | .signal _ => b!"ChangesTrieSignal"
  | .environment => b!"RuntimeEnvironmentUpdated"

/-- Bytes shown as hexadecimal digits. -/
def hexShown (d : List UInt8) : Val := .str (b!"0x" ++ hexText d)

/-- Go's form of a list: nil when empty. -/
def listShown : List Val → Val
  | [] => .nilSlice
  | l => .slice l

/-- The contents of an item, with byte strings shown by `text` where they may be text: `other` for items of kind `Other`. -/
def DigestItem.contents (other text : List UInt8 → Val) : DigestItem → Val
  | .other d => other d
  | .authorities ids => listShown (ids.map hexShown)
  | .trieRoot r => hexShown r
  | .sealV0 slot sig => .map [(b!"slot", .uint 8 slot), (b!"signature", hexShown sig)]
  | .consensus e d => .map [(b!"engine", .uint 4 e), (b!"data", text d)]
  | .sealed e d => .map [(b!"engine", .uint 4 e), (b!"data", hexShown d)]
  | .preRuntime e d => .map [(b!"engine", .uint 4 e), (b!"data", hexShown d)]
  | .signal c => .map [(b!"NewConfiguration", match c with
      | none => .nil
      | some (i, l) => .map [(b!"digestInterval", .uint 4 i), (b!"digestLevels", .uint 4 l)])]
  | .environment => .nil

end Spec
