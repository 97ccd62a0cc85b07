import Verif.Model.Registry

/-! # The built-in registry

`regBaseType` of `types/registry.go`.  The metadata decoder classes of that list are left out (not codec classes here), and
so are the definitions of `source.BaseType`, ordinary custom types that `Model/BaseTypes.lean` adds. -/

namespace ScaleGo

/-- Class registered under a lower-case name by `regBaseType` (types/registry.go:55-188); the struct types set their fields
in `Init` (types/types.go:241-312). -/
def baseReg : List (Str × Cls) :=
  [ (b!"null", .null), (b!"u8", .u8), (b!"u16", .u16), (b!"u32", .u32), (b!"u64", .u64), (b!"u256", .u256),
    (b!"float64", .float64), (b!"float32", .float32), (b!"u128", .u128), (b!"h160", .hash 20), (b!"h256", .hash 32),
    (b!"h512", .hash 64), (b!"address", .address), (b!"option", .option []), (b!"struct", .struct none),
    (b!"enum", .enum [] none), (b!"bytes", .bytes), (b!"vec", .vec []), (b!"boundedvec", .boundedVec []),
    (b!"weakboundedvec", .boundedVec []), (b!"set", .set [] 0), (b!"compact", .compact []), (b!"compactu32", .compactU32),
    (b!"bool", .bool), (b!"hexbytes", .hexBytes), (b!"moment", .moment), (b!"blocknumber", .u32),
    (b!"accountid", .accountId), (b!"boxproposal", .call), (b!"signature", .hash 64), (b!"era", .era),
    (b!"eraextrinsic", .era), (b!"balance", .balance), (b!"logdigest", .logDigest), (b!"other", .hexBytes),
    (b!"changestrieroot", .hexBytes), (b!"authoritieschange", .authoritiesChange),
    (b!"sealv0", .struct (some [(b!"slot", b!"u64"), (b!"signature", b!"Signature")])),
    (b!"consensus", .struct (some [(b!"engine", b!"u32"), (b!"data", b!"Vec<u8>")])),
    (b!"seal", .struct (some [(b!"engine", b!"u32"), (b!"data", b!"HexBytes")])),
    (b!"preruntime", .struct (some [(b!"engine", b!"u32"), (b!"data", b!"HexBytes")])),
    (b!"exposure", .struct (some [(b!"total", b!"Compact<Balance>"), (b!"own", b!"Compact<Balance>"),
      (b!"others", b!"Vec<IndividualExposure<AccountId, Balance>>")])),
    (b!"rawaurapredigest", .struct (some [(b!"slotNumber", b!"u64")])),
    (b!"rawbabepredigestprimary", .struct (some [(b!"authorityIndex", b!"u32"), (b!"slotNumber", b!"SlotNumber"),
      (b!"weight", b!"BabeBlockWeight"), (b!"vrfOutput", b!"H256"), (b!"vrfProof", b!"H256")])),
    (b!"rawbabepredigestsecondary", .struct (some [(b!"authorityIndex", b!"u32"), (b!"slotNumber", b!"SlotNumber"),
      (b!"weight", b!"BabeBlockWeight")])),
    (b!"rawbabepredigestsecondaryvrf", .struct (some [(b!"authorityIndex", b!"u32"), (b!"slotNumber", b!"SlotNumber"),
      (b!"vrfOutput", b!"VrfData"), (b!"vrfProof", b!"VrfProof")])),
    (b!"slotnumber", .u64), (b!"lockidentifier", .lockIdentifier), (b!"call", .call), (b!"ecdsasignature", .ecdsaSignature),
    (b!"ethereumaddress", .ethereumAddress), (b!"data", .data), (b!"voteoutcome", .hash 32), (b!"string", .string),
    (b!"genericaddress", .genericAddress), (b!"opaquecall", .opaqueCall), (b!"bitvec", .bitVec),
    (b!"genericlookupsource", .lookupSource), (b!"btreemap", .btreeMap []), (b!"btreeset", .vec []), (b!"box", .box []),
    (b!"result", .result []), (b!"runtimeenvironmentupdated", .null), (b!"wrapperopaque", .wrapperOpaque []),
    (b!"range", .range []), (b!"rangeinclusive", .range []), (b!"substratefixedu64", .fixedU64),
    (b!"substratefixedi128", .fixedI128), (b!"empty", .empty),
    (b!"compact<u32>", .compactU32), (b!"compact<moment>", .compactMoment), (b!"str", .string), (b!"hash", .hash 32),
    (b!"blockhash", .hash 32), (b!"i8", .intFixed 1), (b!"i16", .intFixed 2), (b!"i32", .intFixed 4),
    (b!"i64", .intFixed 8), (b!"i128", .intFixed 16), (b!"i256", .intFixed 32), (b!"h128", .fixedU8 16),
    (b!"[u8; 32]", .fixedU8 32), (b!"[u8; 64]", .fixedU8 64), (b!"[u8; 65]", .fixedU8 65), (b!"[u8; 16]", .fixedU8 16),
    (b!"[u8; 20]", .fixedU8 20), (b!"[u8; 8]", .fixedU8 8), (b!"[u8; 4]", .fixedU8 4), (b!"[u8; 2]", .fixedU8 2),
    (b!"[u8; 256]", .fixedU8 256), (b!"[u128; 3]", .fixedArray 3 b!"u128") ]

/-- Registry after `regBaseType`, without `source.BaseType` (types/registry.go:42-192). -/
def baseEnv (ext : Ext) : Env := ⟨tableGet baseReg, fun _ => [], ext⟩

/-- External functions for examples only.  No code in /repo; the functions left open are those of `Ext`, called from
types/types.go, utiles/tools.go and extrinsic.go. -/
def dummyExt : Ext where
  json := fun _ => b!"{}"
  rows := fun _ => none
  boxCall := fun _ => none
  keccak := fun _ => List.replicate 32 0
  fixPoint := fun _ i => (i, 0)
  decOfFloat := fun _ => none
  floatToInt := fun _ => 0
  floatToUint := fun _ _ => 0
  binWrite := fun _ => none

end ScaleGo
