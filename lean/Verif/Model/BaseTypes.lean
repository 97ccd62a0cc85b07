import Verif.Model.Register
import Verif.Model.Base

/-!
# The built-in type definitions

Generated from `source/base.go` (the string `BaseType`, lines 6-7) by a script: one entry per key, in the order of the text.
`LoadTypeRegistry` reads them into a Go map, so the order of the list means nothing (see C75).
-/

set_option maxRecDepth 4000

namespace ScaleGo.Builtin

/-- A definition that is a plain string (source/source.go:27-28). -/
def al (t : Str) : TypeDef := { kind := b!"string", typeString := t }
/-- A definition with `"type"` struct (source/source.go:29-33). -/
def st (rows : List (List Str)) : TypeDef := { kind := b!"struct", mapping := rows }
/-- A definition with `"type"` enum (source/source.go:29-33). -/
def en (rows : List (List Str)) (values : List Str) : TypeDef := { kind := b!"enum", mapping := rows, values := values }
/-- A definition with `"type"` set (source/source.go:29-33). -/
def se (values : List Str) (bits : Int) : TypeDef := { kind := b!"set", values := values, bits := bits }

/-- Entries of `BaseType` (source/base.go:6), part 1. -/
def part0 : List (Str × TypeDef) :=
  [ (b!"&[u8]", al b!"Bytes"),
    (b!"(AccountId, Balance)", st [[b!"account", b!"AccountId"], [b!"balance", b!"Balance"]]),
    (b!"(BalanceOf<T, I>, BidKind<AccountId, BalanceOf<T, I>>)", st [[b!"balance", b!"Balance"], [b!"bidkind", b!"BidKind"]]),
    (b!"(BoundedVec<ProxyDefinition<AccountId,ProxyType,BlockNumber>,MaxProxies>,BalanceOf)", al b!"(Vec<ProxyDefinition>,BalanceOf)"),
    (b!"<AuthorityId as RuntimeAppPublic>::Signature", al b!"Signature"),
    (b!"<T as Config>::Call", al b!"Call"),
    (b!"AbridgedCandidateReceipt", st [[b!"parachainIndex", b!"ParaId"], [b!"relayParent", b!"Hash"], [b!"headData", b!"HeadData"], [b!"collator", b!"CollatorId"], [b!"signature", b!"CollatorSignature"], [b!"povBlockHash", b!"Hash"], [b!"commitments", b!"CandidateCommitments"]]),
    (b!"AbridgedHostConfiguration", st [[b!"maxCodeSize", b!"u32"], [b!"maxHeadDataSize", b!"u32"], [b!"maxUpwardQueueCount", b!"u32"], [b!"maxUpwardQueueSize", b!"u32"], [b!"maxUpwardMessageSize", b!"u32"], [b!"maxUpwardMessageNumPerCandidate", b!"u32"], [b!"hrmpMaxMessageNumPerCandidate", b!"u32"], [b!"validationUpgradeFrequency", b!"BlockNumber"], [b!"validationUpgradeDelay", b!"BlockNumber"]]),
    (b!"AbridgedHrmpChannel", st [[b!"maxCapacity", b!"u32"], [b!"maxTotalSize", b!"u32"], [b!"maxMessageSize", b!"u32"], [b!"msgCount", b!"u32"], [b!"totalSize", b!"u32"], [b!"mqcHead", b!"Option<Hash>"]]),
    (b!"AbstractFungible", st [[b!"id", b!"Vec<u8>"], [b!"instance", b!"Compact<u128>"]]),
    (b!"AbstractNonFungible", st [[b!"class", b!"Vec<u8>"], [b!"instance", b!"AssetInstance"]]),
    (b!"AccountData", st [[b!"free", b!"Balance"], [b!"reserved", b!"Balance"], [b!"miscFrozen", b!"Balance"], [b!"feeFrozen", b!"Balance"]]),
    (b!"AccountId32", al b!"[u8; 32]"),
    (b!"AccountIndex", al b!"U32"),
    (b!"AccountInfo", st [[b!"nonce", b!"Index"], [b!"refcount", b!"RefCount"], [b!"data", b!"AccountData"]]),
    (b!"AccountInfoWithProviders", st [[b!"nonce", b!"Index"], [b!"consumers", b!"RefCount"], [b!"providers", b!"RefCount"], [b!"data", b!"AccountData"]]),
    (b!"AccountInfoWithTripleRefCount", st [[b!"nonce", b!"Index"], [b!"consumers", b!"RefCount"], [b!"providers", b!"RefCount"], [b!"sufficients", b!"RefCount"], [b!"data", b!"AccountData"]]),
    (b!"AccountStatus", st [[b!"validity", b!"AccountValidity"], [b!"freeBalance", b!"Balance"], [b!"lockedBalance", b!"Balance"], [b!"signature", b!"Vec<u8>"], [b!"vat", b!"Permill"]]),
    (b!"AccountValidity", en [] [b!"Invalid", b!"Initiated", b!"Pending", b!"ValidLow", b!"ValidHigh", b!"Completed"]),
    (b!"AccountVote", en [[b!"Standard", b!"AccountVoteStandard"], [b!"Split", b!"AccountVoteSplit"]] []),
    (b!"AccountVoteSplit", st [[b!"aye", b!"Balance"], [b!"nay", b!"Balance"]]),
    (b!"AccountVoteStandard", st [[b!"vote", b!"Vote"], [b!"balance", b!"Balance"]]),
    (b!"ActiveEraInfo", st [[b!"index", b!"EraIndex"], [b!"start", b!"MomentOf"]]),
    (b!"ActiveGilt", st [[b!"proportion", b!"Perquintill"], [b!"amount", b!"Balance"], [b!"who", b!"AccountId"], [b!"expiry", b!"BlockNumber"]]),
    (b!"ActiveGiltsTotal", st [[b!"frozen", b!"Balance"], [b!"proportion", b!"Perquintill"], [b!"index", b!"ActiveIndex"], [b!"target", b!"Perquintill"]]),
    (b!"ActiveIndex", al b!"u32"),
    (b!"ActiveRecovery", st [[b!"created", b!"BlockNumber"], [b!"deposit", b!"Balance"], [b!"friends", b!"Vec<AccountId>"]]),
    (b!"AliveContractInfo", st [[b!"trieId", b!"TrieId"], [b!"storageSize", b!"u32"], [b!"codeHash", b!"CodeHash"], [b!"rentAllowance", b!"Balance"], [b!"rentPaid", b!"Balance"], [b!"deductBlock", b!"BlockNumber"], [b!"lastWrite", b!"Option<BlockNumber>"]]),
    (b!"AllowedSlots", en [] [b!"PrimarySlots", b!"PrimaryAndSecondaryPlainSlots", b!"PrimaryAndSecondaryVRFSlots"]),
    (b!"Announcement", al b!"ProxyAnnouncement"),
    (b!"AnySignature", al b!"H512"),
    (b!"ApiId", al b!"[u8; 8]"),
    (b!"Approvals", al b!"[bool; 4]"),
    (b!"ArithmeticError", en [] [b!"Underflow", b!"Overflow", b!"DivisionByZero"]),
    (b!"AssetApproval", st [[b!"amount", b!"TAssetBalance"], [b!"deposit", b!"TAssetDepositBalance"]]),
    (b!"AssetApprovalKey", st [[b!"owner", b!"AccountId"], [b!"delegate", b!"AccountId"]]),
    (b!"AssetBalance", st [[b!"balance", b!"TAssetBalance"], [b!"isFrozen", b!"bool"], [b!"isSufficient", b!"bool"]]),
    (b!"AssetDestroyWitness", st [[b!"accounts", b!"Compact<u32>"], [b!"sufficients", b!"Compact<u32>"], [b!"approvals", b!"Compact<u32>"]]),
    (b!"AssetDetails", st [[b!"owner", b!"AccountId"], [b!"issuer", b!"AccountId"], [b!"admin", b!"AccountId"], [b!"freezer", b!"AccountId"], [b!"supply", b!"TAssetBalance"], [b!"deposit", b!"TAssetDepositBalance"], [b!"minBalance", b!"TAssetBalance"], [b!"isSufficient", b!"bool"], [b!"accounts", b!"u32"], [b!"sufficients", b!"u32"], [b!"approvals", b!"u32"], [b!"isFrozen", b!"bool"]]),
    (b!"AssetId", al b!"u32"),
    (b!"AssetInstance", al b!"AssetInstanceV1"),
    (b!"AssetInstanceV0", en [[b!"Undefined", b!"Null"], [b!"Index8", b!"u8"], [b!"Index16", b!"Compact<u16>"], [b!"Index32", b!"Compact<u32>"], [b!"Index64", b!"Compact<u64>"], [b!"Index128", b!"Compact<u128>"], [b!"Array4", b!"[u8; 4]"], [b!"Array8", b!"[u8; 8]"], [b!"Array16", b!"[u8; 16]"], [b!"Array32", b!"[u8; 32]"], [b!"Blob", b!"Vec<u8>"]] []),
    (b!"AssetInstanceV1", en [[b!"Undefined", b!"Null"], [b!"Index", b!"Compact<u128>"], [b!"Array4", b!"[u8; 4]"], [b!"Array8", b!"[u8; 8]"], [b!"Array16", b!"[u8; 16]"], [b!"Array32", b!"[u8; 32]"], [b!"Blob", b!"Bytes"]] []),
    (b!"AssetInstanceV2", al b!"AssetInstanceV1"),
    (b!"AssetInstanceV3", en [[b!"Undefined", b!"NULL"], [b!"Index", b!"Compact<u128>"], [b!"Array4", b!"[u8; 4]"], [b!"Array8", b!"[u8; 8]"], [b!"Array16", b!"[u8; 16]"], [b!"Array32", b!"[u8; 32]"]] []),
    (b!"AssetMetadata", st [[b!"deposit", b!"TAssetDepositBalance"], [b!"name", b!"Vec<u8>"], [b!"symbol", b!"Vec<u8>"], [b!"decimals", b!"u8"], [b!"isFrozen", b!"bool"]]),
    (b!"AssetOptions", st [[b!"initalIssuance", b!"Compact<Balance>"], [b!"permissions", b!"PermissionLatest"]]),
    (b!"AssignmentId", al b!"AccountId"),
    (b!"AssignmentKind", en [[b!"Parachain", b!"Null"], [b!"Parathread", b!"(CollatorId, u32)"]] []),
    (b!"AttestedCandidate", st [[b!"candidate", b!"AbridgedCandidateReceipt"], [b!"validityVotes", b!"Vec<ValidityAttestation>"], [b!"validatorIndices", b!"BitVec"]]) ]

/-- Entries of `BaseType` (source/base.go:6), part 2. -/
def part1 : List (Str × TypeDef) :=
  [ (b!"AuctionIndex", al b!"u32"),
    (b!"AuthIndex", al b!"U32"),
    (b!"AuthorityDiscoveryId", al b!"AccountId"),
    (b!"AuthorityId", al b!"H256"),
    (b!"AuthorityIndex", al b!"u64"),
    (b!"AuthorityList", al b!"Vec<NextAuthority>"),
    (b!"AuthoritySet", st [[b!"currentAuthorities", b!"AuthorityList"], [b!"setId", b!"u64"], [b!"pendingStandardChanges", b!"ForkTreePendingChange"], [b!"pendingForcedChanges", b!"Vec<PendingChange>"], [b!"authoritySetChanges", b!"AuthoritySetChanges"]]),
    (b!"AuthoritySetChange", al b!"(U64, BlockNumber)"),
    (b!"AuthoritySetChanges", al b!"Vec<AuthoritySetChange>"),
    (b!"AuthoritySignature", al b!"Signature"),
    (b!"AuthorityWeight", al b!"u64"),
    (b!"AvailabilityBitfield", al b!"BitVec"),
    (b!"AvailabilityBitfieldRecord", st [[b!"bitfield", b!"AvailabilityBitfield"], [b!"submittedTt", b!"BlockNumber"]]),
    (b!"BabeAuthorityWeight", al b!"u64"),
    (b!"BabeBlockWeight", al b!"u32"),
    (b!"BabeEpochConfiguration", st [[b!"c", b!"(u64,u64)"], [b!"allowedSlots", b!"AllowedSlots"]]),
    (b!"BabeEquivocationProof", st [[b!"offender", b!"AuthorityId"], [b!"slotNumber", b!"SlotNumber"], [b!"firstHeader", b!"Header"], [b!"secondHeader", b!"Header"]]),
    (b!"BabeWeight", al b!"u64"),
    (b!"BackedCandidate", st [[b!"candidate", b!"CommittedCandidateReceipt"], [b!"validityVotes", b!"Vec<ValidityAttestation>"], [b!"validatorIndices", b!"BitVec"]]),
    (b!"BalanceLock", st [[b!"id", b!"LockIdentifier"], [b!"amount", b!"Balance"], [b!"until", b!"u32"], [b!"reasons", b!"WithdrawReasons"]]),
    (b!"BalanceLock<Balance, BlockNumber>", st [[b!"id", b!"LockIdentifier"], [b!"amount", b!"Balance"], [b!"reasons", b!"Reasons"]]),
    (b!"BalanceLock<Balance>", st [[b!"id", b!"LockIdentifier"], [b!"amount", b!"Balance"], [b!"reasons", b!"Reasons"]]),
    (b!"BalanceOf", al b!"Balance"),
    (b!"BalanceStatus", en [] [b!"Free", b!"Reserved"]),
    (b!"BalanceUpload", st [[b!"col1", b!"AccountId"], [b!"col2", b!"u64"]]),
    (b!"Balances", st [[b!"queryId", b!"Compact<u64>"], [b!"assets", b!"Vec<MultiAsset>"]]),
    (b!"BeefyCommitment", st [[b!"payload", b!"BeefyPayload"], [b!"blockNumber", b!"BlockNumber"], [b!"validatorSetId", b!"ValidatorSetId"]]),
    (b!"BeefyId", al b!"[u8; 33]"),
    (b!"BeefyKey", al b!"[u8; 33]"),
    (b!"BeefyNextAuthoritySet", st [[b!"id", b!"u64"], [b!"len", b!"u32"], [b!"root", b!"H256"]]),
    (b!"BeefyPayload", al b!"MmrRootHash"),
    (b!"BeefySignedCommitment", st [[b!"commitment", b!"BeefyCommitment"], [b!"signatures", b!"Vec<Option<Signature>>"]]),
    (b!"Bid", st [[b!"who", b!"AccountId"], [b!"kind", b!"BidKind"], [b!"value", b!"Balance"]]),
    (b!"BidKind", en [[b!"Deposit", b!"Balance"], [b!"Vouch", b!"BidKindVouch"]] []),
    (b!"BidKindVouch", st [[b!"account", b!"AccountId"], [b!"amount", b!"Balance"]]),
    (b!"Bidder", en [[b!"New", b!"NewBidder"], [b!"Existing", b!"ParaId"]] []),
    (b!"BlockAttestations", st [[b!"receipt", b!"CandidateReceipt"], [b!"valid", b!"Vec<AccountId>"], [b!"invalid", b!"Vec<AccountId>"]]),
    (b!"BlockLength", st [[b!"max", b!"PerDispatchClassU32"]]),
    (b!"BlockNumberFor", al b!"BlockNumber"),
    (b!"BlockNumberOf", al b!"BlockNumber"),
    (b!"BlockTrace", st [[b!"blockHash", b!"Text"], [b!"parentHash", b!"Text"], [b!"tracingTargets", b!"Text"], [b!"storageKeys", b!"Text"], [b!"spans", b!"Vec<BlockTraceSpan>"], [b!"events", b!"Vec<BlockTraceEvent>"]]),
    (b!"BlockTraceEvent", st [[b!"target", b!"Text"], [b!"data", b!"BlockTraceEventData"], [b!"parentId", b!"Option<u64>"]]),
    (b!"BlockTraceEventData", st [[b!"stringValues", b!"HashMap<Text, Text>"]]),
    (b!"BlockTraceSpan", st [[b!"id", b!"u64"], [b!"parentId", b!"Option<u64>"], [b!"name", b!"Text"], [b!"target", b!"Text"], [b!"wasm", b!"bool"]]),
    (b!"BlockTransactions", en [[b!"Hashes", b!"Vec<H256>"], [b!"Full", b!"Vec<ethereum::Transaction>"]] []),
    (b!"BlockV0", st [[b!"header", b!"EthHeader"], [b!"transactions", b!"Vec<TransactionV0>"], [b!"ommers", b!"Vec<EthHeader>"]]),
    (b!"BlockV1", st [[b!"header", b!"EthHeader"], [b!"transactions", b!"Vec<TransactionV1>"], [b!"ommers", b!"Vec<EthHeader>"]]),
    (b!"BlockV2", st [[b!"header", b!"EthHeader"], [b!"transactions", b!"Vec<TransactionV2>"], [b!"ommers", b!"Vec<EthHeader>"]]),
    (b!"BlockWeights", st [[b!"baseBlock", b!"Weight"], [b!"maxBlock", b!"Weight"], [b!"perClass", b!"PerDispatchClass"]]),
    (b!"BodyId", en [[b!"Unit", b!"Null"], [b!"Named", b!"Vec<u8>"], [b!"Index", b!"Compact<u32>"], [b!"Executive", b!"Null"], [b!"Technical", b!"Null"], [b!"Legislative", b!"Null"], [b!"Judicial", b!"Null"], [b!"Defense", b!"Null"], [b!"Administration", b!"Null"], [b!"Treasury", b!"Null"]] []) ]

/-- Entries of `BaseType` (source/base.go:6), part 3. -/
def part2 : List (Str × TypeDef) :=
  [ (b!"BodyPart", en [[b!"Voice", b!"Null"], [b!"Members", b!"Compact<u32>"], [b!"Fraction", b!"[[\"nom\", \"Compact<u32>\"], [\"denom\", \"Compact<u32>\"]]"], [b!"AtLeastProportion", b!"[[\"nom\", \"Compact<u32>\"], [\"denom\", \"Compact<u32>\"]]"], [b!"MoreThanProportion", b!"[[\"nom\", \"Compact<u32>\"], [\"denom\", \"Compact<u32>\"]]"]] []),
    (b!"Bounty", st [[b!"proposer", b!"AccountId"], [b!"value", b!"Balance"], [b!"fee", b!"Balance"], [b!"curator_deposit", b!"Balance"], [b!"bond", b!"Balance"], [b!"status", b!"BountyStatus"]]),
    (b!"BountyIndex", al b!"u32"),
    (b!"BountyStatus", en [[b!"Proposed", b!"Null"], [b!"Approved", b!"Null"], [b!"Funded", b!"Null"], [b!"CuratorProposed", b!"BountyStatusCuratorProposed"], [b!"Active", b!"BountyStatusActive"], [b!"PendingPayout", b!"BountyStatusPendingPayout"]] []),
    (b!"BountyStatusActive", st [[b!"curator", b!"AccountId"], [b!"update_due", b!"BlockNumber"]]),
    (b!"BountyStatusCuratorProposed", st [[b!"curator", b!"AccountId"]]),
    (b!"BountyStatusPendingPayout", st [[b!"curator", b!"AccountId"], [b!"beneficiary", b!"AccountId"], [b!"unlockAt", b!"BlockNumber"]]),
    (b!"Box<<T as Config<I>>::Proposal>", al b!"Proposal"),
    (b!"Box<<T as Config>::Call>", al b!"Call"),
    (b!"Box<<T as Trait<I>>::Proposal>", al b!"BoxProposal"),
    (b!"Box<Call>", al b!"BoxProposal"),
    (b!"Box<Proposal>", al b!"BoxProposal"),
    (b!"BridgeMessageId", al b!"(LaneId, MessageNonce)"),
    (b!"BridgedBlockHash", al b!"H256"),
    (b!"BridgedBlockNumber", al b!"BlockNumber"),
    (b!"BridgedHeader", al b!"Header"),
    (b!"BufferedSessionChange", st [[b!"applyAt", b!"BlockNumber"], [b!"validators", b!"Vec<ValidatorId>"], [b!"queued", b!"Vec<ValidatorId>"], [b!"sessionIndex", b!"SessionIndex"]]),
    (b!"ByForkV3", st [[b!"block_number", b!"u64"], [b!"block_hash", b!"[u8; 32]"]]),
    (b!"CallHash", al b!"H256"),
    (b!"CallHashOf", al b!"H256"),
    (b!"CallIndex", al b!"(u8, u8)"),
    (b!"CallOrigin", en [[b!"SourceRoot", b!"Null"], [b!"TargetAccount", b!"(AccountId, MultiSigner, MultiSignature)"], [b!"SourceAccount", b!"AccountId"]] []),
    (b!"CandidateCommitments", st [[b!"upwardMessages", b!"Vec<UpwardMessage>"], [b!"horizontalMessages", b!"Vec<OutboundHrmpMessage>"], [b!"newValidationCode", b!"Option<ValidationCode>"], [b!"headData", b!"HeadData"], [b!"processedDownwardMessages", b!"u32"], [b!"hrmpWatermark", b!"BlockNumber"]]),
    (b!"CandidateDescriptor", st [[b!"paraId", b!"ParaId"], [b!"relayParent", b!"RelayChainHash"], [b!"collatorId", b!"CollatorId"], [b!"persistedValidationDataHash", b!"Hash"], [b!"povHash", b!"Hash"], [b!"erasureRoot", b!"Hash"], [b!"signature", b!"CollatorSignature"], [b!"paraHead", b!"Hash"], [b!"validationCodeHash", b!"Hash"]]),
    (b!"CandidateHash", al b!"Hash"),
    (b!"CandidatePendingAvailability", st [[b!"core", b!"CoreIndex"], [b!"hash", b!"CandidateHash"], [b!"descriptor", b!"CandidateDescriptor"], [b!"availabilityoVotes", b!"BitVec"], [b!"backers", b!"BitVec"], [b!"relayParentNumber", b!"BlockNumber"], [b!"backedInNumber", b!"BlockNumber"], [b!"backingGroup", b!"GroupIndex"]]),
    (b!"CandidateReceipt", st [[b!"descriptor", b!"CandidateDescriptor"], [b!"commitmentsHash", b!"Hash"]]),
    (b!"ChainId", al b!"[u8; 4]"),
    (b!"ChangesTrieConfiguration", st [[b!"digestInterval", b!"u32"], [b!"digestLevels", b!"u32"]]),
    (b!"ChangesTrieSignal", en [[b!"NewConfiguration", b!"Option<ChangesTrieConfiguration>"]] []),
    (b!"ClassDetails", st [[b!"owner", b!"AccountId"], [b!"issuer", b!"AccountId"], [b!"admin", b!"AccountId"], [b!"freezer", b!"AccountId"], [b!"totalDeposit", b!"DepositBalance"], [b!"freeHolding", b!"bool"], [b!"instances", b!"u32"], [b!"instanceMetadatas", b!"u32"], [b!"attributes", b!"u32"], [b!"isFrozen", b!"bool"]]),
    (b!"ClassId", al b!"u32"),
    (b!"ClassMetadata", st [[b!"deposit", b!"DepositBalance"], [b!"data", b!"Vec<u8>"], [b!"isFrozen", b!"bool"]]),
    (b!"CodeHash", al b!"Hash"),
    (b!"CollatorId", al b!"H256"),
    (b!"CollatorSignature", al b!"Signature"),
    (b!"CollectiveOrigin", en [[b!"Members", b!"(MemberCount, MemberCount)"], [b!"Member", b!"AccountId"]] []),
    (b!"CommittedCandidateReceipt", st [[b!"descriptor", b!"CandidateDescriptor"], [b!"commitments", b!"CandidateCommitments"]]),
    (b!"CompactAssignments", st [[b!"votes1", b!"Vec<(NominatorIndex, ValidatorIndex)>"], [b!"votes2", b!"Vec<(NominatorIndex, [CompactScore; 1], ValidatorIndex)>"], [b!"votes3", b!"Vec<(NominatorIndex, [CompactScore; 2], ValidatorIndex)>"], [b!"votes4", b!"Vec<(NominatorIndex, [CompactScore; 3], ValidatorIndex)>"], [b!"votes5", b!"Vec<(NominatorIndex, [CompactScore; 4], ValidatorIndex)>"], [b!"votes6", b!"Vec<(NominatorIndex, [CompactScore; 5], ValidatorIndex)>"], [b!"votes7", b!"Vec<(NominatorIndex, [CompactScore; 6], ValidatorIndex)>"], [b!"votes8", b!"Vec<(NominatorIndex, [CompactScore; 7], ValidatorIndex)>"], [b!"votes9", b!"Vec<(NominatorIndex, [CompactScore; 8], ValidatorIndex)>"], [b!"votes10", b!"Vec<(NominatorIndex, [CompactScore; 9], ValidatorIndex)>"], [b!"votes11", b!"Vec<(NominatorIndex, [CompactScore; 10], ValidatorIndex)>"], [b!"votes12", b!"Vec<(NominatorIndex, [CompactScore; 11], ValidatorIndex)>"], [b!"votes13", b!"Vec<(NominatorIndex, [CompactScore; 12], ValidatorIndex)>"], [b!"votes14", b!"Vec<(NominatorIndex, [CompactScore; 13], ValidatorIndex)>"], [b!"votes15", b!"Vec<(NominatorIndex, [CompactScore; 14], ValidatorIndex)>"], [b!"votes16", b!"Vec<(NominatorIndex, [CompactScore; 15], ValidatorIndex)>"]]),
    (b!"CompactAssignmentsLatest", st [[b!"votes1", b!"Vec<(NominatorIndexCompact, ValidatorIndexCompact)>"], [b!"votes2", b!"Vec<(NominatorIndexCompact, CompactScoreCompact, ValidatorIndexCompact)>"], [b!"votes3", b!"Vec<(NominatorIndexCompact, [CompactScoreCompact; 2], ValidatorIndexCompact)>"], [b!"votes4", b!"Vec<(NominatorIndexCompact, [CompactScoreCompact; 3], ValidatorIndexCompact)>"], [b!"votes5", b!"Vec<(NominatorIndexCompact, [CompactScoreCompact; 4], ValidatorIndexCompact)>"], [b!"votes6", b!"Vec<(NominatorIndexCompact, [CompactScoreCompact; 5], ValidatorIndexCompact)>"], [b!"votes7", b!"Vec<(NominatorIndexCompact, [CompactScoreCompact; 6], ValidatorIndexCompact)>"], [b!"votes8", b!"Vec<(NominatorIndexCompact, [CompactScoreCompact; 7], ValidatorIndexCompact)>"], [b!"votes9", b!"Vec<(NominatorIndexCompact, [CompactScoreCompact; 8], ValidatorIndexCompact)>"], [b!"votes10", b!"Vec<(NominatorIndexCompact, [CompactScoreCompact; 9], ValidatorIndexCompact)>"], [b!"votes11", b!"Vec<(NominatorIndexCompact, [CompactScoreCompact; 10], ValidatorIndexCompact)>"], [b!"votes12", b!"Vec<(NominatorIndexCompact, [CompactScoreCompact; 11], ValidatorIndexCompact)>"], [b!"votes13", b!"Vec<(NominatorIndexCompact, [CompactScoreCompact; 12], ValidatorIndexCompact)>"], [b!"votes14", b!"Vec<(NominatorIndexCompact, [CompactScoreCompact; 13], ValidatorIndexCompact)>"], [b!"votes15", b!"Vec<(NominatorIndexCompact, [CompactScoreCompact; 14], ValidatorIndexCompact)>"], [b!"votes16", b!"Vec<(NominatorIndexCompact, [CompactScoreCompact; 15], ValidatorIndexCompact)>"]]),
    (b!"CompactAssignmentsVote", st [[b!"accountId1", b!"AccountId"], [b!"scores", b!"Vec<CompactScore>"], [b!"accountId2", b!"AccountId"]]),
    (b!"CompactAssignmentsWith24", st [[b!"votes1", b!"Vec<(NominatorIndexCompact, ValidatorIndexCompact)>"], [b!"votes2", b!"Vec<(NominatorIndexCompact, CompactScoreCompact, ValidatorIndexCompact)>"], [b!"votes3", b!"Vec<(NominatorIndexCompact, [CompactScoreCompact; 2], ValidatorIndexCompact)>"], [b!"votes4", b!"Vec<(NominatorIndexCompact, [CompactScoreCompact; 3], ValidatorIndexCompact)>"], [b!"votes5", b!"Vec<(NominatorIndexCompact, [CompactScoreCompact; 4], ValidatorIndexCompact)>"], [b!"votes6", b!"Vec<(NominatorIndexCompact, [CompactScoreCompact; 5], ValidatorIndexCompact)>"], [b!"votes7", b!"Vec<(NominatorIndexCompact, [CompactScoreCompact; 6], ValidatorIndexCompact)>"], [b!"votes8", b!"Vec<(NominatorIndexCompact, [CompactScoreCompact; 7], ValidatorIndexCompact)>"], [b!"votes9", b!"Vec<(NominatorIndexCompact, [CompactScoreCompact; 8], ValidatorIndexCompact)>"], [b!"votes10", b!"Vec<(NominatorIndexCompact, [CompactScoreCompact; 9], ValidatorIndexCompact)>"], [b!"votes11", b!"Vec<(NominatorIndexCompact, [CompactScoreCompact; 10], ValidatorIndexCompact)>"], [b!"votes12", b!"Vec<(NominatorIndexCompact, [CompactScoreCompact; 11], ValidatorIndexCompact)>"], [b!"votes13", b!"Vec<(NominatorIndexCompact, [CompactScoreCompact; 12], ValidatorIndexCompact)>"], [b!"votes14", b!"Vec<(NominatorIndexCompact, [CompactScoreCompact; 13], ValidatorIndexCompact)>"], [b!"votes15", b!"Vec<(NominatorIndexCompact, [CompactScoreCompact; 14], ValidatorIndexCompact)>"], [b!"votes16", b!"Vec<(NominatorIndexCompact, [CompactScoreCompact; 15], ValidatorIndexCompact)>"], [b!"votes17", b!"Vec<(NominatorIndexCompact, [CompactScoreCompact; 16], ValidatorIndexCompact)>"], [b!"votes18", b!"Vec<(NominatorIndexCompact, [CompactScoreCompact; 17], ValidatorIndexCompact)>"], [b!"votes19", b!"Vec<(NominatorIndexCompact, [CompactScoreCompact; 18], ValidatorIndexCompact)>"], [b!"votes20", b!"Vec<(NominatorIndexCompact, [CompactScoreCompact; 19], ValidatorIndexCompact)>"], [b!"votes21", b!"Vec<(NominatorIndexCompact, [CompactScoreCompact; 20], ValidatorIndexCompact)>"], [b!"votes22", b!"Vec<(NominatorIndexCompact, [CompactScoreCompact; 21], ValidatorIndexCompact)>"], [b!"votes23", b!"Vec<(NominatorIndexCompact, [CompactScoreCompact; 22], ValidatorIndexCompact)>"], [b!"votes24", b!"Vec<(NominatorIndexCompact, [CompactScoreCompact; 23], ValidatorIndexCompact)>"]]),
    (b!"CompactScore", st [[b!"validatorIndex", b!"ValidatorIndex"], [b!"offchainAccuracy", b!"OffchainAccuracy"]]),
    (b!"CompactScoreCompact", st [[b!"validatorIndex", b!"ValidatorIndexCompact"], [b!"offchainAccuracy", b!"OffchainAccuracyCompact"]]),
    (b!"ConcreteFungible", st [[b!"id", b!"MultiLocation"], [b!"amount", b!"Compact<u128>"]]),
    (b!"ConcreteNonFungible", st [[b!"class", b!"MultiLocation"], [b!"instance", b!"AssetInstance"]]),
    (b!"ConfigData", st [[b!"maxIndividual", b!"Weight"]]),
    (b!"ConsensusEngineId", al b!"[u8; 4]"),
    (b!"ConsumedWeight", al b!"PerDispatchClass"),
    (b!"ContractCallRequest", st [[b!"origin", b!"AccountId"], [b!"dest", b!"AccountId"], [b!"value", b!"Balance"], [b!"gasLimit", b!"u64"], [b!"inputData", b!"Bytes"]]) ]

/-- Entries of `BaseType` (source/base.go:6), part 4. -/
def part3 : List (Str × TypeDef) :=
  [ (b!"ContractExecResult", en [[b!"Success", b!"ContractExecResultSuccess"], [b!"Error", b!"Null"]] []),
    (b!"ContractExecResultSuccess", st [[b!"flags", b!"u32"], [b!"data", b!"Bytes"], [b!"gasConsumed", b!"u64"]]),
    (b!"ContractExecResultSuccessTo255", st [[b!"status", b!"u8"], [b!"data", b!"Raw"]]),
    (b!"ContractExecResultTo255", en [[b!"Success", b!"ContractExecResultSuccessTo255"], [b!"Error", b!"Null"], [b!"gasConsumed", b!"u64"]] []),
    (b!"ContractInfo", en [[b!"Alive", b!"AliveContractInfo"], [b!"Tombstone", b!"TombstoneContractInfo"]] []),
    (b!"ContractInstantiateResult", en [[b!"Ok", b!"InstantiateReturnValue"], [b!"Err", b!"Null"]] []),
    (b!"ContractProject", st [[b!"metadataVersion", b!"Text"], [b!"source", b!"ContractProjectSource"], [b!"contract", b!"ContractProjectContract"], [b!"types", b!"Vec<SiType>"], [b!"spec", b!"ContractContractSpec"]]),
    (b!"ContractProjectContract", st [[b!"name", b!"Text"], [b!"version", b!"Text"], [b!"authors", b!"Vec<Text>"], [b!"description", b!"Option<Text>"], [b!"documentation", b!"Option<Text>"], [b!"repository", b!"Option<Text>"], [b!"homepage", b!"Option<Text>"], [b!"license", b!"Option<Text>"]]),
    (b!"ContractProjectSource", st [[b!"hash", b!"[u8; 32]"], [b!"language", b!"Text"], [b!"compiler", b!"Text"]]),
    (b!"ContractStorageKey", al b!"[u8; 32]"),
    (b!"Conviction", en [] [b!"None", b!"Locked1x", b!"Locked2x", b!"Locked3x", b!"Locked4x", b!"Locked5x", b!"Locked6x"]),
    (b!"CoreAssignment", st [[b!"core", b!"CoreIndex"], [b!"paraId", b!"ParaId"], [b!"kind", b!"AssignmentKind"], [b!"groupIdx", b!"GroupIndex"]]),
    (b!"CoreIndex", al b!"u32"),
    (b!"CoreOccupied", en [[b!"Parathread", b!"ParathreadEntry"], [b!"Parachain", b!"Null"]] []),
    (b!"CreatedBlock", st [[b!"hash", b!"BlockHash"], [b!"aux", b!"ImportedAux"]]),
    (b!"CustomValueMetadata15", st [[b!"type", b!"SiLookupTypeId"], [b!"value", b!"Bytes"]]),
    (b!"DeferredOffenceOf", al b!"(Vec<OffenceDetails>, Vec<Perbill>, SessionIndex)"),
    (b!"DefunctVoter", st [[b!"who", b!"AccountId"], [b!"voteCount", b!"Compact<u32>"], [b!"candidateCount", b!"Compact<u32>"]]),
    (b!"DelayKind", en [[b!"Finalized", b!"Null"], [b!"Best", b!"DelayKindBest"]] []),
    (b!"DelayKindBest", st [[b!"medianLastFinalized", b!"BlockNumber"]]),
    (b!"Delegations", st [[b!"votes", b!"Balance"], [b!"capital", b!"Balance"]]),
    (b!"DeliveredMessages", st [[b!"begin", b!"MessageNonce"], [b!"end", b!"MessageNonce"], [b!"dispatchResults", b!"BitVec"]]),
    (b!"DepositAsset", st [[b!"assets", b!"Vec<MultiAsset>"], [b!"dest", b!"MultiLocation"]]),
    (b!"DepositBalance", al b!"Balance"),
    (b!"DepositBalanceOf", al b!"Balance"),
    (b!"DepositReserveAsset", st [[b!"assets", b!"Vec<MultiAsset>"], [b!"dest", b!"MultiLocation"], [b!"effects", b!"Vec<Order>"]]),
    (b!"DestroyWitness", st [[b!"instances", b!"Compact<u32>"], [b!"instanceMetadatas", b!"Compact<u32>"], [b!"attributes", b!"Compact<u32>"]]),
    (b!"Digest", st [[b!"logs", b!"Vec<DigestItem<Hash>>"]]),
    (b!"DigestItem", en [[b!"Other", b!"Vec<u8>"], [b!"AuthoritiesChange", b!"Vec<AuthorityId>"], [b!"ChangesTrieRoot", b!"Hash"], [b!"SealV0", b!"SealV0"], [b!"Consensus", b!"Consensus"], [b!"Seal", b!"Seal"], [b!"PreRuntime", b!"PreRuntime"], [b!"ChangesTrieSignal", b!"ChangesTrieSignal"], [b!"RuntimeEnvironmentUpdated", b!"NULL"]] []),
    (b!"DigestOf", al b!"Digest"),
    (b!"DispatchClass", en [] [b!"Normal", b!"Operational", b!"Mandatory"]),
    (b!"DispatchError", en [[b!"Other", b!"Null"], [b!"CannotLookup", b!"Null"], [b!"BadOrigin", b!"Null"], [b!"Module", b!"DispatchErrorModule"], [b!"ConsumerRemaining", b!"Null"], [b!"NoProviders", b!"Null"], [b!"Token", b!"TokenError"], [b!"Arithmetic", b!"ArithmeticError"]] []),
    (b!"DispatchErrorModule", st [[b!"index", b!"u8"], [b!"error", b!"u8"]]),
    (b!"DispatchFeePayment", en [] [b!"AtSourceChain", b!"AtTargetChain"]),
    (b!"DispatchInfo", st [[b!"weight", b!"Weight"], [b!"class", b!"DispatchClass"], [b!"paysFee", b!"Pays"]]),
    (b!"DispatchInfo258", st [[b!"weight", b!"Weight"], [b!"class", b!"DispatchClass"], [b!"paysFee", b!"bool"]]),
    (b!"DispatchResult", en [[b!"Ok", b!"Null"], [b!"Error", b!"DispatchError"]] []),
    (b!"DisputeLocation", en [] [b!"Local", b!"Remote"]),
    (b!"DisputeResult", en [] [b!"Valid", b!"Invalid"]),
    (b!"DisputeState", st [[b!"validatorsFor", b!"BitVec"], [b!"validatorsAgainst", b!"BitVec"], [b!"start", b!"BlockNumber"], [b!"concludedAt", b!"Option<BlockNumber>"]]),
    (b!"DisputeStatement", en [[b!"Valid", b!"ValidDisputeStatementKind"], [b!"Invalid", b!"InvalidDisputeStatementKind"]] []),
    (b!"DisputeStatementSet", st [[b!"candidateHash", b!"CandidateHash"], [b!"session", b!"SessionIndex"], [b!"statements", b!"Vec<(DisputeStatement, ParaValidatorIndex, ValidatorSignature)>"]]),
    (b!"DoNotConstruct", al b!"Null"),
    (b!"DoubleEncodedCall", st [[b!"encoded", b!"Vec<u8>"]]),
    (b!"DoubleVoteReport", st [[b!"identity", b!"ValidatorId"], [b!"first", b!"(Statement, ValidatorSignature)"], [b!"second", b!"(Statement, ValidatorSignature)"], [b!"proof", b!"MembershipProof"], [b!"signingContext", b!"SigningContext"]]),
    (b!"DownwardMessage", al b!"Bytes"),
    (b!"EIP1559Transaction", st [[b!"chainId", b!"u64"], [b!"nonce", b!"U256"], [b!"maxPriorityFeePerGas", b!"U256"], [b!"maxFeePerGas", b!"U256"], [b!"gasLimit", b!"U256"], [b!"action", b!"EthTransactionAction"], [b!"value", b!"U256"], [b!"input", b!"Bytes"], [b!"accessList", b!"EthAccessList"], [b!"oddYParity", b!"bool"], [b!"r", b!"H256"], [b!"s", b!"H256"]]),
    (b!"EIP2930Transaction", st [[b!"chainId", b!"u64"], [b!"nonce", b!"U256"], [b!"gasPrice", b!"U256"], [b!"gasLimit", b!"U256"], [b!"action", b!"EthTransactionAction"], [b!"value", b!"U256"], [b!"input", b!"Bytes"], [b!"accessList", b!"EthAccessList"], [b!"oddYParity", b!"bool"], [b!"r", b!"H256"], [b!"s", b!"H256"]]),
    (b!"EcdsaSignature", al b!"[u8; 65]"),
    (b!"Ed25519Signature", al b!"H512") ]

/-- Entries of `BaseType` (source/base.go:6), part 5. -/
def part4 : List (Str × TypeDef) :=
  [ (b!"EgressQueueRoot", st [[b!"col1", b!"ParaId"], [b!"col2", b!"Hash"]]),
    (b!"ElectionCompute", en [] [b!"OnChain", b!"Signed", b!"Unsigned"]),
    (b!"ElectionPhase", en [[b!"Off", b!"Null"], [b!"Signed", b!"Null"], [b!"Unsigned", b!"(bool, BlockNumber)"], [b!"Emergency", b!"Null"]] []),
    (b!"ElectionResult", st [[b!"compute", b!"ElectionCompute"], [b!"slotStake", b!"Balance"], [b!"electedStashes", b!"Vec<AccountId>"], [b!"exposures", b!"Vec<(AccountId, Exposure)>"]]),
    (b!"ElectionScore", al b!"[u128; 3]"),
    (b!"ElectionSize", st [[b!"validators", b!"ValidatorIndex"], [b!"nominators", b!"NominatorIndex"]]),
    (b!"ElectionStatus", en [[b!"Close", b!"Null"], [b!"Open", b!"BlockNumber"]] []),
    (b!"EncodedFinalityProofs", al b!"Bytes"),
    (b!"EpochAuthorship", st [[b!"primary", b!"Vec<u64>"], [b!"secondary", b!"Vec<u64>"], [b!"secondary_vrf", b!"Vec<u64>"]]),
    (b!"Equivocation", al b!"GrandpaEquivocation"),
    (b!"EquivocationProof<Hash, BlockNumber>", al b!"GrandpaEquivocationProof"),
    (b!"EquivocationProof<Header>", al b!"BabeEquivocationProof"),
    (b!"EraIndex", al b!"U32"),
    (b!"EraRewardPoints", st [[b!"total", b!"RewardPoint"], [b!"individual", b!"Vec<(AccountId, RewardPoint)>"]]),
    (b!"EthAccessList", al b!"Vec<EthAccessListItem>"),
    (b!"EthAccessListItem", st [[b!"address", b!"EthAddress"], [b!"slots", b!"Vec<H256>"]]),
    (b!"EthAccount", st [[b!"address", b!"H160"], [b!"balance", b!"U256"], [b!"nonce", b!"U256"], [b!"codeHash", b!"H256"], [b!"storageHash", b!"H256"], [b!"accountProof", b!"Vec<Bytes>"], [b!"storageProof", b!"Vec<EthStorageProof>"]]),
    (b!"EthAddress", al b!"H160"),
    (b!"EthBlock", st [[b!"header", b!"EthHeader"], [b!"transactions", b!"Vec<EthTransaction>"], [b!"ommers", b!"Vec<EthHeader>"]]),
    (b!"EthBloom", al b!"H2048"),
    (b!"EthCallRequest", st [[b!"from", b!"Option<H160>"], [b!"to", b!"Option<H160>"], [b!"gasPrice", b!"Option<U256>"], [b!"gas", b!"Option<U256>"], [b!"value", b!"Option<U256>"], [b!"data", b!"Option<Bytes>"], [b!"nonce", b!"Option<U256>"]]),
    (b!"EthFilter", st [[b!"fromBlock", b!"Option<BlockNumber>"], [b!"toBlock", b!"Option<BlockNumber>"], [b!"blockHash", b!"Option<H256>"], [b!"address", b!"Option<EthFilterAddress>"], [b!"topics", b!"Option<EthFilterTopic>"]]),
    (b!"EthFilterAddress", en [[b!"Single", b!"H160"], [b!"Multiple", b!"Vec<H160>"], [b!"Null", b!"Null"]] []),
    (b!"EthFilterChanges", en [[b!"Logs", b!"Vec<EthLog>"], [b!"Hashes", b!"Vec<H256>"], [b!"Empty", b!"Null"]] []),
    (b!"EthFilterTopic", en [[b!"Single", b!"EthFilterTopicInner"], [b!"Multiple", b!"Vec<EthFilterTopicInner>"], [b!"Null", b!"Null"]] []),
    (b!"EthFilterTopicEntry", al b!"Option<H256>"),
    (b!"EthFilterTopicInner", en [[b!"Single", b!"EthFilterTopicEntry"], [b!"Multiple", b!"Vec<EthFilterTopicEntry>"], [b!"Null", b!"Null"]] []),
    (b!"EthHeader", st [[b!"parentHash", b!"H256"], [b!"ommersHash", b!"H256"], [b!"beneficiary", b!"H160"], [b!"stateRoot", b!"H256"], [b!"transactionsRoot", b!"H256"], [b!"receiptsRoot", b!"H256"], [b!"logsBloom", b!"EthBloom"], [b!"difficulty", b!"U256"], [b!"number", b!"U256"], [b!"gasLimit", b!"U256"], [b!"gasUsed", b!"U256"], [b!"timestamp", b!"U64"], [b!"extraData", b!"Bytes"], [b!"mixMash", b!"H256"], [b!"nonce", b!"H64"]]),
    (b!"EthLog", st [[b!"address", b!"H160"], [b!"topics", b!"Vec<H256>"], [b!"data", b!"Bytes"], [b!"blockHash", b!"Option<H256>"], [b!"blockNumber", b!"Option<U256>"], [b!"transactionHash", b!"Option<H256>"], [b!"transactionIndex", b!"Option<U256>"], [b!"logIndex", b!"Option<U256>"], [b!"transactionLogIndex", b!"Option<U256>"], [b!"removed", b!"bool"]]),
    (b!"EthReceipt", st [[b!"transactionHash", b!"Option<H256>"], [b!"transactionIndex", b!"Option<U256>"], [b!"blockHash", b!"Option<H256>"], [b!"from", b!"Option<H160>"], [b!"to", b!"Option<H160>"], [b!"blockNumber", b!"Option<U256>"], [b!"cumulativeGasUsed", b!"U256"], [b!"gasUsed", b!"Option<U256>"], [b!"contractAddress", b!"Option<H160>"], [b!"logs", b!"Vec<EthLog>"], [b!"root", b!"Option<H256>"], [b!"logsBloom", b!"H2048"], [b!"statusCode", b!"Option<U64>"]]),
    (b!"EthRichBlock", al b!"EthBlock"),
    (b!"EthRichHeader", al b!"EthHeader"),
    (b!"EthStorageProof", st [[b!"key", b!"U256"], [b!"value", b!"U256"], [b!"proof", b!"Vec<Bytes>"]]),
    (b!"EthSubKind", en [] [b!"newHeads", b!"logs", b!"newPendingTransactions", b!"syncing"]),
    (b!"EthSubParams", en [[b!"None", b!"Null"], [b!"Logs", b!"EthFilter"]] []),
    (b!"EthSubResult", en [[b!"Header", b!"EthRichHeader"], [b!"Log", b!"EthLog"], [b!"TransactionHash", b!"H256"], [b!"SyncState", b!"EthSyncStatus"]] []),
    (b!"EthSyncInfo", st [[b!"startingBlock", b!"U256"], [b!"currentBlock", b!"U256"], [b!"highestBlock", b!"U256"], [b!"warpChunksAmount", b!"Option<U256>"], [b!"warpChunksProcessed", b!"Option<U256>"]]),
    (b!"EthSyncStatus", en [[b!"Info", b!"EthSyncInfo"], [b!"None", b!"Null"]] []),
    (b!"EthTransaction", al b!"LegacyTransaction"),
    (b!"EthTransactionAction", en [[b!"Call", b!"H160"], [b!"Create", b!"NULL"]] []),
    (b!"EthTransactionCondition", en [[b!"block", b!"u64"], [b!"time", b!"u64"]] []),
    (b!"EthTransactionRequest", st [[b!"from", b!"Option<H160>"], [b!"to", b!"Option<H160>"], [b!"gasPrice", b!"Option<U256>"], [b!"gas", b!"Option<U256>"], [b!"value", b!"Option<U256>"], [b!"data", b!"Option<Bytes>"], [b!"nonce", b!"Option<U256>"]]),
    (b!"EthTransactionSignature", al b!"TransactionSignature"),
    (b!"EthTransactionStatus", st [[b!"transactionHash", b!"H256"], [b!"transactionIndex", b!"u32"], [b!"from", b!"H160"], [b!"to", b!"Option<H160>"], [b!"contractAddress", b!"Option<H160>"], [b!"logs", b!"Vec<EthLog>"], [b!"logsBloom", b!"EthBloom"]]),
    (b!"EthWork", st [[b!"pow_hash", b!"H256"], [b!"seed_hash", b!"H256"], [b!"target", b!"H256"], [b!"number", b!"Option<u64>"]]),
    (b!"EthereumAccountId", al b!"EthereumAddress"),
    (b!"EthereumLookupSource", al b!"EthereumAddress"),
    (b!"EthereumSignature", al b!"[u8; 65]"),
    (b!"EventIndex", al b!"u32"),
    (b!"ExchangeAsset", st [[b!"give", b!"Vec<MultiAsset>"], [b!"receive", b!"Vec<MultiAsset>"]]) ]

/-- Entries of `BaseType` (source/base.go:6), part 6. -/
def part5 : List (Str × TypeDef) :=
  [ (b!"ExecReturnValue", st [[b!"flags", b!"u32"], [b!"data", b!"Bytes"]]),
    (b!"ExitError", en [[b!"StackUnderflow", b!"NULL"], [b!"StackOverflow", b!"NULL"], [b!"InvalidJump", b!"NULL"], [b!"InvalidRange", b!"NULL"], [b!"DesignatedInvalid", b!"NULL"], [b!"CallTooDeep", b!"NULL"], [b!"CreateCollision", b!"NULL"], [b!"CreateContractLimit", b!"NULL"], [b!"OutOfOffset", b!"NULL"], [b!"OutOfGas", b!"NULL"], [b!"OutOfFund", b!"NULL"], [b!"PCUnderflow", b!"NULL"], [b!"CreateEmpty", b!"NULL"], [b!"Other", b!"string"]] []),
    (b!"ExitFatal", en [[b!"NotSupported", b!"NULL"], [b!"UnhandledInterrupt", b!"NULL"], [b!"CallErrorAsFatal", b!"NULL"], [b!"Other", b!"string"]] []),
    (b!"ExitReason", en [[b!"Succeed", b!"ExitSucceed"], [b!"Error", b!"ExitError"], [b!"Revert", b!"ExitRevert"], [b!"Fatal", b!"ExitFatal"]] []),
    (b!"ExitRevert", en [] [b!"Reverted"]),
    (b!"ExitSucceed", en [] [b!"Stopped", b!"Returned", b!"Suicided"]),
    (b!"ExplicitDisputeStatement", st [[b!"valid", b!"bool"], [b!"candidateHash", b!"CandidateHash"], [b!"session", b!"SessionIndex"]]),
    (b!"ExtendedBalance", al b!"u128"),
    (b!"ExtrinsicMetadata", st [[b!"version", b!"u8"], [b!"signedExtensions", b!"Vec<Bytes>"]]),
    (b!"ExtrinsicMetadataV14", st [[b!"type", b!"SiLookupTypeId"], [b!"version", b!"u8"], [b!"signedExtensions", b!"Vec<SignedExtensionMetadataV14>"]]),
    (b!"ExtrinsicMetadataV15", st [[b!"version", b!"u8"], [b!"addressType", b!"SiLookupTypeId"], [b!"callType", b!"SiLookupTypeId"], [b!"signatureType", b!"SiLookupTypeId"], [b!"extraType", b!"SiLookupTypeId"], [b!"signedExtensions", b!"Vec<SignedExtensionMetadataV14>"]]),
    (b!"ExtrinsicSignature", al b!"MultiSignature"),
    (b!"ExtrinsicsWeight", st [[b!"normal", b!"Weight"], [b!"operational", b!"Weight"]]),
    (b!"FeeDetails", st [[b!"inclusionFee", b!"Option<InclusionFee>"]]),
    (b!"FixedU128", al b!"u128"),
    (b!"Forcing", en [] [b!"NotForcing", b!"ForceNew", b!"ForceNone"]),
    (b!"ForkTreePendingChange", st [[b!"roots", b!"Vec<ForkTreePendingChangeNode>"], [b!"bestFinalizedNumber", b!"Option<BlockNumber>"]]),
    (b!"ForkTreePendingChangeNode", st [[b!"hash", b!"BlockHash"], [b!"number", b!"BlockNumber"], [b!"data", b!"PendingChange"], [b!"children", b!"Vec<ForkTreePendingChangeNode>"]]),
    (b!"FullIdentification", st [[b!"total", b!"Compact<Balance>"], [b!"own", b!"Compact<Balance>"], [b!"others", b!"Vec<IndividualExposure>"]]),
    (b!"FundIndex", al b!"u32"),
    (b!"FundInfo", st [[b!"depositor", b!"AccountId"], [b!"verifier", b!"Option<MultiSigner>"], [b!"deposit", b!"Balance"], [b!"raised", b!"Balance"], [b!"end", b!"BlockNumber"], [b!"cap", b!"Balance"], [b!"last_contribution", b!"LastContribution<BlockNumber>"], [b!"first_period", b!"LeasePeriod"], [b!"last_period", b!"LeasePeriod"], [b!"trie_index", b!"TrieIndex"]]),
    (b!"FungibilityV0", al b!"FungibilityV1"),
    (b!"FungibilityV1", en [[b!"Fungible", b!"Compact<u128>"], [b!"NonFungible", b!"AssetInstanceV1"]] []),
    (b!"FungibilityV2", al b!"FungibilityV1"),
    (b!"FungibilityV3", en [[b!"Fungible", b!"Compact<u128>"], [b!"NonFungible", b!"AssetInstanceV3"]] []),
    (b!"Gas", al b!"u64"),
    (b!"GeneralKeyV3", st [[b!"length", b!"u8"], [b!"data", b!"[u8; 32]"]]),
    (b!"GenericMultiAddress", en [[b!"Id", b!"AccountId"], [b!"Index", b!"Compact<AccountIndex>"], [b!"Raw", b!"Bytes"], [b!"Address32", b!"H256"], [b!"Address20", b!"H160"]] []),
    (b!"GenericPortableRegistry", al b!"Vec<PortableType>"),
    (b!"GiltBid", st [[b!"amount", b!"Balance"], [b!"who", b!"AccountId"]]),
    (b!"GlobalValidationData", st [[b!"maxCodeSize", b!"u32"], [b!"maxHeadDataSize", b!"u32"], [b!"blockNumber", b!"blockNumber"]]),
    (b!"GlobalValidationSchedule", st [[b!"maxCodeSize", b!"u32"], [b!"maxHeadDataSize", b!"u32"], [b!"blockNumber", b!"BlockNumber"]]),
    (b!"GrandpaCommit", st [[b!"targetHash", b!"BlockHash"], [b!"targetNumber", b!"BlockNumber"], [b!"precommits", b!"Vec<GrandpaSignedPrecommit>"]]),
    (b!"GrandpaEquivocation", en [[b!"Prevote", b!"GrandpaEquivocationValue"], [b!"Precommit", b!"GrandpaEquivocationValue"]] []),
    (b!"GrandpaEquivocationProof", st [[b!"setId", b!"SetId"], [b!"equivocation", b!"GrandpaEquivocation"]]),
    (b!"GrandpaEquivocationValue", st [[b!"roundNumber", b!"u64"], [b!"identity", b!"AuthorityId"], [b!"first", b!"(GrandpaPrevote, AuthoritySignature)"], [b!"second", b!"(GrandpaPrevote, AuthoritySignature)"]]),
    (b!"GrandpaJustification", st [[b!"round", b!"u64"], [b!"commit", b!"GrandpaCommit"], [b!"votesAncestries", b!"Vec<Header>"]]),
    (b!"GrandpaPrecommit", st [[b!"targetHash", b!"BlockHash"], [b!"targetNumber", b!"BlockNumber"]]),
    (b!"GrandpaPrevote", st [[b!"targetHash", b!"Hash"], [b!"targetNumber", b!"BlockNumber"]]),
    (b!"GrandpaSignedPrecommit", st [[b!"precommit", b!"GrandpaPrecommit"], [b!"signature", b!"AuthoritySignature"], [b!"id", b!"AuthorityId"]]),
    (b!"GroupIndex", al b!"u32"),
    (b!"H1024", al b!"[u8; 128]"),
    (b!"H2048", al b!"[u8; 256]"),
    (b!"HeadData", al b!"Bytes"),
    (b!"Header", st [[b!"parent_hash", b!"H256"], [b!"number", b!"Compact<BlockNumber>"], [b!"state_root", b!"H256"], [b!"extrinsics_root", b!"H256"], [b!"digest", b!"Digest"]]),
    (b!"Heartbeat", st [[b!"blockNumber", b!"BlockNumber"], [b!"networkState", b!"OpaqueNetworkState"], [b!"sessionIndex", b!"SessionIndex"], [b!"authorityIndex", b!"AuthIndex"]]),
    (b!"HostConfiguration", st [[b!"maxCodeSize", b!"u32"], [b!"maxHeadDataSize", b!"u32"], [b!"maxUpwardQueueCount", b!"u32"], [b!"maxUpwardQueueSize", b!"u32"], [b!"maxUpwardMessageSize", b!"u32"], [b!"maxUpwardMessageNumPerCandidate", b!"u32"], [b!"hrmpMaxMessageNumPerCandidate", b!"u32"], [b!"validationUpgradeFrequency", b!"BlockNumber"], [b!"validationUpgradeDelay", b!"BlockNumber"], [b!"maxPovSize", b!"u32"], [b!"maxDownwardMessageSize", b!"u32"], [b!"preferredDispatchableUpwardMessagesStepWeight", b!"Weight"], [b!"hrmpMaxParachainOutboundChannels", b!"u32"], [b!"hrmpMaxParathreadOutboundChannels", b!"u32"], [b!"hrmpOpenRequestTtl", b!"u32"], [b!"hrmpSenderDeposit", b!"Balance"], [b!"hrmpRecipientDeposit", b!"Balance"], [b!"hrmpChannelMaxCapacity", b!"u32"], [b!"hrmpChannelMaxTotalSize", b!"u32"], [b!"hrmpMaxParachainInboundChannels", b!"u32"], [b!"hrmpMaxParathreadInboundChannels", b!"u32"], [b!"hrmpChannelMaxMessageSize", b!"u32"], [b!"codeRetentionPeriod", b!"BlockNumber"], [b!"parathreadCores", b!"u32"], [b!"parathreadRetries", b!"u32"], [b!"groupRotationFrequency", b!"BlockNumber"], [b!"chainAvailabilityPeriod", b!"BlockNumber"], [b!"threadAvailabilityPeriod", b!"BlockNumber"], [b!"schedulingLookahead", b!"u32"], [b!"maxValidatorsPerCore", b!"Option<u32>"], [b!"disputePeriod", b!"SessionIndex"], [b!"disputePostConclusionAcceptancePeriod", b!"BlockNumber"], [b!"disputeMaxSpamSlots", b!"u32"], [b!"disputeConclusionByTimeOutPeriod", b!"BlockNumber"], [b!"noShowSlots", b!"u32"], [b!"nDelayTranches", b!"u32"], [b!"zerothDelayTrancheWidth", b!"u32"], [b!"neededApprovals", b!"u32"], [b!"relayVrfModuloSamples", b!"u32"]]),
    (b!"HostFnWeights", st [[b!"caller", b!"Weight"], [b!"address", b!"Weight"], [b!"gasLeft", b!"Weight"], [b!"balance", b!"Weight"], [b!"valueTransferred", b!"Weight"], [b!"minimumBalance", b!"Weight"], [b!"tombstoneDeposit", b!"Weight"], [b!"rentAllowance", b!"Weight"], [b!"blockNumber", b!"Weight"], [b!"now", b!"Weight"], [b!"weightToFee", b!"Weight"], [b!"gas", b!"Weight"], [b!"input", b!"Weight"], [b!"inputPerByte", b!"Weight"], [b!"return", b!"Weight"], [b!"returnPerByte", b!"Weight"], [b!"terminate", b!"Weight"], [b!"restoreTo", b!"Weight"], [b!"restoreToPerDelta", b!"Weight"], [b!"random", b!"Weight"], [b!"depositEvent", b!"Weight"], [b!"depositEventPerTopic", b!"Weight"], [b!"depositEventPerByte", b!"Weight"], [b!"setRentAllowance", b!"Weight"], [b!"setStorage", b!"Weight"], [b!"setStoragePerByte", b!"Weight"], [b!"clearStorage", b!"Weight"], [b!"getStorage", b!"Weight"], [b!"getStoragePerByte", b!"Weight"], [b!"transfer", b!"Weight"], [b!"call", b!"Weight"], [b!"callTransferSurcharge", b!"Weight"], [b!"callPerInputByte", b!"Weight"], [b!"callPerOutputByte", b!"Weight"], [b!"instantiate", b!"Weight"], [b!"instantiatePerInputByte", b!"Weight"], [b!"instantiatePerOutputByte", b!"Weight"], [b!"hashSha2256", b!"Weight"], [b!"hashSha2256PerByte", b!"Weight"], [b!"hashKeccak256", b!"Weight"], [b!"hashKeccak256PerByte", b!"Weight"], [b!"hashBlake2256", b!"Weight"], [b!"hashBlake2256PerByte", b!"Weight"], [b!"hashBlake2128", b!"Weight"], [b!"hashBlake2128PerByte", b!"Weight"]]),
    (b!"HrmpChannel", st [[b!"maxCapacity", b!"u32"], [b!"maxTotalSize", b!"u32"], [b!"maxMessageSize", b!"u32"], [b!"msgCount", b!"u32"], [b!"totalSize", b!"u32"], [b!"mqcHead", b!"Option<Hash>"], [b!"senderDeposit", b!"Balance"], [b!"recipientDeposit", b!"Balance"]]),
    (b!"HrmpChannelId", st [[b!"sender", b!"u32"], [b!"receiver", b!"u32"]]) ]

/-- Entries of `BaseType` (source/base.go:6), part 7. -/
def part6 : List (Str × TypeDef) :=
  [ (b!"HrmpOpenChannelRequest", st [[b!"confirmed", b!"bool"], [b!"age", b!"SessionIndex"], [b!"senderDeposit", b!"Balance"], [b!"maxMessageSize", b!"u32"], [b!"maxCapacity", b!"u32"], [b!"maxTotalSize", b!"u32"]]),
    (b!"IdentificationTuple", st [[b!"validatorId", b!"ValidatorId"], [b!"exposure", b!"FullIdentification"]]),
    (b!"IdentityFields", se [b!"Display", b!"Legal", b!"Web", b!"Riot", b!"Email", b!"PgpFingerprint", b!"Image", b!"Twitter"] 64),
    (b!"IdentityInfo", st [[b!"additional", b!"Vec<IdentityInfoAdditional>"], [b!"display", b!"Data"], [b!"legal", b!"Data"], [b!"web", b!"Data"], [b!"riot", b!"Data"], [b!"email", b!"Data"], [b!"pgpFingerprint", b!"Option<H160>"], [b!"image", b!"Data"], [b!"twitter", b!"Data"]]),
    (b!"IdentityInfoAdditional", st [[b!"field", b!"Data"], [b!"value", b!"Data"]]),
    (b!"ImportedAux", st [[b!"headerOnly", b!"bool"], [b!"clearJustificationRequests", b!"bool"], [b!"needsJustification", b!"bool"], [b!"badJustification", b!"bool"], [b!"needsFinalityProof", b!"bool"], [b!"isNewBest", b!"bool"]]),
    (b!"InboundDownwardMessage", st [[b!"pubSentAt", b!"BlockNumber"], [b!"pubMsg", b!"DownwardMessage"]]),
    (b!"InboundHrmpMessage", st [[b!"sentAt", b!"BlockNumber"], [b!"data", b!"Bytes"]]),
    (b!"InboundHrmpMessages", al b!"Vec<InboundHrmpMessage>"),
    (b!"InboundLaneData", st [[b!"relayers", b!"Vec<UnrewardedRelayer>"], [b!"lastConfirmedNonce", b!"MessageNonce"]]),
    (b!"InboundRelayer", al b!"AccountId"),
    (b!"InboundStatus", en [] [b!"Ok", b!"Suspended"]),
    (b!"IncludedBlocks", st [[b!"actualNumber", b!"BlockNumber"], [b!"session", b!"SessionIndex"], [b!"randomSeed", b!"H256"], [b!"activeParachains", b!"Vec<ParaId>"], [b!"paraBlocks", b!"Vec<Hash>"]]),
    (b!"InclusionFee", st [[b!"baseFee", b!"Balance"], [b!"lenFee", b!"Balance"], [b!"adjustedWeightFee", b!"Balance"]]),
    (b!"IncomingParachain", en [[b!"Unset", b!"NewBidder"], [b!"Fixed", b!"IncomingParachainFixed"], [b!"Deploy", b!"IncomingParachainDeploy"]] []),
    (b!"IncomingParachainDeploy", st [[b!"code", b!"ValidationCode"], [b!"initialHeadData", b!"HeadData"]]),
    (b!"IncomingParachainFixed", st [[b!"codeHash", b!"Hash"], [b!"codeSize", b!"u32"], [b!"initialHeadData", b!"HeadData"]]),
    (b!"Index", al b!"U32"),
    (b!"IndividualExposure", st [[b!"who", b!"AccountId"], [b!"value", b!"Compact<Balance>"]]),
    (b!"InitializationData", st [[b!"header", b!"Header"], [b!"authorityList", b!"AuthorityList"], [b!"setId", b!"SetId"], [b!"isHalted", b!"bool"]]),
    (b!"InitiateReserveWithdraw", st [[b!"assets", b!"Vec<MultiAsset>"], [b!"reserve", b!"MultiLocation"], [b!"effects", b!"Vec<Order>"]]),
    (b!"InitiateTeleport", st [[b!"assets", b!"Vec<MultiAsset>"], [b!"dest", b!"MultiLocation"], [b!"effects", b!"Vec<Order>"]]),
    (b!"InstanceDetails", st [[b!"owner", b!"AccountId"], [b!"approved", b!"Option<AccountId>"], [b!"isFrozen", b!"bool"], [b!"deposit", b!"DepositBalance"]]),
    (b!"InstanceId", al b!"u32"),
    (b!"InstanceMetadata", st [[b!"deposit", b!"DepositBalance"], [b!"data", b!"Vec<u8>"], [b!"isFrozen", b!"bool"]]),
    (b!"InstantiateRequest", st [[b!"origin", b!"AccountId"], [b!"endowment", b!"Balance"], [b!"gasLimit", b!"Gas"], [b!"code", b!"Bytes"], [b!"code", b!"Bytes"], [b!"salt", b!"Bytes"]]),
    (b!"InstantiateReturnValue", st [[b!"result", b!"ExecReturnValue"], [b!"accountId", b!"AccountId"], [b!"rentProjection", b!"Option<RentProjection>"]]),
    (b!"InstructionV2", en [[b!"WithdrawAsset", b!"MultiAssetsV2"], [b!"ReserveAssetDeposited", b!"MultiAssetsV2"], [b!"ReceiveTeleportedAsset", b!"MultiAssetsV2"], [b!"QueryResponse", b!"[[\"query_id\", \"Compact<u64>\"], [\"response\", \"ResponseV2\"], [\"max_weight\", \"Compact<u64>\"]]"], [b!"TransferAsset", b!"[[\"assets\", \"MultiAssetsV2\"], [\"beneficiary\", \"MultiLocationV2\"]]"], [b!"TransferReserveAsset", b!"[[\"assets\", \"MultiAssetsV2\"], [\"dest\", \"MultiLocationV2\"], [\"xcm\", \"XcmV2\"]]"], [b!"Transact", b!"[[\"originType\", \"OriginKindV2\"], [\"requireWeightAtMost\", \"u64\"], [\"call\", \"DoubleEncodedCall\"]]"], [b!"HrmpNewChannelOpenRequest", b!"[[\"sender\", \"Compact<u32>\"], [\"maxMessageSize\", \"Compact<u32>\"], [\"maxCapacity\", \"Compact<u32>\"]]"], [b!"HrmpChannelAccepted", b!"[[\"recipient\", \"Compact<u32>\"]]"], [b!"HrmpChannelClosing", b!"[[\"initiator\", \"Compact<u32>\"], [\"sender\", \"Compact<u32>\"], [\"recipient\", \"Compact<u32>\"]]"], [b!"ClearOrigin", b!"empty"], [b!"DescendOrigin", b!"InteriorMultiLocation"], [b!"ReportError", b!"[[\"query_id\", \"Compact<u64>\"], [\"dest\", \"MultiLocationV2\"], [\"maxResponseWeight\", \"Compact<u64>\"]]"], [b!"DepositAsset", b!"[[\"assets\", \"MultiAssetFilterV2\"], [\"max_assets\", \"compact<u32>\"], [\"beneficiary\", \"MultiLocationV2\"]]"], [b!"DepositReserveAsset", b!"[[\"assets\", \"MultiAssetFilterV2\"], [\"max_assets\", \"compact<u32>\"], [\"dest\", \"MultiLocationV2\"], [\"xcm\", \"XcmV2\"]]"], [b!"ExchangeAsset", b!"[[\"give\", \"MultiAssetFilterV2\"], [\"receive\", \"MultiAssetsV2\"]]"], [b!"InitiateReserveWithdraw", b!"[[\"assets\", \"MultiAssetFilterV2\"], [\"reserve\", \"MultiLocationV2\"], [\"xcm\", \"XcmV2\"]]"], [b!"InitiateTeleport", b!"[[\"assets\", \"MultiAssetFilterV2\"], [\"dest\", \"MultiLocationV2\"], [\"xcm\", \"XcmV2\"]]"], [b!"QueryHolding", b!"[[\"query_id\", \"Compact<u64>\"], [\"dest\", \"MultiLocationV2\"], [\"assets\", \"MultiAssetFilterV2\"], [\"maxResponse_Weight\", \"Compact<u64>\"]]"], [b!"BuyExecution", b!"[[\"fees\", \"MultiAssetV2\"], [\"weight_limit\", \"WeightLimitV2\"]]"], [b!"RefundSurplus", b!"empty"], [b!"SetErrorHandler", b!"XcmV2"], [b!"SetAppendix", b!"XcmV2"], [b!"ClearError", b!"empty"], [b!"ClaimAsset", b!"[[\"assets\", \"MultiAssetsV2\"], [\"ticket\", \"MultiLocationV2\"]]"], [b!"Trap", b!"u64"]] []),
    (b!"InstructionV3", en [[b!"WithdrawAsset", b!"MultiAssetsV3"], [b!"ReserveAssetDeposited", b!"MultiAssetsV3"], [b!"ReceiveTeleportedAsset", b!"MultiAssetsV3"], [b!"QueryResponse", b!"QueryResponseV3"], [b!"TransferAsset", b!"[[\"assets\", \"MultiAssetsV3\"], [\"beneficiary\", \"MultiLocationV3\"]]"], [b!"TransferReserveAsset", b!"[[\"assets\", \"MultiAssetsV3\"], [\"dest\", \"MultiLocationV3\"], [\"xcm\", \"XcmV3\"]]"], [b!"Transact", b!"[[\"origin_kind\", \"OriginKindV2\"], [\"require_weight_at_most\", \"WeightV2\"], [\"call\", \"DoubleEncodedCall\"]]"], [b!"HrmpNewChannelOpenRequest", b!"[[\"sender\", \"Compact<u32>\"], [\"maxMessageSize\", \"Compact<u32>\"], [\"maxCapacity\", \"Compact<u32>\"]]"], [b!"HrmpChannelAccepted", b!"[[\"recipient\", \"Compact<u32>\"]]"], [b!"HrmpChannelClosing", b!"[[\"initiator\", \"Compact<u32>\"], [\"sender\", \"Compact<u32>\"], [\"recipient\", \"Compact<u32>\"]]"], [b!"ClearOrigin", b!"Null"], [b!"DescendOrigin", b!"InteriorMultiLocationV3"], [b!"ReportError", b!"[[\"destination\", \"MultiLocationV3\"], [\"query_id\", \"Compact<u64>\"], [\"max_weight\", \"WeightV2\"]]"], [b!"DepositAsset", b!"[[\"assets\", \"MultiAssetFilterV3\"], [\"beneficiary\", \"MultiLocationV3\"]]"], [b!"DepositReserveAsset", b!"[[\"assets\", \"MultiAssetFilterV3\"], [\"dest\", \"MultiLocationV3\"], [\"xcm\", \"XcmV3\"]]"], [b!"ExchangeAsset", b!"[[\"give\", \"MultiAssetFilterV3\"],[\"want\", \"MultiAssetsV3\"], [\"maximal\", \"bool\"]]"], [b!"InitiateReserveWithdraw", b!"[[\"assets\", \"MultiAssetFilterV3\"], [\"reserve\", \"MultiLocationV3\"], [\"xcm\", \"XcmV3\"]]"], [b!"InitiateTeleport", b!"[[\"assets\", \"MultiAssetFilterV3\"], [\"dest\", \"MultiLocationV3\"], [\"xcm\", \"XcmV3\"]]"], [b!"QueryHolding", b!"[[\"response_info\", \"QueryResponseInfoV3\"], [\"assets\", \"MultiAssetFilterV3\"]]"], [b!"BuyExecution", b!"[[\"fees\", \"MultiAssetV3\"], [\"weight_limit\", \"WeightLimitV3\"]]"], [b!"RefundSurplus", b!"Null"], [b!"SetErrorHandler", b!"XcmV3"], [b!"SetAppendix", b!"XcmV3"], [b!"ClearError", b!"Null"], [b!"ClaimAsset", b!"[[\"assets\", \"MultiAssetsV3\"], [\"ticket\", \"MultiLocationV3\"]]"], [b!"Trap", b!"u64"], [b!"SubscribeVersion", b!"[[\"query_id\", \"Compact<u64>\"], [\"max_response_weight\", \"WeightV2\"]]"], [b!"UnsubscribeVersion", b!"NULL"], [b!"BurnAsset", b!"MultiAssetsV3"], [b!"ExpectAsset", b!"MultiAssetsV3"], [b!"ExpectOrigin", b!"Option<MultiLocationV3>"], [b!"ExpectError", b!"Option<(U32, XcmTraitsErrorV3)>>"], [b!"ExpectTransactStatus", b!"MaybeErrorCodeV3"], [b!"QueryPallet", b!"[[\"module_name\", \"Vec<U8>\"], [\"response_info\", \"QueryResponseInfoV3\"]]"], [b!"ExpectPallet", b!"[[\"index\", \"Compact<u32>\"], [\"name\", \"Vec<U8>\"], [\"module_name\", \"Vec<U8>\"], [\"crate_major\", \"Compact<u32>\"], [\"min_crate_minor\", \"Compact<u32>\"]]"], [b!"ReportTransactStatus", b!"QueryResponseInfoV3"], [b!"ClearTransactStatus", b!"NULL"], [b!"UniversalOrigin", b!"JunctionV3"], [b!"ExportMessage", b!"[[\"network\", \"NetworkIdV3\"], [\"destination\", \"InteriorMultiLocationV3\"], [\"xcm\", \"XcmV3\"]]"], [b!"LockAsset", b!"[[\"asset\", \"MultiAssetV3\"], [\"unlocker\", \"MultiLocationV3\"]]"], [b!"UnlockAsset", b!"[[\"asset\", \"MultiAssetV3\"], [\"target\", \"MultiLocationV3\"]]"], [b!"NoteUnlockable", b!"[[\"asset\", \"MultiAssetV3\"], [\"owner\", \"MultiLocationV3\"]]"], [b!"RequestUnlock", b!"[[\"asset\", \"MultiAssetV3\"], [\"locker\", \"MultiLocationV3\"]]"], [b!"SetFeesMode", b!"[[\"jit_withdraw\", \"bool\"]]"], [b!"SetTopic", b!"[u8; 32]"], [b!"ClearTopic", b!"NULL"], [b!"AliasOrigin", b!"MultiLocationV3"], [b!"UnpaidExecution", b!"[[\"weight_limit\", \"WeightV2\"], [\"check_origin\", \"MultiLocationV3\"]]"]] []),
    (b!"InstructionWeights", st [[b!"i64const", b!"u32"], [b!"i64load", b!"u32"], [b!"i64store", b!"u32"], [b!"select", b!"u32"], [b!"rIf", b!"u32"], [b!"br", b!"u32"], [b!"brIf", b!"u32"], [b!"brIable", b!"u32"], [b!"brIablePerEntry", b!"u32"], [b!"call", b!"u32"], [b!"callIndirect", b!"u32"], [b!"callIndirectPerParam", b!"u32"], [b!"localGet", b!"u32"], [b!"localSet", b!"u32"], [b!"local_tee", b!"u32"], [b!"globalGet", b!"u32"], [b!"globalSet", b!"u32"], [b!"memoryCurrent", b!"u32"], [b!"memoryGrow", b!"u32"], [b!"i64clz", b!"u32"], [b!"i64ctz", b!"u32"], [b!"i64popcnt", b!"u32"], [b!"i64eqz", b!"u32"], [b!"i64extendsi32", b!"u32"], [b!"i64extendui32", b!"u32"], [b!"i32wrapi64", b!"u32"], [b!"i64eq", b!"u32"], [b!"i64ne", b!"u32"], [b!"i64lts", b!"u32"], [b!"i64ltu", b!"u32"], [b!"i64gts", b!"u32"], [b!"i64gtu", b!"u32"], [b!"i64les", b!"u32"], [b!"i64leu", b!"u32"], [b!"i64ges", b!"u32"], [b!"i64geu", b!"u32"], [b!"i64add", b!"u32"], [b!"i64sub", b!"u32"], [b!"i64mul", b!"u32"], [b!"i64divs", b!"u32"], [b!"i64divu", b!"u32"], [b!"i64rems", b!"u32"], [b!"i64remu", b!"u32"], [b!"i64and", b!"u32"], [b!"i64or", b!"u32"], [b!"i64xor", b!"u32"], [b!"i64shl", b!"u32"], [b!"i64shrs", b!"u32"], [b!"i64shru", b!"u32"], [b!"i64rotl", b!"u32"], [b!"i64rotr", b!"u32"]]),
    (b!"InteriorMultiLocation", al b!"Junctions"),
    (b!"InteriorMultiLocationV3", al b!"JunctionsV3"),
    (b!"InvalidDisputeStatementKind", en [] [b!"Explicit"]),
    (b!"Judgement", en [[b!"Unknown", b!"Null"], [b!"FeePaid", b!"Balance"], [b!"Reasonable", b!"Null"], [b!"KnownGood", b!"Null"], [b!"OutOfDate", b!"Null"], [b!"LowQuality", b!"Null"], [b!"Erroneous", b!"Null"]] []),
    (b!"Junction", al b!"JunctionV1"),
    (b!"JunctionV0", en [[b!"Parent", b!"Null"], [b!"Parachain", b!"Compact<u32>"], [b!"AccountId32", b!"[[\"network\", \"NetworkId\"], [\"id\", \"AccountId32\"]]"], [b!"AccountIndex64", b!"[[\"network\", \"NetworkId\"], [\"index\", \"Compact<u64>\"]]"], [b!"AccountKey20", b!"[[\"network\", \"NetworkId\"], [\"key\", \"[u8; 20]\"]]"], [b!"PalletInstance", b!"u8"], [b!"GeneralIndex", b!"Compact<u128>"], [b!"GeneralKey", b!"Vec<u8>"], [b!"OnlyChild", b!"Null"], [b!"Plurality", b!"[[\"id\", \"BodyId\"], [\"part\", \"BodyPart\"]]"]] []),
    (b!"JunctionV1", en [[b!"Parachain", b!"Compact<u32>"], [b!"AccountId32", b!"[[\"network\", \"NetworkId\"], [\"id\", \"AccountId32\"]]"], [b!"AccountIndex64", b!"[[\"network\", \"NetworkId\"], [\"index\", \"Compact<u64>\"]]"], [b!"AccountKey20", b!"[[\"network\", \"NetworkId\"], [\"key\", \"[u8; 20]\"]]"], [b!"PalletInstance", b!"u8"], [b!"GeneralIndex", b!"Compact<u128>"], [b!"GeneralKey", b!"Vec<u8>"], [b!"OnlyChild", b!"Null"], [b!"Plurality", b!"[[\"id\", \"BodyId\"], [\"part\", \"BodyPart\"]]"]] []),
    (b!"JunctionV2", al b!"JunctionV1"),
    (b!"JunctionV3", en [[b!"Parachain", b!"Compact<u32>"], [b!"AccountId32", b!"[[\"network\", \"option<NetworkIdV3>\"], [\"id\", \"AccountId32\"]]"], [b!"AccountIndex64", b!"[[\"network\", \"option<NetworkIdV3>\"], [\"index\", \"Compact<u64>\"]]"], [b!"AccountKey20", b!"[[\"network\", \"option<NetworkIdV3>\"], [\"key\", \"[u8; 20]\"]]"], [b!"PalletInstance", b!"u8"], [b!"GeneralIndex", b!"Compact<u128>"], [b!"GeneralKey", b!"GeneralKeyV3"], [b!"OnlyChild", b!"NULL"], [b!"Plurality", b!"[[\"id\", \"BodyId\"], [\"part\", \"BodyPart\"]]"], [b!"GlobalConsensus", b!"NetworkIdV3"]] []),
    (b!"Junctions", al b!"JunctionsV1"),
    (b!"JunctionsV1", en [[b!"Here", b!"Null"], [b!"X1", b!"JunctionV1"], [b!"X2", b!"(JunctionV1, JunctionV1)"], [b!"X3", b!"(JunctionV1, JunctionV1, JunctionV1)"], [b!"X4", b!"(JunctionV1, JunctionV1, JunctionV1, JunctionV1)"], [b!"X5", b!"(JunctionV1, JunctionV1, JunctionV1, JunctionV1, JunctionV1)"], [b!"X6", b!"(JunctionV1, JunctionV1, JunctionV1, JunctionV1, JunctionV1, JunctionV1)"], [b!"X7", b!"(JunctionV1, JunctionV1, JunctionV1, JunctionV1, JunctionV1, JunctionV1, JunctionV1)"], [b!"X8", b!"(JunctionV1, JunctionV1, JunctionV1, JunctionV1, JunctionV1, JunctionV1, JunctionV1, JunctionV1)"]] []),
    (b!"JunctionsV2", al b!"JunctionsV1"),
    (b!"JunctionsV3", en [[b!"Here", b!"NULL"], [b!"X1", b!"JunctionV3"], [b!"X2", b!"(JunctionV3, JunctionV3)"], [b!"X3", b!"(JunctionV3, JunctionV3, JunctionV3)"], [b!"X4", b!"(JunctionV3, JunctionV3, JunctionV3, JunctionV3)"], [b!"X5", b!"(JunctionV3, JunctionV3, JunctionV3, JunctionV3, JunctionV3)"], [b!"X6", b!"(JunctionV3, JunctionV3, JunctionV3, JunctionV3, JunctionV3, JunctionV3)"], [b!"X7", b!"(JunctionV3, JunctionV3, JunctionV3, JunctionV3, JunctionV3, JunctionV3, JunctionV3)"], [b!"X8", b!"(JunctionV3, JunctionV3, JunctionV3, JunctionV3, JunctionV3, JunctionV3, JunctionV3, JunctionV3)"]] []),
    (b!"JustificationNotification", al b!"Bytes"),
    (b!"Key", al b!"Bytes"),
    (b!"KeyOwnerProof", al b!"MembershipProof"),
    (b!"KeyTypeId", al b!"u32"),
    (b!"KeyValue", st [[b!"key", b!"Vec<u8>"], [b!"value", b!"Vec<u8>"]]),
    (b!"KeyValueOption", al b!"(StorageKey, Option<StorageData>)"),
    (b!"Keys", st [[b!"grandpa", b!"AccountId"], [b!"babe", b!"AccountId"], [b!"im_online", b!"AccountId"], [b!"authority_discovery", b!"AccountId"]]) ]

/-- Entries of `BaseType` (source/base.go:6), part 8. -/
def part7 : List (Str × TypeDef) :=
  [ (b!"Kind", al b!"[u8; 16]"),
    (b!"LaneId", al b!"[u8; 4]"),
    (b!"LastContribution", en [[b!"Never", b!"Null"], [b!"PreEnding", b!"u32"], [b!"Ending", b!"BlockNumber"]] []),
    (b!"LastRuntimeUpgradeInfo", st [[b!"specVersion", b!"Compact<u32>"], [b!"specName", b!"Bytes"]]),
    (b!"LeasePeriod", al b!"BlockNumber"),
    (b!"LeasePeriodOf", al b!"LeasePeriod"),
    (b!"LegacyTransaction", st [[b!"nonce", b!"U256"], [b!"gasPrice", b!"U256"], [b!"gasLimit", b!"U256"], [b!"action", b!"EthTransactionAction"], [b!"value", b!"U256"], [b!"input", b!"Bytes"], [b!"signature", b!"EthTransactionSignature"]]),
    (b!"Limits", st [[b!"eventTopics", b!"u32"], [b!"stackHeight", b!"u32"], [b!"globals", b!"u32"], [b!"parameters", b!"u32"], [b!"memoryPages", b!"u32"], [b!"tableSize", b!"u32"], [b!"brTableSize", b!"u32"], [b!"subjectLen", b!"u32"], [b!"codeSize", b!"u32"]]),
    (b!"Linkage", st [[b!"previous", b!"Option<AccountId>"], [b!"next", b!"Option<AccountId>"]]),
    (b!"LocalValidationData", st [[b!"parentHead", b!"HeadData"], [b!"balance", b!"Balance"], [b!"codeUpgradeAllowed", b!"Option<BlockNumber>"]]),
    (b!"Log", st [[b!"address", b!"H160"], [b!"topics", b!"Vec<H256>"], [b!"data", b!"Vec<u8>"]]),
    (b!"LookupSource", al b!"AccountId"),
    (b!"LotteryConfig", st [[b!"price", b!"Balance"], [b!"start", b!"BlockNumber"], [b!"length", b!"BlockNumber"], [b!"delay", b!"BlockNumber"], [b!"repeat", b!"bool"]]),
    (b!"MaybeErrorCodeV3", en [[b!"Success", b!"NULL"], [b!"Error", b!"Vec<U8>"], [b!"TruncatedError", b!"Vec<U8>"]] []),
    (b!"MaybeRandomness", al b!"Option<Randomness>"),
    (b!"MaybeVrf", al b!"[u8; 32]"),
    (b!"MemberCount", al b!"u32"),
    (b!"MembershipProof", st [[b!"session", b!"sessionIndex"], [b!"trieNodes", b!"Vec<Vec<u8>>"], [b!"validatorCount", b!"ValidatorCount"]]),
    (b!"MessageData", st [[b!"payload", b!"Bytes"], [b!"fee", b!"Balance"]]),
    (b!"MessageId", al b!"[u8; 32]"),
    (b!"MessageIngestionType", st [[b!"downwardMessages", b!"Vec<InboundDownwardMessage>"], [b!"horizontalMessages", b!"BTreeMap<ParaId, InboundHrmpMessages>"]]),
    (b!"MessageKey", st [[b!"laneId", b!"LaneId"], [b!"nonce", b!"MessageNonce"]]),
    (b!"MessageNonce", al b!"u64"),
    (b!"MessageQueueChain", al b!"RelayChainHash"),
    (b!"MessagesDeliveryProofOf", st [[b!"bridgedHeaderHash", b!"BlockHash"], [b!"storageProof", b!"Vec<Bytes>"], [b!"lane", b!"LaneId"]]),
    (b!"MessagesProofOf", st [[b!"bridgedHeaderHash", b!"BridgedBlockHash"], [b!"storageProof", b!"Vec<Bytes>"], [b!"lane", b!"LaneId"], [b!"noncesStart", b!"MessageNonce"], [b!"noncesEnd", b!"MessageNonce"]]),
    (b!"MessagingStateSnapshot", st [[b!"relayDispatchQueueSize", b!"(u32, u32)"], [b!"egressChannels", b!"Vec<MessagingStateSnapshotEgressEntry>"]]),
    (b!"MessagingStateSnapshotEgressEntry", al b!"(ParaId, AbridgedHrmpChannel)"),
    (b!"MetadataVersion", en [] [b!"MetadataV0Decoder", b!"MetadataV1Decoder", b!"MetadataV2Decoder", b!"MetadataV3Decoder", b!"MetadataV4Decoder", b!"MetadataV5Decoder", b!"MetadataV6Decoder", b!"MetadataV7Decoder", b!"MetadataV8Decoder", b!"MetadataV9Decoder", b!"MetadataV10Decoder", b!"MetadataV11Decoder", b!"MetadataV12Decoder", b!"MetadataV13Decoder", b!"MetadataV14Decoder", b!"MetadataV15Decoder"]),
    (b!"MmrRootHash", al b!"H256"),
    (b!"ModuleId", al b!"LockIdentifier"),
    (b!"MomentOf", al b!"Moment"),
    (b!"MoreAttestations", al b!"Null"),
    (b!"MultiAddress", al b!"GenericMultiAddress"),
    (b!"MultiAsset", al b!"MultiAssetV1"),
    (b!"MultiAssetFilter", al b!"MultiAssetFilterV1"),
    (b!"MultiAssetFilterV1", en [[b!"Definite", b!"MultiAssetsV1"], [b!"Wild", b!"WildMultiAssetV1"]] []),
    (b!"MultiAssetFilterV2", al b!"MultiAssetFilterV1"),
    (b!"MultiAssetFilterV3", en [[b!"Definite", b!"MultiAssetsV3"], [b!"Wild", b!"WildMultiAssetV3"]] []),
    (b!"MultiAssetV0", en [[b!"None", b!"Null"], [b!"All", b!"Null"], [b!"AllFungible", b!"Null"], [b!"AllNonFungible", b!"Null"], [b!"AllAbstractFungible", b!"Vec<u8>"], [b!"AllAbstractNonFungible", b!"Vec<u8>"], [b!"AllConcreteFungible", b!"MultiLocationV0"], [b!"AllConcreteNonFungible", b!"MultiLocationV0"], [b!"AbstractFungible", b!"[[\"id\", \"Vec<u8>\"], [\"instance\", \"Compact<u128>\"]]"], [b!"AbstractNonFungible", b!"[[\"class\", \"Vec<u8>\"], [\"instance\", \"AssetInstanceV0\"]]"], [b!"ConcreteFungible", b!"[[\"id\", \"MultiLocationV0\"], [\"amount\", \"Compact<u128>\"]]"], [b!"ConcreteNonFungible", b!"[[\"class\", \"MultiLocationV0\"], [\"instance\", \"AssetInstanceV0\"]]"]] []),
    (b!"MultiAssetV1", st [[b!"id", b!"XcmAssetId"], [b!"fun", b!"FungibilityV1"]]),
    (b!"MultiAssetV2", al b!"MultiAssetV1"),
    (b!"MultiAssetV3", st [[b!"id", b!"XcmAssetIdV3"], [b!"fun", b!"FungibilityV3"]]),
    (b!"MultiAssets", al b!"Vec<MultiAsset>"),
    (b!"MultiAssetsV1", al b!"Vec<MultiAssetV1>"),
    (b!"MultiAssetsV2", al b!"MultiAssetsV1"),
    (b!"MultiAssetsV3", al b!"Vec<MultiAssetV3>"),
    (b!"MultiDisputeStatementSet", al b!"Vec<DisputeStatementSet>"),
    (b!"MultiLocation", al b!"MultiLocationV1"),
    (b!"MultiLocationV0", en [[b!"Here", b!"Null"], [b!"X1", b!"JunctionV0"], [b!"X2", b!"(JunctionV0, JunctionV0)"], [b!"X3", b!"(JunctionV0, JunctionV0, JunctionV0)"], [b!"X4", b!"(JunctionV0, JunctionV0, JunctionV0, JunctionV0)"], [b!"X5", b!"(JunctionV0, JunctionV0, JunctionV0, JunctionV0, JunctionV0)"], [b!"X6", b!"(JunctionV0, JunctionV0, JunctionV0, JunctionV0, JunctionV0, JunctionV0)"], [b!"X7", b!"(JunctionV0, JunctionV0, JunctionV0, JunctionV0, JunctionV0, JunctionV0, JunctionV0)"], [b!"X8", b!"(JunctionV0, JunctionV0, JunctionV0, JunctionV0, JunctionV0, JunctionV0, JunctionV0, JunctionV0)"]] []) ]

/-- Entries of `BaseType` (source/base.go:6), part 9. -/
def part8 : List (Str × TypeDef) :=
  [ (b!"MultiLocationV1", st [[b!"parents", b!"u8"], [b!"interior", b!"JunctionsV1"]]),
    (b!"MultiLocationV2", al b!"MultiLocationV1"),
    (b!"MultiLocationV3", st [[b!"parents", b!"u8"], [b!"interior", b!"JunctionsV3"]]),
    (b!"MultiSignature", en [[b!"Ed25519", b!"Ed25519Signature"], [b!"Sr25519", b!"Sr25519Signature"], [b!"Ecdsa", b!"EcdsaSignature"]] []),
    (b!"MultiSigner", en [[b!"Ed25519", b!"[u8; 32]"], [b!"Sr25519", b!"[u8; 32]"], [b!"Ecdsa", b!"[u8; 33]"]] []),
    (b!"Multiplier", al b!"u64"),
    (b!"Multisig", st [[b!"when", b!"Timepoint"], [b!"deposit", b!"Balance"], [b!"depositor", b!"AccountId"], [b!"approvals", b!"Vec<AccountId>"]]),
    (b!"NetworkId", en [[b!"Any", b!"Null"], [b!"Named", b!"Vec<u8>"], [b!"Polkadot", b!"Null"], [b!"Kusama", b!"Null"]] []),
    (b!"NetworkIdV3", en [[b!"ByGenesis", b!"[u8; 32]"], [b!"ByFork", b!"ByForkV3"], [b!"Polkadot", b!"NULL"], [b!"Kusama", b!"NULL"], [b!"Westend", b!"NULL"], [b!"Rococo", b!"NULL"], [b!"Wococo", b!"NULL"], [b!"Ethereum", b!"U64"], [b!"BitcoinCore", b!"NULL"], [b!"BitcoinCash", b!"NULL"]] []),
    (b!"NewBidder", st [[b!"who", b!"AccountId"], [b!"sub", b!"SubId"]]),
    (b!"NextAuthority", st [[b!"AuthorityId", b!"AuthorityId"], [b!"weight", b!"AuthorityWeight"]]),
    (b!"NextConfigDescriptor", en [[b!"V0", b!"Null"], [b!"V1", b!"NextConfigDescriptorV1"]] []),
    (b!"NextConfigDescriptorV1", st [[b!"c", b!"(u64, u64)"], [b!"allowedSlots", b!"AllowedSlots"]]),
    (b!"Nominations", st [[b!"targets", b!"Vec<AccountId>"], [b!"submittedIn", b!"EraIndex"], [b!"suppressed", b!"bool"]]),
    (b!"NominatorIndex", al b!"u32"),
    (b!"NominatorIndexCompact", al b!"Compact<NominatorIndex>"),
    (b!"OffchainAccuracy", al b!"u16"),
    (b!"OffchainAccuracyCompact", al b!"Compact<OffchainAccuracy>"),
    (b!"OffenceDetails", st [[b!"offender", b!"Offender"], [b!"reporters", b!"Vec<Reporter>"]]),
    (b!"OffenceDetails<AccountId, IdentificationTuple>", st [[b!"offender", b!"Offender"], [b!"reporters", b!"Vec<Reporter>"]]),
    (b!"Offender", al b!"IdentificationTuple"),
    (b!"OpaqueMultiaddr", al b!"Bytes"),
    (b!"OpaqueNetworkState", st [[b!"peerId", b!"OpaquePeerId"], [b!"externalAddresses", b!"Vec<OpaqueMultiaddr>"]]),
    (b!"OpaquePeerId", al b!"Bytes"),
    (b!"OpaqueTimeSlot", al b!"Bytes"),
    (b!"OpenTip", st [[b!"reason", b!"Hash"], [b!"who", b!"AccountId"], [b!"finder", b!"AccountId"], [b!"deposit", b!"Balance"], [b!"closes", b!"Option<BlockNumber>"], [b!"tips", b!"Vec<OpenTipTip>"], [b!"findersFee", b!"bool"]]),
    (b!"OpenTip<AccountId, BalanceOf, BlockNumber, Hash>", st [[b!"reason", b!"Hash"], [b!"who", b!"AccountId"], [b!"finder", b!"Option<OpenTipFinder>"], [b!"closes", b!"Option<BlockNumber>"], [b!"tips", b!"Vec<OpenTipTip>"]]),
    (b!"OpenTipFinder", al b!"(AccountId, Balance)"),
    (b!"OpenTipTip", al b!"(AccountId, Balance)"),
    (b!"OperatingMode", en [] [b!"Normal", b!"RejectingOutboundMessages", b!"Halted"]),
    (b!"Order", en [[b!"Null", b!"Null"], [b!"DepositAsset", b!"DepositAsset"], [b!"DepositReserveAsset", b!"DepositReserveAsset"], [b!"ExchangeAsset", b!"ExchangeAsset"], [b!"InitiateReserveWithdraw", b!"InitiateReserveWithdraw"], [b!"InitiateTeleport", b!"InitiateTeleport"], [b!"QueryHolding", b!"QueryHolding"]] []),
    (b!"Origin", al b!"Null"),
    (b!"OriginCaller", en [[b!"System", b!"SystemOrigin"]] []),
    (b!"OriginKind", en [] [b!"Native", b!"SovereignAccount", b!"Superuser"]),
    (b!"OriginKindV0", en [] [b!"Native", b!"SovereignAccount", b!"Superuser", b!"Xcm"]),
    (b!"OriginKindV1", al b!"OriginKindV0"),
    (b!"OriginKindV2", al b!"OriginKindV1"),
    (b!"OutboundHrmpMessage", st [[b!"recipient", b!"u32"], [b!"data", b!"Bytes"]]),
    (b!"OutboundLaneData", st [[b!"oldestUnprunedNonce", b!"MessageNonce"], [b!"latestReceivedNonce", b!"MessageNonce"], [b!"latestGeneratedNonce", b!"MessageNonce"]]),
    (b!"OutboundMessageFee", al b!"Balance"),
    (b!"OutboundPayload", st [[b!"specVersion", b!"u32"], [b!"weight", b!"Weight"], [b!"origin", b!"CallOrigin"], [b!"dispatchFeePayment", b!"DispatchFeePayment"], [b!"call", b!"Bytes"]]),
    (b!"OutboundStatus", en [] [b!"Ok", b!"Suspended"]),
    (b!"Outcome", en [[b!"Complete", b!"Weight"], [b!"Incomplete", b!"(Weight, XcmErrorV0)"], [b!"Error", b!"XcmErrorV0"]] []),
    (b!"OverweightIndex", al b!"u64"),
    (b!"Owner", en [[b!"None", b!"Null"], [b!"Address", b!"AccountId"]] []),
    (b!"PageCounter", al b!"u32"),
    (b!"PageIndexData", st [[b!"beginUsed", b!"PageCounter"], [b!"endUsed", b!"PageCounter"], [b!"overweightCount", b!"OverweightIndex"]]),
    (b!"PalletCallMetadataV14", st [[b!"type", b!"SiLookupTypeId"]]),
    (b!"PalletErrorMetadataV14", st [[b!"type", b!"SiLookupTypeId"]]),
    (b!"PalletEventMetadataV14", st [[b!"type", b!"SiLookupTypeId"]]) ]

/-- Entries of `BaseType` (source/base.go:6), part 10. -/
def part9 : List (Str × TypeDef) :=
  [ (b!"PalletId", al b!"LockIdentifier"),
    (b!"PalletInfoV3", st [[b!"index", b!"Compact<u32>"], [b!"name", b!"Vec<u8>"], [b!"module_name", b!"Vec<u8>"], [b!"major", b!"Compact<u32>"], [b!"minor", b!"Compact<u32>"], [b!"patch", b!"Compact<u32>"]]),
    (b!"PalletVersion", st [[b!"major", b!"u16"], [b!"minor", b!"u8"], [b!"patch", b!"u8"]]),
    (b!"PalletsOrigin", al b!"OriginCaller"),
    (b!"ParaGenesisArgs", st [[b!"genesisHead", b!"Bytes"], [b!"validationCode", b!"Bytes"], [b!"parachain", b!"bool"]]),
    (b!"ParaId", al b!"u32"),
    (b!"ParaInfo", st [[b!"manager", b!"AccountId"], [b!"deposit", b!"Balance"]]),
    (b!"ParaLifecycle", en [] [b!"Onboarding", b!"Parathread", b!"Parachain", b!"UpgradingToParachain", b!"DowngradingToParathread", b!"OutgoingParathread", b!"OutgoingParachain"]),
    (b!"ParaPastCodeMeta", st [[b!"upgradeTimes", b!"Vec<ReplacementTimes>"], [b!"lastPruned", b!"Option<BlockNumber>"]]),
    (b!"ParaScheduling", en [] [b!"Always", b!"Dynamic"]),
    (b!"ParaValidatorIndex", al b!"u32"),
    (b!"ParachainDispatchOrigin", en [] [b!"Signed", b!"Parachain", b!"Root"]),
    (b!"ParachainInherentData", st [[b!"validationData", b!"PersistedValidationData"], [b!"relayChainState", b!"StorageProof"], [b!"downwardMessages", b!"Vec<InboundDownwardMessage>"], [b!"horizontalMessages", b!"BTreeMap<ParaId, VecInboundHrmpMessage>"]]),
    (b!"ParachainProposal", st [[b!"proposer", b!"AccountId"], [b!"genesis_head", b!"HeadData"], [b!"validators", b!"Vec<ValidatorId>"], [b!"name", b!"Vec<U8>"], [b!"balance", b!"Balance"]]),
    (b!"ParachainsInherentData", st [[b!"bitfields", b!"SignedAvailabilityBitfields"], [b!"backedCandidates", b!"Vec<BackedCandidate>"], [b!"disputes", b!"MultiDisputeStatementSet"], [b!"parentHeader", b!"Header"]]),
    (b!"Parameter", al b!"Null"),
    (b!"ParathreadClaim", al b!"(ParaId, CollatorId)"),
    (b!"ParathreadClaimQueue", st [[b!"queue", b!"Vec<QueuedParathread>"], [b!"nextCoreOffset", b!"u32"]]),
    (b!"ParathreadEntry", st [[b!"claim", b!"ParathreadClaim"], [b!"retries", b!"u32"]]),
    (b!"Pays", en [] [b!"Yes", b!"No"]),
    (b!"PendingChange", st [[b!"nextAuthorities", b!"AuthorityList"], [b!"delay", b!"BlockNumber"], [b!"canonHeight", b!"BlockNumber"], [b!"canonHash", b!"BlockHash"], [b!"delayKind", b!"DelayKind"]]),
    (b!"PendingPause", st [[b!"scheduledAt", b!"BlockNumber"], [b!"delay", b!"BlockNumber"]]),
    (b!"PendingResume", st [[b!"scheduledAt", b!"BlockNumber"], [b!"delay", b!"BlockNumber"]]),
    (b!"PerDispatchClass", st [[b!"normal", b!"WeightPerClass"], [b!"operational", b!"WeightPerClass"], [b!"mandatory", b!"WeightPerClass"]]),
    (b!"PerDispatchClassU32", st [[b!"normal", b!"u32"], [b!"operational", b!"u32"], [b!"mandatory", b!"u32"]]),
    (b!"PerU16", al b!"u16"),
    (b!"Perbill", al b!"u32"),
    (b!"Percent", al b!"u8"),
    (b!"Period", al b!"(BlockNumber, u32)"),
    (b!"Permill", al b!"u32"),
    (b!"PermissionLatest", al b!"PermissionsV1"),
    (b!"PermissionVersions", en [[b!"V1", b!"PermissionsV1"]] []),
    (b!"PermissionsV1", st [[b!"update", b!"Owner"], [b!"mint", b!"Owner"], [b!"burn", b!"Owner"]]),
    (b!"Perquintill", al b!"u64"),
    (b!"PersistedValidationData", st [[b!"parentHead", b!"HeadData"], [b!"relayParentNumber", b!"RelayChainBlockNumber"], [b!"relayParentStorageRoot", b!"Hash"], [b!"maxPovSize", b!"u32"]]),
    (b!"PhantomData", al b!"Null"),
    (b!"Phase", en [[b!"ApplyExtrinsic", b!"u32"], [b!"Finalization", b!"Null"], [b!"Initialization", b!"Null"]] []),
    (b!"PhragmenScore", al b!"[u128; 3]"),
    (b!"Points", al b!"u32"),
    (b!"PortableRegistry", al b!"GenericPortableRegistry"),
    (b!"PortableType", st [[b!"id", b!"SiLookupTypeId"], [b!"type", b!"SiType"]]),
    (b!"Precommit", st [[b!"target_hash", b!"BridgedBlockHash"], [b!"target_number", b!"BridgedBlockNumber"]]),
    (b!"Precommits", st [[b!"currentWeight", b!"u32"], [b!"missing", b!"BTreeSet<AuthorityId>"]]),
    (b!"PrefabWasmModule", st [[b!"scheduleVersion", b!"Compact<u32>"], [b!"initial", b!"Compact<u32>"], [b!"maximum", b!"Compact<u32>"], [b!"_reserved", b!"PrefabWasmModuleReserved"], [b!"code", b!"Bytes"]]),
    (b!"PrefabWasmModuleReserved", al b!"Option<Null>"),
    (b!"PreimageStatus", en [[b!"Missing", b!"BlockNumber"], [b!"Available", b!"PreimageStatusAvailable"]] []),
    (b!"PreimageStatusAvailable", st [[b!"data", b!"Bytes"], [b!"provider", b!"AccountId"], [b!"deposit", b!"Balance"], [b!"since", b!"BlockNumber"], [b!"expiry", b!"Option<BlockNumber>"]]),
    (b!"Prevotes", st [[b!"currentWeight", b!"u32"], [b!"missing", b!"BTreeSet<AuthorityId>"]]),
    (b!"PriorLock", st [[b!"blockNumber", b!"BlockNumber"], [b!"balance", b!"Balance"]]),
    (b!"Priority", al b!"u8") ]

/-- Entries of `BaseType` (source/base.go:6), part 11. -/
def part10 : List (Str × TypeDef) :=
  [ (b!"PropIndex", al b!"U32"),
    (b!"Proposal", al b!"BoxProposal"),
    (b!"ProposalCategory", en [] [b!"Signaling"]),
    (b!"ProposalContents", al b!"Bytes"),
    (b!"ProposalIndex", al b!"u32"),
    (b!"ProposalStage", en [] [b!"PreVoting", b!"Voting", b!"Completed"]),
    (b!"ProposalTitle", al b!"Bytes"),
    (b!"ProxyAnnouncement", st [[b!"real", b!"AccountId"], [b!"callHash", b!"Hash"], [b!"height", b!"BlockNumber"]]),
    (b!"ProxyDefinition", st [[b!"delegate", b!"AccountId"], [b!"proxyType", b!"ProxyType"], [b!"delay", b!"BlockNumber"]]),
    (b!"ProxyState", st [[b!"Open", b!"AccountId"], [b!"Active", b!"AccountId"]]),
    (b!"ProxyType", en [] [b!"Any", b!"NonTransfer", b!"Governance", b!"Staking", b!"CancelProxy"]),
    (b!"QueryHolding", st [[b!"query_id", b!"Compact<u64>"], [b!"dest", b!"MultiLocation"], [b!"assets", b!"Vec<MultiAsset>"]]),
    (b!"QueryId", al b!"u64"),
    (b!"QueryResponseInfoV3", st [[b!"destination", b!"MultiLocationV3"], [b!"query_id", b!"Compact<u64>"], [b!"max_weight", b!"WeightV2"]]),
    (b!"QueryResponseV3", st [[b!"query_id", b!"compact<u64>"], [b!"response", b!"ResponseV3"], [b!"max_weight", b!"WeightV2"], [b!"querier", b!"Option<MultiLocationV3>"]]),
    (b!"QueryStatus", en [[b!"Pending", b!"[[\"responder\", \"VersionedMultiLocation\"], [\"maybeNotify\", \"Option<(u8, u8)>\"], [\"timeout\", \"BlockNumber\"]]"], [b!"Ready", b!"[[\"response\", \"VersionedResponse\"], [\"at\", \"BlockNumber\"]]"]] []),
    (b!"QueueConfigData", st [[b!"suspendThreshold", b!"u32"], [b!"dropThreshold", b!"u32"], [b!"resumeThreshold", b!"u32"], [b!"thresholdWeight", b!"Weight"], [b!"weightRestrictDecay", b!"Weight"]]),
    (b!"QueuedParathread", st [[b!"claim", b!"ParathreadEntry"], [b!"coreOffset", b!"u32"]]),
    (b!"Randomness", al b!"Hash"),
    (b!"RawBabePreDigest", en [[b!"isPhantom", b!"bool"], [b!"Primary", b!"RawBabePreDigestPrimary"], [b!"Secondary", b!"RawBabePreDigestSecondary"], [b!"VRF", b!"RawBabePreDigestSecondaryVRF"]] []),
    (b!"RawBabePreDigestCompat", en [[b!"Zero", b!"u32"], [b!"One", b!"u32"], [b!"Two", b!"u32"], [b!"Three", b!"u32"]] []),
    (b!"RawOrigin", en [[b!"Root", b!"Null"], [b!"Signed", b!"AccountId"], [b!"None", b!"Null"]] []),
    (b!"RawSolution", st [[b!"compact", b!"CompactAssignments"], [b!"score", b!"ElectionScore"], [b!"round", b!"u32"]]),
    (b!"ReadProof", st [[b!"at", b!"Hash"], [b!"proof", b!"Vec<Bytes>"]]),
    (b!"ReadySolution", st [[b!"supports", b!"SolutionSupports"], [b!"score", b!"ElectionScore"], [b!"compute", b!"ElectionCompute"]]),
    (b!"Reasons", en [] [b!"Fee", b!"Misc", b!"All"]),
    (b!"RecoveryConfig", st [[b!"delayPeriod", b!"BlockNumber"], [b!"deposit", b!"Balance"], [b!"friends", b!"Vec<AccountId>"], [b!"threshold", b!"u16"]]),
    (b!"RefCount", al b!"u8"),
    (b!"RefCount1", al b!"u32"),
    (b!"ReferendumIndex", al b!"U32"),
    (b!"ReferendumInfo", st [[b!"end", b!"BlockNumber"], [b!"proposal", b!"Proposal"], [b!"threshold", b!"VoteThreshold"], [b!"delay", b!"BlockNumber"]]),
    (b!"ReferendumInfo<BlockNumber, Hash, Balance>", en [[b!"Ongoing", b!"ReferendumStatus"], [b!"Finished", b!"ReferendumInfoFinished"]] []),
    (b!"ReferendumInfo<BlockNumber, Hash, BalanceOf>", en [[b!"Ongoing", b!"ReferendumStatus"], [b!"Finished", b!"ReferendumInfoFinished"]] []),
    (b!"ReferendumInfo<BlockNumber, Hash>", st [[b!"end", b!"BlockNumber"], [b!"proposalHash", b!"Hash"], [b!"threshold", b!"VoteThreshold"], [b!"delay", b!"BlockNumber"]]),
    (b!"ReferendumInfo<BlockNumber, Proposal>", st [[b!"end", b!"BlockNumber"], [b!"proposal", b!"Proposal"], [b!"threshold", b!"VoteThreshold"], [b!"delay", b!"BlockNumber"]]),
    (b!"ReferendumInfoFinished", st [[b!"approved", b!"bool"], [b!"end", b!"BlockNumber"]]),
    (b!"ReferendumStatus", st [[b!"end", b!"BlockNumber"], [b!"proposalHash", b!"Hash"], [b!"threshold", b!"VoteThreshold"], [b!"delay", b!"BlockNumber"], [b!"tally", b!"Tally"]]),
    (b!"RegisteredParachainInfo", st [[b!"validators", b!"Vec<ValidatorId>"], [b!"proposer", b!"AccountId"]]),
    (b!"RegistrarIndex", al b!"u32"),
    (b!"RegistrarInfo", st [[b!"account", b!"AccountId"], [b!"fee", b!"Balance"], [b!"fields", b!"IdentityFields"]]),
    (b!"Registration", st [[b!"judgements", b!"Vec<RegistrationJudgement>"], [b!"deposit", b!"Balance"], [b!"info", b!"IdentityInfo"]]),
    (b!"RegistrationJudgement", st [[b!"col1", b!"RegistrarIndex"], [b!"col2", b!"Judgement"]]),
    (b!"RelayBlockNumber", al b!"u32"),
    (b!"RelayChainBlockNumber", al b!"RelayBlockNumber"),
    (b!"RelayChainHash", al b!"RelayHash"),
    (b!"RelayHash", al b!"Hash"),
    (b!"RelayTo", st [[b!"dest", b!"MultiLocation"], [b!"inner", b!"VersionedXcm"]]),
    (b!"RelayedFrom", st [[b!"superorigin", b!"MultiLocation"], [b!"inner", b!"VersionedXcm"]]),
    (b!"RelayerId", al b!"AccountId"),
    (b!"Releases", al b!"ReleasesBalances") ]

/-- Entries of `BaseType` (source/base.go:6), part 12. -/
def part11 : List (Str × TypeDef) :=
  [ (b!"ReleasesBalances", en [] [b!"V1_0_0", b!"V2_0_0", b!"V3_0_0", b!"V4_0_0", b!"V5_0_0"]),
    (b!"Remark", al b!"[u8; 32]"),
    (b!"Renouncing", en [[b!"Member", b!"Null"], [b!"RunnerUp", b!"Null"], [b!"Candidate", b!"Compact<u32>"]] []),
    (b!"RentProjection", en [[b!"EvictionAt", b!"BlockNumber"], [b!"NoEviction", b!"Null"]] []),
    (b!"ReplacementTimes", st [[b!"expectedAt", b!"BlockNumber"], [b!"activatedAt", b!"BlockNumber"]]),
    (b!"ReportIdOf", al b!"Hash"),
    (b!"ReportedRoundStates", st [[b!"setId", b!"u32"], [b!"best", b!"RoundState"], [b!"background", b!"Vec<RoundState>"]]),
    (b!"Reporter", al b!"AccountId"),
    (b!"ReserveAssetDeposit", st [[b!"assets", b!"Vec<MultiAsset>"], [b!"effects", b!"Vec<Order>"]]),
    (b!"Response", al b!"ResponseV1"),
    (b!"ResponseV0", en [[b!"Assets", b!"Vec<MultiAssetV0>"]] []),
    (b!"ResponseV1", en [[b!"Assets", b!"MultiAssetsV1"], [b!"Version", b!"U32"]] []),
    (b!"ResponseV2", en [[b!"Null", b!"empty"], [b!"Assets", b!"MultiAssetsV2"], [b!"ExecutionResult", b!"ResponseV2Result"], [b!"Version", b!"U32"]] []),
    (b!"ResponseV2Error", al b!"(u32, XcmErrorV2)"),
    (b!"ResponseV2Result", al b!"Result<U32, ResponseV2Error>"),
    (b!"ResponseV3", en [[b!"NULL", b!"NULL"], [b!"Assets", b!"MultiAssetsV3"], [b!"ExecutionResult", b!"Option<(U32, XcmTraitsErrorV3)>"], [b!"Version", b!"U32"], [b!"PalletsInfo", b!"Vec<PalletInfoV3>"], [b!"DispatchResult", b!"MaybeErrorCodeV3"]] []),
    (b!"Retriable", en [[b!"Never", b!"Null"], [b!"WithRetries", b!"u32"]] []),
    (b!"RewardDestination", en [[b!"Staked", b!"Null"], [b!"Stash", b!"Null"], [b!"Controller", b!"Null"], [b!"Account", b!"AccountId"], [b!"None", b!"Null"]] []),
    (b!"RewardPoint", al b!"u32"),
    (b!"RoundNumber", al b!"U64"),
    (b!"RoundState", st [[b!"round", b!"u32"], [b!"totalWeight", b!"u32"], [b!"thresholdWeight", b!"u32"], [b!"prevotes", b!"Prevotes"], [b!"precommits", b!"Precommits"]]),
    (b!"RpcMethods", st [[b!"version", b!"u32"], [b!"methods", b!"Vec<Text>"]]),
    (b!"RuntimeDbWeight", st [[b!"read", b!"Weight"], [b!"write", b!"Weight"]]),
    (b!"RuntimeVersion", st [[b!"specName", b!"Text"], [b!"implName", b!"Text"], [b!"authoringVersion", b!"u32"], [b!"specVersion", b!"u32"], [b!"implVersion", b!"u32"], [b!"apis", b!"Vec<RuntimeVersionApi>"], [b!"transactionVersion", b!"u32"]]),
    (b!"RuntimeVersionApi", al b!"(ApiId, u32)"),
    (b!"Schedule", st [[b!"version", b!"u32"], [b!"enablePrintln", b!"bool"], [b!"limits", b!"Limits"], [b!"instructionWeights", b!"InstructionWeights"], [b!"hostFnWeights", b!"HostFnWeights"]]),
    (b!"SchedulePeriod", al b!"(BlockNumber, u32)"),
    (b!"SchedulePriority", al b!"u8"),
    (b!"ScheduleTo212", st [[b!"version", b!"u32"], [b!"putCodePerByteCost", b!"Gas"], [b!"growMemCost", b!"Gas"], [b!"regularOpCost", b!"Gas"], [b!"returnDataPerByteCost", b!"Gas"], [b!"eventDataPerByteCost", b!"Gas"], [b!"eventPerTopicCost", b!"Gas"], [b!"eventBaseCost", b!"Gas"], [b!"sandboxDataReadCost", b!"Gas"], [b!"sandboxDataWriteCost", b!"Gas"], [b!"maxEventTopics", b!"u32"], [b!"maxStackHeight", b!"u32"], [b!"maxMemoryPages", b!"u32"], [b!"enablePrintln", b!"bool"], [b!"maxSubjectLen", b!"u32"]]),
    (b!"ScheduleTo258", st [[b!"version", b!"u32"], [b!"putCodePerByteCost", b!"Gas"], [b!"growMemCost", b!"Gas"], [b!"regularOpCost", b!"Gas"], [b!"returnDataPerByteCost", b!"Gas"], [b!"eventDataPerByteCost", b!"Gas"], [b!"eventPerTopicCost", b!"Gas"], [b!"eventBaseCost", b!"Gas"], [b!"sandboxDataReadCost", b!"Gas"], [b!"sandboxDataWriteCost", b!"Gas"], [b!"transferCost", b!"Gas"], [b!"maxEventTopics", b!"u32"], [b!"maxStackHeight", b!"u32"], [b!"maxMemoryPages", b!"u32"], [b!"enablePrintln", b!"bool"], [b!"maxSubjectLen", b!"u32"]]),
    (b!"Scheduled", st [[b!"maybe_id", b!"Option<Bytes>"], [b!"priority", b!"SchedulePriority"], [b!"call", b!"Call"], [b!"maybe_periodic", b!"Option<SchedulePeriod>"], [b!"origin", b!"PalletsOrigin"]]),
    (b!"Scheduling", en [] [b!"Always", b!"Dynamic"]),
    (b!"SeatHolder", st [[b!"who", b!"AccountId"], [b!"stake", b!"Balance"], [b!"deposit", b!"Balance"]]),
    (b!"SeedOf", al b!"Hash"),
    (b!"ServiceQuality", en [] [b!"Ordered", b!"Fast"]),
    (b!"SessionIndex", al b!"U32"),
    (b!"SessionInfo", st [[b!"validators", b!"Vec<ValidatorId>"], [b!"discoveryKeys", b!"Vec<AuthorityDiscoveryId>"], [b!"assignmentKeys", b!"Vec<AssignmentId>"], [b!"validatorGroups", b!"Vec<SessionInfoValidatorGroup>"], [b!"nCores", b!"u32"], [b!"zerothDelayTrancheWidth", b!"u32"], [b!"relayVrfModuloSamples", b!"u32"], [b!"nDelayTranches", b!"u32"], [b!"noShowSlots", b!"u32"], [b!"neededApprovals", b!"u32"]]),
    (b!"SessionInfoValidatorGroup", al b!"Vec<ParaValidatorIndex>"),
    (b!"SessionKeys1", al b!"(AccountId)"),
    (b!"SessionKeys10", al b!"(AccountId, AccountId, AccountId, AccountId, AccountId, AccountId, AccountId, AccountId, AccountId, AccountId)"),
    (b!"SessionKeys10B", al b!"(AccountId, AccountId, AccountId, AccountId, AccountId, AccountId, AccountId, AccountId, AccountId, BeefyKey)"),
    (b!"SessionKeys2", al b!"(AccountId, AccountId)"),
    (b!"SessionKeys3", al b!"(AccountId, AccountId, AccountId)"),
    (b!"SessionKeys4", al b!"(AccountId, AccountId, AccountId, AccountId)"),
    (b!"SessionKeys5", al b!"(AccountId, AccountId, AccountId, AccountId, AccountId)"),
    (b!"SessionKeys6", al b!"(AccountId, AccountId, AccountId, AccountId, AccountId, AccountId)"),
    (b!"SessionKeys6B", al b!"(AccountId, AccountId, AccountId, AccountId, AccountId, BeefyKey)"),
    (b!"SessionKeys7", al b!"(AccountId, AccountId, AccountId, AccountId, AccountId, AccountId, AccountId)"),
    (b!"SessionKeys7B", al b!"(AccountId, AccountId, AccountId, AccountId, AccountId, AccountId, BeefyKey)"),
    (b!"SessionKeys8", al b!"(AccountId, AccountId, AccountId, AccountId, AccountId, AccountId, AccountId, AccountId)") ]

/-- Entries of `BaseType` (source/base.go:6), part 13. -/
def part12 : List (Str × TypeDef) :=
  [ (b!"SessionKeys8B", al b!"(AccountId, AccountId, AccountId, AccountId, AccountId, AccountId, AccountId, BeefyKey)"),
    (b!"SessionKeys9", al b!"(AccountId, AccountId, AccountId, AccountId, AccountId, AccountId, AccountId, AccountId, AccountId)"),
    (b!"SessionKeys9B", al b!"(AccountId, AccountId, AccountId, AccountId, AccountId, AccountId, AccountId, AccountId, BeefyKey)"),
    (b!"SessionKeysPolkadot", st [[b!"grandpa", b!"AccountId"], [b!"babe", b!"AccountId"], [b!"im_online", b!"AccountId"], [b!"authority_discovery", b!"AccountId"], [b!"parachains", b!"AccountId"]]),
    (b!"SetId", al b!"u64"),
    (b!"SiField", st [[b!"name", b!"Option<Text>"], [b!"type", b!"SiLookupTypeId"], [b!"typeName", b!"Option<Text>"], [b!"docs", b!"Vec<Text>"]]),
    (b!"SiLookupTypeId", al b!"Compact<u32>"),
    (b!"SiPath", al b!"Vec<Text>"),
    (b!"SiType", st [[b!"path", b!"SiPath"], [b!"params", b!"Vec<SiTypeParameter>"], [b!"def", b!"SiTypeDef"], [b!"docs", b!"Vec<Text>"]]),
    (b!"SiTypeDef", en [[b!"Composite", b!"SiTypeDefComposite"], [b!"Variant", b!"SiTypeDefVariant"], [b!"Sequence", b!"SiTypeDefSequence"], [b!"Array", b!"SiTypeDefArray"], [b!"Tuple", b!"SiTypeDefTuple"], [b!"Primitive", b!"SiTypeDefPrimitive"], [b!"Compact", b!"SiTypeDefCompact"], [b!"BitSequence", b!"SiTypeDefBitSequence"], [b!"Range", b!"SiTypeDefRange"], [b!"HistoricMetaCompat", b!"String"]] []),
    (b!"SiTypeDefArray", st [[b!"len", b!"u32"], [b!"type", b!"SiLookupTypeId"]]),
    (b!"SiTypeDefBitSequence", st [[b!"bitStoreType", b!"SiLookupTypeId"], [b!"bitOrderType", b!"SiLookupTypeId"]]),
    (b!"SiTypeDefCompact", st [[b!"type", b!"SiLookupTypeId"]]),
    (b!"SiTypeDefComposite", st [[b!"fields", b!"Vec<SiField>"]]),
    (b!"SiTypeDefPrimitive", en [] [b!"Bool", b!"Char", b!"Str", b!"U8", b!"U16", b!"U32", b!"U64", b!"U128", b!"U256", b!"I8", b!"I16", b!"I32", b!"I64", b!"I128", b!"I256"]),
    (b!"SiTypeDefRange", st [[b!"start", b!"SiLookupTypeId"], [b!"end", b!"SiLookupTypeId"], [b!"inclusive", b!"bool"]]),
    (b!"SiTypeDefSequence", st [[b!"type", b!"SiLookupTypeId"]]),
    (b!"SiTypeDefTuple", al b!"Vec<SiLookupTypeId>"),
    (b!"SiTypeDefVariant", st [[b!"variants", b!"Vec<SiVariant>"]]),
    (b!"SiTypeParameter", st [[b!"name", b!"Text"], [b!"type", b!"Option<SiLookupTypeId>"]]),
    (b!"SiVariant", st [[b!"name", b!"Text"], [b!"fields", b!"Vec<SiField>"], [b!"index", b!"u8"], [b!"docs", b!"Vec<Text>"]]),
    (b!"SignedAvailabilityBitfield", st [[b!"payload", b!"BitVec"], [b!"validatorIndex", b!"ParaValidatorIndex"], [b!"signature", b!"ValidatorSignature"]]),
    (b!"SignedAvailabilityBitfields", al b!"Vec<SignedAvailabilityBitfield>"),
    (b!"SignedExtensionMetadataV14", st [[b!"identifier", b!"Text"], [b!"type", b!"SiLookupTypeId"], [b!"additionalSigned", b!"SiLookupTypeId"]]),
    (b!"SignedSubmission", st [[b!"who", b!"AccountId"], [b!"deposit", b!"Balance"], [b!"solution", b!"RawSolution"], [b!"reward", b!"Balance"]]),
    (b!"SignedSubmissionOf", al b!"SignedSubmission"),
    (b!"SigningContext", st [[b!"sessionIndex", b!"SessionIndex"], [b!"parentHash", b!"Hash"]]),
    (b!"SlashingSpans", st [[b!"spanIndex", b!"SpanIndex"], [b!"lastStart", b!"EraIndex"], [b!"lastNonzeroSlash", b!"EraIndex"], [b!"prior", b!"Vec<EraIndex>"]]),
    (b!"Slot", al b!"u64"),
    (b!"SlotNumber", al b!"u64"),
    (b!"SlotRange", en [] [b!"ZeroZero", b!"ZeroOne", b!"ZeroTwo", b!"ZeroThree", b!"OneOne", b!"OneTwo", b!"OneThree", b!"TwoTwo", b!"TwoThree", b!"ThreeThree"]),
    (b!"SolutionOrSnapshotSize", st [[b!"voters", b!"Compact<u32>"], [b!"targets", b!"Compact<u32>"]]),
    (b!"SolutionSupport", st [[b!"total", b!"ExtendedBalance"], [b!"voters", b!"Vec<(AccountId, ExtendedBalance)>"]]),
    (b!"SolutionSupports", al b!"Vec<(AccountId, SolutionSupport)>"),
    (b!"SpanIndex", al b!"u32"),
    (b!"SpanRecord", st [[b!"slashed", b!"Balance"], [b!"paidOut", b!"Balance"]]),
    (b!"SpecVersion", al b!"u32"),
    (b!"Sr25519Signature", al b!"H512"),
    (b!"StakingLedger<AccountId, BalanceOf>", st [[b!"stash", b!"AccountId"], [b!"total", b!"Compact<Balance>"], [b!"active", b!"Compact<Balance>"], [b!"unlocking", b!"Vec<UnlockChunk<Balance>>"], [b!"lastReward", b!"Option<EraIndex>"]]),
    (b!"Statement", en [[b!"Never", b!"Null"], [b!"Candidate", b!"Hash"], [b!"Valid", b!"Hash"], [b!"Invalid", b!"Hash"]] []),
    (b!"StatementKind", en [] [b!"Regular", b!"Saft"]),
    (b!"Status", al b!"BalanceStatus"),
    (b!"StorageChangeSet", st [[b!"block", b!"Hash"], [b!"changes", b!"Vec<KeyValueOption>"]]),
    (b!"StorageData", al b!"Bytes"),
    (b!"StorageFunctionType", en [] [b!"PlainType", b!"MapType", b!"DoubleMapType", b!"NMap"]),
    (b!"StorageFunctionTypeV14", en [] [b!"PlainType", b!"Map"]),
    (b!"StorageHasher", en [] [b!"Blake2_128", b!"Blake2_256", b!"Blake2_128Concat", b!"Twox128", b!"Twox256", b!"Twox64Concat", b!"Identity"]),
    (b!"StorageKey", al b!"Bytes"),
    (b!"StorageModify", en [] [b!"Optional", b!"Default"]),
    (b!"StorageProof", st [[b!"trieNodes", b!"Vec<Bytes>"]]) ]

/-- Entries of `BaseType` (source/base.go:6), part 14. -/
def part13 : List (Str × TypeDef) :=
  [ (b!"StoredPendingChange", st [[b!"scheduledAt", b!"BlockNumber"], [b!"delay", b!"BlockNumber"], [b!"nextAuthorities", b!"AuthorityList"]]),
    (b!"StoredState", en [[b!"Live", b!"Null"], [b!"PendingPause", b!"PendingPause"], [b!"Paused", b!"Null"], [b!"PendingResume", b!"PendingResume"]] []),
    (b!"StrikeCount", al b!"u32"),
    (b!"SubId", al b!"u32"),
    (b!"SubmissionIndicesOf", al b!"BTreeMap<ElectionScore, u32>"),
    (b!"SyncState", st [[b!"startingBlock", b!"BlockNumber"], [b!"currentBlock", b!"BlockNumber"], [b!"highestBlock", b!"Option<BlockNumber>"]]),
    (b!"SystemInherentData", al b!"ParachainInherentData"),
    (b!"SystemOrigin", al b!"RawOrigin"),
    (b!"TAssetBalance", al b!"u64"),
    (b!"TAssetDepositBalance", al b!"BalanceOf"),
    (b!"Tally", st [[b!"ayes", b!"Balance"], [b!"nays", b!"Balance"], [b!"turnout", b!"Balance"]]),
    (b!"TaskAddress", st [[b!"blockNumber", b!"BlockNumber"], [b!"index", b!"u32"]]),
    (b!"TeleportAsset", st [[b!"assets", b!"Vec<MultiAsset>"], [b!"effects", b!"Vec<Order>"]]),
    (b!"Text", al b!"String"),
    (b!"Timepoint", st [[b!"height", b!"BlockNumber"], [b!"index", b!"u32"]]),
    (b!"TokenError", en [] [b!"NoFunds", b!"WouldDie", b!"BelowMinimum", b!"CannotCreate", b!"UnknownAsset", b!"Frozen", b!"Underflow", b!"Overflow"]),
    (b!"TombstoneContractInfo", al b!"Hash"),
    (b!"TraceBlockResponse", en [[b!"TraceError", b!"TraceError"], [b!"BlockTrace", b!"BlockTrace"]] []),
    (b!"TraceError", st [[b!"error", b!"Text"]]),
    (b!"Transact", st [[b!"originType", b!"OriginKind"], [b!"call", b!"Vec<u8>"]]),
    (b!"TransactionPriority", al b!"u64"),
    (b!"TransactionRecoveryId", al b!"U64"),
    (b!"TransactionSignature", st [[b!"v", b!"TransactionRecoveryId"], [b!"r", b!"H256"], [b!"s", b!"H256"]]),
    (b!"TransactionV0", al b!"LegacyTransaction"),
    (b!"TransactionV1", en [[b!"Legacy", b!"LegacyTransaction"], [b!"EIP2930", b!"EIP2930Transaction"]] []),
    (b!"TransactionV2", en [[b!"Legacy", b!"LegacyTransaction"], [b!"EIP2930", b!"EIP2930Transaction"], [b!"EIP1559", b!"EIP1559Transaction"]] []),
    (b!"TransientValidationData", st [[b!"maxCodeSize", b!"u32"], [b!"maxHeadDataSize", b!"u32"], [b!"balance", b!"Balance"], [b!"codeUpgradeAllowed", b!"Option<BlockNumber>"], [b!"dmqLength", b!"u32"]]),
    (b!"TreasuryProposal", st [[b!"proposer", b!"AccountId"], [b!"value", b!"Balance"], [b!"beneficiary", b!"AccountId"], [b!"bond", b!"Balance"]]),
    (b!"TrieId", al b!"Bytes"),
    (b!"TrieIndex", al b!"u32"),
    (b!"UnappliedSlash", st [[b!"validator", b!"AccountId"], [b!"own", b!"Balance"], [b!"others", b!"Vec<UnappliedSlashOther>"], [b!"reporters", b!"Vec<AccountId>"], [b!"payout", b!"Balance"]]),
    (b!"UnappliedSlash<AccountId, BalanceOf>", st [[b!"validator", b!"AccountId"], [b!"own", b!"Balance"], [b!"others", b!"Vec<UnappliedSlashOther>"], [b!"reporters", b!"Vec<AccountId>"], [b!"payout", b!"Balance"]]),
    (b!"UnappliedSlashOther", st [[b!"account", b!"AccountId"], [b!"amount", b!"Balance"]]),
    (b!"UnlockChunk", st [[b!"value", b!"Compact<Balance>"], [b!"era", b!"Compact<EraIndex>"]]),
    (b!"UnrewardedRelayer", st [[b!"relayer", b!"RelayerId"], [b!"messages", b!"DeliveredMessages"]]),
    (b!"UnrewardedRelayersState", st [[b!"unrewardedRelayer_Entries", b!"MessageNonce"], [b!"messagesInOldestEntry", b!"MessageNonce"], [b!"totalMessages", b!"MessageNonce"]]),
    (b!"UpgradeRestriction", en [] [b!"Present"]),
    (b!"UpwardMessage", al b!"Bytes"),
    (b!"ValidDisputeStatementKind", en [[b!"Explicit", b!"Null"], [b!"BackingSeconded", b!"Hash"], [b!"BackingValid", b!"Hash"], [b!"ApprovalChecking", b!"Null"]] []),
    (b!"ValidationCode", al b!"Bytes"),
    (b!"ValidationCodeHash", al b!"H256"),
    (b!"ValidationData", st [[b!"persisted", b!"PersistedValidationData"], [b!"transient", b!"TransientValidationData"]]),
    (b!"ValidationDataType", st [[b!"validationData", b!"ValidationData"], [b!"relayChainState", b!"Vec<Bytes>"]]),
    (b!"ValidationFunctionParams", st [[b!"maxCodeSize", b!"u32"], [b!"relayChainHeight", b!"RelayChainBlockNumber"], [b!"codeUpgradeAllowed", b!"Option<RelayChainBlockNumber>"]]),
    (b!"ValidatorCount", al b!"u32"),
    (b!"ValidatorId", al b!"AccountId"),
    (b!"ValidatorIdOf", al b!"ValidatorId"),
    (b!"ValidatorIndex", al b!"u16"),
    (b!"ValidatorIndexCompact", al b!"Compact<ValidatorIndex>"),
    (b!"ValidatorPrefs", al b!"ValidatorPrefsWithCommission") ]

/-- Entries of `BaseType` (source/base.go:6), part 15. -/
def part14 : List (Str × TypeDef) :=
  [ (b!"ValidatorPrefsWithBlocked", st [[b!"commission", b!"Compact<Perbill>"], [b!"blocked", b!"bool"]]),
    (b!"ValidatorPrefsWithCommission", st [[b!"commission", b!"Compact<Perbill>"]]),
    (b!"ValidatorSetId", al b!"u64"),
    (b!"ValidatorSignature", al b!"Signature"),
    (b!"ValidityAttestation", en [[b!"Never", b!"Null"], [b!"Implicit", b!"ValidatorSignature"], [b!"Explicit", b!"ValidatorSignature"]] []),
    (b!"VecInboundHrmpMessage", al b!"Vec<InboundHrmpMessage>"),
    (b!"VersionMigrationStage", en [[b!"MigrateSupportedVersion", b!"Null"], [b!"MigrateVersionNotifiers", b!"Null"], [b!"NotifyCurrentTargets", b!"Option<Bytes>"], [b!"MigrateAndNotifyOldTargets", b!"Null"]] []),
    (b!"VersionedMultiAsset", en [[b!"V0", b!"MultiAssetV0"], [b!"V1", b!"MultiAssetV1"], [b!"V2", b!"MultiAssetV2"]] []),
    (b!"VersionedMultiAssets", en [[b!"V0", b!"Vec<MultiAssetV0>"], [b!"V1", b!"MultiAssetsV1"], [b!"V2", b!"MultiAssetsV2"]] []),
    (b!"VersionedMultiLocation", en [[b!"V0", b!"MultiLocationV0"], [b!"V1", b!"MultiLocationV1"], [b!"V2", b!"MultiLocationV2"]] []),
    (b!"VersionedResponse", st [[b!"V0", b!"ResponseV0"], [b!"V1", b!"ResponseV1"], [b!"V2", b!"ResponseV2"]]),
    (b!"VersionedXcm", en [[b!"V0", b!"XcmV0"], [b!"V1", b!"XcmV1"], [b!"V2", b!"XcmV2"], [b!"V3", b!"XcmV3"]] []),
    (b!"VestingInfo", st [[b!"locked", b!"Balance"], [b!"perBlock", b!"Balance"], [b!"startingBlock", b!"BlockNumber"]]),
    (b!"Vote", al b!"U8"),
    (b!"VoteStage", en [] [b!"PreVoting", b!"Commit", b!"Voting", b!"Completed"]),
    (b!"VoteThreshold", en [] [b!"SuperMajorityApprove", b!"SuperMajorityAgainst", b!"SimpleMajority"]),
    (b!"Voter", st [[b!"votes", b!"Vec<AccountId>"], [b!"stake", b!"Balance"], [b!"deposit", b!"Balance"]]),
    (b!"Votes", st [[b!"index", b!"ProposalIndex"], [b!"threshold", b!"MemberCount"], [b!"ayes", b!"Vec<AccountId>"], [b!"nays", b!"Vec<AccountId>"]]),
    (b!"Voting", en [[b!"Direct", b!"VotingDirect"], [b!"Delegating", b!"VotingDelegating"]] []),
    (b!"VotingDelegating", st [[b!"balance", b!"Balance"], [b!"target", b!"AccountId"], [b!"conviction", b!"Conviction"], [b!"delegations", b!"Delegations"], [b!"prior", b!"PriorLock"]]),
    (b!"VotingDirect", st [[b!"votes", b!"Vec<VotingDirectVote>"], [b!"delegations", b!"Delegations"], [b!"prior", b!"PriorLock"]]),
    (b!"VotingDirectVote", st [[b!"referendumIndex", b!"ReferendumIndex"], [b!"accountVote", b!"AccountVote"]]),
    (b!"VouchingStatus", en [] [b!"Vouching", b!"Banned"]),
    (b!"VrfData", al b!"[u8; 32]"),
    (b!"VrfOutput", al b!"[u8; 32]"),
    (b!"VrfProof", al b!"[u8; 64]"),
    (b!"Weight", al b!"u32"),
    (b!"WeightLimitV2", en [[b!"Unlimited", b!"empty"], [b!"Limited", b!"Compact<u64>"]] []),
    (b!"WeightLimitV3", en [[b!"Unlimited", b!"Null"], [b!"Limited", b!"WeightV2"]] []),
    (b!"WeightMultiplier", al b!"u64"),
    (b!"WeightPerClass", st [[b!"baseExtrinsic", b!"Weight"], [b!"maxExtrinsic", b!"Weight"], [b!"maxTotal", b!"Option<Weight>"], [b!"reserved", b!"Option<Weight>"]]),
    (b!"WeightV2", st [[b!"ref_time", b!"Compact<u64>"], [b!"proof_size", b!"Compact<u64>"]]),
    (b!"WildFungibilityV0", al b!"WildFungibilityV1"),
    (b!"WildFungibilityV1", en [] [b!"Fungible", b!"NonFungible"]),
    (b!"WildFungibilityV2", al b!"WildFungibilityV1"),
    (b!"WildFungibilityV3", en [] [b!"Fungible", b!"NonFungible"]),
    (b!"WildMultiAsset", al b!"WildMultiAssetV1"),
    (b!"WildMultiAssetV1", en [[b!"All", b!"Null"], [b!"AllOf", b!"[[\"id\", \"XcmAssetId\"], [\"fun\", \"WildFungibilityV1\"]]"]] []),
    (b!"WildMultiAssetV2", al b!"WildMultiAssetV1"),
    (b!"WildMultiAssetV3", en [[b!"All", b!"Null"], [b!"AllOf", b!"[[\"id\", \"XcmAssetIdV3\"], [\"fun\", \"WildFungibilityV3\"]]"], [b!"AllCounted", b!"Compact<u32>"]] []),
    (b!"WinnersData", al b!"Vec<WinnersDataTuple>"),
    (b!"WinnersDataTuple", al b!"(AccountId, ParaId, BalanceOf, SlotRange)"),
    (b!"WinningData", al b!"[WinningDataEntry; 10]"),
    (b!"WinningDataEntry", al b!"Option<(AccountId, ParaId, BalanceOf)>"),
    (b!"WithdrawAsset", st [[b!"assets", b!"Vec<MultiAsset>"], [b!"effects", b!"Vec<Order>"]]),
    (b!"WithdrawReasons", se [b!"TransactionPayment", b!"Transfer", b!"Reserve", b!"Fee", b!"Tip"] 8),
    (b!"Xcm", al b!"XcmV1"),
    (b!"XcmAssetId", en [[b!"Concrete", b!"MultiLocation"], [b!"Abstract", b!"Bytes"]] []),
    (b!"XcmAssetIdV3", en [[b!"Concrete", b!"MultiLocationV3"], [b!"Abstract", b!"[u8; 32]"]] []),
    (b!"XcmError", al b!"XcmErrorV1") ]

/-- Entries of `BaseType` (source/base.go:6), part 16. -/
def part15 : List (Str × TypeDef) :=
  [ (b!"XcmErrorV0", en [[b!"Undefined", b!"Null"], [b!"Overflow", b!"Null"], [b!"Unimplemented", b!"Null"], [b!"UnhandledXcmVersion", b!"Null"], [b!"UnhandledXcmMessage", b!"Null"], [b!"UnhandledEffect", b!"Null"], [b!"EscalationOfPrivilege", b!"Null"], [b!"UntrustedReserveLocation", b!"Null"], [b!"UntrustedTeleportLocation", b!"Null"], [b!"DestinationBufferOverflow", b!"Null"], [b!"SendFailed", b!"Null"], [b!"CannotReachDestination", b!"(MultiLocation, Xcm)"], [b!"MultiLocationFull", b!"Null"], [b!"FailedToDecode", b!"Null"], [b!"BadOrigin", b!"Null"], [b!"ExceedsMaxMessageSize", b!"Null"], [b!"FailedToTransactAsset", b!"Null"], [b!"WeightLimitReached", b!"Weight"], [b!"Wildcard", b!"Null"], [b!"TooMuchWeightRequired", b!"Null"], [b!"NotHoldingFees", b!"Null"], [b!"WeightNotComputable", b!"Null"], [b!"Barrier", b!"Null"], [b!"NotWithdrawable", b!"Null"], [b!"LocationCannotHold", b!"Null"], [b!"TooExpensive", b!"Null"], [b!"AssetNotFound", b!"Null"], [b!"RecursionLimitReached", b!"Null"]] []),
    (b!"XcmErrorV1", en [[b!"Undefined", b!"Null"], [b!"Overflow", b!"Null"], [b!"Unimplemented", b!"Null"], [b!"UnhandledXcmVersion", b!"Null"], [b!"UnhandledXcmMessage", b!"Null"], [b!"UnhandledEffect", b!"Null"], [b!"EscalationOfPrivilege", b!"Null"], [b!"UntrustedReserveLocation", b!"Null"], [b!"UntrustedTeleportLocation", b!"Null"], [b!"DestinationBufferOverflow", b!"Null"], [b!"SendFailed", b!"Null"], [b!"CannotReachDestination", b!"(MultiLocationV1, XcmV1)"], [b!"MultiLocationFull", b!"Null"], [b!"FailedToDecode", b!"Null"], [b!"BadOrigin", b!"Null"], [b!"ExceedsMaxMessageSize", b!"Null"], [b!"FailedToTransactAsset", b!"Null"], [b!"WeightLimitReached", b!"Weight"], [b!"Wildcard", b!"Null"], [b!"TooMuchWeightRequired", b!"Null"], [b!"NotHoldingFees", b!"Null"], [b!"WeightNotComputable", b!"Null"], [b!"Barrier", b!"Null"], [b!"NotWithdrawable", b!"Null"], [b!"LocationCannotHold", b!"Null"], [b!"TooExpensive", b!"Null"], [b!"AssetNotFound", b!"Null"], [b!"DestinationUnsupported", b!"Null"], [b!"RecursionLimitReached", b!"Null"]] []),
    (b!"XcmErrorV2", en [[b!"Undefined", b!"empty"], [b!"Overflow", b!"empty"], [b!"Unimplemented", b!"empty"], [b!"UnhandledXcmVersion", b!"empty"], [b!"UnhandledXcmMessage", b!"empty"], [b!"UnhandledEffect", b!"empty"], [b!"EscalationOfPrivilege", b!"empty"], [b!"UntrustedReserveLocation", b!"empty"], [b!"UntrustedTeleportLocation", b!"empty"], [b!"DestinationBufferOverflow", b!"empty"], [b!"MultiLocationFull", b!"empty"], [b!"MultiLocationNotInvertible", b!"empty"], [b!"FailedToDecode", b!"empty"], [b!"BadOrigin", b!"empty"], [b!"ExceedsMaxMessageSize", b!"empty"], [b!"FailedToTransactAsset", b!"empty"], [b!"WeightLimitReached", b!"Weight"], [b!"Wildcard", b!"empty"], [b!"TooMuchWeightRequired", b!"empty"], [b!"NotHoldingFees", b!"empty"], [b!"WeightNotComputable", b!"empty"], [b!"Barrier", b!"empty"], [b!"NotWithdrawable", b!"empty"], [b!"LocationCannotHold", b!"empty"], [b!"TooExpensive", b!"empty"], [b!"AssetNotFound", b!"empty"], [b!"DestinationUnsupported", b!"empty"], [b!"RecursionLimitReached", b!"empty"], [b!"Transport", b!"empty"], [b!"Unroutable", b!"empty"], [b!"UnknownWeightRequired", b!"empty"], [b!"Trap", b!"u64"], [b!"UnknownClaim", b!"empty"], [b!"InvalidLocation", b!"empty"]] []),
    (b!"XcmOrder", al b!"XcmOrderV1"),
    (b!"XcmOrderV0", en [[b!"Null", b!"Null"], [b!"DepositAsset", b!"[[\"assets\", \"Vec<MultiAssetV0>\"], [\"dest\", \"MultiLocationV0\"]]"], [b!"DepositReserveAsset", b!"[[\"assets\", \"Vec<MultiAssetV0>\"], [\"dest\", \"MultiLocationV0\"], [\"effects\", \"Vec<XcmOrderV0>\"]]"], [b!"ExchangeAsset", b!"[[\"give\", \"Vec<MultiAssetV0>\"], [\"receive\", \"Vec<MultiAssetV0>\"]]"], [b!"InitiateReserveWithdraw", b!"[[\"assets\", \"Vec<MultiAssetV0>\"], [\"reserve\", \"MultiLocationV0\"], [\"effects\", \"Vec<XcmOrderV0>\"]]"], [b!"InitiateTeleport", b!"[[\"assets\", \"Vec<MultiAssetV0>\"], [\"dest\", \"MultiLocationV0\"], [\"effects\", \"Vec<XcmOrderV0>\"]]"], [b!"QueryHolding", b!"[[\"queryId\", \"Compact<u64>\"], [\"dest\", \"MultiLocationV0\"], [\"assets\", \"Vec<MultiAssetV0>\"]]"], [b!"BuyExecution", b!"[[\"fees\", \"MultiAssetV0\"], [\"weight\", \"u64\"], [\"debt\", \"u64\"], [\"haltOnError\", \"bool\"], [\"xcm\", \"Vec<XcmV0>\"]]"]] []),
    (b!"XcmOrderV1", en [[b!"Noop", b!"Null"], [b!"DepositAsset", b!"[[\"assets\", \"MultiAssetFilterV1\"], [\"max_assets\", \"u32\"], [\"beneficiary\", \"MultiLocationV1\"]]"], [b!"DepositReserveAsset", b!"[[\"assets\", \"MultiAssetFilterV1\"], [\"max_assets\", \"u32\"], [\"dest\", \"MultiLocationV1\"], [\"effects\", \"Vec<XcmOrderV1>\"]]"], [b!"ExchangeAsset", b!"[[\"give\", \"MultiAssetFilterV1\"], [\"receive\", \"MultiAssetsV1\"]]"], [b!"InitiateReserveWithdraw", b!"[[\"assets\", \"MultiAssetFilterV1\"], [\"reserve\", \"MultiLocationV1\"], [\"effects\", \"Vec<XcmOrderV1>\"]]"], [b!"InitiateTeleport", b!"[[\"assets\", \"MultiAssetFilterV1\"], [\"dest\", \"MultiLocationV1\"], [\"effects\", \"Vec<XcmOrderV1>\"]]"], [b!"QueryHolding", b!"[[\"queryId\", \"Compact<u64>\"], [\"dest\", \"MultiLocationV1\"], [\"assets\", \"MultiAssetFilterV1\"]]"], [b!"BuyExecution", b!"[[\"fees\", \"MultiAssetV1\"], [\"weight\", \"u64\"], [\"debt\", \"u64\"], [\"halt_on_error\", \"bool\"], [\"instructions\", \"Vec<XcmV1>\"]]"]] []),
    (b!"XcmOrderV2", al b!"XcmOrderV1"),
    (b!"XcmOrigin", en [[b!"Xcm", b!"MultiLocation"]] []),
    (b!"XcmOriginKind", en [] [b!"Native", b!"SovereignAccount", b!"Superuser", b!"Xcm"]),
    (b!"XcmResult", en [[b!"Ok", b!"()"], [b!"Err", b!"XcmError"]] []),
    (b!"XcmTraitsErrorV3", en [[b!"Overflow", b!"NULL"], [b!"Unimplemented", b!"NULL"], [b!"UntrustedReserveLocation", b!"NULL"], [b!"UntrustedTeleportLocation", b!"NULL"], [b!"LocationFull", b!"NULL"], [b!"LocationNotInvertible", b!"NULL"], [b!"BadOrigin", b!"NULL"], [b!"InvalidLocation", b!"NULL"], [b!"AssetNotFound", b!"NULL"], [b!"FailedToTransactAsset", b!"NULL"], [b!"NotWithdrawable", b!"NULL"], [b!"LocationCannotHold", b!"NULL"], [b!"ExceedsMaxMessageSize", b!"NULL"], [b!"DestinationUnsupported", b!"NULL"], [b!"Transport", b!"NULL"], [b!"Unroutable", b!"NULL"], [b!"UnknownClaim", b!"NULL"], [b!"FailedToDecode", b!"NULL"], [b!"MaxWeightInvalid", b!"NULL"], [b!"NotHoldingFees", b!"NULL"], [b!"TooExpensive", b!"NULL"], [b!"Trap", b!"U64"], [b!"ExpectationFalse", b!"NULL"], [b!"PalletNotFound", b!"NULL"], [b!"NameMismatch", b!"NULL"], [b!"VersionIncompatible", b!"NULL"], [b!"HoldingWouldOverflow", b!"NULL"], [b!"ExportError", b!"NULL"], [b!"ReanchorFailed", b!"NULL"], [b!"NoDeal", b!"NULL"], [b!"FeesNotMet", b!"NULL"], [b!"LockError", b!"NULL"], [b!"NoPermission", b!"NULL"], [b!"Unanchored", b!"NULL"], [b!"NotDepositable", b!"NULL"], [b!"UnhandledXcmVersion", b!"NULL"], [b!"WeightLimitReached", b!"WeightV2"], [b!"Barrier", b!"NULL"], [b!"WeightNotComputable", b!"NULL"], [b!"ExceedsStackLimit", b!"NULL"]] []),
    (b!"XcmV0", en [[b!"WithdrawAsset", b!"[[\"assets\", \"Vec<MultiAssetV0>\"], [\"effects\", \"Vec<XcmOrderV0>\"]]"], [b!"ReserveAssetDeposit", b!"[[\"assets\", \"Vec<MultiAssetV0>\"], [\"effects\", \"Vec<XcmOrderV0>\"]]"], [b!"TeleportAsset", b!"[[\"assets\", \"Vec<MultiAssetV0>\"], [\"effects\", \"Vec<XcmOrderV0>\"]]"], [b!"QueryResponse", b!"[[\"queryId\", \"Compact<u64>\"], [\"response\", \"ResponseV0\"]]"], [b!"TransferAsset", b!"[[\"assets\", \"Vec<MultiAssetV0>\"], [\"dest\", \"MultiLocationV0\"]]"], [b!"TransferReserveAsset", b!"[[\"assets\", \"Vec<MultiAssetV0>\"], [\"dest\", \"MultiLocationV0\"], [\"effects\", \"Vec<XcmOrderV0>\"]]"], [b!"Transact", b!"[[\"originType\", \"XcmOriginKind\"], [\"requireWeightAtMost\", \"u64\"], [\"call\", \"DoubleEncodedCall\"]]"], [b!"HrmpNewChannelOpenRequest", b!"[[\"sender\", \"Compact<u32>\"], [\"maxMessageSize\", \"Compact<u32>\"], [\"maxCapacity\", \"Compact<u32>\"]]"], [b!"HrmpChannelAccepted", b!"[[\"recipient\", \"Compact<u32>\"]]"], [b!"HrmpChannelClosing", b!"[[\"initiator\", \"Compact<u32>\"], [\"sender\", \"Compact<u32>\"], [\"recipient\", \"Compact<u32>\"]]"], [b!"RelayedFrom", b!"[[\"who\", \"MultiLocationV0\"], [\"message\", \"XcmV0\"]]"]] []),
    (b!"XcmV1", en [[b!"WithdrawAsset", b!"[[\"assets\", \"MultiAssetsV1\"], [\"effects\", \"Vec<XcmOrderV1>\"]]"], [b!"ReserveAssetDeposit", b!"[[\"assets\", \"MultiAssetsV1\"], [\"effects\", \"Vec<XcmOrderV1>\"]]"], [b!"ReceiveTeleportedAsset", b!"[[\"assets\", \"MultiAssetsV1\"], [\"effects\", \"Vec<XcmOrderV1>\"]]"], [b!"QueryResponse", b!"[[\"queryId\", \"Compact<u64>\"], [\"response\", \"ResponseV1\"]]"], [b!"TransferAsset", b!"[[\"assets\", \"MultiAssetsV1\"], [\"dest\", \"MultiLocationV1\"]]"], [b!"TransferReserveAsset", b!"[[\"assets\", \"MultiAssetsV1\"], [\"dest\", \"MultiLocationV1\"], [\"effects\", \"Vec<XcmOrderV1>\"]]"], [b!"Transact", b!"[[\"originType\", \"XcmOriginKind\"], [\"requireWeightAtMost\", \"u64\"], [\"call\", \"DoubleEncodedCall\"]]"], [b!"HrmpNewChannelOpenRequest", b!"[[\"sender\", \"Compact<u32>\"], [\"maxMessageSize\", \"Compact<u32>\"], [\"maxCapacity\", \"Compact<u32>\"]]"], [b!"HrmpChannelAccepted", b!"[[\"recipient\", \"Compact<u32>\"]]"], [b!"HrmpChannelClosing", b!"[[\"initiator\", \"Compact<u32>\"], [\"sender\", \"Compact<u32>\"], [\"recipient\", \"Compact<u32>\"]]"], [b!"RelayedFrom", b!"[[\"who\", \"MultiLocationV1\"], [\"message\", \"XcmV1\"]]"], [b!"SubscribeVersion", b!"[[\"query_id\", \"U64\"], [\"max_response_weight\", \"U64\"]]"], [b!"UnsubscribeVersion", b!"NULL"]] []),
    (b!"XcmV2", al b!"Vec<InstructionV2>"),
    (b!"XcmV3", al b!"Vec<InstructionV3>"),
    (b!"XcmVersion", al b!"u32"),
    (b!"XcmpMessageFormat", en [] [b!"ConcatenatedVersionedXcm", b!"ConcatenatedEncodedBlob", b!"Signals"]),
    (b!"ethereum::Block", al b!"EthBlock"),
    (b!"ethereum::Header", al b!"EthHeader"),
    (b!"ethereum::Receipt", al b!"EthReceipt"),
    (b!"ethereum::Transaction", al b!"EthTransaction"),
    (b!"gas", al b!"u64"),
    (b!"schedule::Period<BlockNumber>", al b!"(BlockNumber, u32)"),
    (b!"schedule::Priority", al b!"u8"),
    (b!"schnorrkel::Randomness", al b!"Hash"),
    (b!"schnorrkel::RawVRFOutput", al b!"[u8; 32]"),
    (b!"slashing::SlashingSpans", al b!"SlashingSpans"),
    (b!"slashing::SpanIndex", al b!"SpanIndex"),
    (b!"slashing::SpanRecord<BalanceOf>", al b!"SpanRecord"),
    (b!"super::initializationdata<bridgedheader<t, i>>", al b!"InitializationData"),
    (b!"weights::ExtrinsicsWeight", al b!"ExtrinsicsWeight"),
    (b!"xcm::VersionedXcm", al b!"VersionedXcm") ]

/-- `source.BaseType` (source/base.go:6). -/
def types : List (Str × TypeDef) :=
  part0 ++ part1 ++ part2 ++ part3 ++ part4 ++ part5 ++ part6 ++ part7 ++ part8 ++ part9 ++ part10 ++ part11 ++ part12 ++ part13 ++ part14 ++ part15

end ScaleGo.Builtin
