import Verif.Model.BaseTypes

/-!
# The registry after loading the built-in definitions

Class of every built-in name (lower case), written down by a script that follows the alias chains of `source/base.go`.
C75 proves that loading produces exactly these.
-/

set_option maxRecDepth 4000

namespace ScaleGo.Builtin

/-- Classes of the built-in names, part 1. -/
def reg0 : List (Str × Cls) :=
  [ (b!"&[u8]", .bytes),
    (b!"(accountid, balance)", .struct (some [(b!"account", b!"AccountId"), (b!"balance", b!"Balance")])),
    (b!"(balanceof<t, i>, bidkind<accountid, balanceof<t, i>>)", .struct (some [(b!"balance", b!"Balance"), (b!"bidkind", b!"BidKind")])),
    (b!"(boundedvec<proxydefinition<accountid,proxytype,blocknumber>,maxproxies>,balanceof)", .struct (some (buildStruct b!"(Vec<ProxyDefinition>,BalanceOf)"))),
    (b!"<authorityid as runtimeapppublic>::signature", .hash 64),
    (b!"<t as config>::call", .call),
    (b!"abridgedcandidatereceipt", .struct (some [(b!"parachainIndex", b!"ParaId"), (b!"relayParent", b!"Hash"), (b!"headData", b!"HeadData"), (b!"collator", b!"CollatorId"), (b!"signature", b!"CollatorSignature"), (b!"povBlockHash", b!"Hash"), (b!"commitments", b!"CandidateCommitments")])),
    (b!"abridgedhostconfiguration", .struct (some [(b!"maxCodeSize", b!"u32"), (b!"maxHeadDataSize", b!"u32"), (b!"maxUpwardQueueCount", b!"u32"), (b!"maxUpwardQueueSize", b!"u32"), (b!"maxUpwardMessageSize", b!"u32"), (b!"maxUpwardMessageNumPerCandidate", b!"u32"), (b!"hrmpMaxMessageNumPerCandidate", b!"u32"), (b!"validationUpgradeFrequency", b!"BlockNumber"), (b!"validationUpgradeDelay", b!"BlockNumber")])),
    (b!"abridgedhrmpchannel", .struct (some [(b!"maxCapacity", b!"u32"), (b!"maxTotalSize", b!"u32"), (b!"maxMessageSize", b!"u32"), (b!"msgCount", b!"u32"), (b!"totalSize", b!"u32"), (b!"mqcHead", b!"Option<Hash>")])),
    (b!"abstractfungible", .struct (some [(b!"id", b!"Vec<u8>"), (b!"instance", b!"Compact<u128>")])),
    (b!"abstractnonfungible", .struct (some [(b!"class", b!"Vec<u8>"), (b!"instance", b!"AssetInstance")])),
    (b!"accountdata", .struct (some [(b!"free", b!"Balance"), (b!"reserved", b!"Balance"), (b!"miscFrozen", b!"Balance"), (b!"feeFrozen", b!"Balance")])),
    (b!"accountid32", .fixedU8 32),
    (b!"accountindex", .u32),
    (b!"accountinfo", .struct (some [(b!"nonce", b!"Index"), (b!"refcount", b!"RefCount"), (b!"data", b!"AccountData")])),
    (b!"accountinfowithproviders", .struct (some [(b!"nonce", b!"Index"), (b!"consumers", b!"RefCount"), (b!"providers", b!"RefCount"), (b!"data", b!"AccountData")])),
    (b!"accountinfowithtriplerefcount", .struct (some [(b!"nonce", b!"Index"), (b!"consumers", b!"RefCount"), (b!"providers", b!"RefCount"), (b!"sufficients", b!"RefCount"), (b!"data", b!"AccountData")])),
    (b!"accountstatus", .struct (some [(b!"validity", b!"AccountValidity"), (b!"freeBalance", b!"Balance"), (b!"lockedBalance", b!"Balance"), (b!"signature", b!"Vec<u8>"), (b!"vat", b!"Permill")])),
    (b!"accountvalidity", .enum [b!"Invalid", b!"Initiated", b!"Pending", b!"ValidLow", b!"ValidHigh", b!"Completed"] none),
    (b!"accountvote", .enum [] (some [(b!"Standard", b!"AccountVoteStandard"), (b!"Split", b!"AccountVoteSplit")])),
    (b!"accountvotesplit", .struct (some [(b!"aye", b!"Balance"), (b!"nay", b!"Balance")])),
    (b!"accountvotestandard", .struct (some [(b!"vote", b!"Vote"), (b!"balance", b!"Balance")])),
    (b!"activeerainfo", .struct (some [(b!"index", b!"EraIndex"), (b!"start", b!"MomentOf")])),
    (b!"activegilt", .struct (some [(b!"proportion", b!"Perquintill"), (b!"amount", b!"Balance"), (b!"who", b!"AccountId"), (b!"expiry", b!"BlockNumber")])),
    (b!"activegiltstotal", .struct (some [(b!"frozen", b!"Balance"), (b!"proportion", b!"Perquintill"), (b!"index", b!"ActiveIndex"), (b!"target", b!"Perquintill")])),
    (b!"activeindex", .u32),
    (b!"activerecovery", .struct (some [(b!"created", b!"BlockNumber"), (b!"deposit", b!"Balance"), (b!"friends", b!"Vec<AccountId>")])),
    (b!"alivecontractinfo", .struct (some [(b!"trieId", b!"TrieId"), (b!"storageSize", b!"u32"), (b!"codeHash", b!"CodeHash"), (b!"rentAllowance", b!"Balance"), (b!"rentPaid", b!"Balance"), (b!"deductBlock", b!"BlockNumber"), (b!"lastWrite", b!"Option<BlockNumber>")])),
    (b!"allowedslots", .enum [b!"PrimarySlots", b!"PrimaryAndSecondaryPlainSlots", b!"PrimaryAndSecondaryVRFSlots"] none),
    (b!"announcement", .struct (some [(b!"real", b!"AccountId"), (b!"callHash", b!"Hash"), (b!"height", b!"BlockNumber")])),
    (b!"anysignature", .hash 64),
    (b!"apiid", .fixedU8 8),
    (b!"approvals", .fixedArray 4 b!"bool"),
    (b!"arithmeticerror", .enum [b!"Underflow", b!"Overflow", b!"DivisionByZero"] none),
    (b!"assetapproval", .struct (some [(b!"amount", b!"TAssetBalance"), (b!"deposit", b!"TAssetDepositBalance")])),
    (b!"assetapprovalkey", .struct (some [(b!"owner", b!"AccountId"), (b!"delegate", b!"AccountId")])),
    (b!"assetbalance", .struct (some [(b!"balance", b!"TAssetBalance"), (b!"isFrozen", b!"bool"), (b!"isSufficient", b!"bool")])),
    (b!"assetdestroywitness", .struct (some [(b!"accounts", b!"Compact<u32>"), (b!"sufficients", b!"Compact<u32>"), (b!"approvals", b!"Compact<u32>")])),
    (b!"assetdetails", .struct (some [(b!"owner", b!"AccountId"), (b!"issuer", b!"AccountId"), (b!"admin", b!"AccountId"), (b!"freezer", b!"AccountId"), (b!"supply", b!"TAssetBalance"), (b!"deposit", b!"TAssetDepositBalance"), (b!"minBalance", b!"TAssetBalance"), (b!"isSufficient", b!"bool"), (b!"accounts", b!"u32"), (b!"sufficients", b!"u32"), (b!"approvals", b!"u32"), (b!"isFrozen", b!"bool")])),
    (b!"assetid", .u32),
    (b!"assetinstance", .enum [] (some [(b!"Undefined", b!"Null"), (b!"Index", b!"Compact<u128>"), (b!"Array4", b!"[u8; 4]"), (b!"Array8", b!"[u8; 8]"), (b!"Array16", b!"[u8; 16]"), (b!"Array32", b!"[u8; 32]"), (b!"Blob", b!"Bytes")])),
    (b!"assetinstancev0", .enum [] (some [(b!"Undefined", b!"Null"), (b!"Index8", b!"u8"), (b!"Index16", b!"Compact<u16>"), (b!"Index32", b!"Compact<u32>"), (b!"Index64", b!"Compact<u64>"), (b!"Index128", b!"Compact<u128>"), (b!"Array4", b!"[u8; 4]"), (b!"Array8", b!"[u8; 8]"), (b!"Array16", b!"[u8; 16]"), (b!"Array32", b!"[u8; 32]"), (b!"Blob", b!"Vec<u8>")])),
    (b!"assetinstancev1", .enum [] (some [(b!"Undefined", b!"Null"), (b!"Index", b!"Compact<u128>"), (b!"Array4", b!"[u8; 4]"), (b!"Array8", b!"[u8; 8]"), (b!"Array16", b!"[u8; 16]"), (b!"Array32", b!"[u8; 32]"), (b!"Blob", b!"Bytes")])),
    (b!"assetinstancev2", .enum [] (some [(b!"Undefined", b!"Null"), (b!"Index", b!"Compact<u128>"), (b!"Array4", b!"[u8; 4]"), (b!"Array8", b!"[u8; 8]"), (b!"Array16", b!"[u8; 16]"), (b!"Array32", b!"[u8; 32]"), (b!"Blob", b!"Bytes")])),
    (b!"assetinstancev3", .enum [] (some [(b!"Undefined", b!"NULL"), (b!"Index", b!"Compact<u128>"), (b!"Array4", b!"[u8; 4]"), (b!"Array8", b!"[u8; 8]"), (b!"Array16", b!"[u8; 16]"), (b!"Array32", b!"[u8; 32]")])),
    (b!"assetmetadata", .struct (some [(b!"deposit", b!"TAssetDepositBalance"), (b!"name", b!"Vec<u8>"), (b!"symbol", b!"Vec<u8>"), (b!"decimals", b!"u8"), (b!"isFrozen", b!"bool")])),
    (b!"assetoptions", .struct (some [(b!"initalIssuance", b!"Compact<Balance>"), (b!"permissions", b!"PermissionLatest")])),
    (b!"assignmentid", .accountId),
    (b!"assignmentkind", .enum [] (some [(b!"Parachain", b!"Null"), (b!"Parathread", b!"(CollatorId, u32)")])),
    (b!"attestedcandidate", .struct (some [(b!"candidate", b!"AbridgedCandidateReceipt"), (b!"validityVotes", b!"Vec<ValidityAttestation>"), (b!"validatorIndices", b!"BitVec")])) ]

/-- Classes of the built-in names, part 2. -/
def reg1 : List (Str × Cls) :=
  [ (b!"auctionindex", .u32),
    (b!"authindex", .u32),
    (b!"authoritydiscoveryid", .accountId),
    (b!"authorityid", .hash 32),
    (b!"authorityindex", .u64),
    (b!"authoritylist", .vec b!"NextAuthority"),
    (b!"authorityset", .struct (some [(b!"currentAuthorities", b!"AuthorityList"), (b!"setId", b!"u64"), (b!"pendingStandardChanges", b!"ForkTreePendingChange"), (b!"pendingForcedChanges", b!"Vec<PendingChange>"), (b!"authoritySetChanges", b!"AuthoritySetChanges")])),
    (b!"authoritysetchange", .struct (some (buildStruct b!"(U64, BlockNumber)"))),
    (b!"authoritysetchanges", .vec b!"AuthoritySetChange"),
    (b!"authoritysignature", .hash 64),
    (b!"authorityweight", .u64),
    (b!"availabilitybitfield", .bitVec),
    (b!"availabilitybitfieldrecord", .struct (some [(b!"bitfield", b!"AvailabilityBitfield"), (b!"submittedTt", b!"BlockNumber")])),
    (b!"babeauthorityweight", .u64),
    (b!"babeblockweight", .u32),
    (b!"babeepochconfiguration", .struct (some [(b!"c", b!"(u64,u64)"), (b!"allowedSlots", b!"AllowedSlots")])),
    (b!"babeequivocationproof", .struct (some [(b!"offender", b!"AuthorityId"), (b!"slotNumber", b!"SlotNumber"), (b!"firstHeader", b!"Header"), (b!"secondHeader", b!"Header")])),
    (b!"babeweight", .u64),
    (b!"backedcandidate", .struct (some [(b!"candidate", b!"CommittedCandidateReceipt"), (b!"validityVotes", b!"Vec<ValidityAttestation>"), (b!"validatorIndices", b!"BitVec")])),
    (b!"balancelock", .struct (some [(b!"id", b!"LockIdentifier"), (b!"amount", b!"Balance"), (b!"until", b!"u32"), (b!"reasons", b!"WithdrawReasons")])),
    (b!"balancelock<balance, blocknumber>", .struct (some [(b!"id", b!"LockIdentifier"), (b!"amount", b!"Balance"), (b!"reasons", b!"Reasons")])),
    (b!"balancelock<balance>", .struct (some [(b!"id", b!"LockIdentifier"), (b!"amount", b!"Balance"), (b!"reasons", b!"Reasons")])),
    (b!"balanceof", .balance),
    (b!"balancestatus", .enum [b!"Free", b!"Reserved"] none),
    (b!"balanceupload", .struct (some [(b!"col1", b!"AccountId"), (b!"col2", b!"u64")])),
    (b!"balances", .struct (some [(b!"queryId", b!"Compact<u64>"), (b!"assets", b!"Vec<MultiAsset>")])),
    (b!"beefycommitment", .struct (some [(b!"payload", b!"BeefyPayload"), (b!"blockNumber", b!"BlockNumber"), (b!"validatorSetId", b!"ValidatorSetId")])),
    (b!"beefyid", .fixedArray 33 b!"u8"),
    (b!"beefykey", .fixedArray 33 b!"u8"),
    (b!"beefynextauthorityset", .struct (some [(b!"id", b!"u64"), (b!"len", b!"u32"), (b!"root", b!"H256")])),
    (b!"beefypayload", .hash 32),
    (b!"beefysignedcommitment", .struct (some [(b!"commitment", b!"BeefyCommitment"), (b!"signatures", b!"Vec<Option<Signature>>")])),
    (b!"bid", .struct (some [(b!"who", b!"AccountId"), (b!"kind", b!"BidKind"), (b!"value", b!"Balance")])),
    (b!"bidkind", .enum [] (some [(b!"Deposit", b!"Balance"), (b!"Vouch", b!"BidKindVouch")])),
    (b!"bidkindvouch", .struct (some [(b!"account", b!"AccountId"), (b!"amount", b!"Balance")])),
    (b!"bidder", .enum [] (some [(b!"New", b!"NewBidder"), (b!"Existing", b!"ParaId")])),
    (b!"blockattestations", .struct (some [(b!"receipt", b!"CandidateReceipt"), (b!"valid", b!"Vec<AccountId>"), (b!"invalid", b!"Vec<AccountId>")])),
    (b!"blocklength", .struct (some [(b!"max", b!"PerDispatchClassU32")])),
    (b!"blocknumberfor", .u32),
    (b!"blocknumberof", .u32),
    (b!"blocktrace", .struct (some [(b!"blockHash", b!"Text"), (b!"parentHash", b!"Text"), (b!"tracingTargets", b!"Text"), (b!"storageKeys", b!"Text"), (b!"spans", b!"Vec<BlockTraceSpan>"), (b!"events", b!"Vec<BlockTraceEvent>")])),
    (b!"blocktraceevent", .struct (some [(b!"target", b!"Text"), (b!"data", b!"BlockTraceEventData"), (b!"parentId", b!"Option<u64>")])),
    (b!"blocktraceeventdata", .struct (some [(b!"stringValues", b!"HashMap<Text, Text>")])),
    (b!"blocktracespan", .struct (some [(b!"id", b!"u64"), (b!"parentId", b!"Option<u64>"), (b!"name", b!"Text"), (b!"target", b!"Text"), (b!"wasm", b!"bool")])),
    (b!"blocktransactions", .enum [] (some [(b!"Hashes", b!"Vec<H256>"), (b!"Full", b!"Vec<ethereum::Transaction>")])),
    (b!"blockv0", .struct (some [(b!"header", b!"EthHeader"), (b!"transactions", b!"Vec<TransactionV0>"), (b!"ommers", b!"Vec<EthHeader>")])),
    (b!"blockv1", .struct (some [(b!"header", b!"EthHeader"), (b!"transactions", b!"Vec<TransactionV1>"), (b!"ommers", b!"Vec<EthHeader>")])),
    (b!"blockv2", .struct (some [(b!"header", b!"EthHeader"), (b!"transactions", b!"Vec<TransactionV2>"), (b!"ommers", b!"Vec<EthHeader>")])),
    (b!"blockweights", .struct (some [(b!"baseBlock", b!"Weight"), (b!"maxBlock", b!"Weight"), (b!"perClass", b!"PerDispatchClass")])),
    (b!"bodyid", .enum [] (some [(b!"Unit", b!"Null"), (b!"Named", b!"Vec<u8>"), (b!"Index", b!"Compact<u32>"), (b!"Executive", b!"Null"), (b!"Technical", b!"Null"), (b!"Legislative", b!"Null"), (b!"Judicial", b!"Null"), (b!"Defense", b!"Null"), (b!"Administration", b!"Null"), (b!"Treasury", b!"Null")])) ]

/-- Classes of the built-in names, part 3. -/
def reg2 : List (Str × Cls) :=
  [ (b!"bodypart", .enum [] (some [(b!"Voice", b!"Null"), (b!"Members", b!"Compact<u32>"), (b!"Fraction", b!"[[\"nom\", \"Compact<u32>\"], [\"denom\", \"Compact<u32>\"]]"), (b!"AtLeastProportion", b!"[[\"nom\", \"Compact<u32>\"], [\"denom\", \"Compact<u32>\"]]"), (b!"MoreThanProportion", b!"[[\"nom\", \"Compact<u32>\"], [\"denom\", \"Compact<u32>\"]]")])),
    (b!"bounty", .struct (some [(b!"proposer", b!"AccountId"), (b!"value", b!"Balance"), (b!"fee", b!"Balance"), (b!"curator_deposit", b!"Balance"), (b!"bond", b!"Balance"), (b!"status", b!"BountyStatus")])),
    (b!"bountyindex", .u32),
    (b!"bountystatus", .enum [] (some [(b!"Proposed", b!"Null"), (b!"Approved", b!"Null"), (b!"Funded", b!"Null"), (b!"CuratorProposed", b!"BountyStatusCuratorProposed"), (b!"Active", b!"BountyStatusActive"), (b!"PendingPayout", b!"BountyStatusPendingPayout")])),
    (b!"bountystatusactive", .struct (some [(b!"curator", b!"AccountId"), (b!"update_due", b!"BlockNumber")])),
    (b!"bountystatuscuratorproposed", .struct (some [(b!"curator", b!"AccountId")])),
    (b!"bountystatuspendingpayout", .struct (some [(b!"curator", b!"AccountId"), (b!"beneficiary", b!"AccountId"), (b!"unlockAt", b!"BlockNumber")])),
    (b!"box<<t as config<i>>::proposal>", .call),
    (b!"box<<t as config>::call>", .call),
    (b!"box<<t as trait<i>>::proposal>", .call),
    (b!"box<call>", .call),
    (b!"box<proposal>", .call),
    (b!"bridgemessageid", .struct (some (buildStruct b!"(LaneId, MessageNonce)"))),
    (b!"bridgedblockhash", .hash 32),
    (b!"bridgedblocknumber", .u32),
    (b!"bridgedheader", .struct (some [(b!"parent_hash", b!"H256"), (b!"number", b!"Compact<BlockNumber>"), (b!"state_root", b!"H256"), (b!"extrinsics_root", b!"H256"), (b!"digest", b!"Digest")])),
    (b!"bufferedsessionchange", .struct (some [(b!"applyAt", b!"BlockNumber"), (b!"validators", b!"Vec<ValidatorId>"), (b!"queued", b!"Vec<ValidatorId>"), (b!"sessionIndex", b!"SessionIndex")])),
    (b!"byforkv3", .struct (some [(b!"block_number", b!"u64"), (b!"block_hash", b!"[u8; 32]")])),
    (b!"callhash", .hash 32),
    (b!"callhashof", .hash 32),
    (b!"callindex", .struct (some (buildStruct b!"(u8, u8)"))),
    (b!"callorigin", .enum [] (some [(b!"SourceRoot", b!"Null"), (b!"TargetAccount", b!"(AccountId, MultiSigner, MultiSignature)"), (b!"SourceAccount", b!"AccountId")])),
    (b!"candidatecommitments", .struct (some [(b!"upwardMessages", b!"Vec<UpwardMessage>"), (b!"horizontalMessages", b!"Vec<OutboundHrmpMessage>"), (b!"newValidationCode", b!"Option<ValidationCode>"), (b!"headData", b!"HeadData"), (b!"processedDownwardMessages", b!"u32"), (b!"hrmpWatermark", b!"BlockNumber")])),
    (b!"candidatedescriptor", .struct (some [(b!"paraId", b!"ParaId"), (b!"relayParent", b!"RelayChainHash"), (b!"collatorId", b!"CollatorId"), (b!"persistedValidationDataHash", b!"Hash"), (b!"povHash", b!"Hash"), (b!"erasureRoot", b!"Hash"), (b!"signature", b!"CollatorSignature"), (b!"paraHead", b!"Hash"), (b!"validationCodeHash", b!"Hash")])),
    (b!"candidatehash", .hash 32),
    (b!"candidatependingavailability", .struct (some [(b!"core", b!"CoreIndex"), (b!"hash", b!"CandidateHash"), (b!"descriptor", b!"CandidateDescriptor"), (b!"availabilityoVotes", b!"BitVec"), (b!"backers", b!"BitVec"), (b!"relayParentNumber", b!"BlockNumber"), (b!"backedInNumber", b!"BlockNumber"), (b!"backingGroup", b!"GroupIndex")])),
    (b!"candidatereceipt", .struct (some [(b!"descriptor", b!"CandidateDescriptor"), (b!"commitmentsHash", b!"Hash")])),
    (b!"chainid", .fixedU8 4),
    (b!"changestrieconfiguration", .struct (some [(b!"digestInterval", b!"u32"), (b!"digestLevels", b!"u32")])),
    (b!"changestriesignal", .enum [] (some [(b!"NewConfiguration", b!"Option<ChangesTrieConfiguration>")])),
    (b!"classdetails", .struct (some [(b!"owner", b!"AccountId"), (b!"issuer", b!"AccountId"), (b!"admin", b!"AccountId"), (b!"freezer", b!"AccountId"), (b!"totalDeposit", b!"DepositBalance"), (b!"freeHolding", b!"bool"), (b!"instances", b!"u32"), (b!"instanceMetadatas", b!"u32"), (b!"attributes", b!"u32"), (b!"isFrozen", b!"bool")])),
    (b!"classid", .u32),
    (b!"classmetadata", .struct (some [(b!"deposit", b!"DepositBalance"), (b!"data", b!"Vec<u8>"), (b!"isFrozen", b!"bool")])),
    (b!"codehash", .hash 32),
    (b!"collatorid", .hash 32),
    (b!"collatorsignature", .hash 64),
    (b!"collectiveorigin", .enum [] (some [(b!"Members", b!"(MemberCount, MemberCount)"), (b!"Member", b!"AccountId")])),
    (b!"committedcandidatereceipt", .struct (some [(b!"descriptor", b!"CandidateDescriptor"), (b!"commitments", b!"CandidateCommitments")])),
    (b!"compactassignments", .struct (some [(b!"votes1", b!"Vec<(NominatorIndex, ValidatorIndex)>"), (b!"votes2", b!"Vec<(NominatorIndex, [CompactScore; 1], ValidatorIndex)>"), (b!"votes3", b!"Vec<(NominatorIndex, [CompactScore; 2], ValidatorIndex)>"), (b!"votes4", b!"Vec<(NominatorIndex, [CompactScore; 3], ValidatorIndex)>"), (b!"votes5", b!"Vec<(NominatorIndex, [CompactScore; 4], ValidatorIndex)>"), (b!"votes6", b!"Vec<(NominatorIndex, [CompactScore; 5], ValidatorIndex)>"), (b!"votes7", b!"Vec<(NominatorIndex, [CompactScore; 6], ValidatorIndex)>"), (b!"votes8", b!"Vec<(NominatorIndex, [CompactScore; 7], ValidatorIndex)>"), (b!"votes9", b!"Vec<(NominatorIndex, [CompactScore; 8], ValidatorIndex)>"), (b!"votes10", b!"Vec<(NominatorIndex, [CompactScore; 9], ValidatorIndex)>"), (b!"votes11", b!"Vec<(NominatorIndex, [CompactScore; 10], ValidatorIndex)>"), (b!"votes12", b!"Vec<(NominatorIndex, [CompactScore; 11], ValidatorIndex)>"), (b!"votes13", b!"Vec<(NominatorIndex, [CompactScore; 12], ValidatorIndex)>"), (b!"votes14", b!"Vec<(NominatorIndex, [CompactScore; 13], ValidatorIndex)>"), (b!"votes15", b!"Vec<(NominatorIndex, [CompactScore; 14], ValidatorIndex)>"), (b!"votes16", b!"Vec<(NominatorIndex, [CompactScore; 15], ValidatorIndex)>")])),
    (b!"compactassignmentslatest", .struct (some [(b!"votes1", b!"Vec<(NominatorIndexCompact, ValidatorIndexCompact)>"), (b!"votes2", b!"Vec<(NominatorIndexCompact, CompactScoreCompact, ValidatorIndexCompact)>"), (b!"votes3", b!"Vec<(NominatorIndexCompact, [CompactScoreCompact; 2], ValidatorIndexCompact)>"), (b!"votes4", b!"Vec<(NominatorIndexCompact, [CompactScoreCompact; 3], ValidatorIndexCompact)>"), (b!"votes5", b!"Vec<(NominatorIndexCompact, [CompactScoreCompact; 4], ValidatorIndexCompact)>"), (b!"votes6", b!"Vec<(NominatorIndexCompact, [CompactScoreCompact; 5], ValidatorIndexCompact)>"), (b!"votes7", b!"Vec<(NominatorIndexCompact, [CompactScoreCompact; 6], ValidatorIndexCompact)>"), (b!"votes8", b!"Vec<(NominatorIndexCompact, [CompactScoreCompact; 7], ValidatorIndexCompact)>"), (b!"votes9", b!"Vec<(NominatorIndexCompact, [CompactScoreCompact; 8], ValidatorIndexCompact)>"), (b!"votes10", b!"Vec<(NominatorIndexCompact, [CompactScoreCompact; 9], ValidatorIndexCompact)>"), (b!"votes11", b!"Vec<(NominatorIndexCompact, [CompactScoreCompact; 10], ValidatorIndexCompact)>"), (b!"votes12", b!"Vec<(NominatorIndexCompact, [CompactScoreCompact; 11], ValidatorIndexCompact)>"), (b!"votes13", b!"Vec<(NominatorIndexCompact, [CompactScoreCompact; 12], ValidatorIndexCompact)>"), (b!"votes14", b!"Vec<(NominatorIndexCompact, [CompactScoreCompact; 13], ValidatorIndexCompact)>"), (b!"votes15", b!"Vec<(NominatorIndexCompact, [CompactScoreCompact; 14], ValidatorIndexCompact)>"), (b!"votes16", b!"Vec<(NominatorIndexCompact, [CompactScoreCompact; 15], ValidatorIndexCompact)>")])),
    (b!"compactassignmentsvote", .struct (some [(b!"accountId1", b!"AccountId"), (b!"scores", b!"Vec<CompactScore>"), (b!"accountId2", b!"AccountId")])),
    (b!"compactassignmentswith24", .struct (some [(b!"votes1", b!"Vec<(NominatorIndexCompact, ValidatorIndexCompact)>"), (b!"votes2", b!"Vec<(NominatorIndexCompact, CompactScoreCompact, ValidatorIndexCompact)>"), (b!"votes3", b!"Vec<(NominatorIndexCompact, [CompactScoreCompact; 2], ValidatorIndexCompact)>"), (b!"votes4", b!"Vec<(NominatorIndexCompact, [CompactScoreCompact; 3], ValidatorIndexCompact)>"), (b!"votes5", b!"Vec<(NominatorIndexCompact, [CompactScoreCompact; 4], ValidatorIndexCompact)>"), (b!"votes6", b!"Vec<(NominatorIndexCompact, [CompactScoreCompact; 5], ValidatorIndexCompact)>"), (b!"votes7", b!"Vec<(NominatorIndexCompact, [CompactScoreCompact; 6], ValidatorIndexCompact)>"), (b!"votes8", b!"Vec<(NominatorIndexCompact, [CompactScoreCompact; 7], ValidatorIndexCompact)>"), (b!"votes9", b!"Vec<(NominatorIndexCompact, [CompactScoreCompact; 8], ValidatorIndexCompact)>"), (b!"votes10", b!"Vec<(NominatorIndexCompact, [CompactScoreCompact; 9], ValidatorIndexCompact)>"), (b!"votes11", b!"Vec<(NominatorIndexCompact, [CompactScoreCompact; 10], ValidatorIndexCompact)>"), (b!"votes12", b!"Vec<(NominatorIndexCompact, [CompactScoreCompact; 11], ValidatorIndexCompact)>"), (b!"votes13", b!"Vec<(NominatorIndexCompact, [CompactScoreCompact; 12], ValidatorIndexCompact)>"), (b!"votes14", b!"Vec<(NominatorIndexCompact, [CompactScoreCompact; 13], ValidatorIndexCompact)>"), (b!"votes15", b!"Vec<(NominatorIndexCompact, [CompactScoreCompact; 14], ValidatorIndexCompact)>"), (b!"votes16", b!"Vec<(NominatorIndexCompact, [CompactScoreCompact; 15], ValidatorIndexCompact)>"), (b!"votes17", b!"Vec<(NominatorIndexCompact, [CompactScoreCompact; 16], ValidatorIndexCompact)>"), (b!"votes18", b!"Vec<(NominatorIndexCompact, [CompactScoreCompact; 17], ValidatorIndexCompact)>"), (b!"votes19", b!"Vec<(NominatorIndexCompact, [CompactScoreCompact; 18], ValidatorIndexCompact)>"), (b!"votes20", b!"Vec<(NominatorIndexCompact, [CompactScoreCompact; 19], ValidatorIndexCompact)>"), (b!"votes21", b!"Vec<(NominatorIndexCompact, [CompactScoreCompact; 20], ValidatorIndexCompact)>"), (b!"votes22", b!"Vec<(NominatorIndexCompact, [CompactScoreCompact; 21], ValidatorIndexCompact)>"), (b!"votes23", b!"Vec<(NominatorIndexCompact, [CompactScoreCompact; 22], ValidatorIndexCompact)>"), (b!"votes24", b!"Vec<(NominatorIndexCompact, [CompactScoreCompact; 23], ValidatorIndexCompact)>")])),
    (b!"compactscore", .struct (some [(b!"validatorIndex", b!"ValidatorIndex"), (b!"offchainAccuracy", b!"OffchainAccuracy")])),
    (b!"compactscorecompact", .struct (some [(b!"validatorIndex", b!"ValidatorIndexCompact"), (b!"offchainAccuracy", b!"OffchainAccuracyCompact")])),
    (b!"concretefungible", .struct (some [(b!"id", b!"MultiLocation"), (b!"amount", b!"Compact<u128>")])),
    (b!"concretenonfungible", .struct (some [(b!"class", b!"MultiLocation"), (b!"instance", b!"AssetInstance")])),
    (b!"configdata", .struct (some [(b!"maxIndividual", b!"Weight")])),
    (b!"consensusengineid", .fixedU8 4),
    (b!"consumedweight", .struct (some [(b!"normal", b!"WeightPerClass"), (b!"operational", b!"WeightPerClass"), (b!"mandatory", b!"WeightPerClass")])),
    (b!"contractcallrequest", .struct (some [(b!"origin", b!"AccountId"), (b!"dest", b!"AccountId"), (b!"value", b!"Balance"), (b!"gasLimit", b!"u64"), (b!"inputData", b!"Bytes")])) ]

/-- Classes of the built-in names, part 4. -/
def reg3 : List (Str × Cls) :=
  [ (b!"contractexecresult", .enum [] (some [(b!"Success", b!"ContractExecResultSuccess"), (b!"Error", b!"Null")])),
    (b!"contractexecresultsuccess", .struct (some [(b!"flags", b!"u32"), (b!"data", b!"Bytes"), (b!"gasConsumed", b!"u64")])),
    (b!"contractexecresultsuccessto255", .struct (some [(b!"status", b!"u8"), (b!"data", b!"Raw")])),
    (b!"contractexecresultto255", .enum [] (some [(b!"Success", b!"ContractExecResultSuccessTo255"), (b!"Error", b!"Null"), (b!"gasConsumed", b!"u64")])),
    (b!"contractinfo", .enum [] (some [(b!"Alive", b!"AliveContractInfo"), (b!"Tombstone", b!"TombstoneContractInfo")])),
    (b!"contractinstantiateresult", .enum [] (some [(b!"Ok", b!"InstantiateReturnValue"), (b!"Err", b!"Null")])),
    (b!"contractproject", .struct (some [(b!"metadataVersion", b!"Text"), (b!"source", b!"ContractProjectSource"), (b!"contract", b!"ContractProjectContract"), (b!"types", b!"Vec<SiType>"), (b!"spec", b!"ContractContractSpec")])),
    (b!"contractprojectcontract", .struct (some [(b!"name", b!"Text"), (b!"version", b!"Text"), (b!"authors", b!"Vec<Text>"), (b!"description", b!"Option<Text>"), (b!"documentation", b!"Option<Text>"), (b!"repository", b!"Option<Text>"), (b!"homepage", b!"Option<Text>"), (b!"license", b!"Option<Text>")])),
    (b!"contractprojectsource", .struct (some [(b!"hash", b!"[u8; 32]"), (b!"language", b!"Text"), (b!"compiler", b!"Text")])),
    (b!"contractstoragekey", .fixedU8 32),
    (b!"conviction", .enum [b!"None", b!"Locked1x", b!"Locked2x", b!"Locked3x", b!"Locked4x", b!"Locked5x", b!"Locked6x"] none),
    (b!"coreassignment", .struct (some [(b!"core", b!"CoreIndex"), (b!"paraId", b!"ParaId"), (b!"kind", b!"AssignmentKind"), (b!"groupIdx", b!"GroupIndex")])),
    (b!"coreindex", .u32),
    (b!"coreoccupied", .enum [] (some [(b!"Parathread", b!"ParathreadEntry"), (b!"Parachain", b!"Null")])),
    (b!"createdblock", .struct (some [(b!"hash", b!"BlockHash"), (b!"aux", b!"ImportedAux")])),
    (b!"customvaluemetadata15", .struct (some [(b!"type", b!"SiLookupTypeId"), (b!"value", b!"Bytes")])),
    (b!"deferredoffenceof", .struct (some (buildStruct b!"(Vec<OffenceDetails>, Vec<Perbill>, SessionIndex)"))),
    (b!"defunctvoter", .struct (some [(b!"who", b!"AccountId"), (b!"voteCount", b!"Compact<u32>"), (b!"candidateCount", b!"Compact<u32>")])),
    (b!"delaykind", .enum [] (some [(b!"Finalized", b!"Null"), (b!"Best", b!"DelayKindBest")])),
    (b!"delaykindbest", .struct (some [(b!"medianLastFinalized", b!"BlockNumber")])),
    (b!"delegations", .struct (some [(b!"votes", b!"Balance"), (b!"capital", b!"Balance")])),
    (b!"deliveredmessages", .struct (some [(b!"begin", b!"MessageNonce"), (b!"end", b!"MessageNonce"), (b!"dispatchResults", b!"BitVec")])),
    (b!"depositasset", .struct (some [(b!"assets", b!"Vec<MultiAsset>"), (b!"dest", b!"MultiLocation")])),
    (b!"depositbalance", .balance),
    (b!"depositbalanceof", .balance),
    (b!"depositreserveasset", .struct (some [(b!"assets", b!"Vec<MultiAsset>"), (b!"dest", b!"MultiLocation"), (b!"effects", b!"Vec<Order>")])),
    (b!"destroywitness", .struct (some [(b!"instances", b!"Compact<u32>"), (b!"instanceMetadatas", b!"Compact<u32>"), (b!"attributes", b!"Compact<u32>")])),
    (b!"digest", .struct (some [(b!"logs", b!"Vec<DigestItem<Hash>>")])),
    (b!"digestitem", .enum [] (some [(b!"Other", b!"Vec<u8>"), (b!"AuthoritiesChange", b!"Vec<AuthorityId>"), (b!"ChangesTrieRoot", b!"Hash"), (b!"SealV0", b!"SealV0"), (b!"Consensus", b!"Consensus"), (b!"Seal", b!"Seal"), (b!"PreRuntime", b!"PreRuntime"), (b!"ChangesTrieSignal", b!"ChangesTrieSignal"), (b!"RuntimeEnvironmentUpdated", b!"NULL")])),
    (b!"digestof", .struct (some [(b!"logs", b!"Vec<DigestItem<Hash>>")])),
    (b!"dispatchclass", .enum [b!"Normal", b!"Operational", b!"Mandatory"] none),
    (b!"dispatcherror", .enum [] (some [(b!"Other", b!"Null"), (b!"CannotLookup", b!"Null"), (b!"BadOrigin", b!"Null"), (b!"Module", b!"DispatchErrorModule"), (b!"ConsumerRemaining", b!"Null"), (b!"NoProviders", b!"Null"), (b!"Token", b!"TokenError"), (b!"Arithmetic", b!"ArithmeticError")])),
    (b!"dispatcherrormodule", .struct (some [(b!"index", b!"u8"), (b!"error", b!"u8")])),
    (b!"dispatchfeepayment", .enum [b!"AtSourceChain", b!"AtTargetChain"] none),
    (b!"dispatchinfo", .struct (some [(b!"weight", b!"Weight"), (b!"class", b!"DispatchClass"), (b!"paysFee", b!"Pays")])),
    (b!"dispatchinfo258", .struct (some [(b!"weight", b!"Weight"), (b!"class", b!"DispatchClass"), (b!"paysFee", b!"bool")])),
    (b!"dispatchresult", .enum [] (some [(b!"Ok", b!"Null"), (b!"Error", b!"DispatchError")])),
    (b!"disputelocation", .enum [b!"Local", b!"Remote"] none),
    (b!"disputeresult", .enum [b!"Valid", b!"Invalid"] none),
    (b!"disputestate", .struct (some [(b!"validatorsFor", b!"BitVec"), (b!"validatorsAgainst", b!"BitVec"), (b!"start", b!"BlockNumber"), (b!"concludedAt", b!"Option<BlockNumber>")])),
    (b!"disputestatement", .enum [] (some [(b!"Valid", b!"ValidDisputeStatementKind"), (b!"Invalid", b!"InvalidDisputeStatementKind")])),
    (b!"disputestatementset", .struct (some [(b!"candidateHash", b!"CandidateHash"), (b!"session", b!"SessionIndex"), (b!"statements", b!"Vec<(DisputeStatement, ParaValidatorIndex, ValidatorSignature)>")])),
    (b!"donotconstruct", .null),
    (b!"doubleencodedcall", .struct (some [(b!"encoded", b!"Vec<u8>")])),
    (b!"doublevotereport", .struct (some [(b!"identity", b!"ValidatorId"), (b!"first", b!"(Statement, ValidatorSignature)"), (b!"second", b!"(Statement, ValidatorSignature)"), (b!"proof", b!"MembershipProof"), (b!"signingContext", b!"SigningContext")])),
    (b!"downwardmessage", .bytes),
    (b!"eip1559transaction", .struct (some [(b!"chainId", b!"u64"), (b!"nonce", b!"U256"), (b!"maxPriorityFeePerGas", b!"U256"), (b!"maxFeePerGas", b!"U256"), (b!"gasLimit", b!"U256"), (b!"action", b!"EthTransactionAction"), (b!"value", b!"U256"), (b!"input", b!"Bytes"), (b!"accessList", b!"EthAccessList"), (b!"oddYParity", b!"bool"), (b!"r", b!"H256"), (b!"s", b!"H256")])),
    (b!"eip2930transaction", .struct (some [(b!"chainId", b!"u64"), (b!"nonce", b!"U256"), (b!"gasPrice", b!"U256"), (b!"gasLimit", b!"U256"), (b!"action", b!"EthTransactionAction"), (b!"value", b!"U256"), (b!"input", b!"Bytes"), (b!"accessList", b!"EthAccessList"), (b!"oddYParity", b!"bool"), (b!"r", b!"H256"), (b!"s", b!"H256")])),
    (b!"ecdsasignature", .fixedU8 65),
    (b!"ed25519signature", .hash 64) ]

/-- Classes of the built-in names, part 5. -/
def reg4 : List (Str × Cls) :=
  [ (b!"egressqueueroot", .struct (some [(b!"col1", b!"ParaId"), (b!"col2", b!"Hash")])),
    (b!"electioncompute", .enum [b!"OnChain", b!"Signed", b!"Unsigned"] none),
    (b!"electionphase", .enum [] (some [(b!"Off", b!"Null"), (b!"Signed", b!"Null"), (b!"Unsigned", b!"(bool, BlockNumber)"), (b!"Emergency", b!"Null")])),
    (b!"electionresult", .struct (some [(b!"compute", b!"ElectionCompute"), (b!"slotStake", b!"Balance"), (b!"electedStashes", b!"Vec<AccountId>"), (b!"exposures", b!"Vec<(AccountId, Exposure)>")])),
    (b!"electionscore", .fixedArray 3 b!"u128"),
    (b!"electionsize", .struct (some [(b!"validators", b!"ValidatorIndex"), (b!"nominators", b!"NominatorIndex")])),
    (b!"electionstatus", .enum [] (some [(b!"Close", b!"Null"), (b!"Open", b!"BlockNumber")])),
    (b!"encodedfinalityproofs", .bytes),
    (b!"epochauthorship", .struct (some [(b!"primary", b!"Vec<u64>"), (b!"secondary", b!"Vec<u64>"), (b!"secondary_vrf", b!"Vec<u64>")])),
    (b!"equivocation", .enum [] (some [(b!"Prevote", b!"GrandpaEquivocationValue"), (b!"Precommit", b!"GrandpaEquivocationValue")])),
    (b!"equivocationproof<hash, blocknumber>", .struct (some [(b!"setId", b!"SetId"), (b!"equivocation", b!"GrandpaEquivocation")])),
    (b!"equivocationproof<header>", .struct (some [(b!"offender", b!"AuthorityId"), (b!"slotNumber", b!"SlotNumber"), (b!"firstHeader", b!"Header"), (b!"secondHeader", b!"Header")])),
    (b!"eraindex", .u32),
    (b!"erarewardpoints", .struct (some [(b!"total", b!"RewardPoint"), (b!"individual", b!"Vec<(AccountId, RewardPoint)>")])),
    (b!"ethaccesslist", .vec b!"EthAccessListItem"),
    (b!"ethaccesslistitem", .struct (some [(b!"address", b!"EthAddress"), (b!"slots", b!"Vec<H256>")])),
    (b!"ethaccount", .struct (some [(b!"address", b!"H160"), (b!"balance", b!"U256"), (b!"nonce", b!"U256"), (b!"codeHash", b!"H256"), (b!"storageHash", b!"H256"), (b!"accountProof", b!"Vec<Bytes>"), (b!"storageProof", b!"Vec<EthStorageProof>")])),
    (b!"ethaddress", .hash 20),
    (b!"ethblock", .struct (some [(b!"header", b!"EthHeader"), (b!"transactions", b!"Vec<EthTransaction>"), (b!"ommers", b!"Vec<EthHeader>")])),
    (b!"ethbloom", .fixedU8 256),
    (b!"ethcallrequest", .struct (some [(b!"from", b!"Option<H160>"), (b!"to", b!"Option<H160>"), (b!"gasPrice", b!"Option<U256>"), (b!"gas", b!"Option<U256>"), (b!"value", b!"Option<U256>"), (b!"data", b!"Option<Bytes>"), (b!"nonce", b!"Option<U256>")])),
    (b!"ethfilter", .struct (some [(b!"fromBlock", b!"Option<BlockNumber>"), (b!"toBlock", b!"Option<BlockNumber>"), (b!"blockHash", b!"Option<H256>"), (b!"address", b!"Option<EthFilterAddress>"), (b!"topics", b!"Option<EthFilterTopic>")])),
    (b!"ethfilteraddress", .enum [] (some [(b!"Single", b!"H160"), (b!"Multiple", b!"Vec<H160>"), (b!"Null", b!"Null")])),
    (b!"ethfilterchanges", .enum [] (some [(b!"Logs", b!"Vec<EthLog>"), (b!"Hashes", b!"Vec<H256>"), (b!"Empty", b!"Null")])),
    (b!"ethfiltertopic", .enum [] (some [(b!"Single", b!"EthFilterTopicInner"), (b!"Multiple", b!"Vec<EthFilterTopicInner>"), (b!"Null", b!"Null")])),
    (b!"ethfiltertopicentry", .option b!"H256"),
    (b!"ethfiltertopicinner", .enum [] (some [(b!"Single", b!"EthFilterTopicEntry"), (b!"Multiple", b!"Vec<EthFilterTopicEntry>"), (b!"Null", b!"Null")])),
    (b!"ethheader", .struct (some [(b!"parentHash", b!"H256"), (b!"ommersHash", b!"H256"), (b!"beneficiary", b!"H160"), (b!"stateRoot", b!"H256"), (b!"transactionsRoot", b!"H256"), (b!"receiptsRoot", b!"H256"), (b!"logsBloom", b!"EthBloom"), (b!"difficulty", b!"U256"), (b!"number", b!"U256"), (b!"gasLimit", b!"U256"), (b!"gasUsed", b!"U256"), (b!"timestamp", b!"U64"), (b!"extraData", b!"Bytes"), (b!"mixMash", b!"H256"), (b!"nonce", b!"H64")])),
    (b!"ethlog", .struct (some [(b!"address", b!"H160"), (b!"topics", b!"Vec<H256>"), (b!"data", b!"Bytes"), (b!"blockHash", b!"Option<H256>"), (b!"blockNumber", b!"Option<U256>"), (b!"transactionHash", b!"Option<H256>"), (b!"transactionIndex", b!"Option<U256>"), (b!"logIndex", b!"Option<U256>"), (b!"transactionLogIndex", b!"Option<U256>"), (b!"removed", b!"bool")])),
    (b!"ethreceipt", .struct (some [(b!"transactionHash", b!"Option<H256>"), (b!"transactionIndex", b!"Option<U256>"), (b!"blockHash", b!"Option<H256>"), (b!"from", b!"Option<H160>"), (b!"to", b!"Option<H160>"), (b!"blockNumber", b!"Option<U256>"), (b!"cumulativeGasUsed", b!"U256"), (b!"gasUsed", b!"Option<U256>"), (b!"contractAddress", b!"Option<H160>"), (b!"logs", b!"Vec<EthLog>"), (b!"root", b!"Option<H256>"), (b!"logsBloom", b!"H2048"), (b!"statusCode", b!"Option<U64>")])),
    (b!"ethrichblock", .struct (some [(b!"header", b!"EthHeader"), (b!"transactions", b!"Vec<EthTransaction>"), (b!"ommers", b!"Vec<EthHeader>")])),
    (b!"ethrichheader", .struct (some [(b!"parentHash", b!"H256"), (b!"ommersHash", b!"H256"), (b!"beneficiary", b!"H160"), (b!"stateRoot", b!"H256"), (b!"transactionsRoot", b!"H256"), (b!"receiptsRoot", b!"H256"), (b!"logsBloom", b!"EthBloom"), (b!"difficulty", b!"U256"), (b!"number", b!"U256"), (b!"gasLimit", b!"U256"), (b!"gasUsed", b!"U256"), (b!"timestamp", b!"U64"), (b!"extraData", b!"Bytes"), (b!"mixMash", b!"H256"), (b!"nonce", b!"H64")])),
    (b!"ethstorageproof", .struct (some [(b!"key", b!"U256"), (b!"value", b!"U256"), (b!"proof", b!"Vec<Bytes>")])),
    (b!"ethsubkind", .enum [b!"newHeads", b!"logs", b!"newPendingTransactions", b!"syncing"] none),
    (b!"ethsubparams", .enum [] (some [(b!"None", b!"Null"), (b!"Logs", b!"EthFilter")])),
    (b!"ethsubresult", .enum [] (some [(b!"Header", b!"EthRichHeader"), (b!"Log", b!"EthLog"), (b!"TransactionHash", b!"H256"), (b!"SyncState", b!"EthSyncStatus")])),
    (b!"ethsyncinfo", .struct (some [(b!"startingBlock", b!"U256"), (b!"currentBlock", b!"U256"), (b!"highestBlock", b!"U256"), (b!"warpChunksAmount", b!"Option<U256>"), (b!"warpChunksProcessed", b!"Option<U256>")])),
    (b!"ethsyncstatus", .enum [] (some [(b!"Info", b!"EthSyncInfo"), (b!"None", b!"Null")])),
    (b!"ethtransaction", .struct (some [(b!"nonce", b!"U256"), (b!"gasPrice", b!"U256"), (b!"gasLimit", b!"U256"), (b!"action", b!"EthTransactionAction"), (b!"value", b!"U256"), (b!"input", b!"Bytes"), (b!"signature", b!"EthTransactionSignature")])),
    (b!"ethtransactionaction", .enum [] (some [(b!"Call", b!"H160"), (b!"Create", b!"NULL")])),
    (b!"ethtransactioncondition", .enum [] (some [(b!"block", b!"u64"), (b!"time", b!"u64")])),
    (b!"ethtransactionrequest", .struct (some [(b!"from", b!"Option<H160>"), (b!"to", b!"Option<H160>"), (b!"gasPrice", b!"Option<U256>"), (b!"gas", b!"Option<U256>"), (b!"value", b!"Option<U256>"), (b!"data", b!"Option<Bytes>"), (b!"nonce", b!"Option<U256>")])),
    (b!"ethtransactionsignature", .struct (some [(b!"v", b!"TransactionRecoveryId"), (b!"r", b!"H256"), (b!"s", b!"H256")])),
    (b!"ethtransactionstatus", .struct (some [(b!"transactionHash", b!"H256"), (b!"transactionIndex", b!"u32"), (b!"from", b!"H160"), (b!"to", b!"Option<H160>"), (b!"contractAddress", b!"Option<H160>"), (b!"logs", b!"Vec<EthLog>"), (b!"logsBloom", b!"EthBloom")])),
    (b!"ethwork", .struct (some [(b!"pow_hash", b!"H256"), (b!"seed_hash", b!"H256"), (b!"target", b!"H256"), (b!"number", b!"Option<u64>")])),
    (b!"ethereumaccountid", .ethereumAddress),
    (b!"ethereumlookupsource", .ethereumAddress),
    (b!"ethereumsignature", .fixedU8 65),
    (b!"eventindex", .u32),
    (b!"exchangeasset", .struct (some [(b!"give", b!"Vec<MultiAsset>"), (b!"receive", b!"Vec<MultiAsset>")])) ]

/-- Classes of the built-in names, part 6. -/
def reg5 : List (Str × Cls) :=
  [ (b!"execreturnvalue", .struct (some [(b!"flags", b!"u32"), (b!"data", b!"Bytes")])),
    (b!"exiterror", .enum [] (some [(b!"StackUnderflow", b!"NULL"), (b!"StackOverflow", b!"NULL"), (b!"InvalidJump", b!"NULL"), (b!"InvalidRange", b!"NULL"), (b!"DesignatedInvalid", b!"NULL"), (b!"CallTooDeep", b!"NULL"), (b!"CreateCollision", b!"NULL"), (b!"CreateContractLimit", b!"NULL"), (b!"OutOfOffset", b!"NULL"), (b!"OutOfGas", b!"NULL"), (b!"OutOfFund", b!"NULL"), (b!"PCUnderflow", b!"NULL"), (b!"CreateEmpty", b!"NULL"), (b!"Other", b!"string")])),
    (b!"exitfatal", .enum [] (some [(b!"NotSupported", b!"NULL"), (b!"UnhandledInterrupt", b!"NULL"), (b!"CallErrorAsFatal", b!"NULL"), (b!"Other", b!"string")])),
    (b!"exitreason", .enum [] (some [(b!"Succeed", b!"ExitSucceed"), (b!"Error", b!"ExitError"), (b!"Revert", b!"ExitRevert"), (b!"Fatal", b!"ExitFatal")])),
    (b!"exitrevert", .enum [b!"Reverted"] none),
    (b!"exitsucceed", .enum [b!"Stopped", b!"Returned", b!"Suicided"] none),
    (b!"explicitdisputestatement", .struct (some [(b!"valid", b!"bool"), (b!"candidateHash", b!"CandidateHash"), (b!"session", b!"SessionIndex")])),
    (b!"extendedbalance", .u128),
    (b!"extrinsicmetadata", .struct (some [(b!"version", b!"u8"), (b!"signedExtensions", b!"Vec<Bytes>")])),
    (b!"extrinsicmetadatav14", .struct (some [(b!"type", b!"SiLookupTypeId"), (b!"version", b!"u8"), (b!"signedExtensions", b!"Vec<SignedExtensionMetadataV14>")])),
    (b!"extrinsicmetadatav15", .struct (some [(b!"version", b!"u8"), (b!"addressType", b!"SiLookupTypeId"), (b!"callType", b!"SiLookupTypeId"), (b!"signatureType", b!"SiLookupTypeId"), (b!"extraType", b!"SiLookupTypeId"), (b!"signedExtensions", b!"Vec<SignedExtensionMetadataV14>")])),
    (b!"extrinsicsignature", .enum [] (some [(b!"Ed25519", b!"Ed25519Signature"), (b!"Sr25519", b!"Sr25519Signature"), (b!"Ecdsa", b!"EcdsaSignature")])),
    (b!"extrinsicsweight", .struct (some [(b!"normal", b!"Weight"), (b!"operational", b!"Weight")])),
    (b!"feedetails", .struct (some [(b!"inclusionFee", b!"Option<InclusionFee>")])),
    (b!"fixedu128", .u128),
    (b!"forcing", .enum [b!"NotForcing", b!"ForceNew", b!"ForceNone"] none),
    (b!"forktreependingchange", .struct (some [(b!"roots", b!"Vec<ForkTreePendingChangeNode>"), (b!"bestFinalizedNumber", b!"Option<BlockNumber>")])),
    (b!"forktreependingchangenode", .struct (some [(b!"hash", b!"BlockHash"), (b!"number", b!"BlockNumber"), (b!"data", b!"PendingChange"), (b!"children", b!"Vec<ForkTreePendingChangeNode>")])),
    (b!"fullidentification", .struct (some [(b!"total", b!"Compact<Balance>"), (b!"own", b!"Compact<Balance>"), (b!"others", b!"Vec<IndividualExposure>")])),
    (b!"fundindex", .u32),
    (b!"fundinfo", .struct (some [(b!"depositor", b!"AccountId"), (b!"verifier", b!"Option<MultiSigner>"), (b!"deposit", b!"Balance"), (b!"raised", b!"Balance"), (b!"end", b!"BlockNumber"), (b!"cap", b!"Balance"), (b!"last_contribution", b!"LastContribution<BlockNumber>"), (b!"first_period", b!"LeasePeriod"), (b!"last_period", b!"LeasePeriod"), (b!"trie_index", b!"TrieIndex")])),
    (b!"fungibilityv0", .enum [] (some [(b!"Fungible", b!"Compact<u128>"), (b!"NonFungible", b!"AssetInstanceV1")])),
    (b!"fungibilityv1", .enum [] (some [(b!"Fungible", b!"Compact<u128>"), (b!"NonFungible", b!"AssetInstanceV1")])),
    (b!"fungibilityv2", .enum [] (some [(b!"Fungible", b!"Compact<u128>"), (b!"NonFungible", b!"AssetInstanceV1")])),
    (b!"fungibilityv3", .enum [] (some [(b!"Fungible", b!"Compact<u128>"), (b!"NonFungible", b!"AssetInstanceV3")])),
    (b!"gas", .u64),
    (b!"generalkeyv3", .struct (some [(b!"length", b!"u8"), (b!"data", b!"[u8; 32]")])),
    (b!"genericmultiaddress", .enum [] (some [(b!"Id", b!"AccountId"), (b!"Index", b!"Compact<AccountIndex>"), (b!"Raw", b!"Bytes"), (b!"Address32", b!"H256"), (b!"Address20", b!"H160")])),
    (b!"genericportableregistry", .vec b!"PortableType"),
    (b!"giltbid", .struct (some [(b!"amount", b!"Balance"), (b!"who", b!"AccountId")])),
    (b!"globalvalidationdata", .struct (some [(b!"maxCodeSize", b!"u32"), (b!"maxHeadDataSize", b!"u32"), (b!"blockNumber", b!"blockNumber")])),
    (b!"globalvalidationschedule", .struct (some [(b!"maxCodeSize", b!"u32"), (b!"maxHeadDataSize", b!"u32"), (b!"blockNumber", b!"BlockNumber")])),
    (b!"grandpacommit", .struct (some [(b!"targetHash", b!"BlockHash"), (b!"targetNumber", b!"BlockNumber"), (b!"precommits", b!"Vec<GrandpaSignedPrecommit>")])),
    (b!"grandpaequivocation", .enum [] (some [(b!"Prevote", b!"GrandpaEquivocationValue"), (b!"Precommit", b!"GrandpaEquivocationValue")])),
    (b!"grandpaequivocationproof", .struct (some [(b!"setId", b!"SetId"), (b!"equivocation", b!"GrandpaEquivocation")])),
    (b!"grandpaequivocationvalue", .struct (some [(b!"roundNumber", b!"u64"), (b!"identity", b!"AuthorityId"), (b!"first", b!"(GrandpaPrevote, AuthoritySignature)"), (b!"second", b!"(GrandpaPrevote, AuthoritySignature)")])),
    (b!"grandpajustification", .struct (some [(b!"round", b!"u64"), (b!"commit", b!"GrandpaCommit"), (b!"votesAncestries", b!"Vec<Header>")])),
    (b!"grandpaprecommit", .struct (some [(b!"targetHash", b!"BlockHash"), (b!"targetNumber", b!"BlockNumber")])),
    (b!"grandpaprevote", .struct (some [(b!"targetHash", b!"Hash"), (b!"targetNumber", b!"BlockNumber")])),
    (b!"grandpasignedprecommit", .struct (some [(b!"precommit", b!"GrandpaPrecommit"), (b!"signature", b!"AuthoritySignature"), (b!"id", b!"AuthorityId")])),
    (b!"groupindex", .u32),
    (b!"h1024", .fixedArray 128 b!"u8"),
    (b!"h2048", .fixedU8 256),
    (b!"headdata", .bytes),
    (b!"header", .struct (some [(b!"parent_hash", b!"H256"), (b!"number", b!"Compact<BlockNumber>"), (b!"state_root", b!"H256"), (b!"extrinsics_root", b!"H256"), (b!"digest", b!"Digest")])),
    (b!"heartbeat", .struct (some [(b!"blockNumber", b!"BlockNumber"), (b!"networkState", b!"OpaqueNetworkState"), (b!"sessionIndex", b!"SessionIndex"), (b!"authorityIndex", b!"AuthIndex")])),
    (b!"hostconfiguration", .struct (some [(b!"maxCodeSize", b!"u32"), (b!"maxHeadDataSize", b!"u32"), (b!"maxUpwardQueueCount", b!"u32"), (b!"maxUpwardQueueSize", b!"u32"), (b!"maxUpwardMessageSize", b!"u32"), (b!"maxUpwardMessageNumPerCandidate", b!"u32"), (b!"hrmpMaxMessageNumPerCandidate", b!"u32"), (b!"validationUpgradeFrequency", b!"BlockNumber"), (b!"validationUpgradeDelay", b!"BlockNumber"), (b!"maxPovSize", b!"u32"), (b!"maxDownwardMessageSize", b!"u32"), (b!"preferredDispatchableUpwardMessagesStepWeight", b!"Weight"), (b!"hrmpMaxParachainOutboundChannels", b!"u32"), (b!"hrmpMaxParathreadOutboundChannels", b!"u32"), (b!"hrmpOpenRequestTtl", b!"u32"), (b!"hrmpSenderDeposit", b!"Balance"), (b!"hrmpRecipientDeposit", b!"Balance"), (b!"hrmpChannelMaxCapacity", b!"u32"), (b!"hrmpChannelMaxTotalSize", b!"u32"), (b!"hrmpMaxParachainInboundChannels", b!"u32"), (b!"hrmpMaxParathreadInboundChannels", b!"u32"), (b!"hrmpChannelMaxMessageSize", b!"u32"), (b!"codeRetentionPeriod", b!"BlockNumber"), (b!"parathreadCores", b!"u32"), (b!"parathreadRetries", b!"u32"), (b!"groupRotationFrequency", b!"BlockNumber"), (b!"chainAvailabilityPeriod", b!"BlockNumber"), (b!"threadAvailabilityPeriod", b!"BlockNumber"), (b!"schedulingLookahead", b!"u32"), (b!"maxValidatorsPerCore", b!"Option<u32>"), (b!"disputePeriod", b!"SessionIndex"), (b!"disputePostConclusionAcceptancePeriod", b!"BlockNumber"), (b!"disputeMaxSpamSlots", b!"u32"), (b!"disputeConclusionByTimeOutPeriod", b!"BlockNumber"), (b!"noShowSlots", b!"u32"), (b!"nDelayTranches", b!"u32"), (b!"zerothDelayTrancheWidth", b!"u32"), (b!"neededApprovals", b!"u32"), (b!"relayVrfModuloSamples", b!"u32")])),
    (b!"hostfnweights", .struct (some [(b!"caller", b!"Weight"), (b!"address", b!"Weight"), (b!"gasLeft", b!"Weight"), (b!"balance", b!"Weight"), (b!"valueTransferred", b!"Weight"), (b!"minimumBalance", b!"Weight"), (b!"tombstoneDeposit", b!"Weight"), (b!"rentAllowance", b!"Weight"), (b!"blockNumber", b!"Weight"), (b!"now", b!"Weight"), (b!"weightToFee", b!"Weight"), (b!"gas", b!"Weight"), (b!"input", b!"Weight"), (b!"inputPerByte", b!"Weight"), (b!"return", b!"Weight"), (b!"returnPerByte", b!"Weight"), (b!"terminate", b!"Weight"), (b!"restoreTo", b!"Weight"), (b!"restoreToPerDelta", b!"Weight"), (b!"random", b!"Weight"), (b!"depositEvent", b!"Weight"), (b!"depositEventPerTopic", b!"Weight"), (b!"depositEventPerByte", b!"Weight"), (b!"setRentAllowance", b!"Weight"), (b!"setStorage", b!"Weight"), (b!"setStoragePerByte", b!"Weight"), (b!"clearStorage", b!"Weight"), (b!"getStorage", b!"Weight"), (b!"getStoragePerByte", b!"Weight"), (b!"transfer", b!"Weight"), (b!"call", b!"Weight"), (b!"callTransferSurcharge", b!"Weight"), (b!"callPerInputByte", b!"Weight"), (b!"callPerOutputByte", b!"Weight"), (b!"instantiate", b!"Weight"), (b!"instantiatePerInputByte", b!"Weight"), (b!"instantiatePerOutputByte", b!"Weight"), (b!"hashSha2256", b!"Weight"), (b!"hashSha2256PerByte", b!"Weight"), (b!"hashKeccak256", b!"Weight"), (b!"hashKeccak256PerByte", b!"Weight"), (b!"hashBlake2256", b!"Weight"), (b!"hashBlake2256PerByte", b!"Weight"), (b!"hashBlake2128", b!"Weight"), (b!"hashBlake2128PerByte", b!"Weight")])),
    (b!"hrmpchannel", .struct (some [(b!"maxCapacity", b!"u32"), (b!"maxTotalSize", b!"u32"), (b!"maxMessageSize", b!"u32"), (b!"msgCount", b!"u32"), (b!"totalSize", b!"u32"), (b!"mqcHead", b!"Option<Hash>"), (b!"senderDeposit", b!"Balance"), (b!"recipientDeposit", b!"Balance")])),
    (b!"hrmpchannelid", .struct (some [(b!"sender", b!"u32"), (b!"receiver", b!"u32")])) ]

/-- Classes of the built-in names, part 7. -/
def reg6 : List (Str × Cls) :=
  [ (b!"hrmpopenchannelrequest", .struct (some [(b!"confirmed", b!"bool"), (b!"age", b!"SessionIndex"), (b!"senderDeposit", b!"Balance"), (b!"maxMessageSize", b!"u32"), (b!"maxCapacity", b!"u32"), (b!"maxTotalSize", b!"u32")])),
    (b!"identificationtuple", .struct (some [(b!"validatorId", b!"ValidatorId"), (b!"exposure", b!"FullIdentification")])),
    (b!"identityfields", .set [b!"Display", b!"Legal", b!"Web", b!"Riot", b!"Email", b!"PgpFingerprint", b!"Image", b!"Twitter"] 64),
    (b!"identityinfo", .struct (some [(b!"additional", b!"Vec<IdentityInfoAdditional>"), (b!"display", b!"Data"), (b!"legal", b!"Data"), (b!"web", b!"Data"), (b!"riot", b!"Data"), (b!"email", b!"Data"), (b!"pgpFingerprint", b!"Option<H160>"), (b!"image", b!"Data"), (b!"twitter", b!"Data")])),
    (b!"identityinfoadditional", .struct (some [(b!"field", b!"Data"), (b!"value", b!"Data")])),
    (b!"importedaux", .struct (some [(b!"headerOnly", b!"bool"), (b!"clearJustificationRequests", b!"bool"), (b!"needsJustification", b!"bool"), (b!"badJustification", b!"bool"), (b!"needsFinalityProof", b!"bool"), (b!"isNewBest", b!"bool")])),
    (b!"inbounddownwardmessage", .struct (some [(b!"pubSentAt", b!"BlockNumber"), (b!"pubMsg", b!"DownwardMessage")])),
    (b!"inboundhrmpmessage", .struct (some [(b!"sentAt", b!"BlockNumber"), (b!"data", b!"Bytes")])),
    (b!"inboundhrmpmessages", .vec b!"InboundHrmpMessage"),
    (b!"inboundlanedata", .struct (some [(b!"relayers", b!"Vec<UnrewardedRelayer>"), (b!"lastConfirmedNonce", b!"MessageNonce")])),
    (b!"inboundrelayer", .accountId),
    (b!"inboundstatus", .enum [b!"Ok", b!"Suspended"] none),
    (b!"includedblocks", .struct (some [(b!"actualNumber", b!"BlockNumber"), (b!"session", b!"SessionIndex"), (b!"randomSeed", b!"H256"), (b!"activeParachains", b!"Vec<ParaId>"), (b!"paraBlocks", b!"Vec<Hash>")])),
    (b!"inclusionfee", .struct (some [(b!"baseFee", b!"Balance"), (b!"lenFee", b!"Balance"), (b!"adjustedWeightFee", b!"Balance")])),
    (b!"incomingparachain", .enum [] (some [(b!"Unset", b!"NewBidder"), (b!"Fixed", b!"IncomingParachainFixed"), (b!"Deploy", b!"IncomingParachainDeploy")])),
    (b!"incomingparachaindeploy", .struct (some [(b!"code", b!"ValidationCode"), (b!"initialHeadData", b!"HeadData")])),
    (b!"incomingparachainfixed", .struct (some [(b!"codeHash", b!"Hash"), (b!"codeSize", b!"u32"), (b!"initialHeadData", b!"HeadData")])),
    (b!"index", .u32),
    (b!"individualexposure", .struct (some [(b!"who", b!"AccountId"), (b!"value", b!"Compact<Balance>")])),
    (b!"initializationdata", .struct (some [(b!"header", b!"Header"), (b!"authorityList", b!"AuthorityList"), (b!"setId", b!"SetId"), (b!"isHalted", b!"bool")])),
    (b!"initiatereservewithdraw", .struct (some [(b!"assets", b!"Vec<MultiAsset>"), (b!"reserve", b!"MultiLocation"), (b!"effects", b!"Vec<Order>")])),
    (b!"initiateteleport", .struct (some [(b!"assets", b!"Vec<MultiAsset>"), (b!"dest", b!"MultiLocation"), (b!"effects", b!"Vec<Order>")])),
    (b!"instancedetails", .struct (some [(b!"owner", b!"AccountId"), (b!"approved", b!"Option<AccountId>"), (b!"isFrozen", b!"bool"), (b!"deposit", b!"DepositBalance")])),
    (b!"instanceid", .u32),
    (b!"instancemetadata", .struct (some [(b!"deposit", b!"DepositBalance"), (b!"data", b!"Vec<u8>"), (b!"isFrozen", b!"bool")])),
    (b!"instantiaterequest", .struct (some [(b!"origin", b!"AccountId"), (b!"endowment", b!"Balance"), (b!"gasLimit", b!"Gas"), (b!"code", b!"Bytes"), (b!"code", b!"Bytes"), (b!"salt", b!"Bytes")])),
    (b!"instantiatereturnvalue", .struct (some [(b!"result", b!"ExecReturnValue"), (b!"accountId", b!"AccountId"), (b!"rentProjection", b!"Option<RentProjection>")])),
    (b!"instructionv2", .enum [] (some [(b!"WithdrawAsset", b!"MultiAssetsV2"), (b!"ReserveAssetDeposited", b!"MultiAssetsV2"), (b!"ReceiveTeleportedAsset", b!"MultiAssetsV2"), (b!"QueryResponse", b!"[[\"query_id\", \"Compact<u64>\"], [\"response\", \"ResponseV2\"], [\"max_weight\", \"Compact<u64>\"]]"), (b!"TransferAsset", b!"[[\"assets\", \"MultiAssetsV2\"], [\"beneficiary\", \"MultiLocationV2\"]]"), (b!"TransferReserveAsset", b!"[[\"assets\", \"MultiAssetsV2\"], [\"dest\", \"MultiLocationV2\"], [\"xcm\", \"XcmV2\"]]"), (b!"Transact", b!"[[\"originType\", \"OriginKindV2\"], [\"requireWeightAtMost\", \"u64\"], [\"call\", \"DoubleEncodedCall\"]]"), (b!"HrmpNewChannelOpenRequest", b!"[[\"sender\", \"Compact<u32>\"], [\"maxMessageSize\", \"Compact<u32>\"], [\"maxCapacity\", \"Compact<u32>\"]]"), (b!"HrmpChannelAccepted", b!"[[\"recipient\", \"Compact<u32>\"]]"), (b!"HrmpChannelClosing", b!"[[\"initiator\", \"Compact<u32>\"], [\"sender\", \"Compact<u32>\"], [\"recipient\", \"Compact<u32>\"]]"), (b!"ClearOrigin", b!"empty"), (b!"DescendOrigin", b!"InteriorMultiLocation"), (b!"ReportError", b!"[[\"query_id\", \"Compact<u64>\"], [\"dest\", \"MultiLocationV2\"], [\"maxResponseWeight\", \"Compact<u64>\"]]"), (b!"DepositAsset", b!"[[\"assets\", \"MultiAssetFilterV2\"], [\"max_assets\", \"compact<u32>\"], [\"beneficiary\", \"MultiLocationV2\"]]"), (b!"DepositReserveAsset", b!"[[\"assets\", \"MultiAssetFilterV2\"], [\"max_assets\", \"compact<u32>\"], [\"dest\", \"MultiLocationV2\"], [\"xcm\", \"XcmV2\"]]"), (b!"ExchangeAsset", b!"[[\"give\", \"MultiAssetFilterV2\"], [\"receive\", \"MultiAssetsV2\"]]"), (b!"InitiateReserveWithdraw", b!"[[\"assets\", \"MultiAssetFilterV2\"], [\"reserve\", \"MultiLocationV2\"], [\"xcm\", \"XcmV2\"]]"), (b!"InitiateTeleport", b!"[[\"assets\", \"MultiAssetFilterV2\"], [\"dest\", \"MultiLocationV2\"], [\"xcm\", \"XcmV2\"]]"), (b!"QueryHolding", b!"[[\"query_id\", \"Compact<u64>\"], [\"dest\", \"MultiLocationV2\"], [\"assets\", \"MultiAssetFilterV2\"], [\"maxResponse_Weight\", \"Compact<u64>\"]]"), (b!"BuyExecution", b!"[[\"fees\", \"MultiAssetV2\"], [\"weight_limit\", \"WeightLimitV2\"]]"), (b!"RefundSurplus", b!"empty"), (b!"SetErrorHandler", b!"XcmV2"), (b!"SetAppendix", b!"XcmV2"), (b!"ClearError", b!"empty"), (b!"ClaimAsset", b!"[[\"assets\", \"MultiAssetsV2\"], [\"ticket\", \"MultiLocationV2\"]]"), (b!"Trap", b!"u64")])),
    (b!"instructionv3", .enum [] (some [(b!"WithdrawAsset", b!"MultiAssetsV3"), (b!"ReserveAssetDeposited", b!"MultiAssetsV3"), (b!"ReceiveTeleportedAsset", b!"MultiAssetsV3"), (b!"QueryResponse", b!"QueryResponseV3"), (b!"TransferAsset", b!"[[\"assets\", \"MultiAssetsV3\"], [\"beneficiary\", \"MultiLocationV3\"]]"), (b!"TransferReserveAsset", b!"[[\"assets\", \"MultiAssetsV3\"], [\"dest\", \"MultiLocationV3\"], [\"xcm\", \"XcmV3\"]]"), (b!"Transact", b!"[[\"origin_kind\", \"OriginKindV2\"], [\"require_weight_at_most\", \"WeightV2\"], [\"call\", \"DoubleEncodedCall\"]]"), (b!"HrmpNewChannelOpenRequest", b!"[[\"sender\", \"Compact<u32>\"], [\"maxMessageSize\", \"Compact<u32>\"], [\"maxCapacity\", \"Compact<u32>\"]]"), (b!"HrmpChannelAccepted", b!"[[\"recipient\", \"Compact<u32>\"]]"), (b!"HrmpChannelClosing", b!"[[\"initiator\", \"Compact<u32>\"], [\"sender\", \"Compact<u32>\"], [\"recipient\", \"Compact<u32>\"]]"), (b!"ClearOrigin", b!"Null"), (b!"DescendOrigin", b!"InteriorMultiLocationV3"), (b!"ReportError", b!"[[\"destination\", \"MultiLocationV3\"], [\"query_id\", \"Compact<u64>\"], [\"max_weight\", \"WeightV2\"]]"), (b!"DepositAsset", b!"[[\"assets\", \"MultiAssetFilterV3\"], [\"beneficiary\", \"MultiLocationV3\"]]"), (b!"DepositReserveAsset", b!"[[\"assets\", \"MultiAssetFilterV3\"], [\"dest\", \"MultiLocationV3\"], [\"xcm\", \"XcmV3\"]]"), (b!"ExchangeAsset", b!"[[\"give\", \"MultiAssetFilterV3\"],[\"want\", \"MultiAssetsV3\"], [\"maximal\", \"bool\"]]"), (b!"InitiateReserveWithdraw", b!"[[\"assets\", \"MultiAssetFilterV3\"], [\"reserve\", \"MultiLocationV3\"], [\"xcm\", \"XcmV3\"]]"), (b!"InitiateTeleport", b!"[[\"assets\", \"MultiAssetFilterV3\"], [\"dest\", \"MultiLocationV3\"], [\"xcm\", \"XcmV3\"]]"), (b!"QueryHolding", b!"[[\"response_info\", \"QueryResponseInfoV3\"], [\"assets\", \"MultiAssetFilterV3\"]]"), (b!"BuyExecution", b!"[[\"fees\", \"MultiAssetV3\"], [\"weight_limit\", \"WeightLimitV3\"]]"), (b!"RefundSurplus", b!"Null"), (b!"SetErrorHandler", b!"XcmV3"), (b!"SetAppendix", b!"XcmV3"), (b!"ClearError", b!"Null"), (b!"ClaimAsset", b!"[[\"assets\", \"MultiAssetsV3\"], [\"ticket\", \"MultiLocationV3\"]]"), (b!"Trap", b!"u64"), (b!"SubscribeVersion", b!"[[\"query_id\", \"Compact<u64>\"], [\"max_response_weight\", \"WeightV2\"]]"), (b!"UnsubscribeVersion", b!"NULL"), (b!"BurnAsset", b!"MultiAssetsV3"), (b!"ExpectAsset", b!"MultiAssetsV3"), (b!"ExpectOrigin", b!"Option<MultiLocationV3>"), (b!"ExpectError", b!"Option<(U32, XcmTraitsErrorV3)>>"), (b!"ExpectTransactStatus", b!"MaybeErrorCodeV3"), (b!"QueryPallet", b!"[[\"module_name\", \"Vec<U8>\"], [\"response_info\", \"QueryResponseInfoV3\"]]"), (b!"ExpectPallet", b!"[[\"index\", \"Compact<u32>\"], [\"name\", \"Vec<U8>\"], [\"module_name\", \"Vec<U8>\"], [\"crate_major\", \"Compact<u32>\"], [\"min_crate_minor\", \"Compact<u32>\"]]"), (b!"ReportTransactStatus", b!"QueryResponseInfoV3"), (b!"ClearTransactStatus", b!"NULL"), (b!"UniversalOrigin", b!"JunctionV3"), (b!"ExportMessage", b!"[[\"network\", \"NetworkIdV3\"], [\"destination\", \"InteriorMultiLocationV3\"], [\"xcm\", \"XcmV3\"]]"), (b!"LockAsset", b!"[[\"asset\", \"MultiAssetV3\"], [\"unlocker\", \"MultiLocationV3\"]]"), (b!"UnlockAsset", b!"[[\"asset\", \"MultiAssetV3\"], [\"target\", \"MultiLocationV3\"]]"), (b!"NoteUnlockable", b!"[[\"asset\", \"MultiAssetV3\"], [\"owner\", \"MultiLocationV3\"]]"), (b!"RequestUnlock", b!"[[\"asset\", \"MultiAssetV3\"], [\"locker\", \"MultiLocationV3\"]]"), (b!"SetFeesMode", b!"[[\"jit_withdraw\", \"bool\"]]"), (b!"SetTopic", b!"[u8; 32]"), (b!"ClearTopic", b!"NULL"), (b!"AliasOrigin", b!"MultiLocationV3"), (b!"UnpaidExecution", b!"[[\"weight_limit\", \"WeightV2\"], [\"check_origin\", \"MultiLocationV3\"]]")])),
    (b!"instructionweights", .struct (some [(b!"i64const", b!"u32"), (b!"i64load", b!"u32"), (b!"i64store", b!"u32"), (b!"select", b!"u32"), (b!"rIf", b!"u32"), (b!"br", b!"u32"), (b!"brIf", b!"u32"), (b!"brIable", b!"u32"), (b!"brIablePerEntry", b!"u32"), (b!"call", b!"u32"), (b!"callIndirect", b!"u32"), (b!"callIndirectPerParam", b!"u32"), (b!"localGet", b!"u32"), (b!"localSet", b!"u32"), (b!"local_tee", b!"u32"), (b!"globalGet", b!"u32"), (b!"globalSet", b!"u32"), (b!"memoryCurrent", b!"u32"), (b!"memoryGrow", b!"u32"), (b!"i64clz", b!"u32"), (b!"i64ctz", b!"u32"), (b!"i64popcnt", b!"u32"), (b!"i64eqz", b!"u32"), (b!"i64extendsi32", b!"u32"), (b!"i64extendui32", b!"u32"), (b!"i32wrapi64", b!"u32"), (b!"i64eq", b!"u32"), (b!"i64ne", b!"u32"), (b!"i64lts", b!"u32"), (b!"i64ltu", b!"u32"), (b!"i64gts", b!"u32"), (b!"i64gtu", b!"u32"), (b!"i64les", b!"u32"), (b!"i64leu", b!"u32"), (b!"i64ges", b!"u32"), (b!"i64geu", b!"u32"), (b!"i64add", b!"u32"), (b!"i64sub", b!"u32"), (b!"i64mul", b!"u32"), (b!"i64divs", b!"u32"), (b!"i64divu", b!"u32"), (b!"i64rems", b!"u32"), (b!"i64remu", b!"u32"), (b!"i64and", b!"u32"), (b!"i64or", b!"u32"), (b!"i64xor", b!"u32"), (b!"i64shl", b!"u32"), (b!"i64shrs", b!"u32"), (b!"i64shru", b!"u32"), (b!"i64rotl", b!"u32"), (b!"i64rotr", b!"u32")])),
    (b!"interiormultilocation", .enum [] (some [(b!"Here", b!"Null"), (b!"X1", b!"JunctionV1"), (b!"X2", b!"(JunctionV1, JunctionV1)"), (b!"X3", b!"(JunctionV1, JunctionV1, JunctionV1)"), (b!"X4", b!"(JunctionV1, JunctionV1, JunctionV1, JunctionV1)"), (b!"X5", b!"(JunctionV1, JunctionV1, JunctionV1, JunctionV1, JunctionV1)"), (b!"X6", b!"(JunctionV1, JunctionV1, JunctionV1, JunctionV1, JunctionV1, JunctionV1)"), (b!"X7", b!"(JunctionV1, JunctionV1, JunctionV1, JunctionV1, JunctionV1, JunctionV1, JunctionV1)"), (b!"X8", b!"(JunctionV1, JunctionV1, JunctionV1, JunctionV1, JunctionV1, JunctionV1, JunctionV1, JunctionV1)")])),
    (b!"interiormultilocationv3", .enum [] (some [(b!"Here", b!"NULL"), (b!"X1", b!"JunctionV3"), (b!"X2", b!"(JunctionV3, JunctionV3)"), (b!"X3", b!"(JunctionV3, JunctionV3, JunctionV3)"), (b!"X4", b!"(JunctionV3, JunctionV3, JunctionV3, JunctionV3)"), (b!"X5", b!"(JunctionV3, JunctionV3, JunctionV3, JunctionV3, JunctionV3)"), (b!"X6", b!"(JunctionV3, JunctionV3, JunctionV3, JunctionV3, JunctionV3, JunctionV3)"), (b!"X7", b!"(JunctionV3, JunctionV3, JunctionV3, JunctionV3, JunctionV3, JunctionV3, JunctionV3)"), (b!"X8", b!"(JunctionV3, JunctionV3, JunctionV3, JunctionV3, JunctionV3, JunctionV3, JunctionV3, JunctionV3)")])),
    (b!"invaliddisputestatementkind", .enum [b!"Explicit"] none),
    (b!"judgement", .enum [] (some [(b!"Unknown", b!"Null"), (b!"FeePaid", b!"Balance"), (b!"Reasonable", b!"Null"), (b!"KnownGood", b!"Null"), (b!"OutOfDate", b!"Null"), (b!"LowQuality", b!"Null"), (b!"Erroneous", b!"Null")])),
    (b!"junction", .enum [] (some [(b!"Parachain", b!"Compact<u32>"), (b!"AccountId32", b!"[[\"network\", \"NetworkId\"], [\"id\", \"AccountId32\"]]"), (b!"AccountIndex64", b!"[[\"network\", \"NetworkId\"], [\"index\", \"Compact<u64>\"]]"), (b!"AccountKey20", b!"[[\"network\", \"NetworkId\"], [\"key\", \"[u8; 20]\"]]"), (b!"PalletInstance", b!"u8"), (b!"GeneralIndex", b!"Compact<u128>"), (b!"GeneralKey", b!"Vec<u8>"), (b!"OnlyChild", b!"Null"), (b!"Plurality", b!"[[\"id\", \"BodyId\"], [\"part\", \"BodyPart\"]]")])),
    (b!"junctionv0", .enum [] (some [(b!"Parent", b!"Null"), (b!"Parachain", b!"Compact<u32>"), (b!"AccountId32", b!"[[\"network\", \"NetworkId\"], [\"id\", \"AccountId32\"]]"), (b!"AccountIndex64", b!"[[\"network\", \"NetworkId\"], [\"index\", \"Compact<u64>\"]]"), (b!"AccountKey20", b!"[[\"network\", \"NetworkId\"], [\"key\", \"[u8; 20]\"]]"), (b!"PalletInstance", b!"u8"), (b!"GeneralIndex", b!"Compact<u128>"), (b!"GeneralKey", b!"Vec<u8>"), (b!"OnlyChild", b!"Null"), (b!"Plurality", b!"[[\"id\", \"BodyId\"], [\"part\", \"BodyPart\"]]")])),
    (b!"junctionv1", .enum [] (some [(b!"Parachain", b!"Compact<u32>"), (b!"AccountId32", b!"[[\"network\", \"NetworkId\"], [\"id\", \"AccountId32\"]]"), (b!"AccountIndex64", b!"[[\"network\", \"NetworkId\"], [\"index\", \"Compact<u64>\"]]"), (b!"AccountKey20", b!"[[\"network\", \"NetworkId\"], [\"key\", \"[u8; 20]\"]]"), (b!"PalletInstance", b!"u8"), (b!"GeneralIndex", b!"Compact<u128>"), (b!"GeneralKey", b!"Vec<u8>"), (b!"OnlyChild", b!"Null"), (b!"Plurality", b!"[[\"id\", \"BodyId\"], [\"part\", \"BodyPart\"]]")])),
    (b!"junctionv2", .enum [] (some [(b!"Parachain", b!"Compact<u32>"), (b!"AccountId32", b!"[[\"network\", \"NetworkId\"], [\"id\", \"AccountId32\"]]"), (b!"AccountIndex64", b!"[[\"network\", \"NetworkId\"], [\"index\", \"Compact<u64>\"]]"), (b!"AccountKey20", b!"[[\"network\", \"NetworkId\"], [\"key\", \"[u8; 20]\"]]"), (b!"PalletInstance", b!"u8"), (b!"GeneralIndex", b!"Compact<u128>"), (b!"GeneralKey", b!"Vec<u8>"), (b!"OnlyChild", b!"Null"), (b!"Plurality", b!"[[\"id\", \"BodyId\"], [\"part\", \"BodyPart\"]]")])),
    (b!"junctionv3", .enum [] (some [(b!"Parachain", b!"Compact<u32>"), (b!"AccountId32", b!"[[\"network\", \"option<NetworkIdV3>\"], [\"id\", \"AccountId32\"]]"), (b!"AccountIndex64", b!"[[\"network\", \"option<NetworkIdV3>\"], [\"index\", \"Compact<u64>\"]]"), (b!"AccountKey20", b!"[[\"network\", \"option<NetworkIdV3>\"], [\"key\", \"[u8; 20]\"]]"), (b!"PalletInstance", b!"u8"), (b!"GeneralIndex", b!"Compact<u128>"), (b!"GeneralKey", b!"GeneralKeyV3"), (b!"OnlyChild", b!"NULL"), (b!"Plurality", b!"[[\"id\", \"BodyId\"], [\"part\", \"BodyPart\"]]"), (b!"GlobalConsensus", b!"NetworkIdV3")])),
    (b!"junctions", .enum [] (some [(b!"Here", b!"Null"), (b!"X1", b!"JunctionV1"), (b!"X2", b!"(JunctionV1, JunctionV1)"), (b!"X3", b!"(JunctionV1, JunctionV1, JunctionV1)"), (b!"X4", b!"(JunctionV1, JunctionV1, JunctionV1, JunctionV1)"), (b!"X5", b!"(JunctionV1, JunctionV1, JunctionV1, JunctionV1, JunctionV1)"), (b!"X6", b!"(JunctionV1, JunctionV1, JunctionV1, JunctionV1, JunctionV1, JunctionV1)"), (b!"X7", b!"(JunctionV1, JunctionV1, JunctionV1, JunctionV1, JunctionV1, JunctionV1, JunctionV1)"), (b!"X8", b!"(JunctionV1, JunctionV1, JunctionV1, JunctionV1, JunctionV1, JunctionV1, JunctionV1, JunctionV1)")])),
    (b!"junctionsv1", .enum [] (some [(b!"Here", b!"Null"), (b!"X1", b!"JunctionV1"), (b!"X2", b!"(JunctionV1, JunctionV1)"), (b!"X3", b!"(JunctionV1, JunctionV1, JunctionV1)"), (b!"X4", b!"(JunctionV1, JunctionV1, JunctionV1, JunctionV1)"), (b!"X5", b!"(JunctionV1, JunctionV1, JunctionV1, JunctionV1, JunctionV1)"), (b!"X6", b!"(JunctionV1, JunctionV1, JunctionV1, JunctionV1, JunctionV1, JunctionV1)"), (b!"X7", b!"(JunctionV1, JunctionV1, JunctionV1, JunctionV1, JunctionV1, JunctionV1, JunctionV1)"), (b!"X8", b!"(JunctionV1, JunctionV1, JunctionV1, JunctionV1, JunctionV1, JunctionV1, JunctionV1, JunctionV1)")])),
    (b!"junctionsv2", .enum [] (some [(b!"Here", b!"Null"), (b!"X1", b!"JunctionV1"), (b!"X2", b!"(JunctionV1, JunctionV1)"), (b!"X3", b!"(JunctionV1, JunctionV1, JunctionV1)"), (b!"X4", b!"(JunctionV1, JunctionV1, JunctionV1, JunctionV1)"), (b!"X5", b!"(JunctionV1, JunctionV1, JunctionV1, JunctionV1, JunctionV1)"), (b!"X6", b!"(JunctionV1, JunctionV1, JunctionV1, JunctionV1, JunctionV1, JunctionV1)"), (b!"X7", b!"(JunctionV1, JunctionV1, JunctionV1, JunctionV1, JunctionV1, JunctionV1, JunctionV1)"), (b!"X8", b!"(JunctionV1, JunctionV1, JunctionV1, JunctionV1, JunctionV1, JunctionV1, JunctionV1, JunctionV1)")])),
    (b!"junctionsv3", .enum [] (some [(b!"Here", b!"NULL"), (b!"X1", b!"JunctionV3"), (b!"X2", b!"(JunctionV3, JunctionV3)"), (b!"X3", b!"(JunctionV3, JunctionV3, JunctionV3)"), (b!"X4", b!"(JunctionV3, JunctionV3, JunctionV3, JunctionV3)"), (b!"X5", b!"(JunctionV3, JunctionV3, JunctionV3, JunctionV3, JunctionV3)"), (b!"X6", b!"(JunctionV3, JunctionV3, JunctionV3, JunctionV3, JunctionV3, JunctionV3)"), (b!"X7", b!"(JunctionV3, JunctionV3, JunctionV3, JunctionV3, JunctionV3, JunctionV3, JunctionV3)"), (b!"X8", b!"(JunctionV3, JunctionV3, JunctionV3, JunctionV3, JunctionV3, JunctionV3, JunctionV3, JunctionV3)")])),
    (b!"justificationnotification", .bytes),
    (b!"key", .bytes),
    (b!"keyownerproof", .struct (some [(b!"session", b!"sessionIndex"), (b!"trieNodes", b!"Vec<Vec<u8>>"), (b!"validatorCount", b!"ValidatorCount")])),
    (b!"keytypeid", .u32),
    (b!"keyvalue", .struct (some [(b!"key", b!"Vec<u8>"), (b!"value", b!"Vec<u8>")])),
    (b!"keyvalueoption", .struct (some (buildStruct b!"(StorageKey, Option<StorageData>)"))),
    (b!"keys", .struct (some [(b!"grandpa", b!"AccountId"), (b!"babe", b!"AccountId"), (b!"im_online", b!"AccountId"), (b!"authority_discovery", b!"AccountId")])) ]

/-- Classes of the built-in names, part 8. -/
def reg7 : List (Str × Cls) :=
  [ (b!"kind", .fixedU8 16),
    (b!"laneid", .fixedU8 4),
    (b!"lastcontribution", .enum [] (some [(b!"Never", b!"Null"), (b!"PreEnding", b!"u32"), (b!"Ending", b!"BlockNumber")])),
    (b!"lastruntimeupgradeinfo", .struct (some [(b!"specVersion", b!"Compact<u32>"), (b!"specName", b!"Bytes")])),
    (b!"leaseperiod", .u32),
    (b!"leaseperiodof", .u32),
    (b!"legacytransaction", .struct (some [(b!"nonce", b!"U256"), (b!"gasPrice", b!"U256"), (b!"gasLimit", b!"U256"), (b!"action", b!"EthTransactionAction"), (b!"value", b!"U256"), (b!"input", b!"Bytes"), (b!"signature", b!"EthTransactionSignature")])),
    (b!"limits", .struct (some [(b!"eventTopics", b!"u32"), (b!"stackHeight", b!"u32"), (b!"globals", b!"u32"), (b!"parameters", b!"u32"), (b!"memoryPages", b!"u32"), (b!"tableSize", b!"u32"), (b!"brTableSize", b!"u32"), (b!"subjectLen", b!"u32"), (b!"codeSize", b!"u32")])),
    (b!"linkage", .struct (some [(b!"previous", b!"Option<AccountId>"), (b!"next", b!"Option<AccountId>")])),
    (b!"localvalidationdata", .struct (some [(b!"parentHead", b!"HeadData"), (b!"balance", b!"Balance"), (b!"codeUpgradeAllowed", b!"Option<BlockNumber>")])),
    (b!"log", .struct (some [(b!"address", b!"H160"), (b!"topics", b!"Vec<H256>"), (b!"data", b!"Vec<u8>")])),
    (b!"lookupsource", .accountId),
    (b!"lotteryconfig", .struct (some [(b!"price", b!"Balance"), (b!"start", b!"BlockNumber"), (b!"length", b!"BlockNumber"), (b!"delay", b!"BlockNumber"), (b!"repeat", b!"bool")])),
    (b!"maybeerrorcodev3", .enum [] (some [(b!"Success", b!"NULL"), (b!"Error", b!"Vec<U8>"), (b!"TruncatedError", b!"Vec<U8>")])),
    (b!"mayberandomness", .option b!"Randomness"),
    (b!"maybevrf", .fixedU8 32),
    (b!"membercount", .u32),
    (b!"membershipproof", .struct (some [(b!"session", b!"sessionIndex"), (b!"trieNodes", b!"Vec<Vec<u8>>"), (b!"validatorCount", b!"ValidatorCount")])),
    (b!"messagedata", .struct (some [(b!"payload", b!"Bytes"), (b!"fee", b!"Balance")])),
    (b!"messageid", .fixedU8 32),
    (b!"messageingestiontype", .struct (some [(b!"downwardMessages", b!"Vec<InboundDownwardMessage>"), (b!"horizontalMessages", b!"BTreeMap<ParaId, InboundHrmpMessages>")])),
    (b!"messagekey", .struct (some [(b!"laneId", b!"LaneId"), (b!"nonce", b!"MessageNonce")])),
    (b!"messagenonce", .u64),
    (b!"messagequeuechain", .hash 32),
    (b!"messagesdeliveryproofof", .struct (some [(b!"bridgedHeaderHash", b!"BlockHash"), (b!"storageProof", b!"Vec<Bytes>"), (b!"lane", b!"LaneId")])),
    (b!"messagesproofof", .struct (some [(b!"bridgedHeaderHash", b!"BridgedBlockHash"), (b!"storageProof", b!"Vec<Bytes>"), (b!"lane", b!"LaneId"), (b!"noncesStart", b!"MessageNonce"), (b!"noncesEnd", b!"MessageNonce")])),
    (b!"messagingstatesnapshot", .struct (some [(b!"relayDispatchQueueSize", b!"(u32, u32)"), (b!"egressChannels", b!"Vec<MessagingStateSnapshotEgressEntry>")])),
    (b!"messagingstatesnapshotegressentry", .struct (some (buildStruct b!"(ParaId, AbridgedHrmpChannel)"))),
    (b!"metadataversion", .enum [b!"MetadataV0Decoder", b!"MetadataV1Decoder", b!"MetadataV2Decoder", b!"MetadataV3Decoder", b!"MetadataV4Decoder", b!"MetadataV5Decoder", b!"MetadataV6Decoder", b!"MetadataV7Decoder", b!"MetadataV8Decoder", b!"MetadataV9Decoder", b!"MetadataV10Decoder", b!"MetadataV11Decoder", b!"MetadataV12Decoder", b!"MetadataV13Decoder", b!"MetadataV14Decoder", b!"MetadataV15Decoder"] none),
    (b!"mmrroothash", .hash 32),
    (b!"moduleid", .lockIdentifier),
    (b!"momentof", .moment),
    (b!"moreattestations", .null),
    (b!"multiaddress", .enum [] (some [(b!"Id", b!"AccountId"), (b!"Index", b!"Compact<AccountIndex>"), (b!"Raw", b!"Bytes"), (b!"Address32", b!"H256"), (b!"Address20", b!"H160")])),
    (b!"multiasset", .struct (some [(b!"id", b!"XcmAssetId"), (b!"fun", b!"FungibilityV1")])),
    (b!"multiassetfilter", .enum [] (some [(b!"Definite", b!"MultiAssetsV1"), (b!"Wild", b!"WildMultiAssetV1")])),
    (b!"multiassetfilterv1", .enum [] (some [(b!"Definite", b!"MultiAssetsV1"), (b!"Wild", b!"WildMultiAssetV1")])),
    (b!"multiassetfilterv2", .enum [] (some [(b!"Definite", b!"MultiAssetsV1"), (b!"Wild", b!"WildMultiAssetV1")])),
    (b!"multiassetfilterv3", .enum [] (some [(b!"Definite", b!"MultiAssetsV3"), (b!"Wild", b!"WildMultiAssetV3")])),
    (b!"multiassetv0", .enum [] (some [(b!"None", b!"Null"), (b!"All", b!"Null"), (b!"AllFungible", b!"Null"), (b!"AllNonFungible", b!"Null"), (b!"AllAbstractFungible", b!"Vec<u8>"), (b!"AllAbstractNonFungible", b!"Vec<u8>"), (b!"AllConcreteFungible", b!"MultiLocationV0"), (b!"AllConcreteNonFungible", b!"MultiLocationV0"), (b!"AbstractFungible", b!"[[\"id\", \"Vec<u8>\"], [\"instance\", \"Compact<u128>\"]]"), (b!"AbstractNonFungible", b!"[[\"class\", \"Vec<u8>\"], [\"instance\", \"AssetInstanceV0\"]]"), (b!"ConcreteFungible", b!"[[\"id\", \"MultiLocationV0\"], [\"amount\", \"Compact<u128>\"]]"), (b!"ConcreteNonFungible", b!"[[\"class\", \"MultiLocationV0\"], [\"instance\", \"AssetInstanceV0\"]]")])),
    (b!"multiassetv1", .struct (some [(b!"id", b!"XcmAssetId"), (b!"fun", b!"FungibilityV1")])),
    (b!"multiassetv2", .struct (some [(b!"id", b!"XcmAssetId"), (b!"fun", b!"FungibilityV1")])),
    (b!"multiassetv3", .struct (some [(b!"id", b!"XcmAssetIdV3"), (b!"fun", b!"FungibilityV3")])),
    (b!"multiassets", .vec b!"MultiAsset"),
    (b!"multiassetsv1", .vec b!"MultiAssetV1"),
    (b!"multiassetsv2", .vec b!"MultiAssetV1"),
    (b!"multiassetsv3", .vec b!"MultiAssetV3"),
    (b!"multidisputestatementset", .vec b!"DisputeStatementSet"),
    (b!"multilocation", .struct (some [(b!"parents", b!"u8"), (b!"interior", b!"JunctionsV1")])),
    (b!"multilocationv0", .enum [] (some [(b!"Here", b!"Null"), (b!"X1", b!"JunctionV0"), (b!"X2", b!"(JunctionV0, JunctionV0)"), (b!"X3", b!"(JunctionV0, JunctionV0, JunctionV0)"), (b!"X4", b!"(JunctionV0, JunctionV0, JunctionV0, JunctionV0)"), (b!"X5", b!"(JunctionV0, JunctionV0, JunctionV0, JunctionV0, JunctionV0)"), (b!"X6", b!"(JunctionV0, JunctionV0, JunctionV0, JunctionV0, JunctionV0, JunctionV0)"), (b!"X7", b!"(JunctionV0, JunctionV0, JunctionV0, JunctionV0, JunctionV0, JunctionV0, JunctionV0)"), (b!"X8", b!"(JunctionV0, JunctionV0, JunctionV0, JunctionV0, JunctionV0, JunctionV0, JunctionV0, JunctionV0)")])) ]

/-- Classes of the built-in names, part 9. -/
def reg8 : List (Str × Cls) :=
  [ (b!"multilocationv1", .struct (some [(b!"parents", b!"u8"), (b!"interior", b!"JunctionsV1")])),
    (b!"multilocationv2", .struct (some [(b!"parents", b!"u8"), (b!"interior", b!"JunctionsV1")])),
    (b!"multilocationv3", .struct (some [(b!"parents", b!"u8"), (b!"interior", b!"JunctionsV3")])),
    (b!"multisignature", .enum [] (some [(b!"Ed25519", b!"Ed25519Signature"), (b!"Sr25519", b!"Sr25519Signature"), (b!"Ecdsa", b!"EcdsaSignature")])),
    (b!"multisigner", .enum [] (some [(b!"Ed25519", b!"[u8; 32]"), (b!"Sr25519", b!"[u8; 32]"), (b!"Ecdsa", b!"[u8; 33]")])),
    (b!"multiplier", .u64),
    (b!"multisig", .struct (some [(b!"when", b!"Timepoint"), (b!"deposit", b!"Balance"), (b!"depositor", b!"AccountId"), (b!"approvals", b!"Vec<AccountId>")])),
    (b!"networkid", .enum [] (some [(b!"Any", b!"Null"), (b!"Named", b!"Vec<u8>"), (b!"Polkadot", b!"Null"), (b!"Kusama", b!"Null")])),
    (b!"networkidv3", .enum [] (some [(b!"ByGenesis", b!"[u8; 32]"), (b!"ByFork", b!"ByForkV3"), (b!"Polkadot", b!"NULL"), (b!"Kusama", b!"NULL"), (b!"Westend", b!"NULL"), (b!"Rococo", b!"NULL"), (b!"Wococo", b!"NULL"), (b!"Ethereum", b!"U64"), (b!"BitcoinCore", b!"NULL"), (b!"BitcoinCash", b!"NULL")])),
    (b!"newbidder", .struct (some [(b!"who", b!"AccountId"), (b!"sub", b!"SubId")])),
    (b!"nextauthority", .struct (some [(b!"AuthorityId", b!"AuthorityId"), (b!"weight", b!"AuthorityWeight")])),
    (b!"nextconfigdescriptor", .enum [] (some [(b!"V0", b!"Null"), (b!"V1", b!"NextConfigDescriptorV1")])),
    (b!"nextconfigdescriptorv1", .struct (some [(b!"c", b!"(u64, u64)"), (b!"allowedSlots", b!"AllowedSlots")])),
    (b!"nominations", .struct (some [(b!"targets", b!"Vec<AccountId>"), (b!"submittedIn", b!"EraIndex"), (b!"suppressed", b!"bool")])),
    (b!"nominatorindex", .u32),
    (b!"nominatorindexcompact", .compact b!"NominatorIndex"),
    (b!"offchainaccuracy", .u16),
    (b!"offchainaccuracycompact", .compact b!"OffchainAccuracy"),
    (b!"offencedetails", .struct (some [(b!"offender", b!"Offender"), (b!"reporters", b!"Vec<Reporter>")])),
    (b!"offencedetails<accountid, identificationtuple>", .struct (some [(b!"offender", b!"Offender"), (b!"reporters", b!"Vec<Reporter>")])),
    (b!"offender", .struct (some [(b!"validatorId", b!"ValidatorId"), (b!"exposure", b!"FullIdentification")])),
    (b!"opaquemultiaddr", .bytes),
    (b!"opaquenetworkstate", .struct (some [(b!"peerId", b!"OpaquePeerId"), (b!"externalAddresses", b!"Vec<OpaqueMultiaddr>")])),
    (b!"opaquepeerid", .bytes),
    (b!"opaquetimeslot", .bytes),
    (b!"opentip", .struct (some [(b!"reason", b!"Hash"), (b!"who", b!"AccountId"), (b!"finder", b!"AccountId"), (b!"deposit", b!"Balance"), (b!"closes", b!"Option<BlockNumber>"), (b!"tips", b!"Vec<OpenTipTip>"), (b!"findersFee", b!"bool")])),
    (b!"opentip<accountid, balanceof, blocknumber, hash>", .struct (some [(b!"reason", b!"Hash"), (b!"who", b!"AccountId"), (b!"finder", b!"Option<OpenTipFinder>"), (b!"closes", b!"Option<BlockNumber>"), (b!"tips", b!"Vec<OpenTipTip>")])),
    (b!"opentipfinder", .struct (some [(b!"account", b!"AccountId"), (b!"balance", b!"Balance")])),
    (b!"opentiptip", .struct (some [(b!"account", b!"AccountId"), (b!"balance", b!"Balance")])),
    (b!"operatingmode", .enum [b!"Normal", b!"RejectingOutboundMessages", b!"Halted"] none),
    (b!"order", .enum [] (some [(b!"Null", b!"Null"), (b!"DepositAsset", b!"DepositAsset"), (b!"DepositReserveAsset", b!"DepositReserveAsset"), (b!"ExchangeAsset", b!"ExchangeAsset"), (b!"InitiateReserveWithdraw", b!"InitiateReserveWithdraw"), (b!"InitiateTeleport", b!"InitiateTeleport"), (b!"QueryHolding", b!"QueryHolding")])),
    (b!"origin", .null),
    (b!"origincaller", .enum [] (some [(b!"System", b!"SystemOrigin")])),
    (b!"originkind", .enum [b!"Native", b!"SovereignAccount", b!"Superuser"] none),
    (b!"originkindv0", .enum [b!"Native", b!"SovereignAccount", b!"Superuser", b!"Xcm"] none),
    (b!"originkindv1", .enum [b!"Native", b!"SovereignAccount", b!"Superuser", b!"Xcm"] none),
    (b!"originkindv2", .enum [b!"Native", b!"SovereignAccount", b!"Superuser", b!"Xcm"] none),
    (b!"outboundhrmpmessage", .struct (some [(b!"recipient", b!"u32"), (b!"data", b!"Bytes")])),
    (b!"outboundlanedata", .struct (some [(b!"oldestUnprunedNonce", b!"MessageNonce"), (b!"latestReceivedNonce", b!"MessageNonce"), (b!"latestGeneratedNonce", b!"MessageNonce")])),
    (b!"outboundmessagefee", .balance),
    (b!"outboundpayload", .struct (some [(b!"specVersion", b!"u32"), (b!"weight", b!"Weight"), (b!"origin", b!"CallOrigin"), (b!"dispatchFeePayment", b!"DispatchFeePayment"), (b!"call", b!"Bytes")])),
    (b!"outboundstatus", .enum [b!"Ok", b!"Suspended"] none),
    (b!"outcome", .enum [] (some [(b!"Complete", b!"Weight"), (b!"Incomplete", b!"(Weight, XcmErrorV0)"), (b!"Error", b!"XcmErrorV0")])),
    (b!"overweightindex", .u64),
    (b!"owner", .enum [] (some [(b!"None", b!"Null"), (b!"Address", b!"AccountId")])),
    (b!"pagecounter", .u32),
    (b!"pageindexdata", .struct (some [(b!"beginUsed", b!"PageCounter"), (b!"endUsed", b!"PageCounter"), (b!"overweightCount", b!"OverweightIndex")])),
    (b!"palletcallmetadatav14", .struct (some [(b!"type", b!"SiLookupTypeId")])),
    (b!"palleterrormetadatav14", .struct (some [(b!"type", b!"SiLookupTypeId")])),
    (b!"palleteventmetadatav14", .struct (some [(b!"type", b!"SiLookupTypeId")])) ]

/-- Classes of the built-in names, part 10. -/
def reg9 : List (Str × Cls) :=
  [ (b!"palletid", .lockIdentifier),
    (b!"palletinfov3", .struct (some [(b!"index", b!"Compact<u32>"), (b!"name", b!"Vec<u8>"), (b!"module_name", b!"Vec<u8>"), (b!"major", b!"Compact<u32>"), (b!"minor", b!"Compact<u32>"), (b!"patch", b!"Compact<u32>")])),
    (b!"palletversion", .struct (some [(b!"major", b!"u16"), (b!"minor", b!"u8"), (b!"patch", b!"u8")])),
    (b!"palletsorigin", .enum [] (some [(b!"System", b!"SystemOrigin")])),
    (b!"paragenesisargs", .struct (some [(b!"genesisHead", b!"Bytes"), (b!"validationCode", b!"Bytes"), (b!"parachain", b!"bool")])),
    (b!"paraid", .u32),
    (b!"parainfo", .struct (some [(b!"manager", b!"AccountId"), (b!"deposit", b!"Balance")])),
    (b!"paralifecycle", .enum [b!"Onboarding", b!"Parathread", b!"Parachain", b!"UpgradingToParachain", b!"DowngradingToParathread", b!"OutgoingParathread", b!"OutgoingParachain"] none),
    (b!"parapastcodemeta", .struct (some [(b!"upgradeTimes", b!"Vec<ReplacementTimes>"), (b!"lastPruned", b!"Option<BlockNumber>")])),
    (b!"parascheduling", .enum [b!"Always", b!"Dynamic"] none),
    (b!"paravalidatorindex", .u32),
    (b!"parachaindispatchorigin", .enum [b!"Signed", b!"Parachain", b!"Root"] none),
    (b!"parachaininherentdata", .struct (some [(b!"validationData", b!"PersistedValidationData"), (b!"relayChainState", b!"StorageProof"), (b!"downwardMessages", b!"Vec<InboundDownwardMessage>"), (b!"horizontalMessages", b!"BTreeMap<ParaId, VecInboundHrmpMessage>")])),
    (b!"parachainproposal", .struct (some [(b!"proposer", b!"AccountId"), (b!"genesis_head", b!"HeadData"), (b!"validators", b!"Vec<ValidatorId>"), (b!"name", b!"Vec<U8>"), (b!"balance", b!"Balance")])),
    (b!"parachainsinherentdata", .struct (some [(b!"bitfields", b!"SignedAvailabilityBitfields"), (b!"backedCandidates", b!"Vec<BackedCandidate>"), (b!"disputes", b!"MultiDisputeStatementSet"), (b!"parentHeader", b!"Header")])),
    (b!"parameter", .null),
    (b!"parathreadclaim", .struct (some (buildStruct b!"(ParaId, CollatorId)"))),
    (b!"parathreadclaimqueue", .struct (some [(b!"queue", b!"Vec<QueuedParathread>"), (b!"nextCoreOffset", b!"u32")])),
    (b!"parathreadentry", .struct (some [(b!"claim", b!"ParathreadClaim"), (b!"retries", b!"u32")])),
    (b!"pays", .enum [b!"Yes", b!"No"] none),
    (b!"pendingchange", .struct (some [(b!"nextAuthorities", b!"AuthorityList"), (b!"delay", b!"BlockNumber"), (b!"canonHeight", b!"BlockNumber"), (b!"canonHash", b!"BlockHash"), (b!"delayKind", b!"DelayKind")])),
    (b!"pendingpause", .struct (some [(b!"scheduledAt", b!"BlockNumber"), (b!"delay", b!"BlockNumber")])),
    (b!"pendingresume", .struct (some [(b!"scheduledAt", b!"BlockNumber"), (b!"delay", b!"BlockNumber")])),
    (b!"perdispatchclass", .struct (some [(b!"normal", b!"WeightPerClass"), (b!"operational", b!"WeightPerClass"), (b!"mandatory", b!"WeightPerClass")])),
    (b!"perdispatchclassu32", .struct (some [(b!"normal", b!"u32"), (b!"operational", b!"u32"), (b!"mandatory", b!"u32")])),
    (b!"peru16", .u16),
    (b!"perbill", .u32),
    (b!"percent", .u8),
    (b!"period", .struct (some (buildStruct b!"(BlockNumber, u32)"))),
    (b!"permill", .u32),
    (b!"permissionlatest", .struct (some [(b!"update", b!"Owner"), (b!"mint", b!"Owner"), (b!"burn", b!"Owner")])),
    (b!"permissionversions", .enum [] (some [(b!"V1", b!"PermissionsV1")])),
    (b!"permissionsv1", .struct (some [(b!"update", b!"Owner"), (b!"mint", b!"Owner"), (b!"burn", b!"Owner")])),
    (b!"perquintill", .u64),
    (b!"persistedvalidationdata", .struct (some [(b!"parentHead", b!"HeadData"), (b!"relayParentNumber", b!"RelayChainBlockNumber"), (b!"relayParentStorageRoot", b!"Hash"), (b!"maxPovSize", b!"u32")])),
    (b!"phantomdata", .null),
    (b!"phase", .enum [] (some [(b!"ApplyExtrinsic", b!"u32"), (b!"Finalization", b!"Null"), (b!"Initialization", b!"Null")])),
    (b!"phragmenscore", .fixedArray 3 b!"u128"),
    (b!"points", .u32),
    (b!"portableregistry", .vec b!"PortableType"),
    (b!"portabletype", .struct (some [(b!"id", b!"SiLookupTypeId"), (b!"type", b!"SiType")])),
    (b!"precommit", .struct (some [(b!"target_hash", b!"BridgedBlockHash"), (b!"target_number", b!"BridgedBlockNumber")])),
    (b!"precommits", .struct (some [(b!"currentWeight", b!"u32"), (b!"missing", b!"BTreeSet<AuthorityId>")])),
    (b!"prefabwasmmodule", .struct (some [(b!"scheduleVersion", b!"Compact<u32>"), (b!"initial", b!"Compact<u32>"), (b!"maximum", b!"Compact<u32>"), (b!"_reserved", b!"PrefabWasmModuleReserved"), (b!"code", b!"Bytes")])),
    (b!"prefabwasmmodulereserved", .option b!"Null"),
    (b!"preimagestatus", .enum [] (some [(b!"Missing", b!"BlockNumber"), (b!"Available", b!"PreimageStatusAvailable")])),
    (b!"preimagestatusavailable", .struct (some [(b!"data", b!"Bytes"), (b!"provider", b!"AccountId"), (b!"deposit", b!"Balance"), (b!"since", b!"BlockNumber"), (b!"expiry", b!"Option<BlockNumber>")])),
    (b!"prevotes", .struct (some [(b!"currentWeight", b!"u32"), (b!"missing", b!"BTreeSet<AuthorityId>")])),
    (b!"priorlock", .struct (some [(b!"blockNumber", b!"BlockNumber"), (b!"balance", b!"Balance")])),
    (b!"priority", .u8) ]

/-- Classes of the built-in names, part 11. -/
def reg10 : List (Str × Cls) :=
  [ (b!"propindex", .u32),
    (b!"proposal", .call),
    (b!"proposalcategory", .enum [b!"Signaling"] none),
    (b!"proposalcontents", .bytes),
    (b!"proposalindex", .u32),
    (b!"proposalstage", .enum [b!"PreVoting", b!"Voting", b!"Completed"] none),
    (b!"proposaltitle", .bytes),
    (b!"proxyannouncement", .struct (some [(b!"real", b!"AccountId"), (b!"callHash", b!"Hash"), (b!"height", b!"BlockNumber")])),
    (b!"proxydefinition", .struct (some [(b!"delegate", b!"AccountId"), (b!"proxyType", b!"ProxyType"), (b!"delay", b!"BlockNumber")])),
    (b!"proxystate", .struct (some [(b!"Open", b!"AccountId"), (b!"Active", b!"AccountId")])),
    (b!"proxytype", .enum [b!"Any", b!"NonTransfer", b!"Governance", b!"Staking", b!"CancelProxy"] none),
    (b!"queryholding", .struct (some [(b!"query_id", b!"Compact<u64>"), (b!"dest", b!"MultiLocation"), (b!"assets", b!"Vec<MultiAsset>")])),
    (b!"queryid", .u64),
    (b!"queryresponseinfov3", .struct (some [(b!"destination", b!"MultiLocationV3"), (b!"query_id", b!"Compact<u64>"), (b!"max_weight", b!"WeightV2")])),
    (b!"queryresponsev3", .struct (some [(b!"query_id", b!"compact<u64>"), (b!"response", b!"ResponseV3"), (b!"max_weight", b!"WeightV2"), (b!"querier", b!"Option<MultiLocationV3>")])),
    (b!"querystatus", .enum [] (some [(b!"Pending", b!"[[\"responder\", \"VersionedMultiLocation\"], [\"maybeNotify\", \"Option<(u8, u8)>\"], [\"timeout\", \"BlockNumber\"]]"), (b!"Ready", b!"[[\"response\", \"VersionedResponse\"], [\"at\", \"BlockNumber\"]]")])),
    (b!"queueconfigdata", .struct (some [(b!"suspendThreshold", b!"u32"), (b!"dropThreshold", b!"u32"), (b!"resumeThreshold", b!"u32"), (b!"thresholdWeight", b!"Weight"), (b!"weightRestrictDecay", b!"Weight")])),
    (b!"queuedparathread", .struct (some [(b!"claim", b!"ParathreadEntry"), (b!"coreOffset", b!"u32")])),
    (b!"randomness", .hash 32),
    (b!"rawbabepredigest", .enum [] (some [(b!"isPhantom", b!"bool"), (b!"Primary", b!"RawBabePreDigestPrimary"), (b!"Secondary", b!"RawBabePreDigestSecondary"), (b!"VRF", b!"RawBabePreDigestSecondaryVRF")])),
    (b!"rawbabepredigestcompat", .enum [] (some [(b!"Zero", b!"u32"), (b!"One", b!"u32"), (b!"Two", b!"u32"), (b!"Three", b!"u32")])),
    (b!"raworigin", .enum [] (some [(b!"Root", b!"Null"), (b!"Signed", b!"AccountId"), (b!"None", b!"Null")])),
    (b!"rawsolution", .struct (some [(b!"compact", b!"CompactAssignments"), (b!"score", b!"ElectionScore"), (b!"round", b!"u32")])),
    (b!"readproof", .struct (some [(b!"at", b!"Hash"), (b!"proof", b!"Vec<Bytes>")])),
    (b!"readysolution", .struct (some [(b!"supports", b!"SolutionSupports"), (b!"score", b!"ElectionScore"), (b!"compute", b!"ElectionCompute")])),
    (b!"reasons", .enum [b!"Fee", b!"Misc", b!"All"] none),
    (b!"recoveryconfig", .struct (some [(b!"delayPeriod", b!"BlockNumber"), (b!"deposit", b!"Balance"), (b!"friends", b!"Vec<AccountId>"), (b!"threshold", b!"u16")])),
    (b!"refcount", .u8),
    (b!"refcount1", .u32),
    (b!"referendumindex", .u32),
    (b!"referenduminfo", .struct (some [(b!"end", b!"BlockNumber"), (b!"proposal", b!"Proposal"), (b!"threshold", b!"VoteThreshold"), (b!"delay", b!"BlockNumber")])),
    (b!"referenduminfo<blocknumber, hash, balance>", .enum [] (some [(b!"Ongoing", b!"ReferendumStatus"), (b!"Finished", b!"ReferendumInfoFinished")])),
    (b!"referenduminfo<blocknumber, hash, balanceof>", .enum [] (some [(b!"Ongoing", b!"ReferendumStatus"), (b!"Finished", b!"ReferendumInfoFinished")])),
    (b!"referenduminfo<blocknumber, hash>", .struct (some [(b!"end", b!"BlockNumber"), (b!"proposalHash", b!"Hash"), (b!"threshold", b!"VoteThreshold"), (b!"delay", b!"BlockNumber")])),
    (b!"referenduminfo<blocknumber, proposal>", .struct (some [(b!"end", b!"BlockNumber"), (b!"proposal", b!"Proposal"), (b!"threshold", b!"VoteThreshold"), (b!"delay", b!"BlockNumber")])),
    (b!"referenduminfofinished", .struct (some [(b!"approved", b!"bool"), (b!"end", b!"BlockNumber")])),
    (b!"referendumstatus", .struct (some [(b!"end", b!"BlockNumber"), (b!"proposalHash", b!"Hash"), (b!"threshold", b!"VoteThreshold"), (b!"delay", b!"BlockNumber"), (b!"tally", b!"Tally")])),
    (b!"registeredparachaininfo", .struct (some [(b!"validators", b!"Vec<ValidatorId>"), (b!"proposer", b!"AccountId")])),
    (b!"registrarindex", .u32),
    (b!"registrarinfo", .struct (some [(b!"account", b!"AccountId"), (b!"fee", b!"Balance"), (b!"fields", b!"IdentityFields")])),
    (b!"registration", .struct (some [(b!"judgements", b!"Vec<RegistrationJudgement>"), (b!"deposit", b!"Balance"), (b!"info", b!"IdentityInfo")])),
    (b!"registrationjudgement", .struct (some [(b!"col1", b!"RegistrarIndex"), (b!"col2", b!"Judgement")])),
    (b!"relayblocknumber", .u32),
    (b!"relaychainblocknumber", .u32),
    (b!"relaychainhash", .hash 32),
    (b!"relayhash", .hash 32),
    (b!"relayto", .struct (some [(b!"dest", b!"MultiLocation"), (b!"inner", b!"VersionedXcm")])),
    (b!"relayedfrom", .struct (some [(b!"superorigin", b!"MultiLocation"), (b!"inner", b!"VersionedXcm")])),
    (b!"relayerid", .accountId),
    (b!"releases", .enum [b!"V1_0_0", b!"V2_0_0", b!"V3_0_0", b!"V4_0_0", b!"V5_0_0"] none) ]

/-- Classes of the built-in names, part 12. -/
def reg11 : List (Str × Cls) :=
  [ (b!"releasesbalances", .enum [b!"V1_0_0", b!"V2_0_0", b!"V3_0_0", b!"V4_0_0", b!"V5_0_0"] none),
    (b!"remark", .fixedU8 32),
    (b!"renouncing", .enum [] (some [(b!"Member", b!"Null"), (b!"RunnerUp", b!"Null"), (b!"Candidate", b!"Compact<u32>")])),
    (b!"rentprojection", .enum [] (some [(b!"EvictionAt", b!"BlockNumber"), (b!"NoEviction", b!"Null")])),
    (b!"replacementtimes", .struct (some [(b!"expectedAt", b!"BlockNumber"), (b!"activatedAt", b!"BlockNumber")])),
    (b!"reportidof", .hash 32),
    (b!"reportedroundstates", .struct (some [(b!"setId", b!"u32"), (b!"best", b!"RoundState"), (b!"background", b!"Vec<RoundState>")])),
    (b!"reporter", .accountId),
    (b!"reserveassetdeposit", .struct (some [(b!"assets", b!"Vec<MultiAsset>"), (b!"effects", b!"Vec<Order>")])),
    (b!"response", .enum [] (some [(b!"Assets", b!"MultiAssetsV1"), (b!"Version", b!"U32")])),
    (b!"responsev0", .enum [] (some [(b!"Assets", b!"Vec<MultiAssetV0>")])),
    (b!"responsev1", .enum [] (some [(b!"Assets", b!"MultiAssetsV1"), (b!"Version", b!"U32")])),
    (b!"responsev2", .enum [] (some [(b!"Null", b!"empty"), (b!"Assets", b!"MultiAssetsV2"), (b!"ExecutionResult", b!"ResponseV2Result"), (b!"Version", b!"U32")])),
    (b!"responsev2error", .struct (some (buildStruct b!"(u32, XcmErrorV2)"))),
    (b!"responsev3", .enum [] (some [(b!"NULL", b!"NULL"), (b!"Assets", b!"MultiAssetsV3"), (b!"ExecutionResult", b!"Option<(U32, XcmTraitsErrorV3)>"), (b!"Version", b!"U32"), (b!"PalletsInfo", b!"Vec<PalletInfoV3>"), (b!"DispatchResult", b!"MaybeErrorCodeV3")])),
    (b!"retriable", .enum [] (some [(b!"Never", b!"Null"), (b!"WithRetries", b!"u32")])),
    (b!"rewarddestination", .enum [] (some [(b!"Staked", b!"Null"), (b!"Stash", b!"Null"), (b!"Controller", b!"Null"), (b!"Account", b!"AccountId"), (b!"None", b!"Null")])),
    (b!"rewardpoint", .u32),
    (b!"roundnumber", .u64),
    (b!"roundstate", .struct (some [(b!"round", b!"u32"), (b!"totalWeight", b!"u32"), (b!"thresholdWeight", b!"u32"), (b!"prevotes", b!"Prevotes"), (b!"precommits", b!"Precommits")])),
    (b!"rpcmethods", .struct (some [(b!"version", b!"u32"), (b!"methods", b!"Vec<Text>")])),
    (b!"runtimedbweight", .struct (some [(b!"read", b!"Weight"), (b!"write", b!"Weight")])),
    (b!"runtimeversion", .struct (some [(b!"specName", b!"Text"), (b!"implName", b!"Text"), (b!"authoringVersion", b!"u32"), (b!"specVersion", b!"u32"), (b!"implVersion", b!"u32"), (b!"apis", b!"Vec<RuntimeVersionApi>"), (b!"transactionVersion", b!"u32")])),
    (b!"runtimeversionapi", .struct (some (buildStruct b!"(ApiId, u32)"))),
    (b!"schedule", .struct (some [(b!"version", b!"u32"), (b!"enablePrintln", b!"bool"), (b!"limits", b!"Limits"), (b!"instructionWeights", b!"InstructionWeights"), (b!"hostFnWeights", b!"HostFnWeights")])),
    (b!"scheduleperiod", .struct (some (buildStruct b!"(BlockNumber, u32)"))),
    (b!"schedulepriority", .u8),
    (b!"scheduleto212", .struct (some [(b!"version", b!"u32"), (b!"putCodePerByteCost", b!"Gas"), (b!"growMemCost", b!"Gas"), (b!"regularOpCost", b!"Gas"), (b!"returnDataPerByteCost", b!"Gas"), (b!"eventDataPerByteCost", b!"Gas"), (b!"eventPerTopicCost", b!"Gas"), (b!"eventBaseCost", b!"Gas"), (b!"sandboxDataReadCost", b!"Gas"), (b!"sandboxDataWriteCost", b!"Gas"), (b!"maxEventTopics", b!"u32"), (b!"maxStackHeight", b!"u32"), (b!"maxMemoryPages", b!"u32"), (b!"enablePrintln", b!"bool"), (b!"maxSubjectLen", b!"u32")])),
    (b!"scheduleto258", .struct (some [(b!"version", b!"u32"), (b!"putCodePerByteCost", b!"Gas"), (b!"growMemCost", b!"Gas"), (b!"regularOpCost", b!"Gas"), (b!"returnDataPerByteCost", b!"Gas"), (b!"eventDataPerByteCost", b!"Gas"), (b!"eventPerTopicCost", b!"Gas"), (b!"eventBaseCost", b!"Gas"), (b!"sandboxDataReadCost", b!"Gas"), (b!"sandboxDataWriteCost", b!"Gas"), (b!"transferCost", b!"Gas"), (b!"maxEventTopics", b!"u32"), (b!"maxStackHeight", b!"u32"), (b!"maxMemoryPages", b!"u32"), (b!"enablePrintln", b!"bool"), (b!"maxSubjectLen", b!"u32")])),
    (b!"scheduled", .struct (some [(b!"maybe_id", b!"Option<Bytes>"), (b!"priority", b!"SchedulePriority"), (b!"call", b!"Call"), (b!"maybe_periodic", b!"Option<SchedulePeriod>"), (b!"origin", b!"PalletsOrigin")])),
    (b!"scheduling", .enum [b!"Always", b!"Dynamic"] none),
    (b!"seatholder", .struct (some [(b!"who", b!"AccountId"), (b!"stake", b!"Balance"), (b!"deposit", b!"Balance")])),
    (b!"seedof", .hash 32),
    (b!"servicequality", .enum [b!"Ordered", b!"Fast"] none),
    (b!"sessionindex", .u32),
    (b!"sessioninfo", .struct (some [(b!"validators", b!"Vec<ValidatorId>"), (b!"discoveryKeys", b!"Vec<AuthorityDiscoveryId>"), (b!"assignmentKeys", b!"Vec<AssignmentId>"), (b!"validatorGroups", b!"Vec<SessionInfoValidatorGroup>"), (b!"nCores", b!"u32"), (b!"zerothDelayTrancheWidth", b!"u32"), (b!"relayVrfModuloSamples", b!"u32"), (b!"nDelayTranches", b!"u32"), (b!"noShowSlots", b!"u32"), (b!"neededApprovals", b!"u32")])),
    (b!"sessioninfovalidatorgroup", .vec b!"ParaValidatorIndex"),
    (b!"sessionkeys1", .struct (some (buildStruct b!"(AccountId)"))),
    (b!"sessionkeys10", .struct (some (buildStruct b!"(AccountId, AccountId, AccountId, AccountId, AccountId, AccountId, AccountId, AccountId, AccountId, AccountId)"))),
    (b!"sessionkeys10b", .struct (some (buildStruct b!"(AccountId, AccountId, AccountId, AccountId, AccountId, AccountId, AccountId, AccountId, AccountId, BeefyKey)"))),
    (b!"sessionkeys2", .struct (some (buildStruct b!"(AccountId, AccountId)"))),
    (b!"sessionkeys3", .struct (some (buildStruct b!"(AccountId, AccountId, AccountId)"))),
    (b!"sessionkeys4", .struct (some (buildStruct b!"(AccountId, AccountId, AccountId, AccountId)"))),
    (b!"sessionkeys5", .struct (some (buildStruct b!"(AccountId, AccountId, AccountId, AccountId, AccountId)"))),
    (b!"sessionkeys6", .struct (some (buildStruct b!"(AccountId, AccountId, AccountId, AccountId, AccountId, AccountId)"))),
    (b!"sessionkeys6b", .struct (some (buildStruct b!"(AccountId, AccountId, AccountId, AccountId, AccountId, BeefyKey)"))),
    (b!"sessionkeys7", .struct (some (buildStruct b!"(AccountId, AccountId, AccountId, AccountId, AccountId, AccountId, AccountId)"))),
    (b!"sessionkeys7b", .struct (some (buildStruct b!"(AccountId, AccountId, AccountId, AccountId, AccountId, AccountId, BeefyKey)"))),
    (b!"sessionkeys8", .struct (some (buildStruct b!"(AccountId, AccountId, AccountId, AccountId, AccountId, AccountId, AccountId, AccountId)"))),
    (b!"sessionkeys8b", .struct (some (buildStruct b!"(AccountId, AccountId, AccountId, AccountId, AccountId, AccountId, AccountId, BeefyKey)"))) ]

/-- Classes of the built-in names, part 13. -/
def reg12 : List (Str × Cls) :=
  [ (b!"sessionkeys9", .struct (some (buildStruct b!"(AccountId, AccountId, AccountId, AccountId, AccountId, AccountId, AccountId, AccountId, AccountId)"))),
    (b!"sessionkeys9b", .struct (some (buildStruct b!"(AccountId, AccountId, AccountId, AccountId, AccountId, AccountId, AccountId, AccountId, BeefyKey)"))),
    (b!"sessionkeyspolkadot", .struct (some [(b!"grandpa", b!"AccountId"), (b!"babe", b!"AccountId"), (b!"im_online", b!"AccountId"), (b!"authority_discovery", b!"AccountId"), (b!"parachains", b!"AccountId")])),
    (b!"setid", .u64),
    (b!"sifield", .struct (some [(b!"name", b!"Option<Text>"), (b!"type", b!"SiLookupTypeId"), (b!"typeName", b!"Option<Text>"), (b!"docs", b!"Vec<Text>")])),
    (b!"silookuptypeid", .compactU32),
    (b!"sipath", .vec b!"Text"),
    (b!"sitype", .struct (some [(b!"path", b!"SiPath"), (b!"params", b!"Vec<SiTypeParameter>"), (b!"def", b!"SiTypeDef"), (b!"docs", b!"Vec<Text>")])),
    (b!"sitypedef", .enum [] (some [(b!"Composite", b!"SiTypeDefComposite"), (b!"Variant", b!"SiTypeDefVariant"), (b!"Sequence", b!"SiTypeDefSequence"), (b!"Array", b!"SiTypeDefArray"), (b!"Tuple", b!"SiTypeDefTuple"), (b!"Primitive", b!"SiTypeDefPrimitive"), (b!"Compact", b!"SiTypeDefCompact"), (b!"BitSequence", b!"SiTypeDefBitSequence"), (b!"Range", b!"SiTypeDefRange"), (b!"HistoricMetaCompat", b!"String")])),
    (b!"sitypedefarray", .struct (some [(b!"len", b!"u32"), (b!"type", b!"SiLookupTypeId")])),
    (b!"sitypedefbitsequence", .struct (some [(b!"bitStoreType", b!"SiLookupTypeId"), (b!"bitOrderType", b!"SiLookupTypeId")])),
    (b!"sitypedefcompact", .struct (some [(b!"type", b!"SiLookupTypeId")])),
    (b!"sitypedefcomposite", .struct (some [(b!"fields", b!"Vec<SiField>")])),
    (b!"sitypedefprimitive", .enum [b!"Bool", b!"Char", b!"Str", b!"U8", b!"U16", b!"U32", b!"U64", b!"U128", b!"U256", b!"I8", b!"I16", b!"I32", b!"I64", b!"I128", b!"I256"] none),
    (b!"sitypedefrange", .struct (some [(b!"start", b!"SiLookupTypeId"), (b!"end", b!"SiLookupTypeId"), (b!"inclusive", b!"bool")])),
    (b!"sitypedefsequence", .struct (some [(b!"type", b!"SiLookupTypeId")])),
    (b!"sitypedeftuple", .vec b!"SiLookupTypeId"),
    (b!"sitypedefvariant", .struct (some [(b!"variants", b!"Vec<SiVariant>")])),
    (b!"sitypeparameter", .struct (some [(b!"name", b!"Text"), (b!"type", b!"Option<SiLookupTypeId>")])),
    (b!"sivariant", .struct (some [(b!"name", b!"Text"), (b!"fields", b!"Vec<SiField>"), (b!"index", b!"u8"), (b!"docs", b!"Vec<Text>")])),
    (b!"signedavailabilitybitfield", .struct (some [(b!"payload", b!"BitVec"), (b!"validatorIndex", b!"ParaValidatorIndex"), (b!"signature", b!"ValidatorSignature")])),
    (b!"signedavailabilitybitfields", .vec b!"SignedAvailabilityBitfield"),
    (b!"signedextensionmetadatav14", .struct (some [(b!"identifier", b!"Text"), (b!"type", b!"SiLookupTypeId"), (b!"additionalSigned", b!"SiLookupTypeId")])),
    (b!"signedsubmission", .struct (some [(b!"who", b!"AccountId"), (b!"deposit", b!"Balance"), (b!"solution", b!"RawSolution"), (b!"reward", b!"Balance")])),
    (b!"signedsubmissionof", .struct (some [(b!"who", b!"AccountId"), (b!"deposit", b!"Balance"), (b!"solution", b!"RawSolution"), (b!"reward", b!"Balance")])),
    (b!"signingcontext", .struct (some [(b!"sessionIndex", b!"SessionIndex"), (b!"parentHash", b!"Hash")])),
    (b!"slashingspans", .struct (some [(b!"spanIndex", b!"SpanIndex"), (b!"lastStart", b!"EraIndex"), (b!"lastNonzeroSlash", b!"EraIndex"), (b!"prior", b!"Vec<EraIndex>")])),
    (b!"slot", .u64),
    (b!"slotnumber", .u64),
    (b!"slotrange", .enum [b!"ZeroZero", b!"ZeroOne", b!"ZeroTwo", b!"ZeroThree", b!"OneOne", b!"OneTwo", b!"OneThree", b!"TwoTwo", b!"TwoThree", b!"ThreeThree"] none),
    (b!"solutionorsnapshotsize", .struct (some [(b!"voters", b!"Compact<u32>"), (b!"targets", b!"Compact<u32>")])),
    (b!"solutionsupport", .struct (some [(b!"total", b!"ExtendedBalance"), (b!"voters", b!"Vec<(AccountId, ExtendedBalance)>")])),
    (b!"solutionsupports", .vec b!"(AccountId, SolutionSupport)"),
    (b!"spanindex", .u32),
    (b!"spanrecord", .struct (some [(b!"slashed", b!"Balance"), (b!"paidOut", b!"Balance")])),
    (b!"specversion", .u32),
    (b!"sr25519signature", .hash 64),
    (b!"stakingledger<accountid, balanceof>", .struct (some [(b!"stash", b!"AccountId"), (b!"total", b!"Compact<Balance>"), (b!"active", b!"Compact<Balance>"), (b!"unlocking", b!"Vec<UnlockChunk<Balance>>"), (b!"lastReward", b!"Option<EraIndex>")])),
    (b!"statement", .enum [] (some [(b!"Never", b!"Null"), (b!"Candidate", b!"Hash"), (b!"Valid", b!"Hash"), (b!"Invalid", b!"Hash")])),
    (b!"statementkind", .enum [b!"Regular", b!"Saft"] none),
    (b!"status", .enum [b!"Free", b!"Reserved"] none),
    (b!"storagechangeset", .struct (some [(b!"block", b!"Hash"), (b!"changes", b!"Vec<KeyValueOption>")])),
    (b!"storagedata", .bytes),
    (b!"storagefunctiontype", .enum [b!"PlainType", b!"MapType", b!"DoubleMapType", b!"NMap"] none),
    (b!"storagefunctiontypev14", .enum [b!"PlainType", b!"Map"] none),
    (b!"storagehasher", .enum [b!"Blake2_128", b!"Blake2_256", b!"Blake2_128Concat", b!"Twox128", b!"Twox256", b!"Twox64Concat", b!"Identity"] none),
    (b!"storagekey", .bytes),
    (b!"storagemodify", .enum [b!"Optional", b!"Default"] none),
    (b!"storageproof", .struct (some [(b!"trieNodes", b!"Vec<Bytes>")])),
    (b!"storedpendingchange", .struct (some [(b!"scheduledAt", b!"BlockNumber"), (b!"delay", b!"BlockNumber"), (b!"nextAuthorities", b!"AuthorityList")])) ]

/-- Classes of the built-in names, part 14. -/
def reg13 : List (Str × Cls) :=
  [ (b!"storedstate", .enum [] (some [(b!"Live", b!"Null"), (b!"PendingPause", b!"PendingPause"), (b!"Paused", b!"Null"), (b!"PendingResume", b!"PendingResume")])),
    (b!"strikecount", .u32),
    (b!"subid", .u32),
    (b!"submissionindicesof", .btreeMap b!"ElectionScore, u32"),
    (b!"syncstate", .struct (some [(b!"startingBlock", b!"BlockNumber"), (b!"currentBlock", b!"BlockNumber"), (b!"highestBlock", b!"Option<BlockNumber>")])),
    (b!"systeminherentdata", .struct (some [(b!"validationData", b!"PersistedValidationData"), (b!"relayChainState", b!"StorageProof"), (b!"downwardMessages", b!"Vec<InboundDownwardMessage>"), (b!"horizontalMessages", b!"BTreeMap<ParaId, VecInboundHrmpMessage>")])),
    (b!"systemorigin", .enum [] (some [(b!"Root", b!"Null"), (b!"Signed", b!"AccountId"), (b!"None", b!"Null")])),
    (b!"tassetbalance", .u64),
    (b!"tassetdepositbalance", .balance),
    (b!"tally", .struct (some [(b!"ayes", b!"Balance"), (b!"nays", b!"Balance"), (b!"turnout", b!"Balance")])),
    (b!"taskaddress", .struct (some [(b!"blockNumber", b!"BlockNumber"), (b!"index", b!"u32")])),
    (b!"teleportasset", .struct (some [(b!"assets", b!"Vec<MultiAsset>"), (b!"effects", b!"Vec<Order>")])),
    (b!"text", .string),
    (b!"timepoint", .struct (some [(b!"height", b!"BlockNumber"), (b!"index", b!"u32")])),
    (b!"tokenerror", .enum [b!"NoFunds", b!"WouldDie", b!"BelowMinimum", b!"CannotCreate", b!"UnknownAsset", b!"Frozen", b!"Underflow", b!"Overflow"] none),
    (b!"tombstonecontractinfo", .hash 32),
    (b!"traceblockresponse", .enum [] (some [(b!"TraceError", b!"TraceError"), (b!"BlockTrace", b!"BlockTrace")])),
    (b!"traceerror", .struct (some [(b!"error", b!"Text")])),
    (b!"transact", .struct (some [(b!"originType", b!"OriginKind"), (b!"call", b!"Vec<u8>")])),
    (b!"transactionpriority", .u64),
    (b!"transactionrecoveryid", .u64),
    (b!"transactionsignature", .struct (some [(b!"v", b!"TransactionRecoveryId"), (b!"r", b!"H256"), (b!"s", b!"H256")])),
    (b!"transactionv0", .struct (some [(b!"nonce", b!"U256"), (b!"gasPrice", b!"U256"), (b!"gasLimit", b!"U256"), (b!"action", b!"EthTransactionAction"), (b!"value", b!"U256"), (b!"input", b!"Bytes"), (b!"signature", b!"EthTransactionSignature")])),
    (b!"transactionv1", .enum [] (some [(b!"Legacy", b!"LegacyTransaction"), (b!"EIP2930", b!"EIP2930Transaction")])),
    (b!"transactionv2", .enum [] (some [(b!"Legacy", b!"LegacyTransaction"), (b!"EIP2930", b!"EIP2930Transaction"), (b!"EIP1559", b!"EIP1559Transaction")])),
    (b!"transientvalidationdata", .struct (some [(b!"maxCodeSize", b!"u32"), (b!"maxHeadDataSize", b!"u32"), (b!"balance", b!"Balance"), (b!"codeUpgradeAllowed", b!"Option<BlockNumber>"), (b!"dmqLength", b!"u32")])),
    (b!"treasuryproposal", .struct (some [(b!"proposer", b!"AccountId"), (b!"value", b!"Balance"), (b!"beneficiary", b!"AccountId"), (b!"bond", b!"Balance")])),
    (b!"trieid", .bytes),
    (b!"trieindex", .u32),
    (b!"unappliedslash", .struct (some [(b!"validator", b!"AccountId"), (b!"own", b!"Balance"), (b!"others", b!"Vec<UnappliedSlashOther>"), (b!"reporters", b!"Vec<AccountId>"), (b!"payout", b!"Balance")])),
    (b!"unappliedslash<accountid, balanceof>", .struct (some [(b!"validator", b!"AccountId"), (b!"own", b!"Balance"), (b!"others", b!"Vec<UnappliedSlashOther>"), (b!"reporters", b!"Vec<AccountId>"), (b!"payout", b!"Balance")])),
    (b!"unappliedslashother", .struct (some [(b!"account", b!"AccountId"), (b!"amount", b!"Balance")])),
    (b!"unlockchunk", .struct (some [(b!"value", b!"Compact<Balance>"), (b!"era", b!"Compact<EraIndex>")])),
    (b!"unrewardedrelayer", .struct (some [(b!"relayer", b!"RelayerId"), (b!"messages", b!"DeliveredMessages")])),
    (b!"unrewardedrelayersstate", .struct (some [(b!"unrewardedRelayer_Entries", b!"MessageNonce"), (b!"messagesInOldestEntry", b!"MessageNonce"), (b!"totalMessages", b!"MessageNonce")])),
    (b!"upgraderestriction", .enum [b!"Present"] none),
    (b!"upwardmessage", .bytes),
    (b!"validdisputestatementkind", .enum [] (some [(b!"Explicit", b!"Null"), (b!"BackingSeconded", b!"Hash"), (b!"BackingValid", b!"Hash"), (b!"ApprovalChecking", b!"Null")])),
    (b!"validationcode", .bytes),
    (b!"validationcodehash", .hash 32),
    (b!"validationdata", .struct (some [(b!"persisted", b!"PersistedValidationData"), (b!"transient", b!"TransientValidationData")])),
    (b!"validationdatatype", .struct (some [(b!"validationData", b!"ValidationData"), (b!"relayChainState", b!"Vec<Bytes>")])),
    (b!"validationfunctionparams", .struct (some [(b!"maxCodeSize", b!"u32"), (b!"relayChainHeight", b!"RelayChainBlockNumber"), (b!"codeUpgradeAllowed", b!"Option<RelayChainBlockNumber>")])),
    (b!"validatorcount", .u32),
    (b!"validatorid", .accountId),
    (b!"validatoridof", .accountId),
    (b!"validatorindex", .u16),
    (b!"validatorindexcompact", .compact b!"ValidatorIndex"),
    (b!"validatorprefs", .struct (some [(b!"commission", b!"Compact<Perbill>")])),
    (b!"validatorprefswithblocked", .struct (some [(b!"commission", b!"Compact<Perbill>"), (b!"blocked", b!"bool")])) ]

/-- Classes of the built-in names, part 15. -/
def reg14 : List (Str × Cls) :=
  [ (b!"validatorprefswithcommission", .struct (some [(b!"commission", b!"Compact<Perbill>")])),
    (b!"validatorsetid", .u64),
    (b!"validatorsignature", .hash 64),
    (b!"validityattestation", .enum [] (some [(b!"Never", b!"Null"), (b!"Implicit", b!"ValidatorSignature"), (b!"Explicit", b!"ValidatorSignature")])),
    (b!"vecinboundhrmpmessage", .vec b!"InboundHrmpMessage"),
    (b!"versionmigrationstage", .enum [] (some [(b!"MigrateSupportedVersion", b!"Null"), (b!"MigrateVersionNotifiers", b!"Null"), (b!"NotifyCurrentTargets", b!"Option<Bytes>"), (b!"MigrateAndNotifyOldTargets", b!"Null")])),
    (b!"versionedmultiasset", .enum [] (some [(b!"V0", b!"MultiAssetV0"), (b!"V1", b!"MultiAssetV1"), (b!"V2", b!"MultiAssetV2")])),
    (b!"versionedmultiassets", .enum [] (some [(b!"V0", b!"Vec<MultiAssetV0>"), (b!"V1", b!"MultiAssetsV1"), (b!"V2", b!"MultiAssetsV2")])),
    (b!"versionedmultilocation", .enum [] (some [(b!"V0", b!"MultiLocationV0"), (b!"V1", b!"MultiLocationV1"), (b!"V2", b!"MultiLocationV2")])),
    (b!"versionedresponse", .struct (some [(b!"V0", b!"ResponseV0"), (b!"V1", b!"ResponseV1"), (b!"V2", b!"ResponseV2")])),
    (b!"versionedxcm", .enum [] (some [(b!"V0", b!"XcmV0"), (b!"V1", b!"XcmV1"), (b!"V2", b!"XcmV2"), (b!"V3", b!"XcmV3")])),
    (b!"vestinginfo", .struct (some [(b!"locked", b!"Balance"), (b!"perBlock", b!"Balance"), (b!"startingBlock", b!"BlockNumber")])),
    (b!"vote", .u8),
    (b!"votestage", .enum [b!"PreVoting", b!"Commit", b!"Voting", b!"Completed"] none),
    (b!"votethreshold", .enum [b!"SuperMajorityApprove", b!"SuperMajorityAgainst", b!"SimpleMajority"] none),
    (b!"voter", .struct (some [(b!"votes", b!"Vec<AccountId>"), (b!"stake", b!"Balance"), (b!"deposit", b!"Balance")])),
    (b!"votes", .struct (some [(b!"index", b!"ProposalIndex"), (b!"threshold", b!"MemberCount"), (b!"ayes", b!"Vec<AccountId>"), (b!"nays", b!"Vec<AccountId>")])),
    (b!"voting", .enum [] (some [(b!"Direct", b!"VotingDirect"), (b!"Delegating", b!"VotingDelegating")])),
    (b!"votingdelegating", .struct (some [(b!"balance", b!"Balance"), (b!"target", b!"AccountId"), (b!"conviction", b!"Conviction"), (b!"delegations", b!"Delegations"), (b!"prior", b!"PriorLock")])),
    (b!"votingdirect", .struct (some [(b!"votes", b!"Vec<VotingDirectVote>"), (b!"delegations", b!"Delegations"), (b!"prior", b!"PriorLock")])),
    (b!"votingdirectvote", .struct (some [(b!"referendumIndex", b!"ReferendumIndex"), (b!"accountVote", b!"AccountVote")])),
    (b!"vouchingstatus", .enum [b!"Vouching", b!"Banned"] none),
    (b!"vrfdata", .fixedU8 32),
    (b!"vrfoutput", .fixedU8 32),
    (b!"vrfproof", .fixedU8 64),
    (b!"weight", .u32),
    (b!"weightlimitv2", .enum [] (some [(b!"Unlimited", b!"empty"), (b!"Limited", b!"Compact<u64>")])),
    (b!"weightlimitv3", .enum [] (some [(b!"Unlimited", b!"Null"), (b!"Limited", b!"WeightV2")])),
    (b!"weightmultiplier", .u64),
    (b!"weightperclass", .struct (some [(b!"baseExtrinsic", b!"Weight"), (b!"maxExtrinsic", b!"Weight"), (b!"maxTotal", b!"Option<Weight>"), (b!"reserved", b!"Option<Weight>")])),
    (b!"weightv2", .struct (some [(b!"ref_time", b!"Compact<u64>"), (b!"proof_size", b!"Compact<u64>")])),
    (b!"wildfungibilityv0", .enum [b!"Fungible", b!"NonFungible"] none),
    (b!"wildfungibilityv1", .enum [b!"Fungible", b!"NonFungible"] none),
    (b!"wildfungibilityv2", .enum [b!"Fungible", b!"NonFungible"] none),
    (b!"wildfungibilityv3", .enum [b!"Fungible", b!"NonFungible"] none),
    (b!"wildmultiasset", .enum [] (some [(b!"All", b!"Null"), (b!"AllOf", b!"[[\"id\", \"XcmAssetId\"], [\"fun\", \"WildFungibilityV1\"]]")])),
    (b!"wildmultiassetv1", .enum [] (some [(b!"All", b!"Null"), (b!"AllOf", b!"[[\"id\", \"XcmAssetId\"], [\"fun\", \"WildFungibilityV1\"]]")])),
    (b!"wildmultiassetv2", .enum [] (some [(b!"All", b!"Null"), (b!"AllOf", b!"[[\"id\", \"XcmAssetId\"], [\"fun\", \"WildFungibilityV1\"]]")])),
    (b!"wildmultiassetv3", .enum [] (some [(b!"All", b!"Null"), (b!"AllOf", b!"[[\"id\", \"XcmAssetIdV3\"], [\"fun\", \"WildFungibilityV3\"]]"), (b!"AllCounted", b!"Compact<u32>")])),
    (b!"winnersdata", .vec b!"WinnersDataTuple"),
    (b!"winnersdatatuple", .struct (some (buildStruct b!"(AccountId, ParaId, BalanceOf, SlotRange)"))),
    (b!"winningdata", .fixedArray 10 b!"WinningDataEntry"),
    (b!"winningdataentry", .option b!"(AccountId, ParaId, BalanceOf)"),
    (b!"withdrawasset", .struct (some [(b!"assets", b!"Vec<MultiAsset>"), (b!"effects", b!"Vec<Order>")])),
    (b!"withdrawreasons", .set [b!"TransactionPayment", b!"Transfer", b!"Reserve", b!"Fee", b!"Tip"] 8),
    (b!"xcm", .enum [] (some [(b!"WithdrawAsset", b!"[[\"assets\", \"MultiAssetsV1\"], [\"effects\", \"Vec<XcmOrderV1>\"]]"), (b!"ReserveAssetDeposit", b!"[[\"assets\", \"MultiAssetsV1\"], [\"effects\", \"Vec<XcmOrderV1>\"]]"), (b!"ReceiveTeleportedAsset", b!"[[\"assets\", \"MultiAssetsV1\"], [\"effects\", \"Vec<XcmOrderV1>\"]]"), (b!"QueryResponse", b!"[[\"queryId\", \"Compact<u64>\"], [\"response\", \"ResponseV1\"]]"), (b!"TransferAsset", b!"[[\"assets\", \"MultiAssetsV1\"], [\"dest\", \"MultiLocationV1\"]]"), (b!"TransferReserveAsset", b!"[[\"assets\", \"MultiAssetsV1\"], [\"dest\", \"MultiLocationV1\"], [\"effects\", \"Vec<XcmOrderV1>\"]]"), (b!"Transact", b!"[[\"originType\", \"XcmOriginKind\"], [\"requireWeightAtMost\", \"u64\"], [\"call\", \"DoubleEncodedCall\"]]"), (b!"HrmpNewChannelOpenRequest", b!"[[\"sender\", \"Compact<u32>\"], [\"maxMessageSize\", \"Compact<u32>\"], [\"maxCapacity\", \"Compact<u32>\"]]"), (b!"HrmpChannelAccepted", b!"[[\"recipient\", \"Compact<u32>\"]]"), (b!"HrmpChannelClosing", b!"[[\"initiator\", \"Compact<u32>\"], [\"sender\", \"Compact<u32>\"], [\"recipient\", \"Compact<u32>\"]]"), (b!"RelayedFrom", b!"[[\"who\", \"MultiLocationV1\"], [\"message\", \"XcmV1\"]]"), (b!"SubscribeVersion", b!"[[\"query_id\", \"U64\"], [\"max_response_weight\", \"U64\"]]"), (b!"UnsubscribeVersion", b!"NULL")])),
    (b!"xcmassetid", .enum [] (some [(b!"Concrete", b!"MultiLocation"), (b!"Abstract", b!"Bytes")])),
    (b!"xcmassetidv3", .enum [] (some [(b!"Concrete", b!"MultiLocationV3"), (b!"Abstract", b!"[u8; 32]")])),
    (b!"xcmerror", .enum [] (some [(b!"Undefined", b!"Null"), (b!"Overflow", b!"Null"), (b!"Unimplemented", b!"Null"), (b!"UnhandledXcmVersion", b!"Null"), (b!"UnhandledXcmMessage", b!"Null"), (b!"UnhandledEffect", b!"Null"), (b!"EscalationOfPrivilege", b!"Null"), (b!"UntrustedReserveLocation", b!"Null"), (b!"UntrustedTeleportLocation", b!"Null"), (b!"DestinationBufferOverflow", b!"Null"), (b!"SendFailed", b!"Null"), (b!"CannotReachDestination", b!"(MultiLocationV1, XcmV1)"), (b!"MultiLocationFull", b!"Null"), (b!"FailedToDecode", b!"Null"), (b!"BadOrigin", b!"Null"), (b!"ExceedsMaxMessageSize", b!"Null"), (b!"FailedToTransactAsset", b!"Null"), (b!"WeightLimitReached", b!"Weight"), (b!"Wildcard", b!"Null"), (b!"TooMuchWeightRequired", b!"Null"), (b!"NotHoldingFees", b!"Null"), (b!"WeightNotComputable", b!"Null"), (b!"Barrier", b!"Null"), (b!"NotWithdrawable", b!"Null"), (b!"LocationCannotHold", b!"Null"), (b!"TooExpensive", b!"Null"), (b!"AssetNotFound", b!"Null"), (b!"DestinationUnsupported", b!"Null"), (b!"RecursionLimitReached", b!"Null")])),
    (b!"xcmerrorv0", .enum [] (some [(b!"Undefined", b!"Null"), (b!"Overflow", b!"Null"), (b!"Unimplemented", b!"Null"), (b!"UnhandledXcmVersion", b!"Null"), (b!"UnhandledXcmMessage", b!"Null"), (b!"UnhandledEffect", b!"Null"), (b!"EscalationOfPrivilege", b!"Null"), (b!"UntrustedReserveLocation", b!"Null"), (b!"UntrustedTeleportLocation", b!"Null"), (b!"DestinationBufferOverflow", b!"Null"), (b!"SendFailed", b!"Null"), (b!"CannotReachDestination", b!"(MultiLocation, Xcm)"), (b!"MultiLocationFull", b!"Null"), (b!"FailedToDecode", b!"Null"), (b!"BadOrigin", b!"Null"), (b!"ExceedsMaxMessageSize", b!"Null"), (b!"FailedToTransactAsset", b!"Null"), (b!"WeightLimitReached", b!"Weight"), (b!"Wildcard", b!"Null"), (b!"TooMuchWeightRequired", b!"Null"), (b!"NotHoldingFees", b!"Null"), (b!"WeightNotComputable", b!"Null"), (b!"Barrier", b!"Null"), (b!"NotWithdrawable", b!"Null"), (b!"LocationCannotHold", b!"Null"), (b!"TooExpensive", b!"Null"), (b!"AssetNotFound", b!"Null"), (b!"RecursionLimitReached", b!"Null")])) ]

/-- Classes of the built-in names, part 16. -/
def reg15 : List (Str × Cls) :=
  [ (b!"xcmerrorv1", .enum [] (some [(b!"Undefined", b!"Null"), (b!"Overflow", b!"Null"), (b!"Unimplemented", b!"Null"), (b!"UnhandledXcmVersion", b!"Null"), (b!"UnhandledXcmMessage", b!"Null"), (b!"UnhandledEffect", b!"Null"), (b!"EscalationOfPrivilege", b!"Null"), (b!"UntrustedReserveLocation", b!"Null"), (b!"UntrustedTeleportLocation", b!"Null"), (b!"DestinationBufferOverflow", b!"Null"), (b!"SendFailed", b!"Null"), (b!"CannotReachDestination", b!"(MultiLocationV1, XcmV1)"), (b!"MultiLocationFull", b!"Null"), (b!"FailedToDecode", b!"Null"), (b!"BadOrigin", b!"Null"), (b!"ExceedsMaxMessageSize", b!"Null"), (b!"FailedToTransactAsset", b!"Null"), (b!"WeightLimitReached", b!"Weight"), (b!"Wildcard", b!"Null"), (b!"TooMuchWeightRequired", b!"Null"), (b!"NotHoldingFees", b!"Null"), (b!"WeightNotComputable", b!"Null"), (b!"Barrier", b!"Null"), (b!"NotWithdrawable", b!"Null"), (b!"LocationCannotHold", b!"Null"), (b!"TooExpensive", b!"Null"), (b!"AssetNotFound", b!"Null"), (b!"DestinationUnsupported", b!"Null"), (b!"RecursionLimitReached", b!"Null")])),
    (b!"xcmerrorv2", .enum [] (some [(b!"Undefined", b!"empty"), (b!"Overflow", b!"empty"), (b!"Unimplemented", b!"empty"), (b!"UnhandledXcmVersion", b!"empty"), (b!"UnhandledXcmMessage", b!"empty"), (b!"UnhandledEffect", b!"empty"), (b!"EscalationOfPrivilege", b!"empty"), (b!"UntrustedReserveLocation", b!"empty"), (b!"UntrustedTeleportLocation", b!"empty"), (b!"DestinationBufferOverflow", b!"empty"), (b!"MultiLocationFull", b!"empty"), (b!"MultiLocationNotInvertible", b!"empty"), (b!"FailedToDecode", b!"empty"), (b!"BadOrigin", b!"empty"), (b!"ExceedsMaxMessageSize", b!"empty"), (b!"FailedToTransactAsset", b!"empty"), (b!"WeightLimitReached", b!"Weight"), (b!"Wildcard", b!"empty"), (b!"TooMuchWeightRequired", b!"empty"), (b!"NotHoldingFees", b!"empty"), (b!"WeightNotComputable", b!"empty"), (b!"Barrier", b!"empty"), (b!"NotWithdrawable", b!"empty"), (b!"LocationCannotHold", b!"empty"), (b!"TooExpensive", b!"empty"), (b!"AssetNotFound", b!"empty"), (b!"DestinationUnsupported", b!"empty"), (b!"RecursionLimitReached", b!"empty"), (b!"Transport", b!"empty"), (b!"Unroutable", b!"empty"), (b!"UnknownWeightRequired", b!"empty"), (b!"Trap", b!"u64"), (b!"UnknownClaim", b!"empty"), (b!"InvalidLocation", b!"empty")])),
    (b!"xcmorder", .enum [] (some [(b!"Noop", b!"Null"), (b!"DepositAsset", b!"[[\"assets\", \"MultiAssetFilterV1\"], [\"max_assets\", \"u32\"], [\"beneficiary\", \"MultiLocationV1\"]]"), (b!"DepositReserveAsset", b!"[[\"assets\", \"MultiAssetFilterV1\"], [\"max_assets\", \"u32\"], [\"dest\", \"MultiLocationV1\"], [\"effects\", \"Vec<XcmOrderV1>\"]]"), (b!"ExchangeAsset", b!"[[\"give\", \"MultiAssetFilterV1\"], [\"receive\", \"MultiAssetsV1\"]]"), (b!"InitiateReserveWithdraw", b!"[[\"assets\", \"MultiAssetFilterV1\"], [\"reserve\", \"MultiLocationV1\"], [\"effects\", \"Vec<XcmOrderV1>\"]]"), (b!"InitiateTeleport", b!"[[\"assets\", \"MultiAssetFilterV1\"], [\"dest\", \"MultiLocationV1\"], [\"effects\", \"Vec<XcmOrderV1>\"]]"), (b!"QueryHolding", b!"[[\"queryId\", \"Compact<u64>\"], [\"dest\", \"MultiLocationV1\"], [\"assets\", \"MultiAssetFilterV1\"]]"), (b!"BuyExecution", b!"[[\"fees\", \"MultiAssetV1\"], [\"weight\", \"u64\"], [\"debt\", \"u64\"], [\"halt_on_error\", \"bool\"], [\"instructions\", \"Vec<XcmV1>\"]]")])),
    (b!"xcmorderv0", .enum [] (some [(b!"Null", b!"Null"), (b!"DepositAsset", b!"[[\"assets\", \"Vec<MultiAssetV0>\"], [\"dest\", \"MultiLocationV0\"]]"), (b!"DepositReserveAsset", b!"[[\"assets\", \"Vec<MultiAssetV0>\"], [\"dest\", \"MultiLocationV0\"], [\"effects\", \"Vec<XcmOrderV0>\"]]"), (b!"ExchangeAsset", b!"[[\"give\", \"Vec<MultiAssetV0>\"], [\"receive\", \"Vec<MultiAssetV0>\"]]"), (b!"InitiateReserveWithdraw", b!"[[\"assets\", \"Vec<MultiAssetV0>\"], [\"reserve\", \"MultiLocationV0\"], [\"effects\", \"Vec<XcmOrderV0>\"]]"), (b!"InitiateTeleport", b!"[[\"assets\", \"Vec<MultiAssetV0>\"], [\"dest\", \"MultiLocationV0\"], [\"effects\", \"Vec<XcmOrderV0>\"]]"), (b!"QueryHolding", b!"[[\"queryId\", \"Compact<u64>\"], [\"dest\", \"MultiLocationV0\"], [\"assets\", \"Vec<MultiAssetV0>\"]]"), (b!"BuyExecution", b!"[[\"fees\", \"MultiAssetV0\"], [\"weight\", \"u64\"], [\"debt\", \"u64\"], [\"haltOnError\", \"bool\"], [\"xcm\", \"Vec<XcmV0>\"]]")])),
    (b!"xcmorderv1", .enum [] (some [(b!"Noop", b!"Null"), (b!"DepositAsset", b!"[[\"assets\", \"MultiAssetFilterV1\"], [\"max_assets\", \"u32\"], [\"beneficiary\", \"MultiLocationV1\"]]"), (b!"DepositReserveAsset", b!"[[\"assets\", \"MultiAssetFilterV1\"], [\"max_assets\", \"u32\"], [\"dest\", \"MultiLocationV1\"], [\"effects\", \"Vec<XcmOrderV1>\"]]"), (b!"ExchangeAsset", b!"[[\"give\", \"MultiAssetFilterV1\"], [\"receive\", \"MultiAssetsV1\"]]"), (b!"InitiateReserveWithdraw", b!"[[\"assets\", \"MultiAssetFilterV1\"], [\"reserve\", \"MultiLocationV1\"], [\"effects\", \"Vec<XcmOrderV1>\"]]"), (b!"InitiateTeleport", b!"[[\"assets\", \"MultiAssetFilterV1\"], [\"dest\", \"MultiLocationV1\"], [\"effects\", \"Vec<XcmOrderV1>\"]]"), (b!"QueryHolding", b!"[[\"queryId\", \"Compact<u64>\"], [\"dest\", \"MultiLocationV1\"], [\"assets\", \"MultiAssetFilterV1\"]]"), (b!"BuyExecution", b!"[[\"fees\", \"MultiAssetV1\"], [\"weight\", \"u64\"], [\"debt\", \"u64\"], [\"halt_on_error\", \"bool\"], [\"instructions\", \"Vec<XcmV1>\"]]")])),
    (b!"xcmorderv2", .enum [] (some [(b!"Noop", b!"Null"), (b!"DepositAsset", b!"[[\"assets\", \"MultiAssetFilterV1\"], [\"max_assets\", \"u32\"], [\"beneficiary\", \"MultiLocationV1\"]]"), (b!"DepositReserveAsset", b!"[[\"assets\", \"MultiAssetFilterV1\"], [\"max_assets\", \"u32\"], [\"dest\", \"MultiLocationV1\"], [\"effects\", \"Vec<XcmOrderV1>\"]]"), (b!"ExchangeAsset", b!"[[\"give\", \"MultiAssetFilterV1\"], [\"receive\", \"MultiAssetsV1\"]]"), (b!"InitiateReserveWithdraw", b!"[[\"assets\", \"MultiAssetFilterV1\"], [\"reserve\", \"MultiLocationV1\"], [\"effects\", \"Vec<XcmOrderV1>\"]]"), (b!"InitiateTeleport", b!"[[\"assets\", \"MultiAssetFilterV1\"], [\"dest\", \"MultiLocationV1\"], [\"effects\", \"Vec<XcmOrderV1>\"]]"), (b!"QueryHolding", b!"[[\"queryId\", \"Compact<u64>\"], [\"dest\", \"MultiLocationV1\"], [\"assets\", \"MultiAssetFilterV1\"]]"), (b!"BuyExecution", b!"[[\"fees\", \"MultiAssetV1\"], [\"weight\", \"u64\"], [\"debt\", \"u64\"], [\"halt_on_error\", \"bool\"], [\"instructions\", \"Vec<XcmV1>\"]]")])),
    (b!"xcmorigin", .enum [] (some [(b!"Xcm", b!"MultiLocation")])),
    (b!"xcmoriginkind", .enum [b!"Native", b!"SovereignAccount", b!"Superuser", b!"Xcm"] none),
    (b!"xcmresult", .enum [] (some [(b!"Ok", b!"()"), (b!"Err", b!"XcmError")])),
    (b!"xcmtraitserrorv3", .enum [] (some [(b!"Overflow", b!"NULL"), (b!"Unimplemented", b!"NULL"), (b!"UntrustedReserveLocation", b!"NULL"), (b!"UntrustedTeleportLocation", b!"NULL"), (b!"LocationFull", b!"NULL"), (b!"LocationNotInvertible", b!"NULL"), (b!"BadOrigin", b!"NULL"), (b!"InvalidLocation", b!"NULL"), (b!"AssetNotFound", b!"NULL"), (b!"FailedToTransactAsset", b!"NULL"), (b!"NotWithdrawable", b!"NULL"), (b!"LocationCannotHold", b!"NULL"), (b!"ExceedsMaxMessageSize", b!"NULL"), (b!"DestinationUnsupported", b!"NULL"), (b!"Transport", b!"NULL"), (b!"Unroutable", b!"NULL"), (b!"UnknownClaim", b!"NULL"), (b!"FailedToDecode", b!"NULL"), (b!"MaxWeightInvalid", b!"NULL"), (b!"NotHoldingFees", b!"NULL"), (b!"TooExpensive", b!"NULL"), (b!"Trap", b!"U64"), (b!"ExpectationFalse", b!"NULL"), (b!"PalletNotFound", b!"NULL"), (b!"NameMismatch", b!"NULL"), (b!"VersionIncompatible", b!"NULL"), (b!"HoldingWouldOverflow", b!"NULL"), (b!"ExportError", b!"NULL"), (b!"ReanchorFailed", b!"NULL"), (b!"NoDeal", b!"NULL"), (b!"FeesNotMet", b!"NULL"), (b!"LockError", b!"NULL"), (b!"NoPermission", b!"NULL"), (b!"Unanchored", b!"NULL"), (b!"NotDepositable", b!"NULL"), (b!"UnhandledXcmVersion", b!"NULL"), (b!"WeightLimitReached", b!"WeightV2"), (b!"Barrier", b!"NULL"), (b!"WeightNotComputable", b!"NULL"), (b!"ExceedsStackLimit", b!"NULL")])),
    (b!"xcmv0", .enum [] (some [(b!"WithdrawAsset", b!"[[\"assets\", \"Vec<MultiAssetV0>\"], [\"effects\", \"Vec<XcmOrderV0>\"]]"), (b!"ReserveAssetDeposit", b!"[[\"assets\", \"Vec<MultiAssetV0>\"], [\"effects\", \"Vec<XcmOrderV0>\"]]"), (b!"TeleportAsset", b!"[[\"assets\", \"Vec<MultiAssetV0>\"], [\"effects\", \"Vec<XcmOrderV0>\"]]"), (b!"QueryResponse", b!"[[\"queryId\", \"Compact<u64>\"], [\"response\", \"ResponseV0\"]]"), (b!"TransferAsset", b!"[[\"assets\", \"Vec<MultiAssetV0>\"], [\"dest\", \"MultiLocationV0\"]]"), (b!"TransferReserveAsset", b!"[[\"assets\", \"Vec<MultiAssetV0>\"], [\"dest\", \"MultiLocationV0\"], [\"effects\", \"Vec<XcmOrderV0>\"]]"), (b!"Transact", b!"[[\"originType\", \"XcmOriginKind\"], [\"requireWeightAtMost\", \"u64\"], [\"call\", \"DoubleEncodedCall\"]]"), (b!"HrmpNewChannelOpenRequest", b!"[[\"sender\", \"Compact<u32>\"], [\"maxMessageSize\", \"Compact<u32>\"], [\"maxCapacity\", \"Compact<u32>\"]]"), (b!"HrmpChannelAccepted", b!"[[\"recipient\", \"Compact<u32>\"]]"), (b!"HrmpChannelClosing", b!"[[\"initiator\", \"Compact<u32>\"], [\"sender\", \"Compact<u32>\"], [\"recipient\", \"Compact<u32>\"]]"), (b!"RelayedFrom", b!"[[\"who\", \"MultiLocationV0\"], [\"message\", \"XcmV0\"]]")])),
    (b!"xcmv1", .enum [] (some [(b!"WithdrawAsset", b!"[[\"assets\", \"MultiAssetsV1\"], [\"effects\", \"Vec<XcmOrderV1>\"]]"), (b!"ReserveAssetDeposit", b!"[[\"assets\", \"MultiAssetsV1\"], [\"effects\", \"Vec<XcmOrderV1>\"]]"), (b!"ReceiveTeleportedAsset", b!"[[\"assets\", \"MultiAssetsV1\"], [\"effects\", \"Vec<XcmOrderV1>\"]]"), (b!"QueryResponse", b!"[[\"queryId\", \"Compact<u64>\"], [\"response\", \"ResponseV1\"]]"), (b!"TransferAsset", b!"[[\"assets\", \"MultiAssetsV1\"], [\"dest\", \"MultiLocationV1\"]]"), (b!"TransferReserveAsset", b!"[[\"assets\", \"MultiAssetsV1\"], [\"dest\", \"MultiLocationV1\"], [\"effects\", \"Vec<XcmOrderV1>\"]]"), (b!"Transact", b!"[[\"originType\", \"XcmOriginKind\"], [\"requireWeightAtMost\", \"u64\"], [\"call\", \"DoubleEncodedCall\"]]"), (b!"HrmpNewChannelOpenRequest", b!"[[\"sender\", \"Compact<u32>\"], [\"maxMessageSize\", \"Compact<u32>\"], [\"maxCapacity\", \"Compact<u32>\"]]"), (b!"HrmpChannelAccepted", b!"[[\"recipient\", \"Compact<u32>\"]]"), (b!"HrmpChannelClosing", b!"[[\"initiator\", \"Compact<u32>\"], [\"sender\", \"Compact<u32>\"], [\"recipient\", \"Compact<u32>\"]]"), (b!"RelayedFrom", b!"[[\"who\", \"MultiLocationV1\"], [\"message\", \"XcmV1\"]]"), (b!"SubscribeVersion", b!"[[\"query_id\", \"U64\"], [\"max_response_weight\", \"U64\"]]"), (b!"UnsubscribeVersion", b!"NULL")])),
    (b!"xcmv2", .vec b!"InstructionV2"),
    (b!"xcmv3", .vec b!"InstructionV3"),
    (b!"xcmversion", .u32),
    (b!"xcmpmessageformat", .enum [b!"ConcatenatedVersionedXcm", b!"ConcatenatedEncodedBlob", b!"Signals"] none),
    (b!"ethereum::block", .struct (some [(b!"header", b!"EthHeader"), (b!"transactions", b!"Vec<EthTransaction>"), (b!"ommers", b!"Vec<EthHeader>")])),
    (b!"ethereum::header", .struct (some [(b!"parentHash", b!"H256"), (b!"ommersHash", b!"H256"), (b!"beneficiary", b!"H160"), (b!"stateRoot", b!"H256"), (b!"transactionsRoot", b!"H256"), (b!"receiptsRoot", b!"H256"), (b!"logsBloom", b!"EthBloom"), (b!"difficulty", b!"U256"), (b!"number", b!"U256"), (b!"gasLimit", b!"U256"), (b!"gasUsed", b!"U256"), (b!"timestamp", b!"U64"), (b!"extraData", b!"Bytes"), (b!"mixMash", b!"H256"), (b!"nonce", b!"H64")])),
    (b!"ethereum::receipt", .struct (some [(b!"transactionHash", b!"Option<H256>"), (b!"transactionIndex", b!"Option<U256>"), (b!"blockHash", b!"Option<H256>"), (b!"from", b!"Option<H160>"), (b!"to", b!"Option<H160>"), (b!"blockNumber", b!"Option<U256>"), (b!"cumulativeGasUsed", b!"U256"), (b!"gasUsed", b!"Option<U256>"), (b!"contractAddress", b!"Option<H160>"), (b!"logs", b!"Vec<EthLog>"), (b!"root", b!"Option<H256>"), (b!"logsBloom", b!"H2048"), (b!"statusCode", b!"Option<U64>")])),
    (b!"ethereum::transaction", .struct (some [(b!"nonce", b!"U256"), (b!"gasPrice", b!"U256"), (b!"gasLimit", b!"U256"), (b!"action", b!"EthTransactionAction"), (b!"value", b!"U256"), (b!"input", b!"Bytes"), (b!"signature", b!"EthTransactionSignature")])),
    (b!"schedule::period<blocknumber>", .struct (some (buildStruct b!"(BlockNumber, u32)"))),
    (b!"schedule::priority", .u8),
    (b!"schnorrkel::randomness", .hash 32),
    (b!"schnorrkel::rawvrfoutput", .fixedU8 32),
    (b!"slashing::slashingspans", .struct (some [(b!"spanIndex", b!"SpanIndex"), (b!"lastStart", b!"EraIndex"), (b!"lastNonzeroSlash", b!"EraIndex"), (b!"prior", b!"Vec<EraIndex>")])),
    (b!"slashing::spanindex", .u32),
    (b!"slashing::spanrecord<balanceof>", .struct (some [(b!"slashed", b!"Balance"), (b!"paidOut", b!"Balance")])),
    (b!"super::initializationdata<bridgedheader<t, i>>", .struct (some [(b!"header", b!"Header"), (b!"authorityList", b!"AuthorityList"), (b!"setId", b!"SetId"), (b!"isHalted", b!"bool")])),
    (b!"weights::extrinsicsweight", .struct (some [(b!"normal", b!"Weight"), (b!"operational", b!"Weight")])),
    (b!"xcm::versionedxcm", .enum [] (some [(b!"V0", b!"XcmV0"), (b!"V1", b!"XcmV1"), (b!"V2", b!"XcmV2"), (b!"V3", b!"XcmV3")])) ]

/-- Classes of the built-in names. -/
def classes : List (Str × Cls) :=
  reg0 ++ reg1 ++ reg2 ++ reg3 ++ reg4 ++ reg5 ++ reg6 ++ reg7 ++ reg8 ++ reg9 ++ reg10 ++ reg11 ++ reg12 ++ reg13 ++ reg14 ++ reg15

end ScaleGo.Builtin
