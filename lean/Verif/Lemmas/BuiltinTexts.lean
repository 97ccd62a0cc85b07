import Verif.Lemmas.KeyTree
import Verif.Model.Basic

/-!
# The type texts that the built-in definitions lead to

Generated; the checks are in `Verif/Props/C76.lean`.  The number is 0 for a text all of whose parts are known, otherwise one
more than the number of steps to the nearest unknown text.
-/

set_option maxRecDepth 4000

namespace ScaleGo.Builtin

/-- Part 0. -/
def texts0 : List (Str × Nat) := [
  (b!"&[u8]", 0),
  (b!"Compact<u32>", 0),
  (b!"(AccountId, Balance)", 0),
  (b!"AccountId", 0),
  (b!"Balance", 0),
  (b!"(BalanceOf<T, I>, BidKind<AccountId, BalanceOf<T, I>>)", 0),
  (b!"BalanceOf", 0),
  (b!"BidKind<AccountId, BalanceOf>", 0),
  (b!"BidKindVouch", 0),
  (b!"(BoundedVec<ProxyDefinition<AccountId,ProxyType,BlockNumber>,MaxProxies>,BalanceOf)", 0),
  (b!"Vec<ProxyDefinition>", 0),
  (b!"ProxyDefinition", 0),
  (b!"ProxyType", 0),
  (b!"BlockNumber", 0),
  (b!"<AuthorityId as RuntimeAppPublic>::Signature", 0),
  (b!"<T as Config>::Call", 0),
  (b!"AbridgedCandidateReceipt", 0),
  (b!"ParaId", 0),
  (b!"Hash", 0),
  (b!"HeadData", 0),
  (b!"CollatorId", 0),
  (b!"CollatorSignature", 0),
  (b!"CandidateCommitments", 0),
  (b!"Vec<UpwardMessage>", 0),
  (b!"UpwardMessage", 0),
  (b!"Vec<OutboundHrmpMessage>", 0),
  (b!"OutboundHrmpMessage", 0),
  (b!"u32", 0),
  (b!"Bytes", 0),
  (b!"Option<ValidationCode>", 0),
  (b!"ValidationCode", 0),
  (b!"AbridgedHostConfiguration", 0),
  (b!"AbridgedHrmpChannel", 0),
  (b!"Option<Hash>", 0),
  (b!"AbstractFungible", 0),
  (b!"Vec<u8>", 0),
  (b!"Compact<u128>", 0),
  (b!"u128", 0),
  (b!"AbstractNonFungible", 0),
  (b!"AssetInstance", 0),
  (b!"Null", 0),
  (b!"[u8; 4]", 0),
  (b!"[u8; 8]", 0),
  (b!"[u8; 16]", 0),
  (b!"[u8; 32]", 0),
  (b!"AccountData", 0),
  (b!"AccountId32", 0),
  (b!"AccountIndex", 0),
  (b!"AccountInfo", 0),
  (b!"Index", 0),
  (b!"RefCount", 0),
  (b!"AccountInfoWithProviders", 0),
  (b!"AccountInfoWithTripleRefCount", 0),
  (b!"AccountStatus", 0),
  (b!"AccountValidity", 0),
  (b!"Permill", 0),
  (b!"AccountVote", 0),
  (b!"AccountVoteStandard", 0),
  (b!"Vote", 0),
  (b!"AccountVoteSplit", 0),
  (b!"ActiveEraInfo", 0),
  (b!"EraIndex", 0),
  (b!"MomentOf", 0),
  (b!"ActiveGilt", 0),
  (b!"Perquintill", 0),
  (b!"ActiveGiltsTotal", 0),
  (b!"ActiveIndex", 0),
  (b!"ActiveRecovery", 0),
  (b!"Vec<AccountId>", 0),
  (b!"AliveContractInfo", 0),
  (b!"TrieId", 0),
  (b!"CodeHash", 0),
  (b!"Option<BlockNumber>", 0),
  (b!"AllowedSlots", 0),
  (b!"Announcement", 0) ]

/-- Part 1. -/
def texts1 : List (Str × Nat) := [
  (b!"AnySignature", 0),
  (b!"ApiId", 0),
  (b!"Approvals", 0),
  (b!"bool", 0),
  (b!"ArithmeticError", 0),
  (b!"AssetApproval", 0),
  (b!"TAssetBalance", 0),
  (b!"TAssetDepositBalance", 0),
  (b!"AssetApprovalKey", 0),
  (b!"AssetBalance", 0),
  (b!"AssetDestroyWitness", 0),
  (b!"AssetDetails", 0),
  (b!"AssetId", 0),
  (b!"AssetInstanceV0", 0),
  (b!"u8", 0),
  (b!"Compact<u16>", 0),
  (b!"u16", 0),
  (b!"Compact<u64>", 0),
  (b!"u64", 0),
  (b!"AssetInstanceV1", 0),
  (b!"AssetInstanceV2", 0),
  (b!"AssetInstanceV3", 0),
  (b!"NULL", 0),
  (b!"AssetMetadata", 0),
  (b!"AssetOptions", 0),
  (b!"Compact<Balance>", 0),
  (b!"PermissionLatest", 0),
  (b!"Owner", 0),
  (b!"AssignmentId", 0),
  (b!"AssignmentKind", 0),
  (b!"(CollatorId, u32)", 0),
  (b!"AttestedCandidate", 0),
  (b!"Vec<ValidityAttestation>", 0),
  (b!"ValidityAttestation", 0),
  (b!"ValidatorSignature", 0),
  (b!"BitVec", 0),
  (b!"AuctionIndex", 0),
  (b!"AuthIndex", 0),
  (b!"AuthorityDiscoveryId", 0),
  (b!"AuthorityId", 0),
  (b!"AuthorityIndex", 0),
  (b!"AuthorityList", 0),
  (b!"NextAuthority", 0),
  (b!"AuthorityWeight", 0),
  (b!"AuthoritySet", 0),
  (b!"ForkTreePendingChange", 0),
  (b!"Vec<ForkTreePendingChangeNode>", 0),
  (b!"ForkTreePendingChangeNode", 0),
  (b!"BlockHash", 0),
  (b!"PendingChange", 0),
  (b!"DelayKind", 0),
  (b!"DelayKindBest", 0),
  (b!"Vec<PendingChange>", 0),
  (b!"AuthoritySetChanges", 0),
  (b!"AuthoritySetChange", 0),
  (b!"U64", 0),
  (b!"AuthoritySignature", 0),
  (b!"AvailabilityBitfield", 0),
  (b!"AvailabilityBitfieldRecord", 0),
  (b!"BabeAuthorityWeight", 0),
  (b!"BabeBlockWeight", 0),
  (b!"BabeEpochConfiguration", 0),
  (b!"(u64,u64)", 0),
  (b!"BabeEquivocationProof", 0),
  (b!"SlotNumber", 0),
  (b!"Header", 0),
  (b!"H256", 0),
  (b!"Compact<BlockNumber>", 0),
  (b!"Digest", 0),
  (b!"Vec<DigestItem<Hash>>", 0),
  (b!"DigestItem<Hash>", 0),
  (b!"Vec<AuthorityId>", 0),
  (b!"SealV0", 0),
  (b!"Signature", 0),
  (b!"Consensus", 0) ]

/-- Part 2. -/
def texts2 : List (Str × Nat) := [
  (b!"Seal", 0),
  (b!"HexBytes", 0),
  (b!"PreRuntime", 0),
  (b!"ChangesTrieSignal", 0),
  (b!"Option<ChangesTrieConfiguration>", 0),
  (b!"ChangesTrieConfiguration", 0),
  (b!"BabeWeight", 0),
  (b!"BackedCandidate", 0),
  (b!"CommittedCandidateReceipt", 0),
  (b!"CandidateDescriptor", 0),
  (b!"RelayChainHash", 0),
  (b!"BalanceLock", 0),
  (b!"LockIdentifier", 0),
  (b!"WithdrawReasons", 0),
  (b!"U8", 0),
  (b!"BalanceLock<Balance, BlockNumber>", 0),
  (b!"Reasons", 0),
  (b!"BalanceLock<Balance>", 0),
  (b!"BalanceStatus", 0),
  (b!"BalanceUpload", 0),
  (b!"Balances", 0),
  (b!"Vec<MultiAsset>", 0),
  (b!"MultiAsset", 0),
  (b!"XcmAssetId", 0),
  (b!"MultiLocation", 0),
  (b!"JunctionsV1", 0),
  (b!"JunctionV1", 0),
  (b!"NetworkId", 0),
  (b!"[u8; 20]", 0),
  (b!"BodyId", 0),
  (b!"BodyPart", 0),
  (b!"(JunctionV1, JunctionV1)", 0),
  (b!"(JunctionV1, JunctionV1, JunctionV1)", 0),
  (b!"(JunctionV1, JunctionV1, JunctionV1, JunctionV1)", 0),
  (b!"(JunctionV1, JunctionV1, JunctionV1, JunctionV1, JunctionV1)", 0),
  (b!"(JunctionV1, JunctionV1, JunctionV1, JunctionV1, JunctionV1, JunctionV1)", 0),
  (b!"(JunctionV1, JunctionV1, JunctionV1, JunctionV1, JunctionV1, JunctionV1, JunctionV1)", 0),
  (b!"(JunctionV1, JunctionV1, JunctionV1, JunctionV1, JunctionV1, JunctionV1, JunctionV1, JunctionV1)", 0),
  (b!"FungibilityV1", 0),
  (b!"BeefyCommitment", 0),
  (b!"BeefyPayload", 0),
  (b!"ValidatorSetId", 0),
  (b!"BeefyId", 0),
  (b!"BeefyKey", 0),
  (b!"BeefyNextAuthoritySet", 0),
  (b!"BeefySignedCommitment", 0),
  (b!"Vec<Option<Signature>>", 0),
  (b!"Option<Signature>", 0),
  (b!"Bid", 0),
  (b!"BidKind", 0),
  (b!"Bidder", 0),
  (b!"NewBidder", 0),
  (b!"SubId", 0),
  (b!"BlockAttestations", 0),
  (b!"CandidateReceipt", 0),
  (b!"BlockLength", 0),
  (b!"PerDispatchClassU32", 0),
  (b!"BlockNumberFor", 0),
  (b!"BlockNumberOf", 0),
  (b!"BlockTrace", 5),
  (b!"Text", 0),
  (b!"Vec<BlockTraceSpan>", 0),
  (b!"BlockTraceSpan", 0),
  (b!"Option<u64>", 0),
  (b!"Vec<BlockTraceEvent>", 4),
  (b!"BlockTraceEvent", 3),
  (b!"BlockTraceEventData", 2),
  (b!"HashMap<Text, Text>", 1),
  (b!"BlockTransactions", 0),
  (b!"Vec<H256>", 0),
  (b!"Vec<ethereum::Transaction>", 0),
  (b!"ethereum::Transaction", 0),
  (b!"U256", 0),
  (b!"EthTransactionAction", 0),
  (b!"H160", 0) ]

/-- Part 3. -/
def texts3 : List (Str × Nat) := [
  (b!"EthTransactionSignature", 0),
  (b!"TransactionRecoveryId", 0),
  (b!"BlockV0", 3),
  (b!"EthHeader", 2),
  (b!"EthBloom", 0),
  (b!"H64", 1),
  (b!"Vec<TransactionV0>", 0),
  (b!"TransactionV0", 0),
  (b!"Vec<EthHeader>", 3),
  (b!"BlockV1", 3),
  (b!"Vec<TransactionV1>", 0),
  (b!"TransactionV1", 0),
  (b!"LegacyTransaction", 0),
  (b!"EIP2930Transaction", 0),
  (b!"EthAccessList", 0),
  (b!"EthAccessListItem", 0),
  (b!"EthAddress", 0),
  (b!"BlockV2", 3),
  (b!"Vec<TransactionV2>", 0),
  (b!"TransactionV2", 0),
  (b!"EIP1559Transaction", 0),
  (b!"BlockWeights", 0),
  (b!"Weight", 0),
  (b!"PerDispatchClass", 0),
  (b!"WeightPerClass", 0),
  (b!"Option<Weight>", 0),
  (b!"Bounty", 0),
  (b!"BountyStatus", 0),
  (b!"BountyStatusCuratorProposed", 0),
  (b!"BountyStatusActive", 0),
  (b!"BountyStatusPendingPayout", 0),
  (b!"BountyIndex", 0),
  (b!"Box<<T as Config<I>>::Proposal>", 0),
  (b!"Box<<T as Config>::Call>", 0),
  (b!"Box<<T as Trait<I>>::Proposal>", 0),
  (b!"Box<Call>", 0),
  (b!"Box<Proposal>", 0),
  (b!"BridgeMessageId", 0),
  (b!"LaneId", 0),
  (b!"MessageNonce", 0),
  (b!"BridgedBlockHash", 0),
  (b!"BridgedBlockNumber", 0),
  (b!"BridgedHeader", 0),
  (b!"BufferedSessionChange", 0),
  (b!"Vec<ValidatorId>", 0),
  (b!"ValidatorId", 0),
  (b!"SessionIndex", 0),
  (b!"ByForkV3", 0),
  (b!"CallHash", 0),
  (b!"CallHashOf", 0),
  (b!"CallIndex", 0),
  (b!"CallOrigin", 0),
  (b!"(AccountId, MultiSigner, MultiSignature)", 0),
  (b!"MultiSigner", 0),
  (b!"[u8; 33]", 0),
  (b!"MultiSignature", 0),
  (b!"Ed25519Signature", 0),
  (b!"Sr25519Signature", 0),
  (b!"EcdsaSignature", 0),
  (b!"CandidateHash", 0),
  (b!"CandidatePendingAvailability", 0),
  (b!"CoreIndex", 0),
  (b!"GroupIndex", 0),
  (b!"ChainId", 0),
  (b!"ClassDetails", 0),
  (b!"DepositBalance", 0),
  (b!"ClassId", 0),
  (b!"ClassMetadata", 0),
  (b!"CollectiveOrigin", 0),
  (b!"(MemberCount, MemberCount)", 0),
  (b!"MemberCount", 0),
  (b!"CompactAssignments", 0),
  (b!"Vec<(NominatorIndex, ValidatorIndex)>", 0),
  (b!"(NominatorIndex, ValidatorIndex)", 0),
  (b!"NominatorIndex", 0) ]

/-- Part 4. -/
def texts4 : List (Str × Nat) := [
  (b!"ValidatorIndex", 0),
  (b!"Vec<(NominatorIndex, [CompactScore; 1], ValidatorIndex)>", 0),
  (b!"(NominatorIndex, [CompactScore; 1], ValidatorIndex)", 0),
  (b!"[CompactScore; 1]", 0),
  (b!"compactscore", 0),
  (b!"OffchainAccuracy", 0),
  (b!"Vec<(NominatorIndex, [CompactScore; 2], ValidatorIndex)>", 0),
  (b!"(NominatorIndex, [CompactScore; 2], ValidatorIndex)", 0),
  (b!"[CompactScore; 2]", 0),
  (b!"Vec<(NominatorIndex, [CompactScore; 3], ValidatorIndex)>", 0),
  (b!"(NominatorIndex, [CompactScore; 3], ValidatorIndex)", 0),
  (b!"[CompactScore; 3]", 0),
  (b!"Vec<(NominatorIndex, [CompactScore; 4], ValidatorIndex)>", 0),
  (b!"(NominatorIndex, [CompactScore; 4], ValidatorIndex)", 0),
  (b!"[CompactScore; 4]", 0),
  (b!"Vec<(NominatorIndex, [CompactScore; 5], ValidatorIndex)>", 0),
  (b!"(NominatorIndex, [CompactScore; 5], ValidatorIndex)", 0),
  (b!"[CompactScore; 5]", 0),
  (b!"Vec<(NominatorIndex, [CompactScore; 6], ValidatorIndex)>", 0),
  (b!"(NominatorIndex, [CompactScore; 6], ValidatorIndex)", 0),
  (b!"[CompactScore; 6]", 0),
  (b!"Vec<(NominatorIndex, [CompactScore; 7], ValidatorIndex)>", 0),
  (b!"(NominatorIndex, [CompactScore; 7], ValidatorIndex)", 0),
  (b!"[CompactScore; 7]", 0),
  (b!"Vec<(NominatorIndex, [CompactScore; 8], ValidatorIndex)>", 0),
  (b!"(NominatorIndex, [CompactScore; 8], ValidatorIndex)", 0),
  (b!"[CompactScore; 8]", 0),
  (b!"Vec<(NominatorIndex, [CompactScore; 9], ValidatorIndex)>", 0),
  (b!"(NominatorIndex, [CompactScore; 9], ValidatorIndex)", 0),
  (b!"[CompactScore; 9]", 0),
  (b!"Vec<(NominatorIndex, [CompactScore; 10], ValidatorIndex)>", 0),
  (b!"(NominatorIndex, [CompactScore; 10], ValidatorIndex)", 0),
  (b!"[CompactScore; 10]", 0),
  (b!"Vec<(NominatorIndex, [CompactScore; 11], ValidatorIndex)>", 0),
  (b!"(NominatorIndex, [CompactScore; 11], ValidatorIndex)", 0),
  (b!"[CompactScore; 11]", 0),
  (b!"Vec<(NominatorIndex, [CompactScore; 12], ValidatorIndex)>", 0),
  (b!"(NominatorIndex, [CompactScore; 12], ValidatorIndex)", 0),
  (b!"[CompactScore; 12]", 0),
  (b!"Vec<(NominatorIndex, [CompactScore; 13], ValidatorIndex)>", 0),
  (b!"(NominatorIndex, [CompactScore; 13], ValidatorIndex)", 0),
  (b!"[CompactScore; 13]", 0),
  (b!"Vec<(NominatorIndex, [CompactScore; 14], ValidatorIndex)>", 0),
  (b!"(NominatorIndex, [CompactScore; 14], ValidatorIndex)", 0),
  (b!"[CompactScore; 14]", 0),
  (b!"Vec<(NominatorIndex, [CompactScore; 15], ValidatorIndex)>", 0),
  (b!"(NominatorIndex, [CompactScore; 15], ValidatorIndex)", 0),
  (b!"[CompactScore; 15]", 0),
  (b!"CompactAssignmentsLatest", 0),
  (b!"Vec<(NominatorIndexCompact, ValidatorIndexCompact)>", 0),
  (b!"(NominatorIndexCompact, ValidatorIndexCompact)", 0),
  (b!"NominatorIndexCompact", 0),
  (b!"ValidatorIndexCompact", 0),
  (b!"Vec<(NominatorIndexCompact, CompactScoreCompact, ValidatorIndexCompact)>", 0),
  (b!"(NominatorIndexCompact, CompactScoreCompact, ValidatorIndexCompact)", 0),
  (b!"CompactScoreCompact", 0),
  (b!"OffchainAccuracyCompact", 0),
  (b!"Vec<(NominatorIndexCompact, [CompactScoreCompact; 2], ValidatorIndexCompact)>", 0),
  (b!"(NominatorIndexCompact, [CompactScoreCompact; 2], ValidatorIndexCompact)", 0),
  (b!"[CompactScoreCompact; 2]", 0),
  (b!"compactscorecompact", 0),
  (b!"Vec<(NominatorIndexCompact, [CompactScoreCompact; 3], ValidatorIndexCompact)>", 0),
  (b!"(NominatorIndexCompact, [CompactScoreCompact; 3], ValidatorIndexCompact)", 0),
  (b!"[CompactScoreCompact; 3]", 0),
  (b!"Vec<(NominatorIndexCompact, [CompactScoreCompact; 4], ValidatorIndexCompact)>", 0),
  (b!"(NominatorIndexCompact, [CompactScoreCompact; 4], ValidatorIndexCompact)", 0),
  (b!"[CompactScoreCompact; 4]", 0),
  (b!"Vec<(NominatorIndexCompact, [CompactScoreCompact; 5], ValidatorIndexCompact)>", 0),
  (b!"(NominatorIndexCompact, [CompactScoreCompact; 5], ValidatorIndexCompact)", 0),
  (b!"[CompactScoreCompact; 5]", 0),
  (b!"Vec<(NominatorIndexCompact, [CompactScoreCompact; 6], ValidatorIndexCompact)>", 0),
  (b!"(NominatorIndexCompact, [CompactScoreCompact; 6], ValidatorIndexCompact)", 0),
  (b!"[CompactScoreCompact; 6]", 0),
  (b!"Vec<(NominatorIndexCompact, [CompactScoreCompact; 7], ValidatorIndexCompact)>", 0),
  (b!"(NominatorIndexCompact, [CompactScoreCompact; 7], ValidatorIndexCompact)", 0) ]

/-- Part 5. -/
def texts5 : List (Str × Nat) := [
  (b!"[CompactScoreCompact; 7]", 0),
  (b!"Vec<(NominatorIndexCompact, [CompactScoreCompact; 8], ValidatorIndexCompact)>", 0),
  (b!"(NominatorIndexCompact, [CompactScoreCompact; 8], ValidatorIndexCompact)", 0),
  (b!"[CompactScoreCompact; 8]", 0),
  (b!"Vec<(NominatorIndexCompact, [CompactScoreCompact; 9], ValidatorIndexCompact)>", 0),
  (b!"(NominatorIndexCompact, [CompactScoreCompact; 9], ValidatorIndexCompact)", 0),
  (b!"[CompactScoreCompact; 9]", 0),
  (b!"Vec<(NominatorIndexCompact, [CompactScoreCompact; 10], ValidatorIndexCompact)>", 0),
  (b!"(NominatorIndexCompact, [CompactScoreCompact; 10], ValidatorIndexCompact)", 0),
  (b!"[CompactScoreCompact; 10]", 0),
  (b!"Vec<(NominatorIndexCompact, [CompactScoreCompact; 11], ValidatorIndexCompact)>", 0),
  (b!"(NominatorIndexCompact, [CompactScoreCompact; 11], ValidatorIndexCompact)", 0),
  (b!"[CompactScoreCompact; 11]", 0),
  (b!"Vec<(NominatorIndexCompact, [CompactScoreCompact; 12], ValidatorIndexCompact)>", 0),
  (b!"(NominatorIndexCompact, [CompactScoreCompact; 12], ValidatorIndexCompact)", 0),
  (b!"[CompactScoreCompact; 12]", 0),
  (b!"Vec<(NominatorIndexCompact, [CompactScoreCompact; 13], ValidatorIndexCompact)>", 0),
  (b!"(NominatorIndexCompact, [CompactScoreCompact; 13], ValidatorIndexCompact)", 0),
  (b!"[CompactScoreCompact; 13]", 0),
  (b!"Vec<(NominatorIndexCompact, [CompactScoreCompact; 14], ValidatorIndexCompact)>", 0),
  (b!"(NominatorIndexCompact, [CompactScoreCompact; 14], ValidatorIndexCompact)", 0),
  (b!"[CompactScoreCompact; 14]", 0),
  (b!"Vec<(NominatorIndexCompact, [CompactScoreCompact; 15], ValidatorIndexCompact)>", 0),
  (b!"(NominatorIndexCompact, [CompactScoreCompact; 15], ValidatorIndexCompact)", 0),
  (b!"[CompactScoreCompact; 15]", 0),
  (b!"CompactAssignmentsVote", 0),
  (b!"Vec<CompactScore>", 0),
  (b!"CompactScore", 0),
  (b!"CompactAssignmentsWith24", 0),
  (b!"Vec<(NominatorIndexCompact, [CompactScoreCompact; 16], ValidatorIndexCompact)>", 0),
  (b!"(NominatorIndexCompact, [CompactScoreCompact; 16], ValidatorIndexCompact)", 0),
  (b!"[CompactScoreCompact; 16]", 0),
  (b!"Vec<(NominatorIndexCompact, [CompactScoreCompact; 17], ValidatorIndexCompact)>", 0),
  (b!"(NominatorIndexCompact, [CompactScoreCompact; 17], ValidatorIndexCompact)", 0),
  (b!"[CompactScoreCompact; 17]", 0),
  (b!"Vec<(NominatorIndexCompact, [CompactScoreCompact; 18], ValidatorIndexCompact)>", 0),
  (b!"(NominatorIndexCompact, [CompactScoreCompact; 18], ValidatorIndexCompact)", 0),
  (b!"[CompactScoreCompact; 18]", 0),
  (b!"Vec<(NominatorIndexCompact, [CompactScoreCompact; 19], ValidatorIndexCompact)>", 0),
  (b!"(NominatorIndexCompact, [CompactScoreCompact; 19], ValidatorIndexCompact)", 0),
  (b!"[CompactScoreCompact; 19]", 0),
  (b!"Vec<(NominatorIndexCompact, [CompactScoreCompact; 20], ValidatorIndexCompact)>", 0),
  (b!"(NominatorIndexCompact, [CompactScoreCompact; 20], ValidatorIndexCompact)", 0),
  (b!"[CompactScoreCompact; 20]", 0),
  (b!"Vec<(NominatorIndexCompact, [CompactScoreCompact; 21], ValidatorIndexCompact)>", 0),
  (b!"(NominatorIndexCompact, [CompactScoreCompact; 21], ValidatorIndexCompact)", 0),
  (b!"[CompactScoreCompact; 21]", 0),
  (b!"Vec<(NominatorIndexCompact, [CompactScoreCompact; 22], ValidatorIndexCompact)>", 0),
  (b!"(NominatorIndexCompact, [CompactScoreCompact; 22], ValidatorIndexCompact)", 0),
  (b!"[CompactScoreCompact; 22]", 0),
  (b!"Vec<(NominatorIndexCompact, [CompactScoreCompact; 23], ValidatorIndexCompact)>", 0),
  (b!"(NominatorIndexCompact, [CompactScoreCompact; 23], ValidatorIndexCompact)", 0),
  (b!"[CompactScoreCompact; 23]", 0),
  (b!"ConcreteFungible", 0),
  (b!"ConcreteNonFungible", 0),
  (b!"ConfigData", 0),
  (b!"ConsensusEngineId", 0),
  (b!"ConsumedWeight", 0),
  (b!"ContractCallRequest", 0),
  (b!"ContractExecResult", 0),
  (b!"ContractExecResultSuccess", 0),
  (b!"ContractExecResultSuccessTo255", 2),
  (b!"Raw", 1),
  (b!"ContractExecResultTo255", 3),
  (b!"ContractInfo", 0),
  (b!"TombstoneContractInfo", 0),
  (b!"ContractInstantiateResult", 0),
  (b!"InstantiateReturnValue", 0),
  (b!"ExecReturnValue", 0),
  (b!"Option<RentProjection>", 0),
  (b!"RentProjection", 0),
  (b!"ContractProject", 2),
  (b!"ContractProjectSource", 0),
  (b!"ContractProjectContract", 0),
  (b!"Vec<Text>", 0) ]

/-- Part 6. -/
def texts6 : List (Str × Nat) := [
  (b!"Option<Text>", 0),
  (b!"Vec<SiType>", 0),
  (b!"SiType", 0),
  (b!"SiPath", 0),
  (b!"Vec<SiTypeParameter>", 0),
  (b!"SiTypeParameter", 0),
  (b!"Option<SiLookupTypeId>", 0),
  (b!"SiLookupTypeId", 0),
  (b!"SiTypeDef", 0),
  (b!"SiTypeDefComposite", 0),
  (b!"Vec<SiField>", 0),
  (b!"SiField", 0),
  (b!"SiTypeDefVariant", 0),
  (b!"Vec<SiVariant>", 0),
  (b!"SiVariant", 0),
  (b!"SiTypeDefSequence", 0),
  (b!"SiTypeDefArray", 0),
  (b!"SiTypeDefTuple", 0),
  (b!"SiTypeDefPrimitive", 0),
  (b!"SiTypeDefCompact", 0),
  (b!"SiTypeDefBitSequence", 0),
  (b!"SiTypeDefRange", 0),
  (b!"String", 0),
  (b!"ContractContractSpec", 1),
  (b!"ContractStorageKey", 0),
  (b!"Conviction", 0),
  (b!"CoreAssignment", 0),
  (b!"CoreOccupied", 0),
  (b!"ParathreadEntry", 0),
  (b!"ParathreadClaim", 0),
  (b!"CreatedBlock", 0),
  (b!"ImportedAux", 0),
  (b!"CustomValueMetadata15", 0),
  (b!"DeferredOffenceOf", 0),
  (b!"Vec<OffenceDetails>", 0),
  (b!"OffenceDetails", 0),
  (b!"Offender", 0),
  (b!"FullIdentification", 0),
  (b!"Vec<IndividualExposure>", 0),
  (b!"IndividualExposure", 0),
  (b!"Vec<Reporter>", 0),
  (b!"Reporter", 0),
  (b!"Vec<Perbill>", 0),
  (b!"Perbill", 0),
  (b!"DefunctVoter", 0),
  (b!"Delegations", 0),
  (b!"DeliveredMessages", 0),
  (b!"DepositAsset", 0),
  (b!"DepositBalanceOf", 0),
  (b!"DepositReserveAsset", 0),
  (b!"Vec<Order>", 0),
  (b!"Order", 0),
  (b!"ExchangeAsset", 0),
  (b!"InitiateReserveWithdraw", 0),
  (b!"InitiateTeleport", 0),
  (b!"QueryHolding", 0),
  (b!"DestroyWitness", 0),
  (b!"DigestItem", 0),
  (b!"DigestOf", 0),
  (b!"DispatchClass", 0),
  (b!"DispatchError", 0),
  (b!"DispatchErrorModule", 0),
  (b!"TokenError", 0),
  (b!"DispatchFeePayment", 0),
  (b!"DispatchInfo", 0),
  (b!"Pays", 0),
  (b!"DispatchInfo258", 0),
  (b!"DispatchResult", 0),
  (b!"DisputeLocation", 0),
  (b!"DisputeResult", 0),
  (b!"DisputeState", 0),
  (b!"DisputeStatement", 0),
  (b!"ValidDisputeStatementKind", 0),
  (b!"InvalidDisputeStatementKind", 0),
  (b!"DisputeStatementSet", 0) ]

/-- Part 7. -/
def texts7 : List (Str × Nat) := [
  (b!"Vec<(DisputeStatement, ParaValidatorIndex, ValidatorSignature)>", 0),
  (b!"(DisputeStatement, ParaValidatorIndex, ValidatorSignature)", 0),
  (b!"ParaValidatorIndex", 0),
  (b!"DoNotConstruct", 0),
  (b!"DoubleEncodedCall", 0),
  (b!"DoubleVoteReport", 0),
  (b!"(Statement, ValidatorSignature)", 0),
  (b!"Statement", 0),
  (b!"MembershipProof", 0),
  (b!"sessionIndex", 0),
  (b!"Vec<Vec<u8>>", 0),
  (b!"ValidatorCount", 0),
  (b!"SigningContext", 0),
  (b!"DownwardMessage", 0),
  (b!"EgressQueueRoot", 0),
  (b!"ElectionCompute", 0),
  (b!"ElectionPhase", 0),
  (b!"(bool, BlockNumber)", 0),
  (b!"ElectionResult", 0),
  (b!"Vec<(AccountId, Exposure)>", 0),
  (b!"(AccountId, Exposure)", 0),
  (b!"Exposure", 0),
  (b!"Vec<IndividualExposure<AccountId, Balance>>", 0),
  (b!"IndividualExposure<AccountId, Balance>", 0),
  (b!"ElectionScore", 0),
  (b!"ElectionSize", 0),
  (b!"ElectionStatus", 0),
  (b!"EncodedFinalityProofs", 0),
  (b!"EpochAuthorship", 0),
  (b!"Vec<u64>", 0),
  (b!"Equivocation", 0),
  (b!"GrandpaEquivocationValue", 0),
  (b!"(GrandpaPrevote, AuthoritySignature)", 0),
  (b!"GrandpaPrevote", 0),
  (b!"EquivocationProof<Hash, BlockNumber>", 0),
  (b!"SetId", 0),
  (b!"GrandpaEquivocation", 0),
  (b!"EquivocationProof<Header>", 0),
  (b!"EraRewardPoints", 0),
  (b!"RewardPoint", 0),
  (b!"Vec<(AccountId, RewardPoint)>", 0),
  (b!"(AccountId, RewardPoint)", 0),
  (b!"EthAccount", 0),
  (b!"Vec<Bytes>", 0),
  (b!"Vec<EthStorageProof>", 0),
  (b!"EthStorageProof", 0),
  (b!"EthBlock", 3),
  (b!"Vec<EthTransaction>", 0),
  (b!"EthTransaction", 0),
  (b!"EthCallRequest", 0),
  (b!"Option<H160>", 0),
  (b!"Option<U256>", 0),
  (b!"Option<Bytes>", 0),
  (b!"EthFilter", 0),
  (b!"Option<H256>", 0),
  (b!"Option<EthFilterAddress>", 0),
  (b!"EthFilterAddress", 0),
  (b!"Vec<H160>", 0),
  (b!"Option<EthFilterTopic>", 0),
  (b!"EthFilterTopic", 0),
  (b!"EthFilterTopicInner", 0),
  (b!"EthFilterTopicEntry", 0),
  (b!"Vec<EthFilterTopicEntry>", 0),
  (b!"Vec<EthFilterTopicInner>", 0),
  (b!"EthFilterChanges", 0),
  (b!"Vec<EthLog>", 0),
  (b!"EthLog", 0),
  (b!"EthReceipt", 0),
  (b!"H2048", 0),
  (b!"Option<U64>", 0),
  (b!"EthRichBlock", 3),
  (b!"EthRichHeader", 2),
  (b!"EthSubKind", 0),
  (b!"EthSubParams", 0),
  (b!"EthSubResult", 3) ]

/-- Part 8. -/
def texts8 : List (Str × Nat) := [
  (b!"EthSyncStatus", 0),
  (b!"EthSyncInfo", 0),
  (b!"EthTransactionCondition", 0),
  (b!"EthTransactionRequest", 0),
  (b!"EthTransactionStatus", 0),
  (b!"EthWork", 0),
  (b!"EthereumAccountId", 0),
  (b!"EthereumLookupSource", 0),
  (b!"EthereumSignature", 0),
  (b!"EventIndex", 0),
  (b!"ExitError", 0),
  (b!"string", 0),
  (b!"ExitFatal", 0),
  (b!"ExitReason", 0),
  (b!"ExitSucceed", 0),
  (b!"ExitRevert", 0),
  (b!"ExplicitDisputeStatement", 0),
  (b!"ExtendedBalance", 0),
  (b!"ExtrinsicMetadata", 0),
  (b!"ExtrinsicMetadataV14", 0),
  (b!"Vec<SignedExtensionMetadataV14>", 0),
  (b!"SignedExtensionMetadataV14", 0),
  (b!"ExtrinsicMetadataV15", 0),
  (b!"ExtrinsicSignature", 0),
  (b!"ExtrinsicsWeight", 0),
  (b!"FeeDetails", 0),
  (b!"Option<InclusionFee>", 0),
  (b!"InclusionFee", 0),
  (b!"FixedU128", 0),
  (b!"Forcing", 0),
  (b!"FundIndex", 0),
  (b!"FundInfo", 0),
  (b!"Option<MultiSigner>", 0),
  (b!"LastContribution<BlockNumber>", 0),
  (b!"LeasePeriod", 0),
  (b!"TrieIndex", 0),
  (b!"FungibilityV0", 0),
  (b!"FungibilityV2", 0),
  (b!"FungibilityV3", 0),
  (b!"Gas", 0),
  (b!"GeneralKeyV3", 0),
  (b!"GenericMultiAddress", 0),
  (b!"Compact<AccountIndex>", 0),
  (b!"GenericPortableRegistry", 0),
  (b!"PortableType", 0),
  (b!"GiltBid", 0),
  (b!"GlobalValidationData", 0),
  (b!"blockNumber", 0),
  (b!"GlobalValidationSchedule", 0),
  (b!"GrandpaCommit", 0),
  (b!"Vec<GrandpaSignedPrecommit>", 0),
  (b!"GrandpaSignedPrecommit", 0),
  (b!"GrandpaPrecommit", 0),
  (b!"GrandpaEquivocationProof", 0),
  (b!"GrandpaJustification", 0),
  (b!"Vec<Header>", 0),
  (b!"H1024", 0),
  (b!"Heartbeat", 0),
  (b!"OpaqueNetworkState", 0),
  (b!"OpaquePeerId", 0),
  (b!"Vec<OpaqueMultiaddr>", 0),
  (b!"OpaqueMultiaddr", 0),
  (b!"HostConfiguration", 0),
  (b!"Option<u32>", 0),
  (b!"HostFnWeights", 0),
  (b!"HrmpChannel", 0),
  (b!"HrmpChannelId", 0),
  (b!"HrmpOpenChannelRequest", 0),
  (b!"IdentificationTuple", 0),
  (b!"IdentityFields", 0),
  (b!"IdentityInfo", 0),
  (b!"Vec<IdentityInfoAdditional>", 0),
  (b!"IdentityInfoAdditional", 0),
  (b!"Data", 0),
  (b!"InboundDownwardMessage", 0) ]

/-- Part 9. -/
def texts9 : List (Str × Nat) := [
  (b!"InboundHrmpMessage", 0),
  (b!"InboundHrmpMessages", 0),
  (b!"InboundLaneData", 0),
  (b!"Vec<UnrewardedRelayer>", 0),
  (b!"UnrewardedRelayer", 0),
  (b!"RelayerId", 0),
  (b!"InboundRelayer", 0),
  (b!"InboundStatus", 0),
  (b!"IncludedBlocks", 0),
  (b!"Vec<ParaId>", 0),
  (b!"Vec<Hash>", 0),
  (b!"IncomingParachain", 0),
  (b!"IncomingParachainFixed", 0),
  (b!"IncomingParachainDeploy", 0),
  (b!"InitializationData", 0),
  (b!"InstanceDetails", 0),
  (b!"Option<AccountId>", 0),
  (b!"InstanceId", 0),
  (b!"InstanceMetadata", 0),
  (b!"InstantiateRequest", 0),
  (b!"InstructionV2", 3),
  (b!"MultiAssetsV2", 0),
  (b!"MultiAssetV1", 0),
  (b!"ResponseV2", 2),
  (b!"empty", 0),
  (b!"ResponseV2Result", 1),
  (b!"U32", 0),
  (b!"MultiLocationV2", 0),
  (b!"XcmV2", 4),
  (b!"OriginKindV2", 0),
  (b!"InteriorMultiLocation", 0),
  (b!"MultiAssetFilterV2", 0),
  (b!"MultiAssetsV1", 0),
  (b!"WildMultiAssetV1", 0),
  (b!"WildFungibilityV1", 0),
  (b!"compact<u32>", 0),
  (b!"MultiAssetV2", 0),
  (b!"WeightLimitV2", 0),
  (b!"InstructionV3", 3),
  (b!"MultiAssetsV3", 0),
  (b!"MultiAssetV3", 0),
  (b!"XcmAssetIdV3", 0),
  (b!"MultiLocationV3", 0),
  (b!"JunctionsV3", 0),
  (b!"JunctionV3", 0),
  (b!"option<NetworkIdV3>", 0),
  (b!"NetworkIdV3", 0),
  (b!"(JunctionV3, JunctionV3)", 0),
  (b!"(JunctionV3, JunctionV3, JunctionV3)", 0),
  (b!"(JunctionV3, JunctionV3, JunctionV3, JunctionV3)", 0),
  (b!"(JunctionV3, JunctionV3, JunctionV3, JunctionV3, JunctionV3)", 0),
  (b!"(JunctionV3, JunctionV3, JunctionV3, JunctionV3, JunctionV3, JunctionV3)", 0),
  (b!"(JunctionV3, JunctionV3, JunctionV3, JunctionV3, JunctionV3, JunctionV3, JunctionV3)", 0),
  (b!"(JunctionV3, JunctionV3, JunctionV3, JunctionV3, JunctionV3, JunctionV3, JunctionV3, JunctionV3)", 0),
  (b!"QueryResponseV3", 0),
  (b!"compact<u64>", 0),
  (b!"ResponseV3", 0),
  (b!"Option<(U32, XcmTraitsErrorV3)>", 0),
  (b!"(U32, XcmTraitsErrorV3)", 0),
  (b!"XcmTraitsErrorV3", 0),
  (b!"WeightV2", 0),
  (b!"Vec<PalletInfoV3>", 0),
  (b!"PalletInfoV3", 0),
  (b!"MaybeErrorCodeV3", 0),
  (b!"Vec<U8>", 0),
  (b!"Option<MultiLocationV3>", 0),
  (b!"XcmV3", 4),
  (b!"InteriorMultiLocationV3", 0),
  (b!"MultiAssetFilterV3", 0),
  (b!"WildMultiAssetV3", 0),
  (b!"WildFungibilityV3", 0),
  (b!"QueryResponseInfoV3", 0),
  (b!"WeightLimitV3", 0),
  (b!"Option<(U32, XcmTraitsErrorV3)>>", 2),
  (b!"(U32, XcmTraitsErrorV3)>", 1) ]

/-- Part 10. -/
def texts10 : List (Str × Nat) := [
  (b!"InstructionWeights", 0),
  (b!"Judgement", 0),
  (b!"Junction", 0),
  (b!"JunctionV0", 0),
  (b!"JunctionV2", 0),
  (b!"Junctions", 0),
  (b!"JunctionsV2", 0),
  (b!"JustificationNotification", 0),
  (b!"Key", 0),
  (b!"KeyOwnerProof", 0),
  (b!"KeyTypeId", 0),
  (b!"KeyValue", 0),
  (b!"KeyValueOption", 0),
  (b!"StorageKey", 0),
  (b!"Option<StorageData>", 0),
  (b!"StorageData", 0),
  (b!"Keys", 0),
  (b!"Kind", 0),
  (b!"LastContribution", 0),
  (b!"LastRuntimeUpgradeInfo", 0),
  (b!"LeasePeriodOf", 0),
  (b!"Limits", 0),
  (b!"Linkage", 0),
  (b!"LocalValidationData", 0),
  (b!"Log", 0),
  (b!"LookupSource", 0),
  (b!"LotteryConfig", 0),
  (b!"MaybeRandomness", 0),
  (b!"Randomness", 0),
  (b!"MaybeVrf", 0),
  (b!"MessageData", 0),
  (b!"MessageId", 0),
  (b!"MessageIngestionType", 0),
  (b!"Vec<InboundDownwardMessage>", 0),
  (b!"BTreeMap<ParaId, InboundHrmpMessages>", 0),
  (b!" InboundHrmpMessages", 0),
  (b!"MessageKey", 0),
  (b!"MessageQueueChain", 0),
  (b!"MessagesDeliveryProofOf", 0),
  (b!"MessagesProofOf", 0),
  (b!"MessagingStateSnapshot", 0),
  (b!"(u32, u32)", 0),
  (b!"Vec<MessagingStateSnapshotEgressEntry>", 0),
  (b!"MessagingStateSnapshotEgressEntry", 0),
  (b!"MetadataVersion", 0),
  (b!"MmrRootHash", 0),
  (b!"ModuleId", 0),
  (b!"MoreAttestations", 0),
  (b!"MultiAddress", 0),
  (b!"MultiAssetFilter", 0),
  (b!"MultiAssetFilterV1", 0),
  (b!"MultiAssetV0", 0),
  (b!"MultiLocationV0", 0),
  (b!"(JunctionV0, JunctionV0)", 0),
  (b!"(JunctionV0, JunctionV0, JunctionV0)", 0),
  (b!"(JunctionV0, JunctionV0, JunctionV0, JunctionV0)", 0),
  (b!"(JunctionV0, JunctionV0, JunctionV0, JunctionV0, JunctionV0)", 0),
  (b!"(JunctionV0, JunctionV0, JunctionV0, JunctionV0, JunctionV0, JunctionV0)", 0),
  (b!"(JunctionV0, JunctionV0, JunctionV0, JunctionV0, JunctionV0, JunctionV0, JunctionV0)", 0),
  (b!"(JunctionV0, JunctionV0, JunctionV0, JunctionV0, JunctionV0, JunctionV0, JunctionV0, JunctionV0)", 0),
  (b!"MultiAssets", 0),
  (b!"MultiDisputeStatementSet", 0),
  (b!"MultiLocationV1", 0),
  (b!"Multiplier", 0),
  (b!"Multisig", 0),
  (b!"Timepoint", 0),
  (b!"NextConfigDescriptor", 0),
  (b!"NextConfigDescriptorV1", 0),
  (b!"(u64, u64)", 0),
  (b!"Nominations", 0),
  (b!"OffenceDetails<AccountId, IdentificationTuple>", 0),
  (b!"OpaqueTimeSlot", 0),
  (b!"OpenTip", 0),
  (b!"Vec<OpenTipTip>", 0),
  (b!"OpenTipTip", 0) ]

/-- Part 11. -/
def texts11 : List (Str × Nat) := [
  (b!"OpenTip<AccountId, BalanceOf, BlockNumber, Hash>", 0),
  (b!"Option<OpenTipFinder>", 0),
  (b!"OpenTipFinder", 0),
  (b!"OperatingMode", 0),
  (b!"Origin", 0),
  (b!"OriginCaller", 0),
  (b!"SystemOrigin", 0),
  (b!"OriginKind", 0),
  (b!"OriginKindV0", 0),
  (b!"OriginKindV1", 0),
  (b!"OutboundLaneData", 0),
  (b!"OutboundMessageFee", 0),
  (b!"OutboundPayload", 0),
  (b!"OutboundStatus", 0),
  (b!"Outcome", 0),
  (b!"(Weight, XcmErrorV0)", 0),
  (b!"XcmErrorV0", 0),
  (b!"(MultiLocation, Xcm)", 0),
  (b!"Xcm", 0),
  (b!"Vec<XcmOrderV1>", 0),
  (b!"XcmOrderV1", 0),
  (b!"Vec<XcmV1>", 0),
  (b!"XcmV1", 0),
  (b!"ResponseV1", 0),
  (b!"XcmOriginKind", 0),
  (b!"OverweightIndex", 0),
  (b!"PageCounter", 0),
  (b!"PageIndexData", 0),
  (b!"PalletCallMetadataV14", 0),
  (b!"PalletErrorMetadataV14", 0),
  (b!"PalletEventMetadataV14", 0),
  (b!"PalletId", 0),
  (b!"PalletVersion", 0),
  (b!"PalletsOrigin", 0),
  (b!"ParaGenesisArgs", 0),
  (b!"ParaInfo", 0),
  (b!"ParaLifecycle", 0),
  (b!"ParaPastCodeMeta", 0),
  (b!"Vec<ReplacementTimes>", 0),
  (b!"ReplacementTimes", 0),
  (b!"ParaScheduling", 0),
  (b!"ParachainDispatchOrigin", 0),
  (b!"ParachainInherentData", 0),
  (b!"PersistedValidationData", 0),
  (b!"RelayChainBlockNumber", 0),
  (b!"StorageProof", 0),
  (b!"BTreeMap<ParaId, VecInboundHrmpMessage>", 0),
  (b!" VecInboundHrmpMessage", 0),
  (b!"ParachainProposal", 0),
  (b!"ParachainsInherentData", 0),
  (b!"SignedAvailabilityBitfields", 0),
  (b!"SignedAvailabilityBitfield", 0),
  (b!"Vec<BackedCandidate>", 0),
  (b!"Parameter", 0),
  (b!"ParathreadClaimQueue", 0),
  (b!"Vec<QueuedParathread>", 0),
  (b!"QueuedParathread", 0),
  (b!"PendingPause", 0),
  (b!"PendingResume", 0),
  (b!"PerU16", 0),
  (b!"Percent", 0),
  (b!"Period", 0),
  (b!"PermissionVersions", 0),
  (b!"PermissionsV1", 0),
  (b!"PhantomData", 0),
  (b!"Phase", 0),
  (b!"PhragmenScore", 0),
  (b!"Points", 0),
  (b!"PortableRegistry", 0),
  (b!"Precommit", 0),
  (b!"Precommits", 0),
  (b!"BTreeSet<AuthorityId>", 0),
  (b!"PrefabWasmModule", 0),
  (b!"PrefabWasmModuleReserved", 0),
  (b!"PreimageStatus", 0) ]

/-- Part 12. -/
def texts12 : List (Str × Nat) := [
  (b!"PreimageStatusAvailable", 0),
  (b!"Prevotes", 0),
  (b!"PriorLock", 0),
  (b!"Priority", 0),
  (b!"PropIndex", 0),
  (b!"Proposal", 0),
  (b!"ProposalCategory", 0),
  (b!"ProposalContents", 0),
  (b!"ProposalIndex", 0),
  (b!"ProposalStage", 0),
  (b!"ProposalTitle", 0),
  (b!"ProxyAnnouncement", 0),
  (b!"ProxyState", 0),
  (b!"QueryId", 0),
  (b!"QueryStatus", 4),
  (b!"VersionedMultiLocation", 0),
  (b!"Option<(u8, u8)>", 0),
  (b!"(u8, u8)", 0),
  (b!"VersionedResponse", 3),
  (b!"ResponseV0", 0),
  (b!"Vec<MultiAssetV0>", 0),
  (b!"QueueConfigData", 0),
  (b!"RawBabePreDigest", 0),
  (b!"RawBabePreDigestPrimary", 0),
  (b!"RawBabePreDigestSecondary", 0),
  (b!"RawBabePreDigestSecondaryVRF", 0),
  (b!"VrfData", 0),
  (b!"VrfProof", 0),
  (b!"RawBabePreDigestCompat", 0),
  (b!"RawOrigin", 0),
  (b!"RawSolution", 0),
  (b!"ReadProof", 0),
  (b!"ReadySolution", 0),
  (b!"SolutionSupports", 0),
  (b!"(AccountId, SolutionSupport)", 0),
  (b!"SolutionSupport", 0),
  (b!"Vec<(AccountId, ExtendedBalance)>", 0),
  (b!"(AccountId, ExtendedBalance)", 0),
  (b!"RecoveryConfig", 0),
  (b!"RefCount1", 0),
  (b!"ReferendumIndex", 0),
  (b!"ReferendumInfo", 0),
  (b!"VoteThreshold", 0),
  (b!"ReferendumInfo<BlockNumber, Hash, Balance>", 0),
  (b!"ReferendumStatus", 0),
  (b!"Tally", 0),
  (b!"ReferendumInfoFinished", 0),
  (b!"ReferendumInfo<BlockNumber, Hash, BalanceOf>", 0),
  (b!"ReferendumInfo<BlockNumber, Hash>", 0),
  (b!"ReferendumInfo<BlockNumber, Proposal>", 0),
  (b!"RegisteredParachainInfo", 0),
  (b!"RegistrarIndex", 0),
  (b!"RegistrarInfo", 0),
  (b!"Registration", 0),
  (b!"Vec<RegistrationJudgement>", 0),
  (b!"RegistrationJudgement", 0),
  (b!"RelayBlockNumber", 0),
  (b!"RelayHash", 0),
  (b!"RelayTo", 6),
  (b!"VersionedXcm", 5),
  (b!"XcmV0", 0),
  (b!"Vec<XcmOrderV0>", 0),
  (b!"XcmOrderV0", 0),
  (b!"Vec<XcmV0>", 0),
  (b!"RelayedFrom", 6),
  (b!"Releases", 0),
  (b!"ReleasesBalances", 0),
  (b!"Remark", 0),
  (b!"Renouncing", 0),
  (b!"ReportIdOf", 0),
  (b!"ReportedRoundStates", 0),
  (b!"RoundState", 0),
  (b!"Vec<RoundState>", 0),
  (b!"ReserveAssetDeposit", 0),
  (b!"Response", 0) ]

/-- Part 13. -/
def texts13 : List (Str × Nat) := [
  (b!"ResponseV2Error", 0),
  (b!"XcmErrorV2", 0),
  (b!"Retriable", 0),
  (b!"RewardDestination", 0),
  (b!"RoundNumber", 0),
  (b!"RpcMethods", 0),
  (b!"RuntimeDbWeight", 0),
  (b!"RuntimeVersion", 0),
  (b!"Vec<RuntimeVersionApi>", 0),
  (b!"RuntimeVersionApi", 0),
  (b!"Schedule", 0),
  (b!"SchedulePeriod", 0),
  (b!"SchedulePriority", 0),
  (b!"ScheduleTo212", 0),
  (b!"ScheduleTo258", 0),
  (b!"Scheduled", 0),
  (b!"Call", 0),
  (b!"Option<SchedulePeriod>", 0),
  (b!"Scheduling", 0),
  (b!"SeatHolder", 0),
  (b!"SeedOf", 0),
  (b!"ServiceQuality", 0),
  (b!"SessionInfo", 0),
  (b!"Vec<AuthorityDiscoveryId>", 0),
  (b!"Vec<AssignmentId>", 0),
  (b!"Vec<SessionInfoValidatorGroup>", 0),
  (b!"SessionInfoValidatorGroup", 0),
  (b!"SessionKeys1", 0),
  (b!"SessionKeys10", 0),
  (b!"SessionKeys10B", 0),
  (b!"SessionKeys2", 0),
  (b!"SessionKeys3", 0),
  (b!"SessionKeys4", 0),
  (b!"SessionKeys5", 0),
  (b!"SessionKeys6", 0),
  (b!"SessionKeys6B", 0),
  (b!"SessionKeys7", 0),
  (b!"SessionKeys7B", 0),
  (b!"SessionKeys8", 0),
  (b!"SessionKeys8B", 0),
  (b!"SessionKeys9", 0),
  (b!"SessionKeys9B", 0),
  (b!"SessionKeysPolkadot", 0),
  (b!"SignedSubmission", 0),
  (b!"SignedSubmissionOf", 0),
  (b!"SlashingSpans", 0),
  (b!"SpanIndex", 0),
  (b!"Vec<EraIndex>", 0),
  (b!"Slot", 0),
  (b!"SlotRange", 0),
  (b!"SolutionOrSnapshotSize", 0),
  (b!"SpanRecord", 0),
  (b!"SpecVersion", 0),
  (b!"StakingLedger<AccountId, BalanceOf>", 0),
  (b!"Vec<UnlockChunk<Balance>>", 0),
  (b!"UnlockChunk<Balance>", 0),
  (b!"Compact<EraIndex>", 0),
  (b!"Option<EraIndex>", 0),
  (b!"StatementKind", 0),
  (b!"Status", 0),
  (b!"StorageChangeSet", 0),
  (b!"Vec<KeyValueOption>", 0),
  (b!"StorageFunctionType", 0),
  (b!"StorageFunctionTypeV14", 0),
  (b!"StorageHasher", 0),
  (b!"StorageModify", 0),
  (b!"StoredPendingChange", 0),
  (b!"StoredState", 0),
  (b!"StrikeCount", 0),
  (b!"SubmissionIndicesOf", 0),
  (b!" u32", 0),
  (b!"SyncState", 0),
  (b!"SystemInherentData", 0),
  (b!"TaskAddress", 0),
  (b!"TeleportAsset", 0) ]

/-- Part 14. -/
def texts14 : List (Str × Nat) := [
  (b!"TraceBlockResponse", 6),
  (b!"TraceError", 0),
  (b!"Transact", 0),
  (b!"TransactionPriority", 0),
  (b!"TransactionSignature", 0),
  (b!"TransientValidationData", 0),
  (b!"TreasuryProposal", 0),
  (b!"UnappliedSlash", 0),
  (b!"Vec<UnappliedSlashOther>", 0),
  (b!"UnappliedSlashOther", 0),
  (b!"UnappliedSlash<AccountId, BalanceOf>", 0),
  (b!"UnlockChunk", 0),
  (b!"UnrewardedRelayersState", 0),
  (b!"UpgradeRestriction", 0),
  (b!"ValidationCodeHash", 0),
  (b!"ValidationData", 0),
  (b!"ValidationDataType", 0),
  (b!"ValidationFunctionParams", 0),
  (b!"Option<RelayChainBlockNumber>", 0),
  (b!"ValidatorIdOf", 0),
  (b!"ValidatorPrefs", 0),
  (b!"Compact<Perbill>", 0),
  (b!"ValidatorPrefsWithBlocked", 0),
  (b!"ValidatorPrefsWithCommission", 0),
  (b!"VecInboundHrmpMessage", 0),
  (b!"VersionMigrationStage", 0),
  (b!"VersionedMultiAsset", 0),
  (b!"VersionedMultiAssets", 0),
  (b!"VestingInfo", 0),
  (b!"VoteStage", 0),
  (b!"Voter", 0),
  (b!"Votes", 0),
  (b!"Voting", 0),
  (b!"VotingDirect", 0),
  (b!"Vec<VotingDirectVote>", 0),
  (b!"VotingDirectVote", 0),
  (b!"VotingDelegating", 0),
  (b!"VouchingStatus", 0),
  (b!"VrfOutput", 0),
  (b!"WeightMultiplier", 0),
  (b!"WildFungibilityV0", 0),
  (b!"WildFungibilityV2", 0),
  (b!"WildMultiAsset", 0),
  (b!"WildMultiAssetV2", 0),
  (b!"WinnersData", 0),
  (b!"WinnersDataTuple", 0),
  (b!"WinningData", 0),
  (b!"WinningDataEntry", 0),
  (b!"(AccountId, ParaId, BalanceOf)", 0),
  (b!"WithdrawAsset", 0),
  (b!"XcmError", 0),
  (b!"(MultiLocationV1, XcmV1)", 0),
  (b!"XcmErrorV1", 0),
  (b!"XcmOrder", 0),
  (b!"XcmOrderV2", 0),
  (b!"XcmOrigin", 0),
  (b!"XcmResult", 0),
  (b!"()", 0),
  (b!"XcmVersion", 0),
  (b!"XcmpMessageFormat", 0),
  (b!"ethereum::Block", 3),
  (b!"ethereum::Header", 2),
  (b!"ethereum::Receipt", 0),
  (b!"gas", 0),
  (b!"schedule::Period<BlockNumber>", 0),
  (b!"schedule::Priority", 0),
  (b!"schnorrkel::Randomness", 0),
  (b!"schnorrkel::RawVRFOutput", 0),
  (b!"slashing::SlashingSpans", 0),
  (b!"slashing::SpanIndex", 0),
  (b!"slashing::SpanRecord<BalanceOf>", 0),
  (b!"super::initializationdata<bridgedheader<t, i>>", 0),
  (b!"weights::ExtrinsicsWeight", 0),
  (b!"xcm::VersionedXcm", 5) ]

/-- All of them. -/
def texts : List (Str × Nat) := texts0 ++ texts1 ++ texts2 ++ texts3 ++ texts4 ++ texts5 ++ texts6 ++ texts7 ++ texts8 ++ texts9 ++ texts10 ++ texts11 ++ texts12 ++ texts13 ++ texts14

/-- Positions of the keys of `texts`, a subtree. -/
def textIndex0 : KeyTree :=
  .node (.node (.node (.node (.node (.node (.node .leaf 0x12829 1107 .leaf) 0x15538 164 .leaf) 0x17538 89 (.node .leaf 0x1426964 198 .leaf)) 0x1476173 639 (.node (.node .leaf 0x1483634 230 .leaf) 0x14b6579 758 (.node .leaf 0x14c6f67 774 .leaf))) 0x1526177 437 (.node (.node (.node (.node .leaf 0x1553332 701 .leaf) 0x1553634 130 .leaf) 0x158636d 843 (.node .leaf 0x1676173 1113 .leaf)) 0x1753136 91 (.node (.node .leaf 0x1753332 27 .leaf) 0x1753634 93 (.node .leaf 0x120753332 1045 .leaf)))) 0x143616c6c 991 (.node (.node (.node (.node (.node .leaf 0x144617461 673 .leaf) 0x148313630 224 .leaf) 0x148323536 141 (.node .leaf 0x148617368 18 .leaf)) 0x14b657973 766 (.node (.node .leaf 0x14b696e64 767 .leaf) 0x14e554c4c 97 (.node .leaf 0x14e756c6c 40 .leaf))) 0x150617973 515 (.node (.node (.node (.node .leaf 0x15365616c 150 .leaf) 0x1536c6f74 1023 .leaf) 0x154657874 210 (.node .leaf 0x155323536 222 .leaf)) 0x1566f7465 58 (.node (.node .leaf 0x1626f6f6c 78 .leaf) 0x175313238 37 (.node .leaf 0x1265b75385d 0 .leaf))))) 0x14170694964 76 (.node (.node (.node (.node (.node (.node .leaf 0x14279746573 28 .leaf) 0x14831303234 656 .leaf) 0x14832303438 593 (.node .leaf 0x1496e646578 49 .leaf)) 0x14f72646572 501 (.node (.node .leaf 0x14f776e6572 102 .leaf) 0x15068617365 890 (.node .leaf 0x15365744964 560 .leaf))) 0x15375624964 202 (.node (.node (.node (.node .leaf 0x154616c6c79 945 .leaf) 0x1566f746572 1080 .leaf) 0x1566f746573 1081 (.node .leaf 0x158636d5630 960 .leaf)) 0x158636d5631 847 (.node (.node .leaf 0x158636d5632 703 .leaf) 0x158636d5633 741 (.node .leaf 0x1656d707479 699 .leaf)))) 0x1426964646572 200 (.node (.node (.node (.node (.node .leaf 0x1426974566563 110 .leaf) 0x1426f64794964 179 .leaf) 0x1426f756e7479 251 (.node .leaf 0x1446967657374 143 .leaf)) 0x14574684c6f67 591 (.node (.node .leaf 0x1486561646572 140 .leaf) 0x14c616e654964 263 (.node .leaf 0x14c696d697473 771 .leaf))) 0x14f726967696e 829 (.node (.node (.node .leaf 0x1506172614964 17 .leaf) 0x1506572553136 884 (.node .leaf 0x1506572696f64 886 .leaf)) 0x1506f696e7473 892 (.node (.node .leaf 0x152656d61726b 967 .leaf) 0x15365616c5630 147 (.node .leaf 0x1536565644f66 995 .leaf)))))

/-- Positions of the keys of `texts`, a subtree. -/
def textIndex1 : KeyTree :=
  .node (.node (.node (.node (.node (.node (.node .leaf 0x1536954797065 452 .leaf) 0x1537461747573 1034 .leaf) 0x1537472696e67 472 (.node .leaf 0x1547269654964 70 .leaf)) 0x1566f74696e67 1082 (.node (.node .leaf 0x1576569676874 247 .leaf) 0x1737472696e67 611 (.node .leaf 0x141737365744964 87 .leaf))) 0x142616c616e6365 4 (.node (.node (.node (.node .leaf 0x142656566794964 192 .leaf) 0x14269644b696e64 199 .leaf) 0x1426c6f636b5630 227 (.node .leaf 0x1426c6f636b5631 234 .leaf)) 0x1426c6f636b5632 242 (.node (.node .leaf 0x1436861696e4964 288 .leaf) 0x1436c6173734964 291 (.node .leaf 0x1457468576f726b 605 .leaf)))) 0x1466f7263696e67 629 (.node (.node (.node (.node (.node .leaf 0x147696c74426964 645 .leaf) 0x14c696e6b616765 772 .leaf) 0x14f70656e546970 822 (.node .leaf 0x14f7574636f6d65 839 .leaf)) 0x150657262696c6c 493 (.node (.node .leaf 0x150657263656e74 885 .leaf) 0x15065726d696c6c 55 (.node .leaf 0x151756572794964 913 .leaf))) 0x1526561736f6e73 166 (.node (.node (.node .leaf 0x152656c6179546f 958 .leaf) 0x153694669656c64 461 (.node .leaf 0x15665633c55383e 739 .leaf)) 0x15665633c75383e 35 (.node (.node .leaf 0x156726644617461 926 .leaf) 0x15b75383b20345d 41 (.node .leaf 0x15b75383b20385d 42 .leaf))))) 0x12875382c20753829 917 (.node (.node (.node (.node (.node (.node .leaf 0x142616c616e636573 170 .leaf) 0x142656566794b6579 193 .leaf) 0x1426f647950617274 180 (.node .leaf 0x14279466f726b5633 272 .leaf)) 0x143616c6c48617368 273 (.node (.node .leaf 0x1436f646548617368 71 .leaf) 0x14469676573744f66 508 (.node .leaf 0x1457261496e646578 61 .leaf))) 0x1457468426c6f636b 571 (.node (.node (.node (.node .leaf 0x1457468426c6f6f6d 229 .leaf) 0x14578706f73757265 546 .leaf) 0x146756e64496e666f 631 (.node .leaf 0x14865616444617461 19 .leaf)) 0x14865784279746573 151 (.node (.node .leaf 0x14a756e6374696f6e 752 .leaf) 0x14b657956616c7565 761 (.node .leaf 0x14d61796265567266 779 .leaf)))) 0x14d6f64756c654964 796 (.node (.node (.node (.node (.node .leaf 0x14d6f6d656e744f66 62 .leaf) 0x14d756c7469736967 814 .leaf) 0x14f6666656e646572 486 (.node .leaf 0x150616c6c65744964 856 .leaf)) 0x150617261496e666f 860 (.node (.node .leaf 0x1507265766f746573 901 .leaf) 0x15072696f72697479 903 (.node .leaf 0x150726f706f73616c 905 .leaf))) 0x1526566436f756e74 50 (.node (.node (.node .leaf 0x152656c6561736573 965 .leaf) 0x15265706f72746572 491 (.node .leaf 0x1526573706f6e7365 974 .leaf)) 0x15363686564756c65 985 (.node (.node .leaf 0x15472616e73616374 1052 .leaf) 0x15665633c7536343e 554 (.node .leaf 0x156726650726f6f66 927 .leaf)))))

/-- Positions of the keys of `texts`, a subtree. -/
def textIndex2 : KeyTree :=
  .node (.node (.node (.node (.node (.node (.node .leaf 0x158636d4572726f72 1100 .leaf) 0x158636d4f72646572 1103 .leaf) 0x15b75383b2031365d 43 (.node .leaf 0x15b75383b2032305d 178 .leaf)) 0x15b75383b2033325d 44 (.node (.node .leaf 0x15b75383b2033335d 279 .leaf) 0x1287536342c75363429 137 (.node .leaf 0x14163636f756e744964 3 .leaf))) 0x1417070726f76616c73 77 (.node (.node (.node (.node .leaf 0x141757468496e646578 112 .leaf) 0x142616c616e63654f66 6 .leaf) 0x1426c6f636b48617368 123 (.node .leaf 0x1426f783c43616c6c3e 260 .leaf)) 0x143616c6c496e646578 275 (.node (.node .leaf 0x1436f6e73656e737573 149 .leaf) 0x1436f7265496e646578 286 (.node .leaf 0x144656c61794b696e64 125 .leaf)))) 0x145746846696c746572 578 (.node (.node (.node (.node (.node .leaf 0x1457468486561646572 228 .leaf) 0x1457869744572726f72 610 .leaf) 0x145786974466174616c 612 (.node .leaf 0x1466978656455313238 628 .leaf)) 0x146756e64496e646578 630 (.node (.node .leaf 0x1486561727462656174 657 .leaf) 0x14a756467656d656e74 751 (.node .leaf 0x14a756e6374696f6e73 755 .leaf))) 0x14b6579547970654964 760 (.node (.node (.node (.node .leaf 0x14d6573736167654964 781 .leaf) 0x14e6574776f726b4964 177 .leaf) 0x14e6577426964646572 201 (.node .leaf 0x1506172616d65746572 878 .leaf)) 0x1507265636f6d6d6974 894 (.node (.node .leaf 0x15072696f724c6f636b 902 .leaf) 0x150726f70496e646578 904 (.node .leaf 0x150726f787954797065 12 .leaf))))) 0x15261774f726967696e 929 (.node (.node (.node (.node (.node (.node .leaf 0x15265616450726f6f66 931 .leaf) 0x1526566436f756e7431 939 .leaf) 0x152656c617948617368 957 (.node .leaf 0x152656c617965724964 680 .leaf)) 0x1526574726961626c65 977 (.node (.node .leaf 0x15363686564756c6564 990 .leaf) 0x1536954797065446566 458 (.node .leaf 0x1536956617269616e74 464 .leaf))) 0x15369676e6174757265 148 (.node (.node (.node (.node .leaf 0x1536c6f7452616e6765 1024 .leaf) 0x15370616e496e646578 1021 .leaf) 0x153746174656d656e74 532 (.node .leaf 0x153796e635374617465 1046 .leaf)) 0x154696d65706f696e74 815 (.node (.node .leaf 0x154726965496e646578 635 .leaf) 0x15665633c483136303e 582 (.node .leaf 0x15665633c483235363e 219 .leaf)))) 0x15665633c486173683e 685 (.node (.node (.node (.node (.node .leaf 0x15665633c546578743e 449 .leaf) 0x1566f74655374616765 1079 .leaf) 0x15672664f7574707574 1088 (.node .leaf 0x158636d4f726967696e 1105 .leaf)) 0x158636d526573756c74 1106 (.node (.node .leaf 0x1287533322c2075333229 791 .leaf) 0x1287536342c2075363429 818 (.node .leaf 0x141637469766547696c74 63 .leaf))) 0x142616265576569676874 156 (.node (.node (.node .leaf 0x1426c6f636b5472616365 209 .leaf) 0x143616c6c486173684f66 274 (.node .leaf 0x143616c6c4f726967696e 276 .leaf)) 0x1436f6c6c61746f724964 20 (.node (.node .leaf 0x1436f6e66696744617461 430 .leaf) 0x1436f6e76696374696f6e 475 (.node .leaf 0x14469676573744974656d 507 .leaf)))))

/-- Positions of the keys of `texts`, a subtree. -/
def textIndex3 : KeyTree :=
  .node (.node (.node (.node (.node (.node (.node .leaf 0x145746841646472657373 241 .leaf) 0x145746852656365697074 592 .leaf) 0x14574685375624b696e64 597 (.node .leaf 0x14576656e74496e646578 609 .leaf)) 0x145786974526561736f6e 613 (.node (.node .leaf 0x145786974526576657274 615 .leaf) 0x146656544657461696c73 625 (.node .leaf 0x147726f7570496e646578 287 .leaf))) 0x1496e7374616e63654964 692 (.node (.node (.node (.node .leaf 0x14a756e6374696f6e5630 753 .leaf) 0x14a756e6374696f6e5631 176 .leaf) 0x14a756e6374696f6e5632 754 (.node .leaf 0x14a756e6374696f6e5633 719 .leaf)) 0x14d6573736167654b6579 786 (.node (.node .leaf 0x14d756c74694173736574 172 .leaf) 0x14d756c7469706c696572 813 (.node .leaf 0x14f70656e546970546970 824 .leaf)))) 0x14f726967696e4b696e64 832 (.node (.node (.node (.node (.node .leaf 0x150726552756e74696d65 152 .leaf) 0x1507265636f6d6d697473 895 .leaf) 0x150726f78795374617465 912 (.node .leaf 0x152616e646f6d6e657373 778 .leaf)) 0x152656e6f756e63696e67 968 (.node (.node .leaf 0x15265706f727449644f66 969 .leaf) 0x1526573706f6e73655630 919 (.node .leaf 0x1526573706f6e73655631 848 .leaf))) 0x1526573706f6e73655632 698 (.node (.node (.node .leaf 0x1526573706f6e73655633 731 .leaf) 0x1526f756e645374617465 971 (.node .leaf 0x15270634d6574686f6473 980 .leaf)) 0x15363686564756c696e67 993 (.node (.node .leaf 0x153656174486f6c646572 994 .leaf) 0x1536c6f744e756d626572 139 (.node .leaf 0x15370616e5265636f7264 1026 .leaf))))) 0x153746f726167654b6579 763 (.node (.node (.node (.node (.node (.node .leaf 0x1546f6b656e4572726f72 512 .leaf) 0x154726163654572726f72 1051 .leaf) 0x15665633c42797465733e 568 (.node .leaf 0x15665633c4f726465723e 500 .leaf)) 0x15665633c58636d56303e 963 (.node (.node .leaf 0x15665633c58636d56313e 846 .leaf) 0x158636d41737365744964 173 (.node .leaf 0x158636d4572726f725630 841 .leaf))) 0x158636d4572726f725631 1102 (.node (.node (.node (.node .leaf 0x158636d4572726f725632 976 .leaf) 0x158636d4f726465725630 962 .leaf) 0x158636d4f726465725631 845 (.node .leaf 0x158636d4f726465725632 1104 .leaf)) 0x158636d56657273696f6e 1108 (.node (.node .leaf 0x14163636f756e7444617461 45 .leaf) 0x14163636f756e7449643332 46 (.node .leaf 0x14163636f756e74496e666f 48 .leaf)))) 0x14163636f756e74566f7465 56 (.node (.node (.node (.node (.node .leaf 0x1416374697665496e646578 66 .leaf) 0x1417574686f726974794964 114 .leaf) 0x142616c616e63654c6f636b 161 (.node .leaf 0x1426c6f636b4c656e677468 205 .leaf)) 0x1426c6f636b4e756d626572 13 (.node (.node .leaf 0x1426f756e7479496e646578 256 .leaf) 0x144656c65676174696f6e73 495 (.node .leaf 0x145746853796e63496e666f 601 .leaf))) 0x14578697453756363656564 614 (.node (.node (.node .leaf 0x148726d704368616e6e656c 665 .leaf) 0x1496d706f72746564417578 481 (.node .leaf 0x14a756e6374696f6e735631 175 .leaf)) 0x14a756e6374696f6e735632 756 (.node (.node .leaf 0x14a756e6374696f6e735633 718 .leaf) 0x14c65617365506572696f64 634 (.node .leaf 0x14d656d626572436f756e74 295 .leaf)))))

/-- Positions of the keys of `texts`, a subtree. -/
def textIndex4 : KeyTree :=
  .node (.node (.node (.node (.node (.node (.node .leaf 0x14d6d72526f6f7448617368 795 .leaf) 0x14d756c7469417373657473 810 .leaf) 0x14d756c74695369676e6572 278 (.node .leaf 0x14e6574776f726b49645633 721 .leaf)) 0x14e6f6d696e6174696f6e73 819 (.node (.node .leaf 0x14f7074696f6e3c5536343e 594 .leaf) 0x14f7074696f6e3c7533323e 663 (.node .leaf 0x14f7074696f6e3c7536343e 213 .leaf))) 0x150616765436f756e746572 851 (.node (.node (.node (.node .leaf 0x15065727175696e74696c6c 64 .leaf) 0x15068616e746f6d44617461 889 .leaf) 0x15175657279537461747573 914 (.node .leaf 0x1526177536f6c7574696f6e 930 .leaf)) 0x152656c6179656446726f6d 964 (.node (.node .leaf 0x1526577617264506f696e74 564 .leaf) 0x1526f756e644e756d626572 979 (.node .leaf 0x153657373696f6e496e666f 997 .leaf)))) 0x15370656356657273696f6e 1027 (.node (.node (.node (.node (.node .leaf 0x153746f7261676544617461 765 .leaf) 0x153746f7265645374617465 1042 .leaf) 0x1537472696b65436f756e74 1043 (.node .leaf 0x15461736b41646472657373 1048 .leaf)) 0x1556e6c6f636b4368756e6b 1061 (.node (.node .leaf 0x156616c696461746f724964 270 .leaf) 0x15665633c4574684c6f673e 590 (.node .leaf 0x15665633c4865616465723e 655 .leaf))) 0x15665633c5061726149643e 684 (.node (.node (.node (.node .leaf 0x15665633c5369547970653e 451 .leaf) 0x156657374696e67496e666f 1078 .leaf) 0x157696e6e65727344617461 1094 (.node .leaf 0x157696e6e696e6744617461 1096 .leaf)) 0x1626c6f636b4e756d626572 647 (.node (.node .leaf 0x14163636f756e74496e646578 47 .leaf) 0x1416c6c6f776564536c6f7473 73 (.node .leaf 0x1416e6e6f756e63656d656e74 74 .leaf))))) 0x1416e795369676e6174757265 75 (.node (.node (.node (.node (.node (.node .leaf 0x1417373657442616c616e6365 84 .leaf) 0x1417373657444657461696c73 86 .leaf) 0x141737365744f7074696f6e73 99 (.node .leaf 0x141737369676e6d656e744964 103 .leaf)) 0x141756374696f6e496e646578 111 (.node (.node .leaf 0x1417574686f72697479536574 119 .leaf) 0x142656566795061796c6f6164 190 (.node .leaf 0x14269644b696e64566f756368 8 .leaf))) 0x1426c6f636b57656967687473 246 (.node (.node (.node (.node .leaf 0x1426f756e7479537461747573 252 .leaf) 0x1436c61737344657461696c73 289 .leaf) 0x1436f6d706163743c7531363e 90 (.node .leaf 0x1436f6d706163743c7533323e 1 .leaf)) 0x1436f6d706163743c7536343e 92 (.node (.node .leaf 0x1436f6d7061637453636f7265 402 .leaf) 0x1436f6e7472616374496e666f 439 (.node .leaf 0x1436f72654f63637570696564 477 .leaf)))) 0x143726561746564426c6f636b 480 (.node (.node (.node (.node (.node .leaf 0x1446566756e6374566f746572 494 .leaf) 0x14465706f7369744173736574 497 .leaf) 0x14469737061746368496e666f 514 (.node .leaf 0x1446973707574655374617465 520 .leaf)) 0x1456c656374696f6e53697a65 550 (.node (.node .leaf 0x145717569766f636174696f6e 555 .leaf) 0x145746852696368426c6f636b 595 (.node .leaf 0x1457468537562506172616d73 598 .leaf))) 0x1457468537562526573756c74 599 (.node (.node (.node .leaf 0x147656e6572616c4b65795633 640 .leaf) 0x14964656e74697479496e666f 670 (.node .leaf 0x1496e636c7573696f6e466565 627 .leaf)) 0x14c6f6f6b7570536f75726365 775 (.node (.node .leaf 0x14d6573736167654e6f6e6365 264 .leaf) 0x14d756c746941646472657373 798 (.node .leaf 0x14d756c746941737365745630 801 .leaf)))))

/-- Positions of the keys of `texts`, a subtree. -/
def textIndex5 : KeyTree :=
  .node (.node (.node (.node (.node (.node (.node .leaf 0x14d756c746941737365745632 711 .leaf) 0x14d756c746941737365745633 715 .leaf) 0x14f7061717565506565724964 659 (.node .leaf 0x14f7074696f6e3c483136303e 575 .leaf)) 0x14f7074696f6e3c483235363e 579 (.node (.node .leaf 0x14f7074696f6e3c486173683e 33 .leaf) 0x14f7074696f6e3c546578743e 450 (.node .leaf 0x14f7074696f6e3c553235363e 576 .leaf))) 0x14f726967696e43616c6c6572 830 (.node (.node (.node (.node .leaf 0x14f726967696e4b696e645630 833 .leaf) 0x14f726967696e4b696e645631 834 .leaf) 0x14f726967696e4b696e645632 704 (.node .leaf 0x150616c6c6574496e666f5633 737 .leaf)) 0x150656e64696e675061757365 882 (.node (.node .leaf 0x1506f727461626c6554797065 644 .leaf) 0x15175657279486f6c64696e67 505 (.node .leaf 0x1526567697374726174696f6e 953 .leaf)))) 0x153657373696f6e496e646578 271 (.node (.node (.node (.node (.node .leaf 0x153657373696f6e4b65797331 1002 .leaf) 0x153657373696f6e4b65797332 1005 .leaf) 0x153657373696f6e4b65797333 1006 (.node .leaf 0x153657373696f6e4b65797334 1007 .leaf)) 0x153657373696f6e4b65797335 1008 (.node (.node .leaf 0x153657373696f6e4b65797336 1009 .leaf) 0x153657373696f6e4b65797337 1011 (.node .leaf 0x153657373696f6e4b65797338 1013 .leaf))) 0x153657373696f6e4b65797339 1015 (.node (.node (.node .leaf 0x153746f7261676550726f6f66 870 .leaf) 0x153797374656d4f726967696e 831 (.node .leaf 0x15665633c50657262696c6c3e 492 .leaf)) 0x15665633c53694669656c643e 460 (.node (.node .leaf 0x15665633c5665633c75383e3e 535 .leaf) 0x156657273696f6e656458636d 959 (.node .leaf 0x1566f74696e67446972656374 1083 .leaf))))) 0x158636d417373657449645633 716 (.node (.node (.node (.node (.node (.node .leaf 0x1636f6d706163743c7533323e 710 .leaf) 0x1636f6d706163743c7536343e 730 .leaf) 0x1636f6d7061637473636f7265 304 (.node .leaf 0x173657373696f6e496e646578 534 .leaf)) 0x14163636f756e74537461747573 53 (.node (.node .leaf 0x1416374697665457261496e666f 60 .leaf) 0x14173736574417070726f76616c 80 (.node .leaf 0x14173736574496e7374616e6365 39 .leaf))) 0x141737365744d65746164617461 98 (.node (.node (.node (.node .leaf 0x1417574686f726974794c697374 116 .leaf) 0x142616c616e6365537461747573 168 .leaf) 0x142616c616e636555706c6f6164 169 (.node .leaf 0x1426c6f636b4e756d6265724f66 208 .leaf)) 0x1426f783c50726f706f73616c3e 261 (.node (.node .leaf 0x142726964676564486561646572 267 .leaf) 0x143616e64696461746548617368 284 (.node .leaf 0x1436c6173734d65746164617461 292 .leaf)))) 0x1436f6d706163743c753132383e 36 (.node (.node (.node (.node (.node .leaf 0x144656c61794b696e6442657374 126 .leaf) 0x14469737061746368436c617373 509 .leaf) 0x144697370617463684572726f72 510 (.node .leaf 0x144697370757465526573756c74 519 .leaf)) 0x1456c656374696f6e5068617365 541 (.node (.node .leaf 0x1456c656374696f6e53636f7265 549 .leaf) 0x14574684163636573734c697374 239 (.node .leaf 0x145746852696368486561646572 596 .leaf))) 0x145746853796e63537461747573 600 (.node (.node (.node .leaf 0x145786368616e67654173736574 502 .leaf) 0x146756e676962696c6974795630 636 (.node .leaf 0x146756e676962696c6974795631 188 .leaf)) 0x146756e676962696c6974795632 637 (.node (.node .leaf 0x146756e676962696c6974795633 638 .leaf) 0x14772616e647061436f6d6d6974 649 (.node .leaf 0x1486f7374466e57656967687473 664 .leaf)))))

/-- Positions of the keys of `texts`, a subtree. -/
def textIndex6 : KeyTree :=
  .node (.node (.node (.node (.node (.node (.node .leaf 0x1496e626f756e64537461747573 682 .leaf) 0x1496e737472756374696f6e5632 695 .leaf) 0x1496e737472756374696f6e5633 713 (.node .leaf 0x14b65794f776e657250726f6f66 759 .leaf)) 0x14c65617365506572696f644f66 770 (.node (.node .leaf 0x14c6f7474657279436f6e666967 776 .leaf) 0x14d756c74694173736574735631 707 (.node .leaf 0x14d756c74694173736574735632 696 .leaf))) 0x14d756c74694173736574735633 714 (.node (.node (.node (.node .leaf 0x14d756c74694c6f636174696f6e 174 .leaf) 0x14e657874417574686f72697479 117 .leaf) 0x14f70656e54697046696e646572 827 (.node .leaf 0x14f7065726174696e674d6f6465 828 .leaf)) 0x14f7074696f6e3c42797465733e 577 (.node (.node .leaf 0x150616765496e64657844617461 852 .leaf) 0x150616c6c657456657273696f6e 857 (.node .leaf 0x150616c6c6574734f726967696e 858 .leaf)))) 0x1506172614c6966656379636c65 861 (.node (.node (.node (.node (.node .leaf 0x150656e64696e674368616e6765 124 .leaf) 0x150656e64696e67526573756d65 883 .leaf) 0x15065726d697373696f6e735631 888 (.node .leaf 0x150687261676d656e53636f7265 891 .leaf)) 0x150726f706f73616c496e646578 908 (.node (.node .leaf 0x150726f706f73616c5374616765 909 .leaf) 0x150726f706f73616c5469746c65 910 (.node .leaf 0x15265616479536f6c7574696f6e 932 .leaf))) 0x1526567697374726172496e666f 952 (.node (.node (.node .leaf 0x15363686564756c65546f323132 988 .leaf) 0x15363686564756c65546f323538 989 (.node .leaf 0x153657373696f6e4b6579733130 1003 .leaf)) 0x153657373696f6e4b6579733642 1010 (.node (.node .leaf 0x153657373696f6e4b6579733742 1012 .leaf) 0x153657373696f6e4b6579733842 1014 (.node .leaf 0x153657373696f6e4b6579733942 1016 .leaf))))) 0x1536c617368696e675370616e73 1020 (.node (.node (.node (.node (.node (.node .leaf 0x153746174656d656e744b696e64 1033 .leaf) 0x153746f72616765486173686572 1039 .leaf) 0x153746f726167654d6f64696679 1040 (.node .leaf 0x154417373657442616c616e6365 81 .leaf)) 0x154656c65706f72744173736574 1049 (.node (.node .leaf 0x15472616e73616374696f6e5630 232 .leaf) 0x15472616e73616374696f6e5631 236 (.node .leaf 0x15472616e73616374696f6e5632 244 .leaf))) 0x15570776172644d657373616765 24 (.node (.node (.node (.node .leaf 0x156616c696461746f7249644f66 1069 .leaf) 0x15665633c457261496e6465783e 1022 .leaf) 0x15665633c5265706f727465723e 490 (.node .leaf 0x1566f74655468726573686f6c64 942 .leaf)) 0x15765696768744c696d69745632 712 (.node (.node .leaf 0x15765696768744c696d69745633 747 .leaf) 0x157697468647261774173736574 1099 (.node .leaf 0x158636d4f726967696e4b696e64 849 .leaf)))) 0x14163746976655265636f76657279 67 (.node (.node (.node (.node (.node .leaf 0x141737369676e6d656e744b696e64 104 .leaf) 0x1417574686f72697479496e646578 115 .leaf) 0x1426c6f636b4e756d626572466f72 207 (.node .leaf 0x1426c6f636b54726163655370616e 212 .leaf)) 0x1436f6e73756d6564576569676874 432 (.node (.node .leaf 0x1436f726541737369676e6d656e74 476 .leaf) 0x14465706f73697442616c616e6365 290 (.node .leaf 0x144657374726f795769746e657373 506 .leaf))) 0x14469737061746368526573756c74 517 (.node (.node (.node .leaf 0x1446f4e6f74436f6e737472756374 528 .leaf) 0x145636473615369676e6174757265 283 (.node .leaf 0x1456c656374696f6e526573756c74 543 .leaf)) 0x1456c656374696f6e537461747573 551 (.node (.node .leaf 0x145746843616c6c52657175657374 574 .leaf) 0x145746846696c746572546f706963 584 (.node .leaf 0x14574685472616e73616374696f6e 573 .leaf)))))

/-- Positions of the keys of `texts`, a subtree. -/
def textIndex7 : KeyTree :=
  .node (.node (.node (.node (.node (.node (.node .leaf 0x14964656e746974794669656c6473 669 .leaf) 0x1496e626f756e6452656c61796572 681 .leaf) 0x1496e636c75646564426c6f636b73 683 (.node .leaf 0x14b657956616c75654f7074696f6e 762 .leaf)) 0x14c6f636b4964656e746966696572 162 (.node (.node .leaf 0x14d756c74695369676e6174757265 280 .leaf) 0x14e6f6d696e61746f72496e646578 299 (.node .leaf 0x14f6666656e636544657461696c73 485 .leaf))) 0x14f706171756554696d65536c6f74 821 (.node (.node (.node (.node .leaf 0x14f7074696f6e3c5765696768743e 250 .leaf) 0x14f7574626f756e64537461747573 838 .leaf) 0x1506172615363686564756c696e67 865 (.node .leaf 0x1507265696d616765537461747573 899 .leaf)) 0x15265636f76657279436f6e666967 938 (.node (.node .leaf 0x15265666572656e64756d496e666f 941 .leaf) 0x1526567697374726172496e646578 951 (.node .leaf 0x152656c6179436861696e48617368 160 .leaf)))) 0x152656e7450726f6a656374696f6e 445 (.node (.node (.node (.node (.node .leaf 0x152756e74696d6556657273696f6e 982 .leaf) 0x15363686564756c65506572696f64 986 .leaf) 0x1536572766963655175616c697479 996 (.node .leaf 0x153657373696f6e4b657973313042 1004 .leaf)) 0x153694c6f6f6b7570547970654964 457 (.node (.node .leaf 0x15369547970654465664172726179 466 .leaf) 0x153695479706544656652616e6765 471 (.node .leaf 0x15369547970654465665475706c65 467 .leaf))) 0x15369676e696e67436f6e74657874 537 (.node (.node (.node .leaf 0x1556e6170706c696564536c617368 1057 .leaf) 0x156616c69646174696f6e436f6465 30 (.node .leaf 0x156616c69646174696f6e44617461 1065 .leaf)) 0x156616c696461746f72436f756e74 536 (.node (.node .leaf 0x156616c696461746f72496e646578 300 .leaf) 0x156616c696461746f725072656673 1070 (.node .leaf 0x156616c696461746f725365744964 191 .leaf))))) 0x15665633c4163636f756e7449643e 68 (.node (.node (.node (.node (.node (.node .leaf 0x15665633c4574684865616465723e 233 .leaf) 0x15665633c536956617269616e743e 463 .leaf) 0x1566f756368696e67537461747573 1087 (.node .leaf 0x1576569676874506572436c617373 249 .leaf)) 0x157696c644d756c74694173736574 1092 (.node (.node .leaf 0x14163636f756e7456616c6964697479 54 .leaf) 0x141726974686d657469634572726f72 79 (.node .leaf 0x14173736574496e7374616e63655630 88 .leaf))) 0x14173736574496e7374616e63655631 94 (.node (.node (.node (.node .leaf 0x14173736574496e7374616e63655632 95 .leaf) 0x14173736574496e7374616e63655633 96 .leaf) 0x1417574686f72697479576569676874 118 (.node .leaf 0x142616265426c6f636b576569676874 135 .leaf)) 0x14261636b656443616e646964617465 157 (.node (.node .leaf 0x14265656679436f6d6d69746d656e74 189 .leaf) 0x1426c6f636b54726163654576656e74 215 (.node .leaf 0x14272696467654d6573736167654964 262 .leaf)))) 0x1436f6e747261637450726f6a656374 446 (.node (.node (.node (.node (.node .leaf 0x14469737061746368496e666f323538 516 .leaf) 0x1446973707574654c6f636174696f6e 518 .leaf) 0x1446f776e776172644d657373616765 538 (.node .leaf 0x14567726573735175657565526f6f74 539 .leaf)) 0x1456c656374696f6e436f6d70757465 540 (.node (.node .leaf 0x145706f6368417574686f7273686970 553 .leaf) 0x1457261526577617264506f696e7473 563 (.node .leaf 0x145746853746f7261676550726f6f66 570 .leaf))) 0x14578656352657475726e56616c7565 443 (.node (.node (.node .leaf 0x1457874656e64656442616c616e6365 617 .leaf) 0x1496e626f756e644c616e6544617461 677 (.node .leaf 0x1496e7374616e636544657461696c73 690 .leaf)) 0x14d6179626552616e646f6d6e657373 777 (.node (.node .leaf 0x14d656d6265727368697050726f6f66 533 .leaf) 0x14d6573736167657350726f6f664f66 789 (.node .leaf 0x14d6574616461746156657273696f6e 794 .leaf)))))

/-- Positions of the keys of `texts`, a subtree. -/
def textIndex8 : KeyTree :=
  .node (.node (.node (.node (.node (.node (.node .leaf 0x14d756c74694c6f636174696f6e5631 812 .leaf) 0x14d756c74694c6f636174696f6e5632 702 .leaf) 0x14d756c74694c6f636174696f6e5633 717 (.node .leaf 0x14f70617175654d756c746961646472 661 .leaf)) 0x14f7574626f756e645061796c6f6164 837 (.node (.node .leaf 0x14f766572776569676874496e646578 850 .leaf) 0x15061726147656e6573697341726773 859 (.node .leaf 0x150617261746872656164436c61696d 479 .leaf))) 0x150617261746872656164456e747279 478 (.node (.node (.node (.node .leaf 0x150726f7879446566696e6974696f6e 11 .leaf) 0x15175657279526573706f6e73655633 729 .leaf) 0x15175657565436f6e66696744617461 921 (.node .leaf 0x15265666572656e64756d496e646578 940 .leaf)) 0x1526573706f6e736556324572726f72 975 (.node (.node .leaf 0x152756e74696d654462576569676874 981 .leaf) 0x1536954797065506172616d65746572 455 (.node .leaf 0x1536f6c7574696f6e537570706f7274 935 .leaf)))) 0x15665633c4d756c746941737365743e 171 (.node (.node (.node (.node (.node .leaf 0x15665633c4f70656e5469705469703e 823 .leaf) 0x15665633c526f756e6453746174653e 972 .leaf) 0x15665633c58636d4f7264657256303e 961 (.node .leaf 0x15665633c58636d4f7264657256313e 844 .leaf)) 0x15769746864726177526561736f6e73 163 (.node (.node .leaf 0x1657468657265756d3a3a426c6f636b 1110 .leaf) 0x1416273747261637446756e6769626c65 34 (.node .leaf 0x14163636f756e74566f746553706c6974 59 .leaf))) 0x141637469766547696c7473546f74616c 65 (.node (.node (.node (.node .leaf 0x14173736574417070726f76616c4b6579 83 .leaf) 0x142726964676564426c6f636b48617368 265 .leaf) 0x143616e64696461746552656365697074 204 (.node .leaf 0x1436f6c6c6563746976654f726967696e 293 .leaf)) 0x1436f6d706163743c42616c616e63653e 100 (.node (.node .leaf 0x1436f6d706163743c50657262696c6c3e 1071 .leaf) 0x1436f6e637265746546756e6769626c65 428 (.node .leaf 0x14465706f73697442616c616e63654f66 498 .leaf))))) 0x14469676573744974656d3c486173683e 145 (.node (.node (.node (.node (.node (.node .leaf 0x14469737075746553746174656d656e74 521 .leaf) 0x1446f75626c65566f74655265706f7274 530 .leaf) 0x1456432353531395369676e6174757265 281 (.node .leaf 0x145746846696c74657241646472657373 581 .leaf)) 0x145746846696c7465724368616e676573 589 (.node (.node .leaf 0x145787472696e73696373576569676874 624 .leaf) 0x14772616e647061507265636f6d6d6974 652 (.node .leaf 0x1496e69746961746554656c65706f7274 504 .leaf))) 0x1496e7374616e63654d65746164617461 693 (.node (.node (.node (.node .leaf 0x14c617374436f6e747269627574696f6e 768 .leaf) 0x14d617962654572726f72436f64655633 738 .leaf) 0x14d6f72654174746573746174696f6e73 797 (.node .leaf 0x14d756c7469417373657446696c746572 799 .leaf)) 0x14f6666636861696e4163637572616379 305 (.node (.node .leaf 0x14f7074696f6e3c2875382c207538293e 916 .leaf) 0x14f7074696f6e3c457261496e6465783e 1032 (.node .leaf 0x14f7574626f756e644c616e6544617461 835 .leaf)))) 0x15061726150617374436f64654d657461 862 (.node (.node (.node (.node (.node .leaf 0x15065724469737061746368436c617373 248 .leaf) 0x15065726d697373696f6e4c6174657374 101 .leaf) 0x1506f727461626c655265676973747279 893 (.node .leaf 0x15072656661625761736d4d6f64756c65 897 .leaf)) 0x150726f706f73616c43617465676f7279 906 (.node (.node .leaf 0x150726f706f73616c436f6e74656e7473 907 .leaf) 0x151756575656450617261746872656164 881 (.node .leaf 0x152617742616265507265446967657374 922 .leaf))) 0x15265666572656e64756d537461747573 944 (.node (.node (.node .leaf 0x152656c6179426c6f636b4e756d626572 956 .leaf) 0x152656c656173657342616c616e636573 966 (.node .leaf 0x15265706c6163656d656e7454696d6573 864 .leaf)) 0x1526573706f6e73655632526573756c74 700 (.node (.node .leaf 0x15363686564756c655072696f72697479 987 .leaf) 0x1536954797065446566436f6d70616374 469 (.node .leaf 0x153695479706544656656617269616e74 462 .leaf)))))

/-- Positions of the keys of `texts`, a subtree. -/
def textIndex9 : KeyTree :=
  .node (.node (.node (.node (.node (.node (.node .leaf 0x1536f6c7574696f6e537570706f727473 933 .leaf) 0x1537232353531395369676e6174757265 282 .leaf) 0x153746f726167654368616e6765536574 1035 (.node .leaf 0x1547265617375727950726f706f73616c 1056 .leaf)) 0x15665633c417574686f7269747949643e 146 (.node (.node .leaf 0x15665633c56616c696461746f7249643e 269 .leaf) 0x1566f74696e6744656c65676174696e67 1086 (.node .leaf 0x1566f74696e67446972656374566f7465 1085 .leaf))) 0x15765696768744d756c7469706c696572 1089 (.node (.node (.node (.node .leaf 0x157696c644d756c746941737365745631 708 .leaf) 0x157696c644d756c746941737365745632 1093 .leaf) 0x157696c644d756c746941737365745633 744 (.node .leaf 0x157696e6e657273446174615475706c65 1095 .leaf)) 0x157696e6e696e6744617461456e747279 1097 (.node (.node .leaf 0x158636d5472616974734572726f725633 734 .leaf) 0x1657468657265756d3a3a486561646572 1111 (.node .leaf 0x128436f6c6c61746f7249642c2075333229 105 .leaf)))) 0x1416c697665436f6e7472616374496e666f 69 (.node (.node (.node (.node (.node .leaf 0x1417474657374656443616e646964617465 106 .leaf) 0x1426c6f636b4174746573746174696f6e73 203 .leaf) 0x1426c6f636b5472616e73616374696f6e73 218 (.node .leaf 0x14368616e676573547269655369676e616c 153 .leaf)) 0x1436f6c6c61746f725369676e6174757265 21 (.node (.node .leaf 0x1436f6d706163743c457261496e6465783e 1031 .leaf) 0x1436f6e73656e737573456e67696e654964 431 (.node .leaf 0x144656665727265644f6666656e63654f66 483 .leaf))) 0x144656c6976657265644d65737361676573 496 (.node (.node (.node .leaf 0x1446f75626c65456e636f64656443616c6c 529 .leaf) 0x14574684163636573734c6973744974656d 240 (.node .leaf 0x1457468657265756d4163636f756e744964 606 .leaf)) 0x1457468657265756d5369676e6174757265 608 (.node (.node .leaf 0x145787472696e7369634d65746164617461 618 .leaf) 0x1486f7374436f6e66696775726174696f6e 662 (.node .leaf 0x1496e636f6d696e6750617261636861696e 686 .leaf))))) 0x14c65676163795472616e73616374696f6e 237 (.node (.node (.node (.node (.node (.node .leaf 0x14d6573736167655175657565436861696e 787 .leaf) 0x14f7074696f6e3c4163636f756e7449643e 691 .leaf) 0x14f7074696f6e3c5369676e61747572653e 197 (.node .leaf 0x150617261636861696e50726f706f73616c 873 .leaf)) 0x150726f7879416e6e6f756e63656d656e74 911 (.node (.node .leaf 0x152657761726444657374696e6174696f6e 978 .leaf) 0x152756e74696d6556657273696f6e417069 984 (.node .leaf 0x153695479706544656653657175656e6365 465 .leaf))) 0x1556e726577617264656452656c61796572 679 (.node (.node (.node (.node .leaf 0x15665633c41737369676e6d656e7449643e 999 .leaf) 0x15665633c436f6d7061637453636f72653e 401 .leaf) 0x15665633c4d756c7469417373657456303e 920 (.node .leaf 0x15665633c50616c6c6574496e666f56333e 736 .leaf)) 0x156657273696f6e6564526573706f6e7365 918 (.node (.node .leaf 0x157696c6446756e676962696c6974795630 1090 .leaf) 0x157696c6446756e676962696c6974795631 709 (.node .leaf 0x157696c6446756e676962696c6974795632 1091 .leaf)))) 0x157696c6446756e676962696c6974795633 745 (.node (.node (.node (.node (.node .leaf 0x158636d704d657373616765466f726d6174 1109 .leaf) 0x15b436f6d7061637453636f72653b20315d 303 .leaf) 0x15b436f6d7061637453636f72653b20325d 308 (.node .leaf 0x15b436f6d7061637453636f72653b20335d 311 .leaf)) 0x15b436f6d7061637453636f72653b20345d 314 (.node (.node .leaf 0x15b436f6d7061637453636f72653b20355d 317 .leaf) 0x15b436f6d7061637453636f72653b20365d 320 (.node .leaf 0x15b436f6d7061637453636f72653b20375d 323 .leaf))) 0x15b436f6d7061637453636f72653b20385d 326 (.node (.node (.node .leaf 0x15b436f6d7061637453636f72653b20395d 329 .leaf) 0x1657468657265756d3a3a52656365697074 1112 (.node .leaf 0x178636d3a3a56657273696f6e656458636d 1123 .leaf)) 0x1417574686f726974795365744368616e6765 129 (.node (.node .leaf 0x1417574686f726974795369676e6174757265 131 .leaf) 0x1426f756e7479537461747573416374697665 254 (.node .leaf 0x142726964676564426c6f636b4e756d626572 266 .leaf)))))

/-- Positions of the keys of `texts`, a subtree. -/
def textIndex10 : KeyTree :=
  .node (.node (.node (.node (.node (.node (.node .leaf 0x1436f6e747261637445786563526573756c74 434 .leaf) 0x1436f6e747261637453746f726167654b6579 474 .leaf) 0x144697370617463684665655061796d656e74 513 (.node .leaf 0x1454950313535395472616e73616374696f6e 245 .leaf)) 0x1454950323933305472616e73616374696f6e 238 (.node (.node .leaf 0x145787472696e7369635369676e6174757265 623 .leaf) 0x146756c6c4964656e74696669636174696f6e 487 (.node .leaf 0x1496e626f756e6448726d704d657373616765 675 .leaf))) 0x1496e646976696475616c4578706f73757265 489 (.node (.node (.node (.node .leaf 0x1496e697469616c697a6174696f6e44617461 689 .leaf) 0x1496e7374616e746961746552657175657374 694 .leaf) 0x1496e737472756374696f6e57656967687473 750 (.node .leaf 0x14d756c7469417373657446696c7465725631 800 .leaf)) 0x14d756c7469417373657446696c7465725632 706 (.node (.node .leaf 0x14d756c7469417373657446696c7465725633 743 .leaf) 0x14f70617175654e6574776f726b5374617465 658 (.node .leaf 0x14f7574626f756e644d657373616765466565 836 .leaf)))) 0x15061726156616c696461746f72496e646578 527 (.node (.node (.node (.node (.node .leaf 0x15065726d697373696f6e56657273696f6e73 887 .leaf) 0x1536954797065446566436f6d706f73697465 459 .leaf) 0x15369547970654465665072696d6974697665 468 (.node .leaf 0x15369676e65645375626d697373696f6e4f66 1019 .leaf)) 0x153797374656d496e686572656e7444617461 1047 (.node (.node .leaf 0x15472616365426c6f636b526573706f6e7365 1050 .leaf) 0x1557067726164655265737472696374696f6e 1063 (.node .leaf 0x156616c69646174696f6e436f646548617368 1064 .leaf))) 0x156616c69646174696f6e4461746154797065 1066 (.node (.node (.node .leaf 0x156616c696461746f725369676e6174757265 109 .leaf) 0x15665633c50656e64696e674368616e67653e 127 (.node .leaf 0x15665633c5472616e73616374696f6e56303e 231 .leaf)) 0x15665633c5472616e73616374696f6e56313e 235 (.node (.node .leaf 0x15665633c5472616e73616374696f6e56323e 243 .leaf) 0x15665633c5570776172644d6573736167653e 23 (.node .leaf 0x15b436f6d7061637453636f72653b2031305d 332 .leaf))))) 0x15b436f6d7061637453636f72653b2031315d 335 (.node (.node (.node (.node (.node (.node .leaf 0x15b436f6d7061637453636f72653b2031325d 338 .leaf) 0x15b436f6d7061637453636f72653b2031335d 341 .leaf) 0x15b436f6d7061637453636f72653b2031345d 344 (.node .leaf 0x15b436f6d7061637453636f72653b2031355d 347 .leaf)) 0x17363686564756c653a3a5072696f72697479 1115 (.node (.node .leaf 0x128626f6f6c2c20426c6f636b4e756d62657229 542 .leaf) 0x13c5420617320436f6e6669673e3a3a43616c6c 15 (.node .leaf 0x1416272696467656448726d704368616e6e656c 32 .leaf))) 0x141627374726163744e6f6e46756e6769626c65 38 (.node (.node (.node (.node .leaf 0x14163636f756e74566f74655374616e64617264 57 .leaf) 0x1417373657444657374726f795769746e657373 85 .leaf) 0x1417574686f726974795365744368616e676573 128 (.node .leaf 0x142616265417574686f72697479576569676874 134 .leaf)) 0x1426c6f636b54726163654576656e7444617461 216 (.node (.node .leaf 0x143616e64696461746544657363726970746f72 159 .leaf) 0x1436f6d7061637453636f7265436f6d70616374 355 (.node .leaf 0x1436f6e63726574654e6f6e46756e6769626c65 429 .leaf)))) 0x1436f6e747261637443616c6c52657175657374 433 (.node (.node (.node (.node (.node .leaf 0x14465706f736974526573657276654173736574 499 .leaf) 0x144697370617463684572726f724d6f64756c65 511 .leaf) 0x14469737075746553746174656d656e74536574 524 (.node .leaf 0x145746846696c746572546f706963456e747279 586 .leaf)) 0x145746846696c746572546f706963496e6e6572 585 (.node (.node .leaf 0x147656e657269634d756c746941646472657373 641 .leaf) 0x14772616e64706145717569766f636174696f6e 561 (.node .leaf 0x1486173684d61703c546578742c20546578743e 217 .leaf))) 0x14964656e74696669636174696f6e5475706c65 668 (.node (.node (.node .leaf 0x1496e626f756e6448726d704d65737361676573 676 .leaf) 0x14c6f63616c56616c69646174696f6e44617461 773 (.node .leaf 0x14f7074696f6e3c426c6f636b4e756d6265723e 72 .leaf)) 0x14f7074696f6e3c4d756c74695369676e65723e 632 (.node (.node .leaf 0x14f7074696f6e3c53746f72616765446174613e 764 .leaf) 0x14f7574626f756e6448726d704d657373616765 26 (.node .leaf 0x15065724469737061746368436c617373553332 206 .leaf)))))

/-- Positions of the keys of `texts`, a subtree. -/
def textIndex11 : KeyTree :=
  .node (.node (.node (.node (.node (.node (.node .leaf 0x15265706f72746564526f756e64537461746573 970 .leaf) 0x15265736572766541737365744465706f736974 973 .leaf) 0x153657373696f6e4b657973506f6c6b61646f74 1017 (.node .leaf 0x153746f7261676546756e6374696f6e54797065 1037 .leaf)) 0x153746f72656450656e64696e674368616e6765 1041 (.node (.node .leaf 0x15375626d697373696f6e496e64696365734f66 1044 .leaf) 0x15472616e73616374696f6e5072696f72697479 1053 (.node .leaf 0x1556e6170706c696564536c6173684f74686572 1059 .leaf))) 0x156616c69646974794174746573746174696f6e 108 (.node (.node (.node (.node .leaf 0x15665633c426c6f636b54726163655370616e3e 211 .leaf) 0x15665633c4574685472616e73616374696f6e3e 572 .leaf) 0x15665633c4b657956616c75654f7074696f6e3e 1036 (.node .leaf 0x15665633c4f6666656e636544657461696c733e 484 .leaf)) 0x156657273696f6e65644d756c74694173736574 1076 (.node (.node .leaf 0x1636f6d7061637473636f7265636f6d70616374 360 .leaf) 0x16f7074696f6e3c4e6574776f726b496456333e 720 (.node .leaf 0x1736c617368696e673a3a5370616e496e646578 1119 .leaf)))) 0x120496e626f756e6448726d704d65737361676573 785 (.node (.node (.node (.node (.node .leaf 0x1284163636f756e7449642c2042616c616e636529 2 .leaf) 0x1284d756c74694c6f636174696f6e2c2058636d29 842 .leaf) 0x1285765696768742c2058636d4572726f72563029 840 (.node .leaf 0x1417574686f72697479446973636f766572794964 113 .leaf)) 0x1417661696c6162696c6974794269746669656c64 132 (.node (.node .leaf 0x142616c616e63654c6f636b3c42616c616e63653e 167 .leaf) 0x143616e646964617465436f6d6d69746d656e7473 22 (.node .leaf 0x1436f6d706163743c426c6f636b4e756d6265723e 142 .leaf))) 0x1436f6e7472616374436f6e747261637453706563 473 (.node (.node (.node .leaf 0x14574685472616e73616374696f6e416374696f6e 223 .leaf) 0x14574685472616e73616374696f6e537461747573 604 (.node .leaf 0x1457468657265756d4c6f6f6b7570536f75726365 607 .leaf)) 0x145787472696e7369634d65746164617461563134 619 (.node (.node .leaf 0x145787472696e7369634d65746164617461563135 622 .leaf) 0x1476c6f62616c56616c69646174696f6e44617461 646 (.node .leaf 0x14772616e6470614a757374696669636174696f6e 654 .leaf))))) 0x14d657373616765496e67657374696f6e54797065 782 (.node (.node (.node (.node (.node (.node .leaf 0x14e657874436f6e66696744657363726970746f72 816 .leaf) 0x14f7074696f6e3c496e636c7573696f6e4665653e 626 .leaf) 0x150617261746872656164436c61696d5175657565 879 (.node .leaf 0x153695479706544656642697453657175656e6365 470 .leaf)) 0x15441737365744465706f73697442616c616e6365 82 (.node (.node .leaf 0x15472616e73616374696f6e5369676e6174757265 1054 .leaf) 0x1556e6c6f636b4368756e6b3c42616c616e63653e 1030 (.node .leaf 0x15665633c4261636b656443616e6469646174653e 877 .leaf))) 0x15665633c426c6f636b54726163654576656e743e 214 (.node (.node (.node (.node .leaf 0x15665633c45746853746f7261676550726f6f663e 569 .leaf) 0x15665633c4f70617175654d756c7469616464723e 660 .leaf) 0x15665633c50726f7879446566696e6974696f6e3e 10 (.node .leaf 0x15665633c536954797065506172616d657465723e 454 .leaf)) 0x156657273696f6e65644d756c7469417373657473 1077 (.node (.node .leaf 0x1284163636f756e7449642c204578706f7375726529 545 .leaf) 0x142547265655365743c417574686f7269747949643e 896 (.node .leaf 0x14261626545717569766f636174696f6e50726f6f66 138 .leaf)))) 0x142656566794e657874417574686f72697479536574 194 (.node (.node (.node (.node (.node .leaf 0x142656566795369676e6564436f6d6d69746d656e74 195 .leaf) 0x1427566666572656453657373696f6e4368616e6765 268 .leaf) 0x1436f6d706163743c4163636f756e74496e6465783e 642 (.node .leaf 0x1436f6e747261637450726f6a656374536f75726365 447 .leaf)) 0x1437573746f6d56616c75654d657461646174613135 482 (.node (.node .leaf 0x1456e636f64656446696e616c69747950726f6f6673 552 .leaf) 0x14574685472616e73616374696f6e52657175657374 603 (.node .leaf 0x1466f726b5472656550656e64696e674368616e6765 120 .leaf))) 0x1496e746572696f724d756c74694c6f636174696f6e 705 (.node (.node (.node .leaf 0x14e6f6d696e61746f72496e646578436f6d70616374 351 .leaf) 0x14f7074696f6e3c4f70656e54697046696e6465723e 826 (.node .leaf 0x150616c6c657443616c6c4d65746164617461563134 853 .leaf)) 0x150617261636861696e496e686572656e7444617461 867 (.node (.node .leaf 0x1526567697374726174696f6e4a756467656d656e74 955 .leaf) 0x152656c6179436861696e426c6f636b4e756d626572 869 (.node .leaf 0x1546f6d6273746f6e65436f6e7472616374496e666f 440 .leaf)))))

/-- Positions of the keys of `texts`, a subtree. -/
def textIndex12 : KeyTree :=
  .node (.node (.node (.node (.node (.node (.node .leaf 0x156616c696461746f72496e646578436f6d70616374 352 .leaf) 0x15665633c4469676573744974656d3c486173683e3e 144 .leaf) 0x15665633c517565756564506172617468726561643e 880 (.node .leaf 0x15665633c5265706c6163656d656e7454696d65733e 863 .leaf)) 0x15665633c566f74696e67446972656374566f74653e 1084 (.node (.node .leaf 0x1566563496e626f756e6448726d704d657373616765 1074 .leaf) 0x156657273696f6e4d6967726174696f6e5374616765 1075 (.node .leaf 0x1657468657265756d3a3a5472616e73616374696f6e 221 .leaf))) 0x120566563496e626f756e6448726d704d657373616765 872 (.node (.node (.node (.node .leaf 0x14261626545706f6368436f6e66696775726174696f6e 136 .leaf) 0x1436f6d7061637441737369676e6d656e7473566f7465 400 .leaf) 0x14772616e6470615369676e6564507265636f6d6d6974 651 (.node .leaf 0x148726d704f70656e4368616e6e656c52657175657374 667 .leaf)) 0x14964656e74697479496e666f4164646974696f6e616c 672 (.node (.node .leaf 0x1496e626f756e64446f776e776172644d657373616765 674 .leaf) 0x1496e636f6d696e6750617261636861696e4669786564 687 (.node .leaf 0x1496e7374616e746961746552657475726e56616c7565 442 .leaf)))) 0x14c61737452756e74696d6555706772616465496e666f 769 (.node (.node (.node (.node (.node .leaf 0x14d6573736167696e675374617465536e617073686f74 790 .leaf) 0x14e657874436f6e66696744657363726970746f725631 817 .leaf) 0x14f7074696f6e3c45746846696c746572546f7069633e 583 (.node .leaf 0x14f7074696f6e3c52656e7450726f6a656374696f6e3e 444 .leaf)) 0x14f7074696f6e3c5363686564756c65506572696f643e 992 (.node (.node .leaf 0x14f7074696f6e3c53694c6f6f6b75705479706549643e 456 .leaf) 0x14f7074696f6e3c56616c69646174696f6e436f64653e 29 (.node .leaf 0x150616c6c65744572726f724d65746164617461563134 854 .leaf))) 0x150616c6c65744576656e744d65746164617461563134 855 (.node (.node (.node (.node .leaf 0x150617261636861696e73496e686572656e7444617461 874 .leaf) 0x152617742616265507265446967657374436f6d706174 928 .leaf) 0x15265666572656e64756d496e666f46696e6973686564 946 (.node .leaf 0x1536f6c7574696f6e4f72536e617073686f7453697a65 1025 .leaf)) 0x153746f7261676546756e6374696f6e54797065563134 1038 (.node (.node .leaf 0x15665633c4f7074696f6e3c5369676e61747572653e3e 196 .leaf) 0x15665633c52756e74696d6556657273696f6e4170693e 983 (.node .leaf 0x15665633c556e726577617264656452656c617965723e 678 .leaf))))) 0x156657273696f6e65644d756c74694c6f636174696f6e 915 (.node (.node (.node (.node (.node (.node .leaf 0x17363686e6f72726b656c3a3a52616e646f6d6e657373 1116 .leaf) 0x1285533322c2058636d5472616974734572726f72563329 733 .leaf) 0x1436f6e747261637445786563526573756c74546f323535 438 (.node .leaf 0x1436f6e747261637450726f6a656374436f6e7472616374 448 .leaf)) 0x14574685472616e73616374696f6e436f6e646974696f6e 602 (.node (.node .leaf 0x14574685472616e73616374696f6e5369676e6174757265 225 .leaf) 0x147656e65726963506f727461626c655265676973747279 643 (.node .leaf 0x1496e636f6d696e6750617261636861696e4465706c6f79 688 .leaf))) 0x1496e697469617465526573657276655769746864726177 503 (.node (.node (.node (.node .leaf 0x1496e746572696f724d756c74694c6f636174696f6e5633 742 .leaf) 0x14d6573736167657344656c697665727950726f6f664f66 788 .leaf) 0x14f6666636861696e4163637572616379436f6d70616374 356 (.node .leaf 0x14f7074696f6e3c4d756c74694c6f636174696f6e56333e 740 .leaf)) 0x150617261636861696e44697370617463684f726967696e 866 (.node (.node .leaf 0x150657273697374656456616c69646174696f6e44617461 868 .leaf) 0x1507265696d616765537461747573417661696c61626c65 900 (.node .leaf 0x1526177426162655072654469676573745072696d617279 923 .leaf)))) 0x15265676973746572656450617261636861696e496e666f 950 (.node (.node (.node (.node (.node .leaf 0x15472616e7369656e7456616c69646174696f6e44617461 1055 .leaf) 0x1556e726577617264656452656c61796572735374617465 1062 .leaf) 0x15665633c496e646976696475616c4578706f737572653e 488 (.node .leaf 0x1736c617368696e673a3a536c617368696e675370616e73 1118 .leaf)) 0x1284163636f756e7449642c20526577617264506f696e7429 566 (.node (.node .leaf 0x1284a756e6374696f6e56302c204a756e6374696f6e563029 803 .leaf) 0x1284a756e6374696f6e56312c204a756e6374696f6e563129 181 (.node .leaf 0x1284a756e6374696f6e56332c204a756e6374696f6e563329 722 .leaf))) 0x1284d756c74694c6f636174696f6e56312c2058636d563129 1101 (.node (.node (.node .leaf 0x1285533322c2058636d5472616974734572726f725633293e 749 .leaf) 0x1416272696467656443616e64696461746552656365697074 16 (.node .leaf 0x14163636f756e74496e666f5769746850726f766964657273 51 .leaf)) 0x1426f783c3c5420617320436f6e6669673e3a3a43616c6c3e 258 (.node (.node .leaf 0x14368616e67657354726965436f6e66696775726174696f6e 155 .leaf) 0x1436f6d7061637441737369676e6d656e74734c6174657374 348 (.node .leaf 0x1436f6d7061637441737369676e6d656e7473576974683234 403 .leaf)))))

/-- Positions of the keys of `texts`, a subtree. -/
def textIndex13 : KeyTree :=
  .node (.node (.node (.node (.node (.node (.node .leaf 0x1476c6f62616c56616c69646174696f6e5363686564756c65 648 .leaf) 0x14772616e64706145717569766f636174696f6e50726f6f66 653 .leaf) 0x14772616e64706145717569766f636174696f6e56616c7565 556 (.node .leaf 0x14d756c74694469737075746553746174656d656e74536574 811 .leaf)) 0x14f7074696f6e3c45746846696c746572416464726573733e 580 (.node (.node .leaf 0x15072656661625761736d4d6f64756c655265736572766564 898 .leaf) 0x156616c69646174696f6e46756e6374696f6e506172616d73 1067 (.node .leaf 0x15665633c45746846696c746572546f706963456e7472793e 587 .leaf))) 0x15665633c45746846696c746572546f706963496e6e65723e 588 (.node (.node (.node (.node .leaf 0x15665633c4f7574626f756e6448726d704d6573736167653e 25 .leaf) 0x15665633c556e6170706c696564536c6173684f746865723e 1058 .leaf) 0x15665633c56616c69646974794174746573746174696f6e3e 107 (.node .leaf 0x15b436f6d7061637453636f7265436f6d706163743b20325d 359 .leaf)) 0x15b436f6d7061637453636f7265436f6d706163743b20335d 363 (.node (.node .leaf 0x15b436f6d7061637453636f7265436f6d706163743b20345d 366 .leaf) 0x15b436f6d7061637453636f7265436f6d706163743b20355d 369 (.node .leaf 0x15b436f6d7061637453636f7265436f6d706163743b20365d 372 .leaf)))) 0x15b436f6d7061637453636f7265436f6d706163743b20375d 375 (.node (.node (.node (.node (.node .leaf 0x15b436f6d7061637453636f7265436f6d706163743b20385d 378 .leaf) 0x15b436f6d7061637453636f7265436f6d706163743b20395d 381 .leaf) 0x17363686e6f72726b656c3a3a5261775652464f7574707574 1117 (.node .leaf 0x14162726964676564486f7374436f6e66696775726174696f6e 31 .leaf)) 0x1426f756e747953746174757350656e64696e675061796f7574 255 (.node (.node .leaf 0x1436f6d6d697474656443616e64696461746552656365697074 158 .leaf) 0x1436f6e747261637445786563526573756c7453756363657373 435 (.node .leaf 0x1436f6e7472616374496e7374616e7469617465526573756c74 441 .leaf))) 0x145717569766f636174696f6e50726f6f663c4865616465723e 562 (.node (.node (.node .leaf 0x1466f726b5472656550656e64696e674368616e67654e6f6465 122 .leaf) 0x14a757374696669636174696f6e4e6f74696669636174696f6e 757 (.node .leaf 0x1526177426162655072654469676573745365636f6e64617279 924 .leaf)) 0x153657373696f6e496e666f56616c696461746f7247726f7570 1001 (.node (.node .leaf 0x156616c69644469737075746553746174656d656e744b696e64 522 .leaf) 0x156616c696461746f72507265667357697468426c6f636b6564 1072 (.node .leaf 0x15665633c417574686f72697479446973636f7665727949643e 998 .leaf))))) 0x15665633c556e6c6f636b4368756e6b3c42616c616e63653e3e 1029 (.node (.node (.node (.node (.node (.node .leaf 0x15b436f6d7061637453636f7265436f6d706163743b2031305d 384 .leaf) 0x15b436f6d7061637453636f7265436f6d706163743b2031315d 387 .leaf) 0x15b436f6d7061637453636f7265436f6d706163743b2031325d 390 (.node .leaf 0x15b436f6d7061637453636f7265436f6d706163743b2031335d 393 .leaf)) 0x15b436f6d7061637453636f7265436f6d706163743b2031345d 396 (.node (.node .leaf 0x15b436f6d7061637453636f7265436f6d706163743b2031355d 399 .leaf) 0x15b436f6d7061637453636f7265436f6d706163743b2031365d 406 (.node .leaf 0x15b436f6d7061637453636f7265436f6d706163743b2031375d 409 .leaf))) 0x15b436f6d7061637453636f7265436f6d706163743b2031385d 412 (.node (.node (.node (.node .leaf 0x15b436f6d7061637453636f7265436f6d706163743b2031395d 415 .leaf) 0x15b436f6d7061637453636f7265436f6d706163743b2032305d 418 .leaf) 0x15b436f6d7061637453636f7265436f6d706163743b2032315d 421 (.node .leaf 0x15b436f6d7061637453636f7265436f6d706163743b2032325d 424 .leaf)) 0x15b436f6d7061637453636f7265436f6d706163743b2032335d 427 (.node (.node .leaf 0x1776569676874733a3a45787472696e73696373576569676874 1122 .leaf) 0x1284d656d626572436f756e742c204d656d626572436f756e7429 294 (.node .leaf 0x1417661696c6162696c6974794269746669656c645265636f7264 133 .leaf)))) 0x15369676e6564417661696c6162696c6974794269746669656c64 876 (.node (.node (.node (.node (.node .leaf 0x15369676e6564457874656e73696f6e4d65746164617461563134 621 .leaf) 0x15665633c284163636f756e7449642c204578706f73757265293e 544 .leaf) 0x15665633c526567697374726174696f6e4a756467656d656e743e 954 (.node .leaf 0x15665633c657468657265756d3a3a5472616e73616374696f6e3e 220 .leaf)) 0x1426f756e747953746174757343757261746f7250726f706f736564 253 (.node (.node .leaf 0x1496e76616c69644469737075746553746174656d656e744b696e64 523 .leaf) 0x15369676e6564417661696c6162696c6974794269746669656c6473 875 (.node .leaf 0x15665633c4772616e6470615369676e6564507265636f6d6d69743e 650 .leaf))) 0x15665633c4964656e74697479496e666f4164646974696f6e616c3e 671 (.node (.node (.node .leaf 0x15665633c496e626f756e64446f776e776172644d6573736167653e 783 .leaf) 0x1284163636f756e7449642c20457874656e64656442616c616e636529 937 (.node .leaf 0x1284163636f756e7449642c20536f6c7574696f6e537570706f727429 934 .leaf)) 0x143616e64696461746550656e64696e67417661696c6162696c697479 285 (.node (.node .leaf 0x1526177426162655072654469676573745365636f6e64617279565246 925 .leaf) 0x156616c696461746f72507265667357697468436f6d6d697373696f6e 1073 (.node .leaf 0x14163636f756e74496e666f57697468547269706c65526566436f756e74 52 .leaf)))))

/-- Positions of the keys of `texts`, a subtree. -/
def textIndex14 : KeyTree :=
  .node (.node (.node (.node (.node (.node (.node .leaf 0x14c617374436f6e747269627574696f6e3c426c6f636b4e756d6265723e 633 .leaf) 0x14f7074696f6e3c52656c6179436861696e426c6f636b4e756d6265723e 1068 .leaf) 0x15665633c284163636f756e7449642c20526577617264506f696e74293e 565 (.node .leaf 0x17363686564756c653a3a506572696f643c426c6f636b4e756d6265723e 1114 .leaf)) 0x1284163636f756e7449642c205061726149642c2042616c616e63654f6629 1098 (.node (.node .leaf 0x1426f783c3c542061732054726169743c493e3e3a3a50726f706f73616c3e 259 .leaf) 0x1436f6e747261637445786563526573756c7453756363657373546f323535 436 (.node .leaf 0x15665633c466f726b5472656550656e64696e674368616e67654e6f64653e 121 .leaf))) 0x15665633c53657373696f6e496e666f56616c696461746f7247726f75703e 1000 (.node (.node (.node (.node .leaf 0x12853746174656d656e742c2056616c696461746f725369676e617475726529 531 .leaf) 0x1426f783c3c5420617320436f6e6669673c493e3e3a3a50726f706f73616c3e 257 .leaf) 0x14f7074696f6e3c285533322c2058636d5472616974734572726f725633293e 732 (.node .leaf 0x15665633c5369676e6564457874656e73696f6e4d657461646174615631343e 620 .leaf)) 0x1736c617368696e673a3a5370616e5265636f72643c42616c616e63654f663e 1120 (.node (.node .leaf 0x1284e6f6d696e61746f72496e6465782c2056616c696461746f72496e64657829 298 .leaf) 0x14f7074696f6e3c285533322c2058636d5472616974734572726f725633293e3e 748 (.node .leaf 0x14f7074696f6e3c4368616e67657354726965436f6e66696775726174696f6e3e 154 .leaf)))) 0x142616c616e63654c6f636b3c42616c616e63652c20426c6f636b4e756d6265723e 165 (.node (.node (.node (.node (.node .leaf 0x14d6573736167696e675374617465536e617073686f74456772657373456e747279 793 .leaf) 0x15265666572656e64756d496e666f3c426c6f636b4e756d6265722c20486173683e 948 .leaf) 0x15665633c284163636f756e7449642c20457874656e64656442616c616e6365293e 936 (.node .leaf 0x15374616b696e674c65646765723c4163636f756e7449642c2042616c616e63654f663e 1028 .leaf)) 0x1284772616e647061507265766f74652c20417574686f726974795369676e617475726529 557 (.node (.node .leaf 0x1284a756e6374696f6e56302c204a756e6374696f6e56302c204a756e6374696f6e563029 804 .leaf) 0x1284a756e6374696f6e56312c204a756e6374696f6e56312c204a756e6374696f6e563129 182 (.node .leaf 0x1284a756e6374696f6e56332c204a756e6374696f6e56332c204a756e6374696f6e563329 723 .leaf))) 0x145717569766f636174696f6e50726f6f663c486173682c20426c6f636b4e756d6265723e 559 (.node (.node (.node .leaf 0x1556e6170706c696564536c6173683c4163636f756e7449642c2042616c616e63654f663e 1060 .leaf) 0x142547265654d61703c5061726149642c20496e626f756e6448726d704d657373616765733e 784 (.node .leaf 0x15265666572656e64756d496e666f3c426c6f636b4e756d6265722c2050726f706f73616c3e 949 .leaf)) 0x15665633c284e6f6d696e61746f72496e6465782c2056616c696461746f72496e646578293e 297 (.node (.node .leaf 0x1496e646976696475616c4578706f737572653c4163636f756e7449642c2042616c616e63653e 548 .leaf) 0x15665633c4d6573736167696e675374617465536e617073686f74456772657373456e7472793e 792 (.node .leaf 0x142547265654d61703c5061726149642c20566563496e626f756e6448726d704d6573736167653e 871 .leaf))))) 0x1284163636f756e7449642c204d756c74695369676e65722c204d756c74695369676e617475726529 277 (.node (.node (.node (.node (.node (.node .leaf 0x15265666572656e64756d496e666f3c426c6f636b4e756d6265722c20486173682c2042616c616e63653e 943 .leaf) 0x15665633c496e646976696475616c4578706f737572653c4163636f756e7449642c2042616c616e63653e3e 547 .leaf) 0x13c417574686f7269747949642061732052756e74696d654170705075626c69633e3a3a5369676e6174757265 14 (.node .leaf 0x15265666572656e64756d496e666f3c426c6f636b4e756d6265722c20486173682c2042616c616e63654f663e 947 .leaf)) 0x1284e6f6d696e61746f72496e646578436f6d706163742c2056616c696461746f72496e646578436f6d7061637429 350 (.node (.node .leaf 0x14f6666656e636544657461696c733c4163636f756e7449642c204964656e74696669636174696f6e5475706c653e 820 .leaf) 0x173757065723a3a696e697469616c697a6174696f6e646174613c627269646765646865616465723c742c20693e3e 1121 (.node .leaf 0x1284a756e6374696f6e56302c204a756e6374696f6e56302c204a756e6374696f6e56302c204a756e6374696f6e563029 805 .leaf))) 0x1284a756e6374696f6e56312c204a756e6374696f6e56312c204a756e6374696f6e56312c204a756e6374696f6e563129 183 (.node (.node (.node (.node .leaf 0x1284a756e6374696f6e56332c204a756e6374696f6e56332c204a756e6374696f6e56332c204a756e6374696f6e563329 724 .leaf) 0x14f70656e5469703c4163636f756e7449642c2042616c616e63654f662c20426c6f636b4e756d6265722c20486173683e 825 .leaf) 0x1284e6f6d696e61746f72496e6465782c205b436f6d7061637453636f72653b20315d2c2056616c696461746f72496e64657829 302 (.node .leaf 0x1284e6f6d696e61746f72496e6465782c205b436f6d7061637453636f72653b20325d2c2056616c696461746f72496e64657829 307 .leaf)) 0x1284e6f6d696e61746f72496e6465782c205b436f6d7061637453636f72653b20335d2c2056616c696461746f72496e64657829 310 (.node (.node .leaf 0x1284e6f6d696e61746f72496e6465782c205b436f6d7061637453636f72653b20345d2c2056616c696461746f72496e64657829 313 .leaf) 0x1284e6f6d696e61746f72496e6465782c205b436f6d7061637453636f72653b20355d2c2056616c696461746f72496e64657829 316 (.node .leaf 0x1284e6f6d696e61746f72496e6465782c205b436f6d7061637453636f72653b20365d2c2056616c696461746f72496e64657829 319 .leaf)))) 0x1284e6f6d696e61746f72496e6465782c205b436f6d7061637453636f72653b20375d2c2056616c696461746f72496e64657829 322 (.node (.node (.node (.node (.node .leaf 0x1284e6f6d696e61746f72496e6465782c205b436f6d7061637453636f72653b20385d2c2056616c696461746f72496e64657829 325 .leaf) 0x1284e6f6d696e61746f72496e6465782c205b436f6d7061637453636f72653b20395d2c2056616c696461746f72496e64657829 328 .leaf) 0x15665633c284e6f6d696e61746f72496e646578436f6d706163742c2056616c696461746f72496e646578436f6d70616374293e 349 (.node .leaf 0x1284e6f6d696e61746f72496e6465782c205b436f6d7061637453636f72653b2031305d2c2056616c696461746f72496e64657829 331 .leaf)) 0x1284e6f6d696e61746f72496e6465782c205b436f6d7061637453636f72653b2031315d2c2056616c696461746f72496e64657829 334 (.node (.node .leaf 0x1284e6f6d696e61746f72496e6465782c205b436f6d7061637453636f72653b2031325d2c2056616c696461746f72496e64657829 337 .leaf) 0x1284e6f6d696e61746f72496e6465782c205b436f6d7061637453636f72653b2031335d2c2056616c696461746f72496e64657829 340 (.node .leaf 0x1284e6f6d696e61746f72496e6465782c205b436f6d7061637453636f72653b2031345d2c2056616c696461746f72496e64657829 343 .leaf))) 0x1284e6f6d696e61746f72496e6465782c205b436f6d7061637453636f72653b2031355d2c2056616c696461746f72496e64657829 346 (.node (.node (.node .leaf 0x12842616c616e63654f663c542c20493e2c204269644b696e643c4163636f756e7449642c2042616c616e63654f663c542c20493e3e29 5 .leaf) 0x15665633c284e6f6d696e61746f72496e6465782c205b436f6d7061637453636f72653b20315d2c2056616c696461746f72496e646578293e 301 (.node .leaf 0x15665633c284e6f6d696e61746f72496e6465782c205b436f6d7061637453636f72653b20325d2c2056616c696461746f72496e646578293e 306 .leaf)) 0x15665633c284e6f6d696e61746f72496e6465782c205b436f6d7061637453636f72653b20335d2c2056616c696461746f72496e646578293e 309 (.node (.node .leaf 0x15665633c284e6f6d696e61746f72496e6465782c205b436f6d7061637453636f72653b20345d2c2056616c696461746f72496e646578293e 312 .leaf) 0x15665633c284e6f6d696e61746f72496e6465782c205b436f6d7061637453636f72653b20355d2c2056616c696461746f72496e646578293e 315 (.node .leaf 0x15665633c284e6f6d696e61746f72496e6465782c205b436f6d7061637453636f72653b20365d2c2056616c696461746f72496e646578293e 318 .leaf)))))

/-- Positions of the keys of `texts`, a subtree. -/
def textIndex15 : KeyTree :=
  .node (.node (.node (.node (.node (.node (.node .leaf 0x15665633c284e6f6d696e61746f72496e6465782c205b436f6d7061637453636f72653b20385d2c2056616c696461746f72496e646578293e 324 .leaf) 0x15665633c284e6f6d696e61746f72496e6465782c205b436f6d7061637453636f72653b20395d2c2056616c696461746f72496e646578293e 327 .leaf) 0x15665633c284e6f6d696e61746f72496e6465782c205b436f6d7061637453636f72653b2031305d2c2056616c696461746f72496e646578293e 330 (.node .leaf 0x15665633c284e6f6d696e61746f72496e6465782c205b436f6d7061637453636f72653b2031315d2c2056616c696461746f72496e646578293e 333 .leaf)) 0x15665633c284e6f6d696e61746f72496e6465782c205b436f6d7061637453636f72653b2031325d2c2056616c696461746f72496e646578293e 336 (.node (.node .leaf 0x15665633c284e6f6d696e61746f72496e6465782c205b436f6d7061637453636f72653b2031335d2c2056616c696461746f72496e646578293e 339 .leaf) 0x15665633c284e6f6d696e61746f72496e6465782c205b436f6d7061637453636f72653b2031345d2c2056616c696461746f72496e646578293e 342 (.node .leaf 0x15665633c284e6f6d696e61746f72496e6465782c205b436f6d7061637453636f72653b2031355d2c2056616c696461746f72496e646578293e 345 .leaf))) 0x1284469737075746553746174656d656e742c205061726156616c696461746f72496e6465782c2056616c696461746f725369676e617475726529 526 (.node (.node (.node (.node .leaf 0x1284a756e6374696f6e56302c204a756e6374696f6e56302c204a756e6374696f6e56302c204a756e6374696f6e56302c204a756e6374696f6e563029 806 .leaf) 0x1284a756e6374696f6e56312c204a756e6374696f6e56312c204a756e6374696f6e56312c204a756e6374696f6e56312c204a756e6374696f6e563129 184 .leaf) 0x1284a756e6374696f6e56332c204a756e6374696f6e56332c204a756e6374696f6e56332c204a756e6374696f6e56332c204a756e6374696f6e563329 725 (.node .leaf 0x15665633c284469737075746553746174656d656e742c205061726156616c696461746f72496e6465782c2056616c696461746f725369676e6174757265293e 525 .leaf)) 0x1284e6f6d696e61746f72496e646578436f6d706163742c20436f6d7061637453636f7265436f6d706163742c2056616c696461746f72496e646578436f6d7061637429 354 (.node (.node .leaf 0x1284a756e6374696f6e56302c204a756e6374696f6e56302c204a756e6374696f6e56302c204a756e6374696f6e56302c204a756e6374696f6e56302c204a756e6374696f6e563029 807 .leaf) 0x1284a756e6374696f6e56312c204a756e6374696f6e56312c204a756e6374696f6e56312c204a756e6374696f6e56312c204a756e6374696f6e56312c204a756e6374696f6e563129 185 (.node .leaf 0x1284a756e6374696f6e56332c204a756e6374696f6e56332c204a756e6374696f6e56332c204a756e6374696f6e56332c204a756e6374696f6e56332c204a756e6374696f6e563329 726 .leaf)))) 0x1284e6f6d696e61746f72496e646578436f6d706163742c205b436f6d7061637453636f7265436f6d706163743b20325d2c2056616c696461746f72496e646578436f6d7061637429 358 (.node (.node (.node (.node (.node .leaf 0x1284e6f6d696e61746f72496e646578436f6d706163742c205b436f6d7061637453636f7265436f6d706163743b20335d2c2056616c696461746f72496e646578436f6d7061637429 362 .leaf) 0x1284e6f6d696e61746f72496e646578436f6d706163742c205b436f6d7061637453636f7265436f6d706163743b20345d2c2056616c696461746f72496e646578436f6d7061637429 365 .leaf) 0x1284e6f6d696e61746f72496e646578436f6d706163742c205b436f6d7061637453636f7265436f6d706163743b20355d2c2056616c696461746f72496e646578436f6d7061637429 368 (.node .leaf 0x1284e6f6d696e61746f72496e646578436f6d706163742c205b436f6d7061637453636f7265436f6d706163743b20365d2c2056616c696461746f72496e646578436f6d7061637429 371 .leaf)) 0x1284e6f6d696e61746f72496e646578436f6d706163742c205b436f6d7061637453636f7265436f6d706163743b20375d2c2056616c696461746f72496e646578436f6d7061637429 374 (.node (.node .leaf 0x1284e6f6d696e61746f72496e646578436f6d706163742c205b436f6d7061637453636f7265436f6d706163743b20385d2c2056616c696461746f72496e646578436f6d7061637429 377 .leaf) 0x1284e6f6d696e61746f72496e646578436f6d706163742c205b436f6d7061637453636f7265436f6d706163743b20395d2c2056616c696461746f72496e646578436f6d7061637429 380 (.node .leaf 0x15665633c284e6f6d696e61746f72496e646578436f6d706163742c20436f6d7061637453636f7265436f6d706163742c2056616c696461746f72496e646578436f6d70616374293e 353 .leaf))) 0x1284e6f6d696e61746f72496e646578436f6d706163742c205b436f6d7061637453636f7265436f6d706163743b2031305d2c2056616c696461746f72496e646578436f6d7061637429 383 (.node (.node (.node .leaf 0x1284e6f6d696e61746f72496e646578436f6d706163742c205b436f6d7061637453636f7265436f6d706163743b2031315d2c2056616c696461746f72496e646578436f6d7061637429 386 .leaf) 0x1284e6f6d696e61746f72496e646578436f6d706163742c205b436f6d7061637453636f7265436f6d706163743b2031325d2c2056616c696461746f72496e646578436f6d7061637429 389 (.node .leaf 0x1284e6f6d696e61746f72496e646578436f6d706163742c205b436f6d7061637453636f7265436f6d706163743b2031335d2c2056616c696461746f72496e646578436f6d7061637429 392 .leaf)) 0x1284e6f6d696e61746f72496e646578436f6d706163742c205b436f6d7061637453636f7265436f6d706163743b2031345d2c2056616c696461746f72496e646578436f6d7061637429 395 (.node (.node .leaf 0x1284e6f6d696e61746f72496e646578436f6d706163742c205b436f6d7061637453636f7265436f6d706163743b2031355d2c2056616c696461746f72496e646578436f6d7061637429 398 .leaf) 0x1284e6f6d696e61746f72496e646578436f6d706163742c205b436f6d7061637453636f7265436f6d706163743b2031365d2c2056616c696461746f72496e646578436f6d7061637429 405 (.node .leaf 0x1284e6f6d696e61746f72496e646578436f6d706163742c205b436f6d7061637453636f7265436f6d706163743b2031375d2c2056616c696461746f72496e646578436f6d7061637429 408 .leaf))))) 0x1284e6f6d696e61746f72496e646578436f6d706163742c205b436f6d7061637453636f7265436f6d706163743b2031385d2c2056616c696461746f72496e646578436f6d7061637429 411 (.node (.node (.node (.node (.node (.node .leaf 0x1284e6f6d696e61746f72496e646578436f6d706163742c205b436f6d7061637453636f7265436f6d706163743b2031395d2c2056616c696461746f72496e646578436f6d7061637429 414 .leaf) 0x1284e6f6d696e61746f72496e646578436f6d706163742c205b436f6d7061637453636f7265436f6d706163743b2032305d2c2056616c696461746f72496e646578436f6d7061637429 417 .leaf) 0x1284e6f6d696e61746f72496e646578436f6d706163742c205b436f6d7061637453636f7265436f6d706163743b2032315d2c2056616c696461746f72496e646578436f6d7061637429 420 (.node .leaf 0x1284e6f6d696e61746f72496e646578436f6d706163742c205b436f6d7061637453636f7265436f6d706163743b2032325d2c2056616c696461746f72496e646578436f6d7061637429 423 .leaf)) 0x1284e6f6d696e61746f72496e646578436f6d706163742c205b436f6d7061637453636f7265436f6d706163743b2032335d2c2056616c696461746f72496e646578436f6d7061637429 426 (.node (.node .leaf 0x15665633c284e6f6d696e61746f72496e646578436f6d706163742c205b436f6d7061637453636f7265436f6d706163743b20325d2c2056616c696461746f72496e646578436f6d70616374293e 357 .leaf) 0x15665633c284e6f6d696e61746f72496e646578436f6d706163742c205b436f6d7061637453636f7265436f6d706163743b20335d2c2056616c696461746f72496e646578436f6d70616374293e 361 (.node .leaf 0x15665633c284e6f6d696e61746f72496e646578436f6d706163742c205b436f6d7061637453636f7265436f6d706163743b20345d2c2056616c696461746f72496e646578436f6d70616374293e 364 .leaf))) 0x15665633c284e6f6d696e61746f72496e646578436f6d706163742c205b436f6d7061637453636f7265436f6d706163743b20355d2c2056616c696461746f72496e646578436f6d70616374293e 367 (.node (.node (.node (.node .leaf 0x15665633c284e6f6d696e61746f72496e646578436f6d706163742c205b436f6d7061637453636f7265436f6d706163743b20365d2c2056616c696461746f72496e646578436f6d70616374293e 370 .leaf) 0x15665633c284e6f6d696e61746f72496e646578436f6d706163742c205b436f6d7061637453636f7265436f6d706163743b20375d2c2056616c696461746f72496e646578436f6d70616374293e 373 .leaf) 0x15665633c284e6f6d696e61746f72496e646578436f6d706163742c205b436f6d7061637453636f7265436f6d706163743b20385d2c2056616c696461746f72496e646578436f6d70616374293e 376 (.node .leaf 0x15665633c284e6f6d696e61746f72496e646578436f6d706163742c205b436f6d7061637453636f7265436f6d706163743b20395d2c2056616c696461746f72496e646578436f6d70616374293e 379 .leaf)) 0x15665633c284e6f6d696e61746f72496e646578436f6d706163742c205b436f6d7061637453636f7265436f6d706163743b2031305d2c2056616c696461746f72496e646578436f6d70616374293e 382 (.node (.node .leaf 0x15665633c284e6f6d696e61746f72496e646578436f6d706163742c205b436f6d7061637453636f7265436f6d706163743b2031315d2c2056616c696461746f72496e646578436f6d70616374293e 385 .leaf) 0x15665633c284e6f6d696e61746f72496e646578436f6d706163742c205b436f6d7061637453636f7265436f6d706163743b2031325d2c2056616c696461746f72496e646578436f6d70616374293e 388 (.node .leaf 0x15665633c284e6f6d696e61746f72496e646578436f6d706163742c205b436f6d7061637453636f7265436f6d706163743b2031335d2c2056616c696461746f72496e646578436f6d70616374293e 391 .leaf)))) 0x15665633c284e6f6d696e61746f72496e646578436f6d706163742c205b436f6d7061637453636f7265436f6d706163743b2031345d2c2056616c696461746f72496e646578436f6d70616374293e 394 (.node (.node (.node (.node (.node .leaf 0x15665633c284e6f6d696e61746f72496e646578436f6d706163742c205b436f6d7061637453636f7265436f6d706163743b2031355d2c2056616c696461746f72496e646578436f6d70616374293e 397 .leaf) 0x15665633c284e6f6d696e61746f72496e646578436f6d706163742c205b436f6d7061637453636f7265436f6d706163743b2031365d2c2056616c696461746f72496e646578436f6d70616374293e 404 .leaf) 0x15665633c284e6f6d696e61746f72496e646578436f6d706163742c205b436f6d7061637453636f7265436f6d706163743b2031375d2c2056616c696461746f72496e646578436f6d70616374293e 407 (.node .leaf 0x15665633c284e6f6d696e61746f72496e646578436f6d706163742c205b436f6d7061637453636f7265436f6d706163743b2031385d2c2056616c696461746f72496e646578436f6d70616374293e 410 .leaf)) 0x15665633c284e6f6d696e61746f72496e646578436f6d706163742c205b436f6d7061637453636f7265436f6d706163743b2031395d2c2056616c696461746f72496e646578436f6d70616374293e 413 (.node (.node .leaf 0x15665633c284e6f6d696e61746f72496e646578436f6d706163742c205b436f6d7061637453636f7265436f6d706163743b2032305d2c2056616c696461746f72496e646578436f6d70616374293e 416 .leaf) 0x15665633c284e6f6d696e61746f72496e646578436f6d706163742c205b436f6d7061637453636f7265436f6d706163743b2032315d2c2056616c696461746f72496e646578436f6d70616374293e 419 (.node .leaf 0x15665633c284e6f6d696e61746f72496e646578436f6d706163742c205b436f6d7061637453636f7265436f6d706163743b2032325d2c2056616c696461746f72496e646578436f6d70616374293e 422 .leaf))) 0x15665633c284e6f6d696e61746f72496e646578436f6d706163742c205b436f6d7061637453636f7265436f6d706163743b2032335d2c2056616c696461746f72496e646578436f6d70616374293e 425 (.node (.node (.node .leaf 0x128426f756e6465645665633c50726f7879446566696e6974696f6e3c4163636f756e7449642c50726f7879547970652c426c6f636b4e756d6265723e2c4d617850726f786965733e2c42616c616e63654f6629 9 .leaf) 0x1284a756e6374696f6e56302c204a756e6374696f6e56302c204a756e6374696f6e56302c204a756e6374696f6e56302c204a756e6374696f6e56302c204a756e6374696f6e56302c204a756e6374696f6e563029 808 (.node .leaf 0x1284a756e6374696f6e56312c204a756e6374696f6e56312c204a756e6374696f6e56312c204a756e6374696f6e56312c204a756e6374696f6e56312c204a756e6374696f6e56312c204a756e6374696f6e563129 186 .leaf)) 0x1284a756e6374696f6e56332c204a756e6374696f6e56332c204a756e6374696f6e56332c204a756e6374696f6e56332c204a756e6374696f6e56332c204a756e6374696f6e56332c204a756e6374696f6e563329 727 (.node (.node .leaf 0x1284a756e6374696f6e56302c204a756e6374696f6e56302c204a756e6374696f6e56302c204a756e6374696f6e56302c204a756e6374696f6e56302c204a756e6374696f6e56302c204a756e6374696f6e56302c204a756e6374696f6e563029 809 .leaf) 0x1284a756e6374696f6e56312c204a756e6374696f6e56312c204a756e6374696f6e56312c204a756e6374696f6e56312c204a756e6374696f6e56312c204a756e6374696f6e56312c204a756e6374696f6e56312c204a756e6374696f6e563129 187 (.node .leaf 0x1284a756e6374696f6e56332c204a756e6374696f6e56332c204a756e6374696f6e56332c204a756e6374696f6e56332c204a756e6374696f6e56332c204a756e6374696f6e56332c204a756e6374696f6e56332c204a756e6374696f6e563329 728 .leaf)))))

/-- Positions of the keys of `texts`. -/
def textIndex : KeyTree :=
  (.node (.node (.node (.node textIndex0 0x1536950617468 453 textIndex1) 0x15765696768745632 735 (.node textIndex2 0x14574684163636f756e74 567 textIndex3)) 0x14d65737361676544617461 780 (.node (.node textIndex4 0x14d756c746941737365745631 697 textIndex5) 0x148726d704368616e6e656c4964 666 (.node textIndex6 0x14772616e647061507265766f7465 558 textIndex7))) 0x14d756c74694c6f636174696f6e5630 802 (.node (.node (.node textIndex8 0x15369676e65645375626d697373696f6e 1018 textIndex9) 0x1436f6d7061637441737369676e6d656e7473 296 (.node textIndex10 0x15175657279526573706f6e7365496e666f5633 746 textIndex11)) 0x15472616e73616374696f6e5265636f766572794964 226 (.node (.node textIndex12 0x14578706c696369744469737075746553746174656d656e74 616 textIndex13) 0x14269644b696e643c4163636f756e7449642c2042616c616e63654f663e 7 (.node textIndex14 0x15665633c284e6f6d696e61746f72496e6465782c205b436f6d7061637453636f72653b20375d2c2056616c696461746f72496e646578293e 321 textIndex15))))

end ScaleGo.Builtin
