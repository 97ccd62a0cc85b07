import Verif.Model.Registry

/-! # The classes of the names that the shipped networks define, part 4

Lower-case name (with its version range, if any) and class, for every file in `network/`, without the one
name in each of crab, darwinia, pangolin and sora whose class depends on the order of loading. Written down by a script; C108 proves that loading produces exactly these. -/

set_option maxRecDepth 20000

namespace ScaleGo.NetClasses

/-- Classes of the names of network/polkadex.json. -/
def polkadex : List (Str × Cls) :=
  [ (b!"weight", .u64),
    (b!"compactassignments", .struct (some [(b!"votes1", b!"Vec<(NominatorIndexCompact, ValidatorIndexCompact)>"), (b!"votes2", b!"Vec<(NominatorIndexCompact, CompactScoreCompact, ValidatorIndexCompact)>"), (b!"votes3", b!"Vec<(NominatorIndexCompact, [CompactScoreCompact; 2], ValidatorIndexCompact)>"), (b!"votes4", b!"Vec<(NominatorIndexCompact, [CompactScoreCompact; 3], ValidatorIndexCompact)>"), (b!"votes5", b!"Vec<(NominatorIndexCompact, [CompactScoreCompact; 4], ValidatorIndexCompact)>"), (b!"votes6", b!"Vec<(NominatorIndexCompact, [CompactScoreCompact; 5], ValidatorIndexCompact)>"), (b!"votes7", b!"Vec<(NominatorIndexCompact, [CompactScoreCompact; 6], ValidatorIndexCompact)>"), (b!"votes8", b!"Vec<(NominatorIndexCompact, [CompactScoreCompact; 7], ValidatorIndexCompact)>"), (b!"votes9", b!"Vec<(NominatorIndexCompact, [CompactScoreCompact; 8], ValidatorIndexCompact)>"), (b!"votes10", b!"Vec<(NominatorIndexCompact, [CompactScoreCompact; 9], ValidatorIndexCompact)>"), (b!"votes11", b!"Vec<(NominatorIndexCompact, [CompactScoreCompact; 10], ValidatorIndexCompact)>"), (b!"votes12", b!"Vec<(NominatorIndexCompact, [CompactScoreCompact; 11], ValidatorIndexCompact)>"), (b!"votes13", b!"Vec<(NominatorIndexCompact, [CompactScoreCompact; 12], ValidatorIndexCompact)>"), (b!"votes14", b!"Vec<(NominatorIndexCompact, [CompactScoreCompact; 13], ValidatorIndexCompact)>"), (b!"votes15", b!"Vec<(NominatorIndexCompact, [CompactScoreCompact; 14], ValidatorIndexCompact)>"), (b!"votes16", b!"Vec<(NominatorIndexCompact, [CompactScoreCompact; 15], ValidatorIndexCompact)>")])),
    (b!"refcount", .u32),
    (b!"votes", .struct (some [(b!"ayes", b!"Vec<Voter>"), (b!"nays", b!"Vec<Voter>")])),
    (b!"chainid", .u8),
    (b!"stake", .struct (some [(b!"stakedAmount", b!"Balance"), (b!"unlockingBlock", b!"BlockNumber")])),
    (b!"fundingroundwithprimitives", .struct (some [(b!"tokenA", b!"AssetId"), (b!"creator", b!"AccountId"), (b!"amount", b!"String"), (b!"tokenB", b!"AssetId"), (b!"vestingPerBlock", b!"String"), (b!"startBlock", b!"BlockNumber"), (b!"voteEndBlock", b!"BlockNumber"), (b!"vestingEndBlock", b!"BlockNumber"), (b!"projectInfoCid", b!"Vec<u8>"), (b!"minAllocation", b!"String"), (b!"maxAllocation", b!"String"), (b!"tokenAPriceperTokenB", b!"String"), (b!"closeRoundBlock", b!"BlockNumber"), (b!"actualRaise", b!"String")])),
    (b!"storedheader", .struct (some [(b!"submitter", b!"Option<AccountId>"), (b!"header", b!"EthereumHeader"), (b!"totalDifficulty", b!"U256")])),
    (b!"accountinfo", .struct (some [(b!"nonce", b!"Index"), (b!"consumers", b!"RefCount"), (b!"providers", b!"RefCount"), (b!"sufficients", b!"RefCount"), (b!"data", b!"AccountData")])),
    (b!"voter", .struct (some [(b!"accountId", b!"AccountId"), (b!"votes", b!"Balance")])),
    (b!"erc721token", .struct (some [(b!"id", b!"TokenId"), (b!"metadata", b!"Vec<u8>")])),
    (b!"shardidentifier", .hash 32),
    (b!"kycstatus", .enum [] (some [(b!"Tier0", b!"null"), (b!"Tier1", b!"null"), (b!"Tier2", b!"null")])),
    (b!"depositnonce", .u64),
    (b!"fundinground", .struct (some [(b!"tokenA", b!"AssetId"), (b!"creator", b!"AccountId"), (b!"amount", b!"Balance"), (b!"tokenB", b!"AssetId"), (b!"projectInfoCid", b!"Vec<u8>"), (b!"voteEndBlock", b!"BlockNumber"), (b!"vestingEndBlock", b!"BlockNumber"), (b!"vestingPerBlock", b!"Balance"), (b!"startBlock", b!"BlockNumber"), (b!"minAllocation", b!"Balance"), (b!"maxAllocation", b!"Balance"), (b!"tokenAPriceperTokenB", b!"Balance"), (b!"closeRoundBlock", b!"BlockNumber"), (b!"actualRaise", b!"Balance")])),
    (b!"ethereumheader", .struct (some [(b!"parentHash", b!"H256"), (b!"timestamp", b!"u64"), (b!"number", b!"u64"), (b!"author", b!"H160"), (b!"transactionsRoot", b!"H256"), (b!"ommersHash", b!"H256"), (b!"extraData", b!"Vec<u8>"), (b!"stateRoot", b!"H256"), (b!"receiptsRoot", b!"H256"), (b!"logBloom", b!"Bloom"), (b!"gasUsed", b!"U256"), (b!"gasLimit", b!"U256"), (b!"difficulty", b!"U256"), (b!"seal", b!"Vec<Vec<u8>>")])),
    (b!"resourceid", .fixedU8 32),
    (b!"chainsafe", .hash 20),
    (b!"currencyidof", .enum [] (some [(b!"POLKADEX", b!"null"), (b!"ASSET", b!"u64")])),
    (b!"ethashproofdata", .struct (some [(b!"dagNodes", b!"[H512; 2]"), (b!"proof", b!"Vec<H128>")])),
    (b!"address", .enum [] (some [(b!"Id", b!"AccountId"), (b!"Index", b!"Compact<AccountIndex>"), (b!"Raw", b!"Bytes"), (b!"Address32", b!"H256"), (b!"Address20", b!"H160")])),
    (b!"bloom", .fixedU8 256),
    (b!"balanceof", .balance),
    (b!"stakeinfo", .struct (some [(b!"stakes", b!"Vec<Stake>")])),
    (b!"votecast", .struct (some [(b!"amount", b!"Balance"), (b!"unlockingBlock", b!"BlockNumber"), (b!"voterAccount", b!"AccountId")])),
    (b!"lookupsource", .enum [] (some [(b!"Id", b!"AccountId"), (b!"Index", b!"Compact<AccountIndex>"), (b!"Raw", b!"Bytes"), (b!"Address32", b!"H256"), (b!"Address20", b!"H160")])),
    (b!"tokenid", .u256),
    (b!"assetid", .enum [] (some [(b!"POLKADEX", b!"null"), (b!"ASSET", b!"u64")])),
    (b!"pruningrange", .struct (some [(b!"oldestUnprunedBlock", b!"u64"), (b!"oldestBlockToKeep", b!"u64")])),
    (b!"ethereumheaderid", .struct (some [(b!"number", b!"u64"), (b!"hash", b!"H256")])),
    (b!"votestat", .struct (some [(b!"yes", b!"String"), (b!"no", b!"String")])),
    (b!"investorinfo", .struct (some [(b!"kycStatus", b!"KYCStatus")])),
    (b!"proof", .struct (some [(b!"blockHash", b!"H256"), (b!"txIndex", b!"u32"), (b!"data", b!"(Vec<Vec<u8>>, Vec<Vec<u8>>)")])),
    (b!"chainbridge::chainid", .u8),
    (b!"proposalvotes", .struct (some [(b!"votes_for", b!"Vec<MultiAddress>"), (b!"votes_against", b!"Vec<MultiAddress>"), (b!"status", b!"enum")])),
    (b!"accountdata", .struct (some [(b!"free", b!"Balance"), (b!"reserved", b!"Balance"), (b!"frozen", b!"Balance")])),
    (b!"message", .struct (some [(b!"data", b!"Vec<u8>"), (b!"proof", b!"Proof")])),
    (b!"currencyid", .enum [] (some [(b!"POLKADEX", b!"null"), (b!"ASSET", b!"u64")])) ]

/-- Classes of the names of network/polkadot.json. -/
def polkadot : List (Str × Cls) :=
  [ (b!"address", .accountId),
    (b!"blocknumber", .u32),
    (b!"leaseperiod", .u32),
    (b!"weight", .u64),
    (b!"keys", .struct (some [(b!"grandpa", b!"AccountId"), (b!"babe", b!"AccountId"), (b!"im_online", b!"AccountId"), (b!"authority_discovery", b!"AccountId"), (b!"parachains", b!"AccountId")])),
    (b!"dispatchinfo", .struct (some [(b!"weight", b!"Weight"), (b!"class", b!"DispatchClass"), (b!"paysFee", b!"Pays")])),
    (b!"dispatchresult", .enum [] (some [(b!"Ok", b!"Null"), (b!"Error", b!"DispatchError")])),
    (b!"timepoint", .struct (some [(b!"height", b!"BlockNumber"), (b!"index", b!"u32")])),
    (b!"multisig", .struct (some [(b!"when", b!"Timepoint"), (b!"deposit", b!"Balance"), (b!"depositor", b!"AccountId"), (b!"approvals", b!"Vec<AccountId>")])),
    (b!"balancelock<balance, blocknumber>", .struct (some [(b!"id", b!"LockIdentifier"), (b!"amount", b!"Balance"), (b!"reasons", b!"Reasons")])),
    (b!"proxytype", .enum [b!"Any", b!"NonTransfer", b!"Governance", b!"Staking", b!"DeprecatedSudoBalances", b!"IdentityJudgement", b!"CancelProxy"] none),
    (b!"referenduminfo", .enum [] (some [(b!"Ongoing", b!"ReferendumStatus"), (b!"Finished", b!"ReferendumInfoFinished")])),
    (b!"compactassignments#23-?", .struct (some [(b!"votes1", b!"Vec<(NominatorIndexCompact, ValidatorIndexCompact)>"), (b!"votes2", b!"Vec<(NominatorIndexCompact, CompactScoreCompact, ValidatorIndexCompact)>"), (b!"votes3", b!"Vec<(NominatorIndexCompact, [CompactScoreCompact; 2], ValidatorIndexCompact)>"), (b!"votes4", b!"Vec<(NominatorIndexCompact, [CompactScoreCompact; 3], ValidatorIndexCompact)>"), (b!"votes5", b!"Vec<(NominatorIndexCompact, [CompactScoreCompact; 4], ValidatorIndexCompact)>"), (b!"votes6", b!"Vec<(NominatorIndexCompact, [CompactScoreCompact; 5], ValidatorIndexCompact)>"), (b!"votes7", b!"Vec<(NominatorIndexCompact, [CompactScoreCompact; 6], ValidatorIndexCompact)>"), (b!"votes8", b!"Vec<(NominatorIndexCompact, [CompactScoreCompact; 7], ValidatorIndexCompact)>"), (b!"votes9", b!"Vec<(NominatorIndexCompact, [CompactScoreCompact; 8], ValidatorIndexCompact)>"), (b!"votes10", b!"Vec<(NominatorIndexCompact, [CompactScoreCompact; 9], ValidatorIndexCompact)>"), (b!"votes11", b!"Vec<(NominatorIndexCompact, [CompactScoreCompact; 10], ValidatorIndexCompact)>"), (b!"votes12", b!"Vec<(NominatorIndexCompact, [CompactScoreCompact; 11], ValidatorIndexCompact)>"), (b!"votes13", b!"Vec<(NominatorIndexCompact, [CompactScoreCompact; 12], ValidatorIndexCompact)>"), (b!"votes14", b!"Vec<(NominatorIndexCompact, [CompactScoreCompact; 13], ValidatorIndexCompact)>"), (b!"votes15", b!"Vec<(NominatorIndexCompact, [CompactScoreCompact; 14], ValidatorIndexCompact)>"), (b!"votes16", b!"Vec<(NominatorIndexCompact, [CompactScoreCompact; 15], ValidatorIndexCompact)>")])),
    (b!"refcount", .u32),
    (b!"box<<t as config>::call>", .call),
    (b!"box<<t as config<i>>::proposal>", .call),
    (b!"accountinfo", .struct (some [(b!"nonce", b!"Index"), (b!"consumers", b!"RefCount"), (b!"providers", b!"RefCount"), (b!"data", b!"AccountData")])),
    (b!"address#28-?", .enum [] (some [(b!"Id", b!"AccountId"), (b!"Index", b!"Compact<AccountIndex>"), (b!"Raw", b!"Bytes"), (b!"Address32", b!"H256"), (b!"Address20", b!"H160")])),
    (b!"lookupsource#28-?", .enum [] (some [(b!"Id", b!"AccountId"), (b!"Index", b!"Compact<AccountIndex>"), (b!"Raw", b!"Bytes"), (b!"Address32", b!"H256"), (b!"Address20", b!"H160")])),
    (b!"keys#28-29", .struct (some [(b!"grandpa", b!"AccountId"), (b!"babe", b!"AccountId"), (b!"im_online", b!"AccountId"), (b!"para_validator", b!"AccountId"), (b!"para_assignment", b!"AccountId"), (b!"authority_discovery", b!"AccountId")])),
    (b!"validatorprefs#28-?", .struct (some [(b!"commission", b!"Compact<Perbill>"), (b!"blocked", b!"bool")])),
    (b!"keys#30-?", .struct (some [(b!"col1", b!"AccountId"), (b!"col2", b!"AccountId"), (b!"col3", b!"AccountId"), (b!"col4", b!"AccountId"), (b!"col5", b!"AccountId"), (b!"col6", b!"AccountId")])),
    (b!"accountinfo#30-?", .struct (some [(b!"nonce", b!"Index"), (b!"consumers", b!"RefCount"), (b!"providers", b!"RefCount"), (b!"sufficients", b!"RefCount"), (b!"data", b!"AccountData")])),
    (b!"assetinstance", .enum [] (some [(b!"Undefined", b!"Null"), (b!"Index8", b!"u8"), (b!"Index16", b!"Compact<u16>"), (b!"Index32", b!"Compact<u32>"), (b!"Index64", b!"Compact<u64>"), (b!"Index128", b!"Compact<u128>"), (b!"Array4", b!"[u8; 4]"), (b!"Array8", b!"[u8; 8]"), (b!"Array16", b!"[u8; 16]"), (b!"Array32", b!"[u8; 32]"), (b!"Blob", b!"Vec<u8>")])),
    (b!"multiasset", .enum [] (some [(b!"None", b!"Null"), (b!"All", b!"Null"), (b!"AllFungible", b!"Null"), (b!"AllNonFungible", b!"Null"), (b!"AllAbstractFungible", b!"Vec<u8>"), (b!"AllAbstractNonFungible", b!"Vec<u8>"), (b!"AllConcreteFungible", b!"MultiLocationV0"), (b!"AllConcreteNonFungible", b!"MultiLocationV0"), (b!"AbstractFungible", b!"[[\"id\", \"Vec<u8>\"], [\"instance\", \"Compact<u128>\"]]"), (b!"AbstractNonFungible", b!"[[\"class\", \"Vec<u8>\"], [\"instance\", \"AssetInstanceV0\"]]"), (b!"ConcreteFungible", b!"[[\"id\", \"MultiLocationV0\"], [\"amount\", \"Compact<u128>\"]]"), (b!"ConcreteNonFungible", b!"[[\"class\", \"MultiLocationV0\"], [\"instance\", \"AssetInstanceV0\"]]")])),
    (b!"xcm", .enum [] (some [(b!"WithdrawAsset", b!"[[\"assets\", \"Vec<MultiAssetV0>\"], [\"effects\", \"Vec<XcmOrderV0>\"]]"), (b!"ReserveAssetDeposit", b!"[[\"assets\", \"Vec<MultiAssetV0>\"], [\"effects\", \"Vec<XcmOrderV0>\"]]"), (b!"TeleportAsset", b!"[[\"assets\", \"Vec<MultiAssetV0>\"], [\"effects\", \"Vec<XcmOrderV0>\"]]"), (b!"QueryResponse", b!"[[\"queryId\", \"Compact<u64>\"], [\"response\", \"ResponseV0\"]]"), (b!"TransferAsset", b!"[[\"assets\", \"Vec<MultiAssetV0>\"], [\"dest\", \"MultiLocationV0\"]]"), (b!"TransferReserveAsset", b!"[[\"assets\", \"Vec<MultiAssetV0>\"], [\"dest\", \"MultiLocationV0\"], [\"effects\", \"Vec<XcmOrderV0>\"]]"), (b!"Transact", b!"[[\"originType\", \"XcmOriginKind\"], [\"requireWeightAtMost\", \"u64\"], [\"call\", \"DoubleEncodedCall\"]]"), (b!"HrmpNewChannelOpenRequest", b!"[[\"sender\", \"Compact<u32>\"], [\"maxMessageSize\", \"Compact<u32>\"], [\"maxCapacity\", \"Compact<u32>\"]]"), (b!"HrmpChannelAccepted", b!"[[\"recipient\", \"Compact<u32>\"]]"), (b!"HrmpChannelClosing", b!"[[\"initiator\", \"Compact<u32>\"], [\"sender\", \"Compact<u32>\"], [\"recipient\", \"Compact<u32>\"]]"), (b!"RelayedFrom", b!"[[\"who\", \"MultiLocationV0\"], [\"message\", \"XcmV0\"]]")])),
    (b!"xcmorder", .enum [] (some [(b!"Null", b!"Null"), (b!"DepositAsset", b!"[[\"assets\", \"Vec<MultiAssetV0>\"], [\"dest\", \"MultiLocationV0\"]]"), (b!"DepositReserveAsset", b!"[[\"assets\", \"Vec<MultiAssetV0>\"], [\"dest\", \"MultiLocationV0\"], [\"effects\", \"Vec<XcmOrderV0>\"]]"), (b!"ExchangeAsset", b!"[[\"give\", \"Vec<MultiAssetV0>\"], [\"receive\", \"Vec<MultiAssetV0>\"]]"), (b!"InitiateReserveWithdraw", b!"[[\"assets\", \"Vec<MultiAssetV0>\"], [\"reserve\", \"MultiLocationV0\"], [\"effects\", \"Vec<XcmOrderV0>\"]]"), (b!"InitiateTeleport", b!"[[\"assets\", \"Vec<MultiAssetV0>\"], [\"dest\", \"MultiLocationV0\"], [\"effects\", \"Vec<XcmOrderV0>\"]]"), (b!"QueryHolding", b!"[[\"queryId\", \"Compact<u64>\"], [\"dest\", \"MultiLocationV0\"], [\"assets\", \"Vec<MultiAssetV0>\"]]"), (b!"BuyExecution", b!"[[\"fees\", \"MultiAssetV0\"], [\"weight\", \"u64\"], [\"debt\", \"u64\"], [\"haltOnError\", \"bool\"], [\"xcm\", \"Vec<XcmV0>\"]]")])),
    (b!"multilocation", .enum [] (some [(b!"Here", b!"Null"), (b!"X1", b!"JunctionV0"), (b!"X2", b!"(JunctionV0, JunctionV0)"), (b!"X3", b!"(JunctionV0, JunctionV0, JunctionV0)"), (b!"X4", b!"(JunctionV0, JunctionV0, JunctionV0, JunctionV0)"), (b!"X5", b!"(JunctionV0, JunctionV0, JunctionV0, JunctionV0, JunctionV0)"), (b!"X6", b!"(JunctionV0, JunctionV0, JunctionV0, JunctionV0, JunctionV0, JunctionV0)"), (b!"X7", b!"(JunctionV0, JunctionV0, JunctionV0, JunctionV0, JunctionV0, JunctionV0, JunctionV0)"), (b!"X8", b!"(JunctionV0, JunctionV0, JunctionV0, JunctionV0, JunctionV0, JunctionV0, JunctionV0, JunctionV0)")])) ]

/-- Classes of the names of network/reef.json. -/
def reef : List (Str × Cls) :=
  [ (b!"weight", .u64),
    (b!"compactassignments", .struct (some [(b!"votes1", b!"Vec<(NominatorIndexCompact, ValidatorIndexCompact)>"), (b!"votes2", b!"Vec<(NominatorIndexCompact, CompactScoreCompact, ValidatorIndexCompact)>"), (b!"votes3", b!"Vec<(NominatorIndexCompact, [CompactScoreCompact; 2], ValidatorIndexCompact)>"), (b!"votes4", b!"Vec<(NominatorIndexCompact, [CompactScoreCompact; 3], ValidatorIndexCompact)>"), (b!"votes5", b!"Vec<(NominatorIndexCompact, [CompactScoreCompact; 4], ValidatorIndexCompact)>"), (b!"votes6", b!"Vec<(NominatorIndexCompact, [CompactScoreCompact; 5], ValidatorIndexCompact)>"), (b!"votes7", b!"Vec<(NominatorIndexCompact, [CompactScoreCompact; 6], ValidatorIndexCompact)>"), (b!"votes8", b!"Vec<(NominatorIndexCompact, [CompactScoreCompact; 7], ValidatorIndexCompact)>"), (b!"votes9", b!"Vec<(NominatorIndexCompact, [CompactScoreCompact; 8], ValidatorIndexCompact)>"), (b!"votes10", b!"Vec<(NominatorIndexCompact, [CompactScoreCompact; 9], ValidatorIndexCompact)>"), (b!"votes11", b!"Vec<(NominatorIndexCompact, [CompactScoreCompact; 10], ValidatorIndexCompact)>"), (b!"votes12", b!"Vec<(NominatorIndexCompact, [CompactScoreCompact; 11], ValidatorIndexCompact)>"), (b!"votes13", b!"Vec<(NominatorIndexCompact, [CompactScoreCompact; 12], ValidatorIndexCompact)>"), (b!"votes14", b!"Vec<(NominatorIndexCompact, [CompactScoreCompact; 13], ValidatorIndexCompact)>"), (b!"votes15", b!"Vec<(NominatorIndexCompact, [CompactScoreCompact; 14], ValidatorIndexCompact)>"), (b!"votes16", b!"Vec<(NominatorIndexCompact, [CompactScoreCompact; 15], ValidatorIndexCompact)>")])),
    (b!"refcount", .u32),
    (b!"address", .enum [] (some [(b!"Id", b!"AccountId"), (b!"Index", b!"Compact<AccountIndex>"), (b!"Raw", b!"Bytes"), (b!"Address32", b!"H256"), (b!"Address20", b!"H160")])),
    (b!"lookupsource", .enum [] (some [(b!"Id", b!"AccountId"), (b!"Index", b!"Compact<AccountIndex>"), (b!"Raw", b!"Bytes"), (b!"Address32", b!"H256"), (b!"Address20", b!"H160")])),
    (b!"accountinfo", .struct (some [(b!"nonce", b!"Index"), (b!"consumers", b!"RefCount"), (b!"providers", b!"RefCount"), (b!"data", b!"AccountData")])),
    (b!"palletsorigin", .enum [] (some [(b!"System", b!"SystemOrigin"), (b!"Timestamp", b!"Null"), (b!"RandomnessCollectiveFlip", b!"Null"), (b!"Balances", b!"Null"), (b!"Accounts", b!"Null"), (b!"Currencies", b!"Null"), (b!"Tokens", b!"Null"), (b!"Vesting", b!"Null"), (b!"AcalaTreasury", b!"Null"), (b!"Utility", b!"Null"), (b!"Multisig", b!"Null"), (b!"Recovery", b!"Null"), (b!"Proxy", b!"Null"), (b!"Scheduler", b!"Null"), (b!"Indices", b!"Null"), (b!"GraduallyUpdate", b!"Null"), (b!"Authorship", b!"Null"), (b!"Babe", b!"Null"), (b!"Grandpa", b!"Null"), (b!"Staking", b!"Null"), (b!"Session", b!"Null"), (b!"Historical", b!"Null"), (b!"GeneralCouncil", b!"CollectiveOrigin"), (b!"GeneralCouncilMembership", b!"Null"), (b!"HonzonCouncil", b!"CollectiveOrigin"), (b!"HonzonCouncilMembership", b!"Null"), (b!"HomaCouncil", b!"CollectiveOrigin"), (b!"HomaCouncilMembership", b!"Null"), (b!"TechnicalCommittee", b!"CollectiveOrigin"), (b!"TechnicalCommitteeMembership", b!"Null"), (b!"Authority", b!"DelayedOrigin"), (b!"ElectionsPhragmen", b!"Null"), (b!"AcalaOracle", b!"Null"), (b!"BandOracle", b!"Null"), (b!"OperatorMembershipAcala", b!"Null"), (b!"OperatorMembershipBand", b!"Null"), (b!"Auction", b!"Null"), (b!"Rewards", b!"Null"), (b!"OrmlNFT", b!"Null"), (b!"Prices", b!"Null"), (b!"Dex", b!"Null"), (b!"AuctionManager", b!"Null"), (b!"Loans", b!"Null"), (b!"Honzon", b!"Null"), (b!"CdpTreasury", b!"Null"), (b!"CdpEngine", b!"Null"), (b!"EmergencyShutdown", b!"Null"), (b!"Homa", b!"Null"), (b!"NomineesElection", b!"Null"), (b!"StakingPool", b!"Null"), (b!"PolkadotBridge", b!"Null"), (b!"Incentives", b!"Null"), (b!"AirDrop", b!"Null"), (b!"NFT", b!"Null"), (b!"RenVmBridge", b!"Null"), (b!"Contracts", b!"Null"), (b!"EVM", b!"Null"), (b!"Sudo", b!"Null"), (b!"TransactionPayment", b!"Null")])),
    (b!"chainid", .enum [] (some [(b!"RelayChain", b!"Null"), (b!"ParaChain", b!"ParaId")])),
    (b!"auctioninfo", .struct (some [(b!"bid", b!"Option<(AccountId, Balance)>"), (b!"start", b!"BlockNumber"), (b!"end", b!"Option<BlockNumber>")])),
    (b!"auctionid", .u32),
    (b!"ormlbalancelock", .struct (some [(b!"amount", b!"Balance"), (b!"id", b!"LockIdentifier")])),
    (b!"vestingscheduleof", .struct (some [(b!"start", b!"BlockNumber"), (b!"period", b!"BlockNumber"), (b!"periodCount", b!"u32"), (b!"perPeriod", b!"Compact<Balance>")])),
    (b!"palletbalanceof", .balance),
    (b!"graduallyupdate", .struct (some [(b!"key", b!"StorageKey"), (b!"targetValue", b!"StorageValue"), (b!"perBlock", b!"StorageValue")])),
    (b!"timestampedvalueof", .struct (some [(b!"value", b!"OracleValue"), (b!"timestamp", b!"Moment")])),
    (b!"ratio", .u128),
    (b!"storagekeybytes", .bytes),
    (b!"xcurrencyid", .struct (some [(b!"chainId", b!"ChainId"), (b!"currencyId", b!"Vec<u8>")])),
    (b!"evmaddress", .hash 20),
    (b!"estimateresourcesresponse", .struct (some [(b!"gas", b!"u256"), (b!"storage", b!"i32"), (b!"weightFee", b!"u256")])),
    (b!"authoritysoriginid", .enum [b!"Root"] none),
    (b!"delayeddispatchtime", .enum [] (some [(b!"At", b!"BlockNumber"), (b!"After", b!"BlockNumber")])),
    (b!"price", .u128),
    (b!"evmcontractinfo", .struct (some [(b!"codeHash", b!"H256"), (b!"maintainer", b!"H160"), (b!"deployed", b!"bool")])),
    (b!"tradingpair", .struct (some [(b!"col1", b!"CurrencyId"), (b!"col2", b!"CurrencyId")])),
    (b!"rate", .u128),
    (b!"dispatchtime", .enum [] (some [(b!"At", b!"BlockNumber"), (b!"After", b!"BlockNumber")])),
    (b!"currencyidof", .enum [] (some [(b!"Token", b!"TokenSymbol"), (b!"DEXShare", b!"(TokenSymbol, TokenSymbol)"), (b!"ERC20", b!"EvmAddress")])),
    (b!"amountof", .intFixed 16),
    (b!"orderedset", .vec b!"AccountId"),
    (b!"rpcdataproviderid", .string),
    (b!"tokensymbol", .enum [] (some [(b!"REEF", b!"0"), (b!"RUSD", b!"1")])),
    (b!"scheduletaskindex", .u32),
    (b!"poolinfo", .struct (some [(b!"totalShares", b!"Compact<Share>"), (b!"totalRewards", b!"Compact<Balance>"), (b!"totalWithdrawnRewards", b!"Compact<Balance>")])),
    (b!"commitmentof", .struct (some [(b!"duration", b!"LockDuration"), (b!"amount", b!"BalanceOf"), (b!"candidate", b!"AccountId")])),
    (b!"storagevaluebytes", .bytes),
    (b!"evmaccountinfo", .struct (some [(b!"nonce", b!"Index"), (b!"contractInfo", b!"Option<EvmContractInfo>"), (b!"developerDeposit", b!"Option<Balance>")])),
    (b!"currencyid", .enum [] (some [(b!"Token", b!"TokenSymbol"), (b!"DEXShare", b!"(TokenSymbol, TokenSymbol)"), (b!"ERC20", b!"EvmAddress")])),
    (b!"lockduration", .enum [b!"OneMonth", b!"OneYear", b!"TenYears"] none),
    (b!"callrequest", .struct (some [(b!"from", b!"Option<H160>"), (b!"to", b!"Option<H160>"), (b!"gasLimit", b!"Option<u32>"), (b!"storageLimit", b!"Option<u32>"), (b!"value", b!"Option<U128>"), (b!"data", b!"Option<Bytes>")])),
    (b!"amount", .intFixed 16),
    (b!"era", .struct (some [(b!"index", b!"u32"), (b!"start", b!"BlockNumber")])),
    (b!"storagevalue", .bytes),
    (b!"callof", .call),
    (b!"ormlaccountdata", .struct (some [(b!"free", b!"Balance"), (b!"frozen", b!"Balance"), (b!"reserved", b!"Balance")])),
    (b!"dispatchid", .u32),
    (b!"poolid", .enum [] (some [(b!"Loans", b!"CurrencyId"), (b!"DexIncentive", b!"CurrencyId"), (b!"DexSaving", b!"CurrencyId"), (b!"Homa", b!"Null")])),
    (b!"delayedorigin", .struct (some [(b!"delay", b!"BlockNumber"), (b!"origin", b!"PalletsOrigin")])),
    (b!"auctionidof", .u32),
    (b!"exchangerate", .u128),
    (b!"share", .u128),
    (b!"dataproviderid", .u8),
    (b!"asoriginid", .enum [b!"Root"] none),
    (b!"keys", .struct (some [(b!"col1", b!"AccountId"), (b!"col2", b!"AccountId")])),
    (b!"oraclekey", .enum [] (some [(b!"Token", b!"TokenSymbol"), (b!"DEXShare", b!"(TokenSymbol, TokenSymbol)"), (b!"ERC20", b!"EvmAddress")])),
    (b!"codeinfo", .struct (some [(b!"codeSize", b!"u32"), (b!"refCount", b!"u32")])),
    (b!"oraclevalue", .u128),
    (b!"timestampedvalue", .struct (some [(b!"value", b!"OracleValue"), (b!"timestamp", b!"Moment")])),
    (b!"ormlvestingschedule", .struct (some [(b!"start", b!"BlockNumber"), (b!"period", b!"BlockNumber"), (b!"periodCount", b!"u32"), (b!"perPeriod", b!"Compact<Balance>")])) ]

/-- Classes of the names of network/robonomics-test.json. -/
def robonomics_test : List (Str × Cls) :=
  [ (b!"weight", .u64),
    (b!"compactassignments", .struct (some [(b!"votes1", b!"Vec<(NominatorIndexCompact, ValidatorIndexCompact)>"), (b!"votes2", b!"Vec<(NominatorIndexCompact, CompactScoreCompact, ValidatorIndexCompact)>"), (b!"votes3", b!"Vec<(NominatorIndexCompact, [CompactScoreCompact; 2], ValidatorIndexCompact)>"), (b!"votes4", b!"Vec<(NominatorIndexCompact, [CompactScoreCompact; 3], ValidatorIndexCompact)>"), (b!"votes5", b!"Vec<(NominatorIndexCompact, [CompactScoreCompact; 4], ValidatorIndexCompact)>"), (b!"votes6", b!"Vec<(NominatorIndexCompact, [CompactScoreCompact; 5], ValidatorIndexCompact)>"), (b!"votes7", b!"Vec<(NominatorIndexCompact, [CompactScoreCompact; 6], ValidatorIndexCompact)>"), (b!"votes8", b!"Vec<(NominatorIndexCompact, [CompactScoreCompact; 7], ValidatorIndexCompact)>"), (b!"votes9", b!"Vec<(NominatorIndexCompact, [CompactScoreCompact; 8], ValidatorIndexCompact)>"), (b!"votes10", b!"Vec<(NominatorIndexCompact, [CompactScoreCompact; 9], ValidatorIndexCompact)>"), (b!"votes11", b!"Vec<(NominatorIndexCompact, [CompactScoreCompact; 10], ValidatorIndexCompact)>"), (b!"votes12", b!"Vec<(NominatorIndexCompact, [CompactScoreCompact; 11], ValidatorIndexCompact)>"), (b!"votes13", b!"Vec<(NominatorIndexCompact, [CompactScoreCompact; 12], ValidatorIndexCompact)>"), (b!"votes14", b!"Vec<(NominatorIndexCompact, [CompactScoreCompact; 13], ValidatorIndexCompact)>"), (b!"votes15", b!"Vec<(NominatorIndexCompact, [CompactScoreCompact; 14], ValidatorIndexCompact)>"), (b!"votes16", b!"Vec<(NominatorIndexCompact, [CompactScoreCompact; 15], ValidatorIndexCompact)>")])),
    (b!"refcount", .u32),
    (b!"address", .enum [] (some [(b!"Id", b!"AccountId"), (b!"Index", b!"Compact<AccountIndex>"), (b!"Raw", b!"Bytes"), (b!"Address32", b!"H256"), (b!"Address20", b!"H160")])),
    (b!"lookupsource", .enum [] (some [(b!"Id", b!"AccountId"), (b!"Index", b!"Compact<AccountIndex>"), (b!"Raw", b!"Bytes"), (b!"Address32", b!"H256"), (b!"Address20", b!"H160")])),
    (b!"accountinfo", .struct (some [(b!"nonce", b!"Index"), (b!"consumers", b!"RefCount"), (b!"providers", b!"RefCount"), (b!"sufficients", b!"RefCount"), (b!"data", b!"AccountData")])),
    (b!"launchparameter", .bool),
    (b!"lighthouse", .accountId),
    (b!"liabilityindex", .u32),
    (b!"ringbufferitem", .struct (some [(b!"col1", b!"Compact<Moment>"), (b!"col2", b!"Record")])),
    (b!"reportfor", .struct (some [(b!"index", b!"LiabilityIndex"), (b!"sender", b!"AccountId"), (b!"payload", b!"Vec<u8>"), (b!"signature", b!"MultiSignature")])),
    (b!"economics", .null),
    (b!"agreement", .struct (some [(b!"technics", b!"Technics"), (b!"economics", b!"Economics"), (b!"promisee", b!"AccountId"), (b!"promisor", b!"AccountId"), (b!"promisee_signature", b!"MultiSignature"), (b!"promisor_signature", b!"MultiSignature")])),
    (b!"ringbufferindex", .struct (some [(b!"start", b!"u64"), (b!"end", b!"u64")])),
    (b!"record", .bytes),
    (b!"technics", .bytes),
    (b!"report", .struct (some [(b!"index", b!"LiabilityIndex"), (b!"sender", b!"AccountId"), (b!"payload", b!"Vec<u8>"), (b!"signature", b!"MultiSignature")])),
    (b!"parameter", .bool),
    (b!"moment", .u64),
    (b!"stakerledger", .struct (some [(b!"stash", b!"AccountId"), (b!"total", b!"Compact<Balance>"), (b!"active", b!"Compact<Balance>"), (b!"unlocking", b!"Vec<UnlockChunk>"), (b!"claimed_rewards", b!"Moment")])),
    (b!"unlockchunk", .struct (some [(b!"value", b!"Compact<Balance>"), (b!"moment", b!"Compact<Moment>")])) ]

/-- Classes of the names of network/rococo.json. -/
def rococo : List (Str × Cls) :=
  [ (b!"weight", .u64),
    (b!"compactassignments", .struct (some [(b!"votes1", b!"Vec<(NominatorIndexCompact, ValidatorIndexCompact)>"), (b!"votes2", b!"Vec<(NominatorIndexCompact, CompactScoreCompact, ValidatorIndexCompact)>"), (b!"votes3", b!"Vec<(NominatorIndexCompact, [CompactScoreCompact; 2], ValidatorIndexCompact)>"), (b!"votes4", b!"Vec<(NominatorIndexCompact, [CompactScoreCompact; 3], ValidatorIndexCompact)>"), (b!"votes5", b!"Vec<(NominatorIndexCompact, [CompactScoreCompact; 4], ValidatorIndexCompact)>"), (b!"votes6", b!"Vec<(NominatorIndexCompact, [CompactScoreCompact; 5], ValidatorIndexCompact)>"), (b!"votes7", b!"Vec<(NominatorIndexCompact, [CompactScoreCompact; 6], ValidatorIndexCompact)>"), (b!"votes8", b!"Vec<(NominatorIndexCompact, [CompactScoreCompact; 7], ValidatorIndexCompact)>"), (b!"votes9", b!"Vec<(NominatorIndexCompact, [CompactScoreCompact; 8], ValidatorIndexCompact)>"), (b!"votes10", b!"Vec<(NominatorIndexCompact, [CompactScoreCompact; 9], ValidatorIndexCompact)>"), (b!"votes11", b!"Vec<(NominatorIndexCompact, [CompactScoreCompact; 10], ValidatorIndexCompact)>"), (b!"votes12", b!"Vec<(NominatorIndexCompact, [CompactScoreCompact; 11], ValidatorIndexCompact)>"), (b!"votes13", b!"Vec<(NominatorIndexCompact, [CompactScoreCompact; 12], ValidatorIndexCompact)>"), (b!"votes14", b!"Vec<(NominatorIndexCompact, [CompactScoreCompact; 13], ValidatorIndexCompact)>"), (b!"votes15", b!"Vec<(NominatorIndexCompact, [CompactScoreCompact; 14], ValidatorIndexCompact)>"), (b!"votes16", b!"Vec<(NominatorIndexCompact, [CompactScoreCompact; 15], ValidatorIndexCompact)>")])),
    (b!"refcount", .u32),
    (b!"dispatchresult", .enum [] (some [(b!"Ok", b!"Null"), (b!"Error", b!"DispatchError")])),
    (b!"address", .enum [] (some [(b!"Id", b!"AccountId"), (b!"Index", b!"Compact<AccountIndex>"), (b!"Raw", b!"Bytes"), (b!"Address32", b!"H256"), (b!"Address20", b!"H160")])),
    (b!"lookupsource", .enum [] (some [(b!"Id", b!"AccountId"), (b!"Index", b!"Compact<AccountIndex>"), (b!"Raw", b!"Bytes"), (b!"Address32", b!"H256"), (b!"Address20", b!"H160")])),
    (b!"box<<t as config>::call>", .call),
    (b!"keys#0-12", .struct (some [(b!"grandpa", b!"AccountId"), (b!"babe", b!"AccountId"), (b!"im_online", b!"AccountId"), (b!"authority_discovery", b!"AccountId"), (b!"parachains", b!"AccountId")])),
    (b!"keys", .struct (some [(b!"col1", b!"AccountId"), (b!"col2", b!"AccountId"), (b!"col3", b!"AccountId"), (b!"col4", b!"AccountId"), (b!"col5", b!"AccountId"), (b!"col6", b!"AccountId"), (b!"col7", b!"BeefyKey")])),
    (b!"proposal<accountid, validatorid, balanceof>", .struct (some [(b!"proposer", b!"AccountId"), (b!"genesis_head", b!"HeadData"), (b!"validators", b!"Vec<ValidatorId>"), (b!"name", b!"Vec<U8>"), (b!"balance", b!"Balance")])),
    (b!"fullidentification", .null),
    (b!"accountinfo", .struct (some [(b!"nonce", b!"Index"), (b!"consumers", b!"RefCount"), (b!"providers", b!"RefCount"), (b!"sufficients", b!"RefCount"), (b!"data", b!"AccountData")])),
    (b!"auctionindex", .u32),
    (b!"slots::auctionindex", .u32),
    (b!"auctions::auctionindex", .u32),
    (b!"fundindex", .u32),
    (b!"lastcontribution<blocknumber>", .enum [] (some [(b!"Never", b!"Null"), (b!"PreEnding", b!"slots::AuctionIndex"), (b!"Ending", b!"BlockNumber")])),
    (b!"trieindex", .u32),
    (b!"(leaseperiodof, blocknumber)", .struct (some [(b!"lease_index", b!"LeasePeriodOf"), (b!"ending_block", b!"BlockNumber")])),
    (b!"headdata", .bytes),
    (b!"validationcode", .bytes),
    (b!"paragenesisargs", .struct (some [(b!"genesis_head", b!"HeadData"), (b!"validation_code", b!"ValidationCode"), (b!"parachain", b!"bool")])),
    (b!"parainfo<accountid, balanceof>", .struct (some [(b!"manager", b!"AccountId"), (b!"deposit", b!"Balance")])),
    (b!"(accountid, balanceof)", .struct (some [(b!"manager", b!"AccountId"), (b!"deposit", b!"Balance")])),
    (b!"vec<option<(accountid, balanceof)>>", .vec b!"Option<ParaInfo>"),
    (b!"winningdata", .fixedArray 36 b!"Option<WinnerData>"),
    (b!"winnerdata", .struct (some [(b!"accountId", b!"AccountId"), (b!"paraId", b!"ParaId"), (b!"amount", b!"Balance")])),
    (b!"validatorindex", .u32),
    (b!"compactassignments#9010-?", .struct (some [(b!"votes1", b!"Vec<(NominatorIndexCompact, ValidatorIndexCompact)>"), (b!"votes2", b!"Vec<(NominatorIndexCompact, CompactScoreCompact, ValidatorIndexCompact)>"), (b!"votes3", b!"Vec<(NominatorIndexCompact, [CompactScoreCompact; 2], ValidatorIndexCompact)>"), (b!"votes4", b!"Vec<(NominatorIndexCompact, [CompactScoreCompact; 3], ValidatorIndexCompact)>"), (b!"votes5", b!"Vec<(NominatorIndexCompact, [CompactScoreCompact; 4], ValidatorIndexCompact)>"), (b!"votes6", b!"Vec<(NominatorIndexCompact, [CompactScoreCompact; 5], ValidatorIndexCompact)>"), (b!"votes7", b!"Vec<(NominatorIndexCompact, [CompactScoreCompact; 6], ValidatorIndexCompact)>"), (b!"votes8", b!"Vec<(NominatorIndexCompact, [CompactScoreCompact; 7], ValidatorIndexCompact)>"), (b!"votes9", b!"Vec<(NominatorIndexCompact, [CompactScoreCompact; 8], ValidatorIndexCompact)>"), (b!"votes10", b!"Vec<(NominatorIndexCompact, [CompactScoreCompact; 9], ValidatorIndexCompact)>"), (b!"votes11", b!"Vec<(NominatorIndexCompact, [CompactScoreCompact; 10], ValidatorIndexCompact)>"), (b!"votes12", b!"Vec<(NominatorIndexCompact, [CompactScoreCompact; 11], ValidatorIndexCompact)>"), (b!"votes13", b!"Vec<(NominatorIndexCompact, [CompactScoreCompact; 12], ValidatorIndexCompact)>"), (b!"votes14", b!"Vec<(NominatorIndexCompact, [CompactScoreCompact; 13], ValidatorIndexCompact)>"), (b!"votes15", b!"Vec<(NominatorIndexCompact, [CompactScoreCompact; 14], ValidatorIndexCompact)>"), (b!"votes16", b!"Vec<(NominatorIndexCompact, [CompactScoreCompact; 15], ValidatorIndexCompact)>"), (b!"votes17", b!"Vec<(NominatorIndexCompact, [CompactScoreCompact; 16], ValidatorIndexCompact)>"), (b!"votes18", b!"Vec<(NominatorIndexCompact, [CompactScoreCompact; 17], ValidatorIndexCompact)>"), (b!"votes19", b!"Vec<(NominatorIndexCompact, [CompactScoreCompact; 18], ValidatorIndexCompact)>"), (b!"votes20", b!"Vec<(NominatorIndexCompact, [CompactScoreCompact; 19], ValidatorIndexCompact)>"), (b!"votes21", b!"Vec<(NominatorIndexCompact, [CompactScoreCompact; 20], ValidatorIndexCompact)>"), (b!"votes22", b!"Vec<(NominatorIndexCompact, [CompactScoreCompact; 21], ValidatorIndexCompact)>"), (b!"votes23", b!"Vec<(NominatorIndexCompact, [CompactScoreCompact; 22], ValidatorIndexCompact)>"), (b!"votes24", b!"Vec<(NominatorIndexCompact, [CompactScoreCompact; 23], ValidatorIndexCompact)>")])),
    (b!"assetinstance", .enum [] (some [(b!"Undefined", b!"Null"), (b!"Index8", b!"u8"), (b!"Index16", b!"Compact<u16>"), (b!"Index32", b!"Compact<u32>"), (b!"Index64", b!"Compact<u64>"), (b!"Index128", b!"Compact<u128>"), (b!"Array4", b!"[u8; 4]"), (b!"Array8", b!"[u8; 8]"), (b!"Array16", b!"[u8; 16]"), (b!"Array32", b!"[u8; 32]"), (b!"Blob", b!"Vec<u8>")])),
    (b!"multiasset", .enum [] (some [(b!"None", b!"Null"), (b!"All", b!"Null"), (b!"AllFungible", b!"Null"), (b!"AllNonFungible", b!"Null"), (b!"AllAbstractFungible", b!"Vec<u8>"), (b!"AllAbstractNonFungible", b!"Vec<u8>"), (b!"AllConcreteFungible", b!"MultiLocationV0"), (b!"AllConcreteNonFungible", b!"MultiLocationV0"), (b!"AbstractFungible", b!"[[\"id\", \"Vec<u8>\"], [\"instance\", \"Compact<u128>\"]]"), (b!"AbstractNonFungible", b!"[[\"class\", \"Vec<u8>\"], [\"instance\", \"AssetInstanceV0\"]]"), (b!"ConcreteFungible", b!"[[\"id\", \"MultiLocationV0\"], [\"amount\", \"Compact<u128>\"]]"), (b!"ConcreteNonFungible", b!"[[\"class\", \"MultiLocationV0\"], [\"instance\", \"AssetInstanceV0\"]]")])),
    (b!"xcm", .enum [] (some [(b!"WithdrawAsset", b!"[[\"assets\", \"Vec<MultiAssetV0>\"], [\"effects\", \"Vec<XcmOrderV0>\"]]"), (b!"ReserveAssetDeposit", b!"[[\"assets\", \"Vec<MultiAssetV0>\"], [\"effects\", \"Vec<XcmOrderV0>\"]]"), (b!"TeleportAsset", b!"[[\"assets\", \"Vec<MultiAssetV0>\"], [\"effects\", \"Vec<XcmOrderV0>\"]]"), (b!"QueryResponse", b!"[[\"queryId\", \"Compact<u64>\"], [\"response\", \"ResponseV0\"]]"), (b!"TransferAsset", b!"[[\"assets\", \"Vec<MultiAssetV0>\"], [\"dest\", \"MultiLocationV0\"]]"), (b!"TransferReserveAsset", b!"[[\"assets\", \"Vec<MultiAssetV0>\"], [\"dest\", \"MultiLocationV0\"], [\"effects\", \"Vec<XcmOrderV0>\"]]"), (b!"Transact", b!"[[\"originType\", \"XcmOriginKind\"], [\"requireWeightAtMost\", \"u64\"], [\"call\", \"DoubleEncodedCall\"]]"), (b!"HrmpNewChannelOpenRequest", b!"[[\"sender\", \"Compact<u32>\"], [\"maxMessageSize\", \"Compact<u32>\"], [\"maxCapacity\", \"Compact<u32>\"]]"), (b!"HrmpChannelAccepted", b!"[[\"recipient\", \"Compact<u32>\"]]"), (b!"HrmpChannelClosing", b!"[[\"initiator\", \"Compact<u32>\"], [\"sender\", \"Compact<u32>\"], [\"recipient\", \"Compact<u32>\"]]"), (b!"RelayedFrom", b!"[[\"who\", \"MultiLocationV0\"], [\"message\", \"XcmV0\"]]")])),
    (b!"xcmorder", .enum [] (some [(b!"Null", b!"Null"), (b!"DepositAsset", b!"[[\"assets\", \"Vec<MultiAssetV0>\"], [\"dest\", \"MultiLocationV0\"]]"), (b!"DepositReserveAsset", b!"[[\"assets\", \"Vec<MultiAssetV0>\"], [\"dest\", \"MultiLocationV0\"], [\"effects\", \"Vec<XcmOrderV0>\"]]"), (b!"ExchangeAsset", b!"[[\"give\", \"Vec<MultiAssetV0>\"], [\"receive\", \"Vec<MultiAssetV0>\"]]"), (b!"InitiateReserveWithdraw", b!"[[\"assets\", \"Vec<MultiAssetV0>\"], [\"reserve\", \"MultiLocationV0\"], [\"effects\", \"Vec<XcmOrderV0>\"]]"), (b!"InitiateTeleport", b!"[[\"assets\", \"Vec<MultiAssetV0>\"], [\"dest\", \"MultiLocationV0\"], [\"effects\", \"Vec<XcmOrderV0>\"]]"), (b!"QueryHolding", b!"[[\"queryId\", \"Compact<u64>\"], [\"dest\", \"MultiLocationV0\"], [\"assets\", \"Vec<MultiAssetV0>\"]]"), (b!"BuyExecution", b!"[[\"fees\", \"MultiAssetV0\"], [\"weight\", \"u64\"], [\"debt\", \"u64\"], [\"haltOnError\", \"bool\"], [\"xcm\", \"Vec<XcmV0>\"]]")])),
    (b!"multilocation", .enum [] (some [(b!"Here", b!"Null"), (b!"X1", b!"JunctionV0"), (b!"X2", b!"(JunctionV0, JunctionV0)"), (b!"X3", b!"(JunctionV0, JunctionV0, JunctionV0)"), (b!"X4", b!"(JunctionV0, JunctionV0, JunctionV0, JunctionV0)"), (b!"X5", b!"(JunctionV0, JunctionV0, JunctionV0, JunctionV0, JunctionV0)"), (b!"X6", b!"(JunctionV0, JunctionV0, JunctionV0, JunctionV0, JunctionV0, JunctionV0)"), (b!"X7", b!"(JunctionV0, JunctionV0, JunctionV0, JunctionV0, JunctionV0, JunctionV0, JunctionV0)"), (b!"X8", b!"(JunctionV0, JunctionV0, JunctionV0, JunctionV0, JunctionV0, JunctionV0, JunctionV0, JunctionV0)")])) ]

/-- Classes of the names of network/sakura.json. -/
def sakura : List (Str × Cls) :=
  [ (b!"exchangeinfo", .struct (some [(b!"balance", b!"Balance"), (b!"routes", b!"Vec<CurrencyTypeEnum>")])),
    (b!"ratio", .u128),
    (b!"currencyid", .enum [b!"CLV", b!"CUSDT", b!"DOT", b!"CETH"] none),
    (b!"ecdsasignature", .fixedU8 65),
    (b!"price", .u128),
    (b!"poolid", .enum [] (some [(b!"Swap", b!"u64")])),
    (b!"share", .u128),
    (b!"rate", .u128),
    (b!"currencytypeenum", .enum [b!"CLV", b!"CUSDT", b!"DOT", b!"CETH"] none),
    (b!"currencyidof", .enum [b!"CLV", b!"CUSDT", b!"DOT", b!"CETH"] none),
    (b!"amount", .intFixed 16),
    (b!"evmaddress", .hash 20),
    (b!"currencyinfo", .struct (some [(b!"id", b!"CurrencyId"), (b!"name", b!"CurrencyTypeEnum")])),
    (b!"pairkey", .u64),
    (b!"amountof", .intFixed 16),
    (b!"oraclekey", .enum [b!"CLV", b!"CUSDT", b!"DOT", b!"CETH"] none),
    (b!"balance", .u128),
    (b!"weight", .u64),
    (b!"compactassignments", .struct (some [(b!"votes1", b!"Vec<(NominatorIndexCompact, ValidatorIndexCompact)>"), (b!"votes2", b!"Vec<(NominatorIndexCompact, CompactScoreCompact, ValidatorIndexCompact)>"), (b!"votes3", b!"Vec<(NominatorIndexCompact, [CompactScoreCompact; 2], ValidatorIndexCompact)>"), (b!"votes4", b!"Vec<(NominatorIndexCompact, [CompactScoreCompact; 3], ValidatorIndexCompact)>"), (b!"votes5", b!"Vec<(NominatorIndexCompact, [CompactScoreCompact; 4], ValidatorIndexCompact)>"), (b!"votes6", b!"Vec<(NominatorIndexCompact, [CompactScoreCompact; 5], ValidatorIndexCompact)>"), (b!"votes7", b!"Vec<(NominatorIndexCompact, [CompactScoreCompact; 6], ValidatorIndexCompact)>"), (b!"votes8", b!"Vec<(NominatorIndexCompact, [CompactScoreCompact; 7], ValidatorIndexCompact)>"), (b!"votes9", b!"Vec<(NominatorIndexCompact, [CompactScoreCompact; 8], ValidatorIndexCompact)>"), (b!"votes10", b!"Vec<(NominatorIndexCompact, [CompactScoreCompact; 9], ValidatorIndexCompact)>"), (b!"votes11", b!"Vec<(NominatorIndexCompact, [CompactScoreCompact; 10], ValidatorIndexCompact)>"), (b!"votes12", b!"Vec<(NominatorIndexCompact, [CompactScoreCompact; 11], ValidatorIndexCompact)>"), (b!"votes13", b!"Vec<(NominatorIndexCompact, [CompactScoreCompact; 12], ValidatorIndexCompact)>"), (b!"votes14", b!"Vec<(NominatorIndexCompact, [CompactScoreCompact; 13], ValidatorIndexCompact)>"), (b!"votes15", b!"Vec<(NominatorIndexCompact, [CompactScoreCompact; 14], ValidatorIndexCompact)>"), (b!"votes16", b!"Vec<(NominatorIndexCompact, [CompactScoreCompact; 15], ValidatorIndexCompact)>")])),
    (b!"refcount", .u32),
    (b!"dispatchresult", .enum [] (some [(b!"Ok", b!"Null"), (b!"Error", b!"DispatchError")])),
    (b!"transactionrecoveryid", .u64),
    (b!"transactionsignature", .struct (some [(b!"v", b!"TransactionRecoveryId"), (b!"r", b!"H256"), (b!"s", b!"H256")])),
    (b!"address", .enum [] (some [(b!"Id", b!"AccountId"), (b!"Index", b!"Compact<AccountIndex>"), (b!"Raw", b!"Bytes"), (b!"Address32", b!"H256"), (b!"Address20", b!"H160")])),
    (b!"lookupsource", .enum [] (some [(b!"Id", b!"AccountId"), (b!"Index", b!"Compact<AccountIndex>"), (b!"Raw", b!"Bytes"), (b!"Address32", b!"H256"), (b!"Address20", b!"H160")])),
    (b!"accountinfo", .struct (some [(b!"nonce", b!"Index"), (b!"consumers", b!"RefCount"), (b!"providers", b!"RefCount"), (b!"data", b!"AccountData")])),
    (b!"keys", .struct (some [(b!"col1", b!"AccountId"), (b!"col2", b!"AccountId"), (b!"col3", b!"AccountId"), (b!"col4", b!"AccountId")])),
    (b!"fixedu128", .u128),
    (b!"bridgenetworks", .enum [b!"BSC", b!"Ethereum"] none),
    (b!"ethereumtxhash", .hash 32) ]

/-- Classes of the names of network/shibuya.json. -/
def shibuya : List (Str × Cls) :=
  [ (b!"weight", .u64),
    (b!"compactassignments", .struct (some [(b!"votes1", b!"Vec<(NominatorIndexCompact, ValidatorIndexCompact)>"), (b!"votes2", b!"Vec<(NominatorIndexCompact, CompactScoreCompact, ValidatorIndexCompact)>"), (b!"votes3", b!"Vec<(NominatorIndexCompact, [CompactScoreCompact; 2], ValidatorIndexCompact)>"), (b!"votes4", b!"Vec<(NominatorIndexCompact, [CompactScoreCompact; 3], ValidatorIndexCompact)>"), (b!"votes5", b!"Vec<(NominatorIndexCompact, [CompactScoreCompact; 4], ValidatorIndexCompact)>"), (b!"votes6", b!"Vec<(NominatorIndexCompact, [CompactScoreCompact; 5], ValidatorIndexCompact)>"), (b!"votes7", b!"Vec<(NominatorIndexCompact, [CompactScoreCompact; 6], ValidatorIndexCompact)>"), (b!"votes8", b!"Vec<(NominatorIndexCompact, [CompactScoreCompact; 7], ValidatorIndexCompact)>"), (b!"votes9", b!"Vec<(NominatorIndexCompact, [CompactScoreCompact; 8], ValidatorIndexCompact)>"), (b!"votes10", b!"Vec<(NominatorIndexCompact, [CompactScoreCompact; 9], ValidatorIndexCompact)>"), (b!"votes11", b!"Vec<(NominatorIndexCompact, [CompactScoreCompact; 10], ValidatorIndexCompact)>"), (b!"votes12", b!"Vec<(NominatorIndexCompact, [CompactScoreCompact; 11], ValidatorIndexCompact)>"), (b!"votes13", b!"Vec<(NominatorIndexCompact, [CompactScoreCompact; 12], ValidatorIndexCompact)>"), (b!"votes14", b!"Vec<(NominatorIndexCompact, [CompactScoreCompact; 13], ValidatorIndexCompact)>"), (b!"votes15", b!"Vec<(NominatorIndexCompact, [CompactScoreCompact; 14], ValidatorIndexCompact)>"), (b!"votes16", b!"Vec<(NominatorIndexCompact, [CompactScoreCompact; 15], ValidatorIndexCompact)>")])),
    (b!"refcount", .u32),
    (b!"address", .enum [] (some [(b!"Id", b!"AccountId"), (b!"Index", b!"Compact<AccountIndex>"), (b!"Raw", b!"Bytes"), (b!"Address32", b!"H256"), (b!"Address20", b!"H160")])),
    (b!"lookupsource", .enum [] (some [(b!"Id", b!"AccountId"), (b!"Index", b!"Compact<AccountIndex>"), (b!"Raw", b!"Bytes"), (b!"Address32", b!"H256"), (b!"Address20", b!"H160")])),
    (b!"accountinfo", .struct (some [(b!"nonce", b!"Index"), (b!"consumers", b!"RefCount"), (b!"providers", b!"RefCount"), (b!"sufficients", b!"RefCount"), (b!"data", b!"AccountData")])),
    (b!"keys", .struct (some [(b!"col1", b!"AccountId")])) ]

/-- Classes of the names of network/shiden.json. -/
def shiden : List (Str × Cls) :=
  [ (b!"weight", .u64),
    (b!"compactassignments", .struct (some [(b!"votes1", b!"Vec<(NominatorIndexCompact, ValidatorIndexCompact)>"), (b!"votes2", b!"Vec<(NominatorIndexCompact, CompactScoreCompact, ValidatorIndexCompact)>"), (b!"votes3", b!"Vec<(NominatorIndexCompact, [CompactScoreCompact; 2], ValidatorIndexCompact)>"), (b!"votes4", b!"Vec<(NominatorIndexCompact, [CompactScoreCompact; 3], ValidatorIndexCompact)>"), (b!"votes5", b!"Vec<(NominatorIndexCompact, [CompactScoreCompact; 4], ValidatorIndexCompact)>"), (b!"votes6", b!"Vec<(NominatorIndexCompact, [CompactScoreCompact; 5], ValidatorIndexCompact)>"), (b!"votes7", b!"Vec<(NominatorIndexCompact, [CompactScoreCompact; 6], ValidatorIndexCompact)>"), (b!"votes8", b!"Vec<(NominatorIndexCompact, [CompactScoreCompact; 7], ValidatorIndexCompact)>"), (b!"votes9", b!"Vec<(NominatorIndexCompact, [CompactScoreCompact; 8], ValidatorIndexCompact)>"), (b!"votes10", b!"Vec<(NominatorIndexCompact, [CompactScoreCompact; 9], ValidatorIndexCompact)>"), (b!"votes11", b!"Vec<(NominatorIndexCompact, [CompactScoreCompact; 10], ValidatorIndexCompact)>"), (b!"votes12", b!"Vec<(NominatorIndexCompact, [CompactScoreCompact; 11], ValidatorIndexCompact)>"), (b!"votes13", b!"Vec<(NominatorIndexCompact, [CompactScoreCompact; 12], ValidatorIndexCompact)>"), (b!"votes14", b!"Vec<(NominatorIndexCompact, [CompactScoreCompact; 13], ValidatorIndexCompact)>"), (b!"votes15", b!"Vec<(NominatorIndexCompact, [CompactScoreCompact; 14], ValidatorIndexCompact)>"), (b!"votes16", b!"Vec<(NominatorIndexCompact, [CompactScoreCompact; 15], ValidatorIndexCompact)>")])),
    (b!"refcount", .u32),
    (b!"address", .enum [] (some [(b!"Id", b!"AccountId"), (b!"Index", b!"Compact<AccountIndex>"), (b!"Raw", b!"Bytes"), (b!"Address32", b!"H256"), (b!"Address20", b!"H160")])),
    (b!"lookupsource", .enum [] (some [(b!"Id", b!"AccountId"), (b!"Index", b!"Compact<AccountIndex>"), (b!"Raw", b!"Bytes"), (b!"Address32", b!"H256"), (b!"Address20", b!"H160")])),
    (b!"accountinfo", .struct (some [(b!"nonce", b!"Index"), (b!"consumers", b!"RefCount"), (b!"providers", b!"RefCount"), (b!"sufficients", b!"RefCount"), (b!"data", b!"AccountData")])),
    (b!"keys", .struct (some [(b!"col1", b!"AccountId")])) ]

/-- Classes of the names of network/sora.json. -/
def sora : List (Str × Cls) :=
  [ (b!"weight", .u64),
    (b!"compactassignments", .struct (some [(b!"votes1", b!"Vec<(NominatorIndexCompact, ValidatorIndexCompact)>"), (b!"votes2", b!"Vec<(NominatorIndexCompact, CompactScoreCompact, ValidatorIndexCompact)>"), (b!"votes3", b!"Vec<(NominatorIndexCompact, [CompactScoreCompact; 2], ValidatorIndexCompact)>"), (b!"votes4", b!"Vec<(NominatorIndexCompact, [CompactScoreCompact; 3], ValidatorIndexCompact)>"), (b!"votes5", b!"Vec<(NominatorIndexCompact, [CompactScoreCompact; 4], ValidatorIndexCompact)>"), (b!"votes6", b!"Vec<(NominatorIndexCompact, [CompactScoreCompact; 5], ValidatorIndexCompact)>"), (b!"votes7", b!"Vec<(NominatorIndexCompact, [CompactScoreCompact; 6], ValidatorIndexCompact)>"), (b!"votes8", b!"Vec<(NominatorIndexCompact, [CompactScoreCompact; 7], ValidatorIndexCompact)>"), (b!"votes9", b!"Vec<(NominatorIndexCompact, [CompactScoreCompact; 8], ValidatorIndexCompact)>"), (b!"votes10", b!"Vec<(NominatorIndexCompact, [CompactScoreCompact; 9], ValidatorIndexCompact)>"), (b!"votes11", b!"Vec<(NominatorIndexCompact, [CompactScoreCompact; 10], ValidatorIndexCompact)>"), (b!"votes12", b!"Vec<(NominatorIndexCompact, [CompactScoreCompact; 11], ValidatorIndexCompact)>"), (b!"votes13", b!"Vec<(NominatorIndexCompact, [CompactScoreCompact; 12], ValidatorIndexCompact)>"), (b!"votes14", b!"Vec<(NominatorIndexCompact, [CompactScoreCompact; 13], ValidatorIndexCompact)>"), (b!"votes15", b!"Vec<(NominatorIndexCompact, [CompactScoreCompact; 14], ValidatorIndexCompact)>"), (b!"votes16", b!"Vec<(NominatorIndexCompact, [CompactScoreCompact; 15], ValidatorIndexCompact)>")])),
    (b!"accountinfo", .struct (some [(b!"nonce", b!"Index"), (b!"consumers", b!"RefCount"), (b!"providers", b!"RefCount"), (b!"data", b!"AccountData")])),
    (b!"sr25519public", .fixedU8 32),
    (b!"sessionkeys2", .struct (some [(b!"col1", b!"Sr25519Public"), (b!"col2", b!"Sr25519Public")])),
    (b!"sessionkeys3", .struct (some [(b!"col1", b!"Sr25519Public"), (b!"col2", b!"Sr25519Public"), (b!"col3", b!"Sr25519Public")])),
    (b!"address", .accountId),
    (b!"lookupsource", .accountId),
    (b!"amount", .intFixed 16),
    (b!"amountof", .intFixed 16),
    (b!"assetid32", .fixedU8 32),
    (b!"assetid", .fixedU8 32),
    (b!"assetidof", .fixedU8 32),
    (b!"multichainheight", .enum [] (some [(b!"Thischain", b!"BlockNumber"), (b!"Sidechain", b!"u64")])),
    (b!"bridgetimepoint", .struct (some [(b!"height", b!"MultiChainHeight"), (b!"index", b!"u32")])),
    (b!"assetinfo", .struct (some [(b!"asset_id", b!"AssetId"), (b!"symbol", b!"AssetSymbolStr"), (b!"name", b!"AssetNameStr"), (b!"precision", b!"u8"), (b!"is_mintable", b!"bool")])),
    (b!"assetkind", .enum [b!"Thischain", b!"Sidechain", b!"SidechainOwned"] none),
    (b!"assetname", .bytes),
    (b!"assetnamestr", .string),
    (b!"assetrecord", .null),
    (b!"assetsymbol", .bytes),
    (b!"assetsymbolstr", .string),
    (b!"balance", .u128),
    (b!"balanceinfo", .struct (some [(b!"balance", b!"Balance")])),
    (b!"balanceprecision", .u8),
    (b!"basispoints", .u16),
    (b!"bridgenetworkid", .u32),
    (b!"networkid", .u32),
    (b!"bridgestatus", .enum [b!"Initialized", b!"Migrating"] none),
    (b!"changepeerscontract", .enum [b!"XOR", b!"VAL"] none),
    (b!"chargefeeinfo", .struct (some [(b!"tip", b!"Compact<Balance>"), (b!"target_asset_id", b!"AssetId")])),
    (b!"currencyid", .fixedU8 32),
    (b!"currencyidencoded", .enum [] (some [(b!"AssetId", b!"H256"), (b!"TokenAddress", b!"H160")])),
    (b!"currencyidof", .fixedU8 32),
    (b!"t::accountid", .accountId),
    (b!"custominfo", .struct (some [(b!"amount", b!"Balance")])),
    (b!"dexid", .u32),
    (b!"dexidof", .u32),
    (b!"dexinfo", .struct (some [(b!"base_asset_id", b!"AssetId"), (b!"default_fee", b!"BasisPoints"), (b!"default_protocol_fee", b!"BasisPoints")])),
    (b!"dispatcherrorwithpostinfotpostdispatchinfo", .struct (some [(b!"post_info", b!"PostDispatchInfo"), (b!"error", b!"DispatchError")])),
    (b!"dispatchresultwithpostinfo", .enum [] (some [(b!"Ok", b!"PostDispatchInfo"), (b!"Err", b!"DispatchErrorWithPostInfoTPostDispatchInfo")])),
    (b!"distributionaccounts", .null),
    (b!"duration", .null),
    (b!"ethpeerssync", .struct (some [(b!"is_bridge_ready", b!"bool"), (b!"is_xor_ready", b!"bool"), (b!"is_val_ready", b!"bool")])),
    (b!"farm", .null),
    (b!"farmid", .u64),
    (b!"farmer", .null),
    (b!"filtermode", .enum [b!"Disabled", b!"ForbidSelected", b!"AllowSelected"] none),
    (b!"fixed", .u128),
    (b!"fixedbytes", .bytes),
    (b!"holderid", .accountId),
    (b!"incomingaddtoken", .struct (some [(b!"token_address", b!"EthereumAddress"), (b!"asset_id", b!"AssetId"), (b!"precision", b!"BalancePrecision"), (b!"symbol", b!"AssetSymbol"), (b!"name", b!"AssetName"), (b!"author", b!"AccountId"), (b!"tx_hash", b!"H256"), (b!"at_height", b!"u64"), (b!"timepoint", b!"Timepoint"), (b!"network_id", b!"BridgeNetworkId")])),
    (b!"incomingcanceloutgoingrequest", .struct (some [(b!"outgoing_request", b!"OutgoingRequest"), (b!"outgoing_request_hash", b!"H256"), (b!"initial_request_hash", b!"H256"), (b!"tx_input", b!"Vec<u8>"), (b!"author", b!"AccountId"), (b!"tx_hash", b!"H256"), (b!"at_height", b!"u64"), (b!"timepoint", b!"Timepoint"), (b!"network_id", b!"BridgeNetworkId")])),
    (b!"incomingchangepeers", .struct (some [(b!"peer_account_id", b!"AccountId"), (b!"peer_address", b!"EthereumAddress"), (b!"added", b!"bool"), (b!"author", b!"AccountId"), (b!"tx_hash", b!"H256"), (b!"at_height", b!"u64"), (b!"timepoint", b!"Timepoint"), (b!"network_id", b!"BridgeNetworkId")])),
    (b!"incomingchangepeerscompat", .struct (some [(b!"peer_account_id", b!"AccountId"), (b!"peer_address", b!"EthereumAddress"), (b!"added", b!"bool"), (b!"contract", b!"ChangePeersContract"), (b!"author", b!"AccountId"), (b!"tx_hash", b!"H256"), (b!"at_height", b!"u64"), (b!"timepoint", b!"Timepoint"), (b!"network_id", b!"BridgeNetworkId")])),
    (b!"incomingmarkasdonerequest", .struct (some [(b!"outgoing_request_hash", b!"H256"), (b!"initial_request_hash", b!"H256"), (b!"author", b!"AccountId"), (b!"at_height", b!"u64"), (b!"timepoint", b!"Timepoint"), (b!"network_id", b!"BridgeNetworkId")])),
    (b!"incomingmetarequestkind", .enum [b!"CancelOutgoingRequest", b!"MarkAsDone"] none),
    (b!"incomingmigrate", .struct (some [(b!"new_contract_address", b!"EthereumAddress"), (b!"author", b!"AccountId"), (b!"tx_hash", b!"H256"), (b!"at_height", b!"u64"), (b!"timepoint", b!"Timepoint"), (b!"network_id", b!"BridgeNetworkId")])),
    (b!"incomingprepareformigration", .struct (some [(b!"author", b!"AccountId"), (b!"tx_hash", b!"H256"), (b!"at_height", b!"u64"), (b!"timepoint", b!"Timepoint"), (b!"network_id", b!"BridgeNetworkId")])),
    (b!"incomingrequest", .enum [] (some [(b!"Transfer", b!"IncomingTransfer"), (b!"AddToken", b!"IncomingAddToken"), (b!"ChangePeers", b!"IncomingChangePeers"), (b!"CancelOutgoingRequest", b!"IncomingCancelOutgoingRequest"), (b!"MarkAsDone", b!"IncomingMarkAsDoneRequest"), (b!"PrepareForMigration", b!"IncomingPrepareForMigration"), (b!"Migrate", b!"IncomingMigrate")])),
    (b!"incomingrequestkind", .enum [] (some [(b!"Transaction", b!"IncomingTransactionRequestKind"), (b!"Meta", b!"IncomingMetaRequestKind")])),
    (b!"incomingtransactionrequestkind", .enum [b!"Transfer", b!"AddAsset", b!"AddPeer", b!"RemovePeer", b!"PrepareForMigration", b!"Migrate", b!"AddPeerCompat", b!"RemovePeerCompat", b!"TransferXOR"] none),
    (b!"incomingtransfer", .struct (some [(b!"from", b!"EthereumAddress"), (b!"to", b!"AccountId"), (b!"asset_id", b!"AssetId"), (b!"asset_kind", b!"AssetKind"), (b!"amount", b!"Balance"), (b!"author", b!"AccountId"), (b!"tx_hash", b!"H256"), (b!"at_height", b!"u64"), (b!"timepoint", b!"Timepoint"), (b!"network_id", b!"BridgeNetworkId"), (b!"should_take_fee", b!"bool")])),
    (b!"keys", .struct (some [(b!"col1", b!"Sr25519Public"), (b!"col2", b!"Sr25519Public"), (b!"col3", b!"Sr25519Public")])),
    (b!"liquiditysourcetype", .enum [b!"XYKPool", b!"BondingCurvePool", b!"MulticollateralBondingCurvePool", b!"MockPool", b!"MockPool2", b!"MockPool3", b!"MockPool4"] none),
    (b!"loadincomingmetarequest", .struct (some [(b!"author", b!"AccountId"), (b!"hash", b!"H256"), (b!"timepoint", b!"Timepoint"), (b!"kind", b!"IncomingMetaRequestKind"), (b!"network_id", b!"BridgeNetworkId")])),
    (b!"loadincomingrequest", .enum [] (some [(b!"Transaction", b!"LoadIncomingTransactionRequest"), (b!"Meta", b!"(LoadIncomingMetaRequest, H256)")])),
    (b!"loadincomingtransactionrequest", .struct (some [(b!"author", b!"AccountId"), (b!"hash", b!"H256"), (b!"timepoint", b!"Timepoint"), (b!"kind", b!"IncomingTransactionRequestKind"), (b!"network_id", b!"BridgeNetworkId")])),
    (b!"mode", .enum [b!"Permit", b!"Forbid"] none),
    (b!"multicurrencybalance", .u128),
    (b!"multisigaccount", .null),
    (b!"offchainrequest", .enum [] (some [(b!"Outgoing", b!"(OutgoingRequest, H256)"), (b!"LoadIncoming", b!"LoadIncomingRequest"), (b!"Incoming", b!"(IncomingRequest, H256)")])),
    (b!"oraclekey", .fixedU8 32),
    (b!"outgoingaddasset", .struct (some [(b!"author", b!"AccountId"), (b!"asset_id", b!"AssetId"), (b!"supply", b!"Balance"), (b!"nonce", b!"Index"), (b!"network_id", b!"BridgeNetworkId"), (b!"timepoint", b!"Timepoint")])),
    (b!"outgoingaddassetencoded", .struct (some [(b!"name", b!"String"), (b!"symbol", b!"String"), (b!"decimal", b!"u8"), (b!"supply", b!"U256"), (b!"sidechain_asset_id", b!"FixedBytes"), (b!"hash", b!"H256"), (b!"network_id", b!"H256"), (b!"raw", b!"Vec<u8>")])),
    (b!"outgoingaddpeer", .struct (some [(b!"author", b!"AccountId"), (b!"peer_address", b!"EthereumAddress"), (b!"peer_account_id", b!"AccountId"), (b!"nonce", b!"Index"), (b!"network_id", b!"BridgeNetworkId"), (b!"timepoint", b!"Timepoint")])),
    (b!"outgoingaddpeercompat", .struct (some [(b!"author", b!"AccountId"), (b!"peer_address", b!"EthereumAddress"), (b!"peer_account_id", b!"AccountId"), (b!"nonce", b!"Index"), (b!"network_id", b!"BridgeNetworkId"), (b!"timepoint", b!"Timepoint")])),
    (b!"outgoingaddpeerencoded", .struct (some [(b!"peer_address", b!"EthereumAddress"), (b!"tx_hash", b!"H256"), (b!"network_id", b!"H256"), (b!"raw", b!"Vec<u8>")])),
    (b!"outgoingaddtoken", .struct (some [(b!"author", b!"AccountId"), (b!"token_address", b!"EthereumAddress"), (b!"ticker", b!"String"), (b!"name", b!"String"), (b!"decimals", b!"u8"), (b!"nonce", b!"Index"), (b!"network_id", b!"BridgeNetworkId"), (b!"timepoint", b!"Timepoint")])),
    (b!"outgoingaddtokenencoded", .struct (some [(b!"token_address", b!"EthereumAddress"), (b!"ticker", b!"String"), (b!"name", b!"String"), (b!"decimals", b!"u8"), (b!"hash", b!"H256"), (b!"network_id", b!"H256"), (b!"raw", b!"Vec<u8>")])),
    (b!"outgoingmigrate", .struct (some [(b!"author", b!"AccountId"), (b!"new_contract_address", b!"EthereumAddress"), (b!"erc20_native_tokens", b!"Vec<EthereumAddress>"), (b!"nonce", b!"Index"), (b!"network_id", b!"BridgeNetworkId"), (b!"timepoint", b!"Timepoint")])),
    (b!"outgoingmigrateencoded", .struct (some [(b!"this_contract_address", b!"EthereumAddress"), (b!"tx_hash", b!"H256"), (b!"new_contract_address", b!"EthereumAddress"), (b!"erc20_native_tokens", b!"Vec<EthereumAddress>"), (b!"network_id", b!"H256"), (b!"raw", b!"Vec<u8>")])),
    (b!"outgoingprepareformigration", .struct (some [(b!"author", b!"AccountId"), (b!"nonce", b!"Index"), (b!"network_id", b!"BridgeNetworkId"), (b!"timepoint", b!"Timepoint")])),
    (b!"outgoingprepareformigrationencoded", .struct (some [(b!"this_contract_address", b!"EthereumAddress"), (b!"tx_hash", b!"H256"), (b!"network_id", b!"H256"), (b!"raw", b!"Vec<u8>")])),
    (b!"outgoingremovepeer", .struct (some [(b!"author", b!"AccountId"), (b!"peer_account_id", b!"AccountId"), (b!"peer_address", b!"EthereumAddress"), (b!"nonce", b!"Index"), (b!"network_id", b!"BridgeNetworkId"), (b!"timepoint", b!"Timepoint")])),
    (b!"outgoingremovepeercompat", .struct (some [(b!"author", b!"AccountId"), (b!"peer_account_id", b!"AccountId"), (b!"peer_address", b!"EthereumAddress"), (b!"nonce", b!"Index"), (b!"network_id", b!"BridgeNetworkId"), (b!"timepoint", b!"Timepoint")])),
    (b!"outgoingremovepeerencoded", .struct (some [(b!"peer_address", b!"EthereumAddress"), (b!"tx_hash", b!"H256"), (b!"network_id", b!"H256"), (b!"raw", b!"Vec<u8>")])),
    (b!"outgoingrequest", .enum [] (some [(b!"Transfer", b!"OutgoingTransfer"), (b!"AddAsset", b!"OutgoingAddAsset"), (b!"AddToken", b!"OutgoingAddToken"), (b!"AddPeer", b!"OutgoingAddPeer"), (b!"RemovePeer", b!"OutgoingRemovePeer"), (b!"PrepareForMigration", b!"OutgoingPrepareForMigration"), (b!"Migrate", b!"OutgoingMigrate")])),
    (b!"outgoingrequestencoded", .enum [] (some [(b!"Transfer", b!"OutgoingTransferEncoded"), (b!"AddAsset", b!"OutgoingAddAssetEncoded"), (b!"AddToken", b!"OutgoingAddTokenEncoded"), (b!"AddPeer", b!"OutgoingAddPeerEncoded"), (b!"RemovePeer", b!"OutgoingRemovePeerEncoded"), (b!"PrepareForMigration", b!"OutgoingPrepareForMigrationEncoded"), (b!"Migrate", b!"OutgoingMigrateEncoded")])),
    (b!"outgoingtransfer", .struct (some [(b!"from", b!"AccountId"), (b!"to", b!"EthereumAddress"), (b!"asset_id", b!"AssetId"), (b!"amount", b!"Balance"), (b!"nonce", b!"Index"), (b!"network_id", b!"BridgeNetworkId"), (b!"timepoint", b!"Timepoint")])),
    (b!"outgoingtransferencoded", .struct (some [(b!"currency_id", b!"CurrencyIdEncoded"), (b!"amount", b!"U256"), (b!"to", b!"EthereumAddress"), (b!"from", b!"EthereumAddress"), (b!"tx_hash", b!"H256"), (b!"network_id", b!"H256"), (b!"raw", b!"Vec<u8>")])),
    (b!"ownerid", .accountId),
    (b!"pendingmultisigaccount", .null),
    (b!"permission", .null),
    (b!"permissionid", .u32),
    (b!"postdispatchinfo", .struct (some [(b!"actual_weight", b!"Option<Weight>"), (b!"pays_fee", b!"Pays")])),
    (b!"public", .fixedArray 33 b!"u8"),
    (b!"quoteamount", .enum [] (some [(b!"WithDesiredInput", b!"QuoteWithDesiredInput"), (b!"WithDesiredOutput", b!"QuoteWithDesiredOutput")])),
    (b!"quotewithdesiredinput", .struct (some [(b!"desired_amount_in", b!"Balance")])),
    (b!"quotewithdesiredoutput", .struct (some [(b!"desired_amount_out", b!"Balance")])),
    (b!"refcount", .u32),
    (b!"requeststatus", .enum [b!"Pending", b!"Frozen", b!"ApprovalsReady", b!"Failed", b!"Done"] none),
    (b!"result<incomingrequest, dispatcherror>", .enum [] (some [(b!"Ok", b!"IncomingRequest"), (b!"Err", b!"DispatchError")])),
    (b!"scope", .enum [] (some [(b!"Limited", b!"H512"), (b!"Unlimited", b!"Null")])),
    (b!"signatureparams", .struct (some [(b!"r", b!"[u8; 32]"), (b!"s", b!"[u8; 32]"), (b!"v", b!"u8")])),
    (b!"btreeset<signatureparams>", .vec b!"SignatureParams"),
    (b!"btreeset<h256>", .vec b!"H256"),
    (b!"btreeset<assetid>", .vec b!"AssetId"),
    (b!"btreeset<accountid>", .vec b!"AccountId"),
    (b!"btreeset<liquiditysourcetype>", .vec b!"LiquiditySourceType"),
    (b!"ecdsa::public", .fixedArray 33 b!"u8"),
    (b!"smoothpricestate", .null),
    (b!"swapaction", .null),
    (b!"swapamount", .enum [] (some [(b!"WithDesiredInput", b!"SwapWithDesiredInput"), (b!"WithDesiredOutput", b!"SwapWithDesiredOutput")])),
    (b!"swapoutcome", .struct (some [(b!"amount", b!"Balance"), (b!"fee", b!"Balance")])),
    (b!"swapoutcomeinfo", .struct (some [(b!"amount", b!"Balance"), (b!"fee", b!"Balance")])),
    (b!"swapvariant", .enum [b!"WithDesiredInput", b!"WithDesiredOutput"] none),
    (b!"swapwithdesiredinput", .struct (some [(b!"desired_amount_in", b!"Balance"), (b!"min_amount_out", b!"Balance")])),
    (b!"swapwithdesiredoutput", .struct (some [(b!"desired_amount_out", b!"Balance"), (b!"max_amount_in", b!"Balance")])),
    (b!"tassetbalance", .u128),
    (b!"tp", .struct (some [(b!"base_asset_id", b!"AssetId"), (b!"target_asset_id", b!"AssetId")])),
    (b!"techaccountid", .enum [] (some [(b!"Pure", b!"(DEXId, TechPurpose)"), (b!"Generic", b!"(Vec<u8>, Vec<u8>)"), (b!"Wrapped", b!"AccountId"), (b!"WrappedRepr", b!"AccountId")])),
    (b!"techaccountidprimitive", .null),
    (b!"techamount", .intFixed 16),
    (b!"techassetid", .null),
    (b!"techbalance", .u128),
    (b!"techpurpose", .enum [] (some [(b!"FeeCollector", b!"Null"), (b!"LiquidityKeeper", b!"TradingPair"), (b!"Identifier", b!"Vec<u8>")])),
    (b!"tradingpair", .struct (some [(b!"base_asset_id", b!"AssetId"), (b!"target_asset_id", b!"AssetId")])),
    (b!"validationfunction", .null),
    (b!"rewardreason#0-3", .enum [b!"Unspecified", b!"BuyOnBondingCurve"] none),
    (b!"btreemap<rewardreason,balance>", .vec b!"(RewardReason,Balance)"),
    (b!"rewardinfo", .struct (some [(b!"limit", b!"Balance"), (b!"total_available", b!"Balance"), (b!"rewards", b!"BTreeMap<RewardReason,Balance>")])),
    (b!"storageversion", .null),
    (b!"marketmakerinfo", .struct (some [(b!"count", b!"u32"), (b!"volume", b!"Balance")])),
    (b!"ethbridgestorageversion", .enum [b!"V1", b!"V2RemovePendingTransfers"] none),
    (b!"rewardreason", .enum [b!"Unspecified", b!"BuyOnBondingCurve", b!"LiquidityProvisionFarming", b!"MarketMakerVolume"] none),
    (b!"accountidof", .accountId) ]

/-- Classes of the names of network/spiritnet.json. -/
def spiritnet : List (Str × Cls) :=
  [ (b!"chainid", .enum [] (some [(b!"RelayChain", b!"Null"), (b!"ParaChain", b!"ParaId")])),
    (b!"xcurrencyid", .struct (some [(b!"chainId", b!"ChainId"), (b!"currencyId", b!"Vec<u8>")])),
    (b!"currencyid", .enum [] (some [(b!"DOT", b!""), (b!"KSM", b!""), (b!"KILT", b!"")])),
    (b!"didrecord", .struct (some [(b!"signKey", b!"Hash"), (b!"boxKey", b!"Hash"), (b!"docRef", b!"Option<Vec<u8>>")])),
    (b!"publicboxkey", .hash 32),
    (b!"delegationnodeid", .hash 32),
    (b!"signature", .enum [] (some [(b!"Ed25519", b!"Ed25519Signature"), (b!"Sr25519", b!"Sr25519Signature"), (b!"Ecdsa", b!"EcdsaSignature")])),
    (b!"attestation", .struct (some [(b!"ctypeHash", b!"Hash"), (b!"attester", b!"AccountId"), (b!"delegationId", b!"Option<DelegationNodeId>"), (b!"revoked", b!"bool")])),
    (b!"xcmerror", .enum [] (some [(b!"Undefined", b!""), (b!"Unimplemented", b!""), (b!"UnhandledXcmVersion", b!""), (b!"UnhandledXcmMessage", b!""), (b!"UnhandledEffect", b!""), (b!"EscalationOfPrivilege", b!""), (b!"UntrustedReserveLocation", b!""), (b!"UntrustedTeleportLocation", b!""), (b!"DestinationBufferOverflow", b!""), (b!"CannotReachDestination", b!""), (b!"MultiLocationFull", b!""), (b!"FailedToDecode", b!""), (b!"BadOrigin", b!""), (b!"ExceedsMaxMessageSize", b!""), (b!"FailedToTransactAsset", b!"")])),
    (b!"referenduminfo", .enum [] (some [(b!"Ongoing", b!"ReferendumStatus"), (b!"Finished", b!"ReferendumInfoFinished")])),
    (b!"publicsigningkey", .hash 32),
    (b!"currencyidof", .enum [] (some [(b!"DOT", b!""), (b!"KSM", b!""), (b!"KILT", b!"")])),
    (b!"keyidof", .hash 32),
    (b!"diddeletionoperation", .struct (some [(b!"did", b!"DidIdentifierOf"), (b!"txCounter", b!"u64")])),
    (b!"lookupsource", .enum [] (some [(b!"Id", b!"AccountId"), (b!"Index", b!"Compact<AccountIndex>"), (b!"Raw", b!"Bytes"), (b!"Address32", b!"H256"), (b!"Address20", b!"H160")])),
    (b!"index", .u64),
    (b!"blocknumberof", .u64),
    (b!"roundinfo", .struct (some [(b!"current", b!"SessionIndex"), (b!"first", b!"BlockNumber"), (b!"length", b!"BlockNumber")])),
    (b!"didverificationkey", .enum [] (some [(b!"Ed25519", b!"[u8; 32]"), (b!"Sr25519", b!"[u8; 32]")])),
    (b!"stake", .struct (some [(b!"owner", b!"AccountId"), (b!"amount", b!"Balance")])),
    (b!"ctypecreatorof", .accountId),
    (b!"keyerror", .enum [b!"InvalidVerificationKeyFormat", b!"InvalidEncryptionKeyFormat"] none),
    (b!"totalstake", .struct (some [(b!"collators", b!"Balance"), (b!"delegators", b!"Balance")])),
    (b!"accountinfo", .struct (some [(b!"nonce", b!"Index"), (b!"consumers", b!"RefCount"), (b!"providers", b!"RefCount"), (b!"sufficients", b!"RefCount"), (b!"data", b!"AccountData")])),
    (b!"rewardrate", .struct (some [(b!"annual", b!"Perquintill"), (b!"perBlock", b!"Perquintill")])),
    (b!"didsignature", .enum [] (some [(b!"Ed25519", b!"Ed25519Signature"), (b!"Sr25519", b!"Sr25519Signature")])),
    (b!"delegationnodeidof", .hash 32),
    (b!"ipfsurl", .struct (some [(b!"payload", b!"Text")])),
    (b!"didcallableof", .call),
    (b!"didupdateoperation", .struct (some [(b!"did", b!"DidIdentifierOf"), (b!"newAuthenticationKey", b!"Option<DidVerificationKey>"), (b!"newKeyAgreementKeys", b!"BTreeSet<DidEncryptionKey>"), (b!"attestationKeyUpdate", b!"DidVerificationKeyUpdateAction"), (b!"delegationKeyUpdate", b!"DidVerificationKeyUpdateAction"), (b!"publicKeysToRemove", b!"BTreeSet<KeyIdOf>"), (b!"newEndpointUrl", b!"Option<Url>"), (b!"txCounter", b!"u64")])),
    (b!"diderror", .enum [] (some [(b!"StorageError", b!"StorageError"), (b!"SignatureError", b!"SignatureError"), (b!"UrlError", b!"UrlError"), (b!"InternalError", b!"Null")])),
    (b!"diddetails", .struct (some [(b!"authenticationKey", b!"KeyIdOf"), (b!"keyAgreementKeys", b!"BTreeSet<KeyIdOf>"), (b!"delegationKey", b!"Option<KeyIdOf>"), (b!"attestationKey", b!"Option<KeyIdOf>"), (b!"publicKeys", b!"BTreeMap<KeyIdOf, DidPublicKeyDetails>"), (b!"endpointUrl", b!"Option<Url>"), (b!"lastTxCounter", b!"u64")])),
    (b!"didencryptionkey", .enum [] (some [(b!"X25519", b!"[u8; 32]")])),
    (b!"httpurl", .struct (some [(b!"payload", b!"Text")])),
    (b!"attestationdetails", .struct (some [(b!"ctypeHash", b!"CtypeHashOf"), (b!"attester", b!"AttesterOf"), (b!"delegationId", b!"Option<DelegationNodeIdOf>"), (b!"revoked", b!"bool")])),
    (b!"delegationsignature", .enum [] (some [(b!"Ed25519", b!"Ed25519Signature"), (b!"Sr25519", b!"Sr25519Signature")])),
    (b!"delegationnode", .struct (some [(b!"rootId", b!"DelegationNodeIdOf"), (b!"parent", b!"Option<DelegationNodeIdOf>"), (b!"owner", b!"DelegatorIdOf"), (b!"permissions", b!"Permissions"), (b!"revoked", b!"bool")])),
    (b!"collator", .struct (some [(b!"id", b!"AccountId"), (b!"stake", b!"Balance"), (b!"delegators", b!"Vec<Stake>"), (b!"total", b!"Balance"), (b!"state", b!"CollatorStatus")])),
    (b!"lockedbalance", .struct (some [(b!"block", b!"BlockNumber"), (b!"amount", b!"Balance")])),
    (b!"didpublickey", .enum [] (some [(b!"PublicVerificationKey", b!"DidVerificationKey"), (b!"PublicEncryptionKey", b!"DidEncryptionKey")])),
    (b!"collatorsnapshot", .struct (some [(b!"stake", b!"Balance"), (b!"delegators", b!"Vec<Stake>"), (b!"total", b!"Balance")])),
    (b!"attesterof", .accountId),
    (b!"urlerror", .enum [b!"InvalidUrlEncoding", b!"InvalidUrlScheme"] none),
    (b!"delegator", .struct (some [(b!"delegations", b!"Vec<Stake>"), (b!"total", b!"Balance")])),
    (b!"balanceof", .u128),
    (b!"permissions", .u32),
    (b!"delegationroot", .struct (some [(b!"ctypeHash", b!"CtypeHashOf"), (b!"owner", b!"DelegatorIdOf"), (b!"revoked", b!"bool")])),
    (b!"collatorstatus", .enum [] (some [(b!"Active", b!"Null"), (b!"Leaving", b!"SessionIndex")])),
    (b!"didverificationkeyrelationship", .enum [b!"Authentication", b!"CapabilityDelegation", b!"CapabilityInvocation", b!"AssertionMethod"] none),
    (b!"accountidentifierof", .accountId),
    (b!"dididentifierof", .accountId),
    (b!"inflationinfo", .struct (some [(b!"collator", b!"StakingInfo"), (b!"delegator", b!"StakingInfo")])),
    (b!"url", .enum [] (some [(b!"Http", b!"HttpUrl"), (b!"Ftp", b!"FtpUrl"), (b!"Ipfs", b!"IpfsUrl")])),
    (b!"signatureerror", .enum [b!"InvalidSignatureFormat", b!"InvalidSignature", b!"InvalidNonce"] none),
    (b!"address", .enum [] (some [(b!"Id", b!"AccountId"), (b!"Index", b!"Compact<AccountIndex>"), (b!"Raw", b!"Bytes"), (b!"Address32", b!"H256"), (b!"Address20", b!"H160")])),
    (b!"stakinginfo", .struct (some [(b!"maxRate", b!"Perquintill"), (b!"rewardRate", b!"RewardRate")])),
    (b!"amountof", .intFixed 16),
    (b!"balance", .u128),
    (b!"orderedset", .vec b!"Stake"),
    (b!"ftpurl", .struct (some [(b!"payload", b!"Text")])),
    (b!"storageerror", .enum [] (some [(b!"DidAlreadyPresent", b!"Null"), (b!"DidNotPresent", b!"Null"), (b!"DidKeyNotPresent", b!"DidVerificationKeyRelationship"), (b!"VerificationKeyNotPresent", b!"Null"), (b!"CurrentlyActiveKey", b!"Null"), (b!"MaxTxCounterValue", b!"Null")])),
    (b!"delegatoridof", .accountId),
    (b!"blocknumber", .u64),
    (b!"didverificationkeyupdateaction", .enum [] (some [(b!"Ignore", b!"Null"), (b!"Change", b!"DidVerificationKey"), (b!"Delete", b!"Null")])),
    (b!"claimhashof", .hash 32),
    (b!"didauthorizedcalloperation", .struct (some [(b!"did", b!"DidIdentifierOf"), (b!"txCounter", b!"u64"), (b!"call", b!"DidCallableOf")])),
    (b!"didcreationoperation", .struct (some [(b!"did", b!"DidIdentifierOf"), (b!"newAuthenticationKey", b!"DidVerificationKey"), (b!"newKeyAgreementKeys", b!"BTreeSet<DidEncryptionKey>"), (b!"newAttestationKey", b!"Option<DidVerificationKey>"), (b!"newDelegationKey", b!"Option<DidVerificationKey>"), (b!"newEndpointUrl", b!"Option<Url>")])),
    (b!"didpublickeydetails", .struct (some [(b!"key", b!"DidPublicKey"), (b!"blockNumber", b!"BlockNumberOf")])),
    (b!"ctypehashof", .hash 32),
    (b!"weight", .u64),
    (b!"compactassignments", .struct (some [(b!"votes1", b!"Vec<(NominatorIndexCompact, ValidatorIndexCompact)>"), (b!"votes2", b!"Vec<(NominatorIndexCompact, CompactScoreCompact, ValidatorIndexCompact)>"), (b!"votes3", b!"Vec<(NominatorIndexCompact, [CompactScoreCompact; 2], ValidatorIndexCompact)>"), (b!"votes4", b!"Vec<(NominatorIndexCompact, [CompactScoreCompact; 3], ValidatorIndexCompact)>"), (b!"votes5", b!"Vec<(NominatorIndexCompact, [CompactScoreCompact; 4], ValidatorIndexCompact)>"), (b!"votes6", b!"Vec<(NominatorIndexCompact, [CompactScoreCompact; 5], ValidatorIndexCompact)>"), (b!"votes7", b!"Vec<(NominatorIndexCompact, [CompactScoreCompact; 6], ValidatorIndexCompact)>"), (b!"votes8", b!"Vec<(NominatorIndexCompact, [CompactScoreCompact; 7], ValidatorIndexCompact)>"), (b!"votes9", b!"Vec<(NominatorIndexCompact, [CompactScoreCompact; 8], ValidatorIndexCompact)>"), (b!"votes10", b!"Vec<(NominatorIndexCompact, [CompactScoreCompact; 9], ValidatorIndexCompact)>"), (b!"votes11", b!"Vec<(NominatorIndexCompact, [CompactScoreCompact; 10], ValidatorIndexCompact)>"), (b!"votes12", b!"Vec<(NominatorIndexCompact, [CompactScoreCompact; 11], ValidatorIndexCompact)>"), (b!"votes13", b!"Vec<(NominatorIndexCompact, [CompactScoreCompact; 12], ValidatorIndexCompact)>"), (b!"votes14", b!"Vec<(NominatorIndexCompact, [CompactScoreCompact; 13], ValidatorIndexCompact)>"), (b!"votes15", b!"Vec<(NominatorIndexCompact, [CompactScoreCompact; 14], ValidatorIndexCompact)>"), (b!"votes16", b!"Vec<(NominatorIndexCompact, [CompactScoreCompact; 15], ValidatorIndexCompact)>")])),
    (b!"refcount", .u32) ]

/-- Classes of the names of network/stafi.json. -/
def stafi : List (Str × Cls) :=
  [ (b!"weight", .u64),
    (b!"dispatchresult", .enum [] (some [(b!"Ok", b!"Null"), (b!"Error", b!"DispatchError")])),
    (b!"address", .lookupSource),
    (b!"lookupsource", .lookupSource),
    (b!"keys", .struct (some [(b!"grandpa", b!"AccountId"), (b!"babe", b!"AccountId"), (b!"im_online", b!"AccountId"), (b!"authority_discovery", b!"AccountId")])),
    (b!"refcount#7-?", .u32),
    (b!"chainid", .u8),
    (b!"resourceid", .fixedU8 32),
    (b!"depositnonce", .u64),
    (b!"u256", .fixedU8 32),
    (b!"accountrdata", .struct (some [(b!"free", b!"u128")])),
    (b!"box<proposal>", .call),
    (b!"rproposalvotes", .struct (some [(b!"votes_for", b!"Vec<AccountId>"), (b!"votes_against", b!"Vec<AccountId>"), (b!"status", b!"RproposalStatus"), (b!"expiry", b!"BlockNumber")])),
    (b!"refcount", .u32),
    (b!"xsymbol", .enum [b!"WRA"] none),
    (b!"bondreason", .enum [b!"Pass", b!"BlockhashUnmatch", b!"TxhashUnmatch", b!"PubkeyUnmatch", b!"PoolUnmatch", b!"AmountUnmatch"] none),
    (b!"poolbondstate", .enum [b!"EraUpdated", b!"BondReported", b!"ActiveReported", b!"WithdrawSkipped", b!"WithdrawReported", b!"TransferReported"] none),
    (b!"bondstate", .enum [b!"Dealing", b!"Fail", b!"Success"] none),
    (b!"rproposalstatus", .enum [b!"Initiated", b!"Approved", b!"Rejected", b!"Expired"] none),
    (b!"userunlockchunk", .struct (some [(b!"pool", b!"Vec<u8>"), (b!"unlock_era", b!"u32"), (b!"value", b!"u128"), (b!"recipient", b!"Vec<u8>")])),
    (b!"rsymbol", .enum [b!"RFIS", b!"RDOT", b!"RKSM", b!"RATOM", b!"RSOL", b!"RMATIC", b!"RBNB"] none),
    (b!"ratetype", .u64),
    (b!"unbonding", .struct (some [(b!"who", b!"AccountId"), (b!"value", b!"u128"), (b!"recipient", b!"Vec<u8>")])),
    (b!"linkchunk", .struct (some [(b!"bond", b!"u128"), (b!"unbond", b!"u128"), (b!"active", b!"u128")])),
    (b!"bondsnapshot", .struct (some [(b!"symbol", b!"RSymbol"), (b!"era", b!"u32"), (b!"pool", b!"Vec<u8>"), (b!"bond", b!"u128"), (b!"unbond", b!"u128"), (b!"active", b!"u128"), (b!"last_voter", b!"AccountId"), (b!"bond_state", b!"PoolBondState")])),
    (b!"bondrecord", .struct (some [(b!"bonder", b!"AccountId"), (b!"symbol", b!"RSymbol"), (b!"pubkey", b!"Vec<u8>"), (b!"pool", b!"Vec<u8>"), (b!"blockhash", b!"Vec<u8>"), (b!"txhash", b!"Vec<u8>"), (b!"amount", b!"u128")])),
    (b!"accountxdata", .struct (some [(b!"free", b!"u128")])),
    (b!"originaltxtype", .enum [b!"Transfer", b!"Bond", b!"Unbond", b!"WithdrawUnbond", b!"ClaimRewards"] none),
    (b!"sigverifyresult", .enum [b!"InvalidPubkey", b!"Fail", b!"Pass"] none),
    (b!"proposalvotes", .struct (some [(b!"voted", b!"Vec<AccountId>"), (b!"status", b!"ProposalStatus"), (b!"expiry", b!"BlockNumber")])),
    (b!"proposalstatus", .enum [b!"Active", b!"Passed", b!"Expired", b!"Executed"] none),
    (b!"claiminfo", .struct (some [(b!"mint_amount", b!"u128"), (b!"native_token_amount", b!"u128"), (b!"total_reward", b!"Balance"), (b!"total_claimed", b!"Balance"), (b!"latest_claimed_block", b!"BlockNumber"), (b!"mint_block", b!"BlockNumber")])),
    (b!"mintrewardact", .struct (some [(b!"begin", b!"BlockNumber"), (b!"end", b!"BlockNumber"), (b!"cycle", b!"u32"), (b!"reward_rate", b!"u128"), (b!"total_reward", b!"Balance"), (b!"left_amount", b!"Balance"), (b!"user_limit", b!"Balance"), (b!"locked_blocks", b!"u32"), (b!"total_rtoken_amount", b!"u128"), (b!"total_native_token_amount", b!"u128")])),
    (b!"swaprate", .struct (some [(b!"lock_number", b!"u64"), (b!"rate", b!"u128")])),
    (b!"swaptransactioninfo", .struct (some [(b!"account", b!"AccountId"), (b!"receiver", b!"Vec<u8>"), (b!"value", b!"u128"), (b!"is_deal", b!"bool")])),
    (b!"bondswap", .struct (some [(b!"bonder", b!"AccountId"), (b!"swap_fee", b!"Balance"), (b!"swap_receiver", b!"AccountId"), (b!"bridger", b!"AccountId"), (b!"recipient", b!"Vec<u8>"), (b!"dest_id", b!"ChainId"), (b!"expire", b!"BlockNumber"), (b!"bond_state", b!"BondState"), (b!"refunded", b!"bool")])),
    (b!"bondaction", .enum [b!"BondOnly", b!"UnbondOnly", b!"BothBondUnbond", b!"EitherBondUnbond", b!"InterDeduct"] none) ]

/-- Classes of the names of network/statemine.json. -/
def statemine : List (Str × Cls) :=
  [ (b!"weight", .u64),
    (b!"compactassignments", .struct (some [(b!"votes1", b!"Vec<(NominatorIndexCompact, ValidatorIndexCompact)>"), (b!"votes2", b!"Vec<(NominatorIndexCompact, CompactScoreCompact, ValidatorIndexCompact)>"), (b!"votes3", b!"Vec<(NominatorIndexCompact, [CompactScoreCompact; 2], ValidatorIndexCompact)>"), (b!"votes4", b!"Vec<(NominatorIndexCompact, [CompactScoreCompact; 3], ValidatorIndexCompact)>"), (b!"votes5", b!"Vec<(NominatorIndexCompact, [CompactScoreCompact; 4], ValidatorIndexCompact)>"), (b!"votes6", b!"Vec<(NominatorIndexCompact, [CompactScoreCompact; 5], ValidatorIndexCompact)>"), (b!"votes7", b!"Vec<(NominatorIndexCompact, [CompactScoreCompact; 6], ValidatorIndexCompact)>"), (b!"votes8", b!"Vec<(NominatorIndexCompact, [CompactScoreCompact; 7], ValidatorIndexCompact)>"), (b!"votes9", b!"Vec<(NominatorIndexCompact, [CompactScoreCompact; 8], ValidatorIndexCompact)>"), (b!"votes10", b!"Vec<(NominatorIndexCompact, [CompactScoreCompact; 9], ValidatorIndexCompact)>"), (b!"votes11", b!"Vec<(NominatorIndexCompact, [CompactScoreCompact; 10], ValidatorIndexCompact)>"), (b!"votes12", b!"Vec<(NominatorIndexCompact, [CompactScoreCompact; 11], ValidatorIndexCompact)>"), (b!"votes13", b!"Vec<(NominatorIndexCompact, [CompactScoreCompact; 12], ValidatorIndexCompact)>"), (b!"votes14", b!"Vec<(NominatorIndexCompact, [CompactScoreCompact; 13], ValidatorIndexCompact)>"), (b!"votes15", b!"Vec<(NominatorIndexCompact, [CompactScoreCompact; 14], ValidatorIndexCompact)>"), (b!"votes16", b!"Vec<(NominatorIndexCompact, [CompactScoreCompact; 15], ValidatorIndexCompact)>"), (b!"votes17", b!"Vec<(NominatorIndexCompact, [CompactScoreCompact; 16], ValidatorIndexCompact)>"), (b!"votes18", b!"Vec<(NominatorIndexCompact, [CompactScoreCompact; 17], ValidatorIndexCompact)>"), (b!"votes19", b!"Vec<(NominatorIndexCompact, [CompactScoreCompact; 18], ValidatorIndexCompact)>"), (b!"votes20", b!"Vec<(NominatorIndexCompact, [CompactScoreCompact; 19], ValidatorIndexCompact)>"), (b!"votes21", b!"Vec<(NominatorIndexCompact, [CompactScoreCompact; 20], ValidatorIndexCompact)>"), (b!"votes22", b!"Vec<(NominatorIndexCompact, [CompactScoreCompact; 21], ValidatorIndexCompact)>"), (b!"votes23", b!"Vec<(NominatorIndexCompact, [CompactScoreCompact; 22], ValidatorIndexCompact)>"), (b!"votes24", b!"Vec<(NominatorIndexCompact, [CompactScoreCompact; 23], ValidatorIndexCompact)>")])),
    (b!"refcount", .u32),
    (b!"address", .enum [] (some [(b!"Id", b!"AccountId"), (b!"Index", b!"Compact<AccountIndex>"), (b!"Raw", b!"Bytes"), (b!"Address32", b!"H256"), (b!"Address20", b!"H160")])),
    (b!"lookupsource", .enum [] (some [(b!"Id", b!"AccountId"), (b!"Index", b!"Compact<AccountIndex>"), (b!"Raw", b!"Bytes"), (b!"Address32", b!"H256"), (b!"Address20", b!"H160")])),
    (b!"accountinfo", .struct (some [(b!"nonce", b!"Index"), (b!"consumers", b!"RefCount"), (b!"providers", b!"RefCount"), (b!"sufficients", b!"RefCount"), (b!"data", b!"AccountData")])),
    (b!"tassetbalance", .u128),
    (b!"proxytype", .enum [b!"Any", b!"NonTransfer", b!"CancelProxy", b!"Assets", b!"AssetOwner", b!"AssetManager"] none),
    (b!"assetinstance", .enum [] (some [(b!"Undefined", b!"Null"), (b!"Index8", b!"u8"), (b!"Index16", b!"Compact<u16>"), (b!"Index32", b!"Compact<u32>"), (b!"Index64", b!"Compact<u64>"), (b!"Index128", b!"Compact<u128>"), (b!"Array4", b!"[u8; 4]"), (b!"Array8", b!"[u8; 8]"), (b!"Array16", b!"[u8; 16]"), (b!"Array32", b!"[u8; 32]"), (b!"Blob", b!"Vec<u8>")])),
    (b!"multiasset", .enum [] (some [(b!"None", b!"Null"), (b!"All", b!"Null"), (b!"AllFungible", b!"Null"), (b!"AllNonFungible", b!"Null"), (b!"AllAbstractFungible", b!"Vec<u8>"), (b!"AllAbstractNonFungible", b!"Vec<u8>"), (b!"AllConcreteFungible", b!"MultiLocationV0"), (b!"AllConcreteNonFungible", b!"MultiLocationV0"), (b!"AbstractFungible", b!"[[\"id\", \"Vec<u8>\"], [\"instance\", \"Compact<u128>\"]]"), (b!"AbstractNonFungible", b!"[[\"class\", \"Vec<u8>\"], [\"instance\", \"AssetInstanceV0\"]]"), (b!"ConcreteFungible", b!"[[\"id\", \"MultiLocationV0\"], [\"amount\", \"Compact<u128>\"]]"), (b!"ConcreteNonFungible", b!"[[\"class\", \"MultiLocationV0\"], [\"instance\", \"AssetInstanceV0\"]]")])),
    (b!"xcm", .enum [] (some [(b!"WithdrawAsset", b!"[[\"assets\", \"Vec<MultiAssetV0>\"], [\"effects\", \"Vec<XcmOrderV0>\"]]"), (b!"ReserveAssetDeposit", b!"[[\"assets\", \"Vec<MultiAssetV0>\"], [\"effects\", \"Vec<XcmOrderV0>\"]]"), (b!"TeleportAsset", b!"[[\"assets\", \"Vec<MultiAssetV0>\"], [\"effects\", \"Vec<XcmOrderV0>\"]]"), (b!"QueryResponse", b!"[[\"queryId\", \"Compact<u64>\"], [\"response\", \"ResponseV0\"]]"), (b!"TransferAsset", b!"[[\"assets\", \"Vec<MultiAssetV0>\"], [\"dest\", \"MultiLocationV0\"]]"), (b!"TransferReserveAsset", b!"[[\"assets\", \"Vec<MultiAssetV0>\"], [\"dest\", \"MultiLocationV0\"], [\"effects\", \"Vec<XcmOrderV0>\"]]"), (b!"Transact", b!"[[\"originType\", \"XcmOriginKind\"], [\"requireWeightAtMost\", \"u64\"], [\"call\", \"DoubleEncodedCall\"]]"), (b!"HrmpNewChannelOpenRequest", b!"[[\"sender\", \"Compact<u32>\"], [\"maxMessageSize\", \"Compact<u32>\"], [\"maxCapacity\", \"Compact<u32>\"]]"), (b!"HrmpChannelAccepted", b!"[[\"recipient\", \"Compact<u32>\"]]"), (b!"HrmpChannelClosing", b!"[[\"initiator\", \"Compact<u32>\"], [\"sender\", \"Compact<u32>\"], [\"recipient\", \"Compact<u32>\"]]"), (b!"RelayedFrom", b!"[[\"who\", \"MultiLocationV0\"], [\"message\", \"XcmV0\"]]")])),
    (b!"xcmorder", .enum [] (some [(b!"Null", b!"Null"), (b!"DepositAsset", b!"[[\"assets\", \"Vec<MultiAssetV0>\"], [\"dest\", \"MultiLocationV0\"]]"), (b!"DepositReserveAsset", b!"[[\"assets\", \"Vec<MultiAssetV0>\"], [\"dest\", \"MultiLocationV0\"], [\"effects\", \"Vec<XcmOrderV0>\"]]"), (b!"ExchangeAsset", b!"[[\"give\", \"Vec<MultiAssetV0>\"], [\"receive\", \"Vec<MultiAssetV0>\"]]"), (b!"InitiateReserveWithdraw", b!"[[\"assets\", \"Vec<MultiAssetV0>\"], [\"reserve\", \"MultiLocationV0\"], [\"effects\", \"Vec<XcmOrderV0>\"]]"), (b!"InitiateTeleport", b!"[[\"assets\", \"Vec<MultiAssetV0>\"], [\"dest\", \"MultiLocationV0\"], [\"effects\", \"Vec<XcmOrderV0>\"]]"), (b!"QueryHolding", b!"[[\"queryId\", \"Compact<u64>\"], [\"dest\", \"MultiLocationV0\"], [\"assets\", \"Vec<MultiAssetV0>\"]]"), (b!"BuyExecution", b!"[[\"fees\", \"MultiAssetV0\"], [\"weight\", \"u64\"], [\"debt\", \"u64\"], [\"haltOnError\", \"bool\"], [\"xcm\", \"Vec<XcmV0>\"]]")])),
    (b!"multilocation", .enum [] (some [(b!"Here", b!"Null"), (b!"X1", b!"JunctionV0"), (b!"X2", b!"(JunctionV0, JunctionV0)"), (b!"X3", b!"(JunctionV0, JunctionV0, JunctionV0)"), (b!"X4", b!"(JunctionV0, JunctionV0, JunctionV0, JunctionV0)"), (b!"X5", b!"(JunctionV0, JunctionV0, JunctionV0, JunctionV0, JunctionV0)"), (b!"X6", b!"(JunctionV0, JunctionV0, JunctionV0, JunctionV0, JunctionV0, JunctionV0)"), (b!"X7", b!"(JunctionV0, JunctionV0, JunctionV0, JunctionV0, JunctionV0, JunctionV0, JunctionV0)"), (b!"X8", b!"(JunctionV0, JunctionV0, JunctionV0, JunctionV0, JunctionV0, JunctionV0, JunctionV0, JunctionV0)")])),
    (b!"assetinstance#4-5", .enum [] (some [(b!"Undefined", b!"Null"), (b!"Index", b!"Compact<u128>"), (b!"Array4", b!"[u8; 4]"), (b!"Array8", b!"[u8; 8]"), (b!"Array16", b!"[u8; 16]"), (b!"Array32", b!"[u8; 32]"), (b!"Blob", b!"Bytes")])),
    (b!"multiasset#4-5", .struct (some [(b!"id", b!"XcmAssetId"), (b!"fun", b!"FungibilityV1")])),
    (b!"xcm#4-5", .enum [] (some [(b!"WithdrawAsset", b!"[[\"assets\", \"MultiAssetsV1\"], [\"effects\", \"Vec<XcmOrderV1>\"]]"), (b!"ReserveAssetDeposit", b!"[[\"assets\", \"MultiAssetsV1\"], [\"effects\", \"Vec<XcmOrderV1>\"]]"), (b!"ReceiveTeleportedAsset", b!"[[\"assets\", \"MultiAssetsV1\"], [\"effects\", \"Vec<XcmOrderV1>\"]]"), (b!"QueryResponse", b!"[[\"queryId\", \"Compact<u64>\"], [\"response\", \"ResponseV1\"]]"), (b!"TransferAsset", b!"[[\"assets\", \"MultiAssetsV1\"], [\"dest\", \"MultiLocationV1\"]]"), (b!"TransferReserveAsset", b!"[[\"assets\", \"MultiAssetsV1\"], [\"dest\", \"MultiLocationV1\"], [\"effects\", \"Vec<XcmOrderV1>\"]]"), (b!"Transact", b!"[[\"originType\", \"XcmOriginKind\"], [\"requireWeightAtMost\", \"u64\"], [\"call\", \"DoubleEncodedCall\"]]"), (b!"HrmpNewChannelOpenRequest", b!"[[\"sender\", \"Compact<u32>\"], [\"maxMessageSize\", \"Compact<u32>\"], [\"maxCapacity\", \"Compact<u32>\"]]"), (b!"HrmpChannelAccepted", b!"[[\"recipient\", \"Compact<u32>\"]]"), (b!"HrmpChannelClosing", b!"[[\"initiator\", \"Compact<u32>\"], [\"sender\", \"Compact<u32>\"], [\"recipient\", \"Compact<u32>\"]]"), (b!"RelayedFrom", b!"[[\"who\", \"MultiLocationV1\"], [\"message\", \"XcmV1\"]]"), (b!"SubscribeVersion", b!"[[\"query_id\", \"U64\"], [\"max_response_weight\", \"U64\"]]"), (b!"UnsubscribeVersion", b!"NULL")])),
    (b!"xcmorder#4-5", .enum [] (some [(b!"Noop", b!"Null"), (b!"DepositAsset", b!"[[\"assets\", \"MultiAssetFilterV1\"], [\"max_assets\", \"u32\"], [\"beneficiary\", \"MultiLocationV1\"]]"), (b!"DepositReserveAsset", b!"[[\"assets\", \"MultiAssetFilterV1\"], [\"max_assets\", \"u32\"], [\"dest\", \"MultiLocationV1\"], [\"effects\", \"Vec<XcmOrderV1>\"]]"), (b!"ExchangeAsset", b!"[[\"give\", \"MultiAssetFilterV1\"], [\"receive\", \"MultiAssetsV1\"]]"), (b!"InitiateReserveWithdraw", b!"[[\"assets\", \"MultiAssetFilterV1\"], [\"reserve\", \"MultiLocationV1\"], [\"effects\", \"Vec<XcmOrderV1>\"]]"), (b!"InitiateTeleport", b!"[[\"assets\", \"MultiAssetFilterV1\"], [\"dest\", \"MultiLocationV1\"], [\"effects\", \"Vec<XcmOrderV1>\"]]"), (b!"QueryHolding", b!"[[\"queryId\", \"Compact<u64>\"], [\"dest\", \"MultiLocationV1\"], [\"assets\", \"MultiAssetFilterV1\"]]"), (b!"BuyExecution", b!"[[\"fees\", \"MultiAssetV1\"], [\"weight\", \"u64\"], [\"debt\", \"u64\"], [\"halt_on_error\", \"bool\"], [\"instructions\", \"Vec<XcmV1>\"]]")])),
    (b!"multilocation#4-5", .struct (some [(b!"parents", b!"u8"), (b!"interior", b!"JunctionsV1")])) ]

/-- Classes of the names of network/subgame.json. -/
def subgame : List (Str × Cls) :=
  [ (b!"gameinstance", .struct (some [(b!"game_instance_id", b!"u32"), (b!"owner", b!"AccountId"), (b!"bet_block_number", b!"u32"), (b!"chips_pool", b!"u128"), (b!"game_over", b!"bool")])),
    (b!"betinfo", .struct (some [(b!"user", b!"AccountId"), (b!"game_id", b!"u32"), (b!"amount", b!"u128"), (b!"game_mode", b!"u8")])),
    (b!"gameinstanceid", .u32),
    (b!"chipbalance", .u128),
    (b!"sgassetbalance", .u64),
    (b!"gamemode", .u8),
    (b!"gameindex", .u32),
    (b!"susgameassetbalance", .struct (some [(b!"balance", b!"u64"), (b!"isFrozen", b!"bool"), (b!"isZombie", b!"bool")])),
    (b!"subgameassetdetails", .struct (some [(b!"owner", b!"AccountId"), (b!"issuer", b!"AccountId"), (b!"admin", b!"AccountId"), (b!"freezer", b!"AccountId"), (b!"supply", b!"u64"), (b!"deposit", b!"DepositBalance"), (b!"max_zombies", b!"u32"), (b!"min_balance", b!"u64"), (b!"zombies", b!"u32"), (b!"accounts", b!"u32"), (b!"isFrozen", b!"bool")])),
    (b!"subgameassetmetadata", .struct (some [(b!"deposit", b!"DepositBalance"), (b!"name", b!"Vec<u8>"), (b!"symbol", b!"Vec<u8>"), (b!"decimals", b!"u8")])),
    (b!"chipsdetail", .struct (some [(b!"balance", b!"ChipBalance"), (b!"reserve", b!"ChipBalance")])),
    (b!"template", .struct (some [(b!"template_id", b!"u32"), (b!"template_name", b!"TemplateName")])),
    (b!"bridgerecord", .struct (some [(b!"from", b!"AccountId"), (b!"to", b!"AccountId"), (b!"amount", b!"u128"), (b!"chain_type", b!"u8"), (b!"coin_type", b!"u8")])),
    (b!"gameinfo", .struct (some [(b!"owner", b!"AccountId"), (b!"block_number", b!"u32"), (b!"bet_block_number", b!"u32"), (b!"amount", b!"u128")])),
    (b!"templatename", .u32),
    (b!"userinfo", .struct (some [(b!"Account", b!"Vec<u8>"), (b!"ReferrerAccount", b!"Vec<u8>")])),
    (b!"weight", .u64),
    (b!"compactassignments", .struct (some [(b!"votes1", b!"Vec<(NominatorIndexCompact, ValidatorIndexCompact)>"), (b!"votes2", b!"Vec<(NominatorIndexCompact, CompactScoreCompact, ValidatorIndexCompact)>"), (b!"votes3", b!"Vec<(NominatorIndexCompact, [CompactScoreCompact; 2], ValidatorIndexCompact)>"), (b!"votes4", b!"Vec<(NominatorIndexCompact, [CompactScoreCompact; 3], ValidatorIndexCompact)>"), (b!"votes5", b!"Vec<(NominatorIndexCompact, [CompactScoreCompact; 4], ValidatorIndexCompact)>"), (b!"votes6", b!"Vec<(NominatorIndexCompact, [CompactScoreCompact; 5], ValidatorIndexCompact)>"), (b!"votes7", b!"Vec<(NominatorIndexCompact, [CompactScoreCompact; 6], ValidatorIndexCompact)>"), (b!"votes8", b!"Vec<(NominatorIndexCompact, [CompactScoreCompact; 7], ValidatorIndexCompact)>"), (b!"votes9", b!"Vec<(NominatorIndexCompact, [CompactScoreCompact; 8], ValidatorIndexCompact)>"), (b!"votes10", b!"Vec<(NominatorIndexCompact, [CompactScoreCompact; 9], ValidatorIndexCompact)>"), (b!"votes11", b!"Vec<(NominatorIndexCompact, [CompactScoreCompact; 10], ValidatorIndexCompact)>"), (b!"votes12", b!"Vec<(NominatorIndexCompact, [CompactScoreCompact; 11], ValidatorIndexCompact)>"), (b!"votes13", b!"Vec<(NominatorIndexCompact, [CompactScoreCompact; 12], ValidatorIndexCompact)>"), (b!"votes14", b!"Vec<(NominatorIndexCompact, [CompactScoreCompact; 13], ValidatorIndexCompact)>"), (b!"votes15", b!"Vec<(NominatorIndexCompact, [CompactScoreCompact; 14], ValidatorIndexCompact)>"), (b!"votes16", b!"Vec<(NominatorIndexCompact, [CompactScoreCompact; 15], ValidatorIndexCompact)>")])),
    (b!"refcount", .u32),
    (b!"address", .enum [] (some [(b!"Id", b!"AccountId"), (b!"Index", b!"Compact<AccountIndex>"), (b!"Raw", b!"Bytes"), (b!"Address32", b!"H256"), (b!"Address20", b!"H160")])),
    (b!"lookupsource", .enum [] (some [(b!"Id", b!"AccountId"), (b!"Index", b!"Compact<AccountIndex>"), (b!"Raw", b!"Bytes"), (b!"Address32", b!"H256"), (b!"Address20", b!"H160")])),
    (b!"accountinfo", .struct (some [(b!"nonce", b!"Index"), (b!"consumers", b!"RefCount"), (b!"providers", b!"RefCount"), (b!"data", b!"AccountData")])) ]

/-- Classes of the names of network/substrate20.json. -/
def substrate20 : List (Str × Cls) :=
  [ (b!"weight", .u64),
    (b!"compactassignments", .struct (some [(b!"votes1", b!"Vec<(NominatorIndexCompact, ValidatorIndexCompact)>"), (b!"votes2", b!"Vec<(NominatorIndexCompact, CompactScoreCompact, ValidatorIndexCompact)>"), (b!"votes3", b!"Vec<(NominatorIndexCompact, [CompactScoreCompact; 2], ValidatorIndexCompact)>"), (b!"votes4", b!"Vec<(NominatorIndexCompact, [CompactScoreCompact; 3], ValidatorIndexCompact)>"), (b!"votes5", b!"Vec<(NominatorIndexCompact, [CompactScoreCompact; 4], ValidatorIndexCompact)>"), (b!"votes6", b!"Vec<(NominatorIndexCompact, [CompactScoreCompact; 5], ValidatorIndexCompact)>"), (b!"votes7", b!"Vec<(NominatorIndexCompact, [CompactScoreCompact; 6], ValidatorIndexCompact)>"), (b!"votes8", b!"Vec<(NominatorIndexCompact, [CompactScoreCompact; 7], ValidatorIndexCompact)>"), (b!"votes9", b!"Vec<(NominatorIndexCompact, [CompactScoreCompact; 8], ValidatorIndexCompact)>"), (b!"votes10", b!"Vec<(NominatorIndexCompact, [CompactScoreCompact; 9], ValidatorIndexCompact)>"), (b!"votes11", b!"Vec<(NominatorIndexCompact, [CompactScoreCompact; 10], ValidatorIndexCompact)>"), (b!"votes12", b!"Vec<(NominatorIndexCompact, [CompactScoreCompact; 11], ValidatorIndexCompact)>"), (b!"votes13", b!"Vec<(NominatorIndexCompact, [CompactScoreCompact; 12], ValidatorIndexCompact)>"), (b!"votes14", b!"Vec<(NominatorIndexCompact, [CompactScoreCompact; 13], ValidatorIndexCompact)>"), (b!"votes15", b!"Vec<(NominatorIndexCompact, [CompactScoreCompact; 14], ValidatorIndexCompact)>"), (b!"votes16", b!"Vec<(NominatorIndexCompact, [CompactScoreCompact; 15], ValidatorIndexCompact)>")])),
    (b!"refcount", .u32),
    (b!"dispatchresult", .enum [] (some [(b!"Ok", b!"Null"), (b!"Error", b!"DispatchError")])),
    (b!"address", .lookupSource),
    (b!"lookupsource", .lookupSource) ]

/-- Classes of the names of network/substrate30.json. -/
def substrate30 : List (Str × Cls) :=
  [ (b!"weight", .u64),
    (b!"compactassignments", .struct (some [(b!"votes1", b!"Vec<(NominatorIndexCompact, ValidatorIndexCompact)>"), (b!"votes2", b!"Vec<(NominatorIndexCompact, CompactScoreCompact, ValidatorIndexCompact)>"), (b!"votes3", b!"Vec<(NominatorIndexCompact, [CompactScoreCompact; 2], ValidatorIndexCompact)>"), (b!"votes4", b!"Vec<(NominatorIndexCompact, [CompactScoreCompact; 3], ValidatorIndexCompact)>"), (b!"votes5", b!"Vec<(NominatorIndexCompact, [CompactScoreCompact; 4], ValidatorIndexCompact)>"), (b!"votes6", b!"Vec<(NominatorIndexCompact, [CompactScoreCompact; 5], ValidatorIndexCompact)>"), (b!"votes7", b!"Vec<(NominatorIndexCompact, [CompactScoreCompact; 6], ValidatorIndexCompact)>"), (b!"votes8", b!"Vec<(NominatorIndexCompact, [CompactScoreCompact; 7], ValidatorIndexCompact)>"), (b!"votes9", b!"Vec<(NominatorIndexCompact, [CompactScoreCompact; 8], ValidatorIndexCompact)>"), (b!"votes10", b!"Vec<(NominatorIndexCompact, [CompactScoreCompact; 9], ValidatorIndexCompact)>"), (b!"votes11", b!"Vec<(NominatorIndexCompact, [CompactScoreCompact; 10], ValidatorIndexCompact)>"), (b!"votes12", b!"Vec<(NominatorIndexCompact, [CompactScoreCompact; 11], ValidatorIndexCompact)>"), (b!"votes13", b!"Vec<(NominatorIndexCompact, [CompactScoreCompact; 12], ValidatorIndexCompact)>"), (b!"votes14", b!"Vec<(NominatorIndexCompact, [CompactScoreCompact; 13], ValidatorIndexCompact)>"), (b!"votes15", b!"Vec<(NominatorIndexCompact, [CompactScoreCompact; 14], ValidatorIndexCompact)>"), (b!"votes16", b!"Vec<(NominatorIndexCompact, [CompactScoreCompact; 15], ValidatorIndexCompact)>")])),
    (b!"refcount", .u32),
    (b!"address", .enum [] (some [(b!"Id", b!"AccountId"), (b!"Index", b!"Compact<AccountIndex>"), (b!"Raw", b!"Bytes"), (b!"Address32", b!"H256"), (b!"Address20", b!"H160")])),
    (b!"lookupsource", .enum [] (some [(b!"Id", b!"AccountId"), (b!"Index", b!"Compact<AccountIndex>"), (b!"Raw", b!"Bytes"), (b!"Address32", b!"H256"), (b!"Address20", b!"H160")])),
    (b!"accountinfo", .struct (some [(b!"nonce", b!"Index"), (b!"consumers", b!"RefCount"), (b!"providers", b!"RefCount"), (b!"sufficients", b!"RefCount"), (b!"data", b!"AccountData")])) ]

/-- Classes of the names of network/uniarts.json. -/
def uniarts : List (Str × Cls) :=
  [ (b!"weight", .u64),
    (b!"compactassignments", .struct (some [(b!"votes1", b!"Vec<(NominatorIndexCompact, ValidatorIndexCompact)>"), (b!"votes2", b!"Vec<(NominatorIndexCompact, CompactScoreCompact, ValidatorIndexCompact)>"), (b!"votes3", b!"Vec<(NominatorIndexCompact, [CompactScoreCompact; 2], ValidatorIndexCompact)>"), (b!"votes4", b!"Vec<(NominatorIndexCompact, [CompactScoreCompact; 3], ValidatorIndexCompact)>"), (b!"votes5", b!"Vec<(NominatorIndexCompact, [CompactScoreCompact; 4], ValidatorIndexCompact)>"), (b!"votes6", b!"Vec<(NominatorIndexCompact, [CompactScoreCompact; 5], ValidatorIndexCompact)>"), (b!"votes7", b!"Vec<(NominatorIndexCompact, [CompactScoreCompact; 6], ValidatorIndexCompact)>"), (b!"votes8", b!"Vec<(NominatorIndexCompact, [CompactScoreCompact; 7], ValidatorIndexCompact)>"), (b!"votes9", b!"Vec<(NominatorIndexCompact, [CompactScoreCompact; 8], ValidatorIndexCompact)>"), (b!"votes10", b!"Vec<(NominatorIndexCompact, [CompactScoreCompact; 9], ValidatorIndexCompact)>"), (b!"votes11", b!"Vec<(NominatorIndexCompact, [CompactScoreCompact; 10], ValidatorIndexCompact)>"), (b!"votes12", b!"Vec<(NominatorIndexCompact, [CompactScoreCompact; 11], ValidatorIndexCompact)>"), (b!"votes13", b!"Vec<(NominatorIndexCompact, [CompactScoreCompact; 12], ValidatorIndexCompact)>"), (b!"votes14", b!"Vec<(NominatorIndexCompact, [CompactScoreCompact; 13], ValidatorIndexCompact)>"), (b!"votes15", b!"Vec<(NominatorIndexCompact, [CompactScoreCompact; 14], ValidatorIndexCompact)>"), (b!"votes16", b!"Vec<(NominatorIndexCompact, [CompactScoreCompact; 15], ValidatorIndexCompact)>")])),
    (b!"refcount", .u32),
    (b!"tradepair", .struct (some [(b!"hash", b!"H256"), (b!"base", b!"H256"), (b!"quote", b!"H256"), (b!"buy_one_price", b!"Option<Price>"), (b!"sell_one_price", b!"Option<Price>"), (b!"latest_matched_price", b!"Option<Price>"), (b!"one_day_trade_volume", b!"Option<Price>"), (b!"one_day_highest_price", b!"Option<Price>"), (b!"one_day_lowest_price", b!"Option<Price>")])),
    (b!"lottery", .struct (some [(b!"round", b!"LottoIndex"), (b!"kind", b!"LotteryKind"), (b!"jackpot", b!"Balance"), (b!"next_ticket_id", b!"u32"), (b!"players", b!"BTreeMap<AccountId, bool>"), (b!"tickets", b!"BTreeMap<u32, AccountId>"), (b!"result", b!"Option<LottoResult<AccountId, Balance>>")])),
    (b!"lotterykind", .enum [b!"Routine", b!"TreasuryFunded(ReasonIndex)"] none),
    (b!"bidhistory", .struct (some [(b!"auction_id", b!"u64"), (b!"currency_id", b!"CurrencyId"), (b!"bidder", b!"AccountId"), (b!"bid_price", b!"u64"), (b!"bid_time", b!"BlockNumber")])),
    (b!"memberid", .u64),
    (b!"accessmode", .enum [b!"Normal", b!"WhiteList"] none),
    (b!"nftcard", .struct (some [(b!"group_id", b!"u64"), (b!"collection_id", b!"u64"), (b!"item_id", b!"u64"), (b!"value", b!"u64"), (b!"remaind_value", b!"u64"), (b!"draw_start", b!"u64"), (b!"draw_end", b!"u64")])),
    (b!"namedata", .struct (some [(b!"value", b!"Value"), (b!"owner", b!"AccountId"), (b!"expiration", b!"Option<u32>")])),
    (b!"reasonindex", .u32),
    (b!"saleorder", .struct (some [(b!"order_id", b!"u64"), (b!"collection_id", b!"u64"), (b!"item_id", b!"u64"), (b!"currency_id", b!"CurrencyId"), (b!"value", b!"u64"), (b!"owner", b!"AccountId"), (b!"price", b!"u64")])),
    (b!"storageversion", .enum [b!"V1_0_0", b!"V2_0_0"] none),
    (b!"ownership", .struct (some [(b!"owner", b!"AccountId"), (b!"fraction", b!"u128")])),
    (b!"lookupsource", .accountId),
    (b!"splitsaleorder", .struct (some [(b!"order_id", b!"u64"), (b!"collection_id", b!"u64"), (b!"item_id", b!"u64"), (b!"currency_id", b!"CurrencyId"), (b!"value", b!"u64"), (b!"balance", b!"u64"), (b!"owner", b!"AccountId"), (b!"price", b!"u64")])),
    (b!"keys", .struct (some [(b!"col1", b!"AccountId"), (b!"col2", b!"AccountId")])),
    (b!"price", .u128),
    (b!"limitorder", .struct (some [(b!"hash", b!"H256"), (b!"base", b!"H256"), (b!"quote", b!"H256"), (b!"owner", b!"AccountId"), (b!"price", b!"Price"), (b!"sell_amount", b!"Balance"), (b!"buy_amount", b!"Balance"), (b!"remained_sell_amount", b!"Balance"), (b!"remained_buy_amount", b!"Balance"), (b!"otype", b!"OrderType"), (b!"status", b!"OrderStatus")])),
    (b!"currencyidof", .enum [] (some [(b!"Native", b!"Null"), (b!"UINK", b!"Null"), (b!"DOT", b!"Null"), (b!"KSM", b!"Null"), (b!"ETH", b!"Null"), (b!"Token", b!"TokenSymbol")])),
    (b!"royalty", .struct (some [(b!"owner", b!"AccountId"), (b!"rate", b!"u64"), (b!"expired_at", b!"BlockNumber")])),
    (b!"orderstatus", .enum [b!"Created", b!"PartialFilled", b!"Filled", b!"Canceled"] none),
    (b!"nftitemtype", .struct (some [(b!"Collection", b!"u64"), (b!"Owner", b!"AccountId"), (b!"Data", b!"Vec<u8>"), (b!"item_hash", b!"H160")])),
    (b!"amountof", .intFixed 16),
    (b!"pool", .struct (some [(b!"id", b!"Id"), (b!"account", b!"AccountId"), (b!"acc_rewards_per_share", b!"Balance"), (b!"last_reward_block", b!"BlockNumber"), (b!"asset_id", b!"Id"), (b!"total_balance", b!"Balance")])),
    (b!"tokensymbol", .enum [b!"USDT", b!"DAI"] none),
    (b!"name", .bytes),
    (b!"limits", .struct (some [(b!"max_tx_value", b!"u128"), (b!"day_max_limit", b!"u128"), (b!"day_max_limit_for_one_address", b!"u128"), (b!"max_pending_tx_limit", b!"u128"), (b!"min_tx_value", b!"u128")])),
    (b!"currencyid", .enum [] (some [(b!"Native", b!"Null"), (b!"UINK", b!"Null"), (b!"DOT", b!"Null"), (b!"KSM", b!"Null"), (b!"ETH", b!"Null"), (b!"Token", b!"TokenSymbol")])),
    (b!"ordertype", .enum [b!"Buy", b!"Sell"] none),
    (b!"address", .accountId),
    (b!"value", .bytes),
    (b!"signatureauthentication", .struct (some [(b!"collection", b!"u64"), (b!"item", b!"u64"), (b!"names", b!"Name"), (b!"names_owner", b!"AccountId"), (b!"sign_time", b!"BlockNumber"), (b!"memo", b!"Vec<u8>"), (b!"expiration", b!"Option<BlockNumber>")])),
    (b!"workid", .u32),
    (b!"lottoindex", .u32),
    (b!"amount", .intFixed 16),
    (b!"proposalid", .u64),
    (b!"tokenbalance", .balance),
    (b!"refungibleitemtype", .struct (some [(b!"Collection", b!"u64"), (b!"Owner", b!"Vec<Ownership<AccountId>>"), (b!"Data", b!"Vec<u8>"), (b!"item_hash", b!"H160")])),
    (b!"orderlinkeditem", .struct (some [(b!"prev", b!"Option<Price>"), (b!"next", b!"Option<Price>"), (b!"price", b!"Option<Price>"), (b!"orders", b!"Vec<H256>")])),
    (b!"lottoresult", .enum [b!"Routine(AccountId, Balance)", b!"TreasuryFunded(Balance)"] none),
    (b!"saleorderhistory", .struct (some [(b!"collection_id", b!"u64"), (b!"item_id", b!"u64"), (b!"currency_id", b!"CurrencyId"), (b!"value", b!"u64"), (b!"seller", b!"AccountId"), (b!"buyer", b!"AccountId"), (b!"price", b!"u64"), (b!"buy_time", b!"BlockNumber")])),
    (b!"staker", .struct (some [(b!"amount", b!"Balance"), (b!"reward", b!"Balance"), (b!"debt", b!"Balance")])),
    (b!"collectiontype", .struct (some [(b!"Owner", b!"AccountId"), (b!"Mode", b!"CollectionMode"), (b!"Access", b!"u8"), (b!"DecimalPoints", b!"u32"), (b!"Name", b!"Vec<u16>"), (b!"Description", b!"Vec<u16>"), (b!"TokenPrefix", b!"Vec<u8>"), (b!"CustomDataSize", b!"u32"), (b!"OffchainSchema", b!"Vec<u8>"), (b!"Sponsor", b!"AccountId"), (b!"UnconfirmedSponsor", b!"AccountId")])),
    (b!"auction", .struct (some [(b!"id", b!"u64"), (b!"collection_id", b!"u64"), (b!"item_id", b!"u64"), (b!"currency_id", b!"CurrencyId"), (b!"value", b!"u64"), (b!"owner", b!"AccountId"), (b!"start_price", b!"u64"), (b!"increment", b!"u64"), (b!"current_price", b!"u64"), (b!"start_time", b!"BlockNumber"), (b!"end_time", b!"BlockNumber")])),
    (b!"fungibleitemtype", .struct (some [(b!"Collection", b!"u64"), (b!"Owner", b!"AccountId"), (b!"value", b!"u128"), (b!"item_hash", b!"H160")])),
    (b!"collectionmode", .enum [] (some [(b!"Invalid", b!"null"), (b!"NFT", b!"u32"), (b!"Fungible", b!"u32"), (b!"ReFungible", b!"(u32, u32)")])),
    (b!"token", .struct (some [(b!"hash", b!"H256"), (b!"symbol", b!"Vec<u8>"), (b!"total_supply", b!"Balance")])),
    (b!"trade", .struct (some [(b!"hash", b!"H256"), (b!"base", b!"H256"), (b!"quote", b!"H256"), (b!"buyer", b!"AccountId"), (b!"seller", b!"AccountId"), (b!"maker", b!"AccountId"), (b!"taker", b!"AccountId"), (b!"otype", b!"OrderType"), (b!"price", b!"Price"), (b!"base_amount", b!"Balance"), (b!"quote_amount", b!"Balance")])),
    (b!"blindboxitem", .struct (some [(b!"id", b!"u64"), (b!"owner", b!"AccountId"), (b!"card_group", b!"Vec<u64>"), (b!"total_count", b!"u64"), (b!"remaind_count", b!"u64"), (b!"currency_id", b!"CurrencyId"), (b!"price", b!"u64"), (b!"start_time", b!"BlockNumber"), (b!"end_time", b!"BlockNumber"), (b!"has_ended", b!"bool")])),
    (b!"id", .u32),
    (b!"approvepermissions", .struct (some [(b!"approved", b!"AccountId"), (b!"amount", b!"u64")])),
    (b!"address#45-?", .enum [] (some [(b!"Id", b!"AccountId"), (b!"Index", b!"Compact<AccountIndex>"), (b!"Raw", b!"Bytes"), (b!"Address32", b!"H256"), (b!"Address20", b!"H160")])),
    (b!"lookupsource#45-?", .enum [] (some [(b!"Id", b!"AccountId"), (b!"Index", b!"Compact<AccountIndex>"), (b!"Raw", b!"Bytes"), (b!"Address32", b!"H256"), (b!"Address20", b!"H160")])),
    (b!"accountinfo", .struct (some [(b!"nonce", b!"Index"), (b!"consumers", b!"RefCount"), (b!"providers", b!"RefCount"), (b!"data", b!"AccountData")])) ]

/-- Classes of the names of network/westend.json. -/
def westend : List (Str × Cls) :=
  [ (b!"address", .accountId),
    (b!"blocknumber", .u32),
    (b!"leaseperiod", .u32),
    (b!"keys", .struct (some [(b!"grandpa", b!"AccountId"), (b!"babe", b!"AccountId"), (b!"im_online", b!"AccountId"), (b!"authority_discovery", b!"AccountId"), (b!"parachains", b!"AccountId")])),
    (b!"weight", .u32),
    (b!"weight#3-?", .u64),
    (b!"dispatchinfo", .struct (some [(b!"weight", b!"Weight"), (b!"class", b!"DispatchClass"), (b!"paysFee", b!"Pays")])),
    (b!"dispatchresult", .enum [] (some [(b!"Ok", b!"Null"), (b!"Error", b!"DispatchError")])),
    (b!"proxytype", .enum [b!"Any", b!"NonTransfer", b!"Staking", b!"SudoBalances", b!"IdentityJudgement", b!"CancelProxy"] none),
    (b!"compactassignments#43-?", .struct (some [(b!"votes1", b!"Vec<(NominatorIndexCompact, ValidatorIndexCompact)>"), (b!"votes2", b!"Vec<(NominatorIndexCompact, CompactScoreCompact, ValidatorIndexCompact)>"), (b!"votes3", b!"Vec<(NominatorIndexCompact, [CompactScoreCompact; 2], ValidatorIndexCompact)>"), (b!"votes4", b!"Vec<(NominatorIndexCompact, [CompactScoreCompact; 3], ValidatorIndexCompact)>"), (b!"votes5", b!"Vec<(NominatorIndexCompact, [CompactScoreCompact; 4], ValidatorIndexCompact)>"), (b!"votes6", b!"Vec<(NominatorIndexCompact, [CompactScoreCompact; 5], ValidatorIndexCompact)>"), (b!"votes7", b!"Vec<(NominatorIndexCompact, [CompactScoreCompact; 6], ValidatorIndexCompact)>"), (b!"votes8", b!"Vec<(NominatorIndexCompact, [CompactScoreCompact; 7], ValidatorIndexCompact)>"), (b!"votes9", b!"Vec<(NominatorIndexCompact, [CompactScoreCompact; 8], ValidatorIndexCompact)>"), (b!"votes10", b!"Vec<(NominatorIndexCompact, [CompactScoreCompact; 9], ValidatorIndexCompact)>"), (b!"votes11", b!"Vec<(NominatorIndexCompact, [CompactScoreCompact; 10], ValidatorIndexCompact)>"), (b!"votes12", b!"Vec<(NominatorIndexCompact, [CompactScoreCompact; 11], ValidatorIndexCompact)>"), (b!"votes13", b!"Vec<(NominatorIndexCompact, [CompactScoreCompact; 12], ValidatorIndexCompact)>"), (b!"votes14", b!"Vec<(NominatorIndexCompact, [CompactScoreCompact; 13], ValidatorIndexCompact)>"), (b!"votes15", b!"Vec<(NominatorIndexCompact, [CompactScoreCompact; 14], ValidatorIndexCompact)>"), (b!"votes16", b!"Vec<(NominatorIndexCompact, [CompactScoreCompact; 15], ValidatorIndexCompact)>")])),
    (b!"refcount#45-?", .u32),
    (b!"box<<t as config>::call>", .call),
    (b!"accountinfo#48-49", .struct (some [(b!"nonce", b!"Index"), (b!"consumers", b!"RefCount"), (b!"providers", b!"RefCount"), (b!"data", b!"AccountData")])),
    (b!"address#48-?", .enum [] (some [(b!"Id", b!"AccountId"), (b!"Index", b!"Compact<AccountIndex>"), (b!"Raw", b!"Bytes"), (b!"Address32", b!"H256"), (b!"Address20", b!"H160")])),
    (b!"lookupsource#48-?", .enum [] (some [(b!"Id", b!"AccountId"), (b!"Index", b!"Compact<AccountIndex>"), (b!"Raw", b!"Bytes"), (b!"Address32", b!"H256"), (b!"Address20", b!"H160")])),
    (b!"validatorprefs#48-?", .struct (some [(b!"commission", b!"Compact<Perbill>"), (b!"blocked", b!"bool")])),
    (b!"keys#48-?", .struct (some [(b!"grandpa", b!"AccountId"), (b!"babe", b!"AccountId"), (b!"im_online", b!"AccountId"), (b!"para_validator", b!"AccountId"), (b!"para_assignment", b!"AccountId"), (b!"authority_discovery", b!"AccountId")])),
    (b!"accountinfo#50-?", .struct (some [(b!"nonce", b!"Index"), (b!"consumers", b!"RefCount"), (b!"providers", b!"RefCount"), (b!"sufficients", b!"RefCount"), (b!"data", b!"AccountData")])),
    (b!"assetinstance", .enum [] (some [(b!"Undefined", b!"Null"), (b!"Index8", b!"u8"), (b!"Index16", b!"Compact<u16>"), (b!"Index32", b!"Compact<u32>"), (b!"Index64", b!"Compact<u64>"), (b!"Index128", b!"Compact<u128>"), (b!"Array4", b!"[u8; 4]"), (b!"Array8", b!"[u8; 8]"), (b!"Array16", b!"[u8; 16]"), (b!"Array32", b!"[u8; 32]"), (b!"Blob", b!"Vec<u8>")])),
    (b!"multiasset", .enum [] (some [(b!"None", b!"Null"), (b!"All", b!"Null"), (b!"AllFungible", b!"Null"), (b!"AllNonFungible", b!"Null"), (b!"AllAbstractFungible", b!"Vec<u8>"), (b!"AllAbstractNonFungible", b!"Vec<u8>"), (b!"AllConcreteFungible", b!"MultiLocationV0"), (b!"AllConcreteNonFungible", b!"MultiLocationV0"), (b!"AbstractFungible", b!"[[\"id\", \"Vec<u8>\"], [\"instance\", \"Compact<u128>\"]]"), (b!"AbstractNonFungible", b!"[[\"class\", \"Vec<u8>\"], [\"instance\", \"AssetInstanceV0\"]]"), (b!"ConcreteFungible", b!"[[\"id\", \"MultiLocationV0\"], [\"amount\", \"Compact<u128>\"]]"), (b!"ConcreteNonFungible", b!"[[\"class\", \"MultiLocationV0\"], [\"instance\", \"AssetInstanceV0\"]]")])),
    (b!"xcm", .enum [] (some [(b!"WithdrawAsset", b!"[[\"assets\", \"Vec<MultiAssetV0>\"], [\"effects\", \"Vec<XcmOrderV0>\"]]"), (b!"ReserveAssetDeposit", b!"[[\"assets\", \"Vec<MultiAssetV0>\"], [\"effects\", \"Vec<XcmOrderV0>\"]]"), (b!"TeleportAsset", b!"[[\"assets\", \"Vec<MultiAssetV0>\"], [\"effects\", \"Vec<XcmOrderV0>\"]]"), (b!"QueryResponse", b!"[[\"queryId\", \"Compact<u64>\"], [\"response\", \"ResponseV0\"]]"), (b!"TransferAsset", b!"[[\"assets\", \"Vec<MultiAssetV0>\"], [\"dest\", \"MultiLocationV0\"]]"), (b!"TransferReserveAsset", b!"[[\"assets\", \"Vec<MultiAssetV0>\"], [\"dest\", \"MultiLocationV0\"], [\"effects\", \"Vec<XcmOrderV0>\"]]"), (b!"Transact", b!"[[\"originType\", \"XcmOriginKind\"], [\"requireWeightAtMost\", \"u64\"], [\"call\", \"DoubleEncodedCall\"]]"), (b!"HrmpNewChannelOpenRequest", b!"[[\"sender\", \"Compact<u32>\"], [\"maxMessageSize\", \"Compact<u32>\"], [\"maxCapacity\", \"Compact<u32>\"]]"), (b!"HrmpChannelAccepted", b!"[[\"recipient\", \"Compact<u32>\"]]"), (b!"HrmpChannelClosing", b!"[[\"initiator\", \"Compact<u32>\"], [\"sender\", \"Compact<u32>\"], [\"recipient\", \"Compact<u32>\"]]"), (b!"RelayedFrom", b!"[[\"who\", \"MultiLocationV0\"], [\"message\", \"XcmV0\"]]")])),
    (b!"xcmorder", .enum [] (some [(b!"Null", b!"Null"), (b!"DepositAsset", b!"[[\"assets\", \"Vec<MultiAssetV0>\"], [\"dest\", \"MultiLocationV0\"]]"), (b!"DepositReserveAsset", b!"[[\"assets\", \"Vec<MultiAssetV0>\"], [\"dest\", \"MultiLocationV0\"], [\"effects\", \"Vec<XcmOrderV0>\"]]"), (b!"ExchangeAsset", b!"[[\"give\", \"Vec<MultiAssetV0>\"], [\"receive\", \"Vec<MultiAssetV0>\"]]"), (b!"InitiateReserveWithdraw", b!"[[\"assets\", \"Vec<MultiAssetV0>\"], [\"reserve\", \"MultiLocationV0\"], [\"effects\", \"Vec<XcmOrderV0>\"]]"), (b!"InitiateTeleport", b!"[[\"assets\", \"Vec<MultiAssetV0>\"], [\"dest\", \"MultiLocationV0\"], [\"effects\", \"Vec<XcmOrderV0>\"]]"), (b!"QueryHolding", b!"[[\"queryId\", \"Compact<u64>\"], [\"dest\", \"MultiLocationV0\"], [\"assets\", \"Vec<MultiAssetV0>\"]]"), (b!"BuyExecution", b!"[[\"fees\", \"MultiAssetV0\"], [\"weight\", \"u64\"], [\"debt\", \"u64\"], [\"haltOnError\", \"bool\"], [\"xcm\", \"Vec<XcmV0>\"]]")])),
    (b!"multilocation", .enum [] (some [(b!"Here", b!"Null"), (b!"X1", b!"JunctionV0"), (b!"X2", b!"(JunctionV0, JunctionV0)"), (b!"X3", b!"(JunctionV0, JunctionV0, JunctionV0)"), (b!"X4", b!"(JunctionV0, JunctionV0, JunctionV0, JunctionV0)"), (b!"X5", b!"(JunctionV0, JunctionV0, JunctionV0, JunctionV0, JunctionV0)"), (b!"X6", b!"(JunctionV0, JunctionV0, JunctionV0, JunctionV0, JunctionV0, JunctionV0)"), (b!"X7", b!"(JunctionV0, JunctionV0, JunctionV0, JunctionV0, JunctionV0, JunctionV0, JunctionV0)"), (b!"X8", b!"(JunctionV0, JunctionV0, JunctionV0, JunctionV0, JunctionV0, JunctionV0, JunctionV0, JunctionV0)")])) ]

end ScaleGo.NetClasses
