import Verif.Model.LoadJson

/-! # The definitions shipped for single networks, part 4

The files in `network/`, entry by entry, written down by a script. -/

set_option maxRecDepth 20000

namespace ScaleGo.Network

/-- network/polkadex.json. -/
def polkadex : List (Str × Entry) :=
  [ (b!"Weight", .al b!"u64"),
    (b!"CompactAssignments", .al b!"CompactAssignmentsLatest"),
    (b!"RefCount", .al b!"u32"),
    (b!"Votes", .st [(b!"ayes", b!"Vec<Voter>"), (b!"nays", b!"Vec<Voter>")]),
    (b!"ChainId", .al b!"u8"),
    (b!"Stake", .st [(b!"stakedAmount", b!"Balance"), (b!"unlockingBlock", b!"BlockNumber")]),
    (b!"FundingRoundWithPrimitives", .st [(b!"tokenA", b!"AssetId"), (b!"creator", b!"AccountId"), (b!"amount", b!"String"), (b!"tokenB", b!"AssetId"), (b!"vestingPerBlock", b!"String"), (b!"startBlock", b!"BlockNumber"), (b!"voteEndBlock", b!"BlockNumber"), (b!"vestingEndBlock", b!"BlockNumber"), (b!"projectInfoCid", b!"Vec<u8>"), (b!"minAllocation", b!"String"), (b!"maxAllocation", b!"String"), (b!"tokenAPriceperTokenB", b!"String"), (b!"closeRoundBlock", b!"BlockNumber"), (b!"actualRaise", b!"String")]),
    (b!"StoredHeader", .st [(b!"submitter", b!"Option<AccountId>"), (b!"header", b!"EthereumHeader"), (b!"totalDifficulty", b!"U256")]),
    (b!"AccountInfo", .al b!"AccountInfoWithTripleRefCount"),
    (b!"Voter", .st [(b!"accountId", b!"AccountId"), (b!"votes", b!"Balance")]),
    (b!"Erc721Token", .st [(b!"id", b!"TokenId"), (b!"metadata", b!"Vec<u8>")]),
    (b!"ShardIdentifier", .al b!"H256"),
    (b!"KYCStatus", .en [(b!"Tier0", b!"null"), (b!"Tier1", b!"null"), (b!"Tier2", b!"null")]),
    (b!"DepositNonce", .al b!"u64"),
    (b!"FundingRound", .st [(b!"tokenA", b!"AssetId"), (b!"creator", b!"AccountId"), (b!"amount", b!"Balance"), (b!"tokenB", b!"AssetId"), (b!"projectInfoCid", b!"Vec<u8>"), (b!"voteEndBlock", b!"BlockNumber"), (b!"vestingEndBlock", b!"BlockNumber"), (b!"vestingPerBlock", b!"Balance"), (b!"startBlock", b!"BlockNumber"), (b!"minAllocation", b!"Balance"), (b!"maxAllocation", b!"Balance"), (b!"tokenAPriceperTokenB", b!"Balance"), (b!"closeRoundBlock", b!"BlockNumber"), (b!"actualRaise", b!"Balance")]),
    (b!"EthereumHeader", .st [(b!"parentHash", b!"H256"), (b!"timestamp", b!"u64"), (b!"number", b!"u64"), (b!"author", b!"H160"), (b!"transactionsRoot", b!"H256"), (b!"ommersHash", b!"H256"), (b!"extraData", b!"Vec<u8>"), (b!"stateRoot", b!"H256"), (b!"receiptsRoot", b!"H256"), (b!"logBloom", b!"Bloom"), (b!"gasUsed", b!"U256"), (b!"gasLimit", b!"U256"), (b!"difficulty", b!"U256"), (b!"seal", b!"Vec<Vec<u8>>")]),
    (b!"ResourceId", .al b!"[u8; 32]"),
    (b!"CHAINSAFE", .al b!"H160"),
    (b!"CurrencyIdOf", .al b!"AssetId"),
    (b!"EthashProofData", .st [(b!"dagNodes", b!"[H512; 2]"), (b!"proof", b!"Vec<H128>")]),
    (b!"Address", .al b!"MultiAddress"),
    (b!"Bloom", .al b!"[u8; 256]"),
    (b!"BalanceOf", .al b!"Balance"),
    (b!"StakeInfo", .st [(b!"stakes", b!"Vec<Stake>")]),
    (b!"VoteCast", .st [(b!"amount", b!"Balance"), (b!"unlockingBlock", b!"BlockNumber"), (b!"voterAccount", b!"AccountId")]),
    (b!"LookupSource", .al b!"MultiAddress"),
    (b!"TokenId", .al b!"U256"),
    (b!"AssetId", .en [(b!"POLKADEX", b!"null"), (b!"ASSET", b!"u64")]),
    (b!"PruningRange", .st [(b!"oldestUnprunedBlock", b!"u64"), (b!"oldestBlockToKeep", b!"u64")]),
    (b!"EthereumHeaderId", .st [(b!"number", b!"u64"), (b!"hash", b!"H256")]),
    (b!"VoteStat", .st [(b!"yes", b!"String"), (b!"no", b!"String")]),
    (b!"InvestorInfo", .st [(b!"kycStatus", b!"KYCStatus")]),
    (b!"Proof", .st [(b!"blockHash", b!"H256"), (b!"txIndex", b!"u32"), (b!"data", b!"(Vec<Vec<u8>>, Vec<Vec<u8>>)")]),
    (b!"chainbridge::ChainId", .al b!"u8"),
    (b!"ProposalVotes", .st [(b!"votes_for", b!"Vec<MultiAddress>"), (b!"votes_against", b!"Vec<MultiAddress>"), (b!"status", b!"enum")]),
    (b!"AccountData", .st [(b!"free", b!"Balance"), (b!"reserved", b!"Balance"), (b!"frozen", b!"Balance")]),
    (b!"Message", .st [(b!"data", b!"Vec<u8>"), (b!"proof", b!"Proof")]),
    (b!"CurrencyId", .al b!"AssetId") ]

/-- network/polkadot.json. -/
def polkadot : List (Str × Entry) :=
  [ (b!"Address", .al b!"AccountId"),
    (b!"BlockNumber", .al b!"U32"),
    (b!"LeasePeriod", .al b!"BlockNumber"),
    (b!"Weight", .al b!"u64"),
    (b!"Keys", .al b!"SessionKeysPolkadot"),
    (b!"DispatchInfo", .st [(b!"weight", b!"Weight"), (b!"class", b!"DispatchClass"), (b!"paysFee", b!"Pays")]),
    (b!"DispatchResult", .en [(b!"Ok", b!"Null"), (b!"Error", b!"DispatchError")]),
    (b!"Timepoint", .st [(b!"height", b!"BlockNumber"), (b!"index", b!"u32")]),
    (b!"Multisig", .st [(b!"when", b!"Timepoint"), (b!"deposit", b!"Balance"), (b!"depositor", b!"AccountId"), (b!"approvals", b!"Vec<AccountId>")]),
    (b!"BalanceLock<Balance, BlockNumber>", .st [(b!"id", b!"LockIdentifier"), (b!"amount", b!"Balance"), (b!"reasons", b!"Reasons")]),
    (b!"ProxyType", .ev [b!"Any", b!"NonTransfer", b!"Governance", b!"Staking", b!"DeprecatedSudoBalances", b!"IdentityJudgement", b!"CancelProxy"]),
    (b!"ReferendumInfo", .en [(b!"Ongoing", b!"ReferendumStatus"), (b!"Finished", b!"ReferendumInfoFinished")]),
    (b!"CompactAssignments#23-?", .al b!"CompactAssignmentsLatest"),
    (b!"RefCount", .al b!"u32"),
    (b!"Box<<T as Config>::Call>", .al b!"Call"),
    (b!"Box<<T as Config<I>>::Proposal>", .al b!"Proposal"),
    (b!"AccountInfo", .al b!"AccountInfoWithProviders"),
    (b!"Address#28-?", .al b!"MultiAddress"),
    (b!"LookupSource#28-?", .al b!"MultiAddress"),
    (b!"Keys#28-29", .st [(b!"grandpa", b!"AccountId"), (b!"babe", b!"AccountId"), (b!"im_online", b!"AccountId"), (b!"para_validator", b!"AccountId"), (b!"para_assignment", b!"AccountId"), (b!"authority_discovery", b!"AccountId")]),
    (b!"ValidatorPrefs#28-?", .al b!"ValidatorPrefsWithBlocked"),
    (b!"Keys#30-?", .al b!"SessionKeys6"),
    (b!"AccountInfo#30-?", .al b!"AccountInfoWithTripleRefCount"),
    (b!"AssetInstance", .al b!"AssetInstanceV0"),
    (b!"MultiAsset", .al b!"MultiAssetV0"),
    (b!"Xcm", .al b!"XcmV0"),
    (b!"XcmOrder", .al b!"XcmOrderV0"),
    (b!"MultiLocation", .al b!"MultiLocationV0") ]

/-- network/reef.json. -/
def reef : List (Str × Entry) :=
  [ (b!"Weight", .al b!"u64"),
    (b!"CompactAssignments", .al b!"CompactAssignmentsLatest"),
    (b!"RefCount", .al b!"u32"),
    (b!"Address", .al b!"MultiAddress"),
    (b!"LookupSource", .al b!"MultiAddress"),
    (b!"AccountInfo", .al b!"AccountInfoWithProviders"),
    (b!"PalletsOrigin", .en [(b!"System", b!"SystemOrigin"), (b!"Timestamp", b!"Null"), (b!"RandomnessCollectiveFlip", b!"Null"), (b!"Balances", b!"Null"), (b!"Accounts", b!"Null"), (b!"Currencies", b!"Null"), (b!"Tokens", b!"Null"), (b!"Vesting", b!"Null"), (b!"AcalaTreasury", b!"Null"), (b!"Utility", b!"Null"), (b!"Multisig", b!"Null"), (b!"Recovery", b!"Null"), (b!"Proxy", b!"Null"), (b!"Scheduler", b!"Null"), (b!"Indices", b!"Null"), (b!"GraduallyUpdate", b!"Null"), (b!"Authorship", b!"Null"), (b!"Babe", b!"Null"), (b!"Grandpa", b!"Null"), (b!"Staking", b!"Null"), (b!"Session", b!"Null"), (b!"Historical", b!"Null"), (b!"GeneralCouncil", b!"CollectiveOrigin"), (b!"GeneralCouncilMembership", b!"Null"), (b!"HonzonCouncil", b!"CollectiveOrigin"), (b!"HonzonCouncilMembership", b!"Null"), (b!"HomaCouncil", b!"CollectiveOrigin"), (b!"HomaCouncilMembership", b!"Null"), (b!"TechnicalCommittee", b!"CollectiveOrigin"), (b!"TechnicalCommitteeMembership", b!"Null"), (b!"Authority", b!"DelayedOrigin"), (b!"ElectionsPhragmen", b!"Null"), (b!"AcalaOracle", b!"Null"), (b!"BandOracle", b!"Null"), (b!"OperatorMembershipAcala", b!"Null"), (b!"OperatorMembershipBand", b!"Null"), (b!"Auction", b!"Null"), (b!"Rewards", b!"Null"), (b!"OrmlNFT", b!"Null"), (b!"Prices", b!"Null"), (b!"Dex", b!"Null"), (b!"AuctionManager", b!"Null"), (b!"Loans", b!"Null"), (b!"Honzon", b!"Null"), (b!"CdpTreasury", b!"Null"), (b!"CdpEngine", b!"Null"), (b!"EmergencyShutdown", b!"Null"), (b!"Homa", b!"Null"), (b!"NomineesElection", b!"Null"), (b!"StakingPool", b!"Null"), (b!"PolkadotBridge", b!"Null"), (b!"Incentives", b!"Null"), (b!"AirDrop", b!"Null"), (b!"NFT", b!"Null"), (b!"RenVmBridge", b!"Null"), (b!"Contracts", b!"Null"), (b!"EVM", b!"Null"), (b!"Sudo", b!"Null"), (b!"TransactionPayment", b!"Null")]),
    (b!"ChainId", .en [(b!"RelayChain", b!"Null"), (b!"ParaChain", b!"ParaId")]),
    (b!"AuctionInfo", .st [(b!"bid", b!"Option<(AccountId, Balance)>"), (b!"start", b!"BlockNumber"), (b!"end", b!"Option<BlockNumber>")]),
    (b!"AuctionId", .al b!"u32"),
    (b!"OrmlBalanceLock", .st [(b!"amount", b!"Balance"), (b!"id", b!"LockIdentifier")]),
    (b!"VestingScheduleOf", .al b!"OrmlVestingSchedule"),
    (b!"PalletBalanceOf", .al b!"Balance"),
    (b!"GraduallyUpdate", .st [(b!"key", b!"StorageKey"), (b!"targetValue", b!"StorageValue"), (b!"perBlock", b!"StorageValue")]),
    (b!"TimestampedValueOf", .al b!"TimestampedValue"),
    (b!"Ratio", .al b!"FixedU128"),
    (b!"StorageKeyBytes", .al b!"Vec<u8>"),
    (b!"XCurrencyId", .st [(b!"chainId", b!"ChainId"), (b!"currencyId", b!"Vec<u8>")]),
    (b!"EvmAddress", .al b!"H160"),
    (b!"EstimateResourcesResponse", .st [(b!"gas", b!"u256"), (b!"storage", b!"i32"), (b!"weightFee", b!"u256")]),
    (b!"AuthoritysOriginId", .ev [b!"Root"]),
    (b!"DelayedDispatchTime", .en [(b!"At", b!"BlockNumber"), (b!"After", b!"BlockNumber")]),
    (b!"Price", .al b!"FixedU128"),
    (b!"EvmContractInfo", .st [(b!"codeHash", b!"H256"), (b!"maintainer", b!"H160"), (b!"deployed", b!"bool")]),
    (b!"TradingPair", .al b!"(CurrencyId,  CurrencyId)"),
    (b!"Rate", .al b!"FixedU128"),
    (b!"DispatchTime", .en [(b!"At", b!"BlockNumber"), (b!"After", b!"BlockNumber")]),
    (b!"CurrencyIdOf", .al b!"CurrencyId"),
    (b!"AmountOf", .al b!"Amount"),
    (b!"OrderedSet", .al b!"Vec<AccountId>"),
    (b!"RpcDataProviderId", .al b!"Text"),
    (b!"TokenSymbol", .en [(b!"REEF", b!"0"), (b!"RUSD", b!"1")]),
    (b!"ScheduleTaskIndex", .al b!"u32"),
    (b!"PoolInfo", .st [(b!"totalShares", b!"Compact<Share>"), (b!"totalRewards", b!"Compact<Balance>"), (b!"totalWithdrawnRewards", b!"Compact<Balance>")]),
    (b!"CommitmentOf", .st [(b!"duration", b!"LockDuration"), (b!"amount", b!"BalanceOf"), (b!"candidate", b!"AccountId")]),
    (b!"StorageValueBytes", .al b!"Vec<u8>"),
    (b!"EvmAccountInfo", .st [(b!"nonce", b!"Index"), (b!"contractInfo", b!"Option<EvmContractInfo>"), (b!"developerDeposit", b!"Option<Balance>")]),
    (b!"CurrencyId", .en [(b!"Token", b!"TokenSymbol"), (b!"DEXShare", b!"(TokenSymbol, TokenSymbol)"), (b!"ERC20", b!"EvmAddress")]),
    (b!"LockDuration", .ev [b!"OneMonth", b!"OneYear", b!"TenYears"]),
    (b!"CallRequest", .st [(b!"from", b!"Option<H160>"), (b!"to", b!"Option<H160>"), (b!"gasLimit", b!"Option<u32>"), (b!"storageLimit", b!"Option<u32>"), (b!"value", b!"Option<U128>"), (b!"data", b!"Option<Bytes>")]),
    (b!"Amount", .al b!"i128"),
    (b!"Era", .st [(b!"index", b!"u32"), (b!"start", b!"BlockNumber")]),
    (b!"StorageValue", .al b!"Vec<u8>"),
    (b!"CallOf", .al b!"Call"),
    (b!"OrmlAccountData", .st [(b!"free", b!"Balance"), (b!"frozen", b!"Balance"), (b!"reserved", b!"Balance")]),
    (b!"DispatchId", .al b!"u32"),
    (b!"PoolId", .en [(b!"Loans", b!"CurrencyId"), (b!"DexIncentive", b!"CurrencyId"), (b!"DexSaving", b!"CurrencyId"), (b!"Homa", b!"Null")]),
    (b!"DelayedOrigin", .st [(b!"delay", b!"BlockNumber"), (b!"origin", b!"PalletsOrigin")]),
    (b!"AuctionIdOf", .al b!"AuctionId"),
    (b!"ExchangeRate", .al b!"FixedU128"),
    (b!"Share", .al b!"u128"),
    (b!"DataProviderId", .al b!"u8"),
    (b!"AsOriginId", .al b!"AuthoritysOriginId"),
    (b!"Keys", .al b!"SessionKeys2"),
    (b!"OracleKey", .al b!"CurrencyId"),
    (b!"CodeInfo", .st [(b!"codeSize", b!"u32"), (b!"refCount", b!"u32")]),
    (b!"OracleValue", .al b!"Price"),
    (b!"TimestampedValue", .st [(b!"value", b!"OracleValue"), (b!"timestamp", b!"Moment")]),
    (b!"OrmlVestingSchedule", .st [(b!"start", b!"BlockNumber"), (b!"period", b!"BlockNumber"), (b!"periodCount", b!"u32"), (b!"perPeriod", b!"Compact<Balance>")]) ]

/-- network/robonomics-test.json. -/
def robonomics_test : List (Str × Entry) :=
  [ (b!"Weight", .al b!"u64"),
    (b!"CompactAssignments", .al b!"CompactAssignmentsLatest"),
    (b!"RefCount", .al b!"u32"),
    (b!"Address", .al b!"MultiAddress"),
    (b!"LookupSource", .al b!"MultiAddress"),
    (b!"AccountInfo", .al b!"AccountInfoWithTripleRefCount"),
    (b!"LaunchParameter", .al b!"bool"),
    (b!"Lighthouse", .al b!"AccountId"),
    (b!"LiabilityIndex", .al b!"u32"),
    (b!"RingBufferItem", .al b!"(Compact<Moment>,Record)"),
    (b!"ReportFor", .al b!"Report"),
    (b!"Economics", .al b!"NULL"),
    (b!"Agreement", .st [(b!"technics", b!"Technics"), (b!"economics", b!"Economics"), (b!"promisee", b!"AccountId"), (b!"promisor", b!"AccountId"), (b!"promisee_signature", b!"MultiSignature"), (b!"promisor_signature", b!"MultiSignature")]),
    (b!"RingBufferIndex", .st [(b!"start", b!"u64"), (b!"end", b!"u64")]),
    (b!"Record", .al b!"Vec<u8>"),
    (b!"Technics", .al b!"Vec<u8>"),
    (b!"Report", .st [(b!"index", b!"LiabilityIndex"), (b!"sender", b!"AccountId"), (b!"payload", b!"Vec<u8>"), (b!"signature", b!"MultiSignature")]),
    (b!"Parameter", .al b!"bool"),
    (b!"Moment", .al b!"u64"),
    (b!"StakerLedger", .st [(b!"stash", b!"AccountId"), (b!"total", b!"Compact<Balance>"), (b!"active", b!"Compact<Balance>"), (b!"unlocking", b!"Vec<UnlockChunk>"), (b!"claimed_rewards", b!"Moment")]),
    (b!"UnlockChunk", .st [(b!"value", b!"Compact<Balance>"), (b!"moment", b!"Compact<Moment>")]) ]

/-- network/rococo.json. -/
def rococo : List (Str × Entry) :=
  [ (b!"Weight", .al b!"u64"),
    (b!"CompactAssignments", .al b!"CompactAssignmentsLatest"),
    (b!"RefCount", .al b!"u32"),
    (b!"DispatchResult", .en [(b!"Ok", b!"Null"), (b!"Error", b!"DispatchError")]),
    (b!"Address", .al b!"MultiAddress"),
    (b!"LookupSource", .al b!"MultiAddress"),
    (b!"Box<<T as Config>::Call>", .al b!"Call"),
    (b!"Keys#0-12", .st [(b!"grandpa", b!"AccountId"), (b!"babe", b!"AccountId"), (b!"im_online", b!"AccountId"), (b!"authority_discovery", b!"AccountId"), (b!"parachains", b!"AccountId")]),
    (b!"Keys", .al b!"SessionKeys7B"),
    (b!"Proposal<AccountId, ValidatorId, BalanceOf>", .al b!"ParachainProposal"),
    (b!"FullIdentification", .al b!"NULL"),
    (b!"AccountInfo", .al b!"AccountInfoWithTripleRefCount"),
    (b!"AuctionIndex", .al b!"u32"),
    (b!"slots::AuctionIndex", .al b!"u32"),
    (b!"auctions::AuctionIndex", .al b!"u32"),
    (b!"FundIndex", .al b!"u32"),
    (b!"LastContribution<BlockNumber>", .en [(b!"Never", b!"Null"), (b!"PreEnding", b!"slots::AuctionIndex"), (b!"Ending", b!"BlockNumber")]),
    (b!"TrieIndex", .al b!"u32"),
    (b!"(LeasePeriodOf, BlockNumber)", .st [(b!"lease_index", b!"LeasePeriodOf"), (b!"ending_block", b!"BlockNumber")]),
    (b!"HeadData", .al b!"Bytes"),
    (b!"ValidationCode", .al b!"Bytes"),
    (b!"ParaGenesisArgs", .st [(b!"genesis_head", b!"HeadData"), (b!"validation_code", b!"ValidationCode"), (b!"parachain", b!"bool")]),
    (b!"ParaInfo<AccountId, BalanceOf>", .al b!"ParaInfo"),
    (b!"(AccountId, BalanceOf)", .al b!"ParaInfo"),
    (b!"Vec<Option<(AccountId, BalanceOf)>>", .al b!"Vec<Option<ParaInfo>>"),
    (b!"WinningData", .al b!"[Option<WinnerData>; 36]"),
    (b!"WinnerData", .st [(b!"accountId", b!"AccountId"), (b!"paraId", b!"ParaId"), (b!"amount", b!"Balance")]),
    (b!"ValidatorIndex", .al b!"u32"),
    (b!"CompactAssignments#9010-?", .al b!"CompactAssignmentsWith24"),
    (b!"AssetInstance", .al b!"AssetInstanceV0"),
    (b!"MultiAsset", .al b!"MultiAssetV0"),
    (b!"Xcm", .al b!"XcmV0"),
    (b!"XcmOrder", .al b!"XcmOrderV0"),
    (b!"MultiLocation", .al b!"MultiLocationV0") ]

/-- network/sakura.json. -/
def sakura : List (Str × Entry) :=
  [ (b!"ExchangeInfo", .st [(b!"balance", b!"Balance"), (b!"routes", b!"Vec<CurrencyTypeEnum>")]),
    (b!"Ratio", .al b!"u128"),
    (b!"CurrencyId", .ev [b!"CLV", b!"CUSDT", b!"DOT", b!"CETH"]),
    (b!"EcdsaSignature", .al b!"[u8; 65]"),
    (b!"Price", .al b!"FixedU128"),
    (b!"PoolId", .en [(b!"Swap", b!"u64")]),
    (b!"Share", .al b!"u128"),
    (b!"Rate", .al b!"u128"),
    (b!"CurrencyTypeEnum", .ev [b!"CLV", b!"CUSDT", b!"DOT", b!"CETH"]),
    (b!"CurrencyIdOf", .al b!"CurrencyId"),
    (b!"Amount", .al b!"i128"),
    (b!"EvmAddress", .al b!"H160"),
    (b!"CurrencyInfo", .st [(b!"id", b!"CurrencyId"), (b!"name", b!"CurrencyTypeEnum")]),
    (b!"PairKey", .al b!"u64"),
    (b!"AmountOf", .al b!"Amount"),
    (b!"OracleKey", .al b!"CurrencyId"),
    (b!"Balance", .al b!"u128"),
    (b!"Weight", .al b!"u64"),
    (b!"CompactAssignments", .al b!"CompactAssignmentsLatest"),
    (b!"RefCount", .al b!"u32"),
    (b!"DispatchResult", .en [(b!"Ok", b!"Null"), (b!"Error", b!"DispatchError")]),
    (b!"TransactionRecoveryId", .al b!"U64"),
    (b!"TransactionSignature", .st [(b!"v", b!"TransactionRecoveryId"), (b!"r", b!"H256"), (b!"s", b!"H256")]),
    (b!"Address", .al b!"MultiAddress"),
    (b!"LookupSource", .al b!"MultiAddress"),
    (b!"AccountInfo", .al b!"AccountInfoWithProviders"),
    (b!"Keys", .al b!"(AccountId, AccountId, AccountId, AccountId)"),
    (b!"FixedU128", .al b!"u128"),
    (b!"BridgeNetworks", .ev [b!"BSC", b!"Ethereum"]),
    (b!"EthereumTxHash", .al b!"H256") ]

/-- network/shibuya.json. -/
def shibuya : List (Str × Entry) :=
  [ (b!"Weight", .al b!"u64"),
    (b!"CompactAssignments", .al b!"CompactAssignmentsLatest"),
    (b!"RefCount", .al b!"u32"),
    (b!"Address", .al b!"MultiAddress"),
    (b!"LookupSource", .al b!"MultiAddress"),
    (b!"AccountInfo", .al b!"AccountInfoWithTripleRefCount"),
    (b!"Keys", .al b!"SessionKeys1") ]

/-- network/shiden.json. -/
def shiden : List (Str × Entry) :=
  [ (b!"Weight", .al b!"u64"),
    (b!"CompactAssignments", .al b!"CompactAssignmentsLatest"),
    (b!"RefCount", .al b!"u32"),
    (b!"Address", .al b!"MultiAddress"),
    (b!"LookupSource", .al b!"MultiAddress"),
    (b!"AccountInfo", .al b!"AccountInfoWithTripleRefCount"),
    (b!"Keys", .al b!"SessionKeys1") ]

/-- network/sora.json. -/
def sora : List (Str × Entry) :=
  [ (b!"Weight", .al b!"u64"),
    (b!"CompactAssignments", .al b!"CompactAssignmentsLatest"),
    (b!"AccountInfo", .al b!"AccountInfoWithProviders"),
    (b!"Sr25519Public", .al b!"[u8; 32]"),
    (b!"SessionKeys2", .al b!"(Sr25519Public, Sr25519Public)"),
    (b!"SessionKeys3", .al b!"(Sr25519Public, Sr25519Public, Sr25519Public)"),
    (b!"Address", .al b!"AccountId"),
    (b!"LookupSource", .al b!"AccountId"),
    (b!"Amount", .al b!"i128"),
    (b!"AmountOf", .al b!"Amount"),
    (b!"AssetId32", .al b!"[u8; 32]"),
    (b!"AssetId", .al b!"AssetId32"),
    (b!"AssetIdOf", .al b!"AssetId"),
    (b!"MultiChainHeight", .en [(b!"Thischain", b!"BlockNumber"), (b!"Sidechain", b!"u64")]),
    (b!"BridgeTimepoint", .st [(b!"height", b!"MultiChainHeight"), (b!"index", b!"u32")]),
    (b!"AssetInfo", .st [(b!"asset_id", b!"AssetId"), (b!"symbol", b!"AssetSymbolStr"), (b!"name", b!"AssetNameStr"), (b!"precision", b!"u8"), (b!"is_mintable", b!"bool")]),
    (b!"AssetKind", .ev [b!"Thischain", b!"Sidechain", b!"SidechainOwned"]),
    (b!"AssetName", .al b!"Vec<u8>"),
    (b!"AssetNameStr", .al b!"String"),
    (b!"AssetRecord", .al b!"Null"),
    (b!"AssetSymbol", .al b!"Vec<u8>"),
    (b!"AssetSymbolStr", .al b!"String"),
    (b!"Balance", .al b!"u128"),
    (b!"BalanceInfo", .st [(b!"balance", b!"Balance")]),
    (b!"BalancePrecision", .al b!"u8"),
    (b!"BasisPoints", .al b!"u16"),
    (b!"BridgeNetworkId", .al b!"u32"),
    (b!"NetworkId", .al b!"BridgeNetworkId"),
    (b!"BridgeStatus", .ev [b!"Initialized", b!"Migrating"]),
    (b!"ChangePeersContract", .ev [b!"XOR", b!"VAL"]),
    (b!"ChargeFeeInfo", .st [(b!"tip", b!"Compact<Balance>"), (b!"target_asset_id", b!"AssetId")]),
    (b!"CurrencyId", .al b!"AssetId"),
    (b!"CurrencyIdEncoded", .en [(b!"AssetId", b!"H256"), (b!"TokenAddress", b!"H160")]),
    (b!"CurrencyIdOf", .al b!"AssetId"),
    (b!"T::AccountId", .al b!"AccountId"),
    (b!"CustomInfo", .st [(b!"amount", b!"Balance")]),
    (b!"DEXId", .al b!"u32"),
    (b!"DEXIdOf", .al b!"DEXId"),
    (b!"DEXInfo", .st [(b!"base_asset_id", b!"AssetId"), (b!"default_fee", b!"BasisPoints"), (b!"default_protocol_fee", b!"BasisPoints")]),
    (b!"DispatchErrorWithPostInfoTPostDispatchInfo", .st [(b!"post_info", b!"PostDispatchInfo"), (b!"error", b!"DispatchError")]),
    (b!"DispatchResultWithPostInfo", .en [(b!"Ok", b!"PostDispatchInfo"), (b!"Err", b!"DispatchErrorWithPostInfoTPostDispatchInfo")]),
    (b!"DistributionAccounts", .al b!"Null"),
    (b!"Duration", .al b!"Null"),
    (b!"EthPeersSync", .st [(b!"is_bridge_ready", b!"bool"), (b!"is_xor_ready", b!"bool"), (b!"is_val_ready", b!"bool")]),
    (b!"Farm", .al b!"Null"),
    (b!"FarmId", .al b!"u64"),
    (b!"Farmer", .al b!"Null"),
    (b!"FilterMode", .ev [b!"Disabled", b!"ForbidSelected", b!"AllowSelected"]),
    (b!"Fixed", .al b!"FixedU128"),
    (b!"FixedBytes", .al b!"Vec<u8>"),
    (b!"HolderId", .al b!"AccountId"),
    (b!"IncomingAddToken", .st [(b!"token_address", b!"EthereumAddress"), (b!"asset_id", b!"AssetId"), (b!"precision", b!"BalancePrecision"), (b!"symbol", b!"AssetSymbol"), (b!"name", b!"AssetName"), (b!"author", b!"AccountId"), (b!"tx_hash", b!"H256"), (b!"at_height", b!"u64"), (b!"timepoint", b!"Timepoint"), (b!"network_id", b!"BridgeNetworkId")]),
    (b!"IncomingCancelOutgoingRequest", .st [(b!"outgoing_request", b!"OutgoingRequest"), (b!"outgoing_request_hash", b!"H256"), (b!"initial_request_hash", b!"H256"), (b!"tx_input", b!"Vec<u8>"), (b!"author", b!"AccountId"), (b!"tx_hash", b!"H256"), (b!"at_height", b!"u64"), (b!"timepoint", b!"Timepoint"), (b!"network_id", b!"BridgeNetworkId")]),
    (b!"IncomingChangePeers", .st [(b!"peer_account_id", b!"AccountId"), (b!"peer_address", b!"EthereumAddress"), (b!"added", b!"bool"), (b!"author", b!"AccountId"), (b!"tx_hash", b!"H256"), (b!"at_height", b!"u64"), (b!"timepoint", b!"Timepoint"), (b!"network_id", b!"BridgeNetworkId")]),
    (b!"IncomingChangePeersCompat", .st [(b!"peer_account_id", b!"AccountId"), (b!"peer_address", b!"EthereumAddress"), (b!"added", b!"bool"), (b!"contract", b!"ChangePeersContract"), (b!"author", b!"AccountId"), (b!"tx_hash", b!"H256"), (b!"at_height", b!"u64"), (b!"timepoint", b!"Timepoint"), (b!"network_id", b!"BridgeNetworkId")]),
    (b!"IncomingMarkAsDoneRequest", .st [(b!"outgoing_request_hash", b!"H256"), (b!"initial_request_hash", b!"H256"), (b!"author", b!"AccountId"), (b!"at_height", b!"u64"), (b!"timepoint", b!"Timepoint"), (b!"network_id", b!"BridgeNetworkId")]),
    (b!"IncomingMetaRequestKind", .ev [b!"CancelOutgoingRequest", b!"MarkAsDone"]),
    (b!"IncomingMigrate", .st [(b!"new_contract_address", b!"EthereumAddress"), (b!"author", b!"AccountId"), (b!"tx_hash", b!"H256"), (b!"at_height", b!"u64"), (b!"timepoint", b!"Timepoint"), (b!"network_id", b!"BridgeNetworkId")]),
    (b!"IncomingPrepareForMigration", .st [(b!"author", b!"AccountId"), (b!"tx_hash", b!"H256"), (b!"at_height", b!"u64"), (b!"timepoint", b!"Timepoint"), (b!"network_id", b!"BridgeNetworkId")]),
    (b!"IncomingRequest", .en [(b!"Transfer", b!"IncomingTransfer"), (b!"AddToken", b!"IncomingAddToken"), (b!"ChangePeers", b!"IncomingChangePeers"), (b!"CancelOutgoingRequest", b!"IncomingCancelOutgoingRequest"), (b!"MarkAsDone", b!"IncomingMarkAsDoneRequest"), (b!"PrepareForMigration", b!"IncomingPrepareForMigration"), (b!"Migrate", b!"IncomingMigrate")]),
    (b!"IncomingRequestKind", .en [(b!"Transaction", b!"IncomingTransactionRequestKind"), (b!"Meta", b!"IncomingMetaRequestKind")]),
    (b!"IncomingTransactionRequestKind", .ev [b!"Transfer", b!"AddAsset", b!"AddPeer", b!"RemovePeer", b!"PrepareForMigration", b!"Migrate", b!"AddPeerCompat", b!"RemovePeerCompat", b!"TransferXOR"]),
    (b!"IncomingTransfer", .st [(b!"from", b!"EthereumAddress"), (b!"to", b!"AccountId"), (b!"asset_id", b!"AssetId"), (b!"asset_kind", b!"AssetKind"), (b!"amount", b!"Balance"), (b!"author", b!"AccountId"), (b!"tx_hash", b!"H256"), (b!"at_height", b!"u64"), (b!"timepoint", b!"Timepoint"), (b!"network_id", b!"BridgeNetworkId"), (b!"should_take_fee", b!"bool")]),
    (b!"Keys", .al b!"SessionKeys3"),
    (b!"LiquiditySourceType", .ev [b!"XYKPool", b!"BondingCurvePool", b!"MulticollateralBondingCurvePool", b!"MockPool", b!"MockPool2", b!"MockPool3", b!"MockPool4"]),
    (b!"LoadIncomingMetaRequest", .st [(b!"author", b!"AccountId"), (b!"hash", b!"H256"), (b!"timepoint", b!"Timepoint"), (b!"kind", b!"IncomingMetaRequestKind"), (b!"network_id", b!"BridgeNetworkId")]),
    (b!"LoadIncomingRequest", .en [(b!"Transaction", b!"LoadIncomingTransactionRequest"), (b!"Meta", b!"(LoadIncomingMetaRequest, H256)")]),
    (b!"LoadIncomingTransactionRequest", .st [(b!"author", b!"AccountId"), (b!"hash", b!"H256"), (b!"timepoint", b!"Timepoint"), (b!"kind", b!"IncomingTransactionRequestKind"), (b!"network_id", b!"BridgeNetworkId")]),
    (b!"Mode", .ev [b!"Permit", b!"Forbid"]),
    (b!"MultiCurrencyBalance", .al b!"Balance"),
    (b!"MultiCurrencyBalanceOf", .al b!"MultiCurrencyBalance"),
    (b!"MultisigAccount", .al b!"Null"),
    (b!"OffchainRequest", .en [(b!"Outgoing", b!"(OutgoingRequest, H256)"), (b!"LoadIncoming", b!"LoadIncomingRequest"), (b!"Incoming", b!"(IncomingRequest, H256)")]),
    (b!"OracleKey", .al b!"AssetId"),
    (b!"OutgoingAddAsset", .st [(b!"author", b!"AccountId"), (b!"asset_id", b!"AssetId"), (b!"supply", b!"Balance"), (b!"nonce", b!"Index"), (b!"network_id", b!"BridgeNetworkId"), (b!"timepoint", b!"Timepoint")]),
    (b!"OutgoingAddAssetEncoded", .st [(b!"name", b!"String"), (b!"symbol", b!"String"), (b!"decimal", b!"u8"), (b!"supply", b!"U256"), (b!"sidechain_asset_id", b!"FixedBytes"), (b!"hash", b!"H256"), (b!"network_id", b!"H256"), (b!"raw", b!"Vec<u8>")]),
    (b!"OutgoingAddPeer", .st [(b!"author", b!"AccountId"), (b!"peer_address", b!"EthereumAddress"), (b!"peer_account_id", b!"AccountId"), (b!"nonce", b!"Index"), (b!"network_id", b!"BridgeNetworkId"), (b!"timepoint", b!"Timepoint")]),
    (b!"OutgoingAddPeerCompat", .st [(b!"author", b!"AccountId"), (b!"peer_address", b!"EthereumAddress"), (b!"peer_account_id", b!"AccountId"), (b!"nonce", b!"Index"), (b!"network_id", b!"BridgeNetworkId"), (b!"timepoint", b!"Timepoint")]),
    (b!"OutgoingAddPeerEncoded", .st [(b!"peer_address", b!"EthereumAddress"), (b!"tx_hash", b!"H256"), (b!"network_id", b!"H256"), (b!"raw", b!"Vec<u8>")]),
    (b!"OutgoingAddToken", .st [(b!"author", b!"AccountId"), (b!"token_address", b!"EthereumAddress"), (b!"ticker", b!"String"), (b!"name", b!"String"), (b!"decimals", b!"u8"), (b!"nonce", b!"Index"), (b!"network_id", b!"BridgeNetworkId"), (b!"timepoint", b!"Timepoint")]),
    (b!"OutgoingAddTokenEncoded", .st [(b!"token_address", b!"EthereumAddress"), (b!"ticker", b!"String"), (b!"name", b!"String"), (b!"decimals", b!"u8"), (b!"hash", b!"H256"), (b!"network_id", b!"H256"), (b!"raw", b!"Vec<u8>")]),
    (b!"OutgoingMigrate", .st [(b!"author", b!"AccountId"), (b!"new_contract_address", b!"EthereumAddress"), (b!"erc20_native_tokens", b!"Vec<EthereumAddress>"), (b!"nonce", b!"Index"), (b!"network_id", b!"BridgeNetworkId"), (b!"timepoint", b!"Timepoint")]),
    (b!"OutgoingMigrateEncoded", .st [(b!"this_contract_address", b!"EthereumAddress"), (b!"tx_hash", b!"H256"), (b!"new_contract_address", b!"EthereumAddress"), (b!"erc20_native_tokens", b!"Vec<EthereumAddress>"), (b!"network_id", b!"H256"), (b!"raw", b!"Vec<u8>")]),
    (b!"OutgoingPrepareForMigration", .st [(b!"author", b!"AccountId"), (b!"nonce", b!"Index"), (b!"network_id", b!"BridgeNetworkId"), (b!"timepoint", b!"Timepoint")]),
    (b!"OutgoingPrepareForMigrationEncoded", .st [(b!"this_contract_address", b!"EthereumAddress"), (b!"tx_hash", b!"H256"), (b!"network_id", b!"H256"), (b!"raw", b!"Vec<u8>")]),
    (b!"OutgoingRemovePeer", .st [(b!"author", b!"AccountId"), (b!"peer_account_id", b!"AccountId"), (b!"peer_address", b!"EthereumAddress"), (b!"nonce", b!"Index"), (b!"network_id", b!"BridgeNetworkId"), (b!"timepoint", b!"Timepoint")]),
    (b!"OutgoingRemovePeerCompat", .st [(b!"author", b!"AccountId"), (b!"peer_account_id", b!"AccountId"), (b!"peer_address", b!"EthereumAddress"), (b!"nonce", b!"Index"), (b!"network_id", b!"BridgeNetworkId"), (b!"timepoint", b!"Timepoint")]),
    (b!"OutgoingRemovePeerEncoded", .st [(b!"peer_address", b!"EthereumAddress"), (b!"tx_hash", b!"H256"), (b!"network_id", b!"H256"), (b!"raw", b!"Vec<u8>")]),
    (b!"OutgoingRequest", .en [(b!"Transfer", b!"OutgoingTransfer"), (b!"AddAsset", b!"OutgoingAddAsset"), (b!"AddToken", b!"OutgoingAddToken"), (b!"AddPeer", b!"OutgoingAddPeer"), (b!"RemovePeer", b!"OutgoingRemovePeer"), (b!"PrepareForMigration", b!"OutgoingPrepareForMigration"), (b!"Migrate", b!"OutgoingMigrate")]),
    (b!"OutgoingRequestEncoded", .en [(b!"Transfer", b!"OutgoingTransferEncoded"), (b!"AddAsset", b!"OutgoingAddAssetEncoded"), (b!"AddToken", b!"OutgoingAddTokenEncoded"), (b!"AddPeer", b!"OutgoingAddPeerEncoded"), (b!"RemovePeer", b!"OutgoingRemovePeerEncoded"), (b!"PrepareForMigration", b!"OutgoingPrepareForMigrationEncoded"), (b!"Migrate", b!"OutgoingMigrateEncoded")]),
    (b!"OutgoingTransfer", .st [(b!"from", b!"AccountId"), (b!"to", b!"EthereumAddress"), (b!"asset_id", b!"AssetId"), (b!"amount", b!"Balance"), (b!"nonce", b!"Index"), (b!"network_id", b!"BridgeNetworkId"), (b!"timepoint", b!"Timepoint")]),
    (b!"OutgoingTransferEncoded", .st [(b!"currency_id", b!"CurrencyIdEncoded"), (b!"amount", b!"U256"), (b!"to", b!"EthereumAddress"), (b!"from", b!"EthereumAddress"), (b!"tx_hash", b!"H256"), (b!"network_id", b!"H256"), (b!"raw", b!"Vec<u8>")]),
    (b!"OwnerId", .al b!"AccountId"),
    (b!"PendingMultisigAccount", .al b!"Null"),
    (b!"Permission", .al b!"Null"),
    (b!"PermissionId", .al b!"u32"),
    (b!"PostDispatchInfo", .st [(b!"actual_weight", b!"Option<Weight>"), (b!"pays_fee", b!"Pays")]),
    (b!"Public", .al b!"[u8; 33]"),
    (b!"QuoteAmount", .en [(b!"WithDesiredInput", b!"QuoteWithDesiredInput"), (b!"WithDesiredOutput", b!"QuoteWithDesiredOutput")]),
    (b!"QuoteWithDesiredInput", .st [(b!"desired_amount_in", b!"Balance")]),
    (b!"QuoteWithDesiredOutput", .st [(b!"desired_amount_out", b!"Balance")]),
    (b!"RefCount", .al b!"u32"),
    (b!"RequestStatus", .ev [b!"Pending", b!"Frozen", b!"ApprovalsReady", b!"Failed", b!"Done"]),
    (b!"Result<IncomingRequest, DispatchError>", .en [(b!"Ok", b!"IncomingRequest"), (b!"Err", b!"DispatchError")]),
    (b!"Scope", .en [(b!"Limited", b!"H512"), (b!"Unlimited", b!"Null")]),
    (b!"SignatureParams", .st [(b!"r", b!"[u8; 32]"), (b!"s", b!"[u8; 32]"), (b!"v", b!"u8")]),
    (b!"BTreeSet<SignatureParams>", .al b!"Vec<SignatureParams>"),
    (b!"BTreeSet<H256>", .al b!"Vec<H256>"),
    (b!"BTreeSet<AssetId>", .al b!"Vec<AssetId>"),
    (b!"BTreeSet<AccountId>", .al b!"Vec<AccountId>"),
    (b!"BTreeSet<LiquiditySourceType>", .al b!"Vec<LiquiditySourceType>"),
    (b!"ecdsa::Public", .al b!"[u8; 33]"),
    (b!"SmoothPriceState", .al b!"Null"),
    (b!"SwapAction", .al b!"Null"),
    (b!"SwapAmount", .en [(b!"WithDesiredInput", b!"SwapWithDesiredInput"), (b!"WithDesiredOutput", b!"SwapWithDesiredOutput")]),
    (b!"SwapOutcome", .st [(b!"amount", b!"Balance"), (b!"fee", b!"Balance")]),
    (b!"SwapOutcomeInfo", .st [(b!"amount", b!"Balance"), (b!"fee", b!"Balance")]),
    (b!"SwapVariant", .ev [b!"WithDesiredInput", b!"WithDesiredOutput"]),
    (b!"SwapWithDesiredInput", .st [(b!"desired_amount_in", b!"Balance"), (b!"min_amount_out", b!"Balance")]),
    (b!"SwapWithDesiredOutput", .st [(b!"desired_amount_out", b!"Balance"), (b!"max_amount_in", b!"Balance")]),
    (b!"TAssetBalance", .al b!"Balance"),
    (b!"TP", .al b!"TradingPair"),
    (b!"TechAccountId", .en [(b!"Pure", b!"(DEXId, TechPurpose)"), (b!"Generic", b!"(Vec<u8>, Vec<u8>)"), (b!"Wrapped", b!"AccountId"), (b!"WrappedRepr", b!"AccountId")]),
    (b!"TechAccountIdPrimitive", .al b!"Null"),
    (b!"TechAmount", .al b!"Amount"),
    (b!"TechAssetId", .al b!"Null"),
    (b!"TechBalance", .al b!"Balance"),
    (b!"TechPurpose", .en [(b!"FeeCollector", b!"Null"), (b!"LiquidityKeeper", b!"TradingPair"), (b!"Identifier", b!"Vec<u8>")]),
    (b!"TradingPair", .st [(b!"base_asset_id", b!"AssetId"), (b!"target_asset_id", b!"AssetId")]),
    (b!"ValidationFunction", .al b!"Null"),
    (b!"RewardReason#0-3", .ev [b!"Unspecified", b!"BuyOnBondingCurve"]),
    (b!"BTreeMap<RewardReason,Balance>", .al b!"Vec<(RewardReason,Balance)>"),
    (b!"RewardInfo", .st [(b!"limit", b!"Balance"), (b!"total_available", b!"Balance"), (b!"rewards", b!"BTreeMap<RewardReason,Balance>")]),
    (b!"StorageVersion", .al b!"Null"),
    (b!"MarketMakerInfo", .st [(b!"count", b!"u32"), (b!"volume", b!"Balance")]),
    (b!"EthBridgeStorageVersion", .ev [b!"V1", b!"V2RemovePendingTransfers"]),
    (b!"RewardReason", .ev [b!"Unspecified", b!"BuyOnBondingCurve", b!"LiquidityProvisionFarming", b!"MarketMakerVolume"]),
    (b!"AccountIdOf", .al b!"AccountId") ]

/-- network/spiritnet.json. -/
def spiritnet : List (Str × Entry) :=
  [ (b!"ChainId", .en [(b!"RelayChain", b!"Null"), (b!"ParaChain", b!"ParaId")]),
    (b!"XCurrencyId", .st [(b!"chainId", b!"ChainId"), (b!"currencyId", b!"Vec<u8>")]),
    (b!"CurrencyId", .num [(b!"DOT", 0), (b!"KSM", 1), (b!"KILT", 2)]),
    (b!"DidRecord", .st [(b!"signKey", b!"Hash"), (b!"boxKey", b!"Hash"), (b!"docRef", b!"Option<Vec<u8>>")]),
    (b!"PublicBoxKey", .al b!"Hash"),
    (b!"DelegationNodeId", .al b!"Hash"),
    (b!"Signature", .al b!"MultiSignature"),
    (b!"Attestation", .st [(b!"ctypeHash", b!"Hash"), (b!"attester", b!"AccountId"), (b!"delegationId", b!"Option<DelegationNodeId>"), (b!"revoked", b!"bool")]),
    (b!"XcmError", .num [(b!"Undefined", 0), (b!"Unimplemented", 1), (b!"UnhandledXcmVersion", 2), (b!"UnhandledXcmMessage", 3), (b!"UnhandledEffect", 4), (b!"EscalationOfPrivilege", 5), (b!"UntrustedReserveLocation", 6), (b!"UntrustedTeleportLocation", 7), (b!"DestinationBufferOverflow", 8), (b!"CannotReachDestination", 9), (b!"MultiLocationFull", 10), (b!"FailedToDecode", 11), (b!"BadOrigin", 12), (b!"ExceedsMaxMessageSize", 13), (b!"FailedToTransactAsset", 14)]),
    (b!"ReferendumInfo", .en [(b!"Ongoing", b!"ReferendumStatus"), (b!"Finished", b!"ReferendumInfoFinished")]),
    (b!"PublicSigningKey", .al b!"Hash"),
    (b!"CurrencyIdOf", .al b!"CurrencyId"),
    (b!"KeyIdOf", .al b!"Hash"),
    (b!"DidDeletionOperation", .st [(b!"did", b!"DidIdentifierOf"), (b!"txCounter", b!"u64")]),
    (b!"LookupSource", .al b!"MultiAddress"),
    (b!"Index", .al b!"u64"),
    (b!"BlockNumberOf", .al b!"BlockNumber"),
    (b!"RoundInfo", .st [(b!"current", b!"SessionIndex"), (b!"first", b!"BlockNumber"), (b!"length", b!"BlockNumber")]),
    (b!"DidVerificationKey", .en [(b!"Ed25519", b!"[u8; 32]"), (b!"Sr25519", b!"[u8; 32]")]),
    (b!"Stake", .st [(b!"owner", b!"AccountId"), (b!"amount", b!"Balance")]),
    (b!"CtypeCreatorOf", .al b!"DidIdentifierOf"),
    (b!"KeyError", .ev [b!"InvalidVerificationKeyFormat", b!"InvalidEncryptionKeyFormat"]),
    (b!"TotalStake", .st [(b!"collators", b!"Balance"), (b!"delegators", b!"Balance")]),
    (b!"AccountInfo", .al b!"AccountInfoWithTripleRefCount"),
    (b!"RewardRate", .st [(b!"annual", b!"Perquintill"), (b!"perBlock", b!"Perquintill")]),
    (b!"DidSignature", .en [(b!"Ed25519", b!"Ed25519Signature"), (b!"Sr25519", b!"Sr25519Signature")]),
    (b!"DelegationNodeIdOf", .al b!"Hash"),
    (b!"IpfsUrl", .st [(b!"payload", b!"Text")]),
    (b!"DidCallableOf", .al b!"Call"),
    (b!"DidUpdateOperation", .st [(b!"did", b!"DidIdentifierOf"), (b!"newAuthenticationKey", b!"Option<DidVerificationKey>"), (b!"newKeyAgreementKeys", b!"BTreeSet<DidEncryptionKey>"), (b!"attestationKeyUpdate", b!"DidVerificationKeyUpdateAction"), (b!"delegationKeyUpdate", b!"DidVerificationKeyUpdateAction"), (b!"publicKeysToRemove", b!"BTreeSet<KeyIdOf>"), (b!"newEndpointUrl", b!"Option<Url>"), (b!"txCounter", b!"u64")]),
    (b!"DidError", .en [(b!"StorageError", b!"StorageError"), (b!"SignatureError", b!"SignatureError"), (b!"UrlError", b!"UrlError"), (b!"InternalError", b!"Null")]),
    (b!"DidDetails", .st [(b!"authenticationKey", b!"KeyIdOf"), (b!"keyAgreementKeys", b!"BTreeSet<KeyIdOf>"), (b!"delegationKey", b!"Option<KeyIdOf>"), (b!"attestationKey", b!"Option<KeyIdOf>"), (b!"publicKeys", b!"BTreeMap<KeyIdOf, DidPublicKeyDetails>"), (b!"endpointUrl", b!"Option<Url>"), (b!"lastTxCounter", b!"u64")]),
    (b!"DidEncryptionKey", .en [(b!"X25519", b!"[u8; 32]")]),
    (b!"HttpUrl", .st [(b!"payload", b!"Text")]),
    (b!"AttestationDetails", .st [(b!"ctypeHash", b!"CtypeHashOf"), (b!"attester", b!"AttesterOf"), (b!"delegationId", b!"Option<DelegationNodeIdOf>"), (b!"revoked", b!"bool")]),
    (b!"DelegationSignature", .al b!"DidSignature"),
    (b!"DelegationNode", .st [(b!"rootId", b!"DelegationNodeIdOf"), (b!"parent", b!"Option<DelegationNodeIdOf>"), (b!"owner", b!"DelegatorIdOf"), (b!"permissions", b!"Permissions"), (b!"revoked", b!"bool")]),
    (b!"Collator", .st [(b!"id", b!"AccountId"), (b!"stake", b!"Balance"), (b!"delegators", b!"Vec<Stake>"), (b!"total", b!"Balance"), (b!"state", b!"CollatorStatus")]),
    (b!"LockedBalance", .st [(b!"block", b!"BlockNumber"), (b!"amount", b!"Balance")]),
    (b!"DidPublicKey", .en [(b!"PublicVerificationKey", b!"DidVerificationKey"), (b!"PublicEncryptionKey", b!"DidEncryptionKey")]),
    (b!"CollatorSnapshot", .st [(b!"stake", b!"Balance"), (b!"delegators", b!"Vec<Stake>"), (b!"total", b!"Balance")]),
    (b!"AttesterOf", .al b!"DidIdentifierOf"),
    (b!"UrlError", .ev [b!"InvalidUrlEncoding", b!"InvalidUrlScheme"]),
    (b!"Delegator", .st [(b!"delegations", b!"Vec<Stake>"), (b!"total", b!"Balance")]),
    (b!"BalanceOf", .al b!"Balance"),
    (b!"Permissions", .al b!"u32"),
    (b!"DelegationRoot", .st [(b!"ctypeHash", b!"CtypeHashOf"), (b!"owner", b!"DelegatorIdOf"), (b!"revoked", b!"bool")]),
    (b!"CollatorStatus", .en [(b!"Active", b!"Null"), (b!"Leaving", b!"SessionIndex")]),
    (b!"DidVerificationKeyRelationship", .ev [b!"Authentication", b!"CapabilityDelegation", b!"CapabilityInvocation", b!"AssertionMethod"]),
    (b!"AccountIdentifierOf", .al b!"AccountId"),
    (b!"DidIdentifierOf", .al b!"AccountId"),
    (b!"InflationInfo", .st [(b!"collator", b!"StakingInfo"), (b!"delegator", b!"StakingInfo")]),
    (b!"Url", .en [(b!"Http", b!"HttpUrl"), (b!"Ftp", b!"FtpUrl"), (b!"Ipfs", b!"IpfsUrl")]),
    (b!"SignatureError", .ev [b!"InvalidSignatureFormat", b!"InvalidSignature", b!"InvalidNonce"]),
    (b!"Address", .al b!"MultiAddress"),
    (b!"StakingInfo", .st [(b!"maxRate", b!"Perquintill"), (b!"rewardRate", b!"RewardRate")]),
    (b!"AmountOf", .al b!"i128"),
    (b!"Balance", .al b!"u128"),
    (b!"OrderedSet", .al b!"Vec<Stake>"),
    (b!"FtpUrl", .st [(b!"payload", b!"Text")]),
    (b!"StorageError", .en [(b!"DidAlreadyPresent", b!"Null"), (b!"DidNotPresent", b!"Null"), (b!"DidKeyNotPresent", b!"DidVerificationKeyRelationship"), (b!"VerificationKeyNotPresent", b!"Null"), (b!"CurrentlyActiveKey", b!"Null"), (b!"MaxTxCounterValue", b!"Null")]),
    (b!"DelegatorIdOf", .al b!"DidIdentifierOf"),
    (b!"BlockNumber", .al b!"u64"),
    (b!"DidVerificationKeyUpdateAction", .en [(b!"Ignore", b!"Null"), (b!"Change", b!"DidVerificationKey"), (b!"Delete", b!"Null")]),
    (b!"ClaimHashOf", .al b!"Hash"),
    (b!"DidAuthorizedCallOperation", .st [(b!"did", b!"DidIdentifierOf"), (b!"txCounter", b!"u64"), (b!"call", b!"DidCallableOf")]),
    (b!"DidCreationOperation", .st [(b!"did", b!"DidIdentifierOf"), (b!"newAuthenticationKey", b!"DidVerificationKey"), (b!"newKeyAgreementKeys", b!"BTreeSet<DidEncryptionKey>"), (b!"newAttestationKey", b!"Option<DidVerificationKey>"), (b!"newDelegationKey", b!"Option<DidVerificationKey>"), (b!"newEndpointUrl", b!"Option<Url>")]),
    (b!"DidPublicKeyDetails", .st [(b!"key", b!"DidPublicKey"), (b!"blockNumber", b!"BlockNumberOf")]),
    (b!"CtypeHashOf", .al b!"Hash"),
    (b!"Weight", .al b!"u64"),
    (b!"CompactAssignments", .al b!"CompactAssignmentsLatest"),
    (b!"RefCount", .al b!"u32") ]

/-- network/stafi.json. -/
def stafi : List (Str × Entry) :=
  [ (b!"Weight", .al b!"u64"),
    (b!"DispatchResult", .en [(b!"Ok", b!"Null"), (b!"Error", b!"DispatchError")]),
    (b!"Address", .al b!"GenericLookupSource"),
    (b!"LookupSource", .al b!"GenericLookupSource"),
    (b!"Keys", .st [(b!"grandpa", b!"AccountId"), (b!"babe", b!"AccountId"), (b!"im_online", b!"AccountId"), (b!"authority_discovery", b!"AccountId")]),
    (b!"RefCount#7-?", .al b!"u32"),
    (b!"ChainId", .al b!"u8"),
    (b!"ResourceId", .al b!"[u8; 32]"),
    (b!"DepositNonce", .al b!"u64"),
    (b!"U256", .al b!"[u8; 32]"),
    (b!"AccountRData", .st [(b!"free", b!"u128")]),
    (b!"Box<Proposal>", .al b!"BoxProposal"),
    (b!"RproposalVotes", .st [(b!"votes_for", b!"Vec<AccountId>"), (b!"votes_against", b!"Vec<AccountId>"), (b!"status", b!"RproposalStatus"), (b!"expiry", b!"BlockNumber")]),
    (b!"RefCount", .al b!"u32"),
    (b!"XSymbol", .ev [b!"WRA"]),
    (b!"BondReason", .ev [b!"Pass", b!"BlockhashUnmatch", b!"TxhashUnmatch", b!"PubkeyUnmatch", b!"PoolUnmatch", b!"AmountUnmatch"]),
    (b!"PoolBondState", .ev [b!"EraUpdated", b!"BondReported", b!"ActiveReported", b!"WithdrawSkipped", b!"WithdrawReported", b!"TransferReported"]),
    (b!"BondState", .ev [b!"Dealing", b!"Fail", b!"Success"]),
    (b!"RproposalStatus", .ev [b!"Initiated", b!"Approved", b!"Rejected", b!"Expired"]),
    (b!"UserUnlockChunk", .st [(b!"pool", b!"Vec<u8>"), (b!"unlock_era", b!"u32"), (b!"value", b!"u128"), (b!"recipient", b!"Vec<u8>")]),
    (b!"RSymbol", .ev [b!"RFIS", b!"RDOT", b!"RKSM", b!"RATOM", b!"RSOL", b!"RMATIC", b!"RBNB"]),
    (b!"RateType", .al b!"u64"),
    (b!"Unbonding", .st [(b!"who", b!"AccountId"), (b!"value", b!"u128"), (b!"recipient", b!"Vec<u8>")]),
    (b!"LinkChunk", .st [(b!"bond", b!"u128"), (b!"unbond", b!"u128"), (b!"active", b!"u128")]),
    (b!"BondSnapshot", .st [(b!"symbol", b!"RSymbol"), (b!"era", b!"u32"), (b!"pool", b!"Vec<u8>"), (b!"bond", b!"u128"), (b!"unbond", b!"u128"), (b!"active", b!"u128"), (b!"last_voter", b!"AccountId"), (b!"bond_state", b!"PoolBondState")]),
    (b!"BondRecord", .st [(b!"bonder", b!"AccountId"), (b!"symbol", b!"RSymbol"), (b!"pubkey", b!"Vec<u8>"), (b!"pool", b!"Vec<u8>"), (b!"blockhash", b!"Vec<u8>"), (b!"txhash", b!"Vec<u8>"), (b!"amount", b!"u128")]),
    (b!"AccountXData", .st [(b!"free", b!"u128")]),
    (b!"OriginalTxType", .ev [b!"Transfer", b!"Bond", b!"Unbond", b!"WithdrawUnbond", b!"ClaimRewards"]),
    (b!"SigVerifyResult", .ev [b!"InvalidPubkey", b!"Fail", b!"Pass"]),
    (b!"ProposalVotes", .st [(b!"voted", b!"Vec<AccountId>"), (b!"status", b!"ProposalStatus"), (b!"expiry", b!"BlockNumber")]),
    (b!"ProposalStatus", .ev [b!"Active", b!"Passed", b!"Expired", b!"Executed"]),
    (b!"ClaimInfo", .st [(b!"mint_amount", b!"u128"), (b!"native_token_amount", b!"u128"), (b!"total_reward", b!"Balance"), (b!"total_claimed", b!"Balance"), (b!"latest_claimed_block", b!"BlockNumber"), (b!"mint_block", b!"BlockNumber")]),
    (b!"MintRewardAct", .st [(b!"begin", b!"BlockNumber"), (b!"end", b!"BlockNumber"), (b!"cycle", b!"u32"), (b!"reward_rate", b!"u128"), (b!"total_reward", b!"Balance"), (b!"left_amount", b!"Balance"), (b!"user_limit", b!"Balance"), (b!"locked_blocks", b!"u32"), (b!"total_rtoken_amount", b!"u128"), (b!"total_native_token_amount", b!"u128")]),
    (b!"SwapRate", .st [(b!"lock_number", b!"u64"), (b!"rate", b!"u128")]),
    (b!"SwapTransactionInfo", .st [(b!"account", b!"AccountId"), (b!"receiver", b!"Vec<u8>"), (b!"value", b!"u128"), (b!"is_deal", b!"bool")]),
    (b!"BondSwap", .st [(b!"bonder", b!"AccountId"), (b!"swap_fee", b!"Balance"), (b!"swap_receiver", b!"AccountId"), (b!"bridger", b!"AccountId"), (b!"recipient", b!"Vec<u8>"), (b!"dest_id", b!"ChainId"), (b!"expire", b!"BlockNumber"), (b!"bond_state", b!"BondState"), (b!"refunded", b!"bool")]),
    (b!"BondAction", .ev [b!"BondOnly", b!"UnbondOnly", b!"BothBondUnbond", b!"EitherBondUnbond", b!"InterDeduct"]) ]

/-- network/statemine.json. -/
def statemine : List (Str × Entry) :=
  [ (b!"Weight", .al b!"u64"),
    (b!"CompactAssignments", .al b!"CompactAssignmentsWith24"),
    (b!"RefCount", .al b!"u32"),
    (b!"Address", .al b!"MultiAddress"),
    (b!"LookupSource", .al b!"MultiAddress"),
    (b!"AccountInfo", .al b!"AccountInfoWithTripleRefCount"),
    (b!"TAssetBalance", .al b!"u128"),
    (b!"ProxyType", .ev [b!"Any", b!"NonTransfer", b!"CancelProxy", b!"Assets", b!"AssetOwner", b!"AssetManager"]),
    (b!"AssetInstance", .al b!"AssetInstanceV0"),
    (b!"MultiAsset", .al b!"MultiAssetV0"),
    (b!"Xcm", .al b!"XcmV0"),
    (b!"XcmOrder", .al b!"XcmOrderV0"),
    (b!"MultiLocation", .al b!"MultiLocationV0"),
    (b!"AssetInstance#4-5", .al b!"AssetInstanceV1"),
    (b!"MultiAsset#4-5", .al b!"MultiAssetV1"),
    (b!"Xcm#4-5", .al b!"XcmV1"),
    (b!"XcmOrder#4-5", .al b!"XcmOrderV1"),
    (b!"MultiLocation#4-5", .al b!"MultiLocationV1") ]

/-- network/subgame.json. -/
def subgame : List (Str × Entry) :=
  [ (b!"GameInstance", .st [(b!"game_instance_id", b!"u32"), (b!"owner", b!"AccountId"), (b!"bet_block_number", b!"u32"), (b!"chips_pool", b!"u128"), (b!"game_over", b!"bool")]),
    (b!"BetInfo", .st [(b!"user", b!"AccountId"), (b!"game_id", b!"u32"), (b!"amount", b!"u128"), (b!"game_mode", b!"u8")]),
    (b!"GameInstanceId", .al b!"u32"),
    (b!"ChipBalance", .al b!"u128"),
    (b!"SGAssetBalance", .al b!"u64"),
    (b!"GameMode", .al b!"u8"),
    (b!"GameIndex", .al b!"u32"),
    (b!"SusGameAssetBalance", .st [(b!"balance", b!"u64"), (b!"isFrozen", b!"bool"), (b!"isZombie", b!"bool")]),
    (b!"SubGameAssetDetails", .st [(b!"owner", b!"AccountId"), (b!"issuer", b!"AccountId"), (b!"admin", b!"AccountId"), (b!"freezer", b!"AccountId"), (b!"supply", b!"u64"), (b!"deposit", b!"DepositBalance"), (b!"max_zombies", b!"u32"), (b!"min_balance", b!"u64"), (b!"zombies", b!"u32"), (b!"accounts", b!"u32"), (b!"isFrozen", b!"bool")]),
    (b!"SubGameAssetMetadata", .st [(b!"deposit", b!"DepositBalance"), (b!"name", b!"Vec<u8>"), (b!"symbol", b!"Vec<u8>"), (b!"decimals", b!"u8")]),
    (b!"ChipsDetail", .st [(b!"balance", b!"ChipBalance"), (b!"reserve", b!"ChipBalance")]),
    (b!"Template", .st [(b!"template_id", b!"u32"), (b!"template_name", b!"TemplateName")]),
    (b!"BridgeRecord", .st [(b!"from", b!"AccountId"), (b!"to", b!"AccountId"), (b!"amount", b!"u128"), (b!"chain_type", b!"u8"), (b!"coin_type", b!"u8")]),
    (b!"GameInfo", .st [(b!"owner", b!"AccountId"), (b!"block_number", b!"u32"), (b!"bet_block_number", b!"u32"), (b!"amount", b!"u128")]),
    (b!"TemplateName", .al b!"u32"),
    (b!"UserInfo", .st [(b!"Account", b!"Vec<u8>"), (b!"ReferrerAccount", b!"Vec<u8>")]),
    (b!"Weight", .al b!"u64"),
    (b!"CompactAssignments", .al b!"CompactAssignmentsLatest"),
    (b!"RefCount", .al b!"u32"),
    (b!"Address", .al b!"MultiAddress"),
    (b!"LookupSource", .al b!"MultiAddress"),
    (b!"AccountInfo", .al b!"AccountInfoWithProviders") ]

/-- network/substrate20.json. -/
def substrate20 : List (Str × Entry) :=
  [ (b!"Weight", .al b!"u64"),
    (b!"CompactAssignments", .al b!"CompactAssignmentsLatest"),
    (b!"RefCount", .al b!"u32"),
    (b!"DispatchResult", .en [(b!"Ok", b!"Null"), (b!"Error", b!"DispatchError")]),
    (b!"Address", .al b!"GenericLookupSource"),
    (b!"LookupSource", .al b!"GenericLookupSource") ]

/-- network/substrate30.json. -/
def substrate30 : List (Str × Entry) :=
  [ (b!"Weight", .al b!"u64"),
    (b!"CompactAssignments", .al b!"CompactAssignmentsLatest"),
    (b!"RefCount", .al b!"u32"),
    (b!"Address", .al b!"MultiAddress"),
    (b!"LookupSource", .al b!"MultiAddress"),
    (b!"AccountInfo", .al b!"AccountInfoWithTripleRefCount") ]

/-- network/uniarts.json. -/
def uniarts : List (Str × Entry) :=
  [ (b!"Weight", .al b!"u64"),
    (b!"CompactAssignments", .al b!"CompactAssignmentsLatest"),
    (b!"RefCount", .al b!"u32"),
    (b!"TradePair", .st [(b!"hash", b!"H256"), (b!"base", b!"H256"), (b!"quote", b!"H256"), (b!"buy_one_price", b!"Option<Price>"), (b!"sell_one_price", b!"Option<Price>"), (b!"latest_matched_price", b!"Option<Price>"), (b!"one_day_trade_volume", b!"Option<Price>"), (b!"one_day_highest_price", b!"Option<Price>"), (b!"one_day_lowest_price", b!"Option<Price>")]),
    (b!"Lottery", .st [(b!"round", b!"LottoIndex"), (b!"kind", b!"LotteryKind"), (b!"jackpot", b!"Balance"), (b!"next_ticket_id", b!"u32"), (b!"players", b!"BTreeMap<AccountId, bool>"), (b!"tickets", b!"BTreeMap<u32, AccountId>"), (b!"result", b!"Option<LottoResult<AccountId, Balance>>")]),
    (b!"LotteryKind", .ev [b!"Routine", b!"TreasuryFunded(ReasonIndex)"]),
    (b!"BidHistory", .st [(b!"auction_id", b!"u64"), (b!"currency_id", b!"CurrencyId"), (b!"bidder", b!"AccountId"), (b!"bid_price", b!"u64"), (b!"bid_time", b!"BlockNumber")]),
    (b!"MemberId", .al b!"u64"),
    (b!"AccessMode", .ev [b!"Normal", b!"WhiteList"]),
    (b!"NftCard", .st [(b!"group_id", b!"u64"), (b!"collection_id", b!"u64"), (b!"item_id", b!"u64"), (b!"value", b!"u64"), (b!"remaind_value", b!"u64"), (b!"draw_start", b!"u64"), (b!"draw_end", b!"u64")]),
    (b!"NameData", .st [(b!"value", b!"Value"), (b!"owner", b!"AccountId"), (b!"expiration", b!"Option<u32>")]),
    (b!"ReasonIndex", .al b!"u32"),
    (b!"SaleOrder", .st [(b!"order_id", b!"u64"), (b!"collection_id", b!"u64"), (b!"item_id", b!"u64"), (b!"currency_id", b!"CurrencyId"), (b!"value", b!"u64"), (b!"owner", b!"AccountId"), (b!"price", b!"u64")]),
    (b!"StorageVersion", .ev [b!"V1_0_0", b!"V2_0_0"]),
    (b!"Ownership", .st [(b!"owner", b!"AccountId"), (b!"fraction", b!"u128")]),
    (b!"LookupSource", .al b!"AccountId"),
    (b!"SplitSaleOrder", .st [(b!"order_id", b!"u64"), (b!"collection_id", b!"u64"), (b!"item_id", b!"u64"), (b!"currency_id", b!"CurrencyId"), (b!"value", b!"u64"), (b!"balance", b!"u64"), (b!"owner", b!"AccountId"), (b!"price", b!"u64")]),
    (b!"Keys", .al b!"SessionKeys2"),
    (b!"Price", .al b!"u128"),
    (b!"LimitOrder", .st [(b!"hash", b!"H256"), (b!"base", b!"H256"), (b!"quote", b!"H256"), (b!"owner", b!"AccountId"), (b!"price", b!"Price"), (b!"sell_amount", b!"Balance"), (b!"buy_amount", b!"Balance"), (b!"remained_sell_amount", b!"Balance"), (b!"remained_buy_amount", b!"Balance"), (b!"otype", b!"OrderType"), (b!"status", b!"OrderStatus")]),
    (b!"CurrencyIdOf", .al b!"CurrencyId"),
    (b!"Royalty", .st [(b!"owner", b!"AccountId"), (b!"rate", b!"u64"), (b!"expired_at", b!"BlockNumber")]),
    (b!"OrderStatus", .ev [b!"Created", b!"PartialFilled", b!"Filled", b!"Canceled"]),
    (b!"NftItemType", .st [(b!"Collection", b!"u64"), (b!"Owner", b!"AccountId"), (b!"Data", b!"Vec<u8>"), (b!"item_hash", b!"H160")]),
    (b!"AmountOf", .al b!"Amount"),
    (b!"Pool", .st [(b!"id", b!"Id"), (b!"account", b!"AccountId"), (b!"acc_rewards_per_share", b!"Balance"), (b!"last_reward_block", b!"BlockNumber"), (b!"asset_id", b!"Id"), (b!"total_balance", b!"Balance")]),
    (b!"TokenSymbol", .ev [b!"USDT", b!"DAI"]),
    (b!"Name", .al b!"Vec<u8>"),
    (b!"Limits", .st [(b!"max_tx_value", b!"u128"), (b!"day_max_limit", b!"u128"), (b!"day_max_limit_for_one_address", b!"u128"), (b!"max_pending_tx_limit", b!"u128"), (b!"min_tx_value", b!"u128")]),
    (b!"CurrencyId", .en [(b!"Native", b!"Null"), (b!"UINK", b!"Null"), (b!"DOT", b!"Null"), (b!"KSM", b!"Null"), (b!"ETH", b!"Null"), (b!"Token", b!"TokenSymbol")]),
    (b!"OrderType", .ev [b!"Buy", b!"Sell"]),
    (b!"Address", .al b!"AccountId"),
    (b!"Value", .al b!"Vec<u8>"),
    (b!"SignatureAuthentication", .st [(b!"collection", b!"u64"), (b!"item", b!"u64"), (b!"names", b!"Name"), (b!"names_owner", b!"AccountId"), (b!"sign_time", b!"BlockNumber"), (b!"memo", b!"Vec<u8>"), (b!"expiration", b!"Option<BlockNumber>")]),
    (b!"WorkId", .al b!"u32"),
    (b!"LottoIndex", .al b!"u32"),
    (b!"Amount", .al b!"i128"),
    (b!"ProposalId", .al b!"u64"),
    (b!"TokenBalance", .al b!"Balance"),
    (b!"ReFungibleItemType", .st [(b!"Collection", b!"u64"), (b!"Owner", b!"Vec<Ownership<AccountId>>"), (b!"Data", b!"Vec<u8>"), (b!"item_hash", b!"H160")]),
    (b!"OrderLinkedItem", .st [(b!"prev", b!"Option<Price>"), (b!"next", b!"Option<Price>"), (b!"price", b!"Option<Price>"), (b!"orders", b!"Vec<H256>")]),
    (b!"LottoResult", .ev [b!"Routine(AccountId, Balance)", b!"TreasuryFunded(Balance)"]),
    (b!"SaleOrderHistory", .st [(b!"collection_id", b!"u64"), (b!"item_id", b!"u64"), (b!"currency_id", b!"CurrencyId"), (b!"value", b!"u64"), (b!"seller", b!"AccountId"), (b!"buyer", b!"AccountId"), (b!"price", b!"u64"), (b!"buy_time", b!"BlockNumber")]),
    (b!"Staker", .st [(b!"amount", b!"Balance"), (b!"reward", b!"Balance"), (b!"debt", b!"Balance")]),
    (b!"CollectionType", .st [(b!"Owner", b!"AccountId"), (b!"Mode", b!"CollectionMode"), (b!"Access", b!"u8"), (b!"DecimalPoints", b!"u32"), (b!"Name", b!"Vec<u16>"), (b!"Description", b!"Vec<u16>"), (b!"TokenPrefix", b!"Vec<u8>"), (b!"CustomDataSize", b!"u32"), (b!"OffchainSchema", b!"Vec<u8>"), (b!"Sponsor", b!"AccountId"), (b!"UnconfirmedSponsor", b!"AccountId")]),
    (b!"Auction", .st [(b!"id", b!"u64"), (b!"collection_id", b!"u64"), (b!"item_id", b!"u64"), (b!"currency_id", b!"CurrencyId"), (b!"value", b!"u64"), (b!"owner", b!"AccountId"), (b!"start_price", b!"u64"), (b!"increment", b!"u64"), (b!"current_price", b!"u64"), (b!"start_time", b!"BlockNumber"), (b!"end_time", b!"BlockNumber")]),
    (b!"FungibleItemType", .st [(b!"Collection", b!"u64"), (b!"Owner", b!"AccountId"), (b!"value", b!"u128"), (b!"item_hash", b!"H160")]),
    (b!"CollectionMode", .en [(b!"Invalid", b!"null"), (b!"NFT", b!"u32"), (b!"Fungible", b!"u32"), (b!"ReFungible", b!"(u32, u32)")]),
    (b!"Token", .st [(b!"hash", b!"H256"), (b!"symbol", b!"Vec<u8>"), (b!"total_supply", b!"Balance")]),
    (b!"Trade", .st [(b!"hash", b!"H256"), (b!"base", b!"H256"), (b!"quote", b!"H256"), (b!"buyer", b!"AccountId"), (b!"seller", b!"AccountId"), (b!"maker", b!"AccountId"), (b!"taker", b!"AccountId"), (b!"otype", b!"OrderType"), (b!"price", b!"Price"), (b!"base_amount", b!"Balance"), (b!"quote_amount", b!"Balance")]),
    (b!"BlindboxItem", .st [(b!"id", b!"u64"), (b!"owner", b!"AccountId"), (b!"card_group", b!"Vec<u64>"), (b!"total_count", b!"u64"), (b!"remaind_count", b!"u64"), (b!"currency_id", b!"CurrencyId"), (b!"price", b!"u64"), (b!"start_time", b!"BlockNumber"), (b!"end_time", b!"BlockNumber"), (b!"has_ended", b!"bool")]),
    (b!"Id", .al b!"u32"),
    (b!"ApprovePermissions", .st [(b!"approved", b!"AccountId"), (b!"amount", b!"u64")]),
    (b!"Address#45-?", .al b!"MultiAddress"),
    (b!"LookupSource#45-?", .al b!"MultiAddress"),
    (b!"AccountInfo", .al b!"AccountInfoWithProviders") ]

/-- network/westend.json. -/
def westend : List (Str × Entry) :=
  [ (b!"Address", .al b!"AccountId"),
    (b!"BlockNumber", .al b!"u32"),
    (b!"LeasePeriod", .al b!"BlockNumber"),
    (b!"Keys", .al b!"SessionKeysPolkadot"),
    (b!"Weight", .al b!"u32"),
    (b!"Weight#3-?", .al b!"u64"),
    (b!"DispatchInfo", .st [(b!"weight", b!"Weight"), (b!"class", b!"DispatchClass"), (b!"paysFee", b!"Pays")]),
    (b!"DispatchResult", .en [(b!"Ok", b!"Null"), (b!"Error", b!"DispatchError")]),
    (b!"ProxyType", .ev [b!"Any", b!"NonTransfer", b!"Staking", b!"SudoBalances", b!"IdentityJudgement", b!"CancelProxy"]),
    (b!"CompactAssignments#43-?", .al b!"CompactAssignmentsLatest"),
    (b!"RefCount#45-?", .al b!"u32"),
    (b!"Box<<T as Config>::Call>", .al b!"Call"),
    (b!"AccountInfo#48-49", .al b!"AccountInfoWithProviders"),
    (b!"Address#48-?", .al b!"MultiAddress"),
    (b!"LookupSource#48-?", .al b!"MultiAddress"),
    (b!"ValidatorPrefs#48-?", .al b!"ValidatorPrefsWithBlocked"),
    (b!"Keys#48-?", .st [(b!"grandpa", b!"AccountId"), (b!"babe", b!"AccountId"), (b!"im_online", b!"AccountId"), (b!"para_validator", b!"AccountId"), (b!"para_assignment", b!"AccountId"), (b!"authority_discovery", b!"AccountId")]),
    (b!"AccountInfo#50-?", .al b!"AccountInfoWithTripleRefCount"),
    (b!"AssetInstance", .al b!"AssetInstanceV0"),
    (b!"MultiAsset", .al b!"MultiAssetV0"),
    (b!"Xcm", .al b!"XcmV0"),
    (b!"XcmOrder", .al b!"XcmOrderV0"),
    (b!"MultiLocation", .al b!"MultiLocationV0") ]

end ScaleGo.Network
