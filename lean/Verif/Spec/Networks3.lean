import Verif.Model.Registry

/-! # The classes of the names that the shipped networks define, part 3

Lower-case name (with its version range, if any) and class, for every file in `network/`, without the one
name in each of crab, darwinia, pangolin and sora whose class depends on the order of loading. Written down by a script; C108 proves that loading produces exactly these. -/

set_option maxRecDepth 20000

namespace ScaleGo.NetClasses

/-- Classes of the names of network/karura.json. -/
def karura : List (Str × Cls) :=
  [ (b!"weight", .u64),
    (b!"compactassignments", .struct (some [(b!"votes1", b!"Vec<(NominatorIndexCompact, ValidatorIndexCompact)>"), (b!"votes2", b!"Vec<(NominatorIndexCompact, CompactScoreCompact, ValidatorIndexCompact)>"), (b!"votes3", b!"Vec<(NominatorIndexCompact, [CompactScoreCompact; 2], ValidatorIndexCompact)>"), (b!"votes4", b!"Vec<(NominatorIndexCompact, [CompactScoreCompact; 3], ValidatorIndexCompact)>"), (b!"votes5", b!"Vec<(NominatorIndexCompact, [CompactScoreCompact; 4], ValidatorIndexCompact)>"), (b!"votes6", b!"Vec<(NominatorIndexCompact, [CompactScoreCompact; 5], ValidatorIndexCompact)>"), (b!"votes7", b!"Vec<(NominatorIndexCompact, [CompactScoreCompact; 6], ValidatorIndexCompact)>"), (b!"votes8", b!"Vec<(NominatorIndexCompact, [CompactScoreCompact; 7], ValidatorIndexCompact)>"), (b!"votes9", b!"Vec<(NominatorIndexCompact, [CompactScoreCompact; 8], ValidatorIndexCompact)>"), (b!"votes10", b!"Vec<(NominatorIndexCompact, [CompactScoreCompact; 9], ValidatorIndexCompact)>"), (b!"votes11", b!"Vec<(NominatorIndexCompact, [CompactScoreCompact; 10], ValidatorIndexCompact)>"), (b!"votes12", b!"Vec<(NominatorIndexCompact, [CompactScoreCompact; 11], ValidatorIndexCompact)>"), (b!"votes13", b!"Vec<(NominatorIndexCompact, [CompactScoreCompact; 12], ValidatorIndexCompact)>"), (b!"votes14", b!"Vec<(NominatorIndexCompact, [CompactScoreCompact; 13], ValidatorIndexCompact)>"), (b!"votes15", b!"Vec<(NominatorIndexCompact, [CompactScoreCompact; 14], ValidatorIndexCompact)>"), (b!"votes16", b!"Vec<(NominatorIndexCompact, [CompactScoreCompact; 15], ValidatorIndexCompact)>")])),
    (b!"refcount", .u32),
    (b!"address", .enum [] (some [(b!"Id", b!"AccountId"), (b!"Index", b!"Compact<AccountIndex>"), (b!"Raw", b!"Bytes"), (b!"Address32", b!"H256"), (b!"Address20", b!"H160")])),
    (b!"lookupsource", .enum [] (some [(b!"Id", b!"AccountId"), (b!"Index", b!"Compact<AccountIndex>"), (b!"Raw", b!"Bytes"), (b!"Address32", b!"H256"), (b!"Address20", b!"H160")])),
    (b!"accountinfo", .struct (some [(b!"nonce", b!"Index"), (b!"consumers", b!"RefCount"), (b!"providers", b!"RefCount"), (b!"sufficients", b!"RefCount"), (b!"data", b!"AccountData")])),
    (b!"palletsorigin", .enum [] (some [(b!"System", b!"SystemOrigin")])),
    (b!"attributes", .btreeMap b!"Vec<u8>, Vec<u8>"),
    (b!"auctioninfo", .struct (some [(b!"bid", b!"Option<(AccountId, Balance)>"), (b!"start", b!"BlockNumber"), (b!"end", b!"Option<BlockNumber>")])),
    (b!"nftbalance", .u128),
    (b!"optionratio", .option b!"Ratio"),
    (b!"timestampedvalueof", .struct (some [(b!"value", b!"OracleValue"), (b!"timestamp", b!"Moment")])),
    (b!"ratio", .u128),
    (b!"storagekeybytes", .bytes),
    (b!"classidof", .u32),
    (b!"erc20info", .struct (some [(b!"address", b!"EvmAddress"), (b!"name", b!"Vec<u8>"), (b!"symbol", b!"Vec<u8>"), (b!"decimals", b!"u8")])),
    (b!"delayeddispatchtime", .enum [] (some [(b!"At", b!"BlockNumber"), (b!"After", b!"BlockNumber")])),
    (b!"timestampedvalue", .struct (some [(b!"value", b!"OracleValue"), (b!"timestamp", b!"Moment")])),
    (b!"authoritysoriginid", .enum [b!"Root", b!"AcalaTreasury", b!"HonzonTreasury", b!"HomaTreasury", b!"DSWF"] none),
    (b!"slashinfo", .struct (some [(b!"validator", b!"RelaychainAccountId"), (b!"relaychainTokenAmount", b!"Balance")])),
    (b!"classdata", .struct (some [(b!"deposit", b!"Balance"), (b!"properties", b!"Properties")])),
    (b!"palletbalanceof", .balance),
    (b!"classinfoof", .struct (some [(b!"metadata", b!"CID"), (b!"totalIssuance", b!"TokenId"), (b!"owner", b!"AccountId"), (b!"data", b!"ClassData")])),
    (b!"tradingpairprovisionparameters", .struct (some [(b!"minContribution", b!"(Balance, Balance)"), (b!"targetProvision", b!"(Balance, Balance)"), (b!"accumulatedProvision", b!"(Balance, Balance)"), (b!"notBefore", b!"BlockNumber")])),
    (b!"changeoptionrate", .enum [] (some [(b!"NoChange", b!"Null"), (b!"NewValue", b!"OptionRate")])),
    (b!"amount", .intFixed 16),
    (b!"storagevalue", .bytes),
    (b!"position", .struct (some [(b!"collateral", b!"Balance"), (b!"debit", b!"Balance")])),
    (b!"dispatchtime", .enum [] (some [(b!"At", b!"BlockNumber"), (b!"After", b!"BlockNumber")])),
    (b!"optionrate", .option b!"Rate"),
    (b!"changerate", .enum [] (some [(b!"NoChange", b!"Null"), (b!"NewValue", b!"Rate")])),
    (b!"exchangerate", .u128),
    (b!"share", .u128),
    (b!"tradingpairstatus", .enum [] (some [(b!"NotEnabled", b!"Null"), (b!"Provisioning", b!"TradingPairProvisionParameters"), (b!"Enabled", b!"Null")])),
    (b!"oraclevalue", .u128),
    (b!"nftclassid", .u32),
    (b!"guarantee", .struct (some [(b!"total", b!"Balance"), (b!"bonded", b!"Balance"), (b!"unbonding", b!"Option<(Balance, BlockNumber)>")])),
    (b!"ormlbalancelock", .struct (some [(b!"amount", b!"Balance"), (b!"id", b!"LockIdentifier")])),
    (b!"changeratio", .enum [] (some [(b!"NoChange", b!"Null"), (b!"NewValue", b!"Ratio")])),
    (b!"graduallyupdate", .struct (some [(b!"key", b!"StorageKey"), (b!"targetValue", b!"StorageValue"), (b!"perBlock", b!"StorageValue")])),
    (b!"params", .struct (some [(b!"targetMaxFreeUnbondedRatio", b!"Ratio"), (b!"targetMinFreeUnbondedRatio", b!"Ratio"), (b!"targetUnbondingToFreeRatio", b!"Ratio"), (b!"unbondingToFreeAdjustment", b!"Ratio"), (b!"baseFeeRate", b!"Rate")])),
    (b!"airdropcurrencyid", .enum [b!"KAR", b!"ACA"] none),
    (b!"balancerequest", .struct (some [(b!"amount", b!"Balance")])),
    (b!"relaychainaccountid", .accountId),
    (b!"evmaddress", .hash 20),
    (b!"estimateresourcesresponse", .struct (some [(b!"gas", b!"u256"), (b!"storage", b!"i32"), (b!"weightFee", b!"u256")])),
    (b!"rpcdataproviderid", .string),
    (b!"collateralauctionitem", .struct (some [(b!"refundRecipient", b!"AccountId"), (b!"currencyId", b!"CurrencyId"), (b!"initialAmount", b!"Compact<Balance>"), (b!"amount", b!"Compact<Balance>"), (b!"target", b!"Compact<Balance>"), (b!"startTime", b!"BlockNumber")])),
    (b!"tokenid", .u64),
    (b!"currencyid", .enum [] (some [(b!"Token", b!"TokenSymbol"), (b!"DEXShare", b!"(DexShare, DexShare)"), (b!"ERC20", b!"EvmAddress"), (b!"ChainSafe", b!"[u8; 32]")])),
    (b!"debitauctionitem", .struct (some [(b!"initialAmount", b!"Compact<Balance>"), (b!"amount", b!"Compact<Balance>"), (b!"fix", b!"Compact<Balance>"), (b!"startTime", b!"BlockNumber")])),
    (b!"redeemstrategy", .enum [] (some [(b!"Immediately", b!"Null"), (b!"Target", b!"EraIndex"), (b!"WaitForUnbonding", b!"Null")])),
    (b!"callof", .call),
    (b!"auctionidof", .u32),
    (b!"asoriginid", .enum [b!"Root", b!"AcalaTreasury", b!"HonzonTreasury", b!"HomaTreasury", b!"DSWF"] none),
    (b!"ormlvestingschedule", .struct (some [(b!"start", b!"BlockNumber"), (b!"period", b!"BlockNumber"), (b!"periodCount", b!"u32"), (b!"perPeriod", b!"Compact<Balance>")])),
    (b!"chainid", .u8),
    (b!"acaladataproviderid", .enum [b!"Aggregated", b!"Acala", b!"Band"] none),
    (b!"ledger", .struct (some [(b!"bonded", b!"Balance"), (b!"unbondingToFree", b!"Balance"), (b!"freePool", b!"Balance"), (b!"toUnbondNextEra", b!"(Balance, Balance)")])),
    (b!"changeoptionratio", .enum [] (some [(b!"NoChange", b!"Null"), (b!"NewValue", b!"OptionRatio")])),
    (b!"polkadotaccountidof", .accountId),
    (b!"riskmanagementparams", .struct (some [(b!"maximumTotalDebitValue", b!"Balance"), (b!"interestRatePerSec", b!"Option<Rate>"), (b!"liquidationRatio", b!"Option<Rate>"), (b!"liquidationPenalty", b!"Option<Rate>"), (b!"requiredCollateralRatio", b!"Option<Rate>")])),
    (b!"keys", .struct (some [(b!"col1", b!"AccountId")])),
    (b!"evmcontractinfo", .struct (some [(b!"codeHash", b!"H256"), (b!"maintainer", b!"H160"), (b!"deployed", b!"bool")])),
    (b!"tradingpair", .struct (some [(b!"col1", b!"CurrencyId"), (b!"col2", b!"CurrencyId")])),
    (b!"validatorbacking", .struct (some [(b!"totalInsurance", b!"Balance"), (b!"isFrozen", b!"bool")])),
    (b!"ormlaccountdata", .struct (some [(b!"free", b!"Balance"), (b!"frozen", b!"Balance"), (b!"reserved", b!"Balance")])),
    (b!"liquidationstrategy", .enum [b!"Auction", b!"Exchange"] none),
    (b!"codeinfo", .struct (some [(b!"codeSize", b!"u32"), (b!"refCount", b!"u32")])),
    (b!"properties", .set [] 8),
    (b!"tokensymbol", .enum [] (some [(b!"ACA", b!"0"), (b!"AUSD", b!"1"), (b!"DOT", b!"2"), (b!"LDOT", b!"3"), (b!"RENBTC", b!"4"), (b!"KAR", b!"128"), (b!"KUSD", b!"129"), (b!"KSM", b!"130"), (b!"LKSM", b!"131")])),
    (b!"auctionid", .u32),
    (b!"storagevaluebytes", .bytes),
    (b!"callrequest", .struct (some [(b!"from", b!"Option<H160>"), (b!"to", b!"Option<H160>"), (b!"gasLimit", b!"Option<u32>"), (b!"storageLimit", b!"Option<u32>"), (b!"value", b!"Option<U128>"), (b!"data", b!"Option<Bytes>")])),
    (b!"orderedset", .vec b!"AccountId"),
    (b!"stakingpoolphase", .enum [b!"Started", b!"RelaychainUpdated", b!"LedgerUpdated", b!"Finished"] none),
    (b!"tokeninfoof", .struct (some [(b!"metadata", b!"CID"), (b!"owner", b!"AccountId"), (b!"data", b!"TokenData")])),
    (b!"authorityorigin", .struct (some [(b!"delay", b!"BlockNumber"), (b!"origin", b!"PalletsOrigin")])),
    (b!"oraclekey", .enum [] (some [(b!"Token", b!"TokenSymbol"), (b!"DEXShare", b!"(DexShare, DexShare)"), (b!"ERC20", b!"EvmAddress"), (b!"ChainSafe", b!"[u8; 32]")])),
    (b!"tokenidof", .u64),
    (b!"balanceinfo", .struct (some [(b!"amount", b!"Balance")])),
    (b!"cid", .bytes),
    (b!"changebalance", .enum [] (some [(b!"NoChange", b!"Null"), (b!"NewValue", b!"Balance")])),
    (b!"vestingscheduleof", .struct (some [(b!"start", b!"BlockNumber"), (b!"period", b!"BlockNumber"), (b!"periodCount", b!"u32"), (b!"perPeriod", b!"Compact<Balance>")])),
    (b!"nomineeid", .accountId),
    (b!"poolid", .enum [] (some [(b!"Loans", b!"CurrencyId"), (b!"Dex", b!"CurrencyId")])),
    (b!"poolid#0-1009", .enum [] (some [(b!"LoansIncentive", b!"CurrencyId"), (b!"DexIncentive", b!"CurrencyId"), (b!"HomaIncentive", b!"Null"), (b!"DexSaving", b!"CurrencyId"), (b!"HomaValidatorAllowance", b!"AccountId")])),
    (b!"subaccountstatus", .struct (some [(b!"bonded", b!"Balance"), (b!"available", b!"Balance"), (b!"unbonding", b!"Vec<(EraIndex,Balance)>"), (b!"mockRewardRate", b!"Rate")])),
    (b!"depositnonce", .u64),
    (b!"balancewrapper", .struct (some [(b!"amount", b!"Balance")])),
    (b!"resourceid", .fixedU8 32),
    (b!"price", .u128),
    (b!"currencyidof", .enum [] (some [(b!"Token", b!"TokenSymbol"), (b!"DEXShare", b!"(DexShare, DexShare)"), (b!"ERC20", b!"EvmAddress"), (b!"ChainSafe", b!"[u8; 32]")])),
    (b!"amountof", .intFixed 16),
    (b!"bondingledger", .struct (some [(b!"total", b!"Balance"), (b!"active", b!"Balance"), (b!"unlocking", b!"Vec<HomaUnlockChunk>")])),
    (b!"scheduletaskindex", .u32),
    (b!"poolinfo", .struct (some [(b!"totalShares", b!"Share"), (b!"rewards", b!"BTreeMap<OrmlCurrencyId, (Balance, Balance)>")])),
    (b!"poolinfo#0-1009", .struct (some [(b!"totalShares", b!"Compact<Share>"), (b!"totalRewards", b!"Compact<Balance>"), (b!"totalWithdrawnRewards", b!"Compact<Balance>")])),
    (b!"ormlcurrencyid", .enum [] (some [(b!"Token", b!"TokenSymbol"), (b!"DEXShare", b!"(DexShare, DexShare)"), (b!"ERC20", b!"EvmAddress"), (b!"ChainSafe", b!"[u8; 32]")])),
    (b!"evmaccountinfo", .struct (some [(b!"nonce", b!"Index"), (b!"contractInfo", b!"Option<EvmContractInfo>"), (b!"developerDeposit", b!"Option<Balance>")])),
    (b!"dexshare", .enum [] (some [(b!"Token", b!"TokenSymbol"), (b!"Erc20", b!"EvmAddress")])),
    (b!"destaddress", .bytes),
    (b!"homaunlockchunk", .struct (some [(b!"value", b!"Balance"), (b!"era", b!"EraIndex")])),
    (b!"tokendata", .struct (some [(b!"deposit", b!"Balance")])),
    (b!"dispatchid", .u32),
    (b!"delayedorigin", .struct (some [(b!"delay", b!"BlockNumber"), (b!"origin", b!"PalletsOrigin")])),
    (b!"dataproviderid", .u8),
    (b!"publickey", .fixedU8 20),
    (b!"rate", .u128),
    (b!"polkadotaccountid", .accountId),
    (b!"surplusauctionitem", .struct (some [(b!"amount", b!"Compact<Balance>"), (b!"startTime", b!"BlockNumber")])),
    (b!"proxytype", .enum [b!"Any", b!"CancelProxy", b!"Governance", b!"Auction", b!"Swap", b!"Loan"] none),
    (b!"assetinstance", .enum [] (some [(b!"Undefined", b!"Null"), (b!"Index8", b!"u8"), (b!"Index16", b!"Compact<u16>"), (b!"Index32", b!"Compact<u32>"), (b!"Index64", b!"Compact<u64>"), (b!"Index128", b!"Compact<u128>"), (b!"Array4", b!"[u8; 4]"), (b!"Array8", b!"[u8; 8]"), (b!"Array16", b!"[u8; 16]"), (b!"Array32", b!"[u8; 32]"), (b!"Blob", b!"Vec<u8>")])),
    (b!"multiasset", .enum [] (some [(b!"None", b!"Null"), (b!"All", b!"Null"), (b!"AllFungible", b!"Null"), (b!"AllNonFungible", b!"Null"), (b!"AllAbstractFungible", b!"Vec<u8>"), (b!"AllAbstractNonFungible", b!"Vec<u8>"), (b!"AllConcreteFungible", b!"MultiLocationV0"), (b!"AllConcreteNonFungible", b!"MultiLocationV0"), (b!"AbstractFungible", b!"[[\"id\", \"Vec<u8>\"], [\"instance\", \"Compact<u128>\"]]"), (b!"AbstractNonFungible", b!"[[\"class\", \"Vec<u8>\"], [\"instance\", \"AssetInstanceV0\"]]"), (b!"ConcreteFungible", b!"[[\"id\", \"MultiLocationV0\"], [\"amount\", \"Compact<u128>\"]]"), (b!"ConcreteNonFungible", b!"[[\"class\", \"MultiLocationV0\"], [\"instance\", \"AssetInstanceV0\"]]")])),
    (b!"xcm", .enum [] (some [(b!"WithdrawAsset", b!"[[\"assets\", \"Vec<MultiAssetV0>\"], [\"effects\", \"Vec<XcmOrderV0>\"]]"), (b!"ReserveAssetDeposit", b!"[[\"assets\", \"Vec<MultiAssetV0>\"], [\"effects\", \"Vec<XcmOrderV0>\"]]"), (b!"TeleportAsset", b!"[[\"assets\", \"Vec<MultiAssetV0>\"], [\"effects\", \"Vec<XcmOrderV0>\"]]"), (b!"QueryResponse", b!"[[\"queryId\", \"Compact<u64>\"], [\"response\", \"ResponseV0\"]]"), (b!"TransferAsset", b!"[[\"assets\", \"Vec<MultiAssetV0>\"], [\"dest\", \"MultiLocationV0\"]]"), (b!"TransferReserveAsset", b!"[[\"assets\", \"Vec<MultiAssetV0>\"], [\"dest\", \"MultiLocationV0\"], [\"effects\", \"Vec<XcmOrderV0>\"]]"), (b!"Transact", b!"[[\"originType\", \"XcmOriginKind\"], [\"requireWeightAtMost\", \"u64\"], [\"call\", \"DoubleEncodedCall\"]]"), (b!"HrmpNewChannelOpenRequest", b!"[[\"sender\", \"Compact<u32>\"], [\"maxMessageSize\", \"Compact<u32>\"], [\"maxCapacity\", \"Compact<u32>\"]]"), (b!"HrmpChannelAccepted", b!"[[\"recipient\", \"Compact<u32>\"]]"), (b!"HrmpChannelClosing", b!"[[\"initiator\", \"Compact<u32>\"], [\"sender\", \"Compact<u32>\"], [\"recipient\", \"Compact<u32>\"]]"), (b!"RelayedFrom", b!"[[\"who\", \"MultiLocationV0\"], [\"message\", \"XcmV0\"]]")])),
    (b!"xcmorder", .enum [] (some [(b!"Null", b!"Null"), (b!"DepositAsset", b!"[[\"assets\", \"Vec<MultiAssetV0>\"], [\"dest\", \"MultiLocationV0\"]]"), (b!"DepositReserveAsset", b!"[[\"assets\", \"Vec<MultiAssetV0>\"], [\"dest\", \"MultiLocationV0\"], [\"effects\", \"Vec<XcmOrderV0>\"]]"), (b!"ExchangeAsset", b!"[[\"give\", \"Vec<MultiAssetV0>\"], [\"receive\", \"Vec<MultiAssetV0>\"]]"), (b!"InitiateReserveWithdraw", b!"[[\"assets\", \"Vec<MultiAssetV0>\"], [\"reserve\", \"MultiLocationV0\"], [\"effects\", \"Vec<XcmOrderV0>\"]]"), (b!"InitiateTeleport", b!"[[\"assets\", \"Vec<MultiAssetV0>\"], [\"dest\", \"MultiLocationV0\"], [\"effects\", \"Vec<XcmOrderV0>\"]]"), (b!"QueryHolding", b!"[[\"queryId\", \"Compact<u64>\"], [\"dest\", \"MultiLocationV0\"], [\"assets\", \"Vec<MultiAssetV0>\"]]"), (b!"BuyExecution", b!"[[\"fees\", \"MultiAssetV0\"], [\"weight\", \"u64\"], [\"debt\", \"u64\"], [\"haltOnError\", \"bool\"], [\"xcm\", \"Vec<XcmV0>\"]]")])),
    (b!"multilocation", .enum [] (some [(b!"Here", b!"Null"), (b!"X1", b!"JunctionV0"), (b!"X2", b!"(JunctionV0, JunctionV0)"), (b!"X3", b!"(JunctionV0, JunctionV0, JunctionV0)"), (b!"X4", b!"(JunctionV0, JunctionV0, JunctionV0, JunctionV0)"), (b!"X5", b!"(JunctionV0, JunctionV0, JunctionV0, JunctionV0, JunctionV0)"), (b!"X6", b!"(JunctionV0, JunctionV0, JunctionV0, JunctionV0, JunctionV0, JunctionV0)"), (b!"X7", b!"(JunctionV0, JunctionV0, JunctionV0, JunctionV0, JunctionV0, JunctionV0, JunctionV0)"), (b!"X8", b!"(JunctionV0, JunctionV0, JunctionV0, JunctionV0, JunctionV0, JunctionV0, JunctionV0, JunctionV0)")])) ]

/-- Classes of the names of network/khala.json. -/
def khala : List (Str × Cls) :=
  [ (b!"weight", .u64),
    (b!"compactassignments", .struct (some [(b!"votes1", b!"Vec<(NominatorIndexCompact, ValidatorIndexCompact)>"), (b!"votes2", b!"Vec<(NominatorIndexCompact, CompactScoreCompact, ValidatorIndexCompact)>"), (b!"votes3", b!"Vec<(NominatorIndexCompact, [CompactScoreCompact; 2], ValidatorIndexCompact)>"), (b!"votes4", b!"Vec<(NominatorIndexCompact, [CompactScoreCompact; 3], ValidatorIndexCompact)>"), (b!"votes5", b!"Vec<(NominatorIndexCompact, [CompactScoreCompact; 4], ValidatorIndexCompact)>"), (b!"votes6", b!"Vec<(NominatorIndexCompact, [CompactScoreCompact; 5], ValidatorIndexCompact)>"), (b!"votes7", b!"Vec<(NominatorIndexCompact, [CompactScoreCompact; 6], ValidatorIndexCompact)>"), (b!"votes8", b!"Vec<(NominatorIndexCompact, [CompactScoreCompact; 7], ValidatorIndexCompact)>"), (b!"votes9", b!"Vec<(NominatorIndexCompact, [CompactScoreCompact; 8], ValidatorIndexCompact)>"), (b!"votes10", b!"Vec<(NominatorIndexCompact, [CompactScoreCompact; 9], ValidatorIndexCompact)>"), (b!"votes11", b!"Vec<(NominatorIndexCompact, [CompactScoreCompact; 10], ValidatorIndexCompact)>"), (b!"votes12", b!"Vec<(NominatorIndexCompact, [CompactScoreCompact; 11], ValidatorIndexCompact)>"), (b!"votes13", b!"Vec<(NominatorIndexCompact, [CompactScoreCompact; 12], ValidatorIndexCompact)>"), (b!"votes14", b!"Vec<(NominatorIndexCompact, [CompactScoreCompact; 13], ValidatorIndexCompact)>"), (b!"votes15", b!"Vec<(NominatorIndexCompact, [CompactScoreCompact; 14], ValidatorIndexCompact)>"), (b!"votes16", b!"Vec<(NominatorIndexCompact, [CompactScoreCompact; 15], ValidatorIndexCompact)>")])),
    (b!"refcount", .u32),
    (b!"accountinfo", .struct (some [(b!"nonce", b!"Index"), (b!"consumers", b!"RefCount"), (b!"providers", b!"RefCount"), (b!"sufficients", b!"RefCount"), (b!"data", b!"AccountData")])),
    (b!"generictransfer", .struct (some [(b!"dest_id", b!"BridgeChainId"), (b!"nonce", b!"DepositNonce"), (b!"resource_id", b!"ResourceId"), (b!"metadata", b!"Vec<u8>")])),
    (b!"contractpublickey", .fixedU8 32),
    (b!"minerinfo", .struct (some [(b!"state", b!"MinerState"), (b!"ve", b!"u128"), (b!"v", b!"u128"), (b!"vUpdatedAt", b!"u64"), (b!"benchmark", b!"Benchmark"), (b!"coolDownStart", b!"u64"), (b!"stats", b!"MinerStats")])),
    (b!"tokenomicparams", .struct (some [(b!"phaRate", b!"U64F64Bits"), (b!"rho", b!"U64F64Bits"), (b!"budgetPerBlock", b!"U64F64Bits"), (b!"vMax", b!"U64F64Bits"), (b!"costK", b!"U64F64Bits"), (b!"costB", b!"U64F64Bits"), (b!"slashRate", b!"U64F64Bits"), (b!"treasuryRatio", b!"U64F64Bits"), (b!"heartbeatWindow", b!"u32"), (b!"rigK", b!"U64F64Bits"), (b!"rigB", b!"U64F64Bits"), (b!"re", b!"U64F64Bits"), (b!"k", b!"U64F64Bits"), (b!"kappa", b!"U64F64Bits")])),
    (b!"u64f64bits", .u128),
    (b!"keydistribution", .enum [] (some [(b!"MasterKeyDistribution", b!"DispatchMasterKeyEvent")])),
    (b!"bridgechainid", .u8),
    (b!"benchmark", .struct (some [(b!"pInit", b!"u32"), (b!"pInstant", b!"u32"), (b!"iterations", b!"u64"), (b!"miningStartTime", b!"u64"), (b!"challengeTimeLast", b!"u64")])),
    (b!"depositnonce", .u64),
    (b!"proxytype", .enum [b!"Any", b!"NonTransfer", b!"CancelProxy", b!"Governance", b!"Collator", b!"StakePoolManager"] none),
    (b!"keys", .accountId),
    (b!"resourceid", .fixedU8 32),
    (b!"workerregistrationinfo", .struct (some [(b!"version", b!"u32"), (b!"machineId", b!"Vec<u8>"), (b!"pubkey", b!"WorkerPublicKey"), (b!"ecdhPubkey", b!"EcdhPublicKey"), (b!"genesisBlockHash", b!"H256"), (b!"features", b!"Vec<u32>"), (b!"operator", b!"Option<AccountId>")])),
    (b!"senderid", .enum [] (some [(b!"Pallet", b!"Vec<u8>"), (b!"Contract", b!"H256"), (b!"Worker", b!"Sr25519PublicKey"), (b!"AccountId", b!"H256"), (b!"MultiLocation", b!"Vec<u8>"), (b!"Gatekeeper", b!"null")])),
    (b!"workerinfo", .struct (some [(b!"pubkey", b!"WorkerPublicKey"), (b!"ecdhPubkey", b!"EcdhPublicKey"), (b!"runtimeVersion", b!"u32"), (b!"lastUpdated", b!"u64"), (b!"operator", b!"Option<AccountId>"), (b!"confidenceLevel", b!"u8"), (b!"initialScore", b!"Option<u32>"), (b!"features", b!"Vec<u32>")])),
    (b!"attestationsgxias", .struct (some [(b!"raReport", b!"Vec<u8>"), (b!"signature", b!"Vec<u8>"), (b!"rawSigningCert", b!"Vec<u8>")])),
    (b!"address", .enum [] (some [(b!"Id", b!"AccountId"), (b!"Index", b!"Compact<AccountIndex>"), (b!"Raw", b!"Bytes"), (b!"Address32", b!"H256"), (b!"Address20", b!"H160")])),
    (b!"path", .bytes),
    (b!"tokenomicparameters", .struct (some [(b!"phaRate", b!"U64F64Bits"), (b!"rho", b!"U64F64Bits"), (b!"budgetPerBlock", b!"U64F64Bits"), (b!"vMax", b!"U64F64Bits"), (b!"costK", b!"U64F64Bits"), (b!"costB", b!"U64F64Bits"), (b!"slashRate", b!"U64F64Bits"), (b!"treasuryRatio", b!"U64F64Bits"), (b!"heartbeatWindow", b!"u32"), (b!"rigK", b!"U64F64Bits"), (b!"rigB", b!"U64F64Bits"), (b!"re", b!"U64F64Bits"), (b!"k", b!"U64F64Bits"), (b!"kappa", b!"U64F64Bits")])),
    (b!"masterpublickey", .fixedU8 32),
    (b!"bridgeevent", .enum [] (some [(b!"FungibleTransfer", b!"FungibleTransfer"), (b!"NonFungibleTransfer", b!"NonFungibleTransfer"), (b!"GenericTransfer", b!"GenericTransfer")])),
    (b!"poolinfo", .struct (some [(b!"pid", b!"u64"), (b!"owner", b!"AccountId"), (b!"payoutCommission", b!"Option<Permill>"), (b!"ownerReward", b!"Balance"), (b!"cap", b!"Option<Balance>"), (b!"rewardAcc", b!"u128"), (b!"totalShares", b!"Balance"), (b!"totalStake", b!"Balance"), (b!"freeStake", b!"Balance"), (b!"releasingStake", b!"Balance"), (b!"workers", b!"Vec<WorkerPublicKey>"), (b!"withdrawQueue", b!"Vec<WithdrawInfo>")])),
    (b!"gatekeeperchange", .enum [] (some [(b!"GatekeeperRegistered", b!"NewGatekeeperEvent")])),
    (b!"lookupsource", .enum [] (some [(b!"Id", b!"AccountId"), (b!"Index", b!"Compact<AccountIndex>"), (b!"Raw", b!"Bytes"), (b!"Address32", b!"H256"), (b!"Address20", b!"H160")])),
    (b!"tokenid", .u256),
    (b!"signedmessage", .struct (some [(b!"message", b!"Message"), (b!"sequence", b!"u64"), (b!"signature", b!"Vec<u8>")])),
    (b!"newgatekeeperevent", .struct (some [(b!"pubkey", b!"WorkerPublicKey"), (b!"ecdhPubkey", b!"EcdhPublicKey")])),
    (b!"withdrawinfo", .struct (some [(b!"user", b!"AccountId"), (b!"shares", b!"Balance"), (b!"startTime", b!"u64")])),
    (b!"fungibletransfer", .struct (some [(b!"dest_id", b!"BridgeChainId"), (b!"nonce", b!"DepositNonce"), (b!"resource_id", b!"ResourceId"), (b!"amount", b!"U256"), (b!"recipient", b!"Vec<u8>")])),
    (b!"attestation", .enum [] (some [(b!"SgxIas", b!"AttestationSgxIas")])),
    (b!"workerpublickey", .fixedU8 32),
    (b!"gatekeeperevent", .enum [] (some [(b!"NewRandomNumber", b!"RandomNumberEvent"), (b!"TokenomicParametersChanged", b!"TokenomicParameters")])),
    (b!"dispatchmasterkeyevent", .struct (some [(b!"dest", b!"WorkerPublicKey"), (b!"ecdhPubkey", b!"EcdhPublicKey"), (b!"encryptedMasterKey", b!"Vec<u8>"), (b!"iv", b!"[u8; 12]")])),
    (b!"ecdhpublickey", .fixedU8 32),
    (b!"heartbeatchallenge", .struct (some [(b!"seed", b!"U256"), (b!"onlineTarget", b!"U256")])),
    (b!"randomnumberevent", .struct (some [(b!"blockNumber", b!"u32"), (b!"randomNumber", b!"[u8; 32]"), (b!"lastRandomNumber", b!"[u8; 32]")])),
    (b!"userstakeinfo", .struct (some [(b!"user", b!"AccountId"), (b!"locked", b!"Balance"), (b!"shares", b!"Balance"), (b!"availableRewards", b!"Balance"), (b!"rewardDebt", b!"Balance")])),
    (b!"gatekeeperlaunch", .enum [] (some [(b!"FirstGatekeeper", b!"NewGatekeeperEvent"), (b!"MasterPubkeyOnChain", b!"null")])),
    (b!"sr25519publickey", .fixedU8 32),
    (b!"topic", .bytes),
    (b!"minerstats", .struct (some [(b!"totalReward", b!"Balance")])),
    (b!"proposalvotes", .struct (some [(b!"votes_for", b!"Vec<AccountId>"), (b!"votes_against", b!"Vec<AccountId>"), (b!"status", b!"ProposalStatus"), (b!"expiry", b!"BlockNumber")])),
    (b!"minerstate", .enum [] (some [(b!"Ready", b!"null"), (b!"MiningIdle", b!"null"), (b!"MiningActive", b!"null"), (b!"MiningUnresponsive", b!"null"), (b!"MiningCoolingDown", b!"null")])),
    (b!"proposalstatus", .enum [] (some [(b!"Initiated", b!"null"), (b!"Approved", b!"null"), (b!"Rejected", b!"null")])),
    (b!"nonfungibletransfer", .struct (some [(b!"dest_id", b!"BridgeChainId"), (b!"nonce", b!"DepositNonce"), (b!"resource_id", b!"ResourceId"), (b!"token_id", b!"Vec<u8>"), (b!"recipient", b!"Vec<u8>"), (b!"metadata", b!"Vec<u8>")])),
    (b!"message", .struct (some [(b!"sender", b!"SenderId"), (b!"destination", b!"Topic"), (b!"payload", b!"Vec<u8>")])),
    (b!"messageorigin", .enum [] (some [(b!"Pallet", b!"Vec<u8>"), (b!"Contract", b!"H256"), (b!"Worker", b!"Sr25519PublicKey"), (b!"AccountId", b!"H256"), (b!"MultiLocation", b!"Vec<u8>"), (b!"Gatekeeper", b!"null")])) ]

/-- Classes of the names of network/kilt.json. -/
def kilt : List (Str × Cls) :=
  [ (b!"chainid", .enum [] (some [(b!"RelayChain", b!"Null"), (b!"ParaChain", b!"ParaId")])),
    (b!"xcurrencyid", .struct (some [(b!"chainId", b!"ChainId"), (b!"currencyId", b!"Vec<u8>")])),
    (b!"currencyid", .enum [] (some [(b!"DOT", b!""), (b!"KSM", b!""), (b!"KILT", b!"")])),
    (b!"didrecord", .struct (some [(b!"signKey", b!"Hash"), (b!"boxKey", b!"Hash"), (b!"docRef", b!"Option<Vec<u8>>")])),
    (b!"publicboxkey", .hash 32),
    (b!"delegationnodeid", .hash 32),
    (b!"signature", .enum [] (some [(b!"Ed25519", b!"Ed25519Signature"), (b!"Sr25519", b!"Sr25519Signature"), (b!"Ecdsa", b!"EcdsaSignature")])),
    (b!"attestation", .struct (some [(b!"ctypeHash", b!"Hash"), (b!"attester", b!"AccountId"), (b!"delegationId", b!"Option<DelegationNodeId>"), (b!"revoked", b!"bool")])),
    (b!"xcmerror", .enum [] (some [(b!"Undefined", b!""), (b!"Unimplemented", b!""), (b!"UnhandledXcmVersion", b!""), (b!"UnhandledXcmMessage", b!""), (b!"UnhandledEffect", b!""), (b!"EscalationOfPrivilege", b!""), (b!"UntrustedReserveLocation", b!""), (b!"UntrustedTeleportLocation", b!""), (b!"DestinationBufferOverflow", b!""), (b!"CannotReachDestination", b!""), (b!"MultiLocationFull", b!""), (b!"FailedToDecode", b!""), (b!"BadOrigin", b!""), (b!"ExceedsMaxMessageSize", b!""), (b!"FailedToTransactAsset", b!"")])),
    (b!"referenduminfo", .enum [] (some [(b!"Ongoing", b!"ReferendumStatus"), (b!"Finished", b!"ReferendumInfoFinished")])),
    (b!"publicsigningkey", .hash 32),
    (b!"currencyidof", .enum [] (some [(b!"DOT", b!""), (b!"KSM", b!""), (b!"KILT", b!"")])),
    (b!"keyidof", .hash 32),
    (b!"diddeletionoperation", .struct (some [(b!"did", b!"DidIdentifierOf"), (b!"txCounter", b!"u64")])),
    (b!"lookupsource", .enum [] (some [(b!"Id", b!"AccountId"), (b!"Index", b!"Compact<AccountIndex>"), (b!"Raw", b!"Bytes"), (b!"Address32", b!"H256"), (b!"Address20", b!"H160")])),
    (b!"index", .u64),
    (b!"blocknumberof", .u64),
    (b!"roundinfo", .struct (some [(b!"current", b!"SessionIndex"), (b!"first", b!"BlockNumber"), (b!"length", b!"BlockNumber")])),
    (b!"didverificationkey", .enum [] (some [(b!"Ed25519", b!"[u8; 32]"), (b!"Sr25519", b!"[u8; 32]")])),
    (b!"stake", .struct (some [(b!"owner", b!"AccountId"), (b!"amount", b!"Balance")])),
    (b!"ctypecreatorof", .accountId),
    (b!"keyerror", .enum [b!"InvalidVerificationKeyFormat", b!"InvalidEncryptionKeyFormat"] none),
    (b!"totalstake", .struct (some [(b!"collators", b!"Balance"), (b!"delegators", b!"Balance")])),
    (b!"accountinfo", .struct (some [(b!"nonce", b!"Index"), (b!"consumers", b!"RefCount"), (b!"providers", b!"RefCount"), (b!"sufficients", b!"RefCount"), (b!"data", b!"AccountData")])),
    (b!"rewardrate", .struct (some [(b!"annual", b!"Perquintill"), (b!"perBlock", b!"Perquintill")])),
    (b!"didsignature", .enum [] (some [(b!"Ed25519", b!"Ed25519Signature"), (b!"Sr25519", b!"Sr25519Signature")])),
    (b!"delegationnodeidof", .hash 32),
    (b!"ipfsurl", .struct (some [(b!"payload", b!"Text")])),
    (b!"didcallableof", .call),
    (b!"didupdateoperation", .struct (some [(b!"did", b!"DidIdentifierOf"), (b!"newAuthenticationKey", b!"Option<DidVerificationKey>"), (b!"newKeyAgreementKeys", b!"Vec<DidEncryptionKey>"), (b!"attestationKeyUpdate", b!"DidVerificationKeyUpdateAction"), (b!"delegationKeyUpdate", b!"DidVerificationKeyUpdateAction"), (b!"publicKeysToRemove", b!"Vec<KeyIdOf>"), (b!"newEndpointUrl", b!"Option<Url>"), (b!"txCounter", b!"u64")])),
    (b!"diderror", .enum [] (some [(b!"StorageError", b!"StorageError"), (b!"SignatureError", b!"SignatureError"), (b!"UrlError", b!"UrlError"), (b!"InternalError", b!"Null")])),
    (b!"diddetails#20-?", .struct (some [(b!"authenticationKey", b!"KeyIdOf"), (b!"keyAgreementKeys", b!"Vec<KeyIdOf>"), (b!"delegationKey", b!"Option<KeyIdOf>"), (b!"attestationKey", b!"Option<KeyIdOf>"), (b!"publicKeys", b!"DidPublicKeyMap"), (b!"endpointUrl", b!"Option<Url>"), (b!"lastTxCounter", b!"u64")])),
    (b!"didencryptionkey", .enum [] (some [(b!"X25519", b!"[u8; 32]")])),
    (b!"httpurl", .struct (some [(b!"payload", b!"Text")])),
    (b!"attestationdetails", .struct (some [(b!"ctypeHash", b!"CtypeHashOf"), (b!"attester", b!"AttesterOf"), (b!"delegationId", b!"Option<DelegationNodeIdOf>"), (b!"revoked", b!"bool")])),
    (b!"delegationsignature", .enum [] (some [(b!"Ed25519", b!"Ed25519Signature"), (b!"Sr25519", b!"Sr25519Signature")])),
    (b!"delegationnode#20-?", .struct (some [(b!"rootId", b!"DelegationNodeIdOf"), (b!"parent", b!"Option<DelegationNodeIdOf>"), (b!"owner", b!"DelegatorIdOf"), (b!"permissions", b!"Permissions"), (b!"revoked", b!"bool")])),
    (b!"collator", .struct (some [(b!"id", b!"AccountId"), (b!"stake", b!"Balance"), (b!"delegators", b!"Vec<Stake>"), (b!"total", b!"Balance"), (b!"state", b!"CollatorStatus")])),
    (b!"lockedbalance", .struct (some [(b!"block", b!"BlockNumber"), (b!"amount", b!"Balance")])),
    (b!"didpublickey", .enum [] (some [(b!"PublicVerificationKey", b!"DidVerificationKey"), (b!"PublicEncryptionKey", b!"DidEncryptionKey")])),
    (b!"collatorsnapshot", .struct (some [(b!"stake", b!"Balance"), (b!"delegators", b!"Vec<Stake>"), (b!"total", b!"Balance")])),
    (b!"attesterof", .accountId),
    (b!"urlerror", .enum [b!"InvalidUrlEncoding", b!"InvalidUrlScheme"] none),
    (b!"delegator", .struct (some [(b!"delegations", b!"Vec<Stake>"), (b!"total", b!"Balance")])),
    (b!"balanceof", .u128),
    (b!"permissions", .u32),
    (b!"delegationroot", .struct (some [(b!"ctypeHash", b!"CtypeHashOf"), (b!"owner", b!"DelegatorIdOf"), (b!"revoked", b!"bool")])),
    (b!"collatorstatus", .enum [] (some [(b!"Active", b!"Null"), (b!"Leaving", b!"SessionIndex")])),
    (b!"didverificationkeyrelationship", .enum [b!"Authentication", b!"CapabilityDelegation", b!"CapabilityInvocation", b!"AssertionMethod"] none),
    (b!"accountidentifierof", .accountId),
    (b!"dididentifierof", .accountId),
    (b!"inflationinfo", .struct (some [(b!"collator", b!"StakingInfo"), (b!"delegator", b!"StakingInfo")])),
    (b!"url", .enum [] (some [(b!"Http", b!"HttpUrl"), (b!"Ftp", b!"FtpUrl"), (b!"Ipfs", b!"IpfsUrl")])),
    (b!"signatureerror", .enum [b!"InvalidSignatureFormat", b!"InvalidSignature", b!"InvalidNonce"] none),
    (b!"address", .enum [] (some [(b!"Id", b!"AccountId"), (b!"Index", b!"Compact<AccountIndex>"), (b!"Raw", b!"Bytes"), (b!"Address32", b!"H256"), (b!"Address20", b!"H160")])),
    (b!"stakinginfo", .struct (some [(b!"maxRate", b!"Perquintill"), (b!"rewardRate", b!"RewardRate")])),
    (b!"amountof", .intFixed 16),
    (b!"balance", .u128),
    (b!"orderedset", .vec b!"Stake"),
    (b!"ftpurl", .struct (some [(b!"payload", b!"Text")])),
    (b!"storageerror", .enum [] (some [(b!"DidAlreadyPresent", b!"Null"), (b!"DidNotPresent", b!"Null"), (b!"DidKeyNotPresent", b!"DidVerificationKeyRelationship"), (b!"VerificationKeyNotPresent", b!"Null"), (b!"CurrentlyActiveKey", b!"Null"), (b!"MaxTxCounterValue", b!"Null")])),
    (b!"delegatoridof", .accountId),
    (b!"blocknumber", .u64),
    (b!"didverificationkeyupdateaction", .enum [] (some [(b!"Ignore", b!"Null"), (b!"Change", b!"DidVerificationKey"), (b!"Delete", b!"Null")])),
    (b!"claimhashof", .hash 32),
    (b!"didauthorizedcalloperation", .struct (some [(b!"did", b!"DidIdentifierOf"), (b!"txCounter", b!"u64"), (b!"call", b!"DidCallableOf")])),
    (b!"didcreationoperation", .struct (some [(b!"did", b!"DidIdentifierOf"), (b!"newAuthenticationKey", b!"DidVerificationKey"), (b!"newKeyAgreementKeys", b!"Vec<DidEncryptionKey>"), (b!"newAttestationKey", b!"Option<DidVerificationKey>"), (b!"newDelegationKey", b!"Option<DidVerificationKey>"), (b!"newEndpointUrl", b!"Option<Url>")])),
    (b!"didpublickeydetails", .struct (some [(b!"key", b!"DidPublicKey"), (b!"blockNumber", b!"BlockNumberOf")])),
    (b!"ctypehashof", .hash 32),
    (b!"weight", .u64),
    (b!"compactassignments", .struct (some [(b!"votes1", b!"Vec<(NominatorIndexCompact, ValidatorIndexCompact)>"), (b!"votes2", b!"Vec<(NominatorIndexCompact, CompactScoreCompact, ValidatorIndexCompact)>"), (b!"votes3", b!"Vec<(NominatorIndexCompact, [CompactScoreCompact; 2], ValidatorIndexCompact)>"), (b!"votes4", b!"Vec<(NominatorIndexCompact, [CompactScoreCompact; 3], ValidatorIndexCompact)>"), (b!"votes5", b!"Vec<(NominatorIndexCompact, [CompactScoreCompact; 4], ValidatorIndexCompact)>"), (b!"votes6", b!"Vec<(NominatorIndexCompact, [CompactScoreCompact; 5], ValidatorIndexCompact)>"), (b!"votes7", b!"Vec<(NominatorIndexCompact, [CompactScoreCompact; 6], ValidatorIndexCompact)>"), (b!"votes8", b!"Vec<(NominatorIndexCompact, [CompactScoreCompact; 7], ValidatorIndexCompact)>"), (b!"votes9", b!"Vec<(NominatorIndexCompact, [CompactScoreCompact; 8], ValidatorIndexCompact)>"), (b!"votes10", b!"Vec<(NominatorIndexCompact, [CompactScoreCompact; 9], ValidatorIndexCompact)>"), (b!"votes11", b!"Vec<(NominatorIndexCompact, [CompactScoreCompact; 10], ValidatorIndexCompact)>"), (b!"votes12", b!"Vec<(NominatorIndexCompact, [CompactScoreCompact; 11], ValidatorIndexCompact)>"), (b!"votes13", b!"Vec<(NominatorIndexCompact, [CompactScoreCompact; 12], ValidatorIndexCompact)>"), (b!"votes14", b!"Vec<(NominatorIndexCompact, [CompactScoreCompact; 13], ValidatorIndexCompact)>"), (b!"votes15", b!"Vec<(NominatorIndexCompact, [CompactScoreCompact; 14], ValidatorIndexCompact)>"), (b!"votes16", b!"Vec<(NominatorIndexCompact, [CompactScoreCompact; 15], ValidatorIndexCompact)>")])),
    (b!"refcount", .u32),
    (b!"stakingstorageversion", .enum [b!"V1_0_0", b!"V2_0_0", b!"V3_0_0", b!"V4"] none),
    (b!"didpublickeymap", .btreeMap b!"KeyIdOf, DidPublicKeyDetails"),
    (b!"maxverificationkeystorevoke", .u32),
    (b!"didkeyagreementkeys", .vec b!"KeyIdOf"),
    (b!"didnewkeyagreementkeys", .vec b!"DidEncryptionKey"),
    (b!"didcreationdetails", .struct (some [(b!"did", b!"DidIdentifierOf"), (b!"newKeyAgreementKeys", b!"DidNewKeyAgreementKeys"), (b!"newAttestationKey", b!"Option<DidVerificationKey>"), (b!"newDelegationKey", b!"Option<DidVerificationKey>"), (b!"newServiceEndpoints", b!"Option<ServiceEndpoints>")])),
    (b!"maxdelegatorspercollator", .u32),
    (b!"maxdelegatedattestations", .u32),
    (b!"diddetails", .struct (some [(b!"authenticationKey", b!"KeyIdOf"), (b!"keyAgreementKeys", b!"DidKeyAgreementKeys"), (b!"delegationKey", b!"Option<KeyIdOf>"), (b!"attestationKey", b!"Option<KeyIdOf>"), (b!"publicKeys", b!"DidPublicKeyMap"), (b!"serviceEndpoints", b!"Option<ServiceEndpoints>"), (b!"lastTxCounter", b!"u64")])),
    (b!"maxtotalkeyagreementkeys", .u32),
    (b!"delegationnode", .struct (some [(b!"hierarchyRootId", b!"DelegationNodeIdOf"), (b!"parent", b!"Option<DelegationNodeIdOf>"), (b!"children", b!"BTreeSet<DelegationNodeIdOf>"), (b!"details", b!"DelegationDetails")])),
    (b!"collator#20-?", .struct (some [(b!"id", b!"AccountId"), (b!"stake", b!"Balance"), (b!"delegators", b!"OrderedSet<Stake, MaxDelegatorsPerCollator>"), (b!"total", b!"Balance"), (b!"state", b!"CollatorStatus")])),
    (b!"serviceendpoints", .struct (some [(b!"contentHash", b!"Hash"), (b!"urls", b!"BoundedVec<Url, MaxEndpointUrlsCount>"), (b!"contentType", b!"ContentType")])),
    (b!"maxcollatorsperdelegator", .u32),
    (b!"delegator#20-?", .struct (some [(b!"delegations", b!"OrderedSet<Stake, MaxCollatorsPerDelegator>"), (b!"total", b!"Balance")])),
    (b!"didupdatedetails", .struct (some [(b!"newAuthenticationKey", b!"Option<DidVerificationKey>"), (b!"newKeyAgreementKeys", b!"Vec<DidEncryptionKey>"), (b!"attestationKeyUpdate", b!"DidVerificationKeyUpdateAction"), (b!"delegationKeyUpdate", b!"DidVerificationKeyUpdateAction"), (b!"publicKeysToRemove", b!"Vec<KeyIdOf>"), (b!"serviceEndpointsUpdate", b!"DidFragmentUpdateAction_ServiceEndpoints")])),
    (b!"maxendpointurlscount", .u32),
    (b!"maxnewkeyagreementkeys", .u32),
    (b!"maxchildren", .u32),
    (b!"maxurllength", .u32),
    (b!"didverificationkeystorevoke", .vec b!"KeyIdOf"),
    (b!"maxclaims", .u32),
    (b!"maxcollatorcandidates", .u32),
    (b!"maxpublickeysperdid", .u32),
    (b!"storageerror#20-?", .enum [] (some [(b!"DidAlreadyPresent", b!"Null"), (b!"DidNotPresent", b!"Null"), (b!"DidKeyNotPresent", b!"DidVerificationKeyRelationship"), (b!"VerificationKeyNotPresent", b!"Null"), (b!"CurrentlyActiveKey", b!"Null"), (b!"MaxTxCounterValue", b!"Null"), (b!"MaxPublicKeysPerDidKeyIdentifierExceeded", b!"Null"), (b!"MaxTotalKeyAgreementKeysExceeded", b!"Null"), (b!"MaxOldAttestationKeysExceeded", b!"Null")])),
    (b!"contenttype", .enum [] (some [(b!"application/json", b!"Null"), (b!"application/ld+json", b!"Null")])) ]

/-- Classes of the names of network/kintsugi.json. -/
def kintsugi : List (Str × Cls) :=
  [ (b!"weight", .u64),
    (b!"compactassignments", .struct (some [(b!"votes1", b!"Vec<(NominatorIndexCompact, ValidatorIndexCompact)>"), (b!"votes2", b!"Vec<(NominatorIndexCompact, CompactScoreCompact, ValidatorIndexCompact)>"), (b!"votes3", b!"Vec<(NominatorIndexCompact, [CompactScoreCompact; 2], ValidatorIndexCompact)>"), (b!"votes4", b!"Vec<(NominatorIndexCompact, [CompactScoreCompact; 3], ValidatorIndexCompact)>"), (b!"votes5", b!"Vec<(NominatorIndexCompact, [CompactScoreCompact; 4], ValidatorIndexCompact)>"), (b!"votes6", b!"Vec<(NominatorIndexCompact, [CompactScoreCompact; 5], ValidatorIndexCompact)>"), (b!"votes7", b!"Vec<(NominatorIndexCompact, [CompactScoreCompact; 6], ValidatorIndexCompact)>"), (b!"votes8", b!"Vec<(NominatorIndexCompact, [CompactScoreCompact; 7], ValidatorIndexCompact)>"), (b!"votes9", b!"Vec<(NominatorIndexCompact, [CompactScoreCompact; 8], ValidatorIndexCompact)>"), (b!"votes10", b!"Vec<(NominatorIndexCompact, [CompactScoreCompact; 9], ValidatorIndexCompact)>"), (b!"votes11", b!"Vec<(NominatorIndexCompact, [CompactScoreCompact; 10], ValidatorIndexCompact)>"), (b!"votes12", b!"Vec<(NominatorIndexCompact, [CompactScoreCompact; 11], ValidatorIndexCompact)>"), (b!"votes13", b!"Vec<(NominatorIndexCompact, [CompactScoreCompact; 12], ValidatorIndexCompact)>"), (b!"votes14", b!"Vec<(NominatorIndexCompact, [CompactScoreCompact; 13], ValidatorIndexCompact)>"), (b!"votes15", b!"Vec<(NominatorIndexCompact, [CompactScoreCompact; 14], ValidatorIndexCompact)>"), (b!"votes16", b!"Vec<(NominatorIndexCompact, [CompactScoreCompact; 15], ValidatorIndexCompact)>")])),
    (b!"refcount", .u32),
    (b!"address", .accountId),
    (b!"lookupsource", .accountId),
    (b!"accountinfo", .struct (some [(b!"nonce", b!"Index"), (b!"consumers", b!"RefCount"), (b!"providers", b!"RefCount"), (b!"sufficients", b!"RefCount"), (b!"data", b!"AccountData")])),
    (b!"currencyid", .enum [b!"DOT", b!"INTERBTC", b!"INTR", b!"KSM", b!"KBTC", b!"KINT"] none) ]

/-- Classes of the names of network/kulupu.json. -/
def kulupu : List (Str × Cls) :=
  [ (b!"keys", .struct (some [(b!"grandpa", b!"AccountId"), (b!"babe", b!"AccountId"), (b!"im_online", b!"AccountId"), (b!"authority_discovery", b!"AccountId"), (b!"parachains", b!"AccountId")])),
    (b!"u256", .fixedU8 32),
    (b!"difficulty", .fixedU8 32),
    (b!"weight", .u64),
    (b!"difficultyandtimestamp", .struct (some [(b!"difficulty", b!"Difficulty"), (b!"timestamp", b!"Moment")])),
    (b!"referenduminfo<blocknumber, hash, balanceof>", .enum [] (some [(b!"Ongoing", b!"ReferendumStatus"), (b!"Finished", b!"ReferendumInfoFinished")])),
    (b!"era", .struct (some [(b!"genesisBlockHash", b!"H256"), (b!"finalBlockHash", b!"H256"), (b!"finalStateRoot", b!"H256")])),
    (b!"dispatchresult", .enum [] (some [(b!"Ok", b!"Null"), (b!"Error", b!"DispatchError")])),
    (b!"refcount#10-?", .u32),
    (b!"address#13-?", .enum [] (some [(b!"Id", b!"AccountId"), (b!"Index", b!"Compact<AccountIndex>"), (b!"Raw", b!"Bytes"), (b!"Address32", b!"H256"), (b!"Address20", b!"H160")])),
    (b!"lookupsource#13-?", .enum [] (some [(b!"Id", b!"AccountId"), (b!"Index", b!"Compact<AccountIndex>"), (b!"Raw", b!"Bytes"), (b!"Address32", b!"H256"), (b!"Address20", b!"H160")])),
    (b!"box<<t as config>::call>", .call),
    (b!"accountinfo", .struct (some [(b!"nonce", b!"Index"), (b!"consumers", b!"RefCount"), (b!"providers", b!"RefCount"), (b!"sufficients", b!"RefCount"), (b!"data", b!"AccountData")])),
    (b!"campaignidentifier", .fixedU8 4) ]

/-- Classes of the names of network/kusama.json. -/
def kusama : List (Str × Cls) :=
  [ (b!"keys", .struct (some [(b!"grandpa", b!"AccountId"), (b!"babe", b!"AccountId"), (b!"im_online", b!"AccountId"), (b!"authority_discovery", b!"AccountId"), (b!"parachains", b!"AccountId")])),
    (b!"validatorprefs", .struct (some [(b!"Commission", b!"Compact<Balance>")])),
    (b!"timepoint", .struct (some [(b!"height", b!"BlockNumber"), (b!"index", b!"u32")])),
    (b!"multisig", .struct (some [(b!"when", b!"Timepoint"), (b!"deposit", b!"Balance"), (b!"depositor", b!"AccountId"), (b!"approvals", b!"Vec<AccountId>")])),
    (b!"balancelock<balance>", .struct (some [(b!"id", b!"LockIdentifier"), (b!"amount", b!"Balance"), (b!"reasons", b!"Reasons")])),
    (b!"referenduminfo<blocknumber, hash>", .enum [] (some [(b!"Ongoing", b!"ReferendumStatus"), (b!"Finished", b!"ReferendumInfoFinished")])),
    (b!"dispatchresult", .enum [] (some [(b!"Ok", b!"Null"), (b!"Error", b!"DispatchError")])),
    (b!"heartbeat", .struct (some [(b!"blockNumber", b!"BlockNumber"), (b!"networkState", b!"OpaqueNetworkState"), (b!"sessionIndex", b!"SessionIndex"), (b!"authorityIndex", b!"AuthIndex")])),
    (b!"weight#1058-?", .u64),
    (b!"heartbeat#1062-?", .struct (some [(b!"blockNumber", b!"BlockNumber"), (b!"networkState", b!"OpaqueNetworkState"), (b!"sessionIndex", b!"SessionIndex"), (b!"authorityIndex", b!"AuthIndex"), (b!"validatorsLen", b!"u32")])),
    (b!"referenduminfo<blocknumber, hash, balanceof>", .enum [] (some [(b!"Ongoing", b!"ReferendumStatus"), (b!"Finished", b!"ReferendumInfoFinished")])),
    (b!"dispatchinfo#1019-1061", .struct (some [(b!"weight", b!"Weight"), (b!"class", b!"DispatchClass"), (b!"paysFee", b!"bool")])),
    (b!"dispatchinfo#1062-?", .struct (some [(b!"weight", b!"Weight"), (b!"class", b!"DispatchClass"), (b!"paysFee", b!"Pays")])),
    (b!"referenduminfo#1019-1054", .struct (some [(b!"end", b!"BlockNumber"), (b!"proposal", b!"Proposal"), (b!"threshold", b!"VoteThreshold"), (b!"delay", b!"BlockNumber")])),
    (b!"dispatcherror#1019-1031", .struct (some [(b!"module", b!"Option<u8>"), (b!"error", b!"u8")])),
    (b!"proxytype", .enum [b!"Any", b!"NonTransfer", b!"Governance", b!"Staking", b!"IdentityJudgement", b!"CancelProxy", b!"Auction"] none),
    (b!"address#1050-2027", .accountId),
    (b!"box<proposal>", .call),
    (b!"compactassignments#2023-9000", .struct (some [(b!"votes1", b!"Vec<(NominatorIndexCompact, ValidatorIndexCompact)>"), (b!"votes2", b!"Vec<(NominatorIndexCompact, CompactScoreCompact, ValidatorIndexCompact)>"), (b!"votes3", b!"Vec<(NominatorIndexCompact, [CompactScoreCompact; 2], ValidatorIndexCompact)>"), (b!"votes4", b!"Vec<(NominatorIndexCompact, [CompactScoreCompact; 3], ValidatorIndexCompact)>"), (b!"votes5", b!"Vec<(NominatorIndexCompact, [CompactScoreCompact; 4], ValidatorIndexCompact)>"), (b!"votes6", b!"Vec<(NominatorIndexCompact, [CompactScoreCompact; 5], ValidatorIndexCompact)>"), (b!"votes7", b!"Vec<(NominatorIndexCompact, [CompactScoreCompact; 6], ValidatorIndexCompact)>"), (b!"votes8", b!"Vec<(NominatorIndexCompact, [CompactScoreCompact; 7], ValidatorIndexCompact)>"), (b!"votes9", b!"Vec<(NominatorIndexCompact, [CompactScoreCompact; 8], ValidatorIndexCompact)>"), (b!"votes10", b!"Vec<(NominatorIndexCompact, [CompactScoreCompact; 9], ValidatorIndexCompact)>"), (b!"votes11", b!"Vec<(NominatorIndexCompact, [CompactScoreCompact; 10], ValidatorIndexCompact)>"), (b!"votes12", b!"Vec<(NominatorIndexCompact, [CompactScoreCompact; 11], ValidatorIndexCompact)>"), (b!"votes13", b!"Vec<(NominatorIndexCompact, [CompactScoreCompact; 12], ValidatorIndexCompact)>"), (b!"votes14", b!"Vec<(NominatorIndexCompact, [CompactScoreCompact; 13], ValidatorIndexCompact)>"), (b!"votes15", b!"Vec<(NominatorIndexCompact, [CompactScoreCompact; 14], ValidatorIndexCompact)>"), (b!"votes16", b!"Vec<(NominatorIndexCompact, [CompactScoreCompact; 15], ValidatorIndexCompact)>")])),
    (b!"refcount", .u32),
    (b!"box<<t as config>::call>", .call),
    (b!"box<<t as config<i>>::proposal>", .call),
    (b!"accountinfo", .struct (some [(b!"nonce", b!"Index"), (b!"consumers", b!"RefCount"), (b!"providers", b!"RefCount"), (b!"sufficients", b!"RefCount"), (b!"data", b!"AccountData")])),
    (b!"address#2028-?", .enum [] (some [(b!"Id", b!"AccountId"), (b!"Index", b!"Compact<AccountIndex>"), (b!"Raw", b!"Bytes"), (b!"Address32", b!"H256"), (b!"Address20", b!"H160")])),
    (b!"lookupsource#2028-?", .enum [] (some [(b!"Id", b!"AccountId"), (b!"Index", b!"Compact<AccountIndex>"), (b!"Raw", b!"Bytes"), (b!"Address32", b!"H256"), (b!"Address20", b!"H160")])),
    (b!"keys#2028-2029", .struct (some [(b!"grandpa", b!"AccountId"), (b!"babe", b!"AccountId"), (b!"im_online", b!"AccountId"), (b!"para_validator", b!"AccountId"), (b!"para_assignment", b!"AccountId"), (b!"authority_discovery", b!"AccountId")])),
    (b!"validatorprefs#2028-?", .struct (some [(b!"commission", b!"Compact<Perbill>"), (b!"blocked", b!"bool")])),
    (b!"keys#2030-?", .struct (some [(b!"col1", b!"AccountId"), (b!"col2", b!"AccountId"), (b!"col3", b!"AccountId"), (b!"col4", b!"AccountId"), (b!"col5", b!"AccountId"), (b!"col6", b!"AccountId")])),
    (b!"compactassignments#9010-?", .struct (some [(b!"votes1", b!"Vec<(NominatorIndexCompact, ValidatorIndexCompact)>"), (b!"votes2", b!"Vec<(NominatorIndexCompact, CompactScoreCompact, ValidatorIndexCompact)>"), (b!"votes3", b!"Vec<(NominatorIndexCompact, [CompactScoreCompact; 2], ValidatorIndexCompact)>"), (b!"votes4", b!"Vec<(NominatorIndexCompact, [CompactScoreCompact; 3], ValidatorIndexCompact)>"), (b!"votes5", b!"Vec<(NominatorIndexCompact, [CompactScoreCompact; 4], ValidatorIndexCompact)>"), (b!"votes6", b!"Vec<(NominatorIndexCompact, [CompactScoreCompact; 5], ValidatorIndexCompact)>"), (b!"votes7", b!"Vec<(NominatorIndexCompact, [CompactScoreCompact; 6], ValidatorIndexCompact)>"), (b!"votes8", b!"Vec<(NominatorIndexCompact, [CompactScoreCompact; 7], ValidatorIndexCompact)>"), (b!"votes9", b!"Vec<(NominatorIndexCompact, [CompactScoreCompact; 8], ValidatorIndexCompact)>"), (b!"votes10", b!"Vec<(NominatorIndexCompact, [CompactScoreCompact; 9], ValidatorIndexCompact)>"), (b!"votes11", b!"Vec<(NominatorIndexCompact, [CompactScoreCompact; 10], ValidatorIndexCompact)>"), (b!"votes12", b!"Vec<(NominatorIndexCompact, [CompactScoreCompact; 11], ValidatorIndexCompact)>"), (b!"votes13", b!"Vec<(NominatorIndexCompact, [CompactScoreCompact; 12], ValidatorIndexCompact)>"), (b!"votes14", b!"Vec<(NominatorIndexCompact, [CompactScoreCompact; 13], ValidatorIndexCompact)>"), (b!"votes15", b!"Vec<(NominatorIndexCompact, [CompactScoreCompact; 14], ValidatorIndexCompact)>"), (b!"votes16", b!"Vec<(NominatorIndexCompact, [CompactScoreCompact; 15], ValidatorIndexCompact)>"), (b!"votes17", b!"Vec<(NominatorIndexCompact, [CompactScoreCompact; 16], ValidatorIndexCompact)>"), (b!"votes18", b!"Vec<(NominatorIndexCompact, [CompactScoreCompact; 17], ValidatorIndexCompact)>"), (b!"votes19", b!"Vec<(NominatorIndexCompact, [CompactScoreCompact; 18], ValidatorIndexCompact)>"), (b!"votes20", b!"Vec<(NominatorIndexCompact, [CompactScoreCompact; 19], ValidatorIndexCompact)>"), (b!"votes21", b!"Vec<(NominatorIndexCompact, [CompactScoreCompact; 20], ValidatorIndexCompact)>"), (b!"votes22", b!"Vec<(NominatorIndexCompact, [CompactScoreCompact; 21], ValidatorIndexCompact)>"), (b!"votes23", b!"Vec<(NominatorIndexCompact, [CompactScoreCompact; 22], ValidatorIndexCompact)>"), (b!"votes24", b!"Vec<(NominatorIndexCompact, [CompactScoreCompact; 23], ValidatorIndexCompact)>")])),
    (b!"assetinstance#9010-9090", .enum [] (some [(b!"Undefined", b!"Null"), (b!"Index8", b!"u8"), (b!"Index16", b!"Compact<u16>"), (b!"Index32", b!"Compact<u32>"), (b!"Index64", b!"Compact<u64>"), (b!"Index128", b!"Compact<u128>"), (b!"Array4", b!"[u8; 4]"), (b!"Array8", b!"[u8; 8]"), (b!"Array16", b!"[u8; 16]"), (b!"Array32", b!"[u8; 32]"), (b!"Blob", b!"Vec<u8>")])),
    (b!"multiasset#9010-9090", .enum [] (some [(b!"None", b!"Null"), (b!"All", b!"Null"), (b!"AllFungible", b!"Null"), (b!"AllNonFungible", b!"Null"), (b!"AllAbstractFungible", b!"Vec<u8>"), (b!"AllAbstractNonFungible", b!"Vec<u8>"), (b!"AllConcreteFungible", b!"MultiLocationV0"), (b!"AllConcreteNonFungible", b!"MultiLocationV0"), (b!"AbstractFungible", b!"[[\"id\", \"Vec<u8>\"], [\"instance\", \"Compact<u128>\"]]"), (b!"AbstractNonFungible", b!"[[\"class\", \"Vec<u8>\"], [\"instance\", \"AssetInstanceV0\"]]"), (b!"ConcreteFungible", b!"[[\"id\", \"MultiLocationV0\"], [\"amount\", \"Compact<u128>\"]]"), (b!"ConcreteNonFungible", b!"[[\"class\", \"MultiLocationV0\"], [\"instance\", \"AssetInstanceV0\"]]")])),
    (b!"xcm#9010-9090", .enum [] (some [(b!"WithdrawAsset", b!"[[\"assets\", \"Vec<MultiAssetV0>\"], [\"effects\", \"Vec<XcmOrderV0>\"]]"), (b!"ReserveAssetDeposit", b!"[[\"assets\", \"Vec<MultiAssetV0>\"], [\"effects\", \"Vec<XcmOrderV0>\"]]"), (b!"TeleportAsset", b!"[[\"assets\", \"Vec<MultiAssetV0>\"], [\"effects\", \"Vec<XcmOrderV0>\"]]"), (b!"QueryResponse", b!"[[\"queryId\", \"Compact<u64>\"], [\"response\", \"ResponseV0\"]]"), (b!"TransferAsset", b!"[[\"assets\", \"Vec<MultiAssetV0>\"], [\"dest\", \"MultiLocationV0\"]]"), (b!"TransferReserveAsset", b!"[[\"assets\", \"Vec<MultiAssetV0>\"], [\"dest\", \"MultiLocationV0\"], [\"effects\", \"Vec<XcmOrderV0>\"]]"), (b!"Transact", b!"[[\"originType\", \"XcmOriginKind\"], [\"requireWeightAtMost\", \"u64\"], [\"call\", \"DoubleEncodedCall\"]]"), (b!"HrmpNewChannelOpenRequest", b!"[[\"sender\", \"Compact<u32>\"], [\"maxMessageSize\", \"Compact<u32>\"], [\"maxCapacity\", \"Compact<u32>\"]]"), (b!"HrmpChannelAccepted", b!"[[\"recipient\", \"Compact<u32>\"]]"), (b!"HrmpChannelClosing", b!"[[\"initiator\", \"Compact<u32>\"], [\"sender\", \"Compact<u32>\"], [\"recipient\", \"Compact<u32>\"]]"), (b!"RelayedFrom", b!"[[\"who\", \"MultiLocationV0\"], [\"message\", \"XcmV0\"]]")])),
    (b!"xcmorder#9010-9090", .enum [] (some [(b!"Null", b!"Null"), (b!"DepositAsset", b!"[[\"assets\", \"Vec<MultiAssetV0>\"], [\"dest\", \"MultiLocationV0\"]]"), (b!"DepositReserveAsset", b!"[[\"assets\", \"Vec<MultiAssetV0>\"], [\"dest\", \"MultiLocationV0\"], [\"effects\", \"Vec<XcmOrderV0>\"]]"), (b!"ExchangeAsset", b!"[[\"give\", \"Vec<MultiAssetV0>\"], [\"receive\", \"Vec<MultiAssetV0>\"]]"), (b!"InitiateReserveWithdraw", b!"[[\"assets\", \"Vec<MultiAssetV0>\"], [\"reserve\", \"MultiLocationV0\"], [\"effects\", \"Vec<XcmOrderV0>\"]]"), (b!"InitiateTeleport", b!"[[\"assets\", \"Vec<MultiAssetV0>\"], [\"dest\", \"MultiLocationV0\"], [\"effects\", \"Vec<XcmOrderV0>\"]]"), (b!"QueryHolding", b!"[[\"queryId\", \"Compact<u64>\"], [\"dest\", \"MultiLocationV0\"], [\"assets\", \"Vec<MultiAssetV0>\"]]"), (b!"BuyExecution", b!"[[\"fees\", \"MultiAssetV0\"], [\"weight\", \"u64\"], [\"debt\", \"u64\"], [\"haltOnError\", \"bool\"], [\"xcm\", \"Vec<XcmV0>\"]]")])),
    (b!"multilocation#9010-9090", .enum [] (some [(b!"Here", b!"Null"), (b!"X1", b!"JunctionV0"), (b!"X2", b!"(JunctionV0, JunctionV0)"), (b!"X3", b!"(JunctionV0, JunctionV0, JunctionV0)"), (b!"X4", b!"(JunctionV0, JunctionV0, JunctionV0, JunctionV0)"), (b!"X5", b!"(JunctionV0, JunctionV0, JunctionV0, JunctionV0, JunctionV0)"), (b!"X6", b!"(JunctionV0, JunctionV0, JunctionV0, JunctionV0, JunctionV0, JunctionV0)"), (b!"X7", b!"(JunctionV0, JunctionV0, JunctionV0, JunctionV0, JunctionV0, JunctionV0, JunctionV0)"), (b!"X8", b!"(JunctionV0, JunctionV0, JunctionV0, JunctionV0, JunctionV0, JunctionV0, JunctionV0, JunctionV0)")])),
    (b!"assetinstance#9100-9100", .enum [] (some [(b!"Undefined", b!"Null"), (b!"Index", b!"Compact<u128>"), (b!"Array4", b!"[u8; 4]"), (b!"Array8", b!"[u8; 8]"), (b!"Array16", b!"[u8; 16]"), (b!"Array32", b!"[u8; 32]"), (b!"Blob", b!"Bytes")])),
    (b!"multiasset#9100-9100", .struct (some [(b!"id", b!"XcmAssetId"), (b!"fun", b!"FungibilityV1")])),
    (b!"xcm#9100-9100", .enum [] (some [(b!"WithdrawAsset", b!"[[\"assets\", \"MultiAssetsV1\"], [\"effects\", \"Vec<XcmOrderV1>\"]]"), (b!"ReserveAssetDeposit", b!"[[\"assets\", \"MultiAssetsV1\"], [\"effects\", \"Vec<XcmOrderV1>\"]]"), (b!"ReceiveTeleportedAsset", b!"[[\"assets\", \"MultiAssetsV1\"], [\"effects\", \"Vec<XcmOrderV1>\"]]"), (b!"QueryResponse", b!"[[\"queryId\", \"Compact<u64>\"], [\"response\", \"ResponseV1\"]]"), (b!"TransferAsset", b!"[[\"assets\", \"MultiAssetsV1\"], [\"dest\", \"MultiLocationV1\"]]"), (b!"TransferReserveAsset", b!"[[\"assets\", \"MultiAssetsV1\"], [\"dest\", \"MultiLocationV1\"], [\"effects\", \"Vec<XcmOrderV1>\"]]"), (b!"Transact", b!"[[\"originType\", \"XcmOriginKind\"], [\"requireWeightAtMost\", \"u64\"], [\"call\", \"DoubleEncodedCall\"]]"), (b!"HrmpNewChannelOpenRequest", b!"[[\"sender\", \"Compact<u32>\"], [\"maxMessageSize\", \"Compact<u32>\"], [\"maxCapacity\", \"Compact<u32>\"]]"), (b!"HrmpChannelAccepted", b!"[[\"recipient\", \"Compact<u32>\"]]"), (b!"HrmpChannelClosing", b!"[[\"initiator\", \"Compact<u32>\"], [\"sender\", \"Compact<u32>\"], [\"recipient\", \"Compact<u32>\"]]"), (b!"RelayedFrom", b!"[[\"who\", \"MultiLocationV1\"], [\"message\", \"XcmV1\"]]"), (b!"SubscribeVersion", b!"[[\"query_id\", \"U64\"], [\"max_response_weight\", \"U64\"]]"), (b!"UnsubscribeVersion", b!"NULL")])),
    (b!"xcmorder#9100-9100", .enum [] (some [(b!"Noop", b!"Null"), (b!"DepositAsset", b!"[[\"assets\", \"MultiAssetFilterV1\"], [\"max_assets\", \"u32\"], [\"beneficiary\", \"MultiLocationV1\"]]"), (b!"DepositReserveAsset", b!"[[\"assets\", \"MultiAssetFilterV1\"], [\"max_assets\", \"u32\"], [\"dest\", \"MultiLocationV1\"], [\"effects\", \"Vec<XcmOrderV1>\"]]"), (b!"ExchangeAsset", b!"[[\"give\", \"MultiAssetFilterV1\"], [\"receive\", \"MultiAssetsV1\"]]"), (b!"InitiateReserveWithdraw", b!"[[\"assets\", \"MultiAssetFilterV1\"], [\"reserve\", \"MultiLocationV1\"], [\"effects\", \"Vec<XcmOrderV1>\"]]"), (b!"InitiateTeleport", b!"[[\"assets\", \"MultiAssetFilterV1\"], [\"dest\", \"MultiLocationV1\"], [\"effects\", \"Vec<XcmOrderV1>\"]]"), (b!"QueryHolding", b!"[[\"queryId\", \"Compact<u64>\"], [\"dest\", \"MultiLocationV1\"], [\"assets\", \"MultiAssetFilterV1\"]]"), (b!"BuyExecution", b!"[[\"fees\", \"MultiAssetV1\"], [\"weight\", \"u64\"], [\"debt\", \"u64\"], [\"halt_on_error\", \"bool\"], [\"instructions\", \"Vec<XcmV1>\"]]")])),
    (b!"multilocation#9100-9100", .struct (some [(b!"parents", b!"u8"), (b!"interior", b!"JunctionsV1")])) ]

/-- Classes of the names of network/laminar-test.json. -/
def laminar_test : List (Str × Cls) :=
  [ (b!"refcount", .u32),
    (b!"weight", .u64),
    (b!"positionid", .u64),
    (b!"fixedu128", .u128),
    (b!"<t as trait<i>>::oraclekey", .enum [b!"LAMI", b!"AUSD", b!"FEUR", b!"FJPY", b!"FBTC", b!"FETH", b!"FAUD", b!"FCAD", b!"FCHF", b!"FXAU", b!"FOIL", b!"FGBP"] none),
    (b!"dispatchresult", .enum [] (some [(b!"Ok", b!"Null"), (b!"Error", b!"DispatchError")])),
    (b!"auctioninfo", .struct (some [(b!"bid", b!"Option<(AccountId, Balance)>"), (b!"start", b!"BlockNumber"), (b!"end", b!"Option<BlockNumber>")])),
    (b!"leverage", .enum [b!"LongTwo", b!"LongThree", b!"LongFive", b!"LongTen", b!"LongTwenty", b!"LongThirty", b!"LongFifty", b!"LongReserved", b!"ShortTwo", b!"ShortThree", b!"ShortFive", b!"ShortTen", b!"ShortTwenty", b!"ShortThirty", b!"ShortFifty", b!"ShortReserved"] none),
    (b!"riskthreshold", .struct (some [(b!"marginCall", b!"Permill"), (b!"stopOut", b!"Permill")])),
    (b!"synthetictokensratio", .struct (some [(b!"extreme", b!"Option<Permill>"), (b!"liquidation", b!"Option<Permill>"), (b!"collateral", b!"Option<Permill>")])),
    (b!"ormlbalancelock", .struct (some [(b!"amount", b!"Balance"), (b!"id", b!"LockIdentifier")])),
    (b!"vestingscheduleof", .struct (some [(b!"start", b!"BlockNumber"), (b!"period", b!"BlockNumber"), (b!"periodCount", b!"u32"), (b!"perPeriod", b!"Compact<Balance>")])),
    (b!"pairinfo", .struct (some [(b!"baseAmount", b!"FixedI128"), (b!"quoteAmount", b!"FixedI128")])),
    (b!"positionssnapshot", .struct (some [(b!"positionsCount", b!"PositionId"), (b!"long", b!"LeveragedAmounts"), (b!"short", b!"LeveragedAmounts")])),
    (b!"graduallyupdate", .struct (some [(b!"key", b!"StorageKey"), (b!"targetValue", b!"StorageValue"), (b!"perBlock", b!"StorageValue")])),
    (b!"margintraderstate", .struct (some [(b!"equity", b!"FixedI128"), (b!"margin_held", b!"FixedI128"), (b!"margin_level", b!"FixedI128"), (b!"free_margin", b!"FixedI128"), (b!"unrealized_pl", b!"FixedI128")])),
    (b!"liquiditypoolidentityinfo", .struct (some [(b!"legalName", b!"Vec<u8>"), (b!"displayName", b!"Vec<u8>"), (b!"web", b!"Vec<u8>"), (b!"email", b!"Vec<u8>"), (b!"image_url", b!"Vec<u8>")])),
    (b!"timestampedvalueof", .struct (some [(b!"value", b!"OracleValue"), (b!"timestamp", b!"Moment")])),
    (b!"liquiditypoolid", .u32),
    (b!"leverages", .set [] 16),
    (b!"marginpooloption", .struct (some [(b!"additionalSwapRate", b!"FixedI128"), (b!"minLeveragedAmount", b!"FixedU128")])),
    (b!"accumulateconfig", .struct (some [(b!"frequency", b!"Moment"), (b!"offset", b!"Moment")])),
    (b!"delayeddispatchtime", .enum [] (some [(b!"At", b!"BlockNumber"), (b!"After", b!"BlockNumber")])),
    (b!"syntheticpoolstate", .struct (some [(b!"collateral_ratio", b!"FixedI128"), (b!"is_safe", b!"boolean")])),
    (b!"timestampedvalue", .struct (some [(b!"value", b!"OracleValue"), (b!"timestamp", b!"Moment")])),
    (b!"tradingpair", .struct (some [(b!"base", b!"CurrencyId"), (b!"quote", b!"CurrencyId")])),
    (b!"rate", .intFixed 16),
    (b!"dispatchtime", .enum [] (some [(b!"At", b!"BlockNumber"), (b!"After", b!"BlockNumber")])),
    (b!"currencyidof", .enum [b!"LAMI", b!"AUSD", b!"FEUR", b!"FJPY", b!"FBTC", b!"FETH", b!"FAUD", b!"FCAD", b!"FCHF", b!"FXAU", b!"FOIL", b!"FGBP"] none),
    (b!"amountof", .intFixed 16),
    (b!"orderedset", .vec b!"AccountId"),
    (b!"rpcdataproviderid", .string),
    (b!"marginpooltradingpairoption", .struct (some [(b!"enabled", b!"bool"), (b!"bidSpread", b!"Option<FixedU128>"), (b!"askSpread", b!"Option<FixedU128>"), (b!"enabledTrades", b!"Leverages")])),
    (b!"pool", .struct (some [(b!"owner", b!"AccountId"), (b!"balance", b!"Balance")])),
    (b!"tradingpairriskthreshold", .struct (some [(b!"trader", b!"Option<RiskThreshold>"), (b!"enp", b!"Option<RiskThreshold>"), (b!"ell", b!"Option<RiskThreshold>")])),
    (b!"scheduletaskindex", .u32),
    (b!"poolinfo", .struct (some [(b!"totalShares", b!"Compact<Share>"), (b!"totalRewards", b!"Compact<Balance>"), (b!"totalWithdrawnRewards", b!"Compact<Balance>")])),
    (b!"leveragedamounts", .struct (some [(b!"held", b!"FixedI128"), (b!"debits", b!"FixedI128")])),
    (b!"currencyid", .enum [b!"LAMI", b!"AUSD", b!"FEUR", b!"FJPY", b!"FBTC", b!"FETH", b!"FAUD", b!"FCAD", b!"FCHF", b!"FXAU", b!"FOIL", b!"FGBP"] none),
    (b!"margintradingpairoption", .struct (some [(b!"enabled", b!"bool"), (b!"maxSpread", b!"Option<FixedU128>"), (b!"swapRate", b!"SwapRate"), (b!"accumulateConfig", b!"Option<AccumulateConfig>")])),
    (b!"fixedi128", .intFixed 16),
    (b!"amount", .intFixed 16),
    (b!"storagevalue", .bytes),
    (b!"marginpoolstate", .struct (some [(b!"enp", b!"FixedI128"), (b!"ell", b!"FixedI128"), (b!"required_deposit", b!"FixedI128")])),
    (b!"callof", .call),
    (b!"ormlaccountdata", .struct (some [(b!"free", b!"Balance"), (b!"frozen", b!"Balance"), (b!"reserved", b!"Balance")])),
    (b!"dispatchid", .u32),
    (b!"identitydepositbalanceof", .balance),
    (b!"delayedorigin", .struct (some [(b!"delay", b!"BlockNumber"), (b!"origin", b!"PalletsOrigin")])),
    (b!"syntheticposition", .struct (some [(b!"collateral", b!"FixedU128"), (b!"synthetic", b!"FixedU128")])),
    (b!"share", .u128),
    (b!"dataproviderid", .u8),
    (b!"keys", .struct (some [(b!"col1", b!"AccountId"), (b!"col2", b!"AccountId")])),
    (b!"oraclekey", .enum [b!"LAMI", b!"AUSD", b!"FEUR", b!"FJPY", b!"FBTC", b!"FETH", b!"FAUD", b!"FCAD", b!"FCHF", b!"FXAU", b!"FOIL", b!"FGBP"] none),
    (b!"syntheticpoolcurrencyoption", .struct (some [(b!"bidSpread", b!"Option<FixedU128>"), (b!"askSpread", b!"Option<FixedU128>"), (b!"additionalCollateralRatio", b!"Option<Permill>"), (b!"syntheticEnabled", b!"bool")])),
    (b!"marginposition", .struct (some [(b!"owner", b!"AccountId"), (b!"poolId", b!"LiquidityPoolId"), (b!"pair", b!"TradingPair"), (b!"leverage", b!"Leverage"), (b!"leveragedHeld", b!"FixedI128"), (b!"leveragedDebits", b!"FixedI128"), (b!"openAccumulatedSwapRate", b!"Rate"), (b!"marginHeld", b!"FixedI128")])),
    (b!"pooltraderinfo", .struct (some [(b!"positionNum", b!"PositionId"), (b!"long", b!"PairInfo"), (b!"short", b!"PairInfo")])),
    (b!"oraclevalue", .u128),
    (b!"swaprate", .struct (some [(b!"long", b!"Rate"), (b!"short", b!"Rate")])),
    (b!"price", .u128),
    (b!"ormlvestingschedule", .struct (some [(b!"start", b!"BlockNumber"), (b!"period", b!"BlockNumber"), (b!"periodCount", b!"u32"), (b!"perPeriod", b!"Compact<Balance>")])),
    (b!"address", .enum [] (some [(b!"Id", b!"AccountId"), (b!"Index", b!"Compact<AccountIndex>"), (b!"Raw", b!"Bytes"), (b!"Address32", b!"H256"), (b!"Address20", b!"H160")])),
    (b!"lookupsource", .enum [] (some [(b!"Id", b!"AccountId"), (b!"Index", b!"Compact<AccountIndex>"), (b!"Raw", b!"Bytes"), (b!"Address32", b!"H256"), (b!"Address20", b!"H160")])),
    (b!"accountinfo", .struct (some [(b!"nonce", b!"Index"), (b!"consumers", b!"RefCount"), (b!"providers", b!"RefCount"), (b!"sufficients", b!"RefCount"), (b!"data", b!"AccountData")])),
    (b!"validatorprefs", .struct (some [(b!"commission", b!"Compact<Perbill>"), (b!"blocked", b!"bool")])) ]

/-- Classes of the names of network/litentry-test.json. -/
def litentry_test : List (Str × Cls) :=
  [ (b!"weight", .u64),
    (b!"compactassignments", .struct (some [(b!"votes1", b!"Vec<(NominatorIndexCompact, ValidatorIndexCompact)>"), (b!"votes2", b!"Vec<(NominatorIndexCompact, CompactScoreCompact, ValidatorIndexCompact)>"), (b!"votes3", b!"Vec<(NominatorIndexCompact, [CompactScoreCompact; 2], ValidatorIndexCompact)>"), (b!"votes4", b!"Vec<(NominatorIndexCompact, [CompactScoreCompact; 3], ValidatorIndexCompact)>"), (b!"votes5", b!"Vec<(NominatorIndexCompact, [CompactScoreCompact; 4], ValidatorIndexCompact)>"), (b!"votes6", b!"Vec<(NominatorIndexCompact, [CompactScoreCompact; 5], ValidatorIndexCompact)>"), (b!"votes7", b!"Vec<(NominatorIndexCompact, [CompactScoreCompact; 6], ValidatorIndexCompact)>"), (b!"votes8", b!"Vec<(NominatorIndexCompact, [CompactScoreCompact; 7], ValidatorIndexCompact)>"), (b!"votes9", b!"Vec<(NominatorIndexCompact, [CompactScoreCompact; 8], ValidatorIndexCompact)>"), (b!"votes10", b!"Vec<(NominatorIndexCompact, [CompactScoreCompact; 9], ValidatorIndexCompact)>"), (b!"votes11", b!"Vec<(NominatorIndexCompact, [CompactScoreCompact; 10], ValidatorIndexCompact)>"), (b!"votes12", b!"Vec<(NominatorIndexCompact, [CompactScoreCompact; 11], ValidatorIndexCompact)>"), (b!"votes13", b!"Vec<(NominatorIndexCompact, [CompactScoreCompact; 12], ValidatorIndexCompact)>"), (b!"votes14", b!"Vec<(NominatorIndexCompact, [CompactScoreCompact; 13], ValidatorIndexCompact)>"), (b!"votes15", b!"Vec<(NominatorIndexCompact, [CompactScoreCompact; 14], ValidatorIndexCompact)>"), (b!"votes16", b!"Vec<(NominatorIndexCompact, [CompactScoreCompact; 15], ValidatorIndexCompact)>")])),
    (b!"refcount", .u32),
    (b!"address", .enum [] (some [(b!"Id", b!"AccountId"), (b!"Index", b!"Compact<AccountIndex>"), (b!"Raw", b!"Bytes"), (b!"Address32", b!"H256"), (b!"Address20", b!"H160")])),
    (b!"lookupsource", .enum [] (some [(b!"Id", b!"AccountId"), (b!"Index", b!"Compact<AccountIndex>"), (b!"Raw", b!"Bytes"), (b!"Address32", b!"H256"), (b!"Address20", b!"H160")])),
    (b!"accountinfo", .struct (some [(b!"nonce", b!"Index"), (b!"consumers", b!"RefCount"), (b!"providers", b!"RefCount"), (b!"sufficients", b!"RefCount"), (b!"data", b!"AccountData")])),
    (b!"cid", .bytes),
    (b!"classidof", .u32),
    (b!"properties", .set [] 8),
    (b!"classtype", .enum [] (some [(b!"Simple", b!"u32"), (b!"Claim", b!"HashByte32"), (b!"Merge", b!"(ID, ID, bool)")])),
    (b!"id", .u32),
    (b!"hashbyte32", .fixedU8 32),
    (b!"tokenid", .u64),
    (b!"tokenidof", .u64) ]

/-- Classes of the names of network/manta-test.json. -/
def manta_test : List (Str × Cls) :=
  [ (b!"weight", .u64),
    (b!"compactassignments", .struct (some [(b!"votes1", b!"Vec<(NominatorIndexCompact, ValidatorIndexCompact)>"), (b!"votes2", b!"Vec<(NominatorIndexCompact, CompactScoreCompact, ValidatorIndexCompact)>"), (b!"votes3", b!"Vec<(NominatorIndexCompact, [CompactScoreCompact; 2], ValidatorIndexCompact)>"), (b!"votes4", b!"Vec<(NominatorIndexCompact, [CompactScoreCompact; 3], ValidatorIndexCompact)>"), (b!"votes5", b!"Vec<(NominatorIndexCompact, [CompactScoreCompact; 4], ValidatorIndexCompact)>"), (b!"votes6", b!"Vec<(NominatorIndexCompact, [CompactScoreCompact; 5], ValidatorIndexCompact)>"), (b!"votes7", b!"Vec<(NominatorIndexCompact, [CompactScoreCompact; 6], ValidatorIndexCompact)>"), (b!"votes8", b!"Vec<(NominatorIndexCompact, [CompactScoreCompact; 7], ValidatorIndexCompact)>"), (b!"votes9", b!"Vec<(NominatorIndexCompact, [CompactScoreCompact; 8], ValidatorIndexCompact)>"), (b!"votes10", b!"Vec<(NominatorIndexCompact, [CompactScoreCompact; 9], ValidatorIndexCompact)>"), (b!"votes11", b!"Vec<(NominatorIndexCompact, [CompactScoreCompact; 10], ValidatorIndexCompact)>"), (b!"votes12", b!"Vec<(NominatorIndexCompact, [CompactScoreCompact; 11], ValidatorIndexCompact)>"), (b!"votes13", b!"Vec<(NominatorIndexCompact, [CompactScoreCompact; 12], ValidatorIndexCompact)>"), (b!"votes14", b!"Vec<(NominatorIndexCompact, [CompactScoreCompact; 13], ValidatorIndexCompact)>"), (b!"votes15", b!"Vec<(NominatorIndexCompact, [CompactScoreCompact; 14], ValidatorIndexCompact)>"), (b!"votes16", b!"Vec<(NominatorIndexCompact, [CompactScoreCompact; 15], ValidatorIndexCompact)>")])),
    (b!"refcount", .u32),
    (b!"address", .enum [] (some [(b!"Id", b!"AccountId"), (b!"Index", b!"Compact<AccountIndex>"), (b!"Raw", b!"Bytes"), (b!"Address32", b!"H256"), (b!"Address20", b!"H160")])),
    (b!"lookupsource", .enum [] (some [(b!"Id", b!"AccountId"), (b!"Index", b!"Compact<AccountIndex>"), (b!"Raw", b!"Bytes"), (b!"Address32", b!"H256"), (b!"Address20", b!"H160")])),
    (b!"currencyid", .enum [b!"MA"] none),
    (b!"currencyidof", .enum [b!"MA"] none),
    (b!"amount", .intFixed 16),
    (b!"amountof", .intFixed 16),
    (b!"accountinfo", .struct (some [(b!"nonce", b!"Index"), (b!"consumers", b!"RefCount"), (b!"providers", b!"RefCount"), (b!"data", b!"AccountData")])),
    (b!"privatetransferpayload", .fixedArray 608 b!"u8"),
    (b!"reclaimpayload", .fixedArray 512 b!"u8") ]

/-- Classes of the names of network/moonbase.json. -/
def moonbase : List (Str × Cls) :=
  [ (b!"weight", .u64),
    (b!"compactassignments", .struct (some [(b!"votes1", b!"Vec<(NominatorIndexCompact, ValidatorIndexCompact)>"), (b!"votes2", b!"Vec<(NominatorIndexCompact, CompactScoreCompact, ValidatorIndexCompact)>"), (b!"votes3", b!"Vec<(NominatorIndexCompact, [CompactScoreCompact; 2], ValidatorIndexCompact)>"), (b!"votes4", b!"Vec<(NominatorIndexCompact, [CompactScoreCompact; 3], ValidatorIndexCompact)>"), (b!"votes5", b!"Vec<(NominatorIndexCompact, [CompactScoreCompact; 4], ValidatorIndexCompact)>"), (b!"votes6", b!"Vec<(NominatorIndexCompact, [CompactScoreCompact; 5], ValidatorIndexCompact)>"), (b!"votes7", b!"Vec<(NominatorIndexCompact, [CompactScoreCompact; 6], ValidatorIndexCompact)>"), (b!"votes8", b!"Vec<(NominatorIndexCompact, [CompactScoreCompact; 7], ValidatorIndexCompact)>"), (b!"votes9", b!"Vec<(NominatorIndexCompact, [CompactScoreCompact; 8], ValidatorIndexCompact)>"), (b!"votes10", b!"Vec<(NominatorIndexCompact, [CompactScoreCompact; 9], ValidatorIndexCompact)>"), (b!"votes11", b!"Vec<(NominatorIndexCompact, [CompactScoreCompact; 10], ValidatorIndexCompact)>"), (b!"votes12", b!"Vec<(NominatorIndexCompact, [CompactScoreCompact; 11], ValidatorIndexCompact)>"), (b!"votes13", b!"Vec<(NominatorIndexCompact, [CompactScoreCompact; 12], ValidatorIndexCompact)>"), (b!"votes14", b!"Vec<(NominatorIndexCompact, [CompactScoreCompact; 13], ValidatorIndexCompact)>"), (b!"votes15", b!"Vec<(NominatorIndexCompact, [CompactScoreCompact; 14], ValidatorIndexCompact)>"), (b!"votes16", b!"Vec<(NominatorIndexCompact, [CompactScoreCompact; 15], ValidatorIndexCompact)>")])),
    (b!"refcount", .u32),
    (b!"box<<t as config>::call>", .call),
    (b!"accountinfo", .struct (some [(b!"nonce", b!"Index"), (b!"consumers", b!"RefCount"), (b!"providers", b!"RefCount"), (b!"sufficients", b!"RefCount"), (b!"data", b!"AccountData")])),
    (b!"dispatchresult", .enum [] (some [(b!"Ok", b!"Null"), (b!"Error", b!"DispatchError")])),
    (b!"transactionrecoveryid", .u64),
    (b!"transactionsignature", .struct (some [(b!"v", b!"TransactionRecoveryId"), (b!"r", b!"H256"), (b!"s", b!"H256")])),
    (b!"roundinfo", .struct (some [(b!"current", b!"RoundIndex"), (b!"first", b!"BlockNumber"), (b!"length", b!"u32")])),
    (b!"candidate", .struct (some [(b!"id", b!"AccountId"), (b!"fee", b!"Perbill"), (b!"bond", b!"Balance"), (b!"nominators", b!"Vec<Bond>"), (b!"total", b!"Balance"), (b!"state", b!"CollatorStatus")])),
    (b!"txpoolresultstatus", .struct (some [(b!"pending", b!"U256"), (b!"queued", b!"U256")])),
    (b!"collatorstatus", .enum [] (some [(b!"Active", b!"NULL"), (b!"Idle", b!"Null"), (b!"Leaving", b!"RoundIndex")])),
    (b!"pooltransaction", .struct (some [(b!"hash", b!"H256"), (b!"nonce", b!"U256"), (b!"block_hash", b!"Option<H256>"), (b!"block_number", b!"Option<U256>"), (b!"from", b!"H160"), (b!"to", b!"Option<H160>"), (b!"value", b!"U256"), (b!"gas_price", b!"U256"), (b!"gas", b!"U256"), (b!"input", b!"Bytes")])),
    (b!"extrinsicsignature", .fixedU8 65),
    (b!"collator", .struct (some [(b!"id", b!"AccountId"), (b!"bond", b!"Balance"), (b!"nominators", b!"Vec<Bond>"), (b!"total", b!"Balance"), (b!"state", b!"CollatorStatus")])),
    (b!"collatorsnapshot", .struct (some [(b!"bond", b!"Balance"), (b!"nominators", b!"Vec<Bond>"), (b!"total", b!"Balance")])),
    (b!"address", .ethereumAddress),
    (b!"systeminherentdata", .struct (some [(b!"validation_data", b!"PersistedValidationData"), (b!"relay_chain_state", b!"StorageProof"), (b!"downward_messages", b!"Vec<InboundDownwardMessage>"), (b!"horizontal_messages", b!"BTreeMap<ParaId, Vec<InboundHrmpMessage>>")])),
    (b!"orderedset", .vec b!"Bond"),
    (b!"accountid", .ethereumAddress),
    (b!"account", .struct (some [(b!"nonce", b!"U256"), (b!"balance", b!"u128")])),
    (b!"lookupsource", .ethereumAddress),
    (b!"inflationinfo", .struct (some [(b!"expect", b!"RangeBalance"), (b!"round", b!"RangePerbill")])),
    (b!"summary", .bytes),
    (b!"range", .struct (some [(b!"min", b!"Balance"), (b!"ideal", b!"Balance"), (b!"max", b!"Balance")])),
    (b!"txpoolresultinspect", .struct (some [(b!"pending", b!"HashMap<H160, HashMap<U256, Summary>>"), (b!"queued", b!"HashMap<H160, HashMap<U256, Summary>>")])),
    (b!"rangebalance", .struct (some [(b!"min", b!"Balance"), (b!"ideal", b!"Balance"), (b!"max", b!"Balance")])),
    (b!"roundindex", .u32),
    (b!"nominator", .struct (some [(b!"nominations", b!"Vec<Bond>"), (b!"total", b!"Balance")])),
    (b!"balance", .u128),
    (b!"bond", .struct (some [(b!"owner", b!"AccountId"), (b!"amount", b!"Balance")])),
    (b!"rangeperbill", .struct (some [(b!"min", b!"Perbill"), (b!"ideal", b!"Perbill"), (b!"max", b!"Perbill")])),
    (b!"txpoolresultcontent", .struct (some [(b!"pending", b!"HashMap<H160, HashMap<U256, PoolTransaction>>"), (b!"queued", b!"HashMap<H160, HashMap<U256, PoolTransaction>>")])),
    (b!"authorid", .fixedU8 32),
    (b!"registrationinfo", .struct (some [(b!"account", b!"AccountId"), (b!"deposit", b!"Balance")])),
    (b!"assetregistrarmetadata", .struct (some [(b!"name", b!"Vec<u8>"), (b!"symbol", b!"Vec<u8>"), (b!"decimals", b!"u8"), (b!"is_frozen", b!"bool")])),
    (b!"collator2", .struct (some [(b!"id", b!"AccountId"), (b!"bond", b!"Balance"), (b!"nominators", b!"Vec<AccountId>"), (b!"top_nominators", b!"Vec<Bond>"), (b!"bottom_nominators", b!"Vec<Bond>"), (b!"total_counted", b!"Balance"), (b!"total_backing", b!"Balance"), (b!"state", b!"CollatorStatus")])),
    (b!"nominatoradded", .enum [] (some [(b!"AddedToTop", b!"Balance"), (b!"AddedToBottom", b!"Null")])),
    (b!"currencyid", .enum [] (some [(b!"SelfReserve", b!"Null"), (b!"OtherReserve", b!"u128")])),
    (b!"assettype", .enum [] (some [(b!"Xcm", b!"MultiLocation")])),
    (b!"relaychainaccountid", .fixedU8 32),
    (b!"assetinstance", .enum [] (some [(b!"Undefined", b!"Null"), (b!"Index8", b!"u8"), (b!"Index16", b!"Compact<u16>"), (b!"Index32", b!"Compact<u32>"), (b!"Index64", b!"Compact<u64>"), (b!"Index128", b!"Compact<u128>"), (b!"Array4", b!"[u8; 4]"), (b!"Array8", b!"[u8; 8]"), (b!"Array16", b!"[u8; 16]"), (b!"Array32", b!"[u8; 32]"), (b!"Blob", b!"Vec<u8>")])),
    (b!"multiasset", .enum [] (some [(b!"None", b!"Null"), (b!"All", b!"Null"), (b!"AllFungible", b!"Null"), (b!"AllNonFungible", b!"Null"), (b!"AllAbstractFungible", b!"Vec<u8>"), (b!"AllAbstractNonFungible", b!"Vec<u8>"), (b!"AllConcreteFungible", b!"MultiLocationV0"), (b!"AllConcreteNonFungible", b!"MultiLocationV0"), (b!"AbstractFungible", b!"[[\"id\", \"Vec<u8>\"], [\"instance\", \"Compact<u128>\"]]"), (b!"AbstractNonFungible", b!"[[\"class\", \"Vec<u8>\"], [\"instance\", \"AssetInstanceV0\"]]"), (b!"ConcreteFungible", b!"[[\"id\", \"MultiLocationV0\"], [\"amount\", \"Compact<u128>\"]]"), (b!"ConcreteNonFungible", b!"[[\"class\", \"MultiLocationV0\"], [\"instance\", \"AssetInstanceV0\"]]")])),
    (b!"xcm", .enum [] (some [(b!"WithdrawAsset", b!"[[\"assets\", \"Vec<MultiAssetV0>\"], [\"effects\", \"Vec<XcmOrderV0>\"]]"), (b!"ReserveAssetDeposit", b!"[[\"assets\", \"Vec<MultiAssetV0>\"], [\"effects\", \"Vec<XcmOrderV0>\"]]"), (b!"TeleportAsset", b!"[[\"assets\", \"Vec<MultiAssetV0>\"], [\"effects\", \"Vec<XcmOrderV0>\"]]"), (b!"QueryResponse", b!"[[\"queryId\", \"Compact<u64>\"], [\"response\", \"ResponseV0\"]]"), (b!"TransferAsset", b!"[[\"assets\", \"Vec<MultiAssetV0>\"], [\"dest\", \"MultiLocationV0\"]]"), (b!"TransferReserveAsset", b!"[[\"assets\", \"Vec<MultiAssetV0>\"], [\"dest\", \"MultiLocationV0\"], [\"effects\", \"Vec<XcmOrderV0>\"]]"), (b!"Transact", b!"[[\"originType\", \"XcmOriginKind\"], [\"requireWeightAtMost\", \"u64\"], [\"call\", \"DoubleEncodedCall\"]]"), (b!"HrmpNewChannelOpenRequest", b!"[[\"sender\", \"Compact<u32>\"], [\"maxMessageSize\", \"Compact<u32>\"], [\"maxCapacity\", \"Compact<u32>\"]]"), (b!"HrmpChannelAccepted", b!"[[\"recipient\", \"Compact<u32>\"]]"), (b!"HrmpChannelClosing", b!"[[\"initiator\", \"Compact<u32>\"], [\"sender\", \"Compact<u32>\"], [\"recipient\", \"Compact<u32>\"]]"), (b!"RelayedFrom", b!"[[\"who\", \"MultiLocationV0\"], [\"message\", \"XcmV0\"]]")])),
    (b!"xcmorder", .enum [] (some [(b!"Null", b!"Null"), (b!"DepositAsset", b!"[[\"assets\", \"Vec<MultiAssetV0>\"], [\"dest\", \"MultiLocationV0\"]]"), (b!"DepositReserveAsset", b!"[[\"assets\", \"Vec<MultiAssetV0>\"], [\"dest\", \"MultiLocationV0\"], [\"effects\", \"Vec<XcmOrderV0>\"]]"), (b!"ExchangeAsset", b!"[[\"give\", \"Vec<MultiAssetV0>\"], [\"receive\", \"Vec<MultiAssetV0>\"]]"), (b!"InitiateReserveWithdraw", b!"[[\"assets\", \"Vec<MultiAssetV0>\"], [\"reserve\", \"MultiLocationV0\"], [\"effects\", \"Vec<XcmOrderV0>\"]]"), (b!"InitiateTeleport", b!"[[\"assets\", \"Vec<MultiAssetV0>\"], [\"dest\", \"MultiLocationV0\"], [\"effects\", \"Vec<XcmOrderV0>\"]]"), (b!"QueryHolding", b!"[[\"queryId\", \"Compact<u64>\"], [\"dest\", \"MultiLocationV0\"], [\"assets\", \"Vec<MultiAssetV0>\"]]"), (b!"BuyExecution", b!"[[\"fees\", \"MultiAssetV0\"], [\"weight\", \"u64\"], [\"debt\", \"u64\"], [\"haltOnError\", \"bool\"], [\"xcm\", \"Vec<XcmV0>\"]]")])),
    (b!"multilocation", .enum [] (some [(b!"Here", b!"Null"), (b!"X1", b!"JunctionV0"), (b!"X2", b!"(JunctionV0, JunctionV0)"), (b!"X3", b!"(JunctionV0, JunctionV0, JunctionV0)"), (b!"X4", b!"(JunctionV0, JunctionV0, JunctionV0, JunctionV0)"), (b!"X5", b!"(JunctionV0, JunctionV0, JunctionV0, JunctionV0, JunctionV0)"), (b!"X6", b!"(JunctionV0, JunctionV0, JunctionV0, JunctionV0, JunctionV0, JunctionV0)"), (b!"X7", b!"(JunctionV0, JunctionV0, JunctionV0, JunctionV0, JunctionV0, JunctionV0, JunctionV0)"), (b!"X8", b!"(JunctionV0, JunctionV0, JunctionV0, JunctionV0, JunctionV0, JunctionV0, JunctionV0, JunctionV0)")])),
    (b!"assetid", .u128),
    (b!"tassetbalance", .u128),
    (b!"assetinstance#800-?", .enum [] (some [(b!"Undefined", b!"Null"), (b!"Index", b!"Compact<u128>"), (b!"Array4", b!"[u8; 4]"), (b!"Array8", b!"[u8; 8]"), (b!"Array16", b!"[u8; 16]"), (b!"Array32", b!"[u8; 32]"), (b!"Blob", b!"Bytes")])),
    (b!"multiasset#800-?", .struct (some [(b!"id", b!"XcmAssetId"), (b!"fun", b!"FungibilityV1")])),
    (b!"xcm#800-?", .enum [] (some [(b!"WithdrawAsset", b!"[[\"assets\", \"MultiAssetsV1\"], [\"effects\", \"Vec<XcmOrderV1>\"]]"), (b!"ReserveAssetDeposit", b!"[[\"assets\", \"MultiAssetsV1\"], [\"effects\", \"Vec<XcmOrderV1>\"]]"), (b!"ReceiveTeleportedAsset", b!"[[\"assets\", \"MultiAssetsV1\"], [\"effects\", \"Vec<XcmOrderV1>\"]]"), (b!"QueryResponse", b!"[[\"queryId\", \"Compact<u64>\"], [\"response\", \"ResponseV1\"]]"), (b!"TransferAsset", b!"[[\"assets\", \"MultiAssetsV1\"], [\"dest\", \"MultiLocationV1\"]]"), (b!"TransferReserveAsset", b!"[[\"assets\", \"MultiAssetsV1\"], [\"dest\", \"MultiLocationV1\"], [\"effects\", \"Vec<XcmOrderV1>\"]]"), (b!"Transact", b!"[[\"originType\", \"XcmOriginKind\"], [\"requireWeightAtMost\", \"u64\"], [\"call\", \"DoubleEncodedCall\"]]"), (b!"HrmpNewChannelOpenRequest", b!"[[\"sender\", \"Compact<u32>\"], [\"maxMessageSize\", \"Compact<u32>\"], [\"maxCapacity\", \"Compact<u32>\"]]"), (b!"HrmpChannelAccepted", b!"[[\"recipient\", \"Compact<u32>\"]]"), (b!"HrmpChannelClosing", b!"[[\"initiator\", \"Compact<u32>\"], [\"sender\", \"Compact<u32>\"], [\"recipient\", \"Compact<u32>\"]]"), (b!"RelayedFrom", b!"[[\"who\", \"MultiLocationV1\"], [\"message\", \"XcmV1\"]]"), (b!"SubscribeVersion", b!"[[\"query_id\", \"U64\"], [\"max_response_weight\", \"U64\"]]"), (b!"UnsubscribeVersion", b!"NULL")])),
    (b!"xcmorder#800-?", .enum [] (some [(b!"Noop", b!"Null"), (b!"DepositAsset", b!"[[\"assets\", \"MultiAssetFilterV1\"], [\"max_assets\", \"u32\"], [\"beneficiary\", \"MultiLocationV1\"]]"), (b!"DepositReserveAsset", b!"[[\"assets\", \"MultiAssetFilterV1\"], [\"max_assets\", \"u32\"], [\"dest\", \"MultiLocationV1\"], [\"effects\", \"Vec<XcmOrderV1>\"]]"), (b!"ExchangeAsset", b!"[[\"give\", \"MultiAssetFilterV1\"], [\"receive\", \"MultiAssetsV1\"]]"), (b!"InitiateReserveWithdraw", b!"[[\"assets\", \"MultiAssetFilterV1\"], [\"reserve\", \"MultiLocationV1\"], [\"effects\", \"Vec<XcmOrderV1>\"]]"), (b!"InitiateTeleport", b!"[[\"assets\", \"MultiAssetFilterV1\"], [\"dest\", \"MultiLocationV1\"], [\"effects\", \"Vec<XcmOrderV1>\"]]"), (b!"QueryHolding", b!"[[\"queryId\", \"Compact<u64>\"], [\"dest\", \"MultiLocationV1\"], [\"assets\", \"MultiAssetFilterV1\"]]"), (b!"BuyExecution", b!"[[\"fees\", \"MultiAssetV1\"], [\"weight\", \"u64\"], [\"debt\", \"u64\"], [\"halt_on_error\", \"bool\"], [\"instructions\", \"Vec<XcmV1>\"]]")])),
    (b!"multilocation#800-?", .struct (some [(b!"parents", b!"u8"), (b!"interior", b!"JunctionsV1")])) ]

/-- Classes of the names of network/moonbeam.json. -/
def moonbeam : List (Str × Cls) :=
  [ (b!"weight", .u64),
    (b!"compactassignments", .struct (some [(b!"votes1", b!"Vec<(NominatorIndexCompact, ValidatorIndexCompact)>"), (b!"votes2", b!"Vec<(NominatorIndexCompact, CompactScoreCompact, ValidatorIndexCompact)>"), (b!"votes3", b!"Vec<(NominatorIndexCompact, [CompactScoreCompact; 2], ValidatorIndexCompact)>"), (b!"votes4", b!"Vec<(NominatorIndexCompact, [CompactScoreCompact; 3], ValidatorIndexCompact)>"), (b!"votes5", b!"Vec<(NominatorIndexCompact, [CompactScoreCompact; 4], ValidatorIndexCompact)>"), (b!"votes6", b!"Vec<(NominatorIndexCompact, [CompactScoreCompact; 5], ValidatorIndexCompact)>"), (b!"votes7", b!"Vec<(NominatorIndexCompact, [CompactScoreCompact; 6], ValidatorIndexCompact)>"), (b!"votes8", b!"Vec<(NominatorIndexCompact, [CompactScoreCompact; 7], ValidatorIndexCompact)>"), (b!"votes9", b!"Vec<(NominatorIndexCompact, [CompactScoreCompact; 8], ValidatorIndexCompact)>"), (b!"votes10", b!"Vec<(NominatorIndexCompact, [CompactScoreCompact; 9], ValidatorIndexCompact)>"), (b!"votes11", b!"Vec<(NominatorIndexCompact, [CompactScoreCompact; 10], ValidatorIndexCompact)>"), (b!"votes12", b!"Vec<(NominatorIndexCompact, [CompactScoreCompact; 11], ValidatorIndexCompact)>"), (b!"votes13", b!"Vec<(NominatorIndexCompact, [CompactScoreCompact; 12], ValidatorIndexCompact)>"), (b!"votes14", b!"Vec<(NominatorIndexCompact, [CompactScoreCompact; 13], ValidatorIndexCompact)>"), (b!"votes15", b!"Vec<(NominatorIndexCompact, [CompactScoreCompact; 14], ValidatorIndexCompact)>"), (b!"votes16", b!"Vec<(NominatorIndexCompact, [CompactScoreCompact; 15], ValidatorIndexCompact)>")])),
    (b!"refcount", .u32),
    (b!"box<<t as config>::call>", .call),
    (b!"dispatchresult", .enum [] (some [(b!"Ok", b!"Null"), (b!"Error", b!"DispatchError")])),
    (b!"transactionrecoveryid", .u64),
    (b!"transactionsignature", .struct (some [(b!"v", b!"TransactionRecoveryId"), (b!"r", b!"H256"), (b!"s", b!"H256")])),
    (b!"accountid", .ethereumAddress),
    (b!"address", .ethereumAddress),
    (b!"balance", .u128),
    (b!"lookupsource", .ethereumAddress),
    (b!"account", .struct (some [(b!"nonce", b!"U256"), (b!"balance", b!"u128")])),
    (b!"roundindex", .u32),
    (b!"candidate", .struct (some [(b!"id", b!"AccountId"), (b!"fee", b!"Perbill"), (b!"bond", b!"Balance"), (b!"nominators", b!"Vec<Bond>"), (b!"total", b!"Balance"), (b!"state", b!"ValidatorStatus")])),
    (b!"bond", .struct (some [(b!"owner", b!"AccountId"), (b!"amount", b!"Balance")])),
    (b!"validatorstatus", .enum [] (some [(b!"Active", b!"NULL"), (b!"Idle", b!"NULL"), (b!"Leaving", b!"RoundIndex")])) ]

/-- Classes of the names of network/moonriver.json. -/
def moonriver : List (Str × Cls) :=
  [ (b!"weight", .u64),
    (b!"compactassignments", .struct (some [(b!"votes1", b!"Vec<(NominatorIndexCompact, ValidatorIndexCompact)>"), (b!"votes2", b!"Vec<(NominatorIndexCompact, CompactScoreCompact, ValidatorIndexCompact)>"), (b!"votes3", b!"Vec<(NominatorIndexCompact, [CompactScoreCompact; 2], ValidatorIndexCompact)>"), (b!"votes4", b!"Vec<(NominatorIndexCompact, [CompactScoreCompact; 3], ValidatorIndexCompact)>"), (b!"votes5", b!"Vec<(NominatorIndexCompact, [CompactScoreCompact; 4], ValidatorIndexCompact)>"), (b!"votes6", b!"Vec<(NominatorIndexCompact, [CompactScoreCompact; 5], ValidatorIndexCompact)>"), (b!"votes7", b!"Vec<(NominatorIndexCompact, [CompactScoreCompact; 6], ValidatorIndexCompact)>"), (b!"votes8", b!"Vec<(NominatorIndexCompact, [CompactScoreCompact; 7], ValidatorIndexCompact)>"), (b!"votes9", b!"Vec<(NominatorIndexCompact, [CompactScoreCompact; 8], ValidatorIndexCompact)>"), (b!"votes10", b!"Vec<(NominatorIndexCompact, [CompactScoreCompact; 9], ValidatorIndexCompact)>"), (b!"votes11", b!"Vec<(NominatorIndexCompact, [CompactScoreCompact; 10], ValidatorIndexCompact)>"), (b!"votes12", b!"Vec<(NominatorIndexCompact, [CompactScoreCompact; 11], ValidatorIndexCompact)>"), (b!"votes13", b!"Vec<(NominatorIndexCompact, [CompactScoreCompact; 12], ValidatorIndexCompact)>"), (b!"votes14", b!"Vec<(NominatorIndexCompact, [CompactScoreCompact; 13], ValidatorIndexCompact)>"), (b!"votes15", b!"Vec<(NominatorIndexCompact, [CompactScoreCompact; 14], ValidatorIndexCompact)>"), (b!"votes16", b!"Vec<(NominatorIndexCompact, [CompactScoreCompact; 15], ValidatorIndexCompact)>")])),
    (b!"refcount", .u32),
    (b!"roundinfo", .struct (some [(b!"current", b!"RoundIndex"), (b!"first", b!"BlockNumber"), (b!"length", b!"u32")])),
    (b!"candidate", .struct (some [(b!"id", b!"AccountId"), (b!"fee", b!"Perbill"), (b!"bond", b!"Balance"), (b!"nominators", b!"Vec<Bond>"), (b!"total", b!"Balance"), (b!"state", b!"CollatorStatus")])),
    (b!"rewardinfo", .struct (some [(b!"total_reward", b!"Balance"), (b!"claimed_reward", b!"Balance")])),
    (b!"txpoolresultstatus", .struct (some [(b!"pending", b!"U256"), (b!"queued", b!"U256")])),
    (b!"collatorstatus", .enum [] (some [(b!"Active", b!"NULL"), (b!"Idle", b!"Null"), (b!"Leaving", b!"RoundIndex")])),
    (b!"pooltransaction", .struct (some [(b!"hash", b!"H256"), (b!"nonce", b!"U256"), (b!"block_hash", b!"Option<H256>"), (b!"block_number", b!"Option<U256>"), (b!"from", b!"H160"), (b!"to", b!"Option<H160>"), (b!"value", b!"U256"), (b!"gas_price", b!"U256"), (b!"gas", b!"U256"), (b!"input", b!"Bytes")])),
    (b!"accountinfo", .struct (some [(b!"nonce", b!"Index"), (b!"consumers", b!"RefCount"), (b!"providers", b!"RefCount"), (b!"sufficients", b!"RefCount"), (b!"data", b!"AccountData")])),
    (b!"collator2", .struct (some [(b!"id", b!"AccountId"), (b!"bond", b!"Balance"), (b!"nominators", b!"Vec<AccountId>"), (b!"top_nominators", b!"Vec<Bond>"), (b!"bottom_nominators", b!"Vec<Bond>"), (b!"total_counted", b!"Balance"), (b!"total_backing", b!"Balance"), (b!"state", b!"CollatorStatus")])),
    (b!"extrinsicsignature", .fixedU8 65),
    (b!"nominatoradded", .enum [] (some [(b!"AddedToTop", b!"Balance"), (b!"AddedToBottom", b!"Null")])),
    (b!"registrationinfo", .struct (some [(b!"account", b!"AccountId"), (b!"deposit", b!"Balance")])),
    (b!"collator", .struct (some [(b!"id", b!"AccountId"), (b!"bond", b!"Balance"), (b!"nominators", b!"Vec<Bond>"), (b!"total", b!"Balance"), (b!"state", b!"CollatorStatus")])),
    (b!"collatorsnapshot", .struct (some [(b!"bond", b!"Balance"), (b!"nominators", b!"Vec<Bond>"), (b!"total", b!"Balance")])),
    (b!"address", .ethereumAddress),
    (b!"systeminherentdata", .struct (some [(b!"validation_data", b!"PersistedValidationData"), (b!"relay_chain_state", b!"StorageProof"), (b!"downward_messages", b!"Vec<InboundDownwardMessage>"), (b!"horizontal_messages", b!"BTreeMap<ParaId, Vec<InboundHrmpMessage>>")])),
    (b!"orderedset", .vec b!"Bond"),
    (b!"accountid", .ethereumAddress),
    (b!"account", .struct (some [(b!"nonce", b!"U256"), (b!"balance", b!"u128")])),
    (b!"relaychainaccountid", .hash 32),
    (b!"lookupsource", .ethereumAddress),
    (b!"inflationinfo", .struct (some [(b!"expect", b!"RangeBalance"), (b!"annual", b!"RangePerbill"), (b!"round", b!"RangePerbill")])),
    (b!"accountid32", .hash 32),
    (b!"summary", .bytes),
    (b!"range", .struct (some [(b!"min", b!"Balance"), (b!"ideal", b!"Balance"), (b!"max", b!"Balance")])),
    (b!"txpoolresultinspect", .struct (some [(b!"pending", b!"HashMap<H160, HashMap<U256, Summary>>"), (b!"queued", b!"HashMap<H160, HashMap<U256, Summary>>")])),
    (b!"rangebalance", .struct (some [(b!"min", b!"Balance"), (b!"ideal", b!"Balance"), (b!"max", b!"Balance")])),
    (b!"roundindex", .u32),
    (b!"parachainbondconfig", .struct (some [(b!"account", b!"AccountId"), (b!"percent", b!"Percent")])),
    (b!"nominator", .struct (some [(b!"nominations", b!"Vec<Bond>"), (b!"total", b!"Balance")])),
    (b!"balance", .u128),
    (b!"bond", .struct (some [(b!"owner", b!"AccountId"), (b!"amount", b!"Balance")])),
    (b!"rangeperbill", .struct (some [(b!"min", b!"Perbill"), (b!"ideal", b!"Perbill"), (b!"max", b!"Perbill")])),
    (b!"authorid", .hash 32),
    (b!"txpoolresultcontent", .struct (some [(b!"pending", b!"HashMap<H160, HashMap<U256, PoolTransaction>>"), (b!"queued", b!"HashMap<H160, HashMap<U256, PoolTransaction>>")])) ]

/-- Classes of the names of network/pangolin.json. -/
def pangolin : List (Str × Cls) :=
  [ (b!"u256", .fixedU8 32),
    (b!"h128", .fixedU8 16),
    (b!"tsinms", .u64),
    (b!"ringbalance", .balance),
    (b!"ktonbalance", .balance),
    (b!"momentt", .moment),
    (b!"power", .u32),
    (b!"depositid", .fixedU8 32),
    (b!"ethblocknumber", .u64),
    (b!"ethereumblocknumber", .u64),
    (b!"ethaddress", .hash 20),
    (b!"ethtransactionindex", .struct (some [(b!"col1", b!"H256"), (b!"col2", b!"u64")])),
    (b!"ethereumtransactionindex", .struct (some [(b!"col1", b!"H256"), (b!"col2", b!"u64")])),
    (b!"balanceinfo", .null),
    (b!"addresst", .hash 20),
    (b!"tronaddress", .hash 20),
    (b!"bloom", .fixedU8 256),
    (b!"h", .hash 32),
    (b!"ethereumaddress", .hash 20),
    (b!"mappedring", .u128),
    (b!"keys", .struct (some [(b!"babe", b!"AccountId"), (b!"grandpa", b!"AccountId"), (b!"im_online", b!"AccountId"), (b!"authority_discovery", b!"AccountId")])),
    (b!"weight", .u64),
    (b!"moduleid", .fixedU8 8),
    (b!"runtimedbweight", .struct (some [(b!"read", b!"u128"), (b!"read", b!"write")])),
    (b!"spanrecord", .struct (some [(b!"slashed", b!"RKT"), (b!"paid_out", b!"RKT")])),
    (b!"stakingruntimedispatchinfo", .struct (some [(b!"power", b!"Power")])),
    (b!"balancesruntimedispatchinfo", .struct (some [(b!"usable_balance", b!"Balance")])),
    (b!"stakingbalance", .enum [] (some [(b!"RingBalance", b!"Balance"), (b!"KtonBalance", b!"Balance")])),
    (b!"stakingledger", .struct (some [(b!"stash", b!"AccountId"), (b!"active_ring", b!"Compact<Balance>"), (b!"active_deposit_ring", b!"Compact<Balance>"), (b!"active_kton", b!"Compact<Balance>"), (b!"deposit_items", b!"Vec<TimeDepositItem>"), (b!"ring_staking_lock", b!"StakingLock"), (b!"kton_staking_lock", b!"StakingLock"), (b!"last_reward", b!"Option<EraIndex>")])),
    (b!"timedeposititem", .struct (some [(b!"value", b!"Compact<Balance>"), (b!"start_time", b!"Compact<TsInMs>"), (b!"expire_time", b!"Compact<TsInMs>")])),
    (b!"staked", .struct (some [(b!"promise_month", b!"u8")])),
    (b!"exposure", .struct (some [(b!"own_ring_balance", b!"Compact<Balance>"), (b!"own_kton_balance", b!"Compact<Balance>"), (b!"own_power", b!"Power"), (b!"total_power", b!"Power"), (b!"others", b!"Vec<IndividualExposure>")])),
    (b!"individualexposure", .struct (some [(b!"who", b!"AccountId"), (b!"ring_balance", b!"Compact<Balance>"), (b!"kton_balance", b!"Compact<Balance>"), (b!"power", b!"Power")])),
    (b!"validatorreward", .struct (some [(b!"who", b!"AccountId"), (b!"amount", b!"Compact<Balance>"), (b!"nominators_reward", b!"Vec<NominatorReward>")])),
    (b!"nominatorreward", .struct (some [(b!"who", b!"AccountId"), (b!"amount", b!"Compact<Balance>")])),
    (b!"rk", .struct (some [(b!"r", b!"Balance"), (b!"k", b!"Balance")])),
    (b!"balancelock<balance, blocknumber>", .struct (some [(b!"id", b!"LockIdentifier"), (b!"lock_for", b!"LockFor"), (b!"lock_reasons", b!"LockReasons")])),
    (b!"lockfor", .enum [] (some [(b!"Common", b!"Common"), (b!"Staking", b!"StakingLock")])),
    (b!"common", .struct (some [(b!"amount", b!"Balance")])),
    (b!"stakinglock", .struct (some [(b!"staking_amount", b!"Balance"), (b!"unbondings", b!"Vec<Unbonding>")])),
    (b!"lockreasons", .enum [] (some [(b!"Fee", b!"null"), (b!"Misc", b!"null"), (b!"All", b!"null")])),
    (b!"accountdata", .struct (some [(b!"free", b!"Balance"), (b!"reserved", b!"Balance"), (b!"free_kton", b!"Balance"), (b!"reserved_kton", b!"Balance")])),
    (b!"ethheaderbrief", .struct (some [(b!"total_difficulty", b!"U256"), (b!"parent_hash", b!"H256"), (b!"number", b!"EthBlockNumber"), (b!"relayer", b!"AccountId")])),
    (b!"ethereumheader", .struct (some [(b!"parent_hash", b!"H256"), (b!"timestamp", b!"u64"), (b!"number", b!"EthereumBlockNumber"), (b!"author", b!"EthereumAddress"), (b!"transactions_root", b!"H256"), (b!"uncles_hash", b!"H256"), (b!"extra_data", b!"Bytes"), (b!"state_root", b!"H256"), (b!"receipts_root", b!"H256"), (b!"log_bloom", b!"Bloom"), (b!"gas_used", b!"U256"), (b!"gas_limit", b!"U256"), (b!"difficulty", b!"U256"), (b!"seal", b!"Vec<Bytes>"), (b!"base_fee_per_gas", b!"Option<U256>"), (b!"hash", b!"Option<H256>")])),
    (b!"ethheaderbrief::<accountid>", .struct (some [(b!"total_difficulty", b!"U256"), (b!"parent_hash", b!"H256"), (b!"number", b!"EthBlockNumber"), (b!"relayer", b!"AccountId")])),
    (b!"headerinfo", .struct (some [(b!"total_difficulty", b!"U256"), (b!"parent_hash", b!"H256"), (b!"number", b!"EthBlockNumber")])),
    (b!"ethheader", .struct (some [(b!"parent_hash", b!"H256"), (b!"timestamp", b!"u64"), (b!"number", b!"EthBlockNumber"), (b!"auth", b!"EthAddress"), (b!"transaction_root", b!"H256"), (b!"uncles_hash", b!"H256"), (b!"extra_data", b!"Bytes"), (b!"state_root", b!"H256"), (b!"receipts_root", b!"H256"), (b!"log_bloom", b!"Bloom"), (b!"gas_used", b!"U256"), (b!"gas_limit", b!"U256"), (b!"difficulty", b!"U256"), (b!"seal", b!"Vec<Bytes>"), (b!"hash", b!"Option<H256>")])),
    (b!"receipt", .struct (some [(b!"gas_used", b!"U256"), (b!"log_bloom", b!"Bloom"), (b!"logs", b!"Vec<LogEntry>"), (b!"outcome", b!"TransactionOutcome")])),
    (b!"ethereumreceipt", .struct (some [(b!"gas_used", b!"U256"), (b!"log_bloom", b!"Bloom"), (b!"logs", b!"Vec<LogEntry>"), (b!"outcome", b!"TransactionOutcome")])),
    (b!"ethreceiptproof", .struct (some [(b!"index", b!"u64"), (b!"proof", b!"Bytes"), (b!"header_hash", b!"H256")])),
    (b!"ethnetworktype", .enum [] (some [(b!"Mainnet", b!"null"), (b!"Ropsten", b!"null")])),
    (b!"redeemfor", .enum [] (some [(b!"Token", b!"NULL"), (b!"Deposit", b!"NULL")])),
    (b!"ethereumreceiptproofthing", .struct (some [(b!"col1", b!"EthereumHeader"), (b!"col2", b!"EthereumReceiptProof"), (b!"col3", b!"MMRProof")])),
    (b!"othersignature", .enum [] (some [(b!"Eth", b!"EcdsaSignature"), (b!"Tron", b!"EcdsaSignature")])),
    (b!"otheraddress", .enum [] (some [(b!"Eth", b!"EthereumAddress"), (b!"Tron", b!"EthereumAddress")])),
    (b!"merklemountainrangeroot", .struct (some [(b!"data", b!"Hash")])),
    (b!"merklemountainrangerootlog", .struct (some [(b!"prefix", b!"[u8; 4]"), (b!"mmr_root", b!"Hash")])),
    (b!"doublenodewithmerkleproof", .struct (some [(b!"dag_nodes", b!"[H512; 2]"), (b!"proof", b!"Vec<H128>")])),
    (b!"stakingbalancet", .enum [] (some [(b!"RingBalance", b!"Balance"), (b!"KtonBalance", b!"Balance")])),
    (b!"stakingledgert", .struct (some [(b!"stash", b!"AccountId"), (b!"active_ring", b!"Compact<Balance>"), (b!"active_deposit_ring", b!"Compact<Balance>"), (b!"active_kton", b!"Compact<Balance>"), (b!"deposit_items", b!"Vec<TimeDepositItem>"), (b!"ring_staking_lock", b!"StakingLock"), (b!"kton_staking_lock", b!"StakingLock"), (b!"claimed_rewards", b!"Vec<EraIndex>")])),
    (b!"exposuret", .struct (some [(b!"own_ring_balance", b!"Compact<Balance>"), (b!"own_kton_balance", b!"Compact<Balance>"), (b!"own_power", b!"Power"), (b!"total_power", b!"Power"), (b!"others", b!"Vec<IndividualExposure>")])),
    (b!"fullidentification", .struct (some [(b!"own_ring_balance", b!"Compact<Balance>"), (b!"own_kton_balance", b!"Compact<Balance>"), (b!"own_power", b!"Power"), (b!"total_power", b!"Power"), (b!"others", b!"Vec<IndividualExposure>")])),
    (b!"rkt", .struct (some [(b!"r", b!"Balance"), (b!"k", b!"Balance")])),
    (b!"dispatchresult", .enum [] (some [(b!"Ok", b!"Null"), (b!"Error", b!"DispatchError")])),
    (b!"opentip<accountid, ringbalance, blocknumber, hash>", .struct (some [(b!"reason", b!"Hash"), (b!"who", b!"AccountId"), (b!"finder", b!"Option<OpenTipFinder>"), (b!"closes", b!"Option<BlockNumber>"), (b!"tips", b!"Vec<OpenTipTip>")])),
    (b!"slashing::spanrecord<ringbalance, ktonbalance>", .struct (some [(b!"slashed", b!"RKT"), (b!"paid_out", b!"RKT")])),
    (b!"slashing::rkt", .struct (some [(b!"r", b!"Balance"), (b!"k", b!"Balance")])),
    (b!"mmrhash", .bytes),
    (b!"rawheaderthing", .bytes),
    (b!"ethereumnetworktype", .enum [] (some [(b!"Mainnet", b!"null"), (b!"Ropsten", b!"null")])),
    (b!"ethashproof", .struct (some [(b!"dag_nodes", b!"[H512; 2]"), (b!"proof", b!"Vec<H128>")])),
    (b!"mmrproof", .struct (some [(b!"member_leaf_index", b!"u64"), (b!"last_leaf_index", b!"u64"), (b!"proof", b!"Vec<H256>")])),
    (b!"proposal", .struct (some [(b!"proposer", b!"AccountId"), (b!"beneficiary", b!"AccountId"), (b!"ring_value", b!"Balance"), (b!"kton_value", b!"Balance"), (b!"ring_bond", b!"Balance"), (b!"kton_bond", b!"Balance")])),
    (b!"unappliedslash", .struct (some [(b!"validator", b!"AccountId"), (b!"own", b!"RKT"), (b!"others", b!"Vec<(AccountId, RKT)>"), (b!"reporters", b!"Vec<AccountId>"), (b!"payout", b!"RKT")])),
    (b!"electionresultt", .struct (some [(b!"elected_stashes", b!"Vec<AccountId>"), (b!"exposures", b!"Vec<(AccountId, ExposureT)>"), (b!"compute", b!"ElectionCompute")])),
    (b!"ethereumreceiptproof", .struct (some [(b!"index", b!"u64"), (b!"proof", b!"Bytes"), (b!"header_hash", b!"H256")])),
    (b!"unbonding", .struct (some [(b!"amount", b!"Balance"), (b!"moment", b!"BlockNumber")])),
    (b!"relayvotingstate", .struct (some [(b!"ayes", b!"Vec<AccountId>"), (b!"nays", b!"Vec<AccountId>")])),
    (b!"tcheadermmr", .bytes),
    (b!"compactassignments", .struct (some [(b!"votes1", b!"Vec<(NominatorIndexCompact, ValidatorIndexCompact)>"), (b!"votes2", b!"Vec<(NominatorIndexCompact, CompactScoreCompact, ValidatorIndexCompact)>"), (b!"votes3", b!"Vec<(NominatorIndexCompact, [CompactScoreCompact; 2], ValidatorIndexCompact)>"), (b!"votes4", b!"Vec<(NominatorIndexCompact, [CompactScoreCompact; 3], ValidatorIndexCompact)>"), (b!"votes5", b!"Vec<(NominatorIndexCompact, [CompactScoreCompact; 4], ValidatorIndexCompact)>"), (b!"votes6", b!"Vec<(NominatorIndexCompact, [CompactScoreCompact; 5], ValidatorIndexCompact)>"), (b!"votes7", b!"Vec<(NominatorIndexCompact, [CompactScoreCompact; 6], ValidatorIndexCompact)>"), (b!"votes8", b!"Vec<(NominatorIndexCompact, [CompactScoreCompact; 7], ValidatorIndexCompact)>"), (b!"votes9", b!"Vec<(NominatorIndexCompact, [CompactScoreCompact; 8], ValidatorIndexCompact)>"), (b!"votes10", b!"Vec<(NominatorIndexCompact, [CompactScoreCompact; 9], ValidatorIndexCompact)>"), (b!"votes11", b!"Vec<(NominatorIndexCompact, [CompactScoreCompact; 10], ValidatorIndexCompact)>"), (b!"votes12", b!"Vec<(NominatorIndexCompact, [CompactScoreCompact; 11], ValidatorIndexCompact)>"), (b!"votes13", b!"Vec<(NominatorIndexCompact, [CompactScoreCompact; 12], ValidatorIndexCompact)>"), (b!"votes14", b!"Vec<(NominatorIndexCompact, [CompactScoreCompact; 13], ValidatorIndexCompact)>"), (b!"votes15", b!"Vec<(NominatorIndexCompact, [CompactScoreCompact; 14], ValidatorIndexCompact)>"), (b!"votes16", b!"Vec<(NominatorIndexCompact, [CompactScoreCompact; 15], ValidatorIndexCompact)>")])),
    (b!"proxytype", .enum [b!"Any", b!"NonTransfer", b!"Governance", b!"Staking", b!"IdentityJudgement", b!"EthereumBridge"] none),
    (b!"treasuryproposal", .struct (some [(b!"proposer", b!"AccountId"), (b!"beneficiary", b!"AccountId"), (b!"ring_value", b!"Balance"), (b!"kton_value", b!"Balance"), (b!"ring_bond", b!"Balance"), (b!"kton_bond", b!"Balance")])),
    (b!"refcount", .u32),
    (b!"ethereumrelayheaderparcel", .struct (some [(b!"header", b!"EthereumHeader"), (b!"mmr_root", b!"H256")])),
    (b!"ethereumrelayproofs", .struct (some [(b!"ethash_proof", b!"Vec<EthashProof>"), (b!"mmr_proof", b!"Vec<H256>")])),
    (b!"relayheaderid", .u64),
    (b!"relayheaderparcel", .struct (some [(b!"header", b!"EthereumHeader"), (b!"mmr_root", b!"H256")])),
    (b!"relayproofs", .struct (some [(b!"ethash_proof", b!"Vec<EthashProof>"), (b!"mmr_proof", b!"Vec<H256>")])),
    (b!"relayaffirmationid", .struct (some [(b!"game_id", b!"EthereumBlockNumber"), (b!"round", b!"u32"), (b!"index", b!"u32")])),
    (b!"relayaffirmationt", .struct (some [(b!"relayer", b!"AccountId"), (b!"relay_header_parcels", b!"EthereumRelayHeaderParcel"), (b!"bond", b!"Balance"), (b!"maybe_extended_relay_affirmation_id", b!"Option<RelayAffirmationId>"), (b!"verified", b!"bool")])),
    (b!"signer", .hash 20),
    (b!"relayauthorityt", .struct (some [(b!"accountId", b!"AccountId"), (b!"signer", b!"Signer"), (b!"stake", b!"Balance"), (b!"term", b!"BlockNumber")])),
    (b!"mmrroot", .hash 32),
    (b!"ecdsaaddress", .hash 20),
    (b!"ecdsasignature", .fixedU8 65),
    (b!"ecdsamessage", .hash 32),
    (b!"relayauthoritymessage", .hash 32),
    (b!"relayauthoritysignature", .fixedU8 65),
    (b!"relayauthoritysignature<t, i>", .fixedU8 65),
    (b!"term", .u32),
    (b!"opcode", .fixedU8 4),
    (b!"scheduledauthoritieschange", .struct (some [(b!"next_authorities", b!"Vec<RelayAuthorityT>"), (b!"deadline", b!"BlockNumber")])),
    (b!"scheduledauthoritieschanget", .struct (some [(b!"next_authorities", b!"Vec<RelayAuthorityT>"), (b!"deadline", b!"BlockNumber")])),
    (b!"address", .enum [] (some [(b!"Id", b!"AccountId"), (b!"Index", b!"Compact<AccountIndex>"), (b!"Raw", b!"Bytes"), (b!"Address32", b!"H256"), (b!"Address20", b!"H160")])),
    (b!"lookupsource", .enum [] (some [(b!"Id", b!"AccountId"), (b!"Index", b!"Compact<AccountIndex>"), (b!"Raw", b!"Bytes"), (b!"Address32", b!"H256"), (b!"Address20", b!"H160")])),
    (b!"validatorprefs", .struct (some [(b!"commission", b!"Compact<Perbill>"), (b!"blocked", b!"bool")])),
    (b!"accountinfo", .struct (some [(b!"nonce", b!"Index"), (b!"consumers", b!"RefCount"), (b!"providers", b!"RefCount"), (b!"sufficients", b!"RefCount"), (b!"data", b!"AccountData")])),
    (b!"exitreason", .enum [] (some [(b!"Succeed", b!"ExitSucceed"), (b!"Error", b!"ExitError"), (b!"Revert", b!"ExitRevert"), (b!"Fatal", b!"ExitFatal")])),
    (b!"exitsucceed", .enum [b!"Stopped", b!"Returned", b!"Suicided"] none),
    (b!"exiterror", .enum [] (some [(b!"StackUnderflow", b!"NULL"), (b!"StackOverflow", b!"NULL"), (b!"InvalidJump", b!"NULL"), (b!"InvalidRange", b!"NULL"), (b!"DesignatedInvalid", b!"NULL"), (b!"CallTooDeep", b!"NULL"), (b!"CreateCollision", b!"NULL"), (b!"CreateContractLimit", b!"NULL"), (b!"OutOfOffset", b!"NULL"), (b!"OutOfGas", b!"NULL"), (b!"OutOfFund", b!"NULL"), (b!"PCUnderflow", b!"NULL"), (b!"CreateEmpty", b!"NULL"), (b!"Other", b!"string")])),
    (b!"exitfatal", .enum [] (some [(b!"NotSupported", b!"NULL"), (b!"UnhandledInterrupt", b!"NULL"), (b!"CallErrorAsFatal", b!"NULL"), (b!"Other", b!"string")])),
    (b!"blocktransactions", .enum [] (some [(b!"Hashes", b!"Vec<H256>"), (b!"Full", b!"Vec<ethereum::Transaction>")])),
    (b!"exitrevert", .enum [b!"Reverted"] none),
    (b!"ethereum::block", .struct (some [(b!"hash", b!"Option<H256>"), (b!"parent_hash", b!"H256"), (b!"uncles_hash", b!"H256"), (b!"author", b!"H160"), (b!"miner", b!"H160"), (b!"state_root", b!"H256"), (b!"transactions_root", b!"H256"), (b!"receipts_root", b!"H256"), (b!"number", b!"Option<U256>"), (b!"gas_used", b!"U256"), (b!"gas_limit", b!"U256"), (b!"extra_data", b!"Bytes"), (b!"logs_bloom", b!"Option<H2048>"), (b!"timestamp", b!"U256"), (b!"difficulty", b!"U256"), (b!"total_difficulty", b!"Option<U256>"), (b!"seal_fields", b!"Vec<Bytes>"), (b!"uncles", b!"Vec<H256>"), (b!"transactions", b!"BlockTransactions"), (b!"size", b!"Option<U256>")])),
    (b!"transactionaction", .enum [] (some [(b!"Call", b!"H160"), (b!"Create", b!"NULL")])),
    (b!"log", .struct (some [(b!"address", b!"H160"), (b!"topics", b!"Vec<H256>"), (b!"data", b!"Vec<u8>")])),
    (b!"transactionsignature", .struct (some [(b!"v", b!"TransactionRecoveryId"), (b!"r", b!"H256"), (b!"s", b!"H256")])),
    (b!"transactionrecoveryid", .u64),
    (b!"nodeindex", .u64),
    (b!"mmrnodespruningconfiguration", .struct (some [(b!"step", b!"NodeIndex"), (b!"progress", b!"NodeIndex"), (b!"last_position", b!"NodeIndex")])),
    (b!"blocknumberfor", .u32),
    (b!"messageid", .struct (some [(b!"col1", b!"LaneId"), (b!"col2", b!"MessageNonce")])),
    (b!"specversion", .u32) ]

/-- Classes of the names of network/phala.json. -/
def phala : List (Str × Cls) :=
  [ (b!"weight", .u64),
    (b!"compactassignments", .struct (some [(b!"votes1", b!"Vec<(NominatorIndexCompact, ValidatorIndexCompact)>"), (b!"votes2", b!"Vec<(NominatorIndexCompact, CompactScoreCompact, ValidatorIndexCompact)>"), (b!"votes3", b!"Vec<(NominatorIndexCompact, [CompactScoreCompact; 2], ValidatorIndexCompact)>"), (b!"votes4", b!"Vec<(NominatorIndexCompact, [CompactScoreCompact; 3], ValidatorIndexCompact)>"), (b!"votes5", b!"Vec<(NominatorIndexCompact, [CompactScoreCompact; 4], ValidatorIndexCompact)>"), (b!"votes6", b!"Vec<(NominatorIndexCompact, [CompactScoreCompact; 5], ValidatorIndexCompact)>"), (b!"votes7", b!"Vec<(NominatorIndexCompact, [CompactScoreCompact; 6], ValidatorIndexCompact)>"), (b!"votes8", b!"Vec<(NominatorIndexCompact, [CompactScoreCompact; 7], ValidatorIndexCompact)>"), (b!"votes9", b!"Vec<(NominatorIndexCompact, [CompactScoreCompact; 8], ValidatorIndexCompact)>"), (b!"votes10", b!"Vec<(NominatorIndexCompact, [CompactScoreCompact; 9], ValidatorIndexCompact)>"), (b!"votes11", b!"Vec<(NominatorIndexCompact, [CompactScoreCompact; 10], ValidatorIndexCompact)>"), (b!"votes12", b!"Vec<(NominatorIndexCompact, [CompactScoreCompact; 11], ValidatorIndexCompact)>"), (b!"votes13", b!"Vec<(NominatorIndexCompact, [CompactScoreCompact; 12], ValidatorIndexCompact)>"), (b!"votes14", b!"Vec<(NominatorIndexCompact, [CompactScoreCompact; 13], ValidatorIndexCompact)>"), (b!"votes15", b!"Vec<(NominatorIndexCompact, [CompactScoreCompact; 14], ValidatorIndexCompact)>"), (b!"votes16", b!"Vec<(NominatorIndexCompact, [CompactScoreCompact; 15], ValidatorIndexCompact)>")])),
    (b!"refcount", .u32),
    (b!"accountinfo", .struct (some [(b!"nonce", b!"Index"), (b!"consumers", b!"RefCount"), (b!"providers", b!"RefCount"), (b!"sufficients", b!"RefCount"), (b!"data", b!"AccountData")])),
    (b!"generictransfer", .struct (some [(b!"dest_id", b!"BridgeChainId"), (b!"nonce", b!"DepositNonce"), (b!"resource_id", b!"ResourceId"), (b!"metadata", b!"Vec<u8>")])),
    (b!"contractpublickey", .fixedU8 32),
    (b!"minerinfo", .struct (some [(b!"state", b!"MinerState"), (b!"ve", b!"u128"), (b!"v", b!"u128"), (b!"vUpdatedAt", b!"u64"), (b!"benchmark", b!"Benchmark"), (b!"coolDownStart", b!"u64"), (b!"stats", b!"MinerStats")])),
    (b!"tokenomicparams", .struct (some [(b!"phaRate", b!"U64F64Bits"), (b!"rho", b!"U64F64Bits"), (b!"budgetPerBlock", b!"U64F64Bits"), (b!"vMax", b!"U64F64Bits"), (b!"costK", b!"U64F64Bits"), (b!"costB", b!"U64F64Bits"), (b!"slashRate", b!"U64F64Bits"), (b!"treasuryRatio", b!"U64F64Bits"), (b!"heartbeatWindow", b!"u32"), (b!"rigK", b!"U64F64Bits"), (b!"rigB", b!"U64F64Bits"), (b!"re", b!"U64F64Bits"), (b!"k", b!"U64F64Bits"), (b!"kappa", b!"U64F64Bits")])),
    (b!"u64f64bits", .u128),
    (b!"keydistribution", .enum [] (some [(b!"MasterKeyDistribution", b!"DispatchMasterKeyEvent")])),
    (b!"bridgechainid", .u8),
    (b!"benchmark", .struct (some [(b!"pInstant", b!"u32"), (b!"pInit", b!"u32"), (b!"iterations", b!"u64"), (b!"miningStartTime", b!"u64"), (b!"updatedAt", b!"u64")])),
    (b!"depositnonce", .u64),
    (b!"proxytype", .enum [b!"Any", b!"NonTransfer", b!"CancelProxy", b!"Governance", b!"Collator", b!"StakePoolManager"] none),
    (b!"keys", .accountId),
    (b!"resourceid", .fixedU8 32),
    (b!"workerregistrationinfo", .struct (some [(b!"version", b!"u32"), (b!"machineId", b!"Vec<u8>"), (b!"pubkey", b!"WorkerPublicKey"), (b!"ecdhPubkey", b!"EcdhPublicKey"), (b!"genesisBlockHash", b!"H256"), (b!"features", b!"Vec<u32>"), (b!"operator", b!"Option<AccountId>")])),
    (b!"senderid", .enum [] (some [(b!"Pallet", b!"Vec<u8>"), (b!"Contract", b!"H256"), (b!"Worker", b!"Sr25519PublicKey"), (b!"AccountId", b!"H256"), (b!"MultiLocation", b!"Vec<u8>"), (b!"Gatekeeper", b!"null")])),
    (b!"workerinfo", .struct (some [(b!"pubkey", b!"WorkerPublicKey"), (b!"ecdhPubkey", b!"EcdhPublicKey"), (b!"runtimeVersion", b!"u32"), (b!"lastUpdated", b!"u64"), (b!"operator", b!"Option<AccountId>"), (b!"confidenceLevel", b!"u8"), (b!"initialScore", b!"Option<u32>"), (b!"features", b!"Vec<u32>")])),
    (b!"attestationsgxias", .struct (some [(b!"raReport", b!"Vec<u8>"), (b!"signature", b!"Vec<u8>"), (b!"rawSigningCert", b!"Vec<u8>")])),
    (b!"address", .enum [] (some [(b!"Id", b!"AccountId"), (b!"Index", b!"Compact<AccountIndex>"), (b!"Raw", b!"Bytes"), (b!"Address32", b!"H256"), (b!"Address20", b!"H160")])),
    (b!"path", .bytes),
    (b!"tokenomicparameters", .struct (some [(b!"phaRate", b!"U64F64Bits"), (b!"rho", b!"U64F64Bits"), (b!"budgetPerBlock", b!"U64F64Bits"), (b!"vMax", b!"U64F64Bits"), (b!"costK", b!"U64F64Bits"), (b!"costB", b!"U64F64Bits"), (b!"slashRate", b!"U64F64Bits"), (b!"treasuryRatio", b!"U64F64Bits"), (b!"heartbeatWindow", b!"u32"), (b!"rigK", b!"U64F64Bits"), (b!"rigB", b!"U64F64Bits"), (b!"re", b!"U64F64Bits"), (b!"k", b!"U64F64Bits"), (b!"kappa", b!"U64F64Bits")])),
    (b!"masterpublickey", .fixedU8 32),
    (b!"bridgeevent", .enum [] (some [(b!"FungibleTransfer", b!"FungibleTransfer"), (b!"NonFungibleTransfer", b!"NonFungibleTransfer"), (b!"GenericTransfer", b!"GenericTransfer")])),
    (b!"poolinfo", .struct (some [(b!"pid", b!"u64"), (b!"owner", b!"AccountId"), (b!"payoutCommission", b!"Option<Permill>"), (b!"ownerReward", b!"Balance"), (b!"cap", b!"Option<Balance>"), (b!"rewardAcc", b!"u128"), (b!"totalShares", b!"Balance"), (b!"totalStake", b!"Balance"), (b!"freeStake", b!"Balance"), (b!"releasingStake", b!"Balance"), (b!"workers", b!"Vec<WorkerPublicKey>"), (b!"withdrawQueue", b!"Vec<WithdrawInfo>")])),
    (b!"gatekeeperchange", .enum [] (some [(b!"GatekeeperRegistered", b!"NewGatekeeperEvent")])),
    (b!"lookupsource", .enum [] (some [(b!"Id", b!"AccountId"), (b!"Index", b!"Compact<AccountIndex>"), (b!"Raw", b!"Bytes"), (b!"Address32", b!"H256"), (b!"Address20", b!"H160")])),
    (b!"tokenid", .u256),
    (b!"signedmessage", .struct (some [(b!"message", b!"Message"), (b!"sequence", b!"u64"), (b!"signature", b!"Vec<u8>")])),
    (b!"newgatekeeperevent", .struct (some [(b!"pubkey", b!"WorkerPublicKey"), (b!"ecdhPubkey", b!"EcdhPublicKey")])),
    (b!"withdrawinfo", .struct (some [(b!"user", b!"AccountId"), (b!"shares", b!"Balance"), (b!"startTime", b!"u64")])),
    (b!"fungibletransfer", .struct (some [(b!"dest_id", b!"BridgeChainId"), (b!"nonce", b!"DepositNonce"), (b!"resource_id", b!"ResourceId"), (b!"amount", b!"U256"), (b!"recipient", b!"Vec<u8>")])),
    (b!"attestation", .enum [] (some [(b!"SgxIas", b!"AttestationSgxIas")])),
    (b!"workerpublickey", .fixedU8 32),
    (b!"gatekeeperevent", .enum [] (some [(b!"NewRandomNumber", b!"RandomNumberEvent"), (b!"TokenomicParametersChanged", b!"TokenomicParameters")])),
    (b!"dispatchmasterkeyevent", .struct (some [(b!"dest", b!"WorkerPublicKey"), (b!"ecdhPubkey", b!"EcdhPublicKey"), (b!"encryptedMasterKey", b!"Vec<u8>"), (b!"iv", b!"[u8; 12]")])),
    (b!"ecdhpublickey", .fixedU8 32),
    (b!"heartbeatchallenge", .struct (some [(b!"seed", b!"U256"), (b!"onlineTarget", b!"U256")])),
    (b!"randomnumberevent", .struct (some [(b!"blockNumber", b!"u32"), (b!"randomNumber", b!"[u8; 32]"), (b!"lastRandomNumber", b!"[u8; 32]")])),
    (b!"userstakeinfo", .struct (some [(b!"user", b!"AccountId"), (b!"locked", b!"Balance"), (b!"shares", b!"Balance"), (b!"availableRewards", b!"Balance"), (b!"rewardDebt", b!"Balance")])),
    (b!"gatekeeperlaunch", .enum [] (some [(b!"FirstGatekeeper", b!"NewGatekeeperEvent"), (b!"MasterPubkeyOnChain", b!"null")])),
    (b!"sr25519publickey", .fixedU8 32),
    (b!"topic", .bytes),
    (b!"minerstats", .struct (some [(b!"totalReward", b!"Balance")])),
    (b!"proposalvotes", .struct (some [(b!"votes_for", b!"Vec<AccountId>"), (b!"votes_against", b!"Vec<AccountId>"), (b!"status", b!"ProposalStatus"), (b!"expiry", b!"BlockNumber")])),
    (b!"minerstate", .enum [] (some [(b!"Ready", b!"null"), (b!"MiningIdle", b!"null"), (b!"MiningActive", b!"null"), (b!"MiningUnresponsive", b!"null"), (b!"MiningCoolingDown", b!"null")])),
    (b!"proposalstatus", .enum [] (some [(b!"Initiated", b!"null"), (b!"Approved", b!"null"), (b!"Rejected", b!"null")])),
    (b!"nonfungibletransfer", .struct (some [(b!"dest_id", b!"BridgeChainId"), (b!"nonce", b!"DepositNonce"), (b!"resource_id", b!"ResourceId"), (b!"token_id", b!"Vec<u8>"), (b!"recipient", b!"Vec<u8>"), (b!"metadata", b!"Vec<u8>")])),
    (b!"message", .struct (some [(b!"sender", b!"SenderId"), (b!"destination", b!"Topic"), (b!"payload", b!"Vec<u8>")])),
    (b!"messageorigin", .enum [] (some [(b!"Pallet", b!"Vec<u8>"), (b!"Contract", b!"H256"), (b!"Worker", b!"Sr25519PublicKey"), (b!"AccountId", b!"H256"), (b!"MultiLocation", b!"Vec<u8>"), (b!"Gatekeeper", b!"null")])) ]

/-- Classes of the names of network/plasm.json. -/
def plasm : List (Str × Cls) :=
  [ (b!"weight", .u32),
    (b!"dispatchresult", .enum [] (some [(b!"Ok", b!"Null"), (b!"Error", b!"DispatchError")])),
    (b!"keys", .struct (some [(b!"grandpa", b!"AccountId"), (b!"babe", b!"AccountId"), (b!"im_online", b!"AccountId"), (b!"authority_discovery", b!"AccountId"), (b!"parachains", b!"AccountId")])),
    (b!"validatorprefs", .struct (some [(b!"Commission", b!"Compact<Balance>")])),
    (b!"parameters", .struct (some [(b!"canBeNominated", b!"bool"), (b!"optionExpired", b!"u128"), (b!"optionP", b!"u128")])),
    (b!"claim", .struct (some [(b!"amount", b!"u128"), (b!"approve", b!"BTreeSet<AuthorityId>"), (b!"complete", b!"bool"), (b!"decline", b!"BTreeSet<AuthorityId>"), (b!"params", b!"Lockdrop")])),
    (b!"btreeset", .struct none),
    (b!"authorityindex", .u16),
    (b!"claimid", .hash 32),
    (b!"predicatehash", .hash 32),
    (b!"authorityvote", .u32),
    (b!"dollarrate", .u128),
    (b!"authorityid", .accountId),
    (b!"tickerrate<dollarrate>", .struct (some [(b!"authority", b!"AuthorityIndex"), (b!"btc", b!"DollarRate"), (b!"eth", b!"DollarRate")])),
    (b!"claimvote", .struct (some [(b!"approve", b!"bool"), (b!"authority", b!"u16"), (b!"claim_id", b!"ClaimId")])),
    (b!"lockdrop", .struct (some [(b!"duration", b!"u64"), (b!"public_key", b!"[u8; 33]"), (b!"transaction_hash", b!"H256"), (b!"type", b!"u8"), (b!"value", b!"u128")])) ]

end ScaleGo.NetClasses
