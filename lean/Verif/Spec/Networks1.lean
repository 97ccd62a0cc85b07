import Verif.Model.Registry

/-! # The classes of the names that the shipped networks define, part 1

Lower-case name (with its version range, if any) and class, for every file in `network/`, without the one
name in each of crab, darwinia, pangolin and sora whose class depends on the order of loading. Written down by a script; C108 proves that loading produces exactly these. -/

set_option maxRecDepth 20000

namespace ScaleGo.NetClasses

/-- Classes of the names of network/acala-test.json. -/
def acala_test : List (Str × Cls) :=
  [ (b!"weight", .u64),
    (b!"compactassignments", .struct (some [(b!"votes1", b!"Vec<(NominatorIndexCompact, ValidatorIndexCompact)>"), (b!"votes2", b!"Vec<(NominatorIndexCompact, CompactScoreCompact, ValidatorIndexCompact)>"), (b!"votes3", b!"Vec<(NominatorIndexCompact, [CompactScoreCompact; 2], ValidatorIndexCompact)>"), (b!"votes4", b!"Vec<(NominatorIndexCompact, [CompactScoreCompact; 3], ValidatorIndexCompact)>"), (b!"votes5", b!"Vec<(NominatorIndexCompact, [CompactScoreCompact; 4], ValidatorIndexCompact)>"), (b!"votes6", b!"Vec<(NominatorIndexCompact, [CompactScoreCompact; 5], ValidatorIndexCompact)>"), (b!"votes7", b!"Vec<(NominatorIndexCompact, [CompactScoreCompact; 6], ValidatorIndexCompact)>"), (b!"votes8", b!"Vec<(NominatorIndexCompact, [CompactScoreCompact; 7], ValidatorIndexCompact)>"), (b!"votes9", b!"Vec<(NominatorIndexCompact, [CompactScoreCompact; 8], ValidatorIndexCompact)>"), (b!"votes10", b!"Vec<(NominatorIndexCompact, [CompactScoreCompact; 9], ValidatorIndexCompact)>"), (b!"votes11", b!"Vec<(NominatorIndexCompact, [CompactScoreCompact; 10], ValidatorIndexCompact)>"), (b!"votes12", b!"Vec<(NominatorIndexCompact, [CompactScoreCompact; 11], ValidatorIndexCompact)>"), (b!"votes13", b!"Vec<(NominatorIndexCompact, [CompactScoreCompact; 12], ValidatorIndexCompact)>"), (b!"votes14", b!"Vec<(NominatorIndexCompact, [CompactScoreCompact; 13], ValidatorIndexCompact)>"), (b!"votes15", b!"Vec<(NominatorIndexCompact, [CompactScoreCompact; 14], ValidatorIndexCompact)>"), (b!"votes16", b!"Vec<(NominatorIndexCompact, [CompactScoreCompact; 15], ValidatorIndexCompact)>")])),
    (b!"refcount", .u32),
    (b!"address", .enum [] (some [(b!"Id", b!"AccountId"), (b!"Index", b!"Compact<AccountIndex>"), (b!"Raw", b!"Bytes"), (b!"Address32", b!"H256"), (b!"Address20", b!"H160")])),
    (b!"lookupsource", .enum [] (some [(b!"Id", b!"AccountId"), (b!"Index", b!"Compact<AccountIndex>"), (b!"Raw", b!"Bytes"), (b!"Address32", b!"H256"), (b!"Address20", b!"H160")])),
    (b!"accountinfo", .struct (some [(b!"nonce", b!"Index"), (b!"consumers", b!"RefCount"), (b!"providers", b!"RefCount"), (b!"sufficients", b!"RefCount"), (b!"data", b!"AccountData")])) ]

/-- Classes of the names of network/acala.json. -/
def acala : List (Str × Cls) :=
  [ (b!"weight", .u64),
    (b!"compactassignments", .struct (some [(b!"votes1", b!"Vec<(NominatorIndexCompact, ValidatorIndexCompact)>"), (b!"votes2", b!"Vec<(NominatorIndexCompact, CompactScoreCompact, ValidatorIndexCompact)>"), (b!"votes3", b!"Vec<(NominatorIndexCompact, [CompactScoreCompact; 2], ValidatorIndexCompact)>"), (b!"votes4", b!"Vec<(NominatorIndexCompact, [CompactScoreCompact; 3], ValidatorIndexCompact)>"), (b!"votes5", b!"Vec<(NominatorIndexCompact, [CompactScoreCompact; 4], ValidatorIndexCompact)>"), (b!"votes6", b!"Vec<(NominatorIndexCompact, [CompactScoreCompact; 5], ValidatorIndexCompact)>"), (b!"votes7", b!"Vec<(NominatorIndexCompact, [CompactScoreCompact; 6], ValidatorIndexCompact)>"), (b!"votes8", b!"Vec<(NominatorIndexCompact, [CompactScoreCompact; 7], ValidatorIndexCompact)>"), (b!"votes9", b!"Vec<(NominatorIndexCompact, [CompactScoreCompact; 8], ValidatorIndexCompact)>"), (b!"votes10", b!"Vec<(NominatorIndexCompact, [CompactScoreCompact; 9], ValidatorIndexCompact)>"), (b!"votes11", b!"Vec<(NominatorIndexCompact, [CompactScoreCompact; 10], ValidatorIndexCompact)>"), (b!"votes12", b!"Vec<(NominatorIndexCompact, [CompactScoreCompact; 11], ValidatorIndexCompact)>"), (b!"votes13", b!"Vec<(NominatorIndexCompact, [CompactScoreCompact; 12], ValidatorIndexCompact)>"), (b!"votes14", b!"Vec<(NominatorIndexCompact, [CompactScoreCompact; 13], ValidatorIndexCompact)>"), (b!"votes15", b!"Vec<(NominatorIndexCompact, [CompactScoreCompact; 14], ValidatorIndexCompact)>"), (b!"votes16", b!"Vec<(NominatorIndexCompact, [CompactScoreCompact; 15], ValidatorIndexCompact)>")])),
    (b!"refcount", .u32),
    (b!"address", .enum [] (some [(b!"Id", b!"AccountId"), (b!"Index", b!"Compact<AccountIndex>"), (b!"Raw", b!"Bytes"), (b!"Address32", b!"H256"), (b!"Address20", b!"H160")])),
    (b!"lookupsource", .enum [] (some [(b!"Id", b!"AccountId"), (b!"Index", b!"Compact<AccountIndex>"), (b!"Raw", b!"Bytes"), (b!"Address32", b!"H256"), (b!"Address20", b!"H160")])),
    (b!"accountinfo", .struct (some [(b!"nonce", b!"Index"), (b!"consumers", b!"RefCount"), (b!"providers", b!"RefCount"), (b!"sufficients", b!"RefCount"), (b!"data", b!"AccountData")])) ]

/-- Classes of the names of network/balala.json. -/
def balala : List (Str × Cls) :=
  [ (b!"weight", .u64),
    (b!"compactassignments", .struct (some [(b!"votes1", b!"Vec<(NominatorIndexCompact, ValidatorIndexCompact)>"), (b!"votes2", b!"Vec<(NominatorIndexCompact, CompactScoreCompact, ValidatorIndexCompact)>"), (b!"votes3", b!"Vec<(NominatorIndexCompact, [CompactScoreCompact; 2], ValidatorIndexCompact)>"), (b!"votes4", b!"Vec<(NominatorIndexCompact, [CompactScoreCompact; 3], ValidatorIndexCompact)>"), (b!"votes5", b!"Vec<(NominatorIndexCompact, [CompactScoreCompact; 4], ValidatorIndexCompact)>"), (b!"votes6", b!"Vec<(NominatorIndexCompact, [CompactScoreCompact; 5], ValidatorIndexCompact)>"), (b!"votes7", b!"Vec<(NominatorIndexCompact, [CompactScoreCompact; 6], ValidatorIndexCompact)>"), (b!"votes8", b!"Vec<(NominatorIndexCompact, [CompactScoreCompact; 7], ValidatorIndexCompact)>"), (b!"votes9", b!"Vec<(NominatorIndexCompact, [CompactScoreCompact; 8], ValidatorIndexCompact)>"), (b!"votes10", b!"Vec<(NominatorIndexCompact, [CompactScoreCompact; 9], ValidatorIndexCompact)>"), (b!"votes11", b!"Vec<(NominatorIndexCompact, [CompactScoreCompact; 10], ValidatorIndexCompact)>"), (b!"votes12", b!"Vec<(NominatorIndexCompact, [CompactScoreCompact; 11], ValidatorIndexCompact)>"), (b!"votes13", b!"Vec<(NominatorIndexCompact, [CompactScoreCompact; 12], ValidatorIndexCompact)>"), (b!"votes14", b!"Vec<(NominatorIndexCompact, [CompactScoreCompact; 13], ValidatorIndexCompact)>"), (b!"votes15", b!"Vec<(NominatorIndexCompact, [CompactScoreCompact; 14], ValidatorIndexCompact)>"), (b!"votes16", b!"Vec<(NominatorIndexCompact, [CompactScoreCompact; 15], ValidatorIndexCompact)>")])),
    (b!"refcount", .u32),
    (b!"dispatchresult", .enum [] (some [(b!"Ok", b!"Null"), (b!"Error", b!"DispatchError")])),
    (b!"address", .enum [] (some [(b!"Id", b!"AccountId"), (b!"Index", b!"Compact<AccountIndex>"), (b!"Raw", b!"Bytes"), (b!"Address32", b!"H256"), (b!"Address20", b!"H160")])),
    (b!"lookupsource", .enum [] (some [(b!"Id", b!"AccountId"), (b!"Index", b!"Compact<AccountIndex>"), (b!"Raw", b!"Bytes"), (b!"Address32", b!"H256"), (b!"Address20", b!"H160")])),
    (b!"box<<t as config>::call>", .call),
    (b!"keys#0-12", .struct (some [(b!"grandpa", b!"AccountId"), (b!"babe", b!"AccountId"), (b!"im_online", b!"AccountId"), (b!"authority_discovery", b!"AccountId"), (b!"parachains", b!"AccountId")])),
    (b!"keys", .struct (some [(b!"grandpa", b!"AccountId"), (b!"babe", b!"AccountId"), (b!"im_online", b!"AccountId"), (b!"para_validator", b!"AccountId"), (b!"para_assignment", b!"AccountId"), (b!"authority_discovery", b!"AccountId")])),
    (b!"proposal<accountid, validatorid, balanceof>", .struct (some [(b!"proposer", b!"AccountId"), (b!"genesis_head", b!"HeadData"), (b!"validators", b!"Vec<ValidatorId>"), (b!"name", b!"Vec<U8>"), (b!"balance", b!"Balance")])),
    (b!"fullidentification", .null),
    (b!"accountinfo", .struct (some [(b!"nonce", b!"Index"), (b!"consumers", b!"RefCount"), (b!"providers", b!"RefCount"), (b!"sufficients", b!"RefCount"), (b!"data", b!"AccountData")])),
    (b!"auctionindex", .u32),
    (b!"slots::auctionindex", .u32),
    (b!"auctions::auctionindex", .u32),
    (b!"fundindex", .u32),
    (b!"lastcontribution<blocknumber>", .enum [] (some [(b!"Never", b!"Null"), (b!"PreEnding", b!"slots::AuctionIndex"), (b!"Ending", b!"BlockNumber")])),
    (b!"trieindex", .u32),
    (b!"(leaseperiodof, blocknumber)", .struct (some [(b!"lease_index", b!"LeasePeriodOf"), (b!"ending_block", b!"BlockNumber")])),
    (b!"paralifecycle", .enum [b!"Onboarding", b!"Parathread", b!"Parachain", b!"UpgradingParathread", b!"DowngradingParachain", b!"OffboardingParathread", b!"OffboardingParachain"] none),
    (b!"headdata", .bytes),
    (b!"validationcode", .bytes),
    (b!"paragenesisargs", .struct (some [(b!"genesis_head", b!"HeadData"), (b!"validation_code", b!"ValidationCode"), (b!"parachain", b!"bool")])),
    (b!"parainfo<accountid, balanceof>", .struct (some [(b!"manager", b!"AccountId"), (b!"deposit", b!"Balance")])),
    (b!"(accountid, balanceof)", .struct (some [(b!"manager", b!"AccountId"), (b!"deposit", b!"Balance")])),
    (b!"vec<option<(accountid, balanceof)>>", .vec b!"Option<ParaInfo>"),
    (b!"winningdata", .fixedArray 36 b!"Option<WinnerData>"),
    (b!"winnerdata", .struct (some [(b!"accountId", b!"AccountId"), (b!"paraId", b!"ParaId"), (b!"amount", b!"Balance")])),
    (b!"validatorindex", .u32) ]

/-- Classes of the names of network/bifrost.json. -/
def bifrost : List (Str × Cls) :=
  [ (b!"weight", .u64),
    (b!"compactassignments", .struct (some [(b!"votes1", b!"Vec<(NominatorIndexCompact, ValidatorIndexCompact)>"), (b!"votes2", b!"Vec<(NominatorIndexCompact, CompactScoreCompact, ValidatorIndexCompact)>"), (b!"votes3", b!"Vec<(NominatorIndexCompact, [CompactScoreCompact; 2], ValidatorIndexCompact)>"), (b!"votes4", b!"Vec<(NominatorIndexCompact, [CompactScoreCompact; 3], ValidatorIndexCompact)>"), (b!"votes5", b!"Vec<(NominatorIndexCompact, [CompactScoreCompact; 4], ValidatorIndexCompact)>"), (b!"votes6", b!"Vec<(NominatorIndexCompact, [CompactScoreCompact; 5], ValidatorIndexCompact)>"), (b!"votes7", b!"Vec<(NominatorIndexCompact, [CompactScoreCompact; 6], ValidatorIndexCompact)>"), (b!"votes8", b!"Vec<(NominatorIndexCompact, [CompactScoreCompact; 7], ValidatorIndexCompact)>"), (b!"votes9", b!"Vec<(NominatorIndexCompact, [CompactScoreCompact; 8], ValidatorIndexCompact)>"), (b!"votes10", b!"Vec<(NominatorIndexCompact, [CompactScoreCompact; 9], ValidatorIndexCompact)>"), (b!"votes11", b!"Vec<(NominatorIndexCompact, [CompactScoreCompact; 10], ValidatorIndexCompact)>"), (b!"votes12", b!"Vec<(NominatorIndexCompact, [CompactScoreCompact; 11], ValidatorIndexCompact)>"), (b!"votes13", b!"Vec<(NominatorIndexCompact, [CompactScoreCompact; 12], ValidatorIndexCompact)>"), (b!"votes14", b!"Vec<(NominatorIndexCompact, [CompactScoreCompact; 13], ValidatorIndexCompact)>"), (b!"votes15", b!"Vec<(NominatorIndexCompact, [CompactScoreCompact; 14], ValidatorIndexCompact)>"), (b!"votes16", b!"Vec<(NominatorIndexCompact, [CompactScoreCompact; 15], ValidatorIndexCompact)>")])),
    (b!"refcount", .u32),
    (b!"address", .enum [] (some [(b!"Id", b!"AccountId"), (b!"Index", b!"Compact<AccountIndex>"), (b!"Raw", b!"Bytes"), (b!"Address32", b!"H256"), (b!"Address20", b!"H160")])),
    (b!"lookupsource", .enum [] (some [(b!"Id", b!"AccountId"), (b!"Index", b!"Compact<AccountIndex>"), (b!"Raw", b!"Bytes"), (b!"Address32", b!"H256"), (b!"Address20", b!"H160")])),
    (b!"accountinfo", .struct (some [(b!"nonce", b!"Index"), (b!"consumers", b!"RefCount"), (b!"providers", b!"RefCount"), (b!"sufficients", b!"RefCount"), (b!"data", b!"AccountData")])),
    (b!"producerkey", .struct (some [(b!"producer_name", b!"AccountName"), (b!"block_signing_key", b!"PublicKey")])),
    (b!"actionname", .u64),
    (b!"parachaintransactproxytype", .enum [] (some [(b!"Primary", b!"0"), (b!"Derived", b!"1")])),
    (b!"auctioninfo", .struct (some [(b!"bid", b!"Option<(AccountId, Balance)>"), (b!"start", b!"BlockNumber"), (b!"end", b!"Option<BlockNumber>")])),
    (b!"txout", .enum [] (some [(b!"Initialized", b!"MultiSigTx"), (b!"Created", b!"MultiSigTx"), (b!"SignComplete", b!"MultiSigTx"), (b!"Sent", b!"Sent"), (b!"Succeeded", b!"Succeeded"), (b!"Failed", b!"Failed")])),
    (b!"contributionstatus", .enum [b!"Idle", b!"Refunded", b!"Unlocked", b!"Refunding"] none),
    (b!"extrafeename", .enum [b!"SalpContribute", b!"NoExtraFee"] none),
    (b!"rpccontributionstatus", .enum [b!"Idle", b!"Contributing", b!"Refunded", b!"Unlocked", b!"Redeemed"] none),
    (b!"accountidof", .accountId),
    (b!"timestampedvalueof", .struct (some [(b!"value", b!"OracleValue"), (b!"timestamp", b!"Moment")])),
    (b!"fundstatus", .enum [] (some [(b!"Ongoing", b!"0"), (b!"Retired", b!"1"), (b!"Success", b!"2"), (b!"Failed", b!"3"), (b!"RefundWithdrew", b!"4"), (b!"RedeemWithdrew", b!"5"), (b!"End", b!"6")])),
    (b!"storagekeybytes", .bytes),
    (b!"orderinfo", .struct (some [(b!"owner", b!"AccountIdOf"), (b!"vsbond", b!"CurrencyId"), (b!"supply", b!"u128"), (b!"remain", b!"u128"), (b!"unit_price", b!"U64F64"), (b!"order_id", b!"OrderId"), (b!"order_state", b!"OrderState")])),
    (b!"delayeddispatchtime", .enum [] (some [(b!"At", b!"BlockNumber"), (b!"After", b!"BlockNumber")])),
    (b!"timestampedvalue", .struct (some [(b!"value", b!"OracleValue"), (b!"timestamp", b!"Moment")])),
    (b!"producerschedule", .struct (some [(b!"version", b!"u32"), (b!"producers", b!"Vec<ProducerKey>")])),
    (b!"crowdloancontributecall", .enum [] (some [(b!"CrowdloanContribute", b!"ContributeCall")])),
    (b!"checksum256array", .vec b!"Checksum256"),
    (b!"parachainderivedproxyaccounttype", .enum [] (some [(b!"Salp", b!"0"), (b!"Staking", b!"1")])),
    (b!"palletbalanceof", .balance),
    (b!"swapfee", .u128),
    (b!"bridgeassetsymbol", .struct (some [(b!"blockchain", b!"BlockchainType"), (b!"symbol", b!"Vec<u8>"), (b!"precision", b!"Precision")])),
    (b!"amount", .balance),
    (b!"withdraw", .struct (some [(b!"who", b!"AccountIdOf"), (b!"index", b!"ParaId")])),
    (b!"dispatchtime", .enum [] (some [(b!"At", b!"BlockNumber"), (b!"After", b!"BlockNumber")])),
    (b!"transactionstatus", .enum [b!"Initialized", b!"Created", b!"SignComplete", b!"Sent", b!"Succeeded", b!"Failed"] none),
    (b!"flatmap", .struct (some [(b!"map", b!"Vec<(ActionName, u64)>")])),
    (b!"share", .u128),
    (b!"versionid", .u32),
    (b!"signedblockheader", .struct (some [(b!"block_header", b!"BlockHeader"), (b!"producer_signature", b!"bridgeEosSignature")])),
    (b!"shareweight", .balance),
    (b!"oraclevalue", .u128),
    (b!"txsig", .struct (some [(b!"signature", b!"Vec<u8>"), (b!"author", b!"AccountId")])),
    (b!"permissionlevel", .struct (some [(b!"actor", b!"AccountName"), (b!"permission", b!"PermissionName")])),
    (b!"poolstate", .enum [b!"UnderAudit", b!"Approved", b!"Ongoing", b!"Retired", b!"Dead"] none),
    (b!"ormlbalancelock", .struct (some [(b!"amount", b!"Balance"), (b!"id", b!"LockIdentifier")])),
    (b!"graduallyupdate", .struct (some [(b!"key", b!"StorageKey"), (b!"targetValue", b!"StorageValue"), (b!"perBlock", b!"StorageValue")])),
    (b!"failed", .struct (some [(b!"tx_id", b!"Vec<u8>"), (b!"reason", b!"Vec<u8>")])),
    (b!"bancorpool", .struct (some [(b!"currency_id", b!"CurrencyId"), (b!"token_pool", b!"Balance"), (b!"vstoken_pool", b!"Balance"), (b!"token_ceiling", b!"Balance"), (b!"token_base_supply", b!"Balance"), (b!"vstoken_base_supply", b!"Balance")])),
    (b!"sent", .struct (some [(b!"tx_id", b!"Vec<u8>"), (b!"from", b!"AccountId"), (b!"asset_id", b!"AssetId")])),
    (b!"pairinfo", .struct (some [(b!"asset0", b!"ZenlinkAssetId"), (b!"asset1", b!"ZenlinkAssetId"), (b!"account", b!"AccountId"), (b!"totalLiquidity", b!"ZenlinkAssetBalance"), (b!"holdingLiquidity", b!"ZenlinkAssetBalance"), (b!"reserve0", b!"ZenlinkAssetBalance"), (b!"reserve1", b!"ZenlinkAssetBalance"), (b!"lpAssetId", b!"ZenlinkAssetId")])),
    (b!"pooltoken", .u128),
    (b!"bifrostvestinginfo", .struct (some [(b!"locked", b!"Balance"), (b!"per_block", b!"Balance"), (b!"starting_block", b!"BlockNumber")])),
    (b!"rewardrecord", .struct (some [(b!"account_id", b!"AccountId"), (b!"record_amount", b!"Balance")])),
    (b!"zenlinkassetid", .struct (some [(b!"chain_id", b!"u32"), (b!"asset_type", b!"u8"), (b!"asset_index", b!"u32")])),
    (b!"u64f64", .u128),
    (b!"pooltype", .enum [b!"Mining", b!"Farming"] none),
    (b!"multisigtx", .struct (some [(b!"chain_id", b!"Vec<u8>"), (b!"raw_tx", b!"Vec<u8>"), (b!"multi_sig", b!"MultiSig"), (b!"action", b!"Action"), (b!"from", b!"AccountId"), (b!"asset_id", b!"AssetId")])),
    (b!"tassetbalance", .balance),
    (b!"blockchaintype", .enum [b!"BIFROST", b!"EOS", b!"IOST"] none),
    (b!"rpcdataproviderid", .string),
    (b!"fundinfo", .struct (some [(b!"raised", b!"Balance"), (b!"cap", b!"Balance"), (b!"first_slot", b!"LeasePeriod"), (b!"last_slot", b!"LeasePeriod"), (b!"trie_index", b!"TrieIndex"), (b!"status", b!"FundStatus")])),
    (b!"extension", .struct (some [(b!"col1", b!"u16"), (b!"col2", b!"Vec<u8>")])),
    (b!"currencyid", .enum [] (some [(b!"Native", b!"TokenSymbol"), (b!"VToken", b!"TokenSymbol"), (b!"Token", b!"TokenSymbol"), (b!"Stable", b!"TokenSymbol"), (b!"VSToken", b!"TokenSymbol"), (b!"VSBond", b!"(TokenSymbol, ParaId, LeasePeriod, LeasePeriod)")])),
    (b!"blocknumberfor", .u32),
    (b!"transferorigintype", .enum [] (some [(b!"FromSelf", b!"0"), (b!"FromRelayChain", b!"1"), (b!"FromSiblingParaChain", b!"2")])),
    (b!"withdrawcall", .enum [] (some [(b!"Withdraw", b!"Withdraw")])),
    (b!"pooldetails", .struct (some [(b!"owner", b!"AccountId"), (b!"swap_fee_rate", b!"SwapFee"), (b!"active", b!"bool")])),
    (b!"poolweight", .balance),
    (b!"depositdata", .struct (some [(b!"deposit", b!"Balance"), (b!"gain_avgs", b!"(CurrencyId, FixedU128)"), (b!"update_b", b!"BlockNumber")])),
    (b!"callof", .call),
    (b!"iosttxout", .enum [] (some [(b!"Initial", b!"IostMultiSigTx"), (b!"Generated", b!"IostMultiSigTx"), (b!"Signed", b!"IostMultiSigTx"), (b!"Processing", b!"Processing"), (b!"Success", b!"Vec<u8>"), (b!"Fail", b!"Failed")])),
    (b!"poolid", .u128),
    (b!"iostaction", .struct (some [(b!"contract", b!"Vec<u8>"), (b!"action_name", b!"Vec<u8>"), (b!"data", b!"Vec<u8>")])),
    (b!"blocktimestamp", .struct (some [(b!"col1", b!"u32")])),
    (b!"currency", .enum [] (some [(b!"Native", b!"TokenSymbol"), (b!"VToken", b!"TokenSymbol"), (b!"Token", b!"TokenSymbol"), (b!"Stable", b!"TokenSymbol"), (b!"VSToken", b!"TokenSymbol"), (b!"VSBond", b!"(TokenSymbol, ParaId, LeasePeriod, LeasePeriod)")])),
    (b!"biddingorderunitof", .struct (some [(b!"bidder_id", b!"AccountId"), (b!"token_id", b!"AssetId"), (b!"block_num", b!"BlockNumber"), (b!"votes", b!"Balance"), (b!"annual_roi", b!"Permill"), (b!"validator", b!"AccountId")])),
    (b!"redeemstatus", .balance),
    (b!"producerauthorityschedule", .struct (some [(b!"version", b!"u32"), (b!"producers", b!"Vec<ProducerAuthority>")])),
    (b!"unsignedint", .u32),
    (b!"biddingorderunit", .struct (some [(b!"bidder_id", b!"AccountId"), (b!"token_id", b!"AssetId"), (b!"block_num", b!"BlockNumber"), (b!"votes", b!"Balance"), (b!"annual_roi", b!"Permill"), (b!"validator", b!"AccountId")])),
    (b!"checksum256", .struct (some [(b!"col1", b!"[u8;32]")])),
    (b!"incrementalmerkle", .struct (some [(b!"_node_count", b!"u64"), (b!"_active_nodes", b!"Checksum256Array")])),
    (b!"numberorhex", .enum [] (some [(b!"Number", b!"u64"), (b!"Hex", b!"U256")])),
    (b!"keyweight", .struct (some [(b!"key", b!"PublicKey"), (b!"weight", b!"u16")])),
    (b!"keys", .struct (some [(b!"col1", b!"AccountId")])),
    (b!"processing", .struct (some [(b!"tx_id", b!"Vec<u8>"), (b!"multi_sig_tx", b!"IostMultiSigTx")])),
    (b!"precision", .u32),
    (b!"orderstate", .enum [b!"InTrade", b!"Revoked", b!"Clinchd"] none),
    (b!"eraid", .u32),
    (b!"storagevaluebytes", .bytes),
    (b!"iostmultisigtx", .struct (some [(b!"chain_id", b!"i32"), (b!"raw_tx", b!"Vec<u8>"), (b!"multi_sig", b!"MultiSig"), (b!"action", b!"IostAction"), (b!"from", b!"AccountId"), (b!"asset_id", b!"AssetId")])),
    (b!"blocksigningauthority", .struct (some [(b!"col1", b!"UnsignedInt"), (b!"col2", b!"BlockSigningAuthorityV0")])),
    (b!"poolcreatetokendetails", .struct (some [(b!"token_id", b!"AssetId"), (b!"token_balance", b!"Balance"), (b!"token_weight", b!"PoolWeight")])),
    (b!"accountname", .u64),
    (b!"action", .struct (some [(b!"account", b!"AccountName"), (b!"name", b!"ActionName"), (b!"authorization", b!"Vec<PermissionLevel>"), (b!"data", b!"Vec<u8>")])),
    (b!"contribution", .struct (some [(b!"index", b!"ParaId"), (b!"value", b!"BalanceOf"), (b!"signature", b!"Option<MultiSignature>")])),
    (b!"orderedset", .vec b!"AccountId"),
    (b!"authorityorigin", .struct (some [(b!"delay", b!"BlockNumber"), (b!"origin", b!"PalletsOrigin")])),
    (b!"systempalletid", .lockIdentifier),
    (b!"oraclekey", .enum [] (some [(b!"Native", b!"TokenSymbol"), (b!"VToken", b!"TokenSymbol"), (b!"Token", b!"TokenSymbol"), (b!"Stable", b!"TokenSymbol"), (b!"VSToken", b!"TokenSymbol"), (b!"VSBond", b!"(TokenSymbol, ParaId, LeasePeriod, LeasePeriod)")])),
    (b!"maxlocksof", .u32),
    (b!"biddingorderid", .u64),
    (b!"tokensymbol", .enum [] (some [(b!"ASG", b!"0"), (b!"BNC", b!"1"), (b!"KUSD", b!"2"), (b!"DOT", b!"3"), (b!"KSM", b!"4"), (b!"ETH", b!"5")])),
    (b!"vestingscheduleof", .struct (some [(b!"start", b!"BlockNumber"), (b!"period", b!"BlockNumber"), (b!"periodCount", b!"u32"), (b!"perPeriod", b!"Compact<Balance>")])),
    (b!"storagevalue", .bytes),
    (b!"parachaintransacttype", .enum [] (some [(b!"Xcm", b!"0"), (b!"Proxy", b!"1")])),
    (b!"isextended", .bool),
    (b!"zenlinkassetbalance", .u128),
    (b!"bridgeeossignature", .struct (some [(b!"type_", b!"UnsignedInt"), (b!"data", b!"[u8;65]")])),
    (b!"storageversion", .enum [b!"V1_0_0", b!"V2_0_0", b!"V3_0_0", b!"V4_0_0", b!"V5_0_0"] none),
    (b!"blocksigningauthorityv0", .struct (some [(b!"threshold", b!"u32"), (b!"keyWeights", b!"Vec<KeyWeight>")])),
    (b!"blockheader", .struct (some [(b!"timestamp", b!"BlockTimestamp"), (b!"producer", b!"AccountName"), (b!"confirmed", b!"u16"), (b!"previous", b!"Checksum256"), (b!"transaction_mroot", b!"Checksum256"), (b!"action_mroot", b!"Checksum256"), (b!"schedule_version", b!"u32"), (b!"new_producers", b!"Option<ProducerSchedule>"), (b!"header_extensions", b!"Vec<Extension>")])),
    (b!"price", .u128),
    (b!"contributecall", .enum [] (some [(b!"Contribute", b!"Contribution")])),
    (b!"currencyidof", .enum [] (some [(b!"Native", b!"TokenSymbol"), (b!"VToken", b!"TokenSymbol"), (b!"Token", b!"TokenSymbol"), (b!"Stable", b!"TokenSymbol"), (b!"VSToken", b!"TokenSymbol"), (b!"VSBond", b!"(TokenSymbol, ParaId, LeasePeriod, LeasePeriod)")])),
    (b!"multisig", .struct (some [(b!"signatures", b!"Vec<TxSig>"), (b!"threshold", b!"u8")])),
    (b!"amountof", .balance),
    (b!"trieindex", .u32),
    (b!"actionreceipt", .struct (some [(b!"receiver", b!"AccountName"), (b!"act_digest", b!"Checksum256"), (b!"global_sequence", b!"u64"), (b!"recv_sequence", b!"u64"), (b!"auth_sequence", b!"FlatMap<AccountName, u64>"), (b!"code_sequence", b!"UnsignedInt"), (b!"abi_sequence", b!"UnsignedInt")])),
    (b!"producerauthority", .struct (some [(b!"producer_name", b!"ActionName"), (b!"authority", b!"BlockSigningAuthority")])),
    (b!"scheduletaskindex", .u32),
    (b!"poolinfo", .struct (some [(b!"pool_id", b!"PoolId"), (b!"creator", b!"AccountId"), (b!"trading_pair", b!"(CurrencyId, CurrencyId)"), (b!"min_deposit_to_start", b!"Balance"), (b!"duration", b!"BlockNumber"), (b!"after_block_to_start", b!"BlockNumber"), (b!"update_b", b!"BlockNumber"), (b!"deposit", b!"Balance"), (b!"rewards", b!"(CurrencyId, RewardData)"), (b!"state", b!"PoolState"), (b!"type", b!"PoolType"), (b!"block_startup", b!"BlockNumber")])),
    (b!"succeeded", .struct (some [(b!"tx_id", b!"Vec<u8>")])),
    (b!"rewarddata", .struct (some [(b!"total", b!"BalanceOf"), (b!"per_block", b!"BalanceOf"), (b!"claimed", b!"BalanceOf"), (b!"gain_avg", b!"FixedU128")])),
    (b!"ormlaccountdata", .struct (some [(b!"free", b!"Balance"), (b!"reserved", b!"Balance"), (b!"frozen", b!"Balance")])),
    (b!"dispatchid", .u32),
    (b!"orderid", .u64),
    (b!"permissionname", .u64),
    (b!"delayedorigin", .struct (some [(b!"delay", b!"BlockNumber"), (b!"origin", b!"PalletsOrigin")])),
    (b!"dataproviderid", .u8),
    (b!"publickey", .struct (some [(b!"type_", b!"UnsignedInt"), (b!"data", b!"[u8;33]")])),
    (b!"ormlvestingschedule", .struct (some [(b!"start", b!"BlockNumber"), (b!"period", b!"BlockNumber"), (b!"periodCount", b!"u32"), (b!"perPeriod", b!"Compact<Balance>")])),
    (b!"assetinstance", .enum [] (some [(b!"Undefined", b!"Null"), (b!"Index8", b!"u8"), (b!"Index16", b!"Compact<u16>"), (b!"Index32", b!"Compact<u32>"), (b!"Index64", b!"Compact<u64>"), (b!"Index128", b!"Compact<u128>"), (b!"Array4", b!"[u8; 4]"), (b!"Array8", b!"[u8; 8]"), (b!"Array16", b!"[u8; 16]"), (b!"Array32", b!"[u8; 32]"), (b!"Blob", b!"Vec<u8>")])),
    (b!"multiasset", .enum [] (some [(b!"None", b!"Null"), (b!"All", b!"Null"), (b!"AllFungible", b!"Null"), (b!"AllNonFungible", b!"Null"), (b!"AllAbstractFungible", b!"Vec<u8>"), (b!"AllAbstractNonFungible", b!"Vec<u8>"), (b!"AllConcreteFungible", b!"MultiLocationV0"), (b!"AllConcreteNonFungible", b!"MultiLocationV0"), (b!"AbstractFungible", b!"[[\"id\", \"Vec<u8>\"], [\"instance\", \"Compact<u128>\"]]"), (b!"AbstractNonFungible", b!"[[\"class\", \"Vec<u8>\"], [\"instance\", \"AssetInstanceV0\"]]"), (b!"ConcreteFungible", b!"[[\"id\", \"MultiLocationV0\"], [\"amount\", \"Compact<u128>\"]]"), (b!"ConcreteNonFungible", b!"[[\"class\", \"MultiLocationV0\"], [\"instance\", \"AssetInstanceV0\"]]")])),
    (b!"xcm", .enum [] (some [(b!"WithdrawAsset", b!"[[\"assets\", \"Vec<MultiAssetV0>\"], [\"effects\", \"Vec<XcmOrderV0>\"]]"), (b!"ReserveAssetDeposit", b!"[[\"assets\", \"Vec<MultiAssetV0>\"], [\"effects\", \"Vec<XcmOrderV0>\"]]"), (b!"TeleportAsset", b!"[[\"assets\", \"Vec<MultiAssetV0>\"], [\"effects\", \"Vec<XcmOrderV0>\"]]"), (b!"QueryResponse", b!"[[\"queryId\", \"Compact<u64>\"], [\"response\", \"ResponseV0\"]]"), (b!"TransferAsset", b!"[[\"assets\", \"Vec<MultiAssetV0>\"], [\"dest\", \"MultiLocationV0\"]]"), (b!"TransferReserveAsset", b!"[[\"assets\", \"Vec<MultiAssetV0>\"], [\"dest\", \"MultiLocationV0\"], [\"effects\", \"Vec<XcmOrderV0>\"]]"), (b!"Transact", b!"[[\"originType\", \"XcmOriginKind\"], [\"requireWeightAtMost\", \"u64\"], [\"call\", \"DoubleEncodedCall\"]]"), (b!"HrmpNewChannelOpenRequest", b!"[[\"sender\", \"Compact<u32>\"], [\"maxMessageSize\", \"Compact<u32>\"], [\"maxCapacity\", \"Compact<u32>\"]]"), (b!"HrmpChannelAccepted", b!"[[\"recipient\", \"Compact<u32>\"]]"), (b!"HrmpChannelClosing", b!"[[\"initiator\", \"Compact<u32>\"], [\"sender\", \"Compact<u32>\"], [\"recipient\", \"Compact<u32>\"]]"), (b!"RelayedFrom", b!"[[\"who\", \"MultiLocationV0\"], [\"message\", \"XcmV0\"]]")])),
    (b!"xcmorder", .enum [] (some [(b!"Null", b!"Null"), (b!"DepositAsset", b!"[[\"assets\", \"Vec<MultiAssetV0>\"], [\"dest\", \"MultiLocationV0\"]]"), (b!"DepositReserveAsset", b!"[[\"assets\", \"Vec<MultiAssetV0>\"], [\"dest\", \"MultiLocationV0\"], [\"effects\", \"Vec<XcmOrderV0>\"]]"), (b!"ExchangeAsset", b!"[[\"give\", \"Vec<MultiAssetV0>\"], [\"receive\", \"Vec<MultiAssetV0>\"]]"), (b!"InitiateReserveWithdraw", b!"[[\"assets\", \"Vec<MultiAssetV0>\"], [\"reserve\", \"MultiLocationV0\"], [\"effects\", \"Vec<XcmOrderV0>\"]]"), (b!"InitiateTeleport", b!"[[\"assets\", \"Vec<MultiAssetV0>\"], [\"dest\", \"MultiLocationV0\"], [\"effects\", \"Vec<XcmOrderV0>\"]]"), (b!"QueryHolding", b!"[[\"queryId\", \"Compact<u64>\"], [\"dest\", \"MultiLocationV0\"], [\"assets\", \"Vec<MultiAssetV0>\"]]"), (b!"BuyExecution", b!"[[\"fees\", \"MultiAssetV0\"], [\"weight\", \"u64\"], [\"debt\", \"u64\"], [\"haltOnError\", \"bool\"], [\"xcm\", \"Vec<XcmV0>\"]]")])),
    (b!"multilocation", .enum [] (some [(b!"Here", b!"Null"), (b!"X1", b!"JunctionV0"), (b!"X2", b!"(JunctionV0, JunctionV0)"), (b!"X3", b!"(JunctionV0, JunctionV0, JunctionV0)"), (b!"X4", b!"(JunctionV0, JunctionV0, JunctionV0, JunctionV0)"), (b!"X5", b!"(JunctionV0, JunctionV0, JunctionV0, JunctionV0, JunctionV0)"), (b!"X6", b!"(JunctionV0, JunctionV0, JunctionV0, JunctionV0, JunctionV0, JunctionV0)"), (b!"X7", b!"(JunctionV0, JunctionV0, JunctionV0, JunctionV0, JunctionV0, JunctionV0, JunctionV0)"), (b!"X8", b!"(JunctionV0, JunctionV0, JunctionV0, JunctionV0, JunctionV0, JunctionV0, JunctionV0, JunctionV0)")])) ]

/-- Classes of the names of network/canvas.json. -/
def canvas : List (Str × Cls) :=
  [ (b!"weight", .u64),
    (b!"compactassignments", .struct (some [(b!"votes1", b!"Vec<(NominatorIndexCompact, ValidatorIndexCompact)>"), (b!"votes2", b!"Vec<(NominatorIndexCompact, CompactScoreCompact, ValidatorIndexCompact)>"), (b!"votes3", b!"Vec<(NominatorIndexCompact, [CompactScoreCompact; 2], ValidatorIndexCompact)>"), (b!"votes4", b!"Vec<(NominatorIndexCompact, [CompactScoreCompact; 3], ValidatorIndexCompact)>"), (b!"votes5", b!"Vec<(NominatorIndexCompact, [CompactScoreCompact; 4], ValidatorIndexCompact)>"), (b!"votes6", b!"Vec<(NominatorIndexCompact, [CompactScoreCompact; 5], ValidatorIndexCompact)>"), (b!"votes7", b!"Vec<(NominatorIndexCompact, [CompactScoreCompact; 6], ValidatorIndexCompact)>"), (b!"votes8", b!"Vec<(NominatorIndexCompact, [CompactScoreCompact; 7], ValidatorIndexCompact)>"), (b!"votes9", b!"Vec<(NominatorIndexCompact, [CompactScoreCompact; 8], ValidatorIndexCompact)>"), (b!"votes10", b!"Vec<(NominatorIndexCompact, [CompactScoreCompact; 9], ValidatorIndexCompact)>"), (b!"votes11", b!"Vec<(NominatorIndexCompact, [CompactScoreCompact; 10], ValidatorIndexCompact)>"), (b!"votes12", b!"Vec<(NominatorIndexCompact, [CompactScoreCompact; 11], ValidatorIndexCompact)>"), (b!"votes13", b!"Vec<(NominatorIndexCompact, [CompactScoreCompact; 12], ValidatorIndexCompact)>"), (b!"votes14", b!"Vec<(NominatorIndexCompact, [CompactScoreCompact; 13], ValidatorIndexCompact)>"), (b!"votes15", b!"Vec<(NominatorIndexCompact, [CompactScoreCompact; 14], ValidatorIndexCompact)>"), (b!"votes16", b!"Vec<(NominatorIndexCompact, [CompactScoreCompact; 15], ValidatorIndexCompact)>")])),
    (b!"refcount", .u32),
    (b!"dispatchresult", .enum [] (some [(b!"Ok", b!"Null"), (b!"Error", b!"DispatchError")])) ]

/-- Classes of the names of network/centrifuge.json. -/
def centrifuge : List (Str × Cls) :=
  [ (b!"weight", .u32),
    (b!"chainid", .u8),
    (b!"resourceid", .fixedU8 32),
    (b!"chainbridge::chainid", .u8),
    (b!"depositnonce", .u64),
    (b!"points", .u32),
    (b!"multiplier", .u64),
    (b!"address#229-999", .genericAddress),
    (b!"lookupsource#229-999", .genericAddress),
    (b!"u256", .fixedU8 32),
    (b!"box<proposal>", .call),
    (b!"erapoints", .struct (some [(b!"total", b!"Points"), (b!"individual", b!"Vec<Points>")])),
    (b!"dispatchresult", .enum [] (some [(b!"Ok", b!"Null"), (b!"Error", b!"DispatchError")])),
    (b!"referenduminfo", .enum [] (some [(b!"Ongoing", b!"ReferendumStatus"), (b!"Finished", b!"ReferendumInfoFinished")])),
    (b!"proxytype", .enum [b!"Any", b!"NonTransfer", b!"Governance", b!"Staking", b!"SudoBalances", b!"IdentityJudgement"] none),
    (b!"anchordata", .struct (some [(b!"anchoredBlock", b!"u64"), (b!"docRoot", b!"H256"), (b!"id", b!"H256")])),
    (b!"fee", .struct (some [(b!"key", b!"Hash"), (b!"price", b!"Balance")])),
    (b!"precommitdata", .struct (some [(b!"expirationBlock", b!"u64"), (b!"identity", b!"H256"), (b!"signingRoot", b!"H256")])),
    (b!"proof", .struct (some [(b!"leafHash", b!"H256"), (b!"sortedHashes", b!"H256")])),
    (b!"multiaccountdata", .struct (some [(b!"deposit", b!"Balance"), (b!"depositor", b!"AccountId"), (b!"signatories", b!"Vec<AccountId>"), (b!"threshold", b!"u16")])),
    (b!"address#1-228", .accountId),
    (b!"lookupsource#1-228", .accountId),
    (b!"weight#235-?", .u64),
    (b!"referenduminfo#229-234", .struct (some [(b!"end", b!"BlockNumber"), (b!"proposal", b!"Proposal"), (b!"threshold", b!"VoteThreshold"), (b!"delay", b!"BlockNumber")])),
    (b!"linkage", .struct (some [(b!"previous", b!"Option<AccountId>"), (b!"next", b!"Option<AccountId>")])),
    (b!"compactassignments#1000-?", .struct (some [(b!"votes1", b!"Vec<(NominatorIndexCompact, ValidatorIndexCompact)>"), (b!"votes2", b!"Vec<(NominatorIndexCompact, CompactScoreCompact, ValidatorIndexCompact)>"), (b!"votes3", b!"Vec<(NominatorIndexCompact, [CompactScoreCompact; 2], ValidatorIndexCompact)>"), (b!"votes4", b!"Vec<(NominatorIndexCompact, [CompactScoreCompact; 3], ValidatorIndexCompact)>"), (b!"votes5", b!"Vec<(NominatorIndexCompact, [CompactScoreCompact; 4], ValidatorIndexCompact)>"), (b!"votes6", b!"Vec<(NominatorIndexCompact, [CompactScoreCompact; 5], ValidatorIndexCompact)>"), (b!"votes7", b!"Vec<(NominatorIndexCompact, [CompactScoreCompact; 6], ValidatorIndexCompact)>"), (b!"votes8", b!"Vec<(NominatorIndexCompact, [CompactScoreCompact; 7], ValidatorIndexCompact)>"), (b!"votes9", b!"Vec<(NominatorIndexCompact, [CompactScoreCompact; 8], ValidatorIndexCompact)>"), (b!"votes10", b!"Vec<(NominatorIndexCompact, [CompactScoreCompact; 9], ValidatorIndexCompact)>"), (b!"votes11", b!"Vec<(NominatorIndexCompact, [CompactScoreCompact; 10], ValidatorIndexCompact)>"), (b!"votes12", b!"Vec<(NominatorIndexCompact, [CompactScoreCompact; 11], ValidatorIndexCompact)>"), (b!"votes13", b!"Vec<(NominatorIndexCompact, [CompactScoreCompact; 12], ValidatorIndexCompact)>"), (b!"votes14", b!"Vec<(NominatorIndexCompact, [CompactScoreCompact; 13], ValidatorIndexCompact)>"), (b!"votes15", b!"Vec<(NominatorIndexCompact, [CompactScoreCompact; 14], ValidatorIndexCompact)>"), (b!"votes16", b!"Vec<(NominatorIndexCompact, [CompactScoreCompact; 15], ValidatorIndexCompact)>")])),
    (b!"refcount#1000-?", .u32),
    (b!"address#1000-?", .enum [] (some [(b!"Id", b!"AccountId"), (b!"Index", b!"Compact<AccountIndex>"), (b!"Raw", b!"Bytes"), (b!"Address32", b!"H256"), (b!"Address20", b!"H160")])),
    (b!"lookupsource#1000-?", .enum [] (some [(b!"Id", b!"AccountId"), (b!"Index", b!"Compact<AccountIndex>"), (b!"Raw", b!"Bytes"), (b!"Address32", b!"H256"), (b!"Address20", b!"H160")])),
    (b!"accountinfo#1000-?", .struct (some [(b!"nonce", b!"Index"), (b!"consumers", b!"RefCount"), (b!"providers", b!"RefCount"), (b!"sufficients", b!"RefCount"), (b!"data", b!"AccountData")])) ]

/-- Classes of the names of network/chainx.json. -/
def chainx : List (Str × Cls) :=
  [ (b!"weight", .u64),
    (b!"compactassignments", .struct (some [(b!"votes1", b!"Vec<(NominatorIndexCompact, ValidatorIndexCompact)>"), (b!"votes2", b!"Vec<(NominatorIndexCompact, CompactScoreCompact, ValidatorIndexCompact)>"), (b!"votes3", b!"Vec<(NominatorIndexCompact, [CompactScoreCompact; 2], ValidatorIndexCompact)>"), (b!"votes4", b!"Vec<(NominatorIndexCompact, [CompactScoreCompact; 3], ValidatorIndexCompact)>"), (b!"votes5", b!"Vec<(NominatorIndexCompact, [CompactScoreCompact; 4], ValidatorIndexCompact)>"), (b!"votes6", b!"Vec<(NominatorIndexCompact, [CompactScoreCompact; 5], ValidatorIndexCompact)>"), (b!"votes7", b!"Vec<(NominatorIndexCompact, [CompactScoreCompact; 6], ValidatorIndexCompact)>"), (b!"votes8", b!"Vec<(NominatorIndexCompact, [CompactScoreCompact; 7], ValidatorIndexCompact)>"), (b!"votes9", b!"Vec<(NominatorIndexCompact, [CompactScoreCompact; 8], ValidatorIndexCompact)>"), (b!"votes10", b!"Vec<(NominatorIndexCompact, [CompactScoreCompact; 9], ValidatorIndexCompact)>"), (b!"votes11", b!"Vec<(NominatorIndexCompact, [CompactScoreCompact; 10], ValidatorIndexCompact)>"), (b!"votes12", b!"Vec<(NominatorIndexCompact, [CompactScoreCompact; 11], ValidatorIndexCompact)>"), (b!"votes13", b!"Vec<(NominatorIndexCompact, [CompactScoreCompact; 12], ValidatorIndexCompact)>"), (b!"votes14", b!"Vec<(NominatorIndexCompact, [CompactScoreCompact; 13], ValidatorIndexCompact)>"), (b!"votes15", b!"Vec<(NominatorIndexCompact, [CompactScoreCompact; 14], ValidatorIndexCompact)>"), (b!"votes16", b!"Vec<(NominatorIndexCompact, [CompactScoreCompact; 15], ValidatorIndexCompact)>")])),
    (b!"refcount", .u32),
    (b!"balanceof", .balance),
    (b!"dispatchresult", .enum [] (some [(b!"Ok", b!"Null"), (b!"Error", b!"DispatchError")])),
    (b!"address", .lookupSource),
    (b!"lookupsource", .lookupSource),
    (b!"orderinfo", .struct (some [(b!"props", b!"OrderProperty"), (b!"status", b!"OrderStatus"), (b!"remaining", b!"Balance"), (b!"executedIndices", b!"Vec<TradingHistoryIndex>"), (b!"alreadyFilled", b!"Balance"), (b!"lastUpdateAt", b!"BlockNumber")])),
    (b!"orderproperty", .struct (some [(b!"id", b!"OrderId"), (b!"side", b!"Side"), (b!"price", b!"Price"), (b!"amount", b!"Amount"), (b!"pairId", b!"TradingPairId"), (b!"submitter", b!"AccountId"), (b!"orderType", b!"OrderType"), (b!"createdAt", b!"BlockNumber")])),
    (b!"rpcbalance", .string),
    (b!"token", .string),
    (b!"minerledger", .struct (some [(b!"lastMiningWeight", b!"MiningWeight"), (b!"lastMiningWeightUpdate", b!"BlockNumber"), (b!"lastClaim", b!"Option<BlockNumber>")])),
    (b!"unbondedindex", .u32),
    (b!"validatorinfo", .struct (some [(b!"account", b!"AccountId"), (b!"registeredAt", b!"BlockNumber"), (b!"isChilled", b!"bool"), (b!"lastChilled", b!"Option<BlockNumber>"), (b!"totalNomination", b!"RpcBalance"), (b!"lastTotalVoteWeight", b!"RpcVoteWeight"), (b!"lastTotalVoteWeightUpdate", b!"BlockNumber"), (b!"isValidating", b!"bool"), (b!"selfBonded", b!"RpcBalance"), (b!"referralId", b!"String"), (b!"rewardPotAccount", b!"AccountId"), (b!"rewardPotBalance", b!"RpcBalance")])),
    (b!"handicap", .struct (some [(b!"highestBid", b!"Price"), (b!"lowestAsk", b!"Price")])),
    (b!"btcvoteresult", .enum [b!"Unfinish", b!"Finish"] none),
    (b!"miningdistribution", .struct (some [(b!"asset", b!"u32"), (b!"staking", b!"u32")])),
    (b!"btctxstate", .struct (some [(b!"txType", b!"BtcTxType"), (b!"result", b!"BtcTxResult")])),
    (b!"validatorprofile", .struct (some [(b!"registeredAt", b!"BlockNumber"), (b!"isChilled", b!"bool"), (b!"lastChilled", b!"Option<BlockNumber>"), (b!"referralId", b!"ReferralId")])),
    (b!"amount", .intFixed 16),
    (b!"feedetails", .struct (some [(b!"inclusionFee", b!"Option<InclusionFee<Balance>>"), (b!"extraFee", b!"Balance"), (b!"tip", b!"Balance"), (b!"finalFee", b!"Balance")])),
    (b!"btctxresult", .enum [b!"Success", b!"Failure"] none),
    (b!"trusteeinfoconfig", .struct (some [(b!"minTrusteeCount", b!"u32"), (b!"maxTrusteeCount", b!"u32")])),
    (b!"assetrestriction", .enum [b!"Move", b!"Transfer", b!"Deposit", b!"Withdraw", b!"DestroyWithdrawal", b!"DestroyFree"] none),
    (b!"assetledger", .struct (some [(b!"lastTotalMiningWeight", b!"MiningWeight"), (b!"lastTotalMiningWeightUpdate", b!"BlockNumber")])),
    (b!"rpctotalassetinfo", .struct (some [(b!"info", b!"AssetInfo"), (b!"balance", b!"BTreeMap<AssetType, RpcBalance>"), (b!"isOnline", b!"bool"), (b!"restrictions", b!"AssetRestrictions")])),
    (b!"fullpairinfo", .struct (some [(b!"baseCurrency", b!"AssetId"), (b!"highestBid", b!"RpcPrice"), (b!"id", b!"TradingPairId"), (b!"latestPrice", b!"RpcPrice"), (b!"latestPriceUpdatedAt", b!"BlockNumber"), (b!"lowestAsk", b!"RpcPrice"), (b!"maxValidBid", b!"RpcPrice"), (b!"minValidAsk", b!"RpcPrice"), (b!"pipDecimals", b!"u32"), (b!"quoteCurrency", b!"AssetId"), (b!"tickDecimals", b!"u32"), (b!"tradable", b!"bool")])),
    (b!"inclusionfee", .struct (some [(b!"baseFee", b!"Balance"), (b!"lenFee", b!"Balance"), (b!"adjustedWeightFee", b!"Balance")])),
    (b!"btctrusteesessioninfo", .struct (some [(b!"trusteeList", b!"Vec<AccountId>"), (b!"threshold", b!"u16"), (b!"hotAddress", b!"BtcTrusteeAddrInfo"), (b!"coldAddress", b!"BtcTrusteeAddrInfo")])),
    (b!"btcdepositcache", .struct (some [(b!"txid", b!"H256"), (b!"balance", b!"u64")])),
    (b!"rpcfeedetails", .struct (some [(b!"inclusionFee", b!"Option<RpcInclusionFee>"), (b!"tip", b!"RpcBalance"), (b!"extraFee", b!"RpcBalance"), (b!"finalFee", b!"RpcBalance")])),
    (b!"rpcorder", .struct (some [(b!"orderId", b!"OrderId"), (b!"side", b!"Side"), (b!"price", b!"RpcPrice"), (b!"amount", b!"RpcBalance"), (b!"pairId", b!"TradingPairId"), (b!"submitter", b!"AccountId"), (b!"orderType", b!"OrderType"), (b!"createdAt", b!"BlockNumber"), (b!"status", b!"OrderStatus"), (b!"remaining", b!"RpcBalance"), (b!"executedIndices", b!"Vec<TradingHistoryIndex>"), (b!"alreadyFilled", b!"RpcBalance"), (b!"reservedBalance", b!"RpcBalance"), (b!"lastUpdateAt", b!"BlockNumber")])),
    (b!"withdrawalrecordid", .u32),
    (b!"tradinghistoryindex", .u64),
    (b!"assetinfo", .struct (some [(b!"token", b!"String"), (b!"tokenName", b!"String"), (b!"chain", b!"Chain"), (b!"decimals", b!"Decimals"), (b!"desc", b!"String")])),
    (b!"string", .string),
    (b!"btcnetwork", .enum [b!"Mainnet", b!"Testnet"] none),
    (b!"memo", .string),
    (b!"addrstr", .string),
    (b!"generictrusteesessioninfo", .struct (some [(b!"trusteeList", b!"Vec<AccountId>"), (b!"threshold", b!"u16"), (b!"hotAddress", b!"Vec<u8>"), (b!"coldAddress", b!"Vec<u8>")])),
    (b!"assettype", .enum [b!"Usable", b!"Locked", b!"Reserved", b!"ReservedWithdrawal", b!"ReservedDexSpot"] none),
    (b!"rpcminingweight", .string),
    (b!"voteweight", .u128),
    (b!"currencyid", .u32),
    (b!"btcaddress", .string),
    (b!"miningweight", .u128),
    (b!"claimrestriction", .struct (some [(b!"stakingRequirement", b!"StakingRequirement"), (b!"frequencyLimit", b!"BlockNumber")])),
    (b!"btcpartialmerkletree", .bytes),
    (b!"chain", .enum [b!"ChainX", b!"Bitcoin", b!"Ethereum", b!"Polkadot"] none),
    (b!"orderexecutedinfo", .struct (some [(b!"tradingHistoryIdx", b!"TradingHistoryIndex"), (b!"pairId", b!"TradingPairId"), (b!"price", b!"Price"), (b!"maker", b!"AccountId"), (b!"taker", b!"AccountId"), (b!"makerOrderId", b!"OrderId"), (b!"takerOrderId", b!"OrderId"), (b!"turnover", b!"Balance"), (b!"executedAt", b!"BlockNumber")])),
    (b!"rpcminingdividendinfo", .struct (some [(b!"own", b!"RpcBalance"), (b!"other", b!"RpcBalance"), (b!"insufficientStake", b!"RpcBalance")])),
    (b!"nominatorinfo", .struct (some [(b!"lastRebond", b!"Option<BlockNumber>")])),
    (b!"btctrusteeaddrinfo", .struct (some [(b!"addr", b!"BtcAddress"), (b!"redeemScript", b!"Vec<u8>")])),
    (b!"btctxverifier", .enum [b!"Recover", b!"RuntimeInterface"] none),
    (b!"withdrawallimit", .struct (some [(b!"minimalWithdrawal", b!"Balance"), (b!"fee", b!"Balance")])),
    (b!"fullidentification", .accountId),
    (b!"chainaddress", .bytes),
    (b!"btctransaction", .bytes),
    (b!"globaldistribution", .struct (some [(b!"treasury", b!"u32"), (b!"mining", b!"u32")])),
    (b!"tradingpairid", .u32),
    (b!"rpcvoteweight", .string),
    (b!"bondrequirement", .struct (some [(b!"selfBonded", b!"Balance"), (b!"total", b!"Balance")])),
    (b!"rpcinclusionfee", .struct (some [(b!"baseFee", b!"RpcBalance"), (b!"lenFee", b!"RpcBalance"), (b!"adjustedWeightFee", b!"RpcBalance")])),
    (b!"withdrawalrecordof", .struct (some [(b!"assetId", b!"AssetId"), (b!"applicant", b!"AccountId"), (b!"balance", b!"Balance"), (b!"addr", b!"AddrStr"), (b!"ext", b!"Memo"), (b!"height", b!"BlockNumber")])),
    (b!"order", .struct (some [(b!"props", b!"OrderProperty"), (b!"status", b!"OrderStatus"), (b!"remaining", b!"Balance"), (b!"executedIndices", b!"Vec<TradingHistoryIndex>"), (b!"alreadyFilled", b!"Balance"), (b!"lastUpdateAt", b!"BlockNumber")])),
    (b!"orderstatus", .enum [b!"Created", b!"PartialFill", b!"Filled", b!"PartialFillAndCanceled", b!"Canceled"] none),
    (b!"generictrusteeintentionprops", .struct (some [(b!"about", b!"Text"), (b!"hotEntity", b!"Vec<u8>"), (b!"coldEntity", b!"Vec<u8>")])),
    (b!"withdrawalrecord", .struct (some [(b!"assetId", b!"AssetId"), (b!"applicant", b!"AccountId"), (b!"balance", b!"Balance"), (b!"addr", b!"AddrStr"), (b!"ext", b!"Memo"), (b!"height", b!"BlockNumber")])),
    (b!"referralid", .string),
    (b!"btcwithdrawalproposal", .struct (some [(b!"sigState", b!"BtcVoteResult"), (b!"withdrawalIdList", b!"Vec<u32>"), (b!"tx", b!"BtcTransaction"), (b!"trusteeList", b!"Vec<(AccountId, bool)>")])),
    (b!"ordertype", .enum [b!"Limit", b!"Market"] none),
    (b!"fixedassetpower", .u32),
    (b!"miningassetinfo", .struct (some [(b!"assetId", b!"AssetId"), (b!"miningPower", b!"FixedAssetPower"), (b!"rewardPot", b!"AccountId"), (b!"rewardPotBalance", b!"RpcBalance"), (b!"lastTotalMiningWeight", b!"RpcMiningWeight"), (b!"lastTotalMiningWeightUpdate", b!"BlockNumber")])),
    (b!"stakingrequirement", .u32),
    (b!"btcheaderindex", .struct (some [(b!"hash", b!"H256"), (b!"height", b!"u32")])),
    (b!"miningdividendinfo", .struct (some [(b!"own", b!"Balance"), (b!"other", b!"Balance"), (b!"insufficientStake", b!"Balance")])),
    (b!"decimals", .u8),
    (b!"rpcwithdrawalrecord", .struct (some [(b!"assetId", b!"AssetId"), (b!"applicant", b!"AccountId"), (b!"balance", b!"RpcBalance"), (b!"addr", b!"String"), (b!"ext", b!"String"), (b!"height", b!"BlockNumber"), (b!"state", b!"WithdrawalState")])),
    (b!"unbonded", .struct (some [(b!"value", b!"Balance"), (b!"lockedUntil", b!"BlockNumber")])),
    (b!"btcheaderinfo", .struct (some [(b!"header", b!"BtcHeader"), (b!"height", b!"u32")])),
    (b!"btctrusteetype", .bytes),
    (b!"currencypair", .struct (some [(b!"base", b!"AssetId"), (b!"quote", b!"AssetId")])),
    (b!"btctxtype", .enum [b!"Withdrawal", b!"Deposit", b!"HotAndCold", b!"TrusteeTransition", b!"Irrelevance"] none),
    (b!"networktype", .enum [b!"Mainnet", b!"Testnet"] none),
    (b!"btcheader", .bytes),
    (b!"assetrestrictions", .struct (some [(b!"bits", b!"u32")])),
    (b!"tradingpairinfo", .struct (some [(b!"latestPrice", b!"Price"), (b!"lastUpdated", b!"BlockNumber")])),
    (b!"nominatorledger", .struct (some [(b!"nomination", b!"Balance"), (b!"lastVoteWeight", b!"VoteWeight"), (b!"lastVoteWeightUpdate", b!"BlockNumber"), (b!"unbondedChunks", b!"Vec<Unbonded>")])),
    (b!"tradingpairprofile", .struct (some [(b!"id", b!"TradingPairId"), (b!"currencyPair", b!"CurrencyPair"), (b!"pipDecimals", b!"u32"), (b!"tickDecimals", b!"u32"), (b!"tradable", b!"bool")])),
    (b!"handicapinfo", .struct (some [(b!"highestBid", b!"Price"), (b!"lowestAsk", b!"Price")])),
    (b!"price", .balance),
    (b!"currencyidof", .u32),
    (b!"btcparams", .struct (some [(b!"maxBits", b!"u32"), (b!"blockMaxFuture", b!"u32"), (b!"targetTimespanSeconds", b!"u32"), (b!"targetSpacingSeconds", b!"u32"), (b!"retargetingFactor", b!"u32"), (b!"retargetingInterval", b!"u32"), (b!"minTimespan", b!"u32"), (b!"maxTimespan", b!"u32")])),
    (b!"amountof", .intFixed 16),
    (b!"lockedtype", .enum [b!"Bonded", b!"BondedWithdrawal"] none),
    (b!"page", .struct (some [(b!"pageIndex", b!"u32"), (b!"pageSize", b!"u32"), (b!"data", b!"Vec<RpcOrder>")])),
    (b!"desc", .string),
    (b!"assetid", .u32),
    (b!"depth", .struct (some [(b!"asks", b!"Vec<(RpcPrice, RpcBalance)>"), (b!"bids", b!"Vec<(RpcPrice, RpcBalance)>")])),
    (b!"side", .enum [b!"Buy", b!"Sell"] none),
    (b!"orderid", .u64),
    (b!"totalassetinfo", .struct (some [(b!"info", b!"AssetInfo"), (b!"balance", b!"BTreeMap<AssetType, Balance>"), (b!"isOnline", b!"bool"), (b!"restrictions", b!"AssetRestrictions")])),
    (b!"withdrawalstate", .enum [b!"Applying", b!"Processing", b!"NormalFinish", b!"RootFinish", b!"NormalCancel", b!"RootCancel"] none),
    (b!"rpcprice", .string),
    (b!"validatorledger", .struct (some [(b!"totalNomination", b!"Balance"), (b!"lastTotalVoteWeight", b!"VoteWeight"), (b!"lastTotalVoteWeightUpdate", b!"BlockNumber")])),
    (b!"pricefluctuation", .u32),
    (b!"btctrusteeintentionprops", .struct (some [(b!"about", b!"Text"), (b!"hotEntity", b!"BtcTrusteeType"), (b!"coldEntity", b!"BtcTrusteeType")])),
    (b!"btcrelayedtxinfo", .struct (some [(b!"blockHash", b!"H256"), (b!"merkleProof", b!"BtcPartialMerkleTree")])) ]

/-- Classes of the names of network/clover-test.json. -/
def clover_test : List (Str × Cls) :=
  [ (b!"exchangeinfo", .struct (some [(b!"balance", b!"Balance"), (b!"routes", b!"Vec<CurrencyTypeEnum>")])),
    (b!"ratio", .u128),
    (b!"currencyid", .enum [b!"CLV", b!"CUSDT", b!"DOT", b!"CETH"] none),
    (b!"ecdsasignature", .fixedU8 65),
    (b!"price", .u128),
    (b!"poolid", .enum [] (some [(b!"Swap", b!"u64")])),
    (b!"share", .u128),
    (b!"rate", .u128),
    (b!"currencytypeenum", .enum [b!"CLV", b!"CUSDT", b!"DOT", b!"CETH"] none),
    (b!"currencyidof", .enum [b!"CLV", b!"CUSDT", b!"DOT", b!"CETH"] none),
    (b!"amount", .intFixed 16),
    (b!"evmaddress", .hash 20),
    (b!"currencyinfo", .struct (some [(b!"id", b!"CurrencyId"), (b!"name", b!"CurrencyTypeEnum")])),
    (b!"pairkey", .u64),
    (b!"amountof", .intFixed 16),
    (b!"oraclekey", .enum [b!"CLV", b!"CUSDT", b!"DOT", b!"CETH"] none),
    (b!"balance", .u128),
    (b!"weight", .u64),
    (b!"compactassignments", .struct (some [(b!"votes1", b!"Vec<(NominatorIndexCompact, ValidatorIndexCompact)>"), (b!"votes2", b!"Vec<(NominatorIndexCompact, CompactScoreCompact, ValidatorIndexCompact)>"), (b!"votes3", b!"Vec<(NominatorIndexCompact, [CompactScoreCompact; 2], ValidatorIndexCompact)>"), (b!"votes4", b!"Vec<(NominatorIndexCompact, [CompactScoreCompact; 3], ValidatorIndexCompact)>"), (b!"votes5", b!"Vec<(NominatorIndexCompact, [CompactScoreCompact; 4], ValidatorIndexCompact)>"), (b!"votes6", b!"Vec<(NominatorIndexCompact, [CompactScoreCompact; 5], ValidatorIndexCompact)>"), (b!"votes7", b!"Vec<(NominatorIndexCompact, [CompactScoreCompact; 6], ValidatorIndexCompact)>"), (b!"votes8", b!"Vec<(NominatorIndexCompact, [CompactScoreCompact; 7], ValidatorIndexCompact)>"), (b!"votes9", b!"Vec<(NominatorIndexCompact, [CompactScoreCompact; 8], ValidatorIndexCompact)>"), (b!"votes10", b!"Vec<(NominatorIndexCompact, [CompactScoreCompact; 9], ValidatorIndexCompact)>"), (b!"votes11", b!"Vec<(NominatorIndexCompact, [CompactScoreCompact; 10], ValidatorIndexCompact)>"), (b!"votes12", b!"Vec<(NominatorIndexCompact, [CompactScoreCompact; 11], ValidatorIndexCompact)>"), (b!"votes13", b!"Vec<(NominatorIndexCompact, [CompactScoreCompact; 12], ValidatorIndexCompact)>"), (b!"votes14", b!"Vec<(NominatorIndexCompact, [CompactScoreCompact; 13], ValidatorIndexCompact)>"), (b!"votes15", b!"Vec<(NominatorIndexCompact, [CompactScoreCompact; 14], ValidatorIndexCompact)>"), (b!"votes16", b!"Vec<(NominatorIndexCompact, [CompactScoreCompact; 15], ValidatorIndexCompact)>")])),
    (b!"refcount", .u32),
    (b!"dispatchresult", .enum [] (some [(b!"Ok", b!"Null"), (b!"Error", b!"DispatchError")])),
    (b!"transactionrecoveryid", .u64),
    (b!"transactionsignature", .struct (some [(b!"v", b!"TransactionRecoveryId"), (b!"r", b!"H256"), (b!"s", b!"H256")])),
    (b!"address", .enum [] (some [(b!"Id", b!"AccountId"), (b!"Index", b!"Compact<AccountIndex>"), (b!"Raw", b!"Bytes"), (b!"Address32", b!"H256"), (b!"Address20", b!"H160")])),
    (b!"lookupsource", .enum [] (some [(b!"Id", b!"AccountId"), (b!"Index", b!"Compact<AccountIndex>"), (b!"Raw", b!"Bytes"), (b!"Address32", b!"H256"), (b!"Address20", b!"H160")])),
    (b!"accountinfo", .struct (some [(b!"nonce", b!"Index"), (b!"consumers", b!"RefCount"), (b!"providers", b!"RefCount"), (b!"data", b!"AccountData")])),
    (b!"keys", .struct (some [(b!"col1", b!"AccountId"), (b!"col2", b!"AccountId"), (b!"col3", b!"AccountId"), (b!"col4", b!"AccountId")])),
    (b!"fixedu128", .u128),
    (b!"ethereumtxhash", .hash 32),
    (b!"bridgenetworks", .enum [b!"BSC", b!"Ethereum"] none) ]

/-- Classes of the names of network/clover.json. -/
def clover : List (Str × Cls) :=
  [ (b!"exchangeinfo", .struct (some [(b!"balance", b!"Balance"), (b!"routes", b!"Vec<CurrencyTypeEnum>")])),
    (b!"ratio", .u128),
    (b!"currencyid", .enum [b!"CLV", b!"CUSDT", b!"DOT", b!"CETH"] none),
    (b!"ecdsasignature", .fixedU8 65),
    (b!"price", .u128),
    (b!"poolid", .enum [] (some [(b!"Swap", b!"u64")])),
    (b!"share", .u128),
    (b!"rate", .u128),
    (b!"currencytypeenum", .enum [b!"CLV", b!"CUSDT", b!"DOT", b!"CETH"] none),
    (b!"currencyidof", .enum [b!"CLV", b!"CUSDT", b!"DOT", b!"CETH"] none),
    (b!"amount", .intFixed 16),
    (b!"evmaddress", .hash 20),
    (b!"currencyinfo", .struct (some [(b!"id", b!"CurrencyId"), (b!"name", b!"CurrencyTypeEnum")])),
    (b!"pairkey", .u64),
    (b!"amountof", .intFixed 16),
    (b!"oraclekey", .enum [b!"CLV", b!"CUSDT", b!"DOT", b!"CETH"] none),
    (b!"balance", .u128),
    (b!"weight", .u64),
    (b!"compactassignments", .struct (some [(b!"votes1", b!"Vec<(NominatorIndexCompact, ValidatorIndexCompact)>"), (b!"votes2", b!"Vec<(NominatorIndexCompact, CompactScoreCompact, ValidatorIndexCompact)>"), (b!"votes3", b!"Vec<(NominatorIndexCompact, [CompactScoreCompact; 2], ValidatorIndexCompact)>"), (b!"votes4", b!"Vec<(NominatorIndexCompact, [CompactScoreCompact; 3], ValidatorIndexCompact)>"), (b!"votes5", b!"Vec<(NominatorIndexCompact, [CompactScoreCompact; 4], ValidatorIndexCompact)>"), (b!"votes6", b!"Vec<(NominatorIndexCompact, [CompactScoreCompact; 5], ValidatorIndexCompact)>"), (b!"votes7", b!"Vec<(NominatorIndexCompact, [CompactScoreCompact; 6], ValidatorIndexCompact)>"), (b!"votes8", b!"Vec<(NominatorIndexCompact, [CompactScoreCompact; 7], ValidatorIndexCompact)>"), (b!"votes9", b!"Vec<(NominatorIndexCompact, [CompactScoreCompact; 8], ValidatorIndexCompact)>"), (b!"votes10", b!"Vec<(NominatorIndexCompact, [CompactScoreCompact; 9], ValidatorIndexCompact)>"), (b!"votes11", b!"Vec<(NominatorIndexCompact, [CompactScoreCompact; 10], ValidatorIndexCompact)>"), (b!"votes12", b!"Vec<(NominatorIndexCompact, [CompactScoreCompact; 11], ValidatorIndexCompact)>"), (b!"votes13", b!"Vec<(NominatorIndexCompact, [CompactScoreCompact; 12], ValidatorIndexCompact)>"), (b!"votes14", b!"Vec<(NominatorIndexCompact, [CompactScoreCompact; 13], ValidatorIndexCompact)>"), (b!"votes15", b!"Vec<(NominatorIndexCompact, [CompactScoreCompact; 14], ValidatorIndexCompact)>"), (b!"votes16", b!"Vec<(NominatorIndexCompact, [CompactScoreCompact; 15], ValidatorIndexCompact)>")])),
    (b!"refcount", .u32),
    (b!"dispatchresult", .enum [] (some [(b!"Ok", b!"Null"), (b!"Error", b!"DispatchError")])),
    (b!"transactionrecoveryid", .u64),
    (b!"transactionsignature", .struct (some [(b!"v", b!"TransactionRecoveryId"), (b!"r", b!"H256"), (b!"s", b!"H256")])),
    (b!"address", .enum [] (some [(b!"Id", b!"AccountId"), (b!"Index", b!"Compact<AccountIndex>"), (b!"Raw", b!"Bytes"), (b!"Address32", b!"H256"), (b!"Address20", b!"H160")])),
    (b!"lookupsource", .enum [] (some [(b!"Id", b!"AccountId"), (b!"Index", b!"Compact<AccountIndex>"), (b!"Raw", b!"Bytes"), (b!"Address32", b!"H256"), (b!"Address20", b!"H160")])),
    (b!"accountinfo", .struct (some [(b!"nonce", b!"Index"), (b!"consumers", b!"RefCount"), (b!"providers", b!"RefCount"), (b!"data", b!"AccountData")])),
    (b!"keys", .struct (some [(b!"col1", b!"AccountId"), (b!"col2", b!"AccountId"), (b!"col3", b!"AccountId"), (b!"col4", b!"AccountId")])),
    (b!"fixedu128", .u128),
    (b!"bridgenetworks", .enum [b!"BSC", b!"Ethereum"] none),
    (b!"ethereumtxhash", .hash 32) ]

/-- Classes of the names of network/crab.json. -/
def crab : List (Str × Cls) :=
  [ (b!"u256", .fixedU8 32),
    (b!"h128", .fixedU8 16),
    (b!"tsinms", .u64),
    (b!"ringbalance", .balance),
    (b!"ktonbalance", .balance),
    (b!"momentt", .moment),
    (b!"power", .u32),
    (b!"depositid", .fixedU8 32),
    (b!"ethblocknumber", .u64),
    (b!"ethereumblocknumber", .u64),
    (b!"ethaddress", .hash 20),
    (b!"ethtransactionindex", .struct (some [(b!"col1", b!"H256"), (b!"col2", b!"u64")])),
    (b!"ethereumtransactionindex", .struct (some [(b!"col1", b!"H256"), (b!"col2", b!"u64")])),
    (b!"balanceinfo", .null),
    (b!"addresst", .hash 20),
    (b!"tronaddress", .hash 20),
    (b!"bloom", .fixedU8 256),
    (b!"h", .hash 32),
    (b!"address", .accountId),
    (b!"lookupsource", .accountId),
    (b!"ethereumaddress", .hash 20),
    (b!"mappedring", .u128),
    (b!"keys", .struct (some [(b!"babe", b!"AccountId"), (b!"grandpa", b!"AccountId"), (b!"im_online", b!"AccountId"), (b!"authority_discovery", b!"AccountId")])),
    (b!"weight", .u64),
    (b!"moduleid", .fixedU8 8),
    (b!"runtimedbweight", .struct (some [(b!"read", b!"u128"), (b!"read", b!"write")])),
    (b!"spanrecord", .struct (some [(b!"slashed", b!"RKT"), (b!"paid_out", b!"RKT")])),
    (b!"stakingruntimedispatchinfo", .struct (some [(b!"power", b!"Power")])),
    (b!"balancesruntimedispatchinfo", .struct (some [(b!"usable_balance", b!"Balance")])),
    (b!"stakingbalance", .enum [] (some [(b!"RingBalance", b!"Balance"), (b!"KtonBalance", b!"Balance")])),
    (b!"stakingledger", .struct (some [(b!"stash", b!"AccountId"), (b!"active_ring", b!"Compact<Balance>"), (b!"active_deposit_ring", b!"Compact<Balance>"), (b!"active_kton", b!"Compact<Balance>"), (b!"deposit_items", b!"Vec<TimeDepositItem>"), (b!"ring_staking_lock", b!"StakingLock"), (b!"kton_staking_lock", b!"StakingLock"), (b!"last_reward", b!"Option<EraIndex>")])),
    (b!"timedeposititem", .struct (some [(b!"value", b!"Compact<Balance>"), (b!"start_time", b!"Compact<TsInMs>"), (b!"expire_time", b!"Compact<TsInMs>")])),
    (b!"staked", .struct (some [(b!"promise_month", b!"u8")])),
    (b!"exposure", .struct (some [(b!"own_ring_balance", b!"Compact<Balance>"), (b!"own_kton_balance", b!"Compact<Balance>"), (b!"own_power", b!"Power"), (b!"total_power", b!"Power"), (b!"others", b!"Vec<IndividualExposure>")])),
    (b!"individualexposure", .struct (some [(b!"who", b!"AccountId"), (b!"ring_balance", b!"Compact<Balance>"), (b!"kton_balance", b!"Compact<Balance>"), (b!"power", b!"Power")])),
    (b!"validatorreward", .struct (some [(b!"who", b!"AccountId"), (b!"amount", b!"Compact<Balance>"), (b!"nominators_reward", b!"Vec<NominatorReward>")])),
    (b!"nominatorreward", .struct (some [(b!"who", b!"AccountId"), (b!"amount", b!"Compact<Balance>")])),
    (b!"rk", .struct (some [(b!"r", b!"Balance"), (b!"k", b!"Balance")])),
    (b!"balancelock<balance, blocknumber>", .struct (some [(b!"id", b!"LockIdentifier"), (b!"lock_for", b!"LockFor"), (b!"lock_reasons", b!"LockReasons")])),
    (b!"lockfor", .enum [] (some [(b!"Common", b!"Common"), (b!"Staking", b!"StakingLock")])),
    (b!"common", .struct (some [(b!"amount", b!"Balance")])),
    (b!"stakinglock", .struct (some [(b!"staking_amount", b!"Balance"), (b!"unbondings", b!"Vec<Unbonding>")])),
    (b!"lockreasons", .enum [] (some [(b!"Fee", b!"null"), (b!"Misc", b!"null"), (b!"All", b!"null")])),
    (b!"accountdata", .struct (some [(b!"free", b!"Balance"), (b!"reserved", b!"Balance"), (b!"free_kton", b!"Balance"), (b!"reserved_kton", b!"Balance")])),
    (b!"ethheaderbrief", .struct (some [(b!"total_difficulty", b!"U256"), (b!"parent_hash", b!"H256"), (b!"number", b!"EthBlockNumber"), (b!"relayer", b!"AccountId")])),
    (b!"ethereumheader", .struct (some [(b!"parent_hash", b!"H256"), (b!"timestamp", b!"u64"), (b!"number", b!"EthereumBlockNumber"), (b!"author", b!"EthereumAddress"), (b!"transactions_root", b!"H256"), (b!"uncles_hash", b!"H256"), (b!"extra_data", b!"Bytes"), (b!"state_root", b!"H256"), (b!"receipts_root", b!"H256"), (b!"log_bloom", b!"Bloom"), (b!"gas_used", b!"U256"), (b!"gas_limit", b!"U256"), (b!"difficulty", b!"U256"), (b!"seal", b!"Vec<Bytes>"), (b!"hash", b!"Option<H256>")])),
    (b!"ethheaderbrief::<accountid>", .struct (some [(b!"total_difficulty", b!"U256"), (b!"parent_hash", b!"H256"), (b!"number", b!"EthBlockNumber"), (b!"relayer", b!"AccountId")])),
    (b!"headerinfo", .struct (some [(b!"total_difficulty", b!"U256"), (b!"parent_hash", b!"H256"), (b!"number", b!"EthBlockNumber")])),
    (b!"ethheader", .struct (some [(b!"parent_hash", b!"H256"), (b!"timestamp", b!"u64"), (b!"number", b!"EthBlockNumber"), (b!"auth", b!"EthAddress"), (b!"transaction_root", b!"H256"), (b!"uncles_hash", b!"H256"), (b!"extra_data", b!"Bytes"), (b!"state_root", b!"H256"), (b!"receipts_root", b!"H256"), (b!"log_bloom", b!"Bloom"), (b!"gas_used", b!"U256"), (b!"gas_limit", b!"U256"), (b!"difficulty", b!"U256"), (b!"seal", b!"Vec<Bytes>"), (b!"hash", b!"Option<H256>")])),
    (b!"receipt", .struct (some [(b!"gas_used", b!"U256"), (b!"log_bloom", b!"Bloom"), (b!"logs", b!"Vec<LogEntry>"), (b!"outcome", b!"TransactionOutcome")])),
    (b!"ethereumreceipt", .struct (some [(b!"gas_used", b!"U256"), (b!"log_bloom", b!"Bloom"), (b!"logs", b!"Vec<LogEntry>"), (b!"outcome", b!"TransactionOutcome")])),
    (b!"ethreceiptproof", .struct (some [(b!"index", b!"u64"), (b!"proof", b!"Bytes"), (b!"header_hash", b!"H256")])),
    (b!"ethnetworktype", .enum [] (some [(b!"Mainnet", b!"null"), (b!"Ropsten", b!"null")])),
    (b!"redeemfor", .enum [] (some [(b!"Token", b!"NULL"), (b!"Deposit", b!"NULL")])),
    (b!"ethereumreceiptproofthing", .struct (some [(b!"col1", b!"EthereumHeader"), (b!"col2", b!"EthereumReceiptProof"), (b!"col3", b!"MMRProof")])),
    (b!"othersignature", .enum [] (some [(b!"Eth", b!"EcdsaSignature"), (b!"Tron", b!"EcdsaSignature")])),
    (b!"otheraddress", .enum [] (some [(b!"Eth", b!"EthereumAddress"), (b!"Tron", b!"EthereumAddress")])),
    (b!"merklemountainrangeroot", .struct (some [(b!"data", b!"Hash")])),
    (b!"merklemountainrangerootlog", .struct (some [(b!"prefix", b!"[u8; 4]"), (b!"mmr_root", b!"Hash")])),
    (b!"doublenodewithmerkleproof", .struct (some [(b!"dag_nodes", b!"[H512; 2]"), (b!"proof", b!"Vec<H128>")])),
    (b!"stakingbalancet", .enum [] (some [(b!"RingBalance", b!"Balance"), (b!"KtonBalance", b!"Balance")])),
    (b!"stakingledgert", .struct (some [(b!"stash", b!"AccountId"), (b!"active_ring", b!"Compact<Balance>"), (b!"active_deposit_ring", b!"Compact<Balance>"), (b!"active_kton", b!"Compact<Balance>"), (b!"deposit_items", b!"Vec<TimeDepositItem>"), (b!"ring_staking_lock", b!"StakingLock"), (b!"kton_staking_lock", b!"StakingLock"), (b!"claimed_rewards", b!"Vec<EraIndex>")])),
    (b!"exposuret", .struct (some [(b!"own_ring_balance", b!"Compact<Balance>"), (b!"own_kton_balance", b!"Compact<Balance>"), (b!"own_power", b!"Power"), (b!"total_power", b!"Power"), (b!"others", b!"Vec<IndividualExposure>")])),
    (b!"fullidentification", .struct (some [(b!"own_ring_balance", b!"Compact<Balance>"), (b!"own_kton_balance", b!"Compact<Balance>"), (b!"own_power", b!"Power"), (b!"total_power", b!"Power"), (b!"others", b!"Vec<IndividualExposure>")])),
    (b!"rkt", .struct (some [(b!"r", b!"Balance"), (b!"k", b!"Balance")])),
    (b!"dispatchresult", .enum [] (some [(b!"Ok", b!"Null"), (b!"Error", b!"DispatchError")])),
    (b!"opentip<accountid, ringbalance, blocknumber, hash>", .struct (some [(b!"reason", b!"Hash"), (b!"who", b!"AccountId"), (b!"finder", b!"Option<OpenTipFinder>"), (b!"closes", b!"Option<BlockNumber>"), (b!"tips", b!"Vec<OpenTipTip>")])),
    (b!"slashing::spanrecord<ringbalance, ktonbalance>", .struct (some [(b!"slashed", b!"RKT"), (b!"paid_out", b!"RKT")])),
    (b!"slashing::rkt", .struct (some [(b!"r", b!"Balance"), (b!"k", b!"Balance")])),
    (b!"mmrhash", .bytes),
    (b!"rawheaderthing", .bytes),
    (b!"ethereumnetworktype", .enum [] (some [(b!"Mainnet", b!"null"), (b!"Ropsten", b!"null")])),
    (b!"ethashproof", .struct (some [(b!"dag_nodes", b!"[H512; 2]"), (b!"proof", b!"Vec<H128>")])),
    (b!"mmrproof", .vec b!"H256"),
    (b!"mmrproof#11-?", .struct (some [(b!"member_leaf_index", b!"u64"), (b!"last_leaf_index", b!"u64"), (b!"proof", b!"Vec<H256>")])),
    (b!"proposal", .struct (some [(b!"proposer", b!"AccountId"), (b!"beneficiary", b!"AccountId"), (b!"ring_value", b!"Balance"), (b!"kton_value", b!"Balance"), (b!"ring_bond", b!"Balance"), (b!"kton_bond", b!"Balance")])),
    (b!"unappliedslash", .struct (some [(b!"validator", b!"AccountId"), (b!"own", b!"RKT"), (b!"others", b!"Vec<(AccountId, RKT)>"), (b!"reporters", b!"Vec<AccountId>"), (b!"payout", b!"RKT")])),
    (b!"electionresultt", .struct (some [(b!"elected_stashes", b!"Vec<AccountId>"), (b!"exposures", b!"Vec<(AccountId, ExposureT)>"), (b!"compute", b!"ElectionCompute")])),
    (b!"ethereumreceiptproof", .struct (some [(b!"index", b!"u64"), (b!"proof", b!"Bytes"), (b!"header_hash", b!"H256")])),
    (b!"unbonding", .struct (some [(b!"amount", b!"Balance"), (b!"moment", b!"BlockNumber")])),
    (b!"relayvotingstate", .struct (some [(b!"ayes", b!"Vec<AccountId>"), (b!"nays", b!"Vec<AccountId>")])),
    (b!"tcheadermmr", .bytes),
    (b!"compactassignments#17-?", .struct (some [(b!"votes1", b!"Vec<(NominatorIndexCompact, ValidatorIndexCompact)>"), (b!"votes2", b!"Vec<(NominatorIndexCompact, CompactScoreCompact, ValidatorIndexCompact)>"), (b!"votes3", b!"Vec<(NominatorIndexCompact, [CompactScoreCompact; 2], ValidatorIndexCompact)>"), (b!"votes4", b!"Vec<(NominatorIndexCompact, [CompactScoreCompact; 3], ValidatorIndexCompact)>"), (b!"votes5", b!"Vec<(NominatorIndexCompact, [CompactScoreCompact; 4], ValidatorIndexCompact)>"), (b!"votes6", b!"Vec<(NominatorIndexCompact, [CompactScoreCompact; 5], ValidatorIndexCompact)>"), (b!"votes7", b!"Vec<(NominatorIndexCompact, [CompactScoreCompact; 6], ValidatorIndexCompact)>"), (b!"votes8", b!"Vec<(NominatorIndexCompact, [CompactScoreCompact; 7], ValidatorIndexCompact)>"), (b!"votes9", b!"Vec<(NominatorIndexCompact, [CompactScoreCompact; 8], ValidatorIndexCompact)>"), (b!"votes10", b!"Vec<(NominatorIndexCompact, [CompactScoreCompact; 9], ValidatorIndexCompact)>"), (b!"votes11", b!"Vec<(NominatorIndexCompact, [CompactScoreCompact; 10], ValidatorIndexCompact)>"), (b!"votes12", b!"Vec<(NominatorIndexCompact, [CompactScoreCompact; 11], ValidatorIndexCompact)>"), (b!"votes13", b!"Vec<(NominatorIndexCompact, [CompactScoreCompact; 12], ValidatorIndexCompact)>"), (b!"votes14", b!"Vec<(NominatorIndexCompact, [CompactScoreCompact; 13], ValidatorIndexCompact)>"), (b!"votes15", b!"Vec<(NominatorIndexCompact, [CompactScoreCompact; 14], ValidatorIndexCompact)>"), (b!"votes16", b!"Vec<(NominatorIndexCompact, [CompactScoreCompact; 15], ValidatorIndexCompact)>")])),
    (b!"proxytype", .enum [b!"Any", b!"NonTransfer", b!"Governance", b!"Staking", b!"IdentityJudgement", b!"EthereumBridge"] none),
    (b!"treasuryproposal", .struct (some [(b!"proposer", b!"AccountId"), (b!"beneficiary", b!"AccountId"), (b!"ring_value", b!"Balance"), (b!"kton_value", b!"Balance"), (b!"ring_bond", b!"Balance"), (b!"kton_bond", b!"Balance")])),
    (b!"refcount#21-?", .u32),
    (b!"ethereumrelayheaderparcel", .struct (some [(b!"header", b!"EthereumHeader"), (b!"mmr_root", b!"H256")])),
    (b!"ethereumrelayproofs", .struct (some [(b!"ethash_proof", b!"Vec<EthashProof>"), (b!"mmr_proof", b!"Vec<H256>")])),
    (b!"relayheaderid", .u64),
    (b!"relayheaderparcel", .struct (some [(b!"header", b!"EthereumHeader"), (b!"mmr_root", b!"H256")])),
    (b!"relayproofs", .struct (some [(b!"ethash_proof", b!"Vec<EthashProof>"), (b!"mmr_proof", b!"Vec<H256>")])),
    (b!"relayaffirmationid", .struct (some [(b!"game_id", b!"EthereumBlockNumber"), (b!"round", b!"u32"), (b!"index", b!"u32")])),
    (b!"relayaffirmationt", .struct (some [(b!"relayer", b!"AccountId"), (b!"relay_header_parcels", b!"EthereumRelayHeaderParcel"), (b!"bond", b!"Balance"), (b!"maybe_extended_relay_affirmation_id", b!"Option<RelayAffirmationId>"), (b!"verified", b!"bool")])),
    (b!"signer", .hash 20),
    (b!"relayauthorityt", .struct (some [(b!"accountId", b!"AccountId"), (b!"signer", b!"Signer"), (b!"stake", b!"Balance"), (b!"term", b!"BlockNumber")])),
    (b!"mmrroot", .hash 32),
    (b!"ecdsaaddress", .hash 20),
    (b!"ecdsasignature", .fixedU8 65),
    (b!"ecdsamessage", .hash 32),
    (b!"relayauthoritymessage", .hash 32),
    (b!"relayauthoritysignature", .fixedU8 65),
    (b!"relayauthoritysignature<t, i>", .fixedU8 65),
    (b!"term", .u32),
    (b!"opcode", .fixedU8 4),
    (b!"scheduledauthoritieschange", .struct (some [(b!"next_authorities", b!"Vec<RelayAuthorityT>"), (b!"deadline", b!"BlockNumber")])),
    (b!"scheduledauthoritieschanget", .struct (some [(b!"next_authorities", b!"Vec<RelayAuthorityT>"), (b!"deadline", b!"BlockNumber")])),
    (b!"accountinfo#42-42", .struct (some [(b!"nonce", b!"Index"), (b!"consumers", b!"RefCount"), (b!"providers", b!"RefCount"), (b!"data", b!"AccountData")])),
    (b!"address#42-?", .enum [] (some [(b!"Id", b!"AccountId"), (b!"Index", b!"Compact<AccountIndex>"), (b!"Raw", b!"Bytes"), (b!"Address32", b!"H256"), (b!"Address20", b!"H160")])),
    (b!"lookupsource#42-?", .enum [] (some [(b!"Id", b!"AccountId"), (b!"Index", b!"Compact<AccountIndex>"), (b!"Raw", b!"Bytes"), (b!"Address32", b!"H256"), (b!"Address20", b!"H160")])),
    (b!"validatorprefs#42-?", .struct (some [(b!"commission", b!"Compact<Perbill>"), (b!"blocked", b!"bool")])),
    (b!"accountinfo#43-?", .struct (some [(b!"nonce", b!"Index"), (b!"consumers", b!"RefCount"), (b!"providers", b!"RefCount"), (b!"sufficients", b!"RefCount"), (b!"data", b!"AccountData")])),
    (b!"exitreason", .enum [] (some [(b!"Succeed", b!"ExitSucceed"), (b!"Error", b!"ExitError"), (b!"Revert", b!"ExitRevert"), (b!"Fatal", b!"ExitFatal")])),
    (b!"exitsucceed", .enum [b!"Stopped", b!"Returned", b!"Suicided"] none),
    (b!"exiterror", .enum [] (some [(b!"StackUnderflow", b!"NULL"), (b!"StackOverflow", b!"NULL"), (b!"InvalidJump", b!"NULL"), (b!"InvalidRange", b!"NULL"), (b!"DesignatedInvalid", b!"NULL"), (b!"CallTooDeep", b!"NULL"), (b!"CreateCollision", b!"NULL"), (b!"CreateContractLimit", b!"NULL"), (b!"OutOfOffset", b!"NULL"), (b!"OutOfGas", b!"NULL"), (b!"OutOfFund", b!"NULL"), (b!"PCUnderflow", b!"NULL"), (b!"CreateEmpty", b!"NULL"), (b!"Other", b!"string")])),
    (b!"exitfatal", .enum [] (some [(b!"NotSupported", b!"NULL"), (b!"UnhandledInterrupt", b!"NULL"), (b!"CallErrorAsFatal", b!"NULL"), (b!"Other", b!"string")])),
    (b!"blocktransactions", .enum [] (some [(b!"Hashes", b!"Vec<H256>"), (b!"Full", b!"Vec<ethereum::Transaction>")])),
    (b!"exitrevert", .enum [b!"Reverted"] none),
    (b!"ethereum::block", .struct (some [(b!"hash", b!"Option<H256>"), (b!"parent_hash", b!"H256"), (b!"uncles_hash", b!"H256"), (b!"author", b!"H160"), (b!"miner", b!"H160"), (b!"state_root", b!"H256"), (b!"transactions_root", b!"H256"), (b!"receipts_root", b!"H256"), (b!"number", b!"Option<U256>"), (b!"gas_used", b!"U256"), (b!"gas_limit", b!"U256"), (b!"extra_data", b!"Bytes"), (b!"logs_bloom", b!"Option<H2048>"), (b!"timestamp", b!"U256"), (b!"difficulty", b!"U256"), (b!"total_difficulty", b!"Option<U256>"), (b!"seal_fields", b!"Vec<Bytes>"), (b!"uncles", b!"Vec<H256>"), (b!"transactions", b!"BlockTransactions"), (b!"size", b!"Option<U256>")])),
    (b!"transactionaction", .enum [] (some [(b!"Call", b!"H160"), (b!"Create", b!"NULL")])),
    (b!"log", .struct (some [(b!"address", b!"H160"), (b!"topics", b!"Vec<H256>"), (b!"data", b!"Vec<u8>")])),
    (b!"transactionsignature", .struct (some [(b!"v", b!"TransactionRecoveryId"), (b!"r", b!"H256"), (b!"s", b!"H256")])),
    (b!"transactionrecoveryid", .u64),
    (b!"nodeindex", .u64),
    (b!"mmrnodespruningconfiguration", .struct (some [(b!"step", b!"NodeIndex"), (b!"progress", b!"NodeIndex"), (b!"last_position", b!"NodeIndex")])),
    (b!"blocknumberfor", .u32) ]

/-- Classes of the names of network/crust-main.json. -/
def crust_main : List (Str × Cls) :=
  [ (b!"reportslot", .u64),
    (b!"group", .struct (some [(b!"members", b!"BTreeSet<AccountId>"), (b!"allowlist", b!"BTreeSet<AccountId>")])),
    (b!"merchantledger", .struct (some [(b!"reward", b!"Balance"), (b!"collateral", b!"Balance")])),
    (b!"iassig", .hexBytes),
    (b!"sworkbenefit", .struct (some [(b!"total_funds", b!"Compact<Balance>"), (b!"active_funds", b!"Compact<Balance>"), (b!"total_fee_reduction_count", b!"u32"), (b!"used_fee_reduction_count", b!"u32"), (b!"refreshed_at", b!"Compact<EraIndex>"), (b!"unlocking_funds", b!"Vec<FundsUnlockChunk<Balance>>")])),
    (b!"accountinfo", .struct (some [(b!"nonce", b!"Index"), (b!"consumers", b!"RefCount"), (b!"providers", b!"RefCount"), (b!"data", b!"AccountData")])),
    (b!"erabenefits", .struct (some [(b!"total_fee_reduction_quota", b!"Compact<Balance>"), (b!"total_market_active_funds", b!"Compact<Balance>"), (b!"used_fee_reduction_quota", b!"Compact<Balance>"), (b!"active_era", b!"Compact<EraIndex>")])),
    (b!"sworkersignature", .hexBytes),
    (b!"usedinfo", .struct (some [(b!"used_size", b!"u64"), (b!"reported_group_count", b!"u32"), (b!"groups", b!"BTreeMap<SworkerAnchor, bool>")])),
    (b!"status", .enum [b!"Free", b!"Reserved"] none),
    (b!"csmledger", .struct (some [(b!"total", b!"Compact<Balance>"), (b!"active", b!"Compact<Balance>"), (b!"unlocking", b!"Vec<CSMUnlockChunk<Balance>>")])),
    (b!"ethereumtxhash", .hash 32),
    (b!"releases", .enum [b!"V1_0_0", b!"V2_0_0"] none),
    (b!"csmbalanceof", .balance),
    (b!"fundstype", .enum [b!"SWORK", b!"MARKET"] none),
    (b!"validatorprefs", .struct (some [(b!"guarantee_fee", b!"Compact<Perbill>")])),
    (b!"sworkeranchor", .hexBytes),
    (b!"address", .accountId),
    (b!"identity", .struct (some [(b!"anchor", b!"SworkerAnchor"), (b!"punishment_deadline", b!"u64"), (b!"group", b!"Option<AccountId>")])),
    (b!"sworkercode", .hexBytes),
    (b!"merkleroot", .hexBytes),
    (b!"workreport", .struct (some [(b!"report_slot", b!"u64"), (b!"spower", b!"u64"), (b!"free", b!"u64"), (b!"reported_files_size", b!"u64"), (b!"reported_srd_root", b!"MerkleRoot"), (b!"reported_files_root", b!"MerkleRoot")])),
    (b!"csmunlockchunk", .struct (some [(b!"value", b!"Compact<Balance>"), (b!"bn", b!"Compact<BlockNumber>")])),
    (b!"lookupsource", .accountId),
    (b!"sworkercert", .hexBytes),
    (b!"ethaddress", .hexBytes),
    (b!"guarantee", .struct (some [(b!"targets", b!"Vec<IndividualExposure<AccountId, Balance>>"), (b!"total", b!"Compact<Balance>"), (b!"submitted_in", b!"EraIndex"), (b!"suppressed", b!"bool")])),
    (b!"csmbalance", .balance),
    (b!"marketbenefit", .struct (some [(b!"total_funds", b!"Compact<Balance>"), (b!"active_funds", b!"Compact<Balance>"), (b!"used_fee_reduction_quota", b!"Compact<Balance>"), (b!"file_reward", b!"Compact<Balance>"), (b!"refreshed_at", b!"Compact<EraIndex>"), (b!"unlocking_funds", b!"Vec<FundsUnlockChunk<Balance>>")])),
    (b!"feereductionbenefit", .struct (some [(b!"funds", b!"Balance"), (b!"total_fee_reduction_count", b!"u32"), (b!"used_fee_reduction_quota", b!"Balance"), (b!"used_fee_reduction_count", b!"u32"), (b!"refreshed_at", b!"EraIndex")])),
    (b!"fileinfo", .struct (some [(b!"file_size", b!"u64"), (b!"spower", b!"u64"), (b!"expired_on", b!"BlockNumber"), (b!"calculated_at", b!"BlockNumber"), (b!"amount", b!"Compact<Balance>"), (b!"prepaid", b!"Compact<Balance>"), (b!"reported_replica_count", b!"u32"), (b!"replicas", b!"Vec<Replica<AccountId>>")])),
    (b!"isvbody", .hexBytes),
    (b!"sworkerpubkey", .hexBytes),
    (b!"lock", .struct (some [(b!"total", b!"Compact<Balance>"), (b!"last_unlock_at", b!"BlockNumber"), (b!"lock_type", b!"LockType")])),
    (b!"replica", .struct (some [(b!"who", b!"AccountId"), (b!"valid_at", b!"BlockNumber"), (b!"anchor", b!"SworkerAnchor"), (b!"is_reported", b!"bool"), (b!"created_at", b!"Option<BlockNumber>")])),
    (b!"pkinfo", .struct (some [(b!"code", b!"SworkerCode"), (b!"anchor", b!"Option<SworkerAnchor>")])),
    (b!"addressinfo", .hexBytes),
    (b!"locktype", .struct (some [(b!"delay", b!"BlockNumber"), (b!"lock_period", b!"u32")])),
    (b!"fundsunlockchunk", .struct (some [(b!"value", b!"Compact<Balance>"), (b!"era", b!"Compact<EraIndex>")])),
    (b!"weight", .u64),
    (b!"compactassignments", .struct (some [(b!"votes1", b!"Vec<(NominatorIndexCompact, ValidatorIndexCompact)>"), (b!"votes2", b!"Vec<(NominatorIndexCompact, CompactScoreCompact, ValidatorIndexCompact)>"), (b!"votes3", b!"Vec<(NominatorIndexCompact, [CompactScoreCompact; 2], ValidatorIndexCompact)>"), (b!"votes4", b!"Vec<(NominatorIndexCompact, [CompactScoreCompact; 3], ValidatorIndexCompact)>"), (b!"votes5", b!"Vec<(NominatorIndexCompact, [CompactScoreCompact; 4], ValidatorIndexCompact)>"), (b!"votes6", b!"Vec<(NominatorIndexCompact, [CompactScoreCompact; 5], ValidatorIndexCompact)>"), (b!"votes7", b!"Vec<(NominatorIndexCompact, [CompactScoreCompact; 6], ValidatorIndexCompact)>"), (b!"votes8", b!"Vec<(NominatorIndexCompact, [CompactScoreCompact; 7], ValidatorIndexCompact)>"), (b!"votes9", b!"Vec<(NominatorIndexCompact, [CompactScoreCompact; 8], ValidatorIndexCompact)>"), (b!"votes10", b!"Vec<(NominatorIndexCompact, [CompactScoreCompact; 9], ValidatorIndexCompact)>"), (b!"votes11", b!"Vec<(NominatorIndexCompact, [CompactScoreCompact; 10], ValidatorIndexCompact)>"), (b!"votes12", b!"Vec<(NominatorIndexCompact, [CompactScoreCompact; 11], ValidatorIndexCompact)>"), (b!"votes13", b!"Vec<(NominatorIndexCompact, [CompactScoreCompact; 12], ValidatorIndexCompact)>"), (b!"votes14", b!"Vec<(NominatorIndexCompact, [CompactScoreCompact; 13], ValidatorIndexCompact)>"), (b!"votes15", b!"Vec<(NominatorIndexCompact, [CompactScoreCompact; 14], ValidatorIndexCompact)>"), (b!"votes16", b!"Vec<(NominatorIndexCompact, [CompactScoreCompact; 15], ValidatorIndexCompact)>")])),
    (b!"refcount", .u32),
    (b!"chainid", .u8),
    (b!"tokenid", .u256),
    (b!"resourceid", .hash 32),
    (b!"erc721token", .struct (some [(b!"id", b!"TokenId"), (b!"metadata", b!"Vec<u8>")])),
    (b!"bridgechainid", .u8),
    (b!"proposalstatus", .enum [b!"Initiated", b!"Approved", b!"Rejected"] none),
    (b!"proposalvotes", .struct (some [(b!"votes_for", b!"Vec<AccountId>"), (b!"votes_against", b!"Vec<AccountId>"), (b!"status", b!"ProposalStatus"), (b!"expiry", b!"BlockNumber")])),
    (b!"depositnonce", .u64) ]

/-- Classes of the names of network/crust.json. -/
def crust : List (Str × Cls) :=
  [ (b!"weight", .u64),
    (b!"address", .accountId),
    (b!"lookupsource", .accountId),
    (b!"dispatchresult", .enum [] (some [(b!"Ok", b!"Null"), (b!"Error", b!"DispatchError")])),
    (b!"ethaddress", .hexBytes),
    (b!"refcount", .u32),
    (b!"reportslot", .u64),
    (b!"merchantledger", .struct (some [(b!"reward", b!"Balance"), (b!"collateral", b!"Balance")])),
    (b!"iassig", .hexBytes),
    (b!"sworkersignature", .hexBytes),
    (b!"usedinfo", .struct (some [(b!"used_size", b!"u64"), (b!"reported_group_count", b!"u32"), (b!"groups", b!"BTreeMap<SworkerAnchor, bool>")])),
    (b!"status", .enum [b!"Free", b!"Reserved"] none),
    (b!"ethereumtxhash", .hash 32),
    (b!"releases", .enum [b!"V1_0_0", b!"V2_0_0"] none),
    (b!"identity", .struct (some [(b!"anchor", b!"SworkerAnchor"), (b!"punishment_deadline", b!"u64"), (b!"group", b!"Option<AccountId>")])),
    (b!"sworkercode", .hexBytes),
    (b!"merkleroot", .hexBytes),
    (b!"sworkercert", .hexBytes),
    (b!"workreport", .struct (some [(b!"report_slot", b!"u64"), (b!"used", b!"u64"), (b!"free", b!"u64"), (b!"reported_files_size", b!"u64"), (b!"reported_srd_root", b!"MerkleRoot"), (b!"reported_files_root", b!"MerkleRoot")])),
    (b!"sworkeranchor", .hexBytes),
    (b!"fileinfo", .struct (some [(b!"file_size", b!"u64"), (b!"expired_on", b!"BlockNumber"), (b!"calculated_at", b!"BlockNumber"), (b!"amount", b!"Balance"), (b!"prepaid", b!"Balance"), (b!"reported_replica_count", b!"u32"), (b!"replicas", b!"Vec<Replica<AccountId>>")])),
    (b!"isvbody", .hexBytes),
    (b!"sworkerpubkey", .hexBytes),
    (b!"addressinfo", .hexBytes),
    (b!"replica", .struct (some [(b!"who", b!"AccountId"), (b!"valid_at", b!"BlockNumber"), (b!"anchor", b!"SworkerAnchor"), (b!"is_reported", b!"bool")])),
    (b!"pkinfo", .struct (some [(b!"code", b!"SworkerCode"), (b!"anchor", b!"Option<SworkerAnchor>")])),
    (b!"filealias", .hexBytes),
    (b!"guarantee", .struct (some [(b!"targets", b!"Vec<IndividualExposure<AccountId, Balance>>"), (b!"total", b!"Compact<Balance>"), (b!"submitted_in", b!"EraIndex"), (b!"suppressed", b!"bool")])),
    (b!"box<<t as config>::call>", .call),
    (b!"compactassignments", .struct (some [(b!"votes1", b!"Vec<(NominatorIndexCompact, ValidatorIndexCompact)>"), (b!"votes2", b!"Vec<(NominatorIndexCompact, CompactScoreCompact, ValidatorIndexCompact)>"), (b!"votes3", b!"Vec<(NominatorIndexCompact, [CompactScoreCompact; 2], ValidatorIndexCompact)>"), (b!"votes4", b!"Vec<(NominatorIndexCompact, [CompactScoreCompact; 3], ValidatorIndexCompact)>"), (b!"votes5", b!"Vec<(NominatorIndexCompact, [CompactScoreCompact; 4], ValidatorIndexCompact)>"), (b!"votes6", b!"Vec<(NominatorIndexCompact, [CompactScoreCompact; 5], ValidatorIndexCompact)>"), (b!"votes7", b!"Vec<(NominatorIndexCompact, [CompactScoreCompact; 6], ValidatorIndexCompact)>"), (b!"votes8", b!"Vec<(NominatorIndexCompact, [CompactScoreCompact; 7], ValidatorIndexCompact)>"), (b!"votes9", b!"Vec<(NominatorIndexCompact, [CompactScoreCompact; 8], ValidatorIndexCompact)>"), (b!"votes10", b!"Vec<(NominatorIndexCompact, [CompactScoreCompact; 9], ValidatorIndexCompact)>"), (b!"votes11", b!"Vec<(NominatorIndexCompact, [CompactScoreCompact; 10], ValidatorIndexCompact)>"), (b!"votes12", b!"Vec<(NominatorIndexCompact, [CompactScoreCompact; 11], ValidatorIndexCompact)>"), (b!"votes13", b!"Vec<(NominatorIndexCompact, [CompactScoreCompact; 12], ValidatorIndexCompact)>"), (b!"votes14", b!"Vec<(NominatorIndexCompact, [CompactScoreCompact; 13], ValidatorIndexCompact)>"), (b!"votes15", b!"Vec<(NominatorIndexCompact, [CompactScoreCompact; 14], ValidatorIndexCompact)>"), (b!"votes16", b!"Vec<(NominatorIndexCompact, [CompactScoreCompact; 15], ValidatorIndexCompact)>")])),
    (b!"accountinfo", .struct (some [(b!"nonce", b!"Index"), (b!"consumers", b!"RefCount"), (b!"providers", b!"RefCount"), (b!"data", b!"AccountData")])),
    (b!"csmbalance", .balance),
    (b!"csmbalanceof", .balance),
    (b!"chainid", .u8),
    (b!"tokenid", .u256),
    (b!"resourceid", .hash 32),
    (b!"erc721token", .struct (some [(b!"id", b!"TokenId"), (b!"metadata", b!"Vec<u8>")])),
    (b!"bridgechainid", .u8),
    (b!"proposalstatus", .enum [b!"Initiated", b!"Approved", b!"Rejected"] none),
    (b!"proposalvotes", .struct (some [(b!"votes_for", b!"Vec<AccountId>"), (b!"votes_against", b!"Vec<AccountId>"), (b!"status", b!"ProposalStatus"), (b!"expiry", b!"BlockNumber")])),
    (b!"depositnonce", .u64),
    (b!"validatorprefs", .struct (some [(b!"guarantee_fee", b!"Compact<Perbill>")])) ]

/-- Classes of the names of network/darwinia.json. -/
def darwinia : List (Str × Cls) :=
  [ (b!"u256", .fixedU8 32),
    (b!"h128", .fixedU8 16),
    (b!"tsinms", .u64),
    (b!"ringbalance", .balance),
    (b!"ktonbalance", .balance),
    (b!"momentt", .moment),
    (b!"power", .u32),
    (b!"depositid", .fixedU8 32),
    (b!"ethblocknumber", .u64),
    (b!"ethereumblocknumber", .u64),
    (b!"ethaddress", .hash 20),
    (b!"ethtransactionindex", .struct (some [(b!"col1", b!"H256"), (b!"col2", b!"u64")])),
    (b!"ethereumtransactionindex", .struct (some [(b!"col1", b!"H256"), (b!"col2", b!"u64")])),
    (b!"balanceinfo", .null),
    (b!"addresst", .hash 20),
    (b!"tronaddress", .hash 20),
    (b!"bloom", .fixedU8 256),
    (b!"h", .hash 32),
    (b!"address", .accountId),
    (b!"lookupsource", .accountId),
    (b!"ethereumaddress", .hash 20),
    (b!"mappedring", .u128),
    (b!"keys", .struct (some [(b!"babe", b!"AccountId"), (b!"grandpa", b!"AccountId"), (b!"im_online", b!"AccountId"), (b!"authority_discovery", b!"AccountId")])),
    (b!"weight", .u64),
    (b!"moduleid", .fixedU8 8),
    (b!"runtimedbweight", .struct (some [(b!"read", b!"u128"), (b!"read", b!"write")])),
    (b!"spanrecord", .struct (some [(b!"slashed", b!"RKT"), (b!"paid_out", b!"RKT")])),
    (b!"stakingruntimedispatchinfo", .struct (some [(b!"power", b!"Power")])),
    (b!"balancesruntimedispatchinfo", .struct (some [(b!"usable_balance", b!"Balance")])),
    (b!"stakingbalance", .enum [] (some [(b!"RingBalance", b!"Balance"), (b!"KtonBalance", b!"Balance")])),
    (b!"stakingledger", .struct (some [(b!"stash", b!"AccountId"), (b!"active_ring", b!"Compact<Balance>"), (b!"active_deposit_ring", b!"Compact<Balance>"), (b!"active_kton", b!"Compact<Balance>"), (b!"deposit_items", b!"Vec<TimeDepositItem>"), (b!"ring_staking_lock", b!"StakingLock"), (b!"kton_staking_lock", b!"StakingLock"), (b!"last_reward", b!"Option<EraIndex>")])),
    (b!"timedeposititem", .struct (some [(b!"value", b!"Compact<Balance>"), (b!"start_time", b!"Compact<TsInMs>"), (b!"expire_time", b!"Compact<TsInMs>")])),
    (b!"staked", .struct (some [(b!"promise_month", b!"u8")])),
    (b!"exposure", .struct (some [(b!"own_ring_balance", b!"Compact<Balance>"), (b!"own_kton_balance", b!"Compact<Balance>"), (b!"own_power", b!"Power"), (b!"total_power", b!"Power"), (b!"others", b!"Vec<IndividualExposure>")])),
    (b!"individualexposure", .struct (some [(b!"who", b!"AccountId"), (b!"ring_balance", b!"Compact<Balance>"), (b!"kton_balance", b!"Compact<Balance>"), (b!"power", b!"Power")])),
    (b!"validatorreward", .struct (some [(b!"who", b!"AccountId"), (b!"amount", b!"Compact<Balance>"), (b!"nominators_reward", b!"Vec<NominatorReward>")])),
    (b!"nominatorreward", .struct (some [(b!"who", b!"AccountId"), (b!"amount", b!"Compact<Balance>")])),
    (b!"rk", .struct (some [(b!"r", b!"Balance"), (b!"k", b!"Balance")])),
    (b!"balancelock<balance, blocknumber>", .struct (some [(b!"id", b!"LockIdentifier"), (b!"lock_for", b!"LockFor"), (b!"lock_reasons", b!"LockReasons")])),
    (b!"lockfor", .enum [] (some [(b!"Common", b!"Common"), (b!"Staking", b!"StakingLock")])),
    (b!"common", .struct (some [(b!"amount", b!"Balance")])),
    (b!"stakinglock", .struct (some [(b!"staking_amount", b!"Balance"), (b!"unbondings", b!"Vec<Unbonding>")])),
    (b!"lockreasons", .enum [] (some [(b!"Fee", b!"null"), (b!"Misc", b!"null"), (b!"All", b!"null")])),
    (b!"accountdata", .struct (some [(b!"free", b!"Balance"), (b!"reserved", b!"Balance"), (b!"free_kton", b!"Balance"), (b!"reserved_kton", b!"Balance")])),
    (b!"ethheaderbrief", .struct (some [(b!"total_difficulty", b!"U256"), (b!"parent_hash", b!"H256"), (b!"number", b!"EthBlockNumber"), (b!"relayer", b!"AccountId")])),
    (b!"ethereumheader", .struct (some [(b!"parent_hash", b!"H256"), (b!"timestamp", b!"u64"), (b!"number", b!"EthereumBlockNumber"), (b!"author", b!"EthereumAddress"), (b!"transactions_root", b!"H256"), (b!"uncles_hash", b!"H256"), (b!"extra_data", b!"Bytes"), (b!"state_root", b!"H256"), (b!"receipts_root", b!"H256"), (b!"log_bloom", b!"Bloom"), (b!"gas_used", b!"U256"), (b!"gas_limit", b!"U256"), (b!"difficulty", b!"U256"), (b!"seal", b!"Vec<Bytes>"), (b!"hash", b!"Option<H256>")])),
    (b!"ethheaderbrief::<accountid>", .struct (some [(b!"total_difficulty", b!"U256"), (b!"parent_hash", b!"H256"), (b!"number", b!"EthBlockNumber"), (b!"relayer", b!"AccountId")])),
    (b!"headerinfo", .struct (some [(b!"total_difficulty", b!"U256"), (b!"parent_hash", b!"H256"), (b!"number", b!"EthBlockNumber")])),
    (b!"ethheader", .struct (some [(b!"parent_hash", b!"H256"), (b!"timestamp", b!"u64"), (b!"number", b!"EthBlockNumber"), (b!"auth", b!"EthAddress"), (b!"transaction_root", b!"H256"), (b!"uncles_hash", b!"H256"), (b!"extra_data", b!"Bytes"), (b!"state_root", b!"H256"), (b!"receipts_root", b!"H256"), (b!"log_bloom", b!"Bloom"), (b!"gas_used", b!"U256"), (b!"gas_limit", b!"U256"), (b!"difficulty", b!"U256"), (b!"seal", b!"Vec<Bytes>"), (b!"hash", b!"Option<H256>")])),
    (b!"receipt", .struct (some [(b!"gas_used", b!"U256"), (b!"log_bloom", b!"Bloom"), (b!"logs", b!"Vec<LogEntry>"), (b!"outcome", b!"TransactionOutcome")])),
    (b!"ethereumreceipt", .struct (some [(b!"gas_used", b!"U256"), (b!"log_bloom", b!"Bloom"), (b!"logs", b!"Vec<LogEntry>"), (b!"outcome", b!"TransactionOutcome")])),
    (b!"ethreceiptproof", .struct (some [(b!"index", b!"u64"), (b!"proof", b!"Bytes"), (b!"header_hash", b!"H256")])),
    (b!"ethnetworktype", .enum [] (some [(b!"Mainnet", b!"null"), (b!"Ropsten", b!"null")])),
    (b!"redeemfor", .enum [] (some [(b!"Token", b!"NULL"), (b!"Deposit", b!"NULL")])),
    (b!"ethereumreceiptproofthing", .struct (some [(b!"col1", b!"EthereumHeader"), (b!"col2", b!"EthereumReceiptProof"), (b!"col3", b!"MMRProof")])),
    (b!"othersignature", .enum [] (some [(b!"Eth", b!"EcdsaSignature"), (b!"Tron", b!"EcdsaSignature")])),
    (b!"otheraddress", .enum [] (some [(b!"Eth", b!"EthereumAddress"), (b!"Tron", b!"EthereumAddress")])),
    (b!"merklemountainrangeroot", .struct (some [(b!"data", b!"Hash")])),
    (b!"validatorprefs", .struct (some [(b!"commission", b!"Compact<Balance>")])),
    (b!"merklemountainrangerootlog", .struct (some [(b!"prefix", b!"[u8; 4]"), (b!"mmr_root", b!"Hash")])),
    (b!"doublenodewithmerkleproof", .struct (some [(b!"dag_nodes", b!"[H512; 2]"), (b!"proof", b!"Vec<H128>")])),
    (b!"stakingbalancet", .enum [] (some [(b!"RingBalance", b!"Balance"), (b!"KtonBalance", b!"Balance")])),
    (b!"stakingledgert", .struct (some [(b!"stash", b!"AccountId"), (b!"active_ring", b!"Compact<Balance>"), (b!"active_deposit_ring", b!"Compact<Balance>"), (b!"active_kton", b!"Compact<Balance>"), (b!"deposit_items", b!"Vec<TimeDepositItem>"), (b!"ring_staking_lock", b!"StakingLock"), (b!"kton_staking_lock", b!"StakingLock"), (b!"claimed_rewards", b!"Vec<EraIndex>")])),
    (b!"exposuret", .struct (some [(b!"own_ring_balance", b!"Compact<Balance>"), (b!"own_kton_balance", b!"Compact<Balance>"), (b!"own_power", b!"Power"), (b!"total_power", b!"Power"), (b!"others", b!"Vec<IndividualExposure>")])),
    (b!"fullidentification", .struct (some [(b!"own_ring_balance", b!"Compact<Balance>"), (b!"own_kton_balance", b!"Compact<Balance>"), (b!"own_power", b!"Power"), (b!"total_power", b!"Power"), (b!"others", b!"Vec<IndividualExposure>")])),
    (b!"rkt", .struct (some [(b!"r", b!"Balance"), (b!"k", b!"Balance")])),
    (b!"dispatchresult", .enum [] (some [(b!"Ok", b!"Null"), (b!"Error", b!"DispatchError")])),
    (b!"opentip<accountid, ringbalance, blocknumber, hash>", .struct (some [(b!"reason", b!"Hash"), (b!"who", b!"AccountId"), (b!"finder", b!"Option<OpenTipFinder>"), (b!"closes", b!"Option<BlockNumber>"), (b!"tips", b!"Vec<OpenTipTip>")])),
    (b!"slashing::spanrecord<ringbalance, ktonbalance>", .struct (some [(b!"slashed", b!"RKT"), (b!"paid_out", b!"RKT")])),
    (b!"slashing::rkt", .struct (some [(b!"r", b!"Balance"), (b!"k", b!"Balance")])),
    (b!"mmrhash", .bytes),
    (b!"rawheaderthing", .bytes),
    (b!"ethereumnetworktype", .enum [] (some [(b!"Mainnet", b!"null"), (b!"Ropsten", b!"null")])),
    (b!"ethashproof", .struct (some [(b!"dag_nodes", b!"[H512; 2]"), (b!"proof", b!"Vec<H128>")])),
    (b!"mmrproof", .struct (some [(b!"member_leaf_index", b!"u64"), (b!"last_leaf_index", b!"u64"), (b!"proof", b!"Vec<H256>")])),
    (b!"confirmedethereumheaderinfo", .struct (some [(b!"header", b!"EthereumHeader"), (b!"mmr_root", b!"H256")])),
    (b!"proposal", .struct (some [(b!"proposer", b!"AccountId"), (b!"beneficiary", b!"AccountId"), (b!"ring_value", b!"Balance"), (b!"kton_value", b!"Balance"), (b!"ring_bond", b!"Balance"), (b!"kton_bond", b!"Balance")])),
    (b!"unappliedslash", .struct (some [(b!"validator", b!"AccountId"), (b!"own", b!"RKT"), (b!"others", b!"Vec<(AccountId, RKT)>"), (b!"reporters", b!"Vec<AccountId>"), (b!"payout", b!"RKT")])),
    (b!"electionresultt", .struct (some [(b!"elected_stashes", b!"Vec<AccountId>"), (b!"exposures", b!"Vec<(AccountId, ExposureT)>"), (b!"compute", b!"ElectionCompute")])),
    (b!"ethereumreceiptproof", .struct (some [(b!"index", b!"u64"), (b!"proof", b!"Bytes"), (b!"header_hash", b!"H256")])),
    (b!"unbonding", .struct (some [(b!"amount", b!"Balance"), (b!"moment", b!"BlockNumber")])),
    (b!"tcheadermmr", .bytes),
    (b!"compactassignments", .struct (some [(b!"votes1", b!"Vec<(NominatorIndexCompact, ValidatorIndexCompact)>"), (b!"votes2", b!"Vec<(NominatorIndexCompact, CompactScoreCompact, ValidatorIndexCompact)>"), (b!"votes3", b!"Vec<(NominatorIndexCompact, [CompactScoreCompact; 2], ValidatorIndexCompact)>"), (b!"votes4", b!"Vec<(NominatorIndexCompact, [CompactScoreCompact; 3], ValidatorIndexCompact)>"), (b!"votes5", b!"Vec<(NominatorIndexCompact, [CompactScoreCompact; 4], ValidatorIndexCompact)>"), (b!"votes6", b!"Vec<(NominatorIndexCompact, [CompactScoreCompact; 5], ValidatorIndexCompact)>"), (b!"votes7", b!"Vec<(NominatorIndexCompact, [CompactScoreCompact; 6], ValidatorIndexCompact)>"), (b!"votes8", b!"Vec<(NominatorIndexCompact, [CompactScoreCompact; 7], ValidatorIndexCompact)>"), (b!"votes9", b!"Vec<(NominatorIndexCompact, [CompactScoreCompact; 8], ValidatorIndexCompact)>"), (b!"votes10", b!"Vec<(NominatorIndexCompact, [CompactScoreCompact; 9], ValidatorIndexCompact)>"), (b!"votes11", b!"Vec<(NominatorIndexCompact, [CompactScoreCompact; 10], ValidatorIndexCompact)>"), (b!"votes12", b!"Vec<(NominatorIndexCompact, [CompactScoreCompact; 11], ValidatorIndexCompact)>"), (b!"votes13", b!"Vec<(NominatorIndexCompact, [CompactScoreCompact; 12], ValidatorIndexCompact)>"), (b!"votes14", b!"Vec<(NominatorIndexCompact, [CompactScoreCompact; 13], ValidatorIndexCompact)>"), (b!"votes15", b!"Vec<(NominatorIndexCompact, [CompactScoreCompact; 14], ValidatorIndexCompact)>"), (b!"votes16", b!"Vec<(NominatorIndexCompact, [CompactScoreCompact; 15], ValidatorIndexCompact)>")])),
    (b!"proxytype", .enum [b!"Any", b!"NonTransfer", b!"Governance", b!"Staking", b!"IdentityJudgement", b!"EthereumBridge"] none),
    (b!"treasuryproposal", .struct (some [(b!"proposer", b!"AccountId"), (b!"beneficiary", b!"AccountId"), (b!"ring_value", b!"Balance"), (b!"kton_value", b!"Balance"), (b!"ring_bond", b!"Balance"), (b!"kton_bond", b!"Balance")])),
    (b!"refcount", .u32),
    (b!"ethereumrelayheaderparcel", .struct (some [(b!"header", b!"EthereumHeader"), (b!"parent_mmr_root", b!"H256")])),
    (b!"ethereumrelayproofs", .struct (some [(b!"ethash_proof", b!"Vec<EthashProof>"), (b!"mmr_proof", b!"Vec<H256>")])),
    (b!"relayheaderid", .u64),
    (b!"relayheaderparcel", .struct (some [(b!"header", b!"EthereumHeader"), (b!"parent_mmr_root", b!"H256")])),
    (b!"relayproofs", .struct (some [(b!"ethash_proof", b!"Vec<EthashProof>"), (b!"mmr_proof", b!"Vec<H256>")])),
    (b!"relayaffirmationid", .struct (some [(b!"game_id", b!"EthereumBlockNumber"), (b!"round", b!"u32"), (b!"index", b!"u32")])),
    (b!"relayaffirmationt", .struct (some [(b!"relayer", b!"AccountId"), (b!"relay_header_parcels", b!"EthereumRelayHeaderParcel"), (b!"bond", b!"Balance"), (b!"maybe_extended_relay_affirmation_id", b!"Option<RelayAffirmationId>"), (b!"verified", b!"bool")])),
    (b!"relayvotingstate", .struct (some [(b!"ayes", b!"Vec<AccountId>"), (b!"nays", b!"Vec<AccountId>")])),
    (b!"signer", .hash 20),
    (b!"relayauthorityt", .struct (some [(b!"accountId", b!"AccountId"), (b!"signer", b!"Signer"), (b!"stake", b!"Balance"), (b!"term", b!"BlockNumber")])),
    (b!"mmrroot", .hash 32),
    (b!"ecdsaaddress", .hash 20),
    (b!"ecdsasignature", .fixedU8 65),
    (b!"ecdsamessage", .hash 32),
    (b!"relayauthoritymessage", .hash 32),
    (b!"relayauthoritysignature", .fixedU8 65),
    (b!"relayauthoritysignature<t, i>", .fixedU8 65),
    (b!"term", .u32),
    (b!"opcode", .fixedU8 4),
    (b!"scheduledauthoritieschange", .struct (some [(b!"next_authorities", b!"Vec<RelayAuthorityT>"), (b!"deadline", b!"BlockNumber")])),
    (b!"scheduledauthoritieschanget", .struct (some [(b!"next_authorities", b!"Vec<RelayAuthorityT>"), (b!"deadline", b!"BlockNumber")])),
    (b!"accountinfo#23-23", .struct (some [(b!"nonce", b!"Index"), (b!"consumers", b!"RefCount"), (b!"providers", b!"RefCount"), (b!"data", b!"AccountData")])),
    (b!"address#23-?", .enum [] (some [(b!"Id", b!"AccountId"), (b!"Index", b!"Compact<AccountIndex>"), (b!"Raw", b!"Bytes"), (b!"Address32", b!"H256"), (b!"Address20", b!"H160")])),
    (b!"lookupsource#23-?", .enum [] (some [(b!"Id", b!"AccountId"), (b!"Index", b!"Compact<AccountIndex>"), (b!"Raw", b!"Bytes"), (b!"Address32", b!"H256"), (b!"Address20", b!"H160")])),
    (b!"validatorprefs#23-?", .struct (some [(b!"commission", b!"Compact<Perbill>"), (b!"blocked", b!"bool")])),
    (b!"accountinfo#24-?", .struct (some [(b!"nonce", b!"Index"), (b!"consumers", b!"RefCount"), (b!"providers", b!"RefCount"), (b!"sufficients", b!"RefCount"), (b!"data", b!"AccountData")])),
    (b!"nodeindex", .u64),
    (b!"mmrnodespruningconfiguration", .struct (some [(b!"step", b!"NodeIndex"), (b!"progress", b!"NodeIndex"), (b!"last_position", b!"NodeIndex")])),
    (b!"blocknumberfor", .u32),
    (b!"ethereumheader#1120-?", .struct (some [(b!"parent_hash", b!"H256"), (b!"timestamp", b!"u64"), (b!"number", b!"EthereumBlockNumber"), (b!"author", b!"EthereumAddress"), (b!"transactions_root", b!"H256"), (b!"uncles_hash", b!"H256"), (b!"extra_data", b!"Bytes"), (b!"state_root", b!"H256"), (b!"receipts_root", b!"H256"), (b!"log_bloom", b!"Bloom"), (b!"gas_used", b!"U256"), (b!"gas_limit", b!"U256"), (b!"difficulty", b!"U256"), (b!"seal", b!"Vec<Bytes>"), (b!"base_fee_per_gas", b!"Option<U256>"), (b!"hash", b!"Option<H256>")])) ]

end ScaleGo.NetClasses
