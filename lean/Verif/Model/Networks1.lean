import Verif.Model.LoadJson

/-! # The definitions shipped for single networks, part 1

The files in `network/`, entry by entry, written down by a script. -/

set_option maxRecDepth 20000

namespace ScaleGo.Network

/-- network/acala-test.json. -/
def acala_test : List (Str × Entry) :=
  [ (b!"Weight", .al b!"u64"),
    (b!"CompactAssignments", .al b!"CompactAssignmentsLatest"),
    (b!"RefCount", .al b!"u32"),
    (b!"Address", .al b!"MultiAddress"),
    (b!"LookupSource", .al b!"MultiAddress"),
    (b!"AccountInfo", .al b!"AccountInfoWithTripleRefCount") ]

/-- network/acala.json. -/
def acala : List (Str × Entry) :=
  [ (b!"Weight", .al b!"u64"),
    (b!"CompactAssignments", .al b!"CompactAssignmentsLatest"),
    (b!"RefCount", .al b!"u32"),
    (b!"Address", .al b!"MultiAddress"),
    (b!"LookupSource", .al b!"MultiAddress"),
    (b!"AccountInfo", .al b!"AccountInfoWithTripleRefCount") ]

/-- network/balala.json. -/
def balala : List (Str × Entry) :=
  [ (b!"Weight", .al b!"u64"),
    (b!"CompactAssignments", .al b!"CompactAssignmentsLatest"),
    (b!"RefCount", .al b!"u32"),
    (b!"DispatchResult", .en [(b!"Ok", b!"Null"), (b!"Error", b!"DispatchError")]),
    (b!"Address", .al b!"MultiAddress"),
    (b!"LookupSource", .al b!"MultiAddress"),
    (b!"Box<<T as Config>::Call>", .al b!"Call"),
    (b!"Keys#0-12", .st [(b!"grandpa", b!"AccountId"), (b!"babe", b!"AccountId"), (b!"im_online", b!"AccountId"), (b!"authority_discovery", b!"AccountId"), (b!"parachains", b!"AccountId")]),
    (b!"Keys", .st [(b!"grandpa", b!"AccountId"), (b!"babe", b!"AccountId"), (b!"im_online", b!"AccountId"), (b!"para_validator", b!"AccountId"), (b!"para_assignment", b!"AccountId"), (b!"authority_discovery", b!"AccountId")]),
    (b!"Proposal<AccountId, ValidatorId, BalanceOf>", .al b!"ParachainProposal"),
    (b!"FullIdentification", .al b!"NULL"),
    (b!"AccountInfo", .al b!"AccountInfoWithTripleRefCount"),
    (b!"AuctionIndex", .al b!"u32"),
    (b!"slots::AuctionIndex", .al b!"u32"),
    (b!"auctions::AuctionIndex", .al b!"u32"),
    (b!"FundIndex", .al b!"u32"),
    (b!"LastContribution<BlockNumber>", .en [(b!"Never", b!"Null"), (b!"PreEnding", b!"slots::AuctionIndex"), (b!"Ending", b!"BlockNumber")]),
    (b!"TrieIndex", .al b!"u32"),
    (b!"(LeasePeriodOf, BlockNumber)", .st [(b!"lease_index", b!"LeasePeriodOf"), (b!"ending_block", b!"BlockNumber")]),
    (b!"ParaLifecycle", .ev [b!"Onboarding", b!"Parathread", b!"Parachain", b!"UpgradingParathread", b!"DowngradingParachain", b!"OffboardingParathread", b!"OffboardingParachain"]),
    (b!"HeadData", .al b!"Bytes"),
    (b!"ValidationCode", .al b!"Bytes"),
    (b!"ParaGenesisArgs", .st [(b!"genesis_head", b!"HeadData"), (b!"validation_code", b!"ValidationCode"), (b!"parachain", b!"bool")]),
    (b!"ParaInfo<AccountId, BalanceOf>", .al b!"ParaInfo"),
    (b!"(AccountId, BalanceOf)", .al b!"ParaInfo"),
    (b!"Vec<Option<(AccountId, BalanceOf)>>", .al b!"Vec<Option<ParaInfo>>"),
    (b!"WinningData", .al b!"[Option<WinnerData>; 36]"),
    (b!"WinnerData", .st [(b!"accountId", b!"AccountId"), (b!"paraId", b!"ParaId"), (b!"amount", b!"Balance")]),
    (b!"ValidatorIndex", .al b!"u32") ]

/-- network/bifrost.json. -/
def bifrost : List (Str × Entry) :=
  [ (b!"Weight", .al b!"u64"),
    (b!"CompactAssignments", .al b!"CompactAssignmentsLatest"),
    (b!"RefCount", .al b!"u32"),
    (b!"Address", .al b!"MultiAddress"),
    (b!"LookupSource", .al b!"MultiAddress"),
    (b!"AccountInfo", .al b!"AccountInfoWithTripleRefCount"),
    (b!"ProducerKey", .st [(b!"producer_name", b!"AccountName"), (b!"block_signing_key", b!"PublicKey")]),
    (b!"ActionName", .al b!"u64"),
    (b!"ParachainTransactProxyType", .en [(b!"Primary", b!"0"), (b!"Derived", b!"1")]),
    (b!"AuctionInfo", .st [(b!"bid", b!"Option<(AccountId, Balance)>"), (b!"start", b!"BlockNumber"), (b!"end", b!"Option<BlockNumber>")]),
    (b!"TxOut", .en [(b!"Initialized", b!"MultiSigTx"), (b!"Created", b!"MultiSigTx"), (b!"SignComplete", b!"MultiSigTx"), (b!"Sent", b!"Sent"), (b!"Succeeded", b!"Succeeded"), (b!"Failed", b!"Failed")]),
    (b!"ContributionStatus", .ev [b!"Idle", b!"Refunded", b!"Unlocked", b!"Refunding"]),
    (b!"ExtraFeeName", .ev [b!"SalpContribute", b!"NoExtraFee"]),
    (b!"RpcContributionStatus", .ev [b!"Idle", b!"Contributing", b!"Refunded", b!"Unlocked", b!"Redeemed"]),
    (b!"AccountIdOf", .al b!"AccountId"),
    (b!"TimestampedValueOf", .al b!"TimestampedValue"),
    (b!"FundStatus", .en [(b!"Ongoing", b!"0"), (b!"Retired", b!"1"), (b!"Success", b!"2"), (b!"Failed", b!"3"), (b!"RefundWithdrew", b!"4"), (b!"RedeemWithdrew", b!"5"), (b!"End", b!"6")]),
    (b!"StorageKeyBytes", .al b!"Vec<u8>"),
    (b!"OrderInfo", .st [(b!"owner", b!"AccountIdOf"), (b!"vsbond", b!"CurrencyId"), (b!"supply", b!"u128"), (b!"remain", b!"u128"), (b!"unit_price", b!"U64F64"), (b!"order_id", b!"OrderId"), (b!"order_state", b!"OrderState")]),
    (b!"DelayedDispatchTime", .en [(b!"At", b!"BlockNumber"), (b!"After", b!"BlockNumber")]),
    (b!"TimestampedValue", .st [(b!"value", b!"OracleValue"), (b!"timestamp", b!"Moment")]),
    (b!"ProducerSchedule", .st [(b!"version", b!"u32"), (b!"producers", b!"Vec<ProducerKey>")]),
    (b!"CrowdloanContributeCall", .en [(b!"CrowdloanContribute", b!"ContributeCall")]),
    (b!"Checksum256Array", .al b!"Vec<Checksum256>"),
    (b!"ParachainDerivedProxyAccountType", .en [(b!"Salp", b!"0"), (b!"Staking", b!"1")]),
    (b!"PalletBalanceOf", .al b!"Balance"),
    (b!"SwapFee", .al b!"u128"),
    (b!"BridgeAssetSymbol", .st [(b!"blockchain", b!"BlockchainType"), (b!"symbol", b!"Vec<u8>"), (b!"precision", b!"Precision")]),
    (b!"Amount", .al b!"AmountOf"),
    (b!"Withdraw", .st [(b!"who", b!"AccountIdOf"), (b!"index", b!"ParaId")]),
    (b!"DispatchTime", .en [(b!"At", b!"BlockNumber"), (b!"After", b!"BlockNumber")]),
    (b!"TransactionStatus", .ev [b!"Initialized", b!"Created", b!"SignComplete", b!"Sent", b!"Succeeded", b!"Failed"]),
    (b!"FlatMap", .st [(b!"map", b!"Vec<(ActionName, u64)>")]),
    (b!"Share", .al b!"u128"),
    (b!"VersionId", .al b!"u32"),
    (b!"SignedBlockHeader", .st [(b!"block_header", b!"BlockHeader"), (b!"producer_signature", b!"bridgeEosSignature")]),
    (b!"ShareWeight", .al b!"Balance"),
    (b!"OracleValue", .al b!"Price"),
    (b!"TxSig", .st [(b!"signature", b!"Vec<u8>"), (b!"author", b!"AccountId")]),
    (b!"PermissionLevel", .st [(b!"actor", b!"AccountName"), (b!"permission", b!"PermissionName")]),
    (b!"PoolState", .ev [b!"UnderAudit", b!"Approved", b!"Ongoing", b!"Retired", b!"Dead"]),
    (b!"OrmlBalanceLock", .st [(b!"amount", b!"Balance"), (b!"id", b!"LockIdentifier")]),
    (b!"GraduallyUpdate", .st [(b!"key", b!"StorageKey"), (b!"targetValue", b!"StorageValue"), (b!"perBlock", b!"StorageValue")]),
    (b!"Failed", .st [(b!"tx_id", b!"Vec<u8>"), (b!"reason", b!"Vec<u8>")]),
    (b!"BancorPool", .st [(b!"currency_id", b!"CurrencyId"), (b!"token_pool", b!"Balance"), (b!"vstoken_pool", b!"Balance"), (b!"token_ceiling", b!"Balance"), (b!"token_base_supply", b!"Balance"), (b!"vstoken_base_supply", b!"Balance")]),
    (b!"Sent", .st [(b!"tx_id", b!"Vec<u8>"), (b!"from", b!"AccountId"), (b!"asset_id", b!"AssetId")]),
    (b!"PairInfo", .st [(b!"asset0", b!"ZenlinkAssetId"), (b!"asset1", b!"ZenlinkAssetId"), (b!"account", b!"AccountId"), (b!"totalLiquidity", b!"ZenlinkAssetBalance"), (b!"holdingLiquidity", b!"ZenlinkAssetBalance"), (b!"reserve0", b!"ZenlinkAssetBalance"), (b!"reserve1", b!"ZenlinkAssetBalance"), (b!"lpAssetId", b!"ZenlinkAssetId")]),
    (b!"PoolToken", .al b!"u128"),
    (b!"BifrostVestingInfo", .st [(b!"locked", b!"Balance"), (b!"per_block", b!"Balance"), (b!"starting_block", b!"BlockNumber")]),
    (b!"RewardRecord", .st [(b!"account_id", b!"AccountId"), (b!"record_amount", b!"Balance")]),
    (b!"ZenlinkAssetId", .st [(b!"chain_id", b!"u32"), (b!"asset_type", b!"u8"), (b!"asset_index", b!"u32")]),
    (b!"U64F64", .al b!"u128"),
    (b!"PoolType", .ev [b!"Mining", b!"Farming"]),
    (b!"MultiSigTx", .st [(b!"chain_id", b!"Vec<u8>"), (b!"raw_tx", b!"Vec<u8>"), (b!"multi_sig", b!"MultiSig"), (b!"action", b!"Action"), (b!"from", b!"AccountId"), (b!"asset_id", b!"AssetId")]),
    (b!"TAssetBalance", .al b!"Balance"),
    (b!"BlockchainType", .ev [b!"BIFROST", b!"EOS", b!"IOST"]),
    (b!"RpcDataProviderId", .al b!"Text"),
    (b!"FundInfo", .st [(b!"raised", b!"Balance"), (b!"cap", b!"Balance"), (b!"first_slot", b!"LeasePeriod"), (b!"last_slot", b!"LeasePeriod"), (b!"trie_index", b!"TrieIndex"), (b!"status", b!"FundStatus")]),
    (b!"Extension", .al b!"(u16, Vec<u8>)"),
    (b!"CurrencyId", .en [(b!"Native", b!"TokenSymbol"), (b!"VToken", b!"TokenSymbol"), (b!"Token", b!"TokenSymbol"), (b!"Stable", b!"TokenSymbol"), (b!"VSToken", b!"TokenSymbol"), (b!"VSBond", b!"(TokenSymbol, ParaId, LeasePeriod, LeasePeriod)")]),
    (b!"BlockNumberFor", .al b!"BlockNumber"),
    (b!"TransferOriginType", .en [(b!"FromSelf", b!"0"), (b!"FromRelayChain", b!"1"), (b!"FromSiblingParaChain", b!"2")]),
    (b!"WithdrawCall", .en [(b!"Withdraw", b!"Withdraw")]),
    (b!"PoolDetails", .st [(b!"owner", b!"AccountId"), (b!"swap_fee_rate", b!"SwapFee"), (b!"active", b!"bool")]),
    (b!"PoolWeight", .al b!"Balance"),
    (b!"DepositData", .st [(b!"deposit", b!"Balance"), (b!"gain_avgs", b!"(CurrencyId, FixedU128)"), (b!"update_b", b!"BlockNumber")]),
    (b!"CallOf", .al b!"Call"),
    (b!"IostTxOut", .en [(b!"Initial", b!"IostMultiSigTx"), (b!"Generated", b!"IostMultiSigTx"), (b!"Signed", b!"IostMultiSigTx"), (b!"Processing", b!"Processing"), (b!"Success", b!"Vec<u8>"), (b!"Fail", b!"Failed")]),
    (b!"PoolId", .al b!"u128"),
    (b!"IostAction", .st [(b!"contract", b!"Vec<u8>"), (b!"action_name", b!"Vec<u8>"), (b!"data", b!"Vec<u8>")]),
    (b!"BlockTimestamp", .al b!"(u32)"),
    (b!"Currency", .al b!"CurrencyIdOf"),
    (b!"BiddingOrderUnitOf", .al b!"BiddingOrderUnit"),
    (b!"RedeemStatus", .al b!"BalanceOf"),
    (b!"ProducerAuthoritySchedule", .st [(b!"version", b!"u32"), (b!"producers", b!"Vec<ProducerAuthority>")]),
    (b!"UnsignedInt", .al b!"u32"),
    (b!"BiddingOrderUnit", .st [(b!"bidder_id", b!"AccountId"), (b!"token_id", b!"AssetId"), (b!"block_num", b!"BlockNumber"), (b!"votes", b!"Balance"), (b!"annual_roi", b!"Permill"), (b!"validator", b!"AccountId")]),
    (b!"Checksum256", .al b!"([u8;32])"),
    (b!"IncrementalMerkle", .st [(b!"_node_count", b!"u64"), (b!"_active_nodes", b!"Checksum256Array")]),
    (b!"NumberOrHex", .en [(b!"Number", b!"u64"), (b!"Hex", b!"U256")]),
    (b!"KeyWeight", .st [(b!"key", b!"PublicKey"), (b!"weight", b!"u16")]),
    (b!"Keys", .al b!"SessionKeys1"),
    (b!"Processing", .st [(b!"tx_id", b!"Vec<u8>"), (b!"multi_sig_tx", b!"IostMultiSigTx")]),
    (b!"Precision", .al b!"u32"),
    (b!"OrderState", .ev [b!"InTrade", b!"Revoked", b!"Clinchd"]),
    (b!"EraId", .al b!"u32"),
    (b!"StorageValueBytes", .al b!"Vec<u8>"),
    (b!"IostMultiSigTx", .st [(b!"chain_id", b!"i32"), (b!"raw_tx", b!"Vec<u8>"), (b!"multi_sig", b!"MultiSig"), (b!"action", b!"IostAction"), (b!"from", b!"AccountId"), (b!"asset_id", b!"AssetId")]),
    (b!"BlockSigningAuthority", .al b!"(UnsignedInt, BlockSigningAuthorityV0)"),
    (b!"PoolCreateTokenDetails", .st [(b!"token_id", b!"AssetId"), (b!"token_balance", b!"Balance"), (b!"token_weight", b!"PoolWeight")]),
    (b!"AccountName", .al b!"u64"),
    (b!"Action", .st [(b!"account", b!"AccountName"), (b!"name", b!"ActionName"), (b!"authorization", b!"Vec<PermissionLevel>"), (b!"data", b!"Vec<u8>")]),
    (b!"Contribution", .st [(b!"index", b!"ParaId"), (b!"value", b!"BalanceOf"), (b!"signature", b!"Option<MultiSignature>")]),
    (b!"OrderedSet", .al b!"Vec<AccountId>"),
    (b!"AuthorityOrigin", .al b!"DelayedOrigin"),
    (b!"SystemPalletId", .al b!"PalletId"),
    (b!"OracleKey", .al b!"CurrencyId"),
    (b!"MaxLocksOf", .al b!"u32"),
    (b!"BiddingOrderId", .al b!"u64"),
    (b!"TokenSymbol", .en [(b!"ASG", b!"0"), (b!"BNC", b!"1"), (b!"KUSD", b!"2"), (b!"DOT", b!"3"), (b!"KSM", b!"4"), (b!"ETH", b!"5")]),
    (b!"VestingScheduleOf", .al b!"OrmlVestingSchedule"),
    (b!"StorageValue", .al b!"Vec<u8>"),
    (b!"ParachainTransactType", .en [(b!"Xcm", b!"0"), (b!"Proxy", b!"1")]),
    (b!"IsExtended", .al b!"bool"),
    (b!"ZenlinkAssetBalance", .al b!"u128"),
    (b!"bridgeEosSignature", .st [(b!"type_", b!"UnsignedInt"), (b!"data", b!"[u8;65]")]),
    (b!"StorageVersion", .al b!"Releases"),
    (b!"BlockSigningAuthorityV0", .st [(b!"threshold", b!"u32"), (b!"keyWeights", b!"Vec<KeyWeight>")]),
    (b!"BlockHeader", .st [(b!"timestamp", b!"BlockTimestamp"), (b!"producer", b!"AccountName"), (b!"confirmed", b!"u16"), (b!"previous", b!"Checksum256"), (b!"transaction_mroot", b!"Checksum256"), (b!"action_mroot", b!"Checksum256"), (b!"schedule_version", b!"u32"), (b!"new_producers", b!"Option<ProducerSchedule>"), (b!"header_extensions", b!"Vec<Extension>")]),
    (b!"Price", .al b!"FixedU128"),
    (b!"ContributeCall", .en [(b!"Contribute", b!"Contribution")]),
    (b!"CurrencyIdOf", .al b!"CurrencyId"),
    (b!"MultiSig", .st [(b!"signatures", b!"Vec<TxSig>"), (b!"threshold", b!"u8")]),
    (b!"AmountOf", .al b!"Balance"),
    (b!"TrieIndex", .al b!"u32"),
    (b!"ActionReceipt", .st [(b!"receiver", b!"AccountName"), (b!"act_digest", b!"Checksum256"), (b!"global_sequence", b!"u64"), (b!"recv_sequence", b!"u64"), (b!"auth_sequence", b!"FlatMap<AccountName, u64>"), (b!"code_sequence", b!"UnsignedInt"), (b!"abi_sequence", b!"UnsignedInt")]),
    (b!"ProducerAuthority", .st [(b!"producer_name", b!"ActionName"), (b!"authority", b!"BlockSigningAuthority")]),
    (b!"ScheduleTaskIndex", .al b!"u32"),
    (b!"PoolInfo", .st [(b!"pool_id", b!"PoolId"), (b!"creator", b!"AccountId"), (b!"trading_pair", b!"(CurrencyId, CurrencyId)"), (b!"min_deposit_to_start", b!"Balance"), (b!"duration", b!"BlockNumber"), (b!"after_block_to_start", b!"BlockNumber"), (b!"update_b", b!"BlockNumber"), (b!"deposit", b!"Balance"), (b!"rewards", b!"(CurrencyId, RewardData)"), (b!"state", b!"PoolState"), (b!"type", b!"PoolType"), (b!"block_startup", b!"BlockNumber")]),
    (b!"Succeeded", .st [(b!"tx_id", b!"Vec<u8>")]),
    (b!"RewardData", .st [(b!"total", b!"BalanceOf"), (b!"per_block", b!"BalanceOf"), (b!"claimed", b!"BalanceOf"), (b!"gain_avg", b!"FixedU128")]),
    (b!"OrmlAccountData", .st [(b!"free", b!"Balance"), (b!"reserved", b!"Balance"), (b!"frozen", b!"Balance")]),
    (b!"DispatchId", .al b!"u32"),
    (b!"OrderId", .al b!"u64"),
    (b!"PermissionName", .al b!"u64"),
    (b!"DelayedOrigin", .st [(b!"delay", b!"BlockNumber"), (b!"origin", b!"PalletsOrigin")]),
    (b!"DataProviderId", .al b!"u8"),
    (b!"PublicKey", .st [(b!"type_", b!"UnsignedInt"), (b!"data", b!"[u8;33]")]),
    (b!"OrmlVestingSchedule", .st [(b!"start", b!"BlockNumber"), (b!"period", b!"BlockNumber"), (b!"periodCount", b!"u32"), (b!"perPeriod", b!"Compact<Balance>")]),
    (b!"AssetInstance", .al b!"AssetInstanceV0"),
    (b!"MultiAsset", .al b!"MultiAssetV0"),
    (b!"Xcm", .al b!"XcmV0"),
    (b!"XcmOrder", .al b!"XcmOrderV0"),
    (b!"MultiLocation", .al b!"MultiLocationV0") ]

/-- network/canvas.json. -/
def canvas : List (Str × Entry) :=
  [ (b!"Weight", .al b!"u64"),
    (b!"CompactAssignments", .al b!"CompactAssignmentsLatest"),
    (b!"RefCount", .al b!"u32"),
    (b!"DispatchResult", .en [(b!"Ok", b!"Null"), (b!"Error", b!"DispatchError")]) ]

/-- network/centrifuge.json. -/
def centrifuge : List (Str × Entry) :=
  [ (b!"Weight", .al b!"u32"),
    (b!"ChainId", .al b!"u8"),
    (b!"ResourceId", .al b!"[u8; 32]"),
    (b!"chainbridge::ChainId", .al b!"u8"),
    (b!"DepositNonce", .al b!"u64"),
    (b!"Points", .al b!"u32"),
    (b!"Multiplier", .al b!"Fixed64"),
    (b!"Address#229-999", .al b!"GenericAddress"),
    (b!"LookupSource#229-999", .al b!"GenericAddress"),
    (b!"U256", .al b!"[u8; 32]"),
    (b!"Box<Proposal>", .al b!"BoxProposal"),
    (b!"EraPoints", .st [(b!"total", b!"Points"), (b!"individual", b!"Vec<Points>")]),
    (b!"DispatchResult", .en [(b!"Ok", b!"Null"), (b!"Error", b!"DispatchError")]),
    (b!"ReferendumInfo", .en [(b!"Ongoing", b!"ReferendumStatus"), (b!"Finished", b!"ReferendumInfoFinished")]),
    (b!"ProxyType", .ev [b!"Any", b!"NonTransfer", b!"Governance", b!"Staking", b!"SudoBalances", b!"IdentityJudgement"]),
    (b!"AnchorData", .st [(b!"anchoredBlock", b!"u64"), (b!"docRoot", b!"H256"), (b!"id", b!"H256")]),
    (b!"Fee", .st [(b!"key", b!"Hash"), (b!"price", b!"Balance")]),
    (b!"PreCommitData", .st [(b!"expirationBlock", b!"u64"), (b!"identity", b!"H256"), (b!"signingRoot", b!"H256")]),
    (b!"Proof", .st [(b!"leafHash", b!"H256"), (b!"sortedHashes", b!"H256")]),
    (b!"MultiAccountData", .st [(b!"deposit", b!"Balance"), (b!"depositor", b!"AccountId"), (b!"signatories", b!"Vec<AccountId>"), (b!"threshold", b!"u16")]),
    (b!"Address#1-228", .al b!"AccountId"),
    (b!"LookupSource#1-228", .al b!"AccountId"),
    (b!"Weight#235-?", .al b!"u64"),
    (b!"ReferendumInfo#229-234", .st [(b!"end", b!"BlockNumber"), (b!"proposal", b!"Proposal"), (b!"threshold", b!"VoteThreshold"), (b!"delay", b!"BlockNumber")]),
    (b!"Linkage", .st [(b!"previous", b!"Option<AccountId>"), (b!"next", b!"Option<AccountId>")]),
    (b!"CompactAssignments#1000-?", .al b!"CompactAssignmentsLatest"),
    (b!"RefCount#1000-?", .al b!"u32"),
    (b!"Address#1000-?", .al b!"MultiAddress"),
    (b!"LookupSource#1000-?", .al b!"MultiAddress"),
    (b!"AccountInfo#1000-?", .al b!"AccountInfoWithTripleRefCount") ]

/-- network/chainx.json. -/
def chainx : List (Str × Entry) :=
  [ (b!"Weight", .al b!"u64"),
    (b!"CompactAssignments", .al b!"CompactAssignmentsLatest"),
    (b!"RefCount", .al b!"u32"),
    (b!"BalanceOf", .al b!"Balance"),
    (b!"DispatchResult", .en [(b!"Ok", b!"Null"), (b!"Error", b!"DispatchError")]),
    (b!"Address", .al b!"GenericLookupSource"),
    (b!"LookupSource", .al b!"GenericLookupSource"),
    (b!"OrderInfo", .al b!"Order"),
    (b!"OrderProperty", .st [(b!"id", b!"OrderId"), (b!"side", b!"Side"), (b!"price", b!"Price"), (b!"amount", b!"Amount"), (b!"pairId", b!"TradingPairId"), (b!"submitter", b!"AccountId"), (b!"orderType", b!"OrderType"), (b!"createdAt", b!"BlockNumber")]),
    (b!"RpcBalance", .al b!"String"),
    (b!"Token", .al b!"Text"),
    (b!"MinerLedger", .st [(b!"lastMiningWeight", b!"MiningWeight"), (b!"lastMiningWeightUpdate", b!"BlockNumber"), (b!"lastClaim", b!"Option<BlockNumber>")]),
    (b!"UnbondedIndex", .al b!"u32"),
    (b!"ValidatorInfo", .st [(b!"account", b!"AccountId"), (b!"registeredAt", b!"BlockNumber"), (b!"isChilled", b!"bool"), (b!"lastChilled", b!"Option<BlockNumber>"), (b!"totalNomination", b!"RpcBalance"), (b!"lastTotalVoteWeight", b!"RpcVoteWeight"), (b!"lastTotalVoteWeightUpdate", b!"BlockNumber"), (b!"isValidating", b!"bool"), (b!"selfBonded", b!"RpcBalance"), (b!"referralId", b!"String"), (b!"rewardPotAccount", b!"AccountId"), (b!"rewardPotBalance", b!"RpcBalance")]),
    (b!"Handicap", .st [(b!"highestBid", b!"Price"), (b!"lowestAsk", b!"Price")]),
    (b!"BtcVoteResult", .ev [b!"Unfinish", b!"Finish"]),
    (b!"MiningDistribution", .st [(b!"asset", b!"u32"), (b!"staking", b!"u32")]),
    (b!"BtcTxState", .st [(b!"txType", b!"BtcTxType"), (b!"result", b!"BtcTxResult")]),
    (b!"ValidatorProfile", .st [(b!"registeredAt", b!"BlockNumber"), (b!"isChilled", b!"bool"), (b!"lastChilled", b!"Option<BlockNumber>"), (b!"referralId", b!"ReferralId")]),
    (b!"Amount", .al b!"i128"),
    (b!"FeeDetails", .st [(b!"inclusionFee", b!"Option<InclusionFee<Balance>>"), (b!"extraFee", b!"Balance"), (b!"tip", b!"Balance"), (b!"finalFee", b!"Balance")]),
    (b!"BtcTxResult", .ev [b!"Success", b!"Failure"]),
    (b!"TrusteeInfoConfig", .st [(b!"minTrusteeCount", b!"u32"), (b!"maxTrusteeCount", b!"u32")]),
    (b!"AssetRestriction", .ev [b!"Move", b!"Transfer", b!"Deposit", b!"Withdraw", b!"DestroyWithdrawal", b!"DestroyFree"]),
    (b!"AssetLedger", .st [(b!"lastTotalMiningWeight", b!"MiningWeight"), (b!"lastTotalMiningWeightUpdate", b!"BlockNumber")]),
    (b!"RpcTotalAssetInfo", .st [(b!"info", b!"AssetInfo"), (b!"balance", b!"BTreeMap<AssetType, RpcBalance>"), (b!"isOnline", b!"bool"), (b!"restrictions", b!"AssetRestrictions")]),
    (b!"FullPairInfo", .st [(b!"baseCurrency", b!"AssetId"), (b!"highestBid", b!"RpcPrice"), (b!"id", b!"TradingPairId"), (b!"latestPrice", b!"RpcPrice"), (b!"latestPriceUpdatedAt", b!"BlockNumber"), (b!"lowestAsk", b!"RpcPrice"), (b!"maxValidBid", b!"RpcPrice"), (b!"minValidAsk", b!"RpcPrice"), (b!"pipDecimals", b!"u32"), (b!"quoteCurrency", b!"AssetId"), (b!"tickDecimals", b!"u32"), (b!"tradable", b!"bool")]),
    (b!"InclusionFee", .st [(b!"baseFee", b!"Balance"), (b!"lenFee", b!"Balance"), (b!"adjustedWeightFee", b!"Balance")]),
    (b!"BtcTrusteeSessionInfo", .st [(b!"trusteeList", b!"Vec<AccountId>"), (b!"threshold", b!"u16"), (b!"hotAddress", b!"BtcTrusteeAddrInfo"), (b!"coldAddress", b!"BtcTrusteeAddrInfo")]),
    (b!"BtcDepositCache", .st [(b!"txid", b!"H256"), (b!"balance", b!"u64")]),
    (b!"RpcFeeDetails", .st [(b!"inclusionFee", b!"Option<RpcInclusionFee>"), (b!"tip", b!"RpcBalance"), (b!"extraFee", b!"RpcBalance"), (b!"finalFee", b!"RpcBalance")]),
    (b!"RpcOrder", .st [(b!"orderId", b!"OrderId"), (b!"side", b!"Side"), (b!"price", b!"RpcPrice"), (b!"amount", b!"RpcBalance"), (b!"pairId", b!"TradingPairId"), (b!"submitter", b!"AccountId"), (b!"orderType", b!"OrderType"), (b!"createdAt", b!"BlockNumber"), (b!"status", b!"OrderStatus"), (b!"remaining", b!"RpcBalance"), (b!"executedIndices", b!"Vec<TradingHistoryIndex>"), (b!"alreadyFilled", b!"RpcBalance"), (b!"reservedBalance", b!"RpcBalance"), (b!"lastUpdateAt", b!"BlockNumber")]),
    (b!"WithdrawalRecordId", .al b!"u32"),
    (b!"TradingHistoryIndex", .al b!"u64"),
    (b!"AssetInfo", .st [(b!"token", b!"String"), (b!"tokenName", b!"String"), (b!"chain", b!"Chain"), (b!"decimals", b!"Decimals"), (b!"desc", b!"String")]),
    (b!"String", .al b!"Text"),
    (b!"BtcNetwork", .ev [b!"Mainnet", b!"Testnet"]),
    (b!"Memo", .al b!"Text"),
    (b!"AddrStr", .al b!"Text"),
    (b!"GenericTrusteeSessionInfo", .st [(b!"trusteeList", b!"Vec<AccountId>"), (b!"threshold", b!"u16"), (b!"hotAddress", b!"Vec<u8>"), (b!"coldAddress", b!"Vec<u8>")]),
    (b!"AssetType", .ev [b!"Usable", b!"Locked", b!"Reserved", b!"ReservedWithdrawal", b!"ReservedDexSpot"]),
    (b!"RpcMiningWeight", .al b!"String"),
    (b!"VoteWeight", .al b!"u128"),
    (b!"CurrencyId", .al b!"AssetId"),
    (b!"BtcAddress", .al b!"Text"),
    (b!"MiningWeight", .al b!"u128"),
    (b!"ClaimRestriction", .st [(b!"stakingRequirement", b!"StakingRequirement"), (b!"frequencyLimit", b!"BlockNumber")]),
    (b!"BtcPartialMerkleTree", .al b!"Vec<u8>"),
    (b!"Chain", .ev [b!"ChainX", b!"Bitcoin", b!"Ethereum", b!"Polkadot"]),
    (b!"OrderExecutedInfo", .st [(b!"tradingHistoryIdx", b!"TradingHistoryIndex"), (b!"pairId", b!"TradingPairId"), (b!"price", b!"Price"), (b!"maker", b!"AccountId"), (b!"taker", b!"AccountId"), (b!"makerOrderId", b!"OrderId"), (b!"takerOrderId", b!"OrderId"), (b!"turnover", b!"Balance"), (b!"executedAt", b!"BlockNumber")]),
    (b!"RpcMiningDividendInfo", .st [(b!"own", b!"RpcBalance"), (b!"other", b!"RpcBalance"), (b!"insufficientStake", b!"RpcBalance")]),
    (b!"NominatorInfo", .st [(b!"lastRebond", b!"Option<BlockNumber>")]),
    (b!"BtcTrusteeAddrInfo", .st [(b!"addr", b!"BtcAddress"), (b!"redeemScript", b!"Vec<u8>")]),
    (b!"BtcTxVerifier", .ev [b!"Recover", b!"RuntimeInterface"]),
    (b!"WithdrawalLimit", .st [(b!"minimalWithdrawal", b!"Balance"), (b!"fee", b!"Balance")]),
    (b!"FullIdentification", .al b!"ValidatorId"),
    (b!"ChainAddress", .al b!"Vec<u8>"),
    (b!"BtcTransaction", .al b!"Vec<u8>"),
    (b!"GlobalDistribution", .st [(b!"treasury", b!"u32"), (b!"mining", b!"u32")]),
    (b!"TradingPairId", .al b!"u32"),
    (b!"RpcVoteWeight", .al b!"String"),
    (b!"BondRequirement", .st [(b!"selfBonded", b!"Balance"), (b!"total", b!"Balance")]),
    (b!"RpcInclusionFee", .st [(b!"baseFee", b!"RpcBalance"), (b!"lenFee", b!"RpcBalance"), (b!"adjustedWeightFee", b!"RpcBalance")]),
    (b!"WithdrawalRecordOf", .al b!"WithdrawalRecord"),
    (b!"Order", .st [(b!"props", b!"OrderProperty"), (b!"status", b!"OrderStatus"), (b!"remaining", b!"Balance"), (b!"executedIndices", b!"Vec<TradingHistoryIndex>"), (b!"alreadyFilled", b!"Balance"), (b!"lastUpdateAt", b!"BlockNumber")]),
    (b!"OrderStatus", .ev [b!"Created", b!"PartialFill", b!"Filled", b!"PartialFillAndCanceled", b!"Canceled"]),
    (b!"GenericTrusteeIntentionProps", .st [(b!"about", b!"Text"), (b!"hotEntity", b!"Vec<u8>"), (b!"coldEntity", b!"Vec<u8>")]),
    (b!"WithdrawalRecord", .st [(b!"assetId", b!"AssetId"), (b!"applicant", b!"AccountId"), (b!"balance", b!"Balance"), (b!"addr", b!"AddrStr"), (b!"ext", b!"Memo"), (b!"height", b!"BlockNumber")]),
    (b!"ReferralId", .al b!"Text"),
    (b!"BtcWithdrawalProposal", .st [(b!"sigState", b!"BtcVoteResult"), (b!"withdrawalIdList", b!"Vec<u32>"), (b!"tx", b!"BtcTransaction"), (b!"trusteeList", b!"Vec<(AccountId, bool)>")]),
    (b!"OrderType", .ev [b!"Limit", b!"Market"]),
    (b!"FixedAssetPower", .al b!"u32"),
    (b!"MiningAssetInfo", .st [(b!"assetId", b!"AssetId"), (b!"miningPower", b!"FixedAssetPower"), (b!"rewardPot", b!"AccountId"), (b!"rewardPotBalance", b!"RpcBalance"), (b!"lastTotalMiningWeight", b!"RpcMiningWeight"), (b!"lastTotalMiningWeightUpdate", b!"BlockNumber")]),
    (b!"StakingRequirement", .al b!"u32"),
    (b!"BtcHeaderIndex", .st [(b!"hash", b!"H256"), (b!"height", b!"u32")]),
    (b!"MiningDividendInfo", .st [(b!"own", b!"Balance"), (b!"other", b!"Balance"), (b!"insufficientStake", b!"Balance")]),
    (b!"Decimals", .al b!"u8"),
    (b!"RpcWithdrawalRecord", .st [(b!"assetId", b!"AssetId"), (b!"applicant", b!"AccountId"), (b!"balance", b!"RpcBalance"), (b!"addr", b!"String"), (b!"ext", b!"String"), (b!"height", b!"BlockNumber"), (b!"state", b!"WithdrawalState")]),
    (b!"Unbonded", .st [(b!"value", b!"Balance"), (b!"lockedUntil", b!"BlockNumber")]),
    (b!"BtcHeaderInfo", .st [(b!"header", b!"BtcHeader"), (b!"height", b!"u32")]),
    (b!"BtcTrusteeType", .al b!"Vec<u8>"),
    (b!"CurrencyPair", .st [(b!"base", b!"AssetId"), (b!"quote", b!"AssetId")]),
    (b!"BtcTxType", .ev [b!"Withdrawal", b!"Deposit", b!"HotAndCold", b!"TrusteeTransition", b!"Irrelevance"]),
    (b!"NetworkType", .ev [b!"Mainnet", b!"Testnet"]),
    (b!"BtcHeader", .al b!"Vec<u8>"),
    (b!"AssetRestrictions", .st [(b!"bits", b!"u32")]),
    (b!"TradingPairInfo", .st [(b!"latestPrice", b!"Price"), (b!"lastUpdated", b!"BlockNumber")]),
    (b!"NominatorLedger", .st [(b!"nomination", b!"Balance"), (b!"lastVoteWeight", b!"VoteWeight"), (b!"lastVoteWeightUpdate", b!"BlockNumber"), (b!"unbondedChunks", b!"Vec<Unbonded>")]),
    (b!"TradingPairProfile", .st [(b!"id", b!"TradingPairId"), (b!"currencyPair", b!"CurrencyPair"), (b!"pipDecimals", b!"u32"), (b!"tickDecimals", b!"u32"), (b!"tradable", b!"bool")]),
    (b!"HandicapInfo", .al b!"Handicap"),
    (b!"Price", .al b!"Balance"),
    (b!"CurrencyIdOf", .al b!"AssetId"),
    (b!"BtcParams", .st [(b!"maxBits", b!"u32"), (b!"blockMaxFuture", b!"u32"), (b!"targetTimespanSeconds", b!"u32"), (b!"targetSpacingSeconds", b!"u32"), (b!"retargetingFactor", b!"u32"), (b!"retargetingInterval", b!"u32"), (b!"minTimespan", b!"u32"), (b!"maxTimespan", b!"u32")]),
    (b!"AmountOf", .al b!"Amount"),
    (b!"LockedType", .ev [b!"Bonded", b!"BondedWithdrawal"]),
    (b!"Page", .st [(b!"pageIndex", b!"u32"), (b!"pageSize", b!"u32"), (b!"data", b!"Vec<RpcOrder>")]),
    (b!"Desc", .al b!"Text"),
    (b!"AssetId", .al b!"u32"),
    (b!"Depth", .st [(b!"asks", b!"Vec<(RpcPrice, RpcBalance)>"), (b!"bids", b!"Vec<(RpcPrice, RpcBalance)>")]),
    (b!"Side", .ev [b!"Buy", b!"Sell"]),
    (b!"OrderId", .al b!"u64"),
    (b!"TotalAssetInfo", .st [(b!"info", b!"AssetInfo"), (b!"balance", b!"BTreeMap<AssetType, Balance>"), (b!"isOnline", b!"bool"), (b!"restrictions", b!"AssetRestrictions")]),
    (b!"WithdrawalState", .ev [b!"Applying", b!"Processing", b!"NormalFinish", b!"RootFinish", b!"NormalCancel", b!"RootCancel"]),
    (b!"RpcPrice", .al b!"String"),
    (b!"ValidatorLedger", .st [(b!"totalNomination", b!"Balance"), (b!"lastTotalVoteWeight", b!"VoteWeight"), (b!"lastTotalVoteWeightUpdate", b!"BlockNumber")]),
    (b!"PriceFluctuation", .al b!"u32"),
    (b!"BtcTrusteeIntentionProps", .st [(b!"about", b!"Text"), (b!"hotEntity", b!"BtcTrusteeType"), (b!"coldEntity", b!"BtcTrusteeType")]),
    (b!"BtcRelayedTxInfo", .st [(b!"blockHash", b!"H256"), (b!"merkleProof", b!"BtcPartialMerkleTree")]) ]

/-- network/clover-test.json. -/
def clover_test : List (Str × Entry) :=
  [ (b!"ExchangeInfo", .st [(b!"balance", b!"Balance"), (b!"routes", b!"Vec<CurrencyTypeEnum>")]),
    (b!"Ratio", .al b!"u128"),
    (b!"CurrencyId", .ev [b!"CLV", b!"CUSDT", b!"DOT", b!"CETH"]),
    (b!"EcdsaSignature", .al b!"[u8; 65]"),
    (b!"Price", .al b!"FixedU128"),
    (b!"PoolId", .en [(b!"Swap", b!"u64")]),
    (b!"Share", .al b!"u128"),
    (b!"Rate", .al b!"u128"),
    (b!"CurrencyTypeEnum", .ev [b!"CLV", b!"CUSDT", b!"DOT", b!"CETH"]),
    (b!"CurrencyIdOf", .al b!"CurrencyId"),
    (b!"Amount", .al b!"i128"),
    (b!"EvmAddress", .al b!"H160"),
    (b!"CurrencyInfo", .st [(b!"id", b!"CurrencyId"), (b!"name", b!"CurrencyTypeEnum")]),
    (b!"PairKey", .al b!"u64"),
    (b!"AmountOf", .al b!"Amount"),
    (b!"OracleKey", .al b!"CurrencyId"),
    (b!"Balance", .al b!"u128"),
    (b!"Weight", .al b!"u64"),
    (b!"CompactAssignments", .al b!"CompactAssignmentsLatest"),
    (b!"RefCount", .al b!"u32"),
    (b!"DispatchResult", .en [(b!"Ok", b!"Null"), (b!"Error", b!"DispatchError")]),
    (b!"TransactionRecoveryId", .al b!"U64"),
    (b!"TransactionSignature", .st [(b!"v", b!"TransactionRecoveryId"), (b!"r", b!"H256"), (b!"s", b!"H256")]),
    (b!"Address", .al b!"MultiAddress"),
    (b!"LookupSource", .al b!"MultiAddress"),
    (b!"AccountInfo", .al b!"AccountInfoWithProviders"),
    (b!"Keys", .al b!"(AccountId, AccountId, AccountId, AccountId)"),
    (b!"FixedU128", .al b!"u128"),
    (b!"EthereumTxHash", .al b!"H256"),
    (b!"BridgeNetworks", .ev [b!"BSC", b!"Ethereum"]) ]

/-- network/clover.json. -/
def clover : List (Str × Entry) :=
  [ (b!"ExchangeInfo", .st [(b!"balance", b!"Balance"), (b!"routes", b!"Vec<CurrencyTypeEnum>")]),
    (b!"Ratio", .al b!"u128"),
    (b!"CurrencyId", .ev [b!"CLV", b!"CUSDT", b!"DOT", b!"CETH"]),
    (b!"EcdsaSignature", .al b!"[u8; 65]"),
    (b!"Price", .al b!"FixedU128"),
    (b!"PoolId", .en [(b!"Swap", b!"u64")]),
    (b!"Share", .al b!"u128"),
    (b!"Rate", .al b!"u128"),
    (b!"CurrencyTypeEnum", .ev [b!"CLV", b!"CUSDT", b!"DOT", b!"CETH"]),
    (b!"CurrencyIdOf", .al b!"CurrencyId"),
    (b!"Amount", .al b!"i128"),
    (b!"EvmAddress", .al b!"H160"),
    (b!"CurrencyInfo", .st [(b!"id", b!"CurrencyId"), (b!"name", b!"CurrencyTypeEnum")]),
    (b!"PairKey", .al b!"u64"),
    (b!"AmountOf", .al b!"Amount"),
    (b!"OracleKey", .al b!"CurrencyId"),
    (b!"Balance", .al b!"u128"),
    (b!"Weight", .al b!"u64"),
    (b!"CompactAssignments", .al b!"CompactAssignmentsLatest"),
    (b!"RefCount", .al b!"u32"),
    (b!"DispatchResult", .en [(b!"Ok", b!"Null"), (b!"Error", b!"DispatchError")]),
    (b!"TransactionRecoveryId", .al b!"U64"),
    (b!"TransactionSignature", .st [(b!"v", b!"TransactionRecoveryId"), (b!"r", b!"H256"), (b!"s", b!"H256")]),
    (b!"Address", .al b!"MultiAddress"),
    (b!"LookupSource", .al b!"MultiAddress"),
    (b!"AccountInfo", .al b!"AccountInfoWithProviders"),
    (b!"Keys", .al b!"(AccountId, AccountId, AccountId, AccountId)"),
    (b!"FixedU128", .al b!"u128"),
    (b!"BridgeNetworks", .ev [b!"BSC", b!"Ethereum"]),
    (b!"EthereumTxHash", .al b!"H256") ]

/-- network/crab.json. -/
def crab : List (Str × Entry) :=
  [ (b!"U256", .al b!"[u8; 32]"),
    (b!"H128", .al b!"[u8; 16]"),
    (b!"TsInMs", .al b!"u64"),
    (b!"RingBalance", .al b!"Balance"),
    (b!"KtonBalance", .al b!"Balance"),
    (b!"MomentT", .al b!"Moment"),
    (b!"Power", .al b!"u32"),
    (b!"DepositId", .al b!"U256"),
    (b!"EthBlockNumber", .al b!"u64"),
    (b!"EthereumBlockNumber", .al b!"u64"),
    (b!"EthAddress", .al b!"H160"),
    (b!"EthTransactionIndex", .al b!"(H256, u64)"),
    (b!"EthereumTransactionIndex", .al b!"(H256, u64)"),
    (b!"BalanceInfo", .al b!"null"),
    (b!"AddressT", .al b!"EthereumAddress"),
    (b!"TronAddress", .al b!"EthereumAddress"),
    (b!"Bloom", .al b!"[u8; 256]"),
    (b!"H", .al b!"Hash"),
    (b!"Address", .al b!"AccountId"),
    (b!"LookupSource", .al b!"AccountId"),
    (b!"EthereumAddress", .al b!"H160"),
    (b!"MappedRing", .al b!"u128"),
    (b!"Keys", .st [(b!"babe", b!"AccountId"), (b!"grandpa", b!"AccountId"), (b!"im_online", b!"AccountId"), (b!"authority_discovery", b!"AccountId")]),
    (b!"Weight", .al b!"u64"),
    (b!"ModuleId", .al b!"[u8; 8]"),
    (b!"RuntimeDbWeight", .st [(b!"read", b!"u128"), (b!"read", b!"write")]),
    (b!"SpanRecord", .st [(b!"slashed", b!"RKT"), (b!"paid_out", b!"RKT")]),
    (b!"StakingRuntimeDispatchInfo", .st [(b!"power", b!"Power")]),
    (b!"BalancesRuntimeDispatchInfo", .st [(b!"usable_balance", b!"Balance")]),
    (b!"StakingBalance", .en [(b!"RingBalance", b!"Balance"), (b!"KtonBalance", b!"Balance")]),
    (b!"StakingLedger", .st [(b!"stash", b!"AccountId"), (b!"active_ring", b!"Compact<Balance>"), (b!"active_deposit_ring", b!"Compact<Balance>"), (b!"active_kton", b!"Compact<Balance>"), (b!"deposit_items", b!"Vec<TimeDepositItem>"), (b!"ring_staking_lock", b!"StakingLock"), (b!"kton_staking_lock", b!"StakingLock"), (b!"last_reward", b!"Option<EraIndex>")]),
    (b!"TimeDepositItem", .st [(b!"value", b!"Compact<Balance>"), (b!"start_time", b!"Compact<TsInMs>"), (b!"expire_time", b!"Compact<TsInMs>")]),
    (b!"Staked", .st [(b!"promise_month", b!"u8")]),
    (b!"Exposure", .st [(b!"own_ring_balance", b!"Compact<Balance>"), (b!"own_kton_balance", b!"Compact<Balance>"), (b!"own_power", b!"Power"), (b!"total_power", b!"Power"), (b!"others", b!"Vec<IndividualExposure>")]),
    (b!"IndividualExposure", .st [(b!"who", b!"AccountId"), (b!"ring_balance", b!"Compact<Balance>"), (b!"kton_balance", b!"Compact<Balance>"), (b!"power", b!"Power")]),
    (b!"ValidatorReward", .st [(b!"who", b!"AccountId"), (b!"amount", b!"Compact<Balance>"), (b!"nominators_reward", b!"Vec<NominatorReward>")]),
    (b!"NominatorReward", .st [(b!"who", b!"AccountId"), (b!"amount", b!"Compact<Balance>")]),
    (b!"RK", .st [(b!"r", b!"Balance"), (b!"k", b!"Balance")]),
    (b!"BalanceLock<Balance, BlockNumber>", .st [(b!"id", b!"LockIdentifier"), (b!"lock_for", b!"LockFor"), (b!"lock_reasons", b!"LockReasons")]),
    (b!"LockFor", .en [(b!"Common", b!"Common"), (b!"Staking", b!"StakingLock")]),
    (b!"Common", .st [(b!"amount", b!"Balance")]),
    (b!"StakingLock", .st [(b!"staking_amount", b!"Balance"), (b!"unbondings", b!"Vec<Unbonding>")]),
    (b!"LockReasons", .en [(b!"Fee", b!"null"), (b!"Misc", b!"null"), (b!"All", b!"null")]),
    (b!"AccountData", .st [(b!"free", b!"Balance"), (b!"reserved", b!"Balance"), (b!"free_kton", b!"Balance"), (b!"reserved_kton", b!"Balance")]),
    (b!"EthHeaderBrief", .st [(b!"total_difficulty", b!"U256"), (b!"parent_hash", b!"H256"), (b!"number", b!"EthBlockNumber"), (b!"relayer", b!"AccountId")]),
    (b!"EthereumHeader", .st [(b!"parent_hash", b!"H256"), (b!"timestamp", b!"u64"), (b!"number", b!"EthereumBlockNumber"), (b!"author", b!"EthereumAddress"), (b!"transactions_root", b!"H256"), (b!"uncles_hash", b!"H256"), (b!"extra_data", b!"Bytes"), (b!"state_root", b!"H256"), (b!"receipts_root", b!"H256"), (b!"log_bloom", b!"Bloom"), (b!"gas_used", b!"U256"), (b!"gas_limit", b!"U256"), (b!"difficulty", b!"U256"), (b!"seal", b!"Vec<Bytes>"), (b!"hash", b!"Option<H256>")]),
    (b!"EthHeaderBrief::<AccountId>", .al b!"EthHeaderBrief"),
    (b!"HeaderInfo", .st [(b!"total_difficulty", b!"U256"), (b!"parent_hash", b!"H256"), (b!"number", b!"EthBlockNumber")]),
    (b!"EthHeader", .st [(b!"parent_hash", b!"H256"), (b!"timestamp", b!"u64"), (b!"number", b!"EthBlockNumber"), (b!"auth", b!"EthAddress"), (b!"transaction_root", b!"H256"), (b!"uncles_hash", b!"H256"), (b!"extra_data", b!"Bytes"), (b!"state_root", b!"H256"), (b!"receipts_root", b!"H256"), (b!"log_bloom", b!"Bloom"), (b!"gas_used", b!"U256"), (b!"gas_limit", b!"U256"), (b!"difficulty", b!"U256"), (b!"seal", b!"Vec<Bytes>"), (b!"hash", b!"Option<H256>")]),
    (b!"Receipt", .st [(b!"gas_used", b!"U256"), (b!"log_bloom", b!"Bloom"), (b!"logs", b!"Vec<LogEntry>"), (b!"outcome", b!"TransactionOutcome")]),
    (b!"EthereumReceipt", .al b!"Receipt"),
    (b!"EthReceiptProof", .st [(b!"index", b!"u64"), (b!"proof", b!"Bytes"), (b!"header_hash", b!"H256")]),
    (b!"EthNetworkType", .en [(b!"Mainnet", b!"null"), (b!"Ropsten", b!"null")]),
    (b!"RedeemFor", .en [(b!"Token", b!"NULL"), (b!"Deposit", b!"NULL")]),
    (b!"EthereumReceiptProofThing", .al b!"(EthereumHeader, EthereumReceiptProof, MMRProof)"),
    (b!"OtherSignature", .en [(b!"Eth", b!"EcdsaSignature"), (b!"Tron", b!"EcdsaSignature")]),
    (b!"OtherAddress", .en [(b!"Eth", b!"EthereumAddress"), (b!"Tron", b!"EthereumAddress")]),
    (b!"MerkleMountainRangeRoot", .st [(b!"data", b!"Hash")]),
    (b!"MerkleMountainRangeRootLog", .st [(b!"prefix", b!"[u8; 4]"), (b!"mmr_root", b!"Hash")]),
    (b!"DoubleNodeWithMerkleProof", .st [(b!"dag_nodes", b!"[H512; 2]"), (b!"proof", b!"Vec<H128>")]),
    (b!"StakingBalanceT", .en [(b!"RingBalance", b!"Balance"), (b!"KtonBalance", b!"Balance")]),
    (b!"StakingLedgerT", .st [(b!"stash", b!"AccountId"), (b!"active_ring", b!"Compact<Balance>"), (b!"active_deposit_ring", b!"Compact<Balance>"), (b!"active_kton", b!"Compact<Balance>"), (b!"deposit_items", b!"Vec<TimeDepositItem>"), (b!"ring_staking_lock", b!"StakingLock"), (b!"kton_staking_lock", b!"StakingLock"), (b!"claimed_rewards", b!"Vec<EraIndex>")]),
    (b!"ExposureT", .st [(b!"own_ring_balance", b!"Compact<Balance>"), (b!"own_kton_balance", b!"Compact<Balance>"), (b!"own_power", b!"Power"), (b!"total_power", b!"Power"), (b!"others", b!"Vec<IndividualExposure>")]),
    (b!"FullIdentification", .st [(b!"own_ring_balance", b!"Compact<Balance>"), (b!"own_kton_balance", b!"Compact<Balance>"), (b!"own_power", b!"Power"), (b!"total_power", b!"Power"), (b!"others", b!"Vec<IndividualExposure>")]),
    (b!"RKT", .st [(b!"r", b!"Balance"), (b!"k", b!"Balance")]),
    (b!"DispatchResult", .en [(b!"Ok", b!"Null"), (b!"Error", b!"DispatchError")]),
    (b!"OpenTip<AccountId, RingBalance, BlockNumber, Hash>", .st [(b!"reason", b!"Hash"), (b!"who", b!"AccountId"), (b!"finder", b!"Option<OpenTipFinder>"), (b!"closes", b!"Option<BlockNumber>"), (b!"tips", b!"Vec<OpenTipTip>")]),
    (b!"slashing::SpanRecord<RingBalance, KtonBalance>", .al b!"SpanRecord"),
    (b!"slashing::RKT", .al b!"RKT"),
    (b!"MMRHash", .al b!"Vec<u8>"),
    (b!"RawHeaderThing", .al b!"Vec<u8>"),
    (b!"EthereumNetworkType", .al b!"EthNetworkType"),
    (b!"EthashProof", .al b!"DoubleNodeWithMerkleProof"),
    (b!"MMRProof", .al b!"Vec<H256>"),
    (b!"MMRProof#11-?", .st [(b!"member_leaf_index", b!"u64"), (b!"last_leaf_index", b!"u64"), (b!"proof", b!"Vec<H256>")]),
    (b!"Proposal", .st [(b!"proposer", b!"AccountId"), (b!"beneficiary", b!"AccountId"), (b!"ring_value", b!"Balance"), (b!"kton_value", b!"Balance"), (b!"ring_bond", b!"Balance"), (b!"kton_bond", b!"Balance")]),
    (b!"UnappliedSlash", .st [(b!"validator", b!"AccountId"), (b!"own", b!"RKT"), (b!"others", b!"Vec<(AccountId, RKT)>"), (b!"reporters", b!"Vec<AccountId>"), (b!"payout", b!"RKT")]),
    (b!"ElectionResultT", .st [(b!"elected_stashes", b!"Vec<AccountId>"), (b!"exposures", b!"Vec<(AccountId, ExposureT)>"), (b!"compute", b!"ElectionCompute")]),
    (b!"EthereumReceiptProof", .st [(b!"index", b!"u64"), (b!"proof", b!"Bytes"), (b!"header_hash", b!"H256")]),
    (b!"Unbonding", .st [(b!"amount", b!"Balance"), (b!"moment", b!"BlockNumber")]),
    (b!"RelayVotingState", .st [(b!"ayes", b!"Vec<AccountId>"), (b!"nays", b!"Vec<AccountId>")]),
    (b!"TcHeaderMMR", .al b!"Vec<u8>"),
    (b!"CompactAssignments#17-?", .al b!"CompactAssignmentsLatest"),
    (b!"ProxyType", .ev [b!"Any", b!"NonTransfer", b!"Governance", b!"Staking", b!"IdentityJudgement", b!"EthereumBridge"]),
    (b!"TreasuryProposal", .st [(b!"proposer", b!"AccountId"), (b!"beneficiary", b!"AccountId"), (b!"ring_value", b!"Balance"), (b!"kton_value", b!"Balance"), (b!"ring_bond", b!"Balance"), (b!"kton_bond", b!"Balance")]),
    (b!"RefCount#21-?", .al b!"u32"),
    (b!"EthereumRelayHeaderParcel", .st [(b!"header", b!"EthereumHeader"), (b!"mmr_root", b!"H256")]),
    (b!"EthereumRelayProofs", .st [(b!"ethash_proof", b!"Vec<EthashProof>"), (b!"mmr_proof", b!"Vec<H256>")]),
    (b!"RelayHeaderId", .al b!"EthereumBlockNumber"),
    (b!"RelayHeaderParcel", .al b!"EthereumRelayHeaderParcel"),
    (b!"RelayProofs", .al b!"EthereumRelayProofs"),
    (b!"RelayAffirmationId", .st [(b!"game_id", b!"EthereumBlockNumber"), (b!"round", b!"u32"), (b!"index", b!"u32")]),
    (b!"RelayAffirmationT", .st [(b!"relayer", b!"AccountId"), (b!"relay_header_parcels", b!"EthereumRelayHeaderParcel"), (b!"bond", b!"Balance"), (b!"maybe_extended_relay_affirmation_id", b!"Option<RelayAffirmationId>"), (b!"verified", b!"bool")]),
    (b!"Signer", .al b!"EthereumAddress"),
    (b!"RelayAuthorityT", .st [(b!"accountId", b!"AccountId"), (b!"signer", b!"Signer"), (b!"stake", b!"Balance"), (b!"term", b!"BlockNumber")]),
    (b!"MMRRoot", .al b!"Hash"),
    (b!"EcdsaAddress", .al b!"EthereumAddress"),
    (b!"EcdsaSignature", .al b!"[u8; 65]"),
    (b!"EcdsaMessage", .al b!"H256"),
    (b!"RelayAuthoritySigner", .al b!"EcdsaAddress"),
    (b!"RelayAuthorityMessage", .al b!"EcdsaMessage"),
    (b!"RelayAuthoritySignature", .al b!"EcdsaSignature"),
    (b!"RelayAuthoritySignature<T, I>", .al b!"EcdsaSignature"),
    (b!"Term", .al b!"u32"),
    (b!"OpCode", .al b!"[u8; 4]"),
    (b!"ScheduledAuthoritiesChange", .st [(b!"next_authorities", b!"Vec<RelayAuthorityT>"), (b!"deadline", b!"BlockNumber")]),
    (b!"ScheduledAuthoritiesChangeT", .al b!"ScheduledAuthoritiesChange"),
    (b!"AccountInfo#42-42", .al b!"AccountInfoWithProviders"),
    (b!"Address#42-?", .al b!"MultiAddress"),
    (b!"LookupSource#42-?", .al b!"MultiAddress"),
    (b!"ValidatorPrefs#42-?", .al b!"ValidatorPrefsWithBlocked"),
    (b!"AccountInfo#43-?", .al b!"AccountInfoWithTripleRefCount"),
    (b!"ExitReason", .en [(b!"Succeed", b!"ExitSucceed"), (b!"Error", b!"ExitError"), (b!"Revert", b!"ExitRevert"), (b!"Fatal", b!"ExitFatal")]),
    (b!"ExitSucceed", .ev [b!"Stopped", b!"Returned", b!"Suicided"]),
    (b!"ExitError", .en [(b!"StackUnderflow", b!"NULL"), (b!"StackOverflow", b!"NULL"), (b!"InvalidJump", b!"NULL"), (b!"InvalidRange", b!"NULL"), (b!"DesignatedInvalid", b!"NULL"), (b!"CallTooDeep", b!"NULL"), (b!"CreateCollision", b!"NULL"), (b!"CreateContractLimit", b!"NULL"), (b!"OutOfOffset", b!"NULL"), (b!"OutOfGas", b!"NULL"), (b!"OutOfFund", b!"NULL"), (b!"PCUnderflow", b!"NULL"), (b!"CreateEmpty", b!"NULL"), (b!"Other", b!"string")]),
    (b!"ExitFatal", .en [(b!"NotSupported", b!"NULL"), (b!"UnhandledInterrupt", b!"NULL"), (b!"CallErrorAsFatal", b!"NULL"), (b!"Other", b!"string")]),
    (b!"BlockTransactions", .en [(b!"Hashes", b!"Vec<H256>"), (b!"Full", b!"Vec<ethereum::Transaction>")]),
    (b!"ExitRevert", .ev [b!"Reverted"]),
    (b!"ethereum::Block", .st [(b!"hash", b!"Option<H256>"), (b!"parent_hash", b!"H256"), (b!"uncles_hash", b!"H256"), (b!"author", b!"H160"), (b!"miner", b!"H160"), (b!"state_root", b!"H256"), (b!"transactions_root", b!"H256"), (b!"receipts_root", b!"H256"), (b!"number", b!"Option<U256>"), (b!"gas_used", b!"U256"), (b!"gas_limit", b!"U256"), (b!"extra_data", b!"Bytes"), (b!"logs_bloom", b!"Option<H2048>"), (b!"timestamp", b!"U256"), (b!"difficulty", b!"U256"), (b!"total_difficulty", b!"Option<U256>"), (b!"seal_fields", b!"Vec<Bytes>"), (b!"uncles", b!"Vec<H256>"), (b!"transactions", b!"BlockTransactions"), (b!"size", b!"Option<U256>")]),
    (b!"TransactionAction", .en [(b!"Call", b!"H160"), (b!"Create", b!"NULL")]),
    (b!"Log", .st [(b!"address", b!"H160"), (b!"topics", b!"Vec<H256>"), (b!"data", b!"Vec<u8>")]),
    (b!"TransactionSignature", .st [(b!"v", b!"TransactionRecoveryId"), (b!"r", b!"H256"), (b!"s", b!"H256")]),
    (b!"TransactionRecoveryId", .al b!"U64"),
    (b!"NodeIndex", .al b!"u64"),
    (b!"MmrNodesPruningConfiguration", .st [(b!"step", b!"NodeIndex"), (b!"progress", b!"NodeIndex"), (b!"last_position", b!"NodeIndex")]),
    (b!"BlockNumberFor", .al b!"BlockNumber") ]

/-- network/crust-main.json. -/
def crust_main : List (Str × Entry) :=
  [ (b!"ReportSlot", .al b!"u64"),
    (b!"Group", .st [(b!"members", b!"BTreeSet<AccountId>"), (b!"allowlist", b!"BTreeSet<AccountId>")]),
    (b!"MerchantLedger", .st [(b!"reward", b!"Balance"), (b!"collateral", b!"Balance")]),
    (b!"IASSig", .al b!"HexBytes"),
    (b!"SworkBenefit", .st [(b!"total_funds", b!"Compact<Balance>"), (b!"active_funds", b!"Compact<Balance>"), (b!"total_fee_reduction_count", b!"u32"), (b!"used_fee_reduction_count", b!"u32"), (b!"refreshed_at", b!"Compact<EraIndex>"), (b!"unlocking_funds", b!"Vec<FundsUnlockChunk<Balance>>")]),
    (b!"AccountInfo", .al b!"AccountInfoWithProviders"),
    (b!"EraBenefits", .st [(b!"total_fee_reduction_quota", b!"Compact<Balance>"), (b!"total_market_active_funds", b!"Compact<Balance>"), (b!"used_fee_reduction_quota", b!"Compact<Balance>"), (b!"active_era", b!"Compact<EraIndex>")]),
    (b!"SworkerSignature", .al b!"HexBytes"),
    (b!"UsedInfo", .st [(b!"used_size", b!"u64"), (b!"reported_group_count", b!"u32"), (b!"groups", b!"BTreeMap<SworkerAnchor, bool>")]),
    (b!"Status", .ev [b!"Free", b!"Reserved"]),
    (b!"CSMLedger", .st [(b!"total", b!"Compact<Balance>"), (b!"active", b!"Compact<Balance>"), (b!"unlocking", b!"Vec<CSMUnlockChunk<Balance>>")]),
    (b!"EthereumTxHash", .al b!"H256"),
    (b!"Releases", .ev [b!"V1_0_0", b!"V2_0_0"]),
    (b!"CsmBalanceOf", .al b!"Balance"),
    (b!"FundsType", .ev [b!"SWORK", b!"MARKET"]),
    (b!"ValidatorPrefs", .st [(b!"guarantee_fee", b!"Compact<Perbill>")]),
    (b!"SworkerAnchor", .al b!"HexBytes"),
    (b!"Address", .al b!"AccountId"),
    (b!"Identity", .st [(b!"anchor", b!"SworkerAnchor"), (b!"punishment_deadline", b!"u64"), (b!"group", b!"Option<AccountId>")]),
    (b!"SworkerCode", .al b!"HexBytes"),
    (b!"MerkleRoot", .al b!"HexBytes"),
    (b!"WorkReport", .st [(b!"report_slot", b!"u64"), (b!"spower", b!"u64"), (b!"free", b!"u64"), (b!"reported_files_size", b!"u64"), (b!"reported_srd_root", b!"MerkleRoot"), (b!"reported_files_root", b!"MerkleRoot")]),
    (b!"CSMUnlockChunk", .st [(b!"value", b!"Compact<Balance>"), (b!"bn", b!"Compact<BlockNumber>")]),
    (b!"LookupSource", .al b!"AccountId"),
    (b!"SworkerCert", .al b!"HexBytes"),
    (b!"ETHAddress", .al b!"HexBytes"),
    (b!"Guarantee", .st [(b!"targets", b!"Vec<IndividualExposure<AccountId, Balance>>"), (b!"total", b!"Compact<Balance>"), (b!"submitted_in", b!"EraIndex"), (b!"suppressed", b!"bool")]),
    (b!"CsmBalance", .al b!"Balance"),
    (b!"MarketBenefit", .st [(b!"total_funds", b!"Compact<Balance>"), (b!"active_funds", b!"Compact<Balance>"), (b!"used_fee_reduction_quota", b!"Compact<Balance>"), (b!"file_reward", b!"Compact<Balance>"), (b!"refreshed_at", b!"Compact<EraIndex>"), (b!"unlocking_funds", b!"Vec<FundsUnlockChunk<Balance>>")]),
    (b!"FeeReductionBenefit", .st [(b!"funds", b!"Balance"), (b!"total_fee_reduction_count", b!"u32"), (b!"used_fee_reduction_quota", b!"Balance"), (b!"used_fee_reduction_count", b!"u32"), (b!"refreshed_at", b!"EraIndex")]),
    (b!"FileInfo", .st [(b!"file_size", b!"u64"), (b!"spower", b!"u64"), (b!"expired_on", b!"BlockNumber"), (b!"calculated_at", b!"BlockNumber"), (b!"amount", b!"Compact<Balance>"), (b!"prepaid", b!"Compact<Balance>"), (b!"reported_replica_count", b!"u32"), (b!"replicas", b!"Vec<Replica<AccountId>>")]),
    (b!"ISVBody", .al b!"HexBytes"),
    (b!"SworkerPubKey", .al b!"HexBytes"),
    (b!"Lock", .st [(b!"total", b!"Compact<Balance>"), (b!"last_unlock_at", b!"BlockNumber"), (b!"lock_type", b!"LockType")]),
    (b!"Replica", .st [(b!"who", b!"AccountId"), (b!"valid_at", b!"BlockNumber"), (b!"anchor", b!"SworkerAnchor"), (b!"is_reported", b!"bool"), (b!"created_at", b!"Option<BlockNumber>")]),
    (b!"PKInfo", .st [(b!"code", b!"SworkerCode"), (b!"anchor", b!"Option<SworkerAnchor>")]),
    (b!"AddressInfo", .al b!"HexBytes"),
    (b!"LockType", .st [(b!"delay", b!"BlockNumber"), (b!"lock_period", b!"u32")]),
    (b!"FundsUnlockChunk", .st [(b!"value", b!"Compact<Balance>"), (b!"era", b!"Compact<EraIndex>")]),
    (b!"Weight", .al b!"u64"),
    (b!"CompactAssignments", .al b!"CompactAssignmentsLatest"),
    (b!"RefCount", .al b!"u32"),
    (b!"ChainId", .al b!"u8"),
    (b!"TokenId", .al b!"U256"),
    (b!"ResourceId", .al b!"H256"),
    (b!"Erc721Token", .st [(b!"id", b!"TokenId"), (b!"metadata", b!"Vec<u8>")]),
    (b!"BridgeChainId", .al b!"u8"),
    (b!"ProposalStatus", .ev [b!"Initiated", b!"Approved", b!"Rejected"]),
    (b!"ProposalVotes", .st [(b!"votes_for", b!"Vec<AccountId>"), (b!"votes_against", b!"Vec<AccountId>"), (b!"status", b!"ProposalStatus"), (b!"expiry", b!"BlockNumber")]),
    (b!"DepositNonce", .al b!"u64") ]

/-- network/crust.json. -/
def crust : List (Str × Entry) :=
  [ (b!"Weight", .al b!"u64"),
    (b!"Address", .al b!"AccountId"),
    (b!"LookupSource", .al b!"AccountId"),
    (b!"DispatchResult", .en [(b!"Ok", b!"Null"), (b!"Error", b!"DispatchError")]),
    (b!"ETHAddress", .al b!"HexBytes"),
    (b!"RefCount", .al b!"u32"),
    (b!"ReportSlot", .al b!"u64"),
    (b!"MerchantLedger", .st [(b!"reward", b!"Balance"), (b!"collateral", b!"Balance")]),
    (b!"IASSig", .al b!"HexBytes"),
    (b!"SworkerSignature", .al b!"HexBytes"),
    (b!"UsedInfo", .st [(b!"used_size", b!"u64"), (b!"reported_group_count", b!"u32"), (b!"groups", b!"BTreeMap<SworkerAnchor, bool>")]),
    (b!"Status", .ev [b!"Free", b!"Reserved"]),
    (b!"EthereumTxHash", .al b!"H256"),
    (b!"Releases", .ev [b!"V1_0_0", b!"V2_0_0"]),
    (b!"Identity", .st [(b!"anchor", b!"SworkerAnchor"), (b!"punishment_deadline", b!"u64"), (b!"group", b!"Option<AccountId>")]),
    (b!"SworkerCode", .al b!"HexBytes"),
    (b!"MerkleRoot", .al b!"HexBytes"),
    (b!"SworkerCert", .al b!"HexBytes"),
    (b!"WorkReport", .st [(b!"report_slot", b!"u64"), (b!"used", b!"u64"), (b!"free", b!"u64"), (b!"reported_files_size", b!"u64"), (b!"reported_srd_root", b!"MerkleRoot"), (b!"reported_files_root", b!"MerkleRoot")]),
    (b!"SworkerAnchor", .al b!"HexBytes"),
    (b!"FileInfo", .st [(b!"file_size", b!"u64"), (b!"expired_on", b!"BlockNumber"), (b!"calculated_at", b!"BlockNumber"), (b!"amount", b!"Balance"), (b!"prepaid", b!"Balance"), (b!"reported_replica_count", b!"u32"), (b!"replicas", b!"Vec<Replica<AccountId>>")]),
    (b!"ISVBody", .al b!"HexBytes"),
    (b!"SworkerPubKey", .al b!"HexBytes"),
    (b!"AddressInfo", .al b!"HexBytes"),
    (b!"Replica", .st [(b!"who", b!"AccountId"), (b!"valid_at", b!"BlockNumber"), (b!"anchor", b!"SworkerAnchor"), (b!"is_reported", b!"bool")]),
    (b!"PKInfo", .st [(b!"code", b!"SworkerCode"), (b!"anchor", b!"Option<SworkerAnchor>")]),
    (b!"FileAlias", .al b!"HexBytes"),
    (b!"Guarantee", .st [(b!"targets", b!"Vec<IndividualExposure<AccountId, Balance>>"), (b!"total", b!"Compact<Balance>"), (b!"submitted_in", b!"EraIndex"), (b!"suppressed", b!"bool")]),
    (b!"Box<<T as Config>::Call>", .al b!"Call"),
    (b!"CompactAssignments", .al b!"CompactAssignmentsLatest"),
    (b!"AccountInfo", .al b!"AccountInfoWithProviders"),
    (b!"CsmBalance", .al b!"Balance"),
    (b!"CsmBalanceOf", .al b!"Balance"),
    (b!"ChainId", .al b!"u8"),
    (b!"TokenId", .al b!"U256"),
    (b!"ResourceId", .al b!"H256"),
    (b!"Erc721Token", .st [(b!"id", b!"TokenId"), (b!"metadata", b!"Vec<u8>")]),
    (b!"BridgeChainId", .al b!"u8"),
    (b!"ProposalStatus", .ev [b!"Initiated", b!"Approved", b!"Rejected"]),
    (b!"ProposalVotes", .st [(b!"votes_for", b!"Vec<AccountId>"), (b!"votes_against", b!"Vec<AccountId>"), (b!"status", b!"ProposalStatus"), (b!"expiry", b!"BlockNumber")]),
    (b!"DepositNonce", .al b!"u64"),
    (b!"ValidatorPrefs", .st [(b!"guarantee_fee", b!"Compact<Perbill>")]) ]

/-- network/darwinia.json. -/
def darwinia : List (Str × Entry) :=
  [ (b!"U256", .al b!"[u8; 32]"),
    (b!"H128", .al b!"[u8; 16]"),
    (b!"TsInMs", .al b!"u64"),
    (b!"RingBalance", .al b!"Balance"),
    (b!"KtonBalance", .al b!"Balance"),
    (b!"MomentT", .al b!"Moment"),
    (b!"Power", .al b!"u32"),
    (b!"DepositId", .al b!"U256"),
    (b!"EthBlockNumber", .al b!"u64"),
    (b!"EthereumBlockNumber", .al b!"u64"),
    (b!"EthAddress", .al b!"H160"),
    (b!"EthTransactionIndex", .al b!"(H256, u64)"),
    (b!"EthereumTransactionIndex", .al b!"(H256, u64)"),
    (b!"BalanceInfo", .al b!"null"),
    (b!"AddressT", .al b!"EthereumAddress"),
    (b!"TronAddress", .al b!"EthereumAddress"),
    (b!"Bloom", .al b!"[u8; 256]"),
    (b!"H", .al b!"Hash"),
    (b!"Address", .al b!"AccountId"),
    (b!"LookupSource", .al b!"AccountId"),
    (b!"EthereumAddress", .al b!"H160"),
    (b!"MappedRing", .al b!"u128"),
    (b!"Keys", .st [(b!"babe", b!"AccountId"), (b!"grandpa", b!"AccountId"), (b!"im_online", b!"AccountId"), (b!"authority_discovery", b!"AccountId")]),
    (b!"Weight", .al b!"u64"),
    (b!"ModuleId", .al b!"[u8; 8]"),
    (b!"RuntimeDbWeight", .st [(b!"read", b!"u128"), (b!"read", b!"write")]),
    (b!"SpanRecord", .st [(b!"slashed", b!"RKT"), (b!"paid_out", b!"RKT")]),
    (b!"StakingRuntimeDispatchInfo", .st [(b!"power", b!"Power")]),
    (b!"BalancesRuntimeDispatchInfo", .st [(b!"usable_balance", b!"Balance")]),
    (b!"StakingBalance", .en [(b!"RingBalance", b!"Balance"), (b!"KtonBalance", b!"Balance")]),
    (b!"StakingLedger", .st [(b!"stash", b!"AccountId"), (b!"active_ring", b!"Compact<Balance>"), (b!"active_deposit_ring", b!"Compact<Balance>"), (b!"active_kton", b!"Compact<Balance>"), (b!"deposit_items", b!"Vec<TimeDepositItem>"), (b!"ring_staking_lock", b!"StakingLock"), (b!"kton_staking_lock", b!"StakingLock"), (b!"last_reward", b!"Option<EraIndex>")]),
    (b!"TimeDepositItem", .st [(b!"value", b!"Compact<Balance>"), (b!"start_time", b!"Compact<TsInMs>"), (b!"expire_time", b!"Compact<TsInMs>")]),
    (b!"Staked", .st [(b!"promise_month", b!"u8")]),
    (b!"Exposure", .st [(b!"own_ring_balance", b!"Compact<Balance>"), (b!"own_kton_balance", b!"Compact<Balance>"), (b!"own_power", b!"Power"), (b!"total_power", b!"Power"), (b!"others", b!"Vec<IndividualExposure>")]),
    (b!"IndividualExposure", .st [(b!"who", b!"AccountId"), (b!"ring_balance", b!"Compact<Balance>"), (b!"kton_balance", b!"Compact<Balance>"), (b!"power", b!"Power")]),
    (b!"ValidatorReward", .st [(b!"who", b!"AccountId"), (b!"amount", b!"Compact<Balance>"), (b!"nominators_reward", b!"Vec<NominatorReward>")]),
    (b!"NominatorReward", .st [(b!"who", b!"AccountId"), (b!"amount", b!"Compact<Balance>")]),
    (b!"RK", .st [(b!"r", b!"Balance"), (b!"k", b!"Balance")]),
    (b!"BalanceLock<Balance, BlockNumber>", .st [(b!"id", b!"LockIdentifier"), (b!"lock_for", b!"LockFor"), (b!"lock_reasons", b!"LockReasons")]),
    (b!"LockFor", .en [(b!"Common", b!"Common"), (b!"Staking", b!"StakingLock")]),
    (b!"Common", .st [(b!"amount", b!"Balance")]),
    (b!"StakingLock", .st [(b!"staking_amount", b!"Balance"), (b!"unbondings", b!"Vec<Unbonding>")]),
    (b!"LockReasons", .en [(b!"Fee", b!"null"), (b!"Misc", b!"null"), (b!"All", b!"null")]),
    (b!"AccountData", .st [(b!"free", b!"Balance"), (b!"reserved", b!"Balance"), (b!"free_kton", b!"Balance"), (b!"reserved_kton", b!"Balance")]),
    (b!"EthHeaderBrief", .st [(b!"total_difficulty", b!"U256"), (b!"parent_hash", b!"H256"), (b!"number", b!"EthBlockNumber"), (b!"relayer", b!"AccountId")]),
    (b!"EthereumHeader", .st [(b!"parent_hash", b!"H256"), (b!"timestamp", b!"u64"), (b!"number", b!"EthereumBlockNumber"), (b!"author", b!"EthereumAddress"), (b!"transactions_root", b!"H256"), (b!"uncles_hash", b!"H256"), (b!"extra_data", b!"Bytes"), (b!"state_root", b!"H256"), (b!"receipts_root", b!"H256"), (b!"log_bloom", b!"Bloom"), (b!"gas_used", b!"U256"), (b!"gas_limit", b!"U256"), (b!"difficulty", b!"U256"), (b!"seal", b!"Vec<Bytes>"), (b!"hash", b!"Option<H256>")]),
    (b!"EthHeaderBrief::<AccountId>", .al b!"EthHeaderBrief"),
    (b!"HeaderInfo", .st [(b!"total_difficulty", b!"U256"), (b!"parent_hash", b!"H256"), (b!"number", b!"EthBlockNumber")]),
    (b!"EthHeader", .st [(b!"parent_hash", b!"H256"), (b!"timestamp", b!"u64"), (b!"number", b!"EthBlockNumber"), (b!"auth", b!"EthAddress"), (b!"transaction_root", b!"H256"), (b!"uncles_hash", b!"H256"), (b!"extra_data", b!"Bytes"), (b!"state_root", b!"H256"), (b!"receipts_root", b!"H256"), (b!"log_bloom", b!"Bloom"), (b!"gas_used", b!"U256"), (b!"gas_limit", b!"U256"), (b!"difficulty", b!"U256"), (b!"seal", b!"Vec<Bytes>"), (b!"hash", b!"Option<H256>")]),
    (b!"Receipt", .st [(b!"gas_used", b!"U256"), (b!"log_bloom", b!"Bloom"), (b!"logs", b!"Vec<LogEntry>"), (b!"outcome", b!"TransactionOutcome")]),
    (b!"EthereumReceipt", .al b!"Receipt"),
    (b!"EthReceiptProof", .st [(b!"index", b!"u64"), (b!"proof", b!"Bytes"), (b!"header_hash", b!"H256")]),
    (b!"EthNetworkType", .en [(b!"Mainnet", b!"null"), (b!"Ropsten", b!"null")]),
    (b!"RedeemFor", .en [(b!"Token", b!"NULL"), (b!"Deposit", b!"NULL")]),
    (b!"EthereumReceiptProofThing", .al b!"(EthereumHeader, EthereumReceiptProof, MMRProof)"),
    (b!"OtherSignature", .en [(b!"Eth", b!"EcdsaSignature"), (b!"Tron", b!"EcdsaSignature")]),
    (b!"OtherAddress", .en [(b!"Eth", b!"EthereumAddress"), (b!"Tron", b!"EthereumAddress")]),
    (b!"MerkleMountainRangeRoot", .st [(b!"data", b!"Hash")]),
    (b!"ValidatorPrefs", .st [(b!"commission", b!"Compact<Balance>")]),
    (b!"MerkleMountainRangeRootLog", .st [(b!"prefix", b!"[u8; 4]"), (b!"mmr_root", b!"Hash")]),
    (b!"DoubleNodeWithMerkleProof", .st [(b!"dag_nodes", b!"[H512; 2]"), (b!"proof", b!"Vec<H128>")]),
    (b!"StakingBalanceT", .en [(b!"RingBalance", b!"Balance"), (b!"KtonBalance", b!"Balance")]),
    (b!"StakingLedgerT", .st [(b!"stash", b!"AccountId"), (b!"active_ring", b!"Compact<Balance>"), (b!"active_deposit_ring", b!"Compact<Balance>"), (b!"active_kton", b!"Compact<Balance>"), (b!"deposit_items", b!"Vec<TimeDepositItem>"), (b!"ring_staking_lock", b!"StakingLock"), (b!"kton_staking_lock", b!"StakingLock"), (b!"claimed_rewards", b!"Vec<EraIndex>")]),
    (b!"ExposureT", .st [(b!"own_ring_balance", b!"Compact<Balance>"), (b!"own_kton_balance", b!"Compact<Balance>"), (b!"own_power", b!"Power"), (b!"total_power", b!"Power"), (b!"others", b!"Vec<IndividualExposure>")]),
    (b!"FullIdentification", .st [(b!"own_ring_balance", b!"Compact<Balance>"), (b!"own_kton_balance", b!"Compact<Balance>"), (b!"own_power", b!"Power"), (b!"total_power", b!"Power"), (b!"others", b!"Vec<IndividualExposure>")]),
    (b!"RKT", .st [(b!"r", b!"Balance"), (b!"k", b!"Balance")]),
    (b!"DispatchResult", .en [(b!"Ok", b!"Null"), (b!"Error", b!"DispatchError")]),
    (b!"OpenTip<AccountId, RingBalance, BlockNumber, Hash>", .st [(b!"reason", b!"Hash"), (b!"who", b!"AccountId"), (b!"finder", b!"Option<OpenTipFinder>"), (b!"closes", b!"Option<BlockNumber>"), (b!"tips", b!"Vec<OpenTipTip>")]),
    (b!"slashing::SpanRecord<RingBalance, KtonBalance>", .al b!"SpanRecord"),
    (b!"slashing::RKT", .al b!"RKT"),
    (b!"MMRHash", .al b!"Vec<u8>"),
    (b!"RawHeaderThing", .al b!"Vec<u8>"),
    (b!"EthereumNetworkType", .al b!"EthNetworkType"),
    (b!"EthashProof", .al b!"DoubleNodeWithMerkleProof"),
    (b!"MMRProof", .st [(b!"member_leaf_index", b!"u64"), (b!"last_leaf_index", b!"u64"), (b!"proof", b!"Vec<H256>")]),
    (b!"ConfirmedEthereumHeaderInfo", .st [(b!"header", b!"EthereumHeader"), (b!"mmr_root", b!"H256")]),
    (b!"Proposal", .st [(b!"proposer", b!"AccountId"), (b!"beneficiary", b!"AccountId"), (b!"ring_value", b!"Balance"), (b!"kton_value", b!"Balance"), (b!"ring_bond", b!"Balance"), (b!"kton_bond", b!"Balance")]),
    (b!"UnappliedSlash", .st [(b!"validator", b!"AccountId"), (b!"own", b!"RKT"), (b!"others", b!"Vec<(AccountId, RKT)>"), (b!"reporters", b!"Vec<AccountId>"), (b!"payout", b!"RKT")]),
    (b!"ElectionResultT", .st [(b!"elected_stashes", b!"Vec<AccountId>"), (b!"exposures", b!"Vec<(AccountId, ExposureT)>"), (b!"compute", b!"ElectionCompute")]),
    (b!"EthereumReceiptProof", .st [(b!"index", b!"u64"), (b!"proof", b!"Bytes"), (b!"header_hash", b!"H256")]),
    (b!"Unbonding", .st [(b!"amount", b!"Balance"), (b!"moment", b!"BlockNumber")]),
    (b!"TcHeaderMMR", .al b!"Vec<u8>"),
    (b!"CompactAssignments", .al b!"CompactAssignmentsLatest"),
    (b!"ProxyType", .ev [b!"Any", b!"NonTransfer", b!"Governance", b!"Staking", b!"IdentityJudgement", b!"EthereumBridge"]),
    (b!"TreasuryProposal", .st [(b!"proposer", b!"AccountId"), (b!"beneficiary", b!"AccountId"), (b!"ring_value", b!"Balance"), (b!"kton_value", b!"Balance"), (b!"ring_bond", b!"Balance"), (b!"kton_bond", b!"Balance")]),
    (b!"RefCount", .al b!"u32"),
    (b!"EthereumRelayHeaderParcel", .st [(b!"header", b!"EthereumHeader"), (b!"parent_mmr_root", b!"H256")]),
    (b!"EthereumRelayProofs", .st [(b!"ethash_proof", b!"Vec<EthashProof>"), (b!"mmr_proof", b!"Vec<H256>")]),
    (b!"RelayHeaderId", .al b!"EthereumBlockNumber"),
    (b!"RelayHeaderParcel", .al b!"EthereumRelayHeaderParcel"),
    (b!"RelayProofs", .al b!"EthereumRelayProofs"),
    (b!"RelayAffirmationId", .st [(b!"game_id", b!"EthereumBlockNumber"), (b!"round", b!"u32"), (b!"index", b!"u32")]),
    (b!"RelayAffirmationT", .st [(b!"relayer", b!"AccountId"), (b!"relay_header_parcels", b!"EthereumRelayHeaderParcel"), (b!"bond", b!"Balance"), (b!"maybe_extended_relay_affirmation_id", b!"Option<RelayAffirmationId>"), (b!"verified", b!"bool")]),
    (b!"RelayVotingState", .st [(b!"ayes", b!"Vec<AccountId>"), (b!"nays", b!"Vec<AccountId>")]),
    (b!"Signer", .al b!"EthereumAddress"),
    (b!"RelayAuthorityT", .st [(b!"accountId", b!"AccountId"), (b!"signer", b!"Signer"), (b!"stake", b!"Balance"), (b!"term", b!"BlockNumber")]),
    (b!"MMRRoot", .al b!"Hash"),
    (b!"EcdsaAddress", .al b!"EthereumAddress"),
    (b!"EcdsaSignature", .al b!"[u8; 65]"),
    (b!"EcdsaMessage", .al b!"H256"),
    (b!"RelayAuthoritySigner", .al b!"EcdsaAddress"),
    (b!"RelayAuthorityMessage", .al b!"EcdsaMessage"),
    (b!"RelayAuthoritySignature", .al b!"EcdsaSignature"),
    (b!"RelayAuthoritySignature<T, I>", .al b!"EcdsaSignature"),
    (b!"Term", .al b!"u32"),
    (b!"OpCode", .al b!"[u8; 4]"),
    (b!"ScheduledAuthoritiesChange", .st [(b!"next_authorities", b!"Vec<RelayAuthorityT>"), (b!"deadline", b!"BlockNumber")]),
    (b!"ScheduledAuthoritiesChangeT", .al b!"ScheduledAuthoritiesChange"),
    (b!"AccountInfo#23-23", .al b!"AccountInfoWithProviders"),
    (b!"Address#23-?", .al b!"MultiAddress"),
    (b!"LookupSource#23-?", .al b!"MultiAddress"),
    (b!"ValidatorPrefs#23-?", .al b!"ValidatorPrefsWithBlocked"),
    (b!"AccountInfo#24-?", .al b!"AccountInfoWithTripleRefCount"),
    (b!"NodeIndex", .al b!"u64"),
    (b!"MmrNodesPruningConfiguration", .st [(b!"step", b!"NodeIndex"), (b!"progress", b!"NodeIndex"), (b!"last_position", b!"NodeIndex")]),
    (b!"BlockNumberFor", .al b!"BlockNumber"),
    (b!"EthereumHeader#1120-?", .st [(b!"parent_hash", b!"H256"), (b!"timestamp", b!"u64"), (b!"number", b!"EthereumBlockNumber"), (b!"author", b!"EthereumAddress"), (b!"transactions_root", b!"H256"), (b!"uncles_hash", b!"H256"), (b!"extra_data", b!"Bytes"), (b!"state_root", b!"H256"), (b!"receipts_root", b!"H256"), (b!"log_bloom", b!"Bloom"), (b!"gas_used", b!"U256"), (b!"gas_limit", b!"U256"), (b!"difficulty", b!"U256"), (b!"seal", b!"Vec<Bytes>"), (b!"base_fee_per_gas", b!"Option<U256>"), (b!"hash", b!"Option<H256>")]) ]

end ScaleGo.Network
