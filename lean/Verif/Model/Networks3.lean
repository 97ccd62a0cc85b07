import Verif.Model.LoadJson

/-! # The definitions shipped for single networks, part 3

The files in `network/`, entry by entry, written down by a script. -/

set_option maxRecDepth 20000

namespace ScaleGo.Network

/-- network/karura.json. -/
def karura : List (Str × Entry) :=
  [ (b!"Weight", .al b!"u64"),
    (b!"CompactAssignments", .al b!"CompactAssignmentsLatest"),
    (b!"RefCount", .al b!"u32"),
    (b!"Address", .al b!"MultiAddress"),
    (b!"LookupSource", .al b!"MultiAddress"),
    (b!"AccountInfo", .al b!"AccountInfoWithTripleRefCount"),
    (b!"PalletsOrigin", .al b!"OriginCaller"),
    (b!"Attributes", .al b!"BTreeMap<Vec<u8>, Vec<u8>>"),
    (b!"AuctionInfo", .st [(b!"bid", b!"Option<(AccountId, Balance)>"), (b!"start", b!"BlockNumber"), (b!"end", b!"Option<BlockNumber>")]),
    (b!"NFTBalance", .al b!"u128"),
    (b!"OptionRatio", .al b!"Option<Ratio>"),
    (b!"TimestampedValueOf", .al b!"TimestampedValue"),
    (b!"Ratio", .al b!"FixedU128"),
    (b!"StorageKeyBytes", .al b!"Vec<u8>"),
    (b!"ClassIdOf", .al b!"ClassId"),
    (b!"Erc20Info", .st [(b!"address", b!"EvmAddress"), (b!"name", b!"Vec<u8>"), (b!"symbol", b!"Vec<u8>"), (b!"decimals", b!"u8")]),
    (b!"DelayedDispatchTime", .en [(b!"At", b!"BlockNumber"), (b!"After", b!"BlockNumber")]),
    (b!"TimestampedValue", .st [(b!"value", b!"OracleValue"), (b!"timestamp", b!"Moment")]),
    (b!"AuthoritysOriginId", .ev [b!"Root", b!"AcalaTreasury", b!"HonzonTreasury", b!"HomaTreasury", b!"DSWF"]),
    (b!"SlashInfo", .st [(b!"validator", b!"RelaychainAccountId"), (b!"relaychainTokenAmount", b!"Balance")]),
    (b!"ClassData", .st [(b!"deposit", b!"Balance"), (b!"properties", b!"Properties")]),
    (b!"PalletBalanceOf", .al b!"Balance"),
    (b!"ClassInfoOf", .st [(b!"metadata", b!"CID"), (b!"totalIssuance", b!"TokenId"), (b!"owner", b!"AccountId"), (b!"data", b!"ClassData")]),
    (b!"TradingPairProvisionParameters", .st [(b!"minContribution", b!"(Balance, Balance)"), (b!"targetProvision", b!"(Balance, Balance)"), (b!"accumulatedProvision", b!"(Balance, Balance)"), (b!"notBefore", b!"BlockNumber")]),
    (b!"ChangeOptionRate", .en [(b!"NoChange", b!"Null"), (b!"NewValue", b!"OptionRate")]),
    (b!"Amount", .al b!"i128"),
    (b!"StorageValue", .al b!"Vec<u8>"),
    (b!"Position", .st [(b!"collateral", b!"Balance"), (b!"debit", b!"Balance")]),
    (b!"DispatchTime", .en [(b!"At", b!"BlockNumber"), (b!"After", b!"BlockNumber")]),
    (b!"OptionRate", .al b!"Option<Rate>"),
    (b!"ChangeRate", .en [(b!"NoChange", b!"Null"), (b!"NewValue", b!"Rate")]),
    (b!"ExchangeRate", .al b!"FixedU128"),
    (b!"Share", .al b!"u128"),
    (b!"TradingPairStatus", .en [(b!"NotEnabled", b!"Null"), (b!"Provisioning", b!"TradingPairProvisionParameters"), (b!"Enabled", b!"Null")]),
    (b!"OracleValue", .al b!"Price"),
    (b!"NFTClassId", .al b!"u32"),
    (b!"Guarantee", .st [(b!"total", b!"Balance"), (b!"bonded", b!"Balance"), (b!"unbonding", b!"Option<(Balance, BlockNumber)>")]),
    (b!"OrmlBalanceLock", .st [(b!"amount", b!"Balance"), (b!"id", b!"LockIdentifier")]),
    (b!"ChangeRatio", .en [(b!"NoChange", b!"Null"), (b!"NewValue", b!"Ratio")]),
    (b!"GraduallyUpdate", .st [(b!"key", b!"StorageKey"), (b!"targetValue", b!"StorageValue"), (b!"perBlock", b!"StorageValue")]),
    (b!"Params", .st [(b!"targetMaxFreeUnbondedRatio", b!"Ratio"), (b!"targetMinFreeUnbondedRatio", b!"Ratio"), (b!"targetUnbondingToFreeRatio", b!"Ratio"), (b!"unbondingToFreeAdjustment", b!"Ratio"), (b!"baseFeeRate", b!"Rate")]),
    (b!"AirDropCurrencyId", .ev [b!"KAR", b!"ACA"]),
    (b!"BalanceRequest", .st [(b!"amount", b!"Balance")]),
    (b!"RelaychainAccountId", .al b!"AccountId"),
    (b!"EvmAddress", .al b!"H160"),
    (b!"EstimateResourcesResponse", .st [(b!"gas", b!"u256"), (b!"storage", b!"i32"), (b!"weightFee", b!"u256")]),
    (b!"RpcDataProviderId", .al b!"Text"),
    (b!"CollateralAuctionItem", .st [(b!"refundRecipient", b!"AccountId"), (b!"currencyId", b!"CurrencyId"), (b!"initialAmount", b!"Compact<Balance>"), (b!"amount", b!"Compact<Balance>"), (b!"target", b!"Compact<Balance>"), (b!"startTime", b!"BlockNumber")]),
    (b!"TokenId", .al b!"u64"),
    (b!"CurrencyId", .en [(b!"Token", b!"TokenSymbol"), (b!"DEXShare", b!"(DexShare, DexShare)"), (b!"ERC20", b!"EvmAddress"), (b!"ChainSafe", b!"[u8; 32]")]),
    (b!"DebitAuctionItem", .st [(b!"initialAmount", b!"Compact<Balance>"), (b!"amount", b!"Compact<Balance>"), (b!"fix", b!"Compact<Balance>"), (b!"startTime", b!"BlockNumber")]),
    (b!"RedeemStrategy", .en [(b!"Immediately", b!"Null"), (b!"Target", b!"EraIndex"), (b!"WaitForUnbonding", b!"Null")]),
    (b!"CallOf", .al b!"Call"),
    (b!"AuctionIdOf", .al b!"AuctionId"),
    (b!"AsOriginId", .al b!"AuthoritysOriginId"),
    (b!"OrmlVestingSchedule", .st [(b!"start", b!"BlockNumber"), (b!"period", b!"BlockNumber"), (b!"periodCount", b!"u32"), (b!"perPeriod", b!"Compact<Balance>")]),
    (b!"ChainId", .al b!"u8"),
    (b!"AcalaDataProviderId", .ev [b!"Aggregated", b!"Acala", b!"Band"]),
    (b!"Ledger", .st [(b!"bonded", b!"Balance"), (b!"unbondingToFree", b!"Balance"), (b!"freePool", b!"Balance"), (b!"toUnbondNextEra", b!"(Balance, Balance)")]),
    (b!"ChangeOptionRatio", .en [(b!"NoChange", b!"Null"), (b!"NewValue", b!"OptionRatio")]),
    (b!"PolkadotAccountIdOf", .al b!"PolkadotAccountId"),
    (b!"RiskManagementParams", .st [(b!"maximumTotalDebitValue", b!"Balance"), (b!"interestRatePerSec", b!"Option<Rate>"), (b!"liquidationRatio", b!"Option<Rate>"), (b!"liquidationPenalty", b!"Option<Rate>"), (b!"requiredCollateralRatio", b!"Option<Rate>")]),
    (b!"Keys", .al b!"SessionKeys1"),
    (b!"EvmContractInfo", .st [(b!"codeHash", b!"H256"), (b!"maintainer", b!"H160"), (b!"deployed", b!"bool")]),
    (b!"TradingPair", .al b!"(CurrencyId,  CurrencyId)"),
    (b!"ValidatorBacking", .st [(b!"totalInsurance", b!"Balance"), (b!"isFrozen", b!"bool")]),
    (b!"OrmlAccountData", .st [(b!"free", b!"Balance"), (b!"frozen", b!"Balance"), (b!"reserved", b!"Balance")]),
    (b!"LiquidationStrategy", .ev [b!"Auction", b!"Exchange"]),
    (b!"CodeInfo", .st [(b!"codeSize", b!"u32"), (b!"refCount", b!"u32")]),
    (b!"Properties", .set [b!"Transferable", b!"Burnable"] 8),
    (b!"TokenSymbol", .en [(b!"ACA", b!"0"), (b!"AUSD", b!"1"), (b!"DOT", b!"2"), (b!"LDOT", b!"3"), (b!"RENBTC", b!"4"), (b!"KAR", b!"128"), (b!"KUSD", b!"129"), (b!"KSM", b!"130"), (b!"LKSM", b!"131")]),
    (b!"AuctionId", .al b!"u32"),
    (b!"StorageValueBytes", .al b!"Vec<u8>"),
    (b!"CandidateInfoOf", .al b!"CandidateInfo"),
    (b!"CallRequest", .st [(b!"from", b!"Option<H160>"), (b!"to", b!"Option<H160>"), (b!"gasLimit", b!"Option<u32>"), (b!"storageLimit", b!"Option<u32>"), (b!"value", b!"Option<U128>"), (b!"data", b!"Option<Bytes>")]),
    (b!"OrderedSet", .al b!"Vec<AccountId>"),
    (b!"StakingPoolPhase", .ev [b!"Started", b!"RelaychainUpdated", b!"LedgerUpdated", b!"Finished"]),
    (b!"TokenInfoOf", .st [(b!"metadata", b!"CID"), (b!"owner", b!"AccountId"), (b!"data", b!"TokenData")]),
    (b!"AuthorityOrigin", .al b!"DelayedOrigin"),
    (b!"OracleKey", .al b!"CurrencyId"),
    (b!"TokenIdOf", .al b!"TokenId"),
    (b!"BalanceInfo", .st [(b!"amount", b!"Balance")]),
    (b!"CID", .al b!"Vec<u8>"),
    (b!"ChangeBalance", .en [(b!"NoChange", b!"Null"), (b!"NewValue", b!"Balance")]),
    (b!"VestingScheduleOf", .al b!"OrmlVestingSchedule"),
    (b!"NomineeId", .al b!"AccountId"),
    (b!"PoolId", .en [(b!"Loans", b!"CurrencyId"), (b!"Dex", b!"CurrencyId")]),
    (b!"PoolId#0-1009", .en [(b!"LoansIncentive", b!"CurrencyId"), (b!"DexIncentive", b!"CurrencyId"), (b!"HomaIncentive", b!"Null"), (b!"DexSaving", b!"CurrencyId"), (b!"HomaValidatorAllowance", b!"AccountId")]),
    (b!"SubAccountStatus", .st [(b!"bonded", b!"Balance"), (b!"available", b!"Balance"), (b!"unbonding", b!"Vec<(EraIndex,Balance)>"), (b!"mockRewardRate", b!"Rate")]),
    (b!"DepositNonce", .al b!"u64"),
    (b!"BalanceWrapper", .st [(b!"amount", b!"Balance")]),
    (b!"ResourceId", .al b!"[u8; 32]"),
    (b!"Price", .al b!"FixedU128"),
    (b!"CurrencyIdOf", .al b!"CurrencyId"),
    (b!"AmountOf", .al b!"Amount"),
    (b!"BondingLedger", .st [(b!"total", b!"Balance"), (b!"active", b!"Balance"), (b!"unlocking", b!"Vec<HomaUnlockChunk>")]),
    (b!"ScheduleTaskIndex", .al b!"u32"),
    (b!"PoolInfo", .st [(b!"totalShares", b!"Share"), (b!"rewards", b!"BTreeMap<OrmlCurrencyId, (Balance, Balance)>")]),
    (b!"PoolInfo#0-1009", .st [(b!"totalShares", b!"Compact<Share>"), (b!"totalRewards", b!"Compact<Balance>"), (b!"totalWithdrawnRewards", b!"Compact<Balance>")]),
    (b!"OrmlCurrencyId", .al b!"CurrencyId"),
    (b!"EvmAccountInfo", .st [(b!"nonce", b!"Index"), (b!"contractInfo", b!"Option<EvmContractInfo>"), (b!"developerDeposit", b!"Option<Balance>")]),
    (b!"DexShare", .en [(b!"Token", b!"TokenSymbol"), (b!"Erc20", b!"EvmAddress")]),
    (b!"DestAddress", .al b!"Vec<u8>"),
    (b!"HomaUnlockChunk", .st [(b!"value", b!"Balance"), (b!"era", b!"EraIndex")]),
    (b!"TokenData", .st [(b!"deposit", b!"Balance")]),
    (b!"DispatchId", .al b!"u32"),
    (b!"DelayedOrigin", .st [(b!"delay", b!"BlockNumber"), (b!"origin", b!"PalletsOrigin")]),
    (b!"DataProviderId", .al b!"u8"),
    (b!"PublicKey", .al b!"[u8; 20]"),
    (b!"Rate", .al b!"FixedU128"),
    (b!"PolkadotAccountId", .al b!"AccountId"),
    (b!"SurplusAuctionItem", .st [(b!"amount", b!"Compact<Balance>"), (b!"startTime", b!"BlockNumber")]),
    (b!"ProxyType", .ev [b!"Any", b!"CancelProxy", b!"Governance", b!"Auction", b!"Swap", b!"Loan"]),
    (b!"AssetInstance", .al b!"AssetInstanceV0"),
    (b!"MultiAsset", .al b!"MultiAssetV0"),
    (b!"Xcm", .al b!"XcmV0"),
    (b!"XcmOrder", .al b!"XcmOrderV0"),
    (b!"MultiLocation", .al b!"MultiLocationV0") ]

/-- network/khala.json. -/
def khala : List (Str × Entry) :=
  [ (b!"Weight", .al b!"u64"),
    (b!"CompactAssignments", .al b!"CompactAssignmentsLatest"),
    (b!"RefCount", .al b!"u32"),
    (b!"AccountInfo", .al b!"AccountInfoWithTripleRefCount"),
    (b!"GenericTransfer", .st [(b!"dest_id", b!"BridgeChainId"), (b!"nonce", b!"DepositNonce"), (b!"resource_id", b!"ResourceId"), (b!"metadata", b!"Vec<u8>")]),
    (b!"ContractPublicKey", .al b!"Sr25519PublicKey"),
    (b!"MinerInfo", .st [(b!"state", b!"MinerState"), (b!"ve", b!"u128"), (b!"v", b!"u128"), (b!"vUpdatedAt", b!"u64"), (b!"benchmark", b!"Benchmark"), (b!"coolDownStart", b!"u64"), (b!"stats", b!"MinerStats")]),
    (b!"TokenomicParams", .al b!"TokenomicParameters"),
    (b!"U64F64Bits", .al b!"u128"),
    (b!"KeyDistribution", .en [(b!"MasterKeyDistribution", b!"DispatchMasterKeyEvent")]),
    (b!"BridgeChainId", .al b!"u8"),
    (b!"Benchmark", .st [(b!"pInit", b!"u32"), (b!"pInstant", b!"u32"), (b!"iterations", b!"u64"), (b!"miningStartTime", b!"u64"), (b!"challengeTimeLast", b!"u64")]),
    (b!"DepositNonce", .al b!"u64"),
    (b!"ProxyType", .ev [b!"Any", b!"NonTransfer", b!"CancelProxy", b!"Governance", b!"Collator", b!"StakePoolManager"]),
    (b!"Keys", .al b!"AccountId"),
    (b!"ResourceId", .al b!"[u8; 32]"),
    (b!"WorkerRegistrationInfo", .st [(b!"version", b!"u32"), (b!"machineId", b!"Vec<u8>"), (b!"pubkey", b!"WorkerPublicKey"), (b!"ecdhPubkey", b!"EcdhPublicKey"), (b!"genesisBlockHash", b!"H256"), (b!"features", b!"Vec<u32>"), (b!"operator", b!"Option<AccountId>")]),
    (b!"SenderId", .al b!"MessageOrigin"),
    (b!"WorkerInfo", .st [(b!"pubkey", b!"WorkerPublicKey"), (b!"ecdhPubkey", b!"EcdhPublicKey"), (b!"runtimeVersion", b!"u32"), (b!"lastUpdated", b!"u64"), (b!"operator", b!"Option<AccountId>"), (b!"confidenceLevel", b!"u8"), (b!"initialScore", b!"Option<u32>"), (b!"features", b!"Vec<u32>")]),
    (b!"AttestationSgxIas", .st [(b!"raReport", b!"Vec<u8>"), (b!"signature", b!"Vec<u8>"), (b!"rawSigningCert", b!"Vec<u8>")]),
    (b!"Address", .al b!"MultiAddress"),
    (b!"Path", .al b!"Vec<u8>"),
    (b!"TokenomicParameters", .st [(b!"phaRate", b!"U64F64Bits"), (b!"rho", b!"U64F64Bits"), (b!"budgetPerBlock", b!"U64F64Bits"), (b!"vMax", b!"U64F64Bits"), (b!"costK", b!"U64F64Bits"), (b!"costB", b!"U64F64Bits"), (b!"slashRate", b!"U64F64Bits"), (b!"treasuryRatio", b!"U64F64Bits"), (b!"heartbeatWindow", b!"u32"), (b!"rigK", b!"U64F64Bits"), (b!"rigB", b!"U64F64Bits"), (b!"re", b!"U64F64Bits"), (b!"k", b!"U64F64Bits"), (b!"kappa", b!"U64F64Bits")]),
    (b!"MasterPublicKey", .al b!"Sr25519PublicKey"),
    (b!"BridgeEvent", .en [(b!"FungibleTransfer", b!"FungibleTransfer"), (b!"NonFungibleTransfer", b!"NonFungibleTransfer"), (b!"GenericTransfer", b!"GenericTransfer")]),
    (b!"PoolInfo", .st [(b!"pid", b!"u64"), (b!"owner", b!"AccountId"), (b!"payoutCommission", b!"Option<Permill>"), (b!"ownerReward", b!"Balance"), (b!"cap", b!"Option<Balance>"), (b!"rewardAcc", b!"u128"), (b!"totalShares", b!"Balance"), (b!"totalStake", b!"Balance"), (b!"freeStake", b!"Balance"), (b!"releasingStake", b!"Balance"), (b!"workers", b!"Vec<WorkerPublicKey>"), (b!"withdrawQueue", b!"Vec<WithdrawInfo>")]),
    (b!"GatekeeperChange", .en [(b!"GatekeeperRegistered", b!"NewGatekeeperEvent")]),
    (b!"LookupSource", .al b!"MultiAddress"),
    (b!"TokenId", .al b!"U256"),
    (b!"SignedMessage", .st [(b!"message", b!"Message"), (b!"sequence", b!"u64"), (b!"signature", b!"Vec<u8>")]),
    (b!"NewGatekeeperEvent", .st [(b!"pubkey", b!"WorkerPublicKey"), (b!"ecdhPubkey", b!"EcdhPublicKey")]),
    (b!"WithdrawInfo", .st [(b!"user", b!"AccountId"), (b!"shares", b!"Balance"), (b!"startTime", b!"u64")]),
    (b!"FungibleTransfer", .st [(b!"dest_id", b!"BridgeChainId"), (b!"nonce", b!"DepositNonce"), (b!"resource_id", b!"ResourceId"), (b!"amount", b!"U256"), (b!"recipient", b!"Vec<u8>")]),
    (b!"Attestation", .en [(b!"SgxIas", b!"AttestationSgxIas")]),
    (b!"WorkerPublicKey", .al b!"Sr25519PublicKey"),
    (b!"GatekeeperEvent", .en [(b!"NewRandomNumber", b!"RandomNumberEvent"), (b!"TokenomicParametersChanged", b!"TokenomicParameters")]),
    (b!"DispatchMasterKeyEvent", .st [(b!"dest", b!"WorkerPublicKey"), (b!"ecdhPubkey", b!"EcdhPublicKey"), (b!"encryptedMasterKey", b!"Vec<u8>"), (b!"iv", b!"[u8; 12]")]),
    (b!"EcdhPublicKey", .al b!"[u8; 32]"),
    (b!"HeartbeatChallenge", .st [(b!"seed", b!"U256"), (b!"onlineTarget", b!"U256")]),
    (b!"RandomNumberEvent", .st [(b!"blockNumber", b!"u32"), (b!"randomNumber", b!"[u8; 32]"), (b!"lastRandomNumber", b!"[u8; 32]")]),
    (b!"UserStakeInfo", .st [(b!"user", b!"AccountId"), (b!"locked", b!"Balance"), (b!"shares", b!"Balance"), (b!"availableRewards", b!"Balance"), (b!"rewardDebt", b!"Balance")]),
    (b!"GatekeeperLaunch", .en [(b!"FirstGatekeeper", b!"NewGatekeeperEvent"), (b!"MasterPubkeyOnChain", b!"null")]),
    (b!"Sr25519PublicKey", .al b!"[u8; 32]"),
    (b!"Topic", .al b!"Path"),
    (b!"MinerStats", .st [(b!"totalReward", b!"Balance")]),
    (b!"ProposalVotes", .st [(b!"votes_for", b!"Vec<AccountId>"), (b!"votes_against", b!"Vec<AccountId>"), (b!"status", b!"ProposalStatus"), (b!"expiry", b!"BlockNumber")]),
    (b!"MinerState", .en [(b!"Ready", b!"null"), (b!"MiningIdle", b!"null"), (b!"MiningActive", b!"null"), (b!"MiningUnresponsive", b!"null"), (b!"MiningCoolingDown", b!"null")]),
    (b!"ProposalStatus", .en [(b!"Initiated", b!"null"), (b!"Approved", b!"null"), (b!"Rejected", b!"null")]),
    (b!"NonFungibleTransfer", .st [(b!"dest_id", b!"BridgeChainId"), (b!"nonce", b!"DepositNonce"), (b!"resource_id", b!"ResourceId"), (b!"token_id", b!"Vec<u8>"), (b!"recipient", b!"Vec<u8>"), (b!"metadata", b!"Vec<u8>")]),
    (b!"Message", .st [(b!"sender", b!"SenderId"), (b!"destination", b!"Topic"), (b!"payload", b!"Vec<u8>")]),
    (b!"MessageOrigin", .en [(b!"Pallet", b!"Vec<u8>"), (b!"Contract", b!"H256"), (b!"Worker", b!"Sr25519PublicKey"), (b!"AccountId", b!"H256"), (b!"MultiLocation", b!"Vec<u8>"), (b!"Gatekeeper", b!"null")]) ]

/-- network/kilt.json. -/
def kilt : List (Str × Entry) :=
  [ (b!"ChainId", .en [(b!"RelayChain", b!"Null"), (b!"ParaChain", b!"ParaId")]),
    (b!"XCurrencyId", .st [(b!"chainId", b!"ChainId"), (b!"currencyId", b!"Vec<u8>")]),
    (b!"CurrencyId", .num [(b!"DOT", 0), (b!"KSM", 1), (b!"KILT", 2)]),
    (b!"DidRecord", .st [(b!"signKey", b!"Hash"), (b!"boxKey", b!"Hash"), (b!"docRef", b!"Option<Vec<u8>>")]),
    (b!"PublicBoxKey", .al b!"Hash"),
    (b!"DelegationNodeId", .al b!"Hash"),
    (b!"Signature", .al b!"MultiSignature"),
    (b!"Attestation", .st [(b!"ctypeHash", b!"Hash"), (b!"attester", b!"AccountId"), (b!"delegationId", b!"Option<DelegationNodeId>"), (b!"revoked", b!"bool")]),
    (b!"XcmError", .num [(b!"Undefined", 0), (b!"Unimplemented", 1), (b!"UnhandledXcmVersion", 2), (b!"UnhandledXcmMessage", 3), (b!"UnhandledEffect", 4), (b!"EscalationOfPrivilege", 5), (b!"UntrustedReserveLocation", 6), (b!"UntrustedTeleportLocation", 7), (b!"DestinationBufferOverflow", 8), (b!"CannotReachDestination", 9), (b!"MultiLocationFull", 10), (b!"FailedToDecode", 11), (b!"BadOrigin", 12), (b!"ExceedsMaxMessageSize", 13), (b!"FailedToTransactAsset", 14)]),
    (b!"ReferendumInfo", .en [(b!"Ongoing", b!"ReferendumStatus"), (b!"Finished", b!"ReferendumInfoFinished")]),
    (b!"PublicSigningKey", .al b!"Hash"),
    (b!"CurrencyIdOf", .al b!"CurrencyId"),
    (b!"KeyIdOf", .al b!"Hash"),
    (b!"DidDeletionOperation", .st [(b!"did", b!"DidIdentifierOf"), (b!"txCounter", b!"u64")]),
    (b!"LookupSource", .al b!"MultiAddress"),
    (b!"Index", .al b!"u64"),
    (b!"BlockNumberOf", .al b!"BlockNumber"),
    (b!"RoundInfo", .st [(b!"current", b!"SessionIndex"), (b!"first", b!"BlockNumber"), (b!"length", b!"BlockNumber")]),
    (b!"DidVerificationKey", .en [(b!"Ed25519", b!"[u8; 32]"), (b!"Sr25519", b!"[u8; 32]")]),
    (b!"Stake", .st [(b!"owner", b!"AccountId"), (b!"amount", b!"Balance")]),
    (b!"CtypeCreatorOf", .al b!"DidIdentifierOf"),
    (b!"KeyError", .ev [b!"InvalidVerificationKeyFormat", b!"InvalidEncryptionKeyFormat"]),
    (b!"TotalStake", .st [(b!"collators", b!"Balance"), (b!"delegators", b!"Balance")]),
    (b!"AccountInfo", .al b!"AccountInfoWithTripleRefCount"),
    (b!"RewardRate", .st [(b!"annual", b!"Perquintill"), (b!"perBlock", b!"Perquintill")]),
    (b!"DidSignature", .en [(b!"Ed25519", b!"Ed25519Signature"), (b!"Sr25519", b!"Sr25519Signature")]),
    (b!"DelegationNodeIdOf", .al b!"Hash"),
    (b!"IpfsUrl", .st [(b!"payload", b!"Text")]),
    (b!"DidCallableOf", .al b!"Call"),
    (b!"DidUpdateOperation", .st [(b!"did", b!"DidIdentifierOf"), (b!"newAuthenticationKey", b!"Option<DidVerificationKey>"), (b!"newKeyAgreementKeys", b!"Vec<DidEncryptionKey>"), (b!"attestationKeyUpdate", b!"DidVerificationKeyUpdateAction"), (b!"delegationKeyUpdate", b!"DidVerificationKeyUpdateAction"), (b!"publicKeysToRemove", b!"Vec<KeyIdOf>"), (b!"newEndpointUrl", b!"Option<Url>"), (b!"txCounter", b!"u64")]),
    (b!"DidError", .en [(b!"StorageError", b!"StorageError"), (b!"SignatureError", b!"SignatureError"), (b!"UrlError", b!"UrlError"), (b!"InternalError", b!"Null")]),
    (b!"DidDetails#20-?", .st [(b!"authenticationKey", b!"KeyIdOf"), (b!"keyAgreementKeys", b!"Vec<KeyIdOf>"), (b!"delegationKey", b!"Option<KeyIdOf>"), (b!"attestationKey", b!"Option<KeyIdOf>"), (b!"publicKeys", b!"DidPublicKeyMap"), (b!"endpointUrl", b!"Option<Url>"), (b!"lastTxCounter", b!"u64")]),
    (b!"DidEncryptionKey", .en [(b!"X25519", b!"[u8; 32]")]),
    (b!"HttpUrl", .st [(b!"payload", b!"Text")]),
    (b!"AttestationDetails", .st [(b!"ctypeHash", b!"CtypeHashOf"), (b!"attester", b!"AttesterOf"), (b!"delegationId", b!"Option<DelegationNodeIdOf>"), (b!"revoked", b!"bool")]),
    (b!"DelegationSignature", .al b!"DidSignature"),
    (b!"DelegationNode#20-?", .st [(b!"rootId", b!"DelegationNodeIdOf"), (b!"parent", b!"Option<DelegationNodeIdOf>"), (b!"owner", b!"DelegatorIdOf"), (b!"permissions", b!"Permissions"), (b!"revoked", b!"bool")]),
    (b!"Collator", .st [(b!"id", b!"AccountId"), (b!"stake", b!"Balance"), (b!"delegators", b!"Vec<Stake>"), (b!"total", b!"Balance"), (b!"state", b!"CollatorStatus")]),
    (b!"LockedBalance", .st [(b!"block", b!"BlockNumber"), (b!"amount", b!"Balance")]),
    (b!"DidPublicKey", .en [(b!"PublicVerificationKey", b!"DidVerificationKey"), (b!"PublicEncryptionKey", b!"DidEncryptionKey")]),
    (b!"CollatorSnapshot", .st [(b!"stake", b!"Balance"), (b!"delegators", b!"Vec<Stake>"), (b!"total", b!"Balance")]),
    (b!"AttesterOf", .al b!"DidIdentifierOf"),
    (b!"UrlError", .ev [b!"InvalidUrlEncoding", b!"InvalidUrlScheme"]),
    (b!"Delegator", .st [(b!"delegations", b!"Vec<Stake>"), (b!"total", b!"Balance")]),
    (b!"BalanceOf", .al b!"Balance"),
    (b!"Permissions", .al b!"u32"),
    (b!"DelegationRoot", .st [(b!"ctypeHash", b!"CtypeHashOf"), (b!"owner", b!"DelegatorIdOf"), (b!"revoked", b!"bool")]),
    (b!"CollatorStatus", .en [(b!"Active", b!"Null"), (b!"Leaving", b!"SessionIndex")]),
    (b!"DidVerificationKeyRelationship", .ev [b!"Authentication", b!"CapabilityDelegation", b!"CapabilityInvocation", b!"AssertionMethod"]),
    (b!"AccountIdentifierOf", .al b!"AccountId"),
    (b!"DidIdentifierOf", .al b!"AccountId"),
    (b!"InflationInfo", .st [(b!"collator", b!"StakingInfo"), (b!"delegator", b!"StakingInfo")]),
    (b!"Url", .en [(b!"Http", b!"HttpUrl"), (b!"Ftp", b!"FtpUrl"), (b!"Ipfs", b!"IpfsUrl")]),
    (b!"SignatureError", .ev [b!"InvalidSignatureFormat", b!"InvalidSignature", b!"InvalidNonce"]),
    (b!"Address", .al b!"MultiAddress"),
    (b!"StakingInfo", .st [(b!"maxRate", b!"Perquintill"), (b!"rewardRate", b!"RewardRate")]),
    (b!"AmountOf", .al b!"i128"),
    (b!"Balance", .al b!"u128"),
    (b!"OrderedSet", .al b!"Vec<Stake>"),
    (b!"FtpUrl", .st [(b!"payload", b!"Text")]),
    (b!"StorageError", .en [(b!"DidAlreadyPresent", b!"Null"), (b!"DidNotPresent", b!"Null"), (b!"DidKeyNotPresent", b!"DidVerificationKeyRelationship"), (b!"VerificationKeyNotPresent", b!"Null"), (b!"CurrentlyActiveKey", b!"Null"), (b!"MaxTxCounterValue", b!"Null")]),
    (b!"DelegatorIdOf", .al b!"DidIdentifierOf"),
    (b!"BlockNumber", .al b!"u64"),
    (b!"DidVerificationKeyUpdateAction", .en [(b!"Ignore", b!"Null"), (b!"Change", b!"DidVerificationKey"), (b!"Delete", b!"Null")]),
    (b!"ClaimHashOf", .al b!"Hash"),
    (b!"DidAuthorizedCallOperation", .st [(b!"did", b!"DidIdentifierOf"), (b!"txCounter", b!"u64"), (b!"call", b!"DidCallableOf")]),
    (b!"DidCreationOperation", .st [(b!"did", b!"DidIdentifierOf"), (b!"newAuthenticationKey", b!"DidVerificationKey"), (b!"newKeyAgreementKeys", b!"Vec<DidEncryptionKey>"), (b!"newAttestationKey", b!"Option<DidVerificationKey>"), (b!"newDelegationKey", b!"Option<DidVerificationKey>"), (b!"newEndpointUrl", b!"Option<Url>")]),
    (b!"DidPublicKeyDetails", .st [(b!"key", b!"DidPublicKey"), (b!"blockNumber", b!"BlockNumberOf")]),
    (b!"CtypeHashOf", .al b!"Hash"),
    (b!"Weight", .al b!"u64"),
    (b!"CompactAssignments", .al b!"CompactAssignmentsLatest"),
    (b!"RefCount", .al b!"u32"),
    (b!"StakingStorageVersion", .ev [b!"V1_0_0", b!"V2_0_0", b!"V3_0_0", b!"V4"]),
    (b!"DidPublicKeyMap", .al b!"BTreeMap<KeyIdOf, DidPublicKeyDetails>"),
    (b!"MaxVerificationKeysToRevoke", .al b!"u32"),
    (b!"DidKeyAgreementKeys", .al b!"BTreeSet<KeyIdOf>"),
    (b!"DidNewKeyAgreementKeys", .al b!"BTreeSet<DidEncryptionKey>"),
    (b!"DidCreationDetails", .st [(b!"did", b!"DidIdentifierOf"), (b!"newKeyAgreementKeys", b!"DidNewKeyAgreementKeys"), (b!"newAttestationKey", b!"Option<DidVerificationKey>"), (b!"newDelegationKey", b!"Option<DidVerificationKey>"), (b!"newServiceEndpoints", b!"Option<ServiceEndpoints>")]),
    (b!"MaxDelegatorsPerCollator", .al b!"u32"),
    (b!"MaxDelegatedAttestations", .al b!"u32"),
    (b!"DidDetails", .st [(b!"authenticationKey", b!"KeyIdOf"), (b!"keyAgreementKeys", b!"DidKeyAgreementKeys"), (b!"delegationKey", b!"Option<KeyIdOf>"), (b!"attestationKey", b!"Option<KeyIdOf>"), (b!"publicKeys", b!"DidPublicKeyMap"), (b!"serviceEndpoints", b!"Option<ServiceEndpoints>"), (b!"lastTxCounter", b!"u64")]),
    (b!"MaxTotalKeyAgreementKeys", .al b!"u32"),
    (b!"DelegationNode", .st [(b!"hierarchyRootId", b!"DelegationNodeIdOf"), (b!"parent", b!"Option<DelegationNodeIdOf>"), (b!"children", b!"BTreeSet<DelegationNodeIdOf>"), (b!"details", b!"DelegationDetails")]),
    (b!"Collator#20-?", .st [(b!"id", b!"AccountId"), (b!"stake", b!"Balance"), (b!"delegators", b!"OrderedSet<Stake, MaxDelegatorsPerCollator>"), (b!"total", b!"Balance"), (b!"state", b!"CollatorStatus")]),
    (b!"ServiceEndpoints", .st [(b!"contentHash", b!"Hash"), (b!"urls", b!"BoundedVec<Url, MaxEndpointUrlsCount>"), (b!"contentType", b!"ContentType")]),
    (b!"MaxCollatorsPerDelegator", .al b!"u32"),
    (b!"Delegator#20-?", .st [(b!"delegations", b!"OrderedSet<Stake, MaxCollatorsPerDelegator>"), (b!"total", b!"Balance")]),
    (b!"DidUpdateDetails", .st [(b!"newAuthenticationKey", b!"Option<DidVerificationKey>"), (b!"newKeyAgreementKeys", b!"Vec<DidEncryptionKey>"), (b!"attestationKeyUpdate", b!"DidVerificationKeyUpdateAction"), (b!"delegationKeyUpdate", b!"DidVerificationKeyUpdateAction"), (b!"publicKeysToRemove", b!"Vec<KeyIdOf>"), (b!"serviceEndpointsUpdate", b!"DidFragmentUpdateAction_ServiceEndpoints")]),
    (b!"MaxEndpointUrlsCount", .al b!"u32"),
    (b!"MaxNewKeyAgreementKeys", .al b!"u32"),
    (b!"OrderedSet#20-?", .al b!"BoundedVec<Stake, MaxCollatorCandidates>"),
    (b!"MaxChildren", .al b!"u32"),
    (b!"MaxUrlLength", .al b!"u32"),
    (b!"DidVerificationKeysToRevoke", .al b!"BTreeSet<KeyIdOf>"),
    (b!"MaxClaims", .al b!"u32"),
    (b!"MaxCollatorCandidates", .al b!"u32"),
    (b!"MaxPublicKeysPerDid", .al b!"u32"),
    (b!"StorageError#20-?", .en [(b!"DidAlreadyPresent", b!"Null"), (b!"DidNotPresent", b!"Null"), (b!"DidKeyNotPresent", b!"DidVerificationKeyRelationship"), (b!"VerificationKeyNotPresent", b!"Null"), (b!"CurrentlyActiveKey", b!"Null"), (b!"MaxTxCounterValue", b!"Null"), (b!"MaxPublicKeysPerDidKeyIdentifierExceeded", b!"Null"), (b!"MaxTotalKeyAgreementKeysExceeded", b!"Null"), (b!"MaxOldAttestationKeysExceeded", b!"Null")]),
    (b!"ContentType", .en [(b!"application/json", b!"Null"), (b!"application/ld+json", b!"Null")]) ]

/-- network/kintsugi.json. -/
def kintsugi : List (Str × Entry) :=
  [ (b!"Weight", .al b!"u64"),
    (b!"CompactAssignments", .al b!"CompactAssignmentsLatest"),
    (b!"RefCount", .al b!"u32"),
    (b!"Address", .al b!"AccountId"),
    (b!"LookupSource", .al b!"AccountId"),
    (b!"AccountInfo", .al b!"AccountInfoWithTripleRefCount"),
    (b!"CurrencyId", .ev [b!"DOT", b!"INTERBTC", b!"INTR", b!"KSM", b!"KBTC", b!"KINT"]) ]

/-- network/kulupu.json. -/
def kulupu : List (Str × Entry) :=
  [ (b!"Keys", .al b!"SessionKeysPolkadot"),
    (b!"U256", .al b!"[u8; 32]"),
    (b!"Difficulty", .al b!"U256"),
    (b!"weight", .al b!"u64"),
    (b!"DifficultyAndTimestamp", .st [(b!"difficulty", b!"Difficulty"), (b!"timestamp", b!"Moment")]),
    (b!"ReferendumInfo<BlockNumber, Hash, BalanceOf>", .en [(b!"Ongoing", b!"ReferendumStatus"), (b!"Finished", b!"ReferendumInfoFinished")]),
    (b!"Era", .st [(b!"genesisBlockHash", b!"H256"), (b!"finalBlockHash", b!"H256"), (b!"finalStateRoot", b!"H256")]),
    (b!"DispatchResult", .en [(b!"Ok", b!"Null"), (b!"Error", b!"DispatchError")]),
    (b!"RefCount#10-?", .al b!"u32"),
    (b!"Address#13-?", .al b!"MultiAddress"),
    (b!"LookupSource#13-?", .al b!"MultiAddress"),
    (b!"Box<<T as Config>::Call>", .al b!"Call"),
    (b!"AccountInfo", .al b!"AccountInfoWithTripleRefCount"),
    (b!"CampaignIdentifier", .al b!"[u8; 4]") ]

/-- network/kusama.json. -/
def kusama : List (Str × Entry) :=
  [ (b!"Keys", .al b!"SessionKeysPolkadot"),
    (b!"ValidatorPrefs", .st [(b!"Commission", b!"Compact<Balance>")]),
    (b!"Timepoint", .st [(b!"height", b!"BlockNumber"), (b!"index", b!"u32")]),
    (b!"Multisig", .st [(b!"when", b!"Timepoint"), (b!"deposit", b!"Balance"), (b!"depositor", b!"AccountId"), (b!"approvals", b!"Vec<AccountId>")]),
    (b!"BalanceLock<Balance>", .st [(b!"id", b!"LockIdentifier"), (b!"amount", b!"Balance"), (b!"reasons", b!"Reasons")]),
    (b!"ReferendumInfo<BlockNumber, Hash>", .en [(b!"Ongoing", b!"ReferendumStatus"), (b!"Finished", b!"ReferendumInfoFinished")]),
    (b!"DispatchResult", .en [(b!"Ok", b!"Null"), (b!"Error", b!"DispatchError")]),
    (b!"Heartbeat", .st [(b!"blockNumber", b!"BlockNumber"), (b!"networkState", b!"OpaqueNetworkState"), (b!"sessionIndex", b!"SessionIndex"), (b!"authorityIndex", b!"AuthIndex")]),
    (b!"Weight#1058-?", .al b!"u64"),
    (b!"Heartbeat#1062-?", .st [(b!"blockNumber", b!"BlockNumber"), (b!"networkState", b!"OpaqueNetworkState"), (b!"sessionIndex", b!"SessionIndex"), (b!"authorityIndex", b!"AuthIndex"), (b!"validatorsLen", b!"u32")]),
    (b!"ReferendumInfo<BlockNumber, Hash, BalanceOf>", .en [(b!"Ongoing", b!"ReferendumStatus"), (b!"Finished", b!"ReferendumInfoFinished")]),
    (b!"DispatchInfo#1019-1061", .al b!"DispatchInfo258"),
    (b!"DispatchInfo#1062-?", .st [(b!"weight", b!"Weight"), (b!"class", b!"DispatchClass"), (b!"paysFee", b!"Pays")]),
    (b!"ReferendumInfo#1019-1054", .st [(b!"end", b!"BlockNumber"), (b!"proposal", b!"Proposal"), (b!"threshold", b!"VoteThreshold"), (b!"delay", b!"BlockNumber")]),
    (b!"DispatchError#1019-1031", .st [(b!"module", b!"Option<u8>"), (b!"error", b!"u8")]),
    (b!"ProxyType", .ev [b!"Any", b!"NonTransfer", b!"Governance", b!"Staking", b!"IdentityJudgement", b!"CancelProxy", b!"Auction"]),
    (b!"Address#1050-2027", .al b!"AccountId"),
    (b!"Box<Proposal>", .al b!"BoxProposal"),
    (b!"CompactAssignments#2023-9000", .al b!"CompactAssignmentsLatest"),
    (b!"RefCount", .al b!"u32"),
    (b!"Box<<T as Config>::Call>", .al b!"Call"),
    (b!"Box<<T as Config<I>>::Proposal>", .al b!"Proposal"),
    (b!"AccountInfo", .al b!"AccountInfoWithTripleRefCount"),
    (b!"Address#2028-?", .al b!"MultiAddress"),
    (b!"LookupSource#2028-?", .al b!"MultiAddress"),
    (b!"Keys#2028-2029", .st [(b!"grandpa", b!"AccountId"), (b!"babe", b!"AccountId"), (b!"im_online", b!"AccountId"), (b!"para_validator", b!"AccountId"), (b!"para_assignment", b!"AccountId"), (b!"authority_discovery", b!"AccountId")]),
    (b!"ValidatorPrefs#2028-?", .al b!"ValidatorPrefsWithBlocked"),
    (b!"Keys#2030-?", .al b!"SessionKeys6"),
    (b!"CompactAssignments#9010-?", .al b!"CompactAssignmentsWith24"),
    (b!"AssetInstance#9010-9090", .al b!"AssetInstanceV0"),
    (b!"MultiAsset#9010-9090", .al b!"MultiAssetV0"),
    (b!"Xcm#9010-9090", .al b!"XcmV0"),
    (b!"XcmOrder#9010-9090", .al b!"XcmOrderV0"),
    (b!"MultiLocation#9010-9090", .al b!"MultiLocationV0"),
    (b!"AssetInstance#9100-9100", .al b!"AssetInstanceV1"),
    (b!"MultiAsset#9100-9100", .al b!"MultiAssetV1"),
    (b!"Xcm#9100-9100", .al b!"XcmV1"),
    (b!"XcmOrder#9100-9100", .al b!"XcmOrderV1"),
    (b!"MultiLocation#9100-9100", .al b!"MultiLocationV1") ]

/-- network/laminar-test.json. -/
def laminar_test : List (Str × Entry) :=
  [ (b!"RefCount", .al b!"u32"),
    (b!"Weight", .al b!"u64"),
    (b!"PositionId", .al b!"u64"),
    (b!"FixedU128", .al b!"u128"),
    (b!"<T as Trait<I>>::OracleKey", .al b!"CurrencyId"),
    (b!"DispatchResult", .en [(b!"Ok", b!"Null"), (b!"Error", b!"DispatchError")]),
    (b!"AuctionInfo", .st [(b!"bid", b!"Option<(AccountId, Balance)>"), (b!"start", b!"BlockNumber"), (b!"end", b!"Option<BlockNumber>")]),
    (b!"Leverage", .ev [b!"LongTwo", b!"LongThree", b!"LongFive", b!"LongTen", b!"LongTwenty", b!"LongThirty", b!"LongFifty", b!"LongReserved", b!"ShortTwo", b!"ShortThree", b!"ShortFive", b!"ShortTen", b!"ShortTwenty", b!"ShortThirty", b!"ShortFifty", b!"ShortReserved"]),
    (b!"RiskThreshold", .st [(b!"marginCall", b!"Permill"), (b!"stopOut", b!"Permill")]),
    (b!"SyntheticTokensRatio", .st [(b!"extreme", b!"Option<Permill>"), (b!"liquidation", b!"Option<Permill>"), (b!"collateral", b!"Option<Permill>")]),
    (b!"OrmlBalanceLock", .st [(b!"amount", b!"Balance"), (b!"id", b!"LockIdentifier")]),
    (b!"VestingScheduleOf", .al b!"OrmlVestingSchedule"),
    (b!"PairInfo", .st [(b!"baseAmount", b!"FixedI128"), (b!"quoteAmount", b!"FixedI128")]),
    (b!"PositionsSnapshot", .st [(b!"positionsCount", b!"PositionId"), (b!"long", b!"LeveragedAmounts"), (b!"short", b!"LeveragedAmounts")]),
    (b!"GraduallyUpdate", .st [(b!"key", b!"StorageKey"), (b!"targetValue", b!"StorageValue"), (b!"perBlock", b!"StorageValue")]),
    (b!"MarginTraderState", .st [(b!"equity", b!"FixedI128"), (b!"margin_held", b!"FixedI128"), (b!"margin_level", b!"FixedI128"), (b!"free_margin", b!"FixedI128"), (b!"unrealized_pl", b!"FixedI128")]),
    (b!"LiquidityPoolIdentityInfo", .st [(b!"legalName", b!"Vec<u8>"), (b!"displayName", b!"Vec<u8>"), (b!"web", b!"Vec<u8>"), (b!"email", b!"Vec<u8>"), (b!"image_url", b!"Vec<u8>")]),
    (b!"TimestampedValueOf", .al b!"TimestampedValue"),
    (b!"LiquidityPoolId", .al b!"u32"),
    (b!"Leverages", .set [b!"LongTwo", b!"LongThree", b!"LongFive", b!"LongTen", b!"LongTwenty", b!"LongThirty", b!"LongFifty", b!"LongReserved", b!"ShortTwo", b!"ShortThree", b!"ShortFive", b!"ShortTen", b!"ShortTwenty", b!"ShortThirty", b!"ShortFifty", b!"ShortReserved"] 16),
    (b!"MarginPoolOption", .st [(b!"additionalSwapRate", b!"FixedI128"), (b!"minLeveragedAmount", b!"FixedU128")]),
    (b!"AccumulateConfig", .st [(b!"frequency", b!"Moment"), (b!"offset", b!"Moment")]),
    (b!"DelayedDispatchTime", .en [(b!"At", b!"BlockNumber"), (b!"After", b!"BlockNumber")]),
    (b!"SyntheticPoolState", .st [(b!"collateral_ratio", b!"FixedI128"), (b!"is_safe", b!"boolean")]),
    (b!"TimestampedValue", .st [(b!"value", b!"OracleValue"), (b!"timestamp", b!"Moment")]),
    (b!"TradingPair", .st [(b!"base", b!"CurrencyId"), (b!"quote", b!"CurrencyId")]),
    (b!"Rate", .al b!"FixedI128"),
    (b!"DispatchTime", .en [(b!"At", b!"BlockNumber"), (b!"After", b!"BlockNumber")]),
    (b!"CurrencyIdOf", .al b!"CurrencyId"),
    (b!"AmountOf", .al b!"Amount"),
    (b!"OrderedSet", .al b!"Vec<AccountId>"),
    (b!"RpcDataProviderId", .al b!"Text"),
    (b!"MarginPoolTradingPairOption", .st [(b!"enabled", b!"bool"), (b!"bidSpread", b!"Option<FixedU128>"), (b!"askSpread", b!"Option<FixedU128>"), (b!"enabledTrades", b!"Leverages")]),
    (b!"Pool", .st [(b!"owner", b!"AccountId"), (b!"balance", b!"Balance")]),
    (b!"TradingPairRiskThreshold", .st [(b!"trader", b!"Option<RiskThreshold>"), (b!"enp", b!"Option<RiskThreshold>"), (b!"ell", b!"Option<RiskThreshold>")]),
    (b!"ScheduleTaskIndex", .al b!"u32"),
    (b!"PoolInfo", .st [(b!"totalShares", b!"Compact<Share>"), (b!"totalRewards", b!"Compact<Balance>"), (b!"totalWithdrawnRewards", b!"Compact<Balance>")]),
    (b!"LeveragedAmounts", .st [(b!"held", b!"FixedI128"), (b!"debits", b!"FixedI128")]),
    (b!"CurrencyId", .ev [b!"LAMI", b!"AUSD", b!"FEUR", b!"FJPY", b!"FBTC", b!"FETH", b!"FAUD", b!"FCAD", b!"FCHF", b!"FXAU", b!"FOIL", b!"FGBP"]),
    (b!"MarginTradingPairOption", .st [(b!"enabled", b!"bool"), (b!"maxSpread", b!"Option<FixedU128>"), (b!"swapRate", b!"SwapRate"), (b!"accumulateConfig", b!"Option<AccumulateConfig>")]),
    (b!"FixedI128", .al b!"i128"),
    (b!"Amount", .al b!"FixedI128"),
    (b!"StorageValue", .al b!"Vec<u8>"),
    (b!"MarginPoolState", .st [(b!"enp", b!"FixedI128"), (b!"ell", b!"FixedI128"), (b!"required_deposit", b!"FixedI128")]),
    (b!"CallOf", .al b!"Call"),
    (b!"OrmlAccountData", .st [(b!"free", b!"Balance"), (b!"frozen", b!"Balance"), (b!"reserved", b!"Balance")]),
    (b!"DispatchId", .al b!"u32"),
    (b!"IdentityDepositBalanceOf", .al b!"Balance"),
    (b!"DelayedOrigin", .st [(b!"delay", b!"BlockNumber"), (b!"origin", b!"PalletsOrigin")]),
    (b!"SyntheticPosition", .st [(b!"collateral", b!"FixedU128"), (b!"synthetic", b!"FixedU128")]),
    (b!"Share", .al b!"u128"),
    (b!"DataProviderId", .al b!"u8"),
    (b!"Keys", .al b!"SessionKeys2"),
    (b!"OracleKey", .al b!"CurrencyId"),
    (b!"SyntheticPoolCurrencyOption", .st [(b!"bidSpread", b!"Option<FixedU128>"), (b!"askSpread", b!"Option<FixedU128>"), (b!"additionalCollateralRatio", b!"Option<Permill>"), (b!"syntheticEnabled", b!"bool")]),
    (b!"MarginPosition", .st [(b!"owner", b!"AccountId"), (b!"poolId", b!"LiquidityPoolId"), (b!"pair", b!"TradingPair"), (b!"leverage", b!"Leverage"), (b!"leveragedHeld", b!"FixedI128"), (b!"leveragedDebits", b!"FixedI128"), (b!"openAccumulatedSwapRate", b!"Rate"), (b!"marginHeld", b!"FixedI128")]),
    (b!"PoolTraderInfo", .st [(b!"positionNum", b!"PositionId"), (b!"long", b!"PairInfo"), (b!"short", b!"PairInfo")]),
    (b!"OracleValue", .al b!"Price"),
    (b!"SwapRate", .st [(b!"long", b!"Rate"), (b!"short", b!"Rate")]),
    (b!"Price", .al b!"FixedU128"),
    (b!"OrmlVestingSchedule", .st [(b!"start", b!"BlockNumber"), (b!"period", b!"BlockNumber"), (b!"periodCount", b!"u32"), (b!"perPeriod", b!"Compact<Balance>")]),
    (b!"Address", .al b!"MultiAddress"),
    (b!"LookupSource", .al b!"MultiAddress"),
    (b!"AccountInfo", .al b!"AccountInfoWithTripleRefCount"),
    (b!"ValidatorPrefs", .al b!"ValidatorPrefsWithBlocked") ]

/-- network/litentry-test.json. -/
def litentry_test : List (Str × Entry) :=
  [ (b!"Weight", .al b!"u64"),
    (b!"CompactAssignments", .al b!"CompactAssignmentsLatest"),
    (b!"RefCount", .al b!"u32"),
    (b!"Address", .al b!"MultiAddress"),
    (b!"LookupSource", .al b!"MultiAddress"),
    (b!"AccountInfo", .al b!"AccountInfoWithTripleRefCount"),
    (b!"CID", .al b!"Vec<u8>"),
    (b!"ClassIdOf", .al b!"ClassId"),
    (b!"Properties", .set [b!"Transferable", b!"Burnable"] 8),
    (b!"ClassType", .en [(b!"Simple", b!"u32"), (b!"Claim", b!"HashByte32"), (b!"Merge", b!"(ID, ID, bool)")]),
    (b!"ID", .al b!"ClassIdOf"),
    (b!"HashByte32", .al b!"[u8; 32]"),
    (b!"TokenId", .al b!"u64"),
    (b!"TokenIdOf", .al b!"TokenId") ]

/-- network/manta-test.json. -/
def manta_test : List (Str × Entry) :=
  [ (b!"Weight", .al b!"u64"),
    (b!"CompactAssignments", .al b!"CompactAssignmentsLatest"),
    (b!"RefCount", .al b!"u32"),
    (b!"Address", .al b!"MultiAddress"),
    (b!"LookupSource", .al b!"MultiAddress"),
    (b!"CurrencyId", .ev [b!"MA"]),
    (b!"CurrencyIdOf", .al b!"CurrencyId"),
    (b!"Amount", .al b!"i128"),
    (b!"AmountOf", .al b!"Amount"),
    (b!"AccountInfo", .al b!"AccountInfoWithProviders"),
    (b!"PrivateTransferPayload", .al b!"[u8; 608]"),
    (b!"ReclaimPayload", .al b!"[u8; 512]") ]

/-- network/moonbase.json. -/
def moonbase : List (Str × Entry) :=
  [ (b!"Weight", .al b!"u64"),
    (b!"CompactAssignments", .al b!"CompactAssignmentsLatest"),
    (b!"RefCount", .al b!"u32"),
    (b!"Box<<T as Config>::Call>", .al b!"Call"),
    (b!"AccountInfo", .al b!"AccountInfoWithTripleRefCount"),
    (b!"DispatchResult", .en [(b!"Ok", b!"Null"), (b!"Error", b!"DispatchError")]),
    (b!"TransactionRecoveryId", .al b!"U64"),
    (b!"TransactionSignature", .st [(b!"v", b!"TransactionRecoveryId"), (b!"r", b!"H256"), (b!"s", b!"H256")]),
    (b!"RoundInfo", .st [(b!"current", b!"RoundIndex"), (b!"first", b!"BlockNumber"), (b!"length", b!"u32")]),
    (b!"Candidate", .st [(b!"id", b!"AccountId"), (b!"fee", b!"Perbill"), (b!"bond", b!"Balance"), (b!"nominators", b!"Vec<Bond>"), (b!"total", b!"Balance"), (b!"state", b!"CollatorStatus")]),
    (b!"TxPoolResultStatus", .st [(b!"pending", b!"U256"), (b!"queued", b!"U256")]),
    (b!"CollatorStatus", .en [(b!"Active", b!"NULL"), (b!"Idle", b!"Null"), (b!"Leaving", b!"RoundIndex")]),
    (b!"PoolTransaction", .st [(b!"hash", b!"H256"), (b!"nonce", b!"U256"), (b!"block_hash", b!"Option<H256>"), (b!"block_number", b!"Option<U256>"), (b!"from", b!"H160"), (b!"to", b!"Option<H160>"), (b!"value", b!"U256"), (b!"gas_price", b!"U256"), (b!"gas", b!"U256"), (b!"input", b!"Bytes")]),
    (b!"ExtrinsicSignature", .al b!"EthereumSignature"),
    (b!"Collator", .st [(b!"id", b!"AccountId"), (b!"bond", b!"Balance"), (b!"nominators", b!"Vec<Bond>"), (b!"total", b!"Balance"), (b!"state", b!"CollatorStatus")]),
    (b!"CollatorSnapshot", .st [(b!"bond", b!"Balance"), (b!"nominators", b!"Vec<Bond>"), (b!"total", b!"Balance")]),
    (b!"Address", .al b!"AccountId"),
    (b!"SystemInherentData", .st [(b!"validation_data", b!"PersistedValidationData"), (b!"relay_chain_state", b!"StorageProof"), (b!"downward_messages", b!"Vec<InboundDownwardMessage>"), (b!"horizontal_messages", b!"BTreeMap<ParaId, Vec<InboundHrmpMessage>>")]),
    (b!"OrderedSet", .al b!"Vec<Bond>"),
    (b!"AccountId", .al b!"EthereumAccountId"),
    (b!"Account", .st [(b!"nonce", b!"U256"), (b!"balance", b!"u128")]),
    (b!"LookupSource", .al b!"AccountId"),
    (b!"InflationInfo", .st [(b!"expect", b!"RangeBalance"), (b!"round", b!"RangePerbill")]),
    (b!"Summary", .al b!"Bytes"),
    (b!"Range", .al b!"RangeBalance"),
    (b!"TxPoolResultInspect", .st [(b!"pending", b!"HashMap<H160, HashMap<U256, Summary>>"), (b!"queued", b!"HashMap<H160, HashMap<U256, Summary>>")]),
    (b!"RangeBalance", .st [(b!"min", b!"Balance"), (b!"ideal", b!"Balance"), (b!"max", b!"Balance")]),
    (b!"RoundIndex", .al b!"u32"),
    (b!"Nominator", .st [(b!"nominations", b!"Vec<Bond>"), (b!"total", b!"Balance")]),
    (b!"Balance", .al b!"u128"),
    (b!"Bond", .st [(b!"owner", b!"AccountId"), (b!"amount", b!"Balance")]),
    (b!"RangePerbill", .st [(b!"min", b!"Perbill"), (b!"ideal", b!"Perbill"), (b!"max", b!"Perbill")]),
    (b!"TxPoolResultContent", .st [(b!"pending", b!"HashMap<H160, HashMap<U256, PoolTransaction>>"), (b!"queued", b!"HashMap<H160, HashMap<U256, PoolTransaction>>")]),
    (b!"AuthorId", .al b!"AccountId32"),
    (b!"RegistrationInfo", .st [(b!"account", b!"AccountId"), (b!"deposit", b!"Balance")]),
    (b!"AssetRegistrarMetadata", .st [(b!"name", b!"Vec<u8>"), (b!"symbol", b!"Vec<u8>"), (b!"decimals", b!"u8"), (b!"is_frozen", b!"bool")]),
    (b!"Collator2", .st [(b!"id", b!"AccountId"), (b!"bond", b!"Balance"), (b!"nominators", b!"Vec<AccountId>"), (b!"top_nominators", b!"Vec<Bond>"), (b!"bottom_nominators", b!"Vec<Bond>"), (b!"total_counted", b!"Balance"), (b!"total_backing", b!"Balance"), (b!"state", b!"CollatorStatus")]),
    (b!"NominatorAdded", .en [(b!"AddedToTop", b!"Balance"), (b!"AddedToBottom", b!"Null")]),
    (b!"CurrencyId", .en [(b!"SelfReserve", b!"Null"), (b!"OtherReserve", b!"u128")]),
    (b!"AssetType", .en [(b!"Xcm", b!"MultiLocation")]),
    (b!"RelayChainAccountId", .al b!"AccountId32"),
    (b!"AssetInstance", .al b!"AssetInstanceV0"),
    (b!"MultiAsset", .al b!"MultiAssetV0"),
    (b!"Xcm", .al b!"XcmV0"),
    (b!"XcmOrder", .al b!"XcmOrderV0"),
    (b!"MultiLocation", .al b!"MultiLocationV0"),
    (b!"AssetId", .al b!"u128"),
    (b!"TAssetBalance", .al b!"u128"),
    (b!"AssetInstance#800-?", .al b!"AssetInstanceV1"),
    (b!"MultiAsset#800-?", .al b!"MultiAssetV1"),
    (b!"Xcm#800-?", .al b!"XcmV1"),
    (b!"XcmOrder#800-?", .al b!"XcmOrderV1"),
    (b!"MultiLocation#800-?", .al b!"MultiLocationV1") ]

/-- network/moonbeam.json. -/
def moonbeam : List (Str × Entry) :=
  [ (b!"Weight", .al b!"u64"),
    (b!"CompactAssignments", .al b!"CompactAssignmentsLatest"),
    (b!"RefCount", .al b!"u32"),
    (b!"Box<<T as Config>::Call>", .al b!"Call"),
    (b!"DispatchResult", .en [(b!"Ok", b!"Null"), (b!"Error", b!"DispatchError")]),
    (b!"TransactionRecoveryId", .al b!"U64"),
    (b!"TransactionSignature", .st [(b!"v", b!"TransactionRecoveryId"), (b!"r", b!"H256"), (b!"s", b!"H256")]),
    (b!"AccountId", .al b!"EthereumAccountId"),
    (b!"Address", .al b!"AccountId"),
    (b!"Balance", .al b!"u128"),
    (b!"LookupSource", .al b!"AccountId"),
    (b!"Account", .st [(b!"nonce", b!"U256"), (b!"balance", b!"u128")]),
    (b!"RoundIndex", .al b!"u32"),
    (b!"Candidate", .st [(b!"id", b!"AccountId"), (b!"fee", b!"Perbill"), (b!"bond", b!"Balance"), (b!"nominators", b!"Vec<Bond>"), (b!"total", b!"Balance"), (b!"state", b!"ValidatorStatus")]),
    (b!"Bond", .st [(b!"owner", b!"AccountId"), (b!"amount", b!"Balance")]),
    (b!"ValidatorStatus", .en [(b!"Active", b!"NULL"), (b!"Idle", b!"NULL"), (b!"Leaving", b!"RoundIndex")]) ]

/-- network/moonriver.json. -/
def moonriver : List (Str × Entry) :=
  [ (b!"Weight", .al b!"u64"),
    (b!"CompactAssignments", .al b!"CompactAssignmentsLatest"),
    (b!"RefCount", .al b!"u32"),
    (b!"RoundInfo", .st [(b!"current", b!"RoundIndex"), (b!"first", b!"BlockNumber"), (b!"length", b!"u32")]),
    (b!"Candidate", .st [(b!"id", b!"AccountId"), (b!"fee", b!"Perbill"), (b!"bond", b!"Balance"), (b!"nominators", b!"Vec<Bond>"), (b!"total", b!"Balance"), (b!"state", b!"CollatorStatus")]),
    (b!"RewardInfo", .st [(b!"total_reward", b!"Balance"), (b!"claimed_reward", b!"Balance")]),
    (b!"TxPoolResultStatus", .st [(b!"pending", b!"U256"), (b!"queued", b!"U256")]),
    (b!"CollatorStatus", .en [(b!"Active", b!"NULL"), (b!"Idle", b!"Null"), (b!"Leaving", b!"RoundIndex")]),
    (b!"PoolTransaction", .st [(b!"hash", b!"H256"), (b!"nonce", b!"U256"), (b!"block_hash", b!"Option<H256>"), (b!"block_number", b!"Option<U256>"), (b!"from", b!"H160"), (b!"to", b!"Option<H160>"), (b!"value", b!"U256"), (b!"gas_price", b!"U256"), (b!"gas", b!"U256"), (b!"input", b!"Bytes")]),
    (b!"AccountInfo", .al b!"AccountInfoWithTripleRefCount"),
    (b!"Collator2", .st [(b!"id", b!"AccountId"), (b!"bond", b!"Balance"), (b!"nominators", b!"Vec<AccountId>"), (b!"top_nominators", b!"Vec<Bond>"), (b!"bottom_nominators", b!"Vec<Bond>"), (b!"total_counted", b!"Balance"), (b!"total_backing", b!"Balance"), (b!"state", b!"CollatorStatus")]),
    (b!"ExtrinsicSignature", .al b!"EthereumSignature"),
    (b!"NominatorAdded", .en [(b!"AddedToTop", b!"Balance"), (b!"AddedToBottom", b!"Null")]),
    (b!"RegistrationInfo", .st [(b!"account", b!"AccountId"), (b!"deposit", b!"Balance")]),
    (b!"Collator", .st [(b!"id", b!"AccountId"), (b!"bond", b!"Balance"), (b!"nominators", b!"Vec<Bond>"), (b!"total", b!"Balance"), (b!"state", b!"CollatorStatus")]),
    (b!"CollatorSnapshot", .st [(b!"bond", b!"Balance"), (b!"nominators", b!"Vec<Bond>"), (b!"total", b!"Balance")]),
    (b!"Address", .al b!"AccountId"),
    (b!"SystemInherentData", .st [(b!"validation_data", b!"PersistedValidationData"), (b!"relay_chain_state", b!"StorageProof"), (b!"downward_messages", b!"Vec<InboundDownwardMessage>"), (b!"horizontal_messages", b!"BTreeMap<ParaId, Vec<InboundHrmpMessage>>")]),
    (b!"OrderedSet", .al b!"Vec<Bond>"),
    (b!"AccountId", .al b!"EthereumAccountId"),
    (b!"Account", .st [(b!"nonce", b!"U256"), (b!"balance", b!"u128")]),
    (b!"RelayChainAccountId", .al b!"AccountId32"),
    (b!"LookupSource", .al b!"AccountId"),
    (b!"InflationInfo", .st [(b!"expect", b!"RangeBalance"), (b!"annual", b!"RangePerbill"), (b!"round", b!"RangePerbill")]),
    (b!"AccountId32", .al b!"H256"),
    (b!"Summary", .al b!"Bytes"),
    (b!"Range", .al b!"RangeBalance"),
    (b!"TxPoolResultInspect", .st [(b!"pending", b!"HashMap<H160, HashMap<U256, Summary>>"), (b!"queued", b!"HashMap<H160, HashMap<U256, Summary>>")]),
    (b!"RangeBalance", .st [(b!"min", b!"Balance"), (b!"ideal", b!"Balance"), (b!"max", b!"Balance")]),
    (b!"RoundIndex", .al b!"u32"),
    (b!"ParachainBondConfig", .st [(b!"account", b!"AccountId"), (b!"percent", b!"Percent")]),
    (b!"Nominator", .st [(b!"nominations", b!"Vec<Bond>"), (b!"total", b!"Balance")]),
    (b!"Balance", .al b!"u128"),
    (b!"Bond", .st [(b!"owner", b!"AccountId"), (b!"amount", b!"Balance")]),
    (b!"RangePerbill", .st [(b!"min", b!"Perbill"), (b!"ideal", b!"Perbill"), (b!"max", b!"Perbill")]),
    (b!"AuthorId", .al b!"AccountId32"),
    (b!"TxPoolResultContent", .st [(b!"pending", b!"HashMap<H160, HashMap<U256, PoolTransaction>>"), (b!"queued", b!"HashMap<H160, HashMap<U256, PoolTransaction>>")]) ]

/-- network/pangolin.json. -/
def pangolin : List (Str × Entry) :=
  [ (b!"U256", .al b!"[u8; 32]"),
    (b!"H128", .al b!"[u8; 16]"),
    (b!"TsInMs", .al b!"u64"),
    (b!"RingBalance", .al b!"Balance"),
    (b!"KtonBalance", .al b!"Balance"),
    (b!"MomentT", .al b!"Moment"),
    (b!"Power", .al b!"u32"),
    (b!"DepositId", .al b!"U256"),
    (b!"EthBlockNumber", .al b!"u64"),
    (b!"EthereumBlockNumber", .al b!"u64"),
    (b!"EthAddress", .al b!"H160"),
    (b!"EthTransactionIndex", .al b!"(H256, u64)"),
    (b!"EthereumTransactionIndex", .al b!"(H256, u64)"),
    (b!"BalanceInfo", .al b!"null"),
    (b!"AddressT", .al b!"EthereumAddress"),
    (b!"TronAddress", .al b!"EthereumAddress"),
    (b!"Bloom", .al b!"[u8; 256]"),
    (b!"H", .al b!"Hash"),
    (b!"EthereumAddress", .al b!"H160"),
    (b!"MappedRing", .al b!"u128"),
    (b!"Keys", .st [(b!"babe", b!"AccountId"), (b!"grandpa", b!"AccountId"), (b!"im_online", b!"AccountId"), (b!"authority_discovery", b!"AccountId")]),
    (b!"Weight", .al b!"u64"),
    (b!"ModuleId", .al b!"[u8; 8]"),
    (b!"RuntimeDbWeight", .st [(b!"read", b!"u128"), (b!"read", b!"write")]),
    (b!"SpanRecord", .st [(b!"slashed", b!"RKT"), (b!"paid_out", b!"RKT")]),
    (b!"StakingRuntimeDispatchInfo", .st [(b!"power", b!"Power")]),
    (b!"BalancesRuntimeDispatchInfo", .st [(b!"usable_balance", b!"Balance")]),
    (b!"StakingBalance", .en [(b!"RingBalance", b!"Balance"), (b!"KtonBalance", b!"Balance")]),
    (b!"StakingLedger", .st [(b!"stash", b!"AccountId"), (b!"active_ring", b!"Compact<Balance>"), (b!"active_deposit_ring", b!"Compact<Balance>"), (b!"active_kton", b!"Compact<Balance>"), (b!"deposit_items", b!"Vec<TimeDepositItem>"), (b!"ring_staking_lock", b!"StakingLock"), (b!"kton_staking_lock", b!"StakingLock"), (b!"last_reward", b!"Option<EraIndex>")]),
    (b!"TimeDepositItem", .st [(b!"value", b!"Compact<Balance>"), (b!"start_time", b!"Compact<TsInMs>"), (b!"expire_time", b!"Compact<TsInMs>")]),
    (b!"Staked", .st [(b!"promise_month", b!"u8")]),
    (b!"Exposure", .st [(b!"own_ring_balance", b!"Compact<Balance>"), (b!"own_kton_balance", b!"Compact<Balance>"), (b!"own_power", b!"Power"), (b!"total_power", b!"Power"), (b!"others", b!"Vec<IndividualExposure>")]),
    (b!"IndividualExposure", .st [(b!"who", b!"AccountId"), (b!"ring_balance", b!"Compact<Balance>"), (b!"kton_balance", b!"Compact<Balance>"), (b!"power", b!"Power")]),
    (b!"ValidatorReward", .st [(b!"who", b!"AccountId"), (b!"amount", b!"Compact<Balance>"), (b!"nominators_reward", b!"Vec<NominatorReward>")]),
    (b!"NominatorReward", .st [(b!"who", b!"AccountId"), (b!"amount", b!"Compact<Balance>")]),
    (b!"RK", .st [(b!"r", b!"Balance"), (b!"k", b!"Balance")]),
    (b!"BalanceLock<Balance, BlockNumber>", .st [(b!"id", b!"LockIdentifier"), (b!"lock_for", b!"LockFor"), (b!"lock_reasons", b!"LockReasons")]),
    (b!"LockFor", .en [(b!"Common", b!"Common"), (b!"Staking", b!"StakingLock")]),
    (b!"Common", .st [(b!"amount", b!"Balance")]),
    (b!"StakingLock", .st [(b!"staking_amount", b!"Balance"), (b!"unbondings", b!"Vec<Unbonding>")]),
    (b!"LockReasons", .en [(b!"Fee", b!"null"), (b!"Misc", b!"null"), (b!"All", b!"null")]),
    (b!"AccountData", .st [(b!"free", b!"Balance"), (b!"reserved", b!"Balance"), (b!"free_kton", b!"Balance"), (b!"reserved_kton", b!"Balance")]),
    (b!"EthHeaderBrief", .st [(b!"total_difficulty", b!"U256"), (b!"parent_hash", b!"H256"), (b!"number", b!"EthBlockNumber"), (b!"relayer", b!"AccountId")]),
    (b!"EthereumHeader", .st [(b!"parent_hash", b!"H256"), (b!"timestamp", b!"u64"), (b!"number", b!"EthereumBlockNumber"), (b!"author", b!"EthereumAddress"), (b!"transactions_root", b!"H256"), (b!"uncles_hash", b!"H256"), (b!"extra_data", b!"Bytes"), (b!"state_root", b!"H256"), (b!"receipts_root", b!"H256"), (b!"log_bloom", b!"Bloom"), (b!"gas_used", b!"U256"), (b!"gas_limit", b!"U256"), (b!"difficulty", b!"U256"), (b!"seal", b!"Vec<Bytes>"), (b!"base_fee_per_gas", b!"Option<U256>"), (b!"hash", b!"Option<H256>")]),
    (b!"EthHeaderBrief::<AccountId>", .al b!"EthHeaderBrief"),
    (b!"HeaderInfo", .st [(b!"total_difficulty", b!"U256"), (b!"parent_hash", b!"H256"), (b!"number", b!"EthBlockNumber")]),
    (b!"EthHeader", .st [(b!"parent_hash", b!"H256"), (b!"timestamp", b!"u64"), (b!"number", b!"EthBlockNumber"), (b!"auth", b!"EthAddress"), (b!"transaction_root", b!"H256"), (b!"uncles_hash", b!"H256"), (b!"extra_data", b!"Bytes"), (b!"state_root", b!"H256"), (b!"receipts_root", b!"H256"), (b!"log_bloom", b!"Bloom"), (b!"gas_used", b!"U256"), (b!"gas_limit", b!"U256"), (b!"difficulty", b!"U256"), (b!"seal", b!"Vec<Bytes>"), (b!"hash", b!"Option<H256>")]),
    (b!"Receipt", .st [(b!"gas_used", b!"U256"), (b!"log_bloom", b!"Bloom"), (b!"logs", b!"Vec<LogEntry>"), (b!"outcome", b!"TransactionOutcome")]),
    (b!"EthereumReceipt", .al b!"Receipt"),
    (b!"EthReceiptProof", .st [(b!"index", b!"u64"), (b!"proof", b!"Bytes"), (b!"header_hash", b!"H256")]),
    (b!"EthNetworkType", .en [(b!"Mainnet", b!"null"), (b!"Ropsten", b!"null")]),
    (b!"RedeemFor", .en [(b!"Token", b!"NULL"), (b!"Deposit", b!"NULL")]),
    (b!"EthereumReceiptProofThing", .al b!"(EthereumHeader, EthereumReceiptProof, MMRProof)"),
    (b!"OtherSignature", .en [(b!"Eth", b!"EcdsaSignature"), (b!"Tron", b!"EcdsaSignature")]),
    (b!"OtherAddress", .en [(b!"Eth", b!"EthereumAddress"), (b!"Tron", b!"EthereumAddress")]),
    (b!"MerkleMountainRangeRoot", .st [(b!"data", b!"Hash")]),
    (b!"MerkleMountainRangeRootLog", .st [(b!"prefix", b!"[u8; 4]"), (b!"mmr_root", b!"Hash")]),
    (b!"DoubleNodeWithMerkleProof", .st [(b!"dag_nodes", b!"[H512; 2]"), (b!"proof", b!"Vec<H128>")]),
    (b!"StakingBalanceT", .en [(b!"RingBalance", b!"Balance"), (b!"KtonBalance", b!"Balance")]),
    (b!"StakingLedgerT", .st [(b!"stash", b!"AccountId"), (b!"active_ring", b!"Compact<Balance>"), (b!"active_deposit_ring", b!"Compact<Balance>"), (b!"active_kton", b!"Compact<Balance>"), (b!"deposit_items", b!"Vec<TimeDepositItem>"), (b!"ring_staking_lock", b!"StakingLock"), (b!"kton_staking_lock", b!"StakingLock"), (b!"claimed_rewards", b!"Vec<EraIndex>")]),
    (b!"ExposureT", .st [(b!"own_ring_balance", b!"Compact<Balance>"), (b!"own_kton_balance", b!"Compact<Balance>"), (b!"own_power", b!"Power"), (b!"total_power", b!"Power"), (b!"others", b!"Vec<IndividualExposure>")]),
    (b!"FullIdentification", .st [(b!"own_ring_balance", b!"Compact<Balance>"), (b!"own_kton_balance", b!"Compact<Balance>"), (b!"own_power", b!"Power"), (b!"total_power", b!"Power"), (b!"others", b!"Vec<IndividualExposure>")]),
    (b!"RKT", .st [(b!"r", b!"Balance"), (b!"k", b!"Balance")]),
    (b!"DispatchResult", .en [(b!"Ok", b!"Null"), (b!"Error", b!"DispatchError")]),
    (b!"OpenTip<AccountId, RingBalance, BlockNumber, Hash>", .st [(b!"reason", b!"Hash"), (b!"who", b!"AccountId"), (b!"finder", b!"Option<OpenTipFinder>"), (b!"closes", b!"Option<BlockNumber>"), (b!"tips", b!"Vec<OpenTipTip>")]),
    (b!"slashing::SpanRecord<RingBalance, KtonBalance>", .al b!"SpanRecord"),
    (b!"slashing::RKT", .al b!"RKT"),
    (b!"MMRHash", .al b!"Vec<u8>"),
    (b!"RawHeaderThing", .al b!"Vec<u8>"),
    (b!"EthereumNetworkType", .al b!"EthNetworkType"),
    (b!"EthashProof", .al b!"DoubleNodeWithMerkleProof"),
    (b!"MMRProof", .st [(b!"member_leaf_index", b!"u64"), (b!"last_leaf_index", b!"u64"), (b!"proof", b!"Vec<H256>")]),
    (b!"Proposal", .st [(b!"proposer", b!"AccountId"), (b!"beneficiary", b!"AccountId"), (b!"ring_value", b!"Balance"), (b!"kton_value", b!"Balance"), (b!"ring_bond", b!"Balance"), (b!"kton_bond", b!"Balance")]),
    (b!"UnappliedSlash", .st [(b!"validator", b!"AccountId"), (b!"own", b!"RKT"), (b!"others", b!"Vec<(AccountId, RKT)>"), (b!"reporters", b!"Vec<AccountId>"), (b!"payout", b!"RKT")]),
    (b!"ElectionResultT", .st [(b!"elected_stashes", b!"Vec<AccountId>"), (b!"exposures", b!"Vec<(AccountId, ExposureT)>"), (b!"compute", b!"ElectionCompute")]),
    (b!"EthereumReceiptProof", .st [(b!"index", b!"u64"), (b!"proof", b!"Bytes"), (b!"header_hash", b!"H256")]),
    (b!"Unbonding", .st [(b!"amount", b!"Balance"), (b!"moment", b!"BlockNumber")]),
    (b!"RelayVotingState", .st [(b!"ayes", b!"Vec<AccountId>"), (b!"nays", b!"Vec<AccountId>")]),
    (b!"TcHeaderMMR", .al b!"Vec<u8>"),
    (b!"CompactAssignments", .al b!"CompactAssignmentsLatest"),
    (b!"ProxyType", .ev [b!"Any", b!"NonTransfer", b!"Governance", b!"Staking", b!"IdentityJudgement", b!"EthereumBridge"]),
    (b!"TreasuryProposal", .st [(b!"proposer", b!"AccountId"), (b!"beneficiary", b!"AccountId"), (b!"ring_value", b!"Balance"), (b!"kton_value", b!"Balance"), (b!"ring_bond", b!"Balance"), (b!"kton_bond", b!"Balance")]),
    (b!"RefCount", .al b!"u32"),
    (b!"EthereumRelayHeaderParcel", .st [(b!"header", b!"EthereumHeader"), (b!"mmr_root", b!"H256")]),
    (b!"EthereumRelayProofs", .st [(b!"ethash_proof", b!"Vec<EthashProof>"), (b!"mmr_proof", b!"Vec<H256>")]),
    (b!"RelayHeaderId", .al b!"EthereumBlockNumber"),
    (b!"RelayHeaderParcel", .al b!"EthereumRelayHeaderParcel"),
    (b!"RelayProofs", .al b!"EthereumRelayProofs"),
    (b!"RelayAffirmationId", .st [(b!"game_id", b!"EthereumBlockNumber"), (b!"round", b!"u32"), (b!"index", b!"u32")]),
    (b!"RelayAffirmationT", .st [(b!"relayer", b!"AccountId"), (b!"relay_header_parcels", b!"EthereumRelayHeaderParcel"), (b!"bond", b!"Balance"), (b!"maybe_extended_relay_affirmation_id", b!"Option<RelayAffirmationId>"), (b!"verified", b!"bool")]),
    (b!"Signer", .al b!"EthereumAddress"),
    (b!"RelayAuthorityT", .st [(b!"accountId", b!"AccountId"), (b!"signer", b!"Signer"), (b!"stake", b!"Balance"), (b!"term", b!"BlockNumber")]),
    (b!"MMRRoot", .al b!"Hash"),
    (b!"EcdsaAddress", .al b!"EthereumAddress"),
    (b!"EcdsaSignature", .al b!"[u8; 65]"),
    (b!"EcdsaMessage", .al b!"H256"),
    (b!"RelayAuthoritySigner", .al b!"EcdsaAddress"),
    (b!"RelayAuthorityMessage", .al b!"EcdsaMessage"),
    (b!"RelayAuthoritySignature", .al b!"EcdsaSignature"),
    (b!"RelayAuthoritySignature<T, I>", .al b!"EcdsaSignature"),
    (b!"Term", .al b!"u32"),
    (b!"OpCode", .al b!"[u8; 4]"),
    (b!"ScheduledAuthoritiesChange", .st [(b!"next_authorities", b!"Vec<RelayAuthorityT>"), (b!"deadline", b!"BlockNumber")]),
    (b!"ScheduledAuthoritiesChangeT", .al b!"ScheduledAuthoritiesChange"),
    (b!"Address", .al b!"MultiAddress"),
    (b!"LookupSource", .al b!"MultiAddress"),
    (b!"ValidatorPrefs", .al b!"ValidatorPrefsWithBlocked"),
    (b!"AccountInfo", .al b!"AccountInfoWithTripleRefCount"),
    (b!"ExitReason", .en [(b!"Succeed", b!"ExitSucceed"), (b!"Error", b!"ExitError"), (b!"Revert", b!"ExitRevert"), (b!"Fatal", b!"ExitFatal")]),
    (b!"ExitSucceed", .ev [b!"Stopped", b!"Returned", b!"Suicided"]),
    (b!"ExitError", .en [(b!"StackUnderflow", b!"NULL"), (b!"StackOverflow", b!"NULL"), (b!"InvalidJump", b!"NULL"), (b!"InvalidRange", b!"NULL"), (b!"DesignatedInvalid", b!"NULL"), (b!"CallTooDeep", b!"NULL"), (b!"CreateCollision", b!"NULL"), (b!"CreateContractLimit", b!"NULL"), (b!"OutOfOffset", b!"NULL"), (b!"OutOfGas", b!"NULL"), (b!"OutOfFund", b!"NULL"), (b!"PCUnderflow", b!"NULL"), (b!"CreateEmpty", b!"NULL"), (b!"Other", b!"string")]),
    (b!"ExitFatal", .en [(b!"NotSupported", b!"NULL"), (b!"UnhandledInterrupt", b!"NULL"), (b!"CallErrorAsFatal", b!"NULL"), (b!"Other", b!"string")]),
    (b!"BlockTransactions", .en [(b!"Hashes", b!"Vec<H256>"), (b!"Full", b!"Vec<ethereum::Transaction>")]),
    (b!"ExitRevert", .ev [b!"Reverted"]),
    (b!"ethereum::Block", .st [(b!"hash", b!"Option<H256>"), (b!"parent_hash", b!"H256"), (b!"uncles_hash", b!"H256"), (b!"author", b!"H160"), (b!"miner", b!"H160"), (b!"state_root", b!"H256"), (b!"transactions_root", b!"H256"), (b!"receipts_root", b!"H256"), (b!"number", b!"Option<U256>"), (b!"gas_used", b!"U256"), (b!"gas_limit", b!"U256"), (b!"extra_data", b!"Bytes"), (b!"logs_bloom", b!"Option<H2048>"), (b!"timestamp", b!"U256"), (b!"difficulty", b!"U256"), (b!"total_difficulty", b!"Option<U256>"), (b!"seal_fields", b!"Vec<Bytes>"), (b!"uncles", b!"Vec<H256>"), (b!"transactions", b!"BlockTransactions"), (b!"size", b!"Option<U256>")]),
    (b!"TransactionAction", .en [(b!"Call", b!"H160"), (b!"Create", b!"NULL")]),
    (b!"Log", .st [(b!"address", b!"H160"), (b!"topics", b!"Vec<H256>"), (b!"data", b!"Vec<u8>")]),
    (b!"TransactionSignature", .st [(b!"v", b!"TransactionRecoveryId"), (b!"r", b!"H256"), (b!"s", b!"H256")]),
    (b!"TransactionRecoveryId", .al b!"U64"),
    (b!"NodeIndex", .al b!"u64"),
    (b!"MmrNodesPruningConfiguration", .st [(b!"step", b!"NodeIndex"), (b!"progress", b!"NodeIndex"), (b!"last_position", b!"NodeIndex")]),
    (b!"BlockNumberFor", .al b!"BlockNumber"),
    (b!"MessageId", .al b!"(LaneId, MessageNonce)"),
    (b!"SpecVersion", .al b!"u32") ]

/-- network/phala.json. -/
def phala : List (Str × Entry) :=
  [ (b!"Weight", .al b!"u64"),
    (b!"CompactAssignments", .al b!"CompactAssignmentsLatest"),
    (b!"RefCount", .al b!"u32"),
    (b!"AccountInfo", .al b!"AccountInfoWithTripleRefCount"),
    (b!"GenericTransfer", .st [(b!"dest_id", b!"BridgeChainId"), (b!"nonce", b!"DepositNonce"), (b!"resource_id", b!"ResourceId"), (b!"metadata", b!"Vec<u8>")]),
    (b!"ContractPublicKey", .al b!"Sr25519PublicKey"),
    (b!"MinerInfo", .st [(b!"state", b!"MinerState"), (b!"ve", b!"u128"), (b!"v", b!"u128"), (b!"vUpdatedAt", b!"u64"), (b!"benchmark", b!"Benchmark"), (b!"coolDownStart", b!"u64"), (b!"stats", b!"MinerStats")]),
    (b!"TokenomicParams", .al b!"TokenomicParameters"),
    (b!"U64F64Bits", .al b!"u128"),
    (b!"KeyDistribution", .en [(b!"MasterKeyDistribution", b!"DispatchMasterKeyEvent")]),
    (b!"BridgeChainId", .al b!"u8"),
    (b!"Benchmark", .st [(b!"pInstant", b!"u32"), (b!"pInit", b!"u32"), (b!"iterations", b!"u64"), (b!"miningStartTime", b!"u64"), (b!"updatedAt", b!"u64")]),
    (b!"DepositNonce", .al b!"u64"),
    (b!"ProxyType", .ev [b!"Any", b!"NonTransfer", b!"CancelProxy", b!"Governance", b!"Collator", b!"StakePoolManager"]),
    (b!"Keys", .al b!"AccountId"),
    (b!"ResourceId", .al b!"[u8; 32]"),
    (b!"WorkerRegistrationInfo", .st [(b!"version", b!"u32"), (b!"machineId", b!"Vec<u8>"), (b!"pubkey", b!"WorkerPublicKey"), (b!"ecdhPubkey", b!"EcdhPublicKey"), (b!"genesisBlockHash", b!"H256"), (b!"features", b!"Vec<u32>"), (b!"operator", b!"Option<AccountId>")]),
    (b!"SenderId", .al b!"MessageOrigin"),
    (b!"WorkerInfo", .st [(b!"pubkey", b!"WorkerPublicKey"), (b!"ecdhPubkey", b!"EcdhPublicKey"), (b!"runtimeVersion", b!"u32"), (b!"lastUpdated", b!"u64"), (b!"operator", b!"Option<AccountId>"), (b!"confidenceLevel", b!"u8"), (b!"initialScore", b!"Option<u32>"), (b!"features", b!"Vec<u32>")]),
    (b!"AttestationSgxIas", .st [(b!"raReport", b!"Vec<u8>"), (b!"signature", b!"Vec<u8>"), (b!"rawSigningCert", b!"Vec<u8>")]),
    (b!"Address", .al b!"MultiAddress"),
    (b!"Path", .al b!"Vec<u8>"),
    (b!"TokenomicParameters", .st [(b!"phaRate", b!"U64F64Bits"), (b!"rho", b!"U64F64Bits"), (b!"budgetPerBlock", b!"U64F64Bits"), (b!"vMax", b!"U64F64Bits"), (b!"costK", b!"U64F64Bits"), (b!"costB", b!"U64F64Bits"), (b!"slashRate", b!"U64F64Bits"), (b!"treasuryRatio", b!"U64F64Bits"), (b!"heartbeatWindow", b!"u32"), (b!"rigK", b!"U64F64Bits"), (b!"rigB", b!"U64F64Bits"), (b!"re", b!"U64F64Bits"), (b!"k", b!"U64F64Bits"), (b!"kappa", b!"U64F64Bits")]),
    (b!"MasterPublicKey", .al b!"Sr25519PublicKey"),
    (b!"BridgeEvent", .en [(b!"FungibleTransfer", b!"FungibleTransfer"), (b!"NonFungibleTransfer", b!"NonFungibleTransfer"), (b!"GenericTransfer", b!"GenericTransfer")]),
    (b!"PoolInfo", .st [(b!"pid", b!"u64"), (b!"owner", b!"AccountId"), (b!"payoutCommission", b!"Option<Permill>"), (b!"ownerReward", b!"Balance"), (b!"cap", b!"Option<Balance>"), (b!"rewardAcc", b!"u128"), (b!"totalShares", b!"Balance"), (b!"totalStake", b!"Balance"), (b!"freeStake", b!"Balance"), (b!"releasingStake", b!"Balance"), (b!"workers", b!"Vec<WorkerPublicKey>"), (b!"withdrawQueue", b!"Vec<WithdrawInfo>")]),
    (b!"GatekeeperChange", .en [(b!"GatekeeperRegistered", b!"NewGatekeeperEvent")]),
    (b!"LookupSource", .al b!"MultiAddress"),
    (b!"TokenId", .al b!"U256"),
    (b!"SignedMessage", .st [(b!"message", b!"Message"), (b!"sequence", b!"u64"), (b!"signature", b!"Vec<u8>")]),
    (b!"NewGatekeeperEvent", .st [(b!"pubkey", b!"WorkerPublicKey"), (b!"ecdhPubkey", b!"EcdhPublicKey")]),
    (b!"WithdrawInfo", .st [(b!"user", b!"AccountId"), (b!"shares", b!"Balance"), (b!"startTime", b!"u64")]),
    (b!"FungibleTransfer", .st [(b!"dest_id", b!"BridgeChainId"), (b!"nonce", b!"DepositNonce"), (b!"resource_id", b!"ResourceId"), (b!"amount", b!"U256"), (b!"recipient", b!"Vec<u8>")]),
    (b!"Attestation", .en [(b!"SgxIas", b!"AttestationSgxIas")]),
    (b!"WorkerPublicKey", .al b!"Sr25519PublicKey"),
    (b!"GatekeeperEvent", .en [(b!"NewRandomNumber", b!"RandomNumberEvent"), (b!"TokenomicParametersChanged", b!"TokenomicParameters")]),
    (b!"DispatchMasterKeyEvent", .st [(b!"dest", b!"WorkerPublicKey"), (b!"ecdhPubkey", b!"EcdhPublicKey"), (b!"encryptedMasterKey", b!"Vec<u8>"), (b!"iv", b!"[u8; 12]")]),
    (b!"EcdhPublicKey", .al b!"[u8; 32]"),
    (b!"HeartbeatChallenge", .st [(b!"seed", b!"U256"), (b!"onlineTarget", b!"U256")]),
    (b!"RandomNumberEvent", .st [(b!"blockNumber", b!"u32"), (b!"randomNumber", b!"[u8; 32]"), (b!"lastRandomNumber", b!"[u8; 32]")]),
    (b!"UserStakeInfo", .st [(b!"user", b!"AccountId"), (b!"locked", b!"Balance"), (b!"shares", b!"Balance"), (b!"availableRewards", b!"Balance"), (b!"rewardDebt", b!"Balance")]),
    (b!"GatekeeperLaunch", .en [(b!"FirstGatekeeper", b!"NewGatekeeperEvent"), (b!"MasterPubkeyOnChain", b!"null")]),
    (b!"Sr25519PublicKey", .al b!"[u8; 32]"),
    (b!"Topic", .al b!"Path"),
    (b!"MinerStats", .st [(b!"totalReward", b!"Balance")]),
    (b!"ProposalVotes", .st [(b!"votes_for", b!"Vec<AccountId>"), (b!"votes_against", b!"Vec<AccountId>"), (b!"status", b!"ProposalStatus"), (b!"expiry", b!"BlockNumber")]),
    (b!"MinerState", .en [(b!"Ready", b!"null"), (b!"MiningIdle", b!"null"), (b!"MiningActive", b!"null"), (b!"MiningUnresponsive", b!"null"), (b!"MiningCoolingDown", b!"null")]),
    (b!"ProposalStatus", .en [(b!"Initiated", b!"null"), (b!"Approved", b!"null"), (b!"Rejected", b!"null")]),
    (b!"NonFungibleTransfer", .st [(b!"dest_id", b!"BridgeChainId"), (b!"nonce", b!"DepositNonce"), (b!"resource_id", b!"ResourceId"), (b!"token_id", b!"Vec<u8>"), (b!"recipient", b!"Vec<u8>"), (b!"metadata", b!"Vec<u8>")]),
    (b!"Message", .st [(b!"sender", b!"SenderId"), (b!"destination", b!"Topic"), (b!"payload", b!"Vec<u8>")]),
    (b!"MessageOrigin", .en [(b!"Pallet", b!"Vec<u8>"), (b!"Contract", b!"H256"), (b!"Worker", b!"Sr25519PublicKey"), (b!"AccountId", b!"H256"), (b!"MultiLocation", b!"Vec<u8>"), (b!"Gatekeeper", b!"null")]) ]

/-- network/plasm.json. -/
def plasm : List (Str × Entry) :=
  [ (b!"Weight", .al b!"u32"),
    (b!"DispatchResult", .en [(b!"Ok", b!"Null"), (b!"Error", b!"DispatchError")]),
    (b!"Keys", .al b!"SessionKeysPolkadot"),
    (b!"ValidatorPrefs", .st [(b!"Commission", b!"Compact<Balance>")]),
    (b!"Parameters", .st [(b!"canBeNominated", b!"bool"), (b!"optionExpired", b!"u128"), (b!"optionP", b!"u128")]),
    (b!"Claim", .st [(b!"amount", b!"u128"), (b!"approve", b!"BTreeSet<AuthorityId>"), (b!"complete", b!"bool"), (b!"decline", b!"BTreeSet<AuthorityId>"), (b!"params", b!"Lockdrop")]),
    (b!"BTreeSet", .st []),
    (b!"AuthorityIndex", .al b!"u16"),
    (b!"ClaimId", .al b!"H256"),
    (b!"PredicateHash", .al b!"H256"),
    (b!"AuthorityVote", .al b!"u32"),
    (b!"DollarRate", .al b!"u128"),
    (b!"AuthorityId", .al b!"AccountId"),
    (b!"TickerRate<DollarRate>", .st [(b!"authority", b!"AuthorityIndex"), (b!"btc", b!"DollarRate"), (b!"eth", b!"DollarRate")]),
    (b!"ClaimVote", .st [(b!"approve", b!"bool"), (b!"authority", b!"u16"), (b!"claim_id", b!"ClaimId")]),
    (b!"Lockdrop", .st [(b!"duration", b!"u64"), (b!"public_key", b!"[u8; 33]"), (b!"transaction_hash", b!"H256"), (b!"type", b!"u8"), (b!"value", b!"u128")]) ]

end ScaleGo.Network
