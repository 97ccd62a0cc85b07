import Verif.Model.LoadJson

/-! # The definitions shipped for single networks, part 2

The files in `network/`, entry by entry, written down by a script. -/

set_option maxRecDepth 20000

namespace ScaleGo.Network

/-- network/datahighway-harbour.json. -/
def datahighway_harbour : List (Str × Entry) :=
  [ (b!"RoamingChargingPolicyIndex", .al b!"u64"),
    (b!"MiningRatesHardwareCategory3MaxTokenBonusPerGateway", .al b!"u32"),
    (b!"MiningClaimsToken", .al b!"[u8; 16]"),
    (b!"RoamingOrganizationIndex", .al b!"u64"),
    (b!"MiningEligibilityHardwareAuditorAccountID", .al b!"u64"),
    (b!"RoamingOrganization", .al b!"[u8; 16]"),
    (b!"RoamingRoutingProfile", .al b!"[u8; 16]"),
    (b!"MiningConfigTokenType", .al b!"Text"),
    (b!"MiningConfigTokenIndex", .al b!"u64"),
    (b!"DecimalsAfterPoint", .al b!"u32"),
    (b!"RoamingPacketBundleReceivedPacketsCount", .al b!"u64"),
    (b!"RoamingDeviceProfileDevEUI", .al b!"Text"),
    (b!"Address", .al b!"MultiAddress"),
    (b!"LookupSource", .al b!"MultiAddress"),
    (b!"MiningConfigTokenConfig", .st [(b!"token_type", b!"Text"), (b!"token_lock_amount", b!"u64"), (b!"token_lock_start_block", b!"Moment"), (b!"token_lock_interval_blocks", b!"Moment")]),
    (b!"RoamingAgreementPolicyIndex", .al b!"u64"),
    (b!"MiningExecutionToken", .al b!"[u8; 16]"),
    (b!"RoamingDeviceProfileDevAddr", .al b!"Text"),
    (b!"MiningEligibilityTokenLockedPercentage", .al b!"u32"),
    (b!"RoamingPacketBundleIndex", .al b!"u64"),
    (b!"MiningEligibilityTokenAuditorAccountID", .al b!"u64"),
    (b!"MiningRatesTokenIndex", .al b!"u64"),
    (b!"MiningRatesHardwareConfig", .st [(b!"hardware_hardware_secure", b!"u32"), (b!"hardware_hardware_insecure", b!"u32"), (b!"hardware_max_hardware", b!"u32"), (b!"hardware_category_1_max_token_bonus_per_gateway", b!"u32"), (b!"hardware_category_2_max_token_bonus_per_gateway", b!"u32"), (b!"hardware_category_3_max_token_bonus_per_gateway", b!"u32")]),
    (b!"MiningConfigHardwareIndex", .al b!"u64"),
    (b!"MiningRatesToken", .al b!"[u8; 16]"),
    (b!"RoamingOperatorIndex", .al b!"u64"),
    (b!"RoamingNetworkProfileIndex", .al b!"u64"),
    (b!"RoamingChargingPolicyConfig", .st [(b!"policy_next_charging_at_block", b!"Moment"), (b!"policy_delay_after_billing_in_blocks", b!"u64")]),
    (b!"RoamingServiceProfile", .al b!"[u8; 16]"),
    (b!"MiningClaimsTokenIndex", .al b!"u64"),
    (b!"MiningEligibilityTokenCalculatedEligibility", .al b!"u64"),
    (b!"RoamingDeviceIndex", .al b!"u64"),
    (b!"RoamingAccountingPolicyConfig", .st [(b!"policy_type", b!"Text"), (b!"subscription_fee", b!"Balance"), (b!"uplink_fee_factor", b!"u32"), (b!"downlink_fee_factor", b!"u32")]),
    (b!"MiningEligibilityHardware", .al b!"[u8; 16]"),
    (b!"MiningRatesHardwareMaxHardware", .al b!"u32"),
    (b!"RoamingAccountingPolicyIndex", .al b!"u64"),
    (b!"RoamingPacketBundle", .al b!"[u8; 16]"),
    (b!"MiningClaimsHardware", .al b!"[u8; 16]"),
    (b!"MiningEligibilityHardwareResult", .st [(b!"hardware_calculated_eligibility", b!"u64"), (b!"hardware_uptime_percentage", b!"u32"), (b!"hardware_block_audited", b!"Moment"), (b!"hardware_auditor_account_id", b!"u64")]),
    (b!"MiningRatesHardwareCategory1MaxTokenBonusPerGateway", .al b!"u32"),
    (b!"MiningEligibilityHardwareIndex", .al b!"u64"),
    (b!"RoamingPacketBundleReceivedAtHome", .al b!"bool"),
    (b!"RoamingDeviceProfileJoinEUI", .al b!"Text"),
    (b!"MiningClaimsHardwareClaimAmount", .al b!"u64"),
    (b!"RoamingRoutingProfileAppServer", .al b!"Text"),
    (b!"MiningRatesTokenTokenMXC", .al b!"u32"),
    (b!"MiningConfigHardwareSecure", .al b!"bool"),
    (b!"RoamingSessionIndex", .al b!"u64"),
    (b!"RoamingServiceProfileIndex", .al b!"u64"),
    (b!"MiningConfigTokenLockAmount", .al b!"u64"),
    (b!"MiningEligibilityTokenIndex", .al b!"u64"),
    (b!"RoamingBillingPolicyConfig", .st [(b!"policy_next_billing_at_block", b!"Moment"), (b!"policy_frequency_in_blocks", b!"Moment")]),
    (b!"RoamingSession", .al b!"[u8; 16]"),
    (b!"RoamingDeviceProfile", .al b!"[u8; 16]"),
    (b!"ExchangeRateConfig", .st [(b!"hbtc", b!"u64"), (b!"dot", b!"u64"), (b!"iota", b!"u64"), (b!"fil", b!"u64"), (b!"decimals_after_point", b!"u32")]),
    (b!"RoamingDeviceProfileVendorID", .al b!"Text"),
    (b!"RoamingServiceProfileUplinkRate", .al b!"u32"),
    (b!"MiningSamplingTokenConfig", .st [(b!"token_sample_block", b!"Moment"), (b!"token_sample_locked_amount", b!"u64")]),
    (b!"MiningSamplingHardware", .al b!"[u8; 16]"),
    (b!"MiningConfigTokenRequirementsConfig", .st [(b!"token_type", b!"Text"), (b!"token_lock_min_amount", b!"u64"), (b!"token_lock_min_blocks", b!"u32")]),
    (b!"MiningRatesTokenMaxToken", .al b!"u32"),
    (b!"HBTCRate", .al b!"u64"),
    (b!"MiningClaimsHardwareIndex", .al b!"u64"),
    (b!"MiningSamplingToken", .al b!"[u8; 16]"),
    (b!"MiningConfigHardwareType", .al b!"Text"),
    (b!"MiningClaimsTokenClaimResult", .st [(b!"token_claim_amount", b!"u64"), (b!"token_claim_block_redeemed", b!"u64")]),
    (b!"MiningEligibilityToken", .al b!"[u8; 16]"),
    (b!"MiningRatesTokenTokenDOT", .al b!"u32"),
    (b!"MiningSamplingHardwareIndex", .al b!"u64"),
    (b!"MiningEligibilityHardwareCalculatedEligibility", .al b!"u64"),
    (b!"IOTARate", .al b!"u64"),
    (b!"DOTRate", .al b!"u64"),
    (b!"MiningRatesHardwareSecure", .al b!"u32"),
    (b!"MiningConfigToken", .al b!"[u8; 16]"),
    (b!"RoamingServiceProfileDownlinkRate", .al b!"u32"),
    (b!"MiningRatesTokenTokenIOTA", .al b!"u32"),
    (b!"MiningConfigHardwareID", .al b!"u64"),
    (b!"MiningConfigHardwareConfig", .st [(b!"hardware_secure", b!"bool"), (b!"hardware_type", b!"Text"), (b!"hardware_id", b!"u64"), (b!"hardware_dev_eui", b!"u64"), (b!"hardware_lock_start_block", b!"Moment"), (b!"hardware_lock_interval_blocks", b!"Moment")]),
    (b!"MiningClaimsTokenClaimAmount", .al b!"u64"),
    (b!"MiningRatesHardwareCategory2MaxTokenBonusPerGateway", .al b!"u32"),
    (b!"MiningExecutionTokenExecutorAccountID", .al b!"u64"),
    (b!"MiningRatesHardwareInsecure", .al b!"u32"),
    (b!"MiningEligibilityHardwareUptimePercentage", .al b!"u32"),
    (b!"FILRate", .al b!"u64"),
    (b!"MiningConfigHardwareDevEUI", .al b!"u64"),
    (b!"MiningRatesTokenConfig", .st [(b!"token_token_mxc", b!"u32"), (b!"token_token_iota", b!"u32"), (b!"token_token_dot", b!"u32"), (b!"token_max_token", b!"u32"), (b!"token_max_loyalty", b!"u32")]),
    (b!"MiningSamplingHardwareConfig", .st [(b!"hardware_sample_block", b!"Moment"), (b!"hardware_sample_hardware_online", b!"bool")]),
    (b!"MiningRatesTokenMaxLoyalty", .al b!"u32"),
    (b!"MiningSamplingTokenIndex", .al b!"u64"),
    (b!"MiningExecutionTokenExecutionResult", .st [(b!"token_execution_exector_account_id", b!"u64"), (b!"token_execution_started_block", b!"Moment"), (b!"token_execution_ended_block", b!"Moment")]),
    (b!"MiningExecutionTokenIndex", .al b!"u64"),
    (b!"MiningEligibilityTokenResult", .st [(b!"token_calculated_eligibility", b!"u64"), (b!"token_token_locked_percentage", b!"u32"), (b!"token_date_audited", b!"Moment"), (b!"token_auditor_account_id", b!"u64")]),
    (b!"MiningRatesHardwareIndex", .al b!"u64"),
    (b!"MiningRatesHardware", .al b!"[u8; 16]"),
    (b!"MiningSamplingHardwareSampleHardwareOnline", .al b!"u64"),
    (b!"ExchangeRateIndex", .al b!"u64"),
    (b!"MiningSamplingTokenSampleLockedAmount", .al b!"u64"),
    (b!"MiningClaimsHardwareClaimResult", .st [(b!"hardware_claim_amount", b!"u64"), (b!"hardware_claim_block_redeemed", b!"u64")]),
    (b!"MiningConfigHardware", .al b!"[u8; 16]"),
    (b!"Weight", .al b!"u64"),
    (b!"CompactAssignments", .al b!"CompactAssignmentsLatest"),
    (b!"RefCount", .al b!"u32"),
    (b!"DispatchResult", .en [(b!"Ok", b!"Null"), (b!"Error", b!"DispatchError")]),
    (b!"MiningSpeedBoostConfigurationTokenMiningTokenLockPeriod", .al b!"u32"),
    (b!"MiningSpeedBoostLodgementsTokenMiningLodgementResult", .st [(b!"token_claim_amount", b!"u64"), (b!"token_date_redeemed", b!"u64")]),
    (b!"RoamingChargingPolicyDelayAfterBillingInDays", .al b!"u64"),
    (b!"MiningSpeedBoostRatesTokenMiningTokenDOT", .al b!"u32"),
    (b!"MiningSpeedBoostConfigurationHardwareMiningHardwareConfig", .st [(b!"hardware_secure", b!"bool"), (b!"hardware_type", b!"Text"), (b!"hardware_id", b!"u64"), (b!"hardware_dev_eui", b!"u64"), (b!"hardware_lock_period_start_date", b!"Moment"), (b!"hardware_lock_period_end_date", b!"Moment")]),
    (b!"MiningSpeedBoostLodgementsTokenMiningIndex", .al b!"u64"),
    (b!"MiningSpeedBoostEligibilityTokenMiningIndex", .al b!"u64"),
    (b!"MiningSpeedBoostRatesHardwareMiningHardwareSecure", .al b!"u32"),
    (b!"MiningSpeedBoostConfigurationHardwareMiningHardwareLockPeriodEndDate", .al b!"u64"),
    (b!"MiningSpeedBoostConfigurationTokenMiningIndex", .al b!"u64"),
    (b!"MiningSpeedBoostRatesHardwareMiningIndex", .al b!"u64"),
    (b!"MiningSpeedBoostRatesTokenMiningTokenMXC", .al b!"u32"),
    (b!"MiningSpeedBoostConfigurationHardwareMiningHardwareID", .al b!"u64"),
    (b!"RoamingPacketBundleReceivedStartedAt", .al b!"Moment"),
    (b!"MiningSpeedBoostLodgementsTokenMiningLodgementAmount", .al b!"u64"),
    (b!"MiningSpeedBoostConfigurationHardwareMining", .al b!"[u8; 16]"),
    (b!"MiningSpeedBoostConfigurationTokenMiningTokenLockedAmount", .al b!"u64"),
    (b!"MiningSpeedBoostSamplingHardwareMiningSamplingConfig", .st [(b!"hardware_sample_date", b!"Moment"), (b!"hardware_sample_hardware_online", b!"bool")]),
    (b!"MiningSpeedBoostRatesHardwareMining", .al b!"[u8; 16]"),
    (b!"RoamingChargingPolicyNextChargingAt", .al b!"Moment"),
    (b!"MiningSpeedBoostConfigurationTokenMiningTokenLockPeriodEndDate", .al b!"u64"),
    (b!"MiningSpeedBoostEligibilityHardwareMiningAuditorAccountID", .al b!"u64"),
    (b!"MiningSpeedBoostSamplingTokenMiningIndex", .al b!"u64"),
    (b!"MiningSpeedBoostConfigurationHardwareMiningHardwareSecure", .al b!"bool"),
    (b!"MiningSpeedBoostLodgementsHardwareMiningLodgementResult", .st [(b!"hardware_claim_amount", b!"u64"), (b!"hardware_date_redeemed", b!"u64")]),
    (b!"MiningSpeedBoostLodgementsTokenMining", .al b!"[u8; 16]"),
    (b!"MiningSpeedBoostConfigurationHardwareMiningHardwareDevEUI", .al b!"u64"),
    (b!"MiningSpeedBoostSamplingTokenMiningSampleDate", .al b!"u64"),
    (b!"MiningSpeedBoostConfigurationTokenMining", .al b!"[u8; 16]"),
    (b!"MiningSpeedBoostEligibilityTokenMiningCalculatedEligibility", .al b!"u64"),
    (b!"MiningSpeedBoostConfigurationTokenMiningTokenType", .al b!"Text"),
    (b!"MiningSpeedBoostRatesHardwareMiningHardwareInsecure", .al b!"u32"),
    (b!"MiningSpeedBoostConfigurationHardwareMiningHardwareLockPeriodStartDate", .al b!"u64"),
    (b!"RoamingAccountingPolicyDownlinkFeeFactor", .al b!"u32"),
    (b!"RoamingOperator", .al b!"[u8; 16]"),
    (b!"MiningSpeedBoostRatesHardwareMiningMaxHardware", .al b!"u32"),
    (b!"RoamingSessionJoinRequest", .st [(b!"session_network_server_id", b!"Moment"), (b!"session_join_request_requested_at", b!"Moment")]),
    (b!"RoamingSessionJoinRequestRequestedAt", .al b!"Moment"),
    (b!"MiningSpeedBoostEligibilityHardwareMining", .al b!"[u8; 16]"),
    (b!"MiningSpeedBoostEligibilityTokenMiningTokenLockedPercentage", .al b!"u32"),
    (b!"RoamingAccountingPolicy", .al b!"[u8; 16]"),
    (b!"RoamingSessionJoinRequestAcceptAcceptedAt", .al b!"Moment"),
    (b!"MiningSpeedBoostSamplingHardwareMiningSampleHardwareOnline", .al b!"u64"),
    (b!"RoamingRoutingProfileIndex", .al b!"u64"),
    (b!"RoamingAgreementPolicy", .al b!"[u8; 16]"),
    (b!"RoamingChargingPolicy", .al b!"[u8; 16]"),
    (b!"RoamingBillingPolicyNextBillingAt", .al b!"Moment"),
    (b!"MiningSpeedBoostEligibilityTokenMiningDateAudited", .al b!"u64"),
    (b!"Keys", .al b!"(AccountId, AccountId)"),
    (b!"RoamingDeviceProfileIndex", .al b!"u64"),
    (b!"MiningSpeedBoostEligibilityHardwareMiningHardwareUptimePercentage", .al b!"u32"),
    (b!"RoamingBillingPolicyFrequencyInDays", .al b!"u64"),
    (b!"RoamingNetwork", .al b!"[u8; 16]"),
    (b!"MiningSpeedBoostRatesHardwareMiningRatesConfig", .st [(b!"hardware_hardware_secure", b!"u32"), (b!"hardware_hardware_insecure", b!"u32"), (b!"hardware_max_hardware", b!"u32")]),
    (b!"MiningSpeedBoostRatesTokenMiningMaxToken", .al b!"u32"),
    (b!"MiningSpeedBoostRatesTokenMiningMaxLoyalty", .al b!"u32"),
    (b!"MiningSpeedBoostRatesTokenMiningTokenIOTA", .al b!"u32"),
    (b!"RoamingDevice", .al b!"[u8; 16]"),
    (b!"MiningSpeedBoostSamplingTokenMining", .al b!"[u8; 16]"),
    (b!"MiningSpeedBoostRatesTokenMiningIndex", .al b!"u64"),
    (b!"RoamingBillingPolicy", .al b!"[u8; 16]"),
    (b!"RoamingAccountingPolicyUplinkFeeFactor", .al b!"u32"),
    (b!"MiningSpeedBoostLodgementsHardwareMiningLodgementDateRedeemed", .al b!"u64"),
    (b!"RoamingBillingPolicyIndex", .al b!"u64"),
    (b!"MiningSpeedBoostLodgementsHardwareMiningIndex", .al b!"u64"),
    (b!"RoamingPacketBundleReceivedPacketsOkCount", .al b!"u64"),
    (b!"RoamingNetworkProfile", .al b!"[u8; 16]"),
    (b!"MiningSpeedBoostEligibilityHardwareMiningIndex", .al b!"u64"),
    (b!"RoamingAgreementPolicyActivationType", .al b!"Text"),
    (b!"MiningSpeedBoostRatesTokenMiningRatesConfig", .st [(b!"token_token_mxc", b!"u32"), (b!"token_token_iota", b!"u32"), (b!"token_token_dot", b!"u32"), (b!"token_max_token", b!"u32"), (b!"token_max_loyalty", b!"u32")]),
    (b!"MiningSpeedBoostEligibilityHardwareMiningEligibilityResult", .st [(b!"hardware_calculated_eligibility", b!"u64"), (b!"hardware_hardware_uptime_percentage", b!"u32"), (b!"hardware_date_audited", b!"u64"), (b!"hardware_auditor_account_id", b!"u64")]),
    (b!"RoamingPacketBundleReceivedEndedAt", .al b!"Moment"),
    (b!"RoamingAccountingPolicyType", .al b!"Text"),
    (b!"RoamingDeviceProfileConfig", .st [(b!"device_profile_devaddr", b!"Text"), (b!"device_profile_deveui", b!"Text"), (b!"device_profile_joineui", b!"Text"), (b!"device_profile_vendorid", b!"Text")]),
    (b!"MiningSpeedBoostConfigurationHardwareMiningIndex", .al b!"u64"),
    (b!"MiningSpeedBoostConfigurationTokenMiningTokenLockPeriodStartDate", .al b!"u64"),
    (b!"MiningSpeedBoostLodgementsHardwareMiningLodgementAmount", .al b!"u64"),
    (b!"MiningSpeedBoostEligibilityTokenMining", .al b!"[u8; 16]"),
    (b!"RoamingNetworkServerIndex", .al b!"u64"),
    (b!"MiningSpeedBoostSamplingTokenMiningSamplingConfig", .st [(b!"token_sample_date", b!"Moment"), (b!"token_sample_tokens_locked", b!"u64")]),
    (b!"MiningSpeedBoostSamplingHardwareMining", .al b!"[u8; 16]"),
    (b!"MiningSpeedBoostLodgementsTokenMiningLodgementDateRedeemed", .al b!"u64"),
    (b!"RoamingAgreementPolicyExpiry", .al b!"Moment"),
    (b!"MiningSpeedBoostSamplingTokenMiningSampleTokensLocked", .al b!"u64"),
    (b!"MiningSpeedBoostEligibilityTokenMiningAuditorAccountID", .al b!"u64"),
    (b!"MiningSpeedBoostConfigurationTokenMiningTokenConfig", .st [(b!"token_type", b!"Text"), (b!"token_locked_amount", b!"u64"), (b!"token_lock_period", b!"u32"), (b!"token_lock_period_start_date", b!"Moment"), (b!"token_lock_period_end_date", b!"Moment")]),
    (b!"MiningSpeedBoostEligibilityTokenMiningEligibilityResult", .st [(b!"token_calculated_eligibility", b!"u64"), (b!"token_token_locked_percentage", b!"u32"), (b!"token_date_audited", b!"u64"), (b!"token_auditor_account_id", b!"u64")]),
    (b!"RoamingPacketBundleExternalDataStorageHash", .al b!"Hash"),
    (b!"MiningSpeedBoostEligibilityHardwareMiningDateAudited", .al b!"u64"),
    (b!"MiningSpeedBoostConfigurationHardwareMiningHardwareType", .al b!"Text"),
    (b!"RoamingSessionJoinRequestAcceptExpiry", .al b!"Moment"),
    (b!"RoamingAgreementPolicyConfig", .st [(b!"policy_activation_type", b!"Text"), (b!"policy_expiry", b!"u64")]),
    (b!"MiningSpeedBoostLodgementsHardwareMining", .al b!"[u8; 16]"),
    (b!"RoamingNetworkIndex", .al b!"u64"),
    (b!"RoamingSessionJoinAccept", .st [(b!"session_join_request_accept_expiry", b!"Moment"), (b!"session_join_request_accept_accepted_at", b!"Moment")]),
    (b!"MiningSpeedBoostSamplingHardwareMiningIndex", .al b!"u64"),
    (b!"RoamingNetworkServer", .al b!"[u8; 16]"),
    (b!"RoamingPacketBundleReceiver", .st [(b!"packet_bundle_received_at_home", b!"bool"), (b!"packet_bundle_received_packets_count", b!"u64"), (b!"packet_bundle_received_packets_ok_count", b!"u64"), (b!"packet_bundle_received_started_at", b!"Moment"), (b!"packet_bundle_received_ended_at", b!"Moment"), (b!"packet_bundle_external_data_storage_hash", b!"Hash")]),
    (b!"MiningSpeedBoostRatesTokenMining", .al b!"[u8; 16]"),
    (b!"MiningSpeedBoostEligibilityHardwareMiningCalculatedEligibility", .al b!"u64"),
    (b!"MiningSpeedBoostSamplingHardwareMiningSampleDate", .al b!"u64"),
    (b!"AccountInfo", .al b!"AccountInfoWithProviders") ]

/-- network/datahighway.json. -/
def datahighway : List (Str × Entry) :=
  [ (b!"Weight", .al b!"u64"),
    (b!"CompactAssignments", .al b!"CompactAssignmentsLatest"),
    (b!"RefCount", .al b!"u32"),
    (b!"DispatchResult", .en [(b!"Ok", b!"Null"), (b!"Error", b!"DispatchError")]),
    (b!"RoamingChargingPolicyIndex", .al b!"u64"),
    (b!"MiningRatesHardwareCategory3MaxTokenBonusPerGateway", .al b!"u32"),
    (b!"RoamingOrganizationIndex", .al b!"u64"),
    (b!"MiningEligibilityHardwareAuditorAccountID", .al b!"u64"),
    (b!"RoamingOrganization", .al b!"[u8; 16]"),
    (b!"DOTRate", .al b!"u64"),
    (b!"RoamingRoutingProfile", .al b!"[u8; 16]"),
    (b!"RoamingAccountingPolicyIndex", .al b!"u64"),
    (b!"RoamingAgreementPolicySetting", .st [(b!"policy_activation_type", b!"Text"), (b!"policy_expiry_block", b!"Moment")]),
    (b!"DecimalsAfterPoint", .al b!"u32"),
    (b!"RoamingPacketBundleReceivedPacketsCount", .al b!"u64"),
    (b!"RequestorData", .st [(b!"mining_eligibility_proxy_id", b!"MiningEligibilityProxyIndex"), (b!"total_amt", b!"Balance"), (b!"rewardee_count", b!"u64"), (b!"member_kind", b!"u32"), (b!"requested_date", b!"Moment")]),
    (b!"RoamingDeviceProfileDevEUI", .al b!"Text"),
    (b!"MiningSettingHardware", .al b!"[u8; 16]"),
    (b!"RoamingAgreementPolicyIndex", .al b!"u64"),
    (b!"MiningExecutionToken", .al b!"[u8; 16]"),
    (b!"RoamingDeviceProfileDevAddr", .al b!"Text"),
    (b!"MiningEligibilityTokenLockedPercentage", .al b!"u32"),
    (b!"RoamingPacketBundleIndex", .al b!"u64"),
    (b!"MiningEligibilityTokenAuditorAccountID", .al b!"u64"),
    (b!"MiningRatesTokenIndex", .al b!"u64"),
    (b!"RoamingBillingPolicySetting", .st [(b!"policy_next_billing_at_block", b!"Moment"), (b!"policy_frequency_in_blocks", b!"Moment")]),
    (b!"MiningRatesToken", .al b!"[u8; 16]"),
    (b!"RoamingOperatorIndex", .al b!"u64"),
    (b!"MiningSettingTokenLockAmount", .al b!"u64"),
    (b!"RoamingSessionJoinAccept", .st [(b!"session_join_request_accept_expiry", b!"Moment"), (b!"session_join_request_accept_accepted_at_block", b!"Moment")]),
    (b!"DailyData", .st [(b!"mining_eligibility_proxy_id", b!"MiningEligibilityProxyIndex"), (b!"total_amt", b!"Balance"), (b!"proxy_claim_requestor_account_id", b!"AccountId"), (b!"member_kind", b!"u32"), (b!"rewarded_date", b!"Date")]),
    (b!"RoamingServiceProfile", .al b!"[u8; 16]"),
    (b!"MiningClaimsTokenIndex", .al b!"u64"),
    (b!"MiningEligibilityTokenCalculatedEligibility", .al b!"u64"),
    (b!"RoamingDeviceIndex", .al b!"u64"),
    (b!"MiningEligibilityProxyClaimRewardeeData", .st [(b!"proxy_claim_rewardee_account_id", b!"AccountId"), (b!"proxy_claim_reward_amount", b!"Balance"), (b!"proxy_claim_start_date", b!"Date"), (b!"proxy_claim_end_date", b!"Date")]),
    (b!"MiningEligibilityHardware", .al b!"[u8; 16]"),
    (b!"MiningRatesHardwareMaxHardware", .al b!"u32"),
    (b!"RoamingPacketBundle", .al b!"[u8; 16]"),
    (b!"MiningClaimsHardware", .al b!"[u8; 16]"),
    (b!"RoamingChargingPolicySetting", .st [(b!"policy_next_charging_at_block", b!"Moment"), (b!"policy_delay_after_billing_in_blocks", b!"u64")]),
    (b!"MiningEligibilityHardwareResult", .st [(b!"hardware_calculated_eligibility", b!"u64"), (b!"hardware_uptime_percentage", b!"u32"), (b!"hardware_block_audited", b!"Moment"), (b!"hardware_auditor_account_id", b!"u64")]),
    (b!"MiningRatesHardwareCategory1MaxTokenBonusPerGateway", .al b!"u32"),
    (b!"MiningEligibilityHardwareIndex", .al b!"u64"),
    (b!"RoamingPacketBundleReceivedAtHome", .al b!"bool"),
    (b!"RoamingDeviceProfileJoinEUI", .al b!"Text"),
    (b!"ExchangeRateSetting", .st [(b!"hbtc", b!"u64"), (b!"dot", b!"u64"), (b!"iota", b!"u64"), (b!"fil", b!"u64"), (b!"decimals_after_point", b!"u32")]),
    (b!"MiningClaimsHardwareClaimAmount", .al b!"u64"),
    (b!"RoamingRoutingProfileAppServer", .al b!"Text"),
    (b!"MiningRatesTokenTokenMXC", .al b!"u32"),
    (b!"MiningClaimsToken", .al b!"[u8; 16]"),
    (b!"RoamingSessionIndex", .al b!"u64"),
    (b!"RoamingServiceProfileIndex", .al b!"u64"),
    (b!"MiningEligibilityTokenIndex", .al b!"u64"),
    (b!"RoamingSession", .al b!"[u8; 16]"),
    (b!"RoamingDeviceProfile", .al b!"[u8; 16]"),
    (b!"RewardTransferData", .st [(b!"mining_eligibility_proxy_id", b!"MiningEligibilityProxyIndex"), (b!"is_sent", b!"bool"), (b!"total_amt", b!"Balance"), (b!"rewardee_count", b!"u64"), (b!"member_kind", b!"u32"), (b!"requested_date", b!"Moment")]),
    (b!"RoamingDeviceProfileVendorID", .al b!"Text"),
    (b!"TransferData", .st [(b!"mining_eligibility_proxy_id", b!"MiningEligibilityProxyIndex"), (b!"is_sent", b!"bool"), (b!"total_amt", b!"Balance"), (b!"rewardee_count", b!"u64"), (b!"member_kind", b!"u32"), (b!"requested_date", b!"Moment")]),
    (b!"RoamingServiceProfileUplinkRate", .al b!"u32"),
    (b!"RoamingChargingPolicy", .al b!"[u8; 16]"),
    (b!"RoamingDeviceProfileSetting", .st [(b!"device_profile_devaddr", b!"Text"), (b!"device_profile_deveui", b!"Text"), (b!"device_profile_joineui", b!"Text"), (b!"device_profile_vendorid", b!"Text")]),
    (b!"RoamingDevice", .al b!"[u8; 16]"),
    (b!"RoamingAccountingPolicyDownlinkFeeFactor", .al b!"u32"),
    (b!"MiningSettingHardwareID", .al b!"u64"),
    (b!"MiningSamplingHardware", .al b!"[u8; 16]"),
    (b!"MiningSamplingHardwareSetting", .st [(b!"hardware_sample_block", b!"Moment"), (b!"hardware_sample_hardware_online", b!"bool")]),
    (b!"RoamingNetworkProfileIndex", .al b!"u64"),
    (b!"RewardeeData", .st [(b!"proxy_claim_rewardee_account_id", b!"AccountId"), (b!"proxy_claim_reward_amount", b!"Balance"), (b!"proxy_claim_start_date", b!"Date"), (b!"proxy_claim_end_date", b!"Date")]),
    (b!"MiningSettingTokenRequirementsSetting", .st [(b!"token_type", b!"Text"), (b!"token_lock_min_amount", b!"u64"), (b!"token_lock_min_blocks", b!"u32")]),
    (b!"RoamingOperator", .al b!"[u8; 16]"),
    (b!"MiningRatesHardwareSetting", .st [(b!"hardware_hardware_secure", b!"u32"), (b!"hardware_hardware_insecure", b!"u32"), (b!"hardware_max_hardware", b!"u32"), (b!"hardware_category_1_max_token_bonus_per_gateway", b!"u32"), (b!"hardware_category_2_max_token_bonus_per_gateway", b!"u32"), (b!"hardware_category_3_max_token_bonus_per_gateway", b!"u32")]),
    (b!"MiningRatesTokenMaxToken", .al b!"u32"),
    (b!"RoamingSessionJoinRequest", .st [(b!"session_network_server_id", b!"Moment"), (b!"session_join_requested_at_block", b!"Moment")]),
    (b!"HBTCRate", .al b!"u64"),
    (b!"RoamingPacketBundleReceivedPacketsOkCount", .al b!"u64"),
    (b!"RoamingAccountingPolicySetting", .st [(b!"policy_type", b!"Text"), (b!"subscription_fee", b!"Balance"), (b!"uplink_fee_factor", b!"u32"), (b!"downlink_fee_factor", b!"u32")]),
    (b!"MiningClaimsHardwareIndex", .al b!"u64"),
    (b!"MiningSamplingToken", .al b!"[u8; 16]"),
    (b!"MiningClaimsTokenClaimResult", .st [(b!"token_claim_amount", b!"u64"), (b!"token_claim_block_redeemed", b!"u64")]),
    (b!"RoamingAccountingPolicy", .al b!"[u8; 16]"),
    (b!"RoamingRoutingProfileIndex", .al b!"u64"),
    (b!"RoamingAgreementPolicy", .al b!"[u8; 16]"),
    (b!"MiningEligibilityToken", .al b!"[u8; 16]"),
    (b!"MiningClaimsTokenClaimAmount", .al b!"u64"),
    (b!"MiningEligibilityProxyIndex", .al b!"u64"),
    (b!"Keys", .al b!"SessionKeys2"),
    (b!"MiningRatesTokenTokenDOT", .al b!"u32"),
    (b!"RoamingDeviceProfileIndex", .al b!"u64"),
    (b!"Date", .al b!"i64"),
    (b!"MiningSamplingHardwareIndex", .al b!"u64"),
    (b!"RoamingNetwork", .al b!"[u8; 16]"),
    (b!"MiningSettingTokenType", .al b!"Text"),
    (b!"MiningEligibilityHardwareCalculatedEligibility", .al b!"u64"),
    (b!"MiningSettingTokenSetting", .st [(b!"token_type", b!"Text"), (b!"token_lock_amount", b!"u64"), (b!"token_lock_start_block", b!"Moment"), (b!"token_lock_interval_blocks", b!"Moment")]),
    (b!"IOTARate", .al b!"u64"),
    (b!"RoamingBillingPolicy", .al b!"[u8; 16]"),
    (b!"RoamingAccountingPolicyUplinkFeeFactor", .al b!"u32"),
    (b!"MiningSettingHardwareSecure", .al b!"bool"),
    (b!"RoamingBillingPolicyIndex", .al b!"u64"),
    (b!"MiningRatesHardwareSecure", .al b!"u32"),
    (b!"RewardRequestorData", .st [(b!"mining_eligibility_proxy_id", b!"MiningEligibilityProxyIndex"), (b!"total_amt", b!"Balance"), (b!"rewardee_count", b!"u64"), (b!"member_kind", b!"u32"), (b!"requested_date", b!"Moment")]),
    (b!"RoamingNetworkProfile", .al b!"[u8; 16]"),
    (b!"RoamingAgreementPolicyActivationType", .al b!"Text"),
    (b!"RoamingServiceProfileDownlinkRate", .al b!"u32"),
    (b!"MiningSettingHardwareSetting", .st [(b!"hardware_secure", b!"bool"), (b!"hardware_type", b!"Text"), (b!"hardware_id", b!"u64"), (b!"hardware_dev_eui", b!"u64"), (b!"hardware_lock_start_block", b!"Moment"), (b!"hardware_lock_interval_blocks", b!"Moment")]),
    (b!"MiningRatesTokenTokenIOTA", .al b!"u32"),
    (b!"RoamingAccountingPolicyType", .al b!"Text"),
    (b!"MiningSettingTokenIndex", .al b!"u64"),
    (b!"MiningRatesHardwareCategory2MaxTokenBonusPerGateway", .al b!"u32"),
    (b!"MiningExecutionTokenExecutorAccountID", .al b!"u64"),
    (b!"MiningRatesHardwareInsecure", .al b!"u32"),
    (b!"MiningEligibilityHardwareUptimePercentage", .al b!"u32"),
    (b!"FILRate", .al b!"u64"),
    (b!"RoamingNetworkServerIndex", .al b!"u64"),
    (b!"AccountInfo", .al b!"AccountInfoWithProviders"),
    (b!"MiningSamplingTokenSetting", .st [(b!"token_sample_block", b!"Moment"), (b!"token_sample_locked_amount", b!"u64")]),
    (b!"Address", .al b!"MultiAddress"),
    (b!"MiningRatesTokenMaxLoyalty", .al b!"u32"),
    (b!"MiningEligibilityProxyRewardRequest", .st [(b!"proxy_claim_requestor_account_id", b!"AccountId"), (b!"proxy_claim_total_reward_amount", b!"Balance"), (b!"proxy_claim_timestamp_redeemed", b!"Moment")]),
    (b!"LookupSource", .al b!"MultiAddress"),
    (b!"MiningSamplingTokenIndex", .al b!"u64"),
    (b!"MiningExecutionTokenExecutionResult", .st [(b!"token_execution_exector_account_id", b!"u64"), (b!"token_execution_started_block", b!"Moment"), (b!"token_execution_ended_block", b!"Moment")]),
    (b!"RoamingPacketBundleExternalDataStorageHash", .al b!"Hash"),
    (b!"MiningExecutionTokenIndex", .al b!"u64"),
    (b!"MiningEligibilityTokenResult", .st [(b!"token_calculated_eligibility", b!"u64"), (b!"token_token_locked_percentage", b!"u32"), (b!"token_date_audited", b!"Moment"), (b!"token_auditor_account_id", b!"u64")]),
    (b!"MiningRatesHardwareIndex", .al b!"u64"),
    (b!"MiningRatesHardware", .al b!"[u8; 16]"),
    (b!"MiningEligibilityProxy", .al b!"[u8; 16]"),
    (b!"MiningSettingHardwareType", .al b!"Text"),
    (b!"RewardDailyData", .st [(b!"mining_eligibility_proxy_id", b!"MiningEligibilityProxyIndex"), (b!"total_amt", b!"Balance"), (b!"proxy_claim_requestor_account_id", b!"AccountId"), (b!"member_kind", b!"u32"), (b!"rewarded_date", b!"Date")]),
    (b!"RoamingNetworkIndex", .al b!"u64"),
    (b!"MiningSettingHardwareDevEUI", .al b!"u64"),
    (b!"MiningClaimsHardwareClaimResult", .st [(b!"hardware_claim_amount", b!"u64"), (b!"hardware_claim_block_redeemed", b!"u64")]),
    (b!"MiningSamplingHardwareSampleHardwareOnline", .al b!"u64"),
    (b!"ExchangeRateIndex", .al b!"u64"),
    (b!"MiningSamplingTokenSampleLockedAmount", .al b!"u64"),
    (b!"RoamingNetworkServer", .al b!"[u8; 16]"),
    (b!"RoamingPacketBundleReceiver", .st [(b!"packet_bundle_received_at_home", b!"bool"), (b!"packet_bundle_received_packets_count", b!"u64"), (b!"packet_bundle_received_packets_ok_count", b!"u64"), (b!"packet_bundle_received_started_at_block", b!"Moment"), (b!"packet_bundle_received_ended_at_block", b!"Moment"), (b!"packet_bundle_external_data_storage_hash", b!"Hash")]),
    (b!"MiningSettingToken", .al b!"[u8; 16]"),
    (b!"MiningSettingHardwareIndex", .al b!"u64"),
    (b!"MiningRatesTokenSetting", .st [(b!"token_token_mxc", b!"u32"), (b!"token_token_iota", b!"u32"), (b!"token_token_dot", b!"u32"), (b!"token_max_token", b!"u32"), (b!"token_max_loyalty", b!"u32")]) ]

/-- network/deepbrain.json. -/
def deepbrain : List (Str × Entry) :=
  [ (b!"Weight", .al b!"u64"),
    (b!"CompactAssignments", .al b!"CompactAssignmentsLatest"),
    (b!"RefCount", .al b!"u32"),
    (b!"Address", .al b!"MultiAddress"),
    (b!"LookupSource", .al b!"MultiAddress"),
    (b!"AccountInfo", .al b!"AccountInfoWithProviders") ]

/-- network/dock-pos.json. -/
def dock_pos : List (Str × Entry) :=
  [ (b!"Weight", .al b!"u64"),
    (b!"RefCount", .al b!"u32"),
    (b!"DispatchResult", .en [(b!"Ok", b!"Null"), (b!"Error", b!"DispatchError")]),
    (b!"Address", .al b!"AccountId"),
    (b!"LookupSource", .al b!"AccountId"),
    (b!"Address#23-?", .al b!"MultiAddress"),
    (b!"LookupSource#23-?", .al b!"MultiAddress"),
    (b!"AccountInfo", .al b!"AccountInfoWithTripleRefCount"),
    (b!"CompactAssignments", .al b!"CompactAssignmentsLatest"),
    (b!"BlockNumber", .al b!"u32"),
    (b!"EpochDetail<Balance>", .st [(b!"validator_count", b!"u8"), (b!"starting_slot", b!"SlotNo"), (b!"expected_ending_slot", b!"SlotNo"), (b!"ending_slot", b!"Option<SlotNo>"), (b!"emission_for_validators", b!"Option<Balance>"), (b!"emission_for_treasury", b!"Option<Balance>")]),
    (b!"ValidatorStatsPerEpoch<Balance>", .st [(b!"block_count", b!"EpochLen"), (b!"locked_reward", b!"Option<Balance>"), (b!"unlocked_reward", b!"Option<Balance>")]),
    (b!"Bonus<Balance, BlockNumber>", .st [(b!"swap_bonuses", b!"Vec<(Balance, BlockNumber)>"), (b!"vesting_bonuses", b!"Vec<(Balance, Balance, BlockNumber)>")]),
    (b!"Bonus", .st [(b!"swap_bonuses", b!"Vec<(Balance, BlockNumber)>"), (b!"vesting_bonuses", b!"Vec<(Balance, Balance, BlockNumber)>")]),
    (b!"ValidatorStatsPerEpoch", .st [(b!"block_count", b!"EpochLen"), (b!"locked_reward", b!"Option<Balance>"), (b!"unlocked_reward", b!"Option<Balance>")]),
    (b!"Transaction", .st [(b!"nonce", b!"U256"), (b!"action", b!"String"), (b!"gas_price", b!"u64"), (b!"gas_limit", b!"u64"), (b!"value", b!"U256"), (b!"input", b!"Vec<u8>"), (b!"signature", b!"TransactionSignature")]),
    (b!"Blob", .st [(b!"id", b!"BlobId"), (b!"blob", b!"Vec<u8>"), (b!"author", b!"Did")]),
    (b!"Policy", .en [(b!"OneOf", b!"BTreeSet<Did>")]),
    (b!"SlotNo", .al b!"u64"),
    (b!"EpochLen", .al b!"u32"),
    (b!"StateChange", .en [(b!"KeyUpdate", b!"KeyUpdate"), (b!"DidRemoval", b!"DidRemoval"), (b!"Revoke", b!"Revoke"), (b!"UnRevoke", b!"UnRevoke"), (b!"RemoveRegistry", b!"RemoveRegistry"), (b!"Blob", b!"Blob"), (b!"MasterVote", b!"Payload"), (b!"Attestation", b!"(Did, Attestation)")]),
    (b!"BlockLength", .st [(b!"max", b!"PerDispatchClassU32")]),
    (b!"DidSignature", .en [(b!"Sr25519", b!"Bytes64"), (b!"Ed25519", b!"Bytes64"), (b!"Secp256k1", b!"Bytes65")]),
    (b!"Membership", .st [(b!"members", b!"BTreeSet<Did>"), (b!"vote_requirement", b!"u64")]),
    (b!"Registry", .st [(b!"policy", b!"Policy"), (b!"add_only", b!"bool")]),
    (b!"EpochNo", .al b!"u32"),
    (b!"UnRevoke", .st [(b!"registry_id", b!"RegistryId"), (b!"revoke_ids", b!"BTreeSet<RevokeId>"), (b!"last_modified", b!"BlockNumber")]),
    (b!"PMAuth", .al b!"BTreeMap<Did, DidSignature>"),
    (b!"Account", .st [(b!"nonce", b!"U256"), (b!"balance", b!"U256")]),
    (b!"KeyDetail", .st [(b!"controller", b!"Did"), (b!"public_key", b!"PublicKey")]),
    (b!"Did", .al b!"[u8; 32]"),
    (b!"Bytes33", .st [(b!"value", b!"[u8;33]")]),
    (b!"RemoveRegistry", .st [(b!"registry_id", b!"RegistryId"), (b!"last_modified", b!"BlockNumber")]),
    (b!"BlobId", .al b!"[u8;32]"),
    (b!"Bytes32", .st [(b!"value", b!"[u8;32]")]),
    (b!"Attestation", .st [(b!"priority", b!"Compact<u64>"), (b!"iri", b!"Option<Vec<u8>>")]),
    (b!"RegistryId", .al b!"[u8;32]"),
    (b!"TransactionSignature", .st [(b!"v", b!"u64"), (b!"r", b!"H256"), (b!"s", b!"H256")]),
    (b!"Balance", .al b!"u64"),
    (b!"ContractConfig", .st [(b!"address", b!"H160"), (b!"query_aggregator_call_encoded", b!"Vec<u8>"), (b!"query_price_abi_encoded", b!"Vec<u8>"), (b!"return_val_abi", b!"Vec<ParamType>")]),
    (b!"RevokeId", .al b!"[u8;32]"),
    (b!"Revoke", .st [(b!"registry_id", b!"RegistryId"), (b!"revoke_ids", b!"BTreeSet<RevokeId>"), (b!"last_modified", b!"BlockNumber")]),
    (b!"ParamType", .en [(b!"Address", b!"null"), (b!"Int", b!"u16"), (b!"Uint", b!"u16")]),
    (b!"DidRemoval", .st [(b!"did", b!"Did"), (b!"last_modified_in_block", b!"BlockNumber")]),
    (b!"PerDispatchClassU32", .st [(b!"normal", b!"u32"), (b!"operational", b!"u32"), (b!"mandatory", b!"u32")]),
    (b!"Keys", .al b!"SessionKeys2"),
    (b!"PublicKey", .en [(b!"Sr25519", b!"Bytes32"), (b!"Ed25519", b!"Bytes32"), (b!"Secp256k1", b!"Bytes33")]),
    (b!"KeyUpdate", .st [(b!"did", b!"Did"), (b!"public_key", b!"PublicKey"), (b!"controller", b!"Option<Did>"), (b!"last_modified_in_block", b!"BlockNumber")]),
    (b!"Bytes64", .st [(b!"value", b!"[u8;64]")]),
    (b!"Bytes65", .st [(b!"value", b!"[u8;65]")]),
    (b!"EpochDetail", .st [(b!"validator_count", b!"u8"), (b!"starting_slot", b!"SlotNo"), (b!"expected_ending_slot", b!"SlotNo"), (b!"ending_slot", b!"Option<SlotNo>"), (b!"emission_for_validators", b!"Option<Balance>"), (b!"emission_for_treasury", b!"Option<Balance>")]),
    (b!"Payload", .st [(b!"proposal", b!"Vec<u8>"), (b!"round_no", b!"u64")]),
    (b!"PAuth", .al b!"BTreeMap<Did, DidSignature>") ]

/-- network/dock.json. -/
def dock : List (Str × Entry) :=
  [ (b!"Weight", .al b!"u64"),
    (b!"RefCount", .al b!"u32"),
    (b!"DispatchResult", .en [(b!"Ok", b!"Null"), (b!"Error", b!"DispatchError")]),
    (b!"Address", .al b!"AccountId"),
    (b!"LookupSource", .al b!"AccountId"),
    (b!"Address#23-?", .al b!"MultiAddress"),
    (b!"LookupSource#23-?", .al b!"MultiAddress"),
    (b!"AccountInfo", .al b!"AccountInfoWithTripleRefCount"),
    (b!"BlockNumber", .al b!"u32"),
    (b!"EpochDetail<Balance>", .st [(b!"validator_count", b!"u8"), (b!"starting_slot", b!"SlotNo"), (b!"expected_ending_slot", b!"SlotNo"), (b!"ending_slot", b!"Option<SlotNo>"), (b!"emission_for_validators", b!"Option<Balance>"), (b!"emission_for_treasury", b!"Option<Balance>")]),
    (b!"ValidatorStatsPerEpoch<Balance>", .st [(b!"block_count", b!"EpochLen"), (b!"locked_reward", b!"Option<Balance>"), (b!"unlocked_reward", b!"Option<Balance>")]),
    (b!"Bonus<Balance, BlockNumber>", .st [(b!"swap_bonuses", b!"Vec<(Balance, BlockNumber)>"), (b!"vesting_bonuses", b!"Vec<(Balance, Balance, BlockNumber)>")]),
    (b!"Bonus", .st [(b!"swap_bonuses", b!"Vec<(Balance, BlockNumber)>"), (b!"vesting_bonuses", b!"Vec<(Balance, Balance, BlockNumber)>")]),
    (b!"ValidatorStatsPerEpoch", .st [(b!"block_count", b!"EpochLen"), (b!"locked_reward", b!"Option<Balance>"), (b!"unlocked_reward", b!"Option<Balance>")]),
    (b!"Transaction", .st [(b!"nonce", b!"U256"), (b!"action", b!"String"), (b!"gas_price", b!"u64"), (b!"gas_limit", b!"u64"), (b!"value", b!"U256"), (b!"input", b!"Vec<u8>"), (b!"signature", b!"TransactionSignature")]),
    (b!"Blob", .st [(b!"id", b!"BlobId"), (b!"blob", b!"Vec<u8>"), (b!"author", b!"Did")]),
    (b!"Policy", .en [(b!"OneOf", b!"BTreeSet<Did>")]),
    (b!"SlotNo", .al b!"u64"),
    (b!"EpochLen", .al b!"u32"),
    (b!"StateChange", .en [(b!"KeyUpdate", b!"KeyUpdate"), (b!"DidRemoval", b!"DidRemoval"), (b!"Revoke", b!"Revoke"), (b!"UnRevoke", b!"UnRevoke"), (b!"RemoveRegistry", b!"RemoveRegistry"), (b!"Blob", b!"Blob"), (b!"MasterVote", b!"Payload"), (b!"Attestation", b!"(Did, Attestation)")]),
    (b!"BlockLength", .st [(b!"max", b!"PerDispatchClassU32")]),
    (b!"DidSignature", .en [(b!"Sr25519", b!"Bytes64"), (b!"Ed25519", b!"Bytes64"), (b!"Secp256k1", b!"Bytes65")]),
    (b!"Membership", .st [(b!"members", b!"BTreeSet<Did>"), (b!"vote_requirement", b!"u64")]),
    (b!"Registry", .st [(b!"policy", b!"Policy"), (b!"add_only", b!"bool")]),
    (b!"EpochNo", .al b!"u32"),
    (b!"UnRevoke", .st [(b!"registry_id", b!"RegistryId"), (b!"revoke_ids", b!"BTreeSet<RevokeId>"), (b!"last_modified", b!"BlockNumber")]),
    (b!"PMAuth", .al b!"BTreeMap<Did, DidSignature>"),
    (b!"Account", .st [(b!"nonce", b!"U256"), (b!"balance", b!"U256")]),
    (b!"KeyDetail", .st [(b!"controller", b!"Did"), (b!"public_key", b!"PublicKey")]),
    (b!"Did", .al b!"[u8; 32]"),
    (b!"Bytes33", .st [(b!"value", b!"[u8;33]")]),
    (b!"RemoveRegistry", .st [(b!"registry_id", b!"RegistryId"), (b!"last_modified", b!"BlockNumber")]),
    (b!"BlobId", .al b!"[u8;32]"),
    (b!"Bytes32", .st [(b!"value", b!"[u8;32]")]),
    (b!"Attestation", .st [(b!"priority", b!"Compact<u64>"), (b!"iri", b!"Option<Vec<u8>>")]),
    (b!"RegistryId", .al b!"[u8;32]"),
    (b!"TransactionSignature", .st [(b!"v", b!"u64"), (b!"r", b!"H256"), (b!"s", b!"H256")]),
    (b!"Balance", .al b!"u64"),
    (b!"ContractConfig", .st [(b!"address", b!"H160"), (b!"query_aggregator_call_encoded", b!"Vec<u8>"), (b!"query_price_abi_encoded", b!"Vec<u8>"), (b!"return_val_abi", b!"Vec<ParamType>")]),
    (b!"RevokeId", .al b!"[u8;32]"),
    (b!"Revoke", .st [(b!"registry_id", b!"RegistryId"), (b!"revoke_ids", b!"BTreeSet<RevokeId>"), (b!"last_modified", b!"BlockNumber")]),
    (b!"ParamType", .en [(b!"Address", b!"null"), (b!"Int", b!"u16"), (b!"Uint", b!"u16")]),
    (b!"DidRemoval", .st [(b!"did", b!"Did"), (b!"last_modified_in_block", b!"BlockNumber")]),
    (b!"PerDispatchClassU32", .st [(b!"normal", b!"u32"), (b!"operational", b!"u32"), (b!"mandatory", b!"u32")]),
    (b!"Keys", .al b!"SessionKeys2"),
    (b!"PublicKey", .en [(b!"Sr25519", b!"Bytes32"), (b!"Ed25519", b!"Bytes32"), (b!"Secp256k1", b!"Bytes33")]),
    (b!"KeyUpdate", .st [(b!"did", b!"Did"), (b!"public_key", b!"PublicKey"), (b!"controller", b!"Option<Did>"), (b!"last_modified_in_block", b!"BlockNumber")]),
    (b!"Bytes64", .st [(b!"value", b!"[u8;64]")]),
    (b!"Bytes65", .st [(b!"value", b!"[u8;65]")]),
    (b!"EpochDetail", .st [(b!"validator_count", b!"u8"), (b!"starting_slot", b!"SlotNo"), (b!"expected_ending_slot", b!"SlotNo"), (b!"ending_slot", b!"Option<SlotNo>"), (b!"emission_for_validators", b!"Option<Balance>"), (b!"emission_for_treasury", b!"Option<Balance>")]),
    (b!"Payload", .st [(b!"proposal", b!"Vec<u8>"), (b!"round_no", b!"u64")]),
    (b!"PAuth", .al b!"BTreeMap<Did, DidSignature>") ]

/-- network/dusty.json. -/
def dusty : List (Str × Entry) :=
  [ (b!"Lockdrop", .st [(b!"duration", b!"u64"), (b!"public_key", b!"[u8; 33]"), (b!"transaction_hash", b!"H256"), (b!"type", b!"u8"), (b!"value", b!"u128")]),
    (b!"Parameters", .st [(b!"canBeNominated", b!"bool"), (b!"optionExpired", b!"u128"), (b!"optionP", b!"u32")]),
    (b!"ClaimVote", .st [(b!"approve", b!"bool"), (b!"authority", b!"u16"), (b!"claim_id", b!"ClaimId")]),
    (b!"Decision", .ev [b!"Undecided", b!"True", b!"False"]),
    (b!"ClaimId", .al b!"H256"),
    (b!"ChallengeGameOf", .st [(b!"challenges", b!"Vec<Hash>"), (b!"createdBlock", b!"BlockNumber"), (b!"decision", b!"Decision"), (b!"propertyHash", b!"Hash")]),
    (b!"PropertyOf", .st [(b!"inputs", b!"Vec<Vec<u8>>"), (b!"predicateAddress", b!"AccountId")]),
    (b!"EraStakingPoints", .st [(b!"individual", b!"BTreeMap<AccountId, Balance>"), (b!"total", b!"Balance")]),
    (b!"AccountInfo", .al b!"AccountInfoWithProviders"),
    (b!"AuthorityVote", .al b!"u32"),
    (b!"AuthorityId", .al b!"AccountId"),
    (b!"Schedule", .st [(b!"putCodePerByteCost", b!"Weight"), (b!"version", b!"u32")]),
    (b!"Keys", .al b!"SessionKeys3"),
    (b!"PredicateHash", .al b!"Hash"),
    (b!"EraIndex", .al b!"u32"),
    (b!"DollarRate", .al b!"u128"),
    (b!"PredicateContractOf", .st [(b!"inputs", b!"Vec<u8>"), (b!"predicateHash", b!"Hash")]),
    (b!"SmartContract", .en [(b!"Wasm", b!"AccountId"), (b!"Evm", b!"H160")]),
    (b!"PrefabOvmModule", .st [(b!"code", b!"Vec<u8>"), (b!"scheduleVersion", b!"u32")]),
    (b!"VoteCounts", .st [(b!"bad", b!"u32"), (b!"good", b!"u32")]),
    (b!"TickerRate", .st [(b!"authority", b!"u16"), (b!"btc", b!"u128"), (b!"eth", b!"u128")]),
    (b!"Property", .st [(b!"inputs", b!"Vec<Vec<u8>>"), (b!"predicateAddress", b!"AccountId")]),
    (b!"Claim", .st [(b!"amount", b!"u128"), (b!"approve", b!"BTreeSet<AuthorityId>"), (b!"complete", b!"bool"), (b!"decline", b!"BTreeSet<AuthorityId>"), (b!"params", b!"Lockdrop")]),
    (b!"StakingParameters", .st [(b!"canBeNominated", b!"bool"), (b!"optionExpired", b!"u128"), (b!"optionP", b!"u32")]),
    (b!"Weight", .al b!"u64"),
    (b!"CompactAssignments", .al b!"CompactAssignmentsLatest"),
    (b!"RefCount", .al b!"u32"),
    (b!"Address", .al b!"MultiAddress"),
    (b!"LookupSource", .al b!"MultiAddress") ]

/-- network/edgeware.json. -/
def edgeware : List (Str × Entry) :=
  [ (b!"BlockNumber", .al b!"U32"),
    (b!"SessionIndex", .al b!"U32"),
    (b!"AuctionIndex", .al b!"U32"),
    (b!"AuthIndex", .al b!"U32"),
    (b!"BalanceUpload", .al b!"(AccountId, u64)"),
    (b!"EgressQueueRoot", .al b!"(ParaId, Hash)"),
    (b!"EventIndex", .al b!"u32"),
    (b!"LeasePeriodOf", .al b!"BlockNumber"),
    (b!"LeasePeriod", .al b!"BlockNumber"),
    (b!"MemberCount", .al b!"u32"),
    (b!"MomentOf", .al b!"Moment"),
    (b!"Offender", .al b!"(ValidatorId, Exposure)"),
    (b!"ReportIdOf", .al b!"Hash"),
    (b!"SubId", .al b!"u32"),
    (b!"Weight", .al b!"u32"),
    (b!"WeightMultiplier", .al b!"u64"),
    (b!"WinningData", .al b!"Vec<WinningDataEntry>"),
    (b!"Index", .al b!"U32"),
    (b!"Kind", .al b!"[u8; 16]"),
    (b!"OpaqueTimeSlot", .al b!"Bytes"),
    (b!"ProposalContents", .al b!"Bytes"),
    (b!"ProposalTitle", .al b!"Bytes"),
    (b!"VoteOutcome", .al b!"[u8; 32]"),
    (b!"VotingTally", .al b!"Option<Vec<(VoteOutcome, u128)>>"),
    (b!"Box<<T as Trait<I>>::Proposal>", .al b!"BoxProposal"),
    (b!"ValidatorPrefs", .st [(b!"Commission", b!"Compact<Balance>")]),
    (b!"Keys", .st [(b!"grandpa", b!"AccountId"), (b!"babe", b!"AccountId"), (b!"im_online", b!"AccountId"), (b!"authority_discovery", b!"AccountId")]),
    (b!"Forcing", .ev [b!"NotForcing", b!"ForceNew", b!"ForceNone"]),
    (b!"VoteStage", .ev [b!"PreVoting", b!"Commit", b!"Voting", b!"Completed"]),
    (b!"VoteData", .st [(b!"initiator", b!"AccountId"), (b!"stage", b!"VoteStage"), (b!"vote_type", b!"VoteType"), (b!"tally_type", b!"TallyType"), (b!"is_commit_reveal", b!"Bool")]),
    (b!"VoteRecord", .st [(b!"id", b!"u64"), (b!"commitments", b!"Commitments"), (b!"reveals", b!"Reveals"), (b!"data", b!"VoteData"), (b!"outcomes", b!"Vec<(VoteOutcome)>")]),
    (b!"Commitments", .al b!"Vec<(AccountId, VoteOutcome)>"),
    (b!"Reveals", .al b!"Vec<(AccountId, Vec<VoteOutcome>)>"),
    (b!"VoteType", .ev [b!"Binary", b!"MultiOption", b!"RankedChoice"]),
    (b!"IdentityStage", .ev [b!"Registered", b!"Attested", b!"Verified"]),
    (b!"IdentityRecord", .st [(b!"account", b!"AccountId"), (b!"identity_type", b!"String"), (b!"identity", b!"Bytes"), (b!"stage", b!"IdentityStage"), (b!"expiration_time", b!"BlockNumber"), (b!"proof", b!"Bytes"), (b!"metadata", b!"Bytes")]),
    (b!"MetadataRecord", .st [(b!"avatar", b!"String"), (b!"display_name", b!"String"), (b!"tagline", b!"String")]),
    (b!"ProposalCategory", .ev [b!"Signaling"]),
    (b!"ProposalStage", .ev [b!"PreVoting", b!"Voting", b!"Completed"]),
    (b!"ProposalRecord", .st [(b!"index", b!"u32"), (b!"author", b!"AccountId"), (b!"stage", b!"VoteStage"), (b!"transition_time", b!"u32"), (b!"category", b!"ProposalCategory"), (b!"title", b!"Text"), (b!"contents", b!"Text"), (b!"vote_id", b!"u64")]),
    (b!"Balance2", .al b!"Balance"),
    (b!"BalanceLock<Balance, BlockNumber>", .st [(b!"id", b!"LockIdentifier"), (b!"amount", b!"Balance"), (b!"reasons", b!"Reasons")]),
    (b!"Linkage", .st [(b!"previous", b!"Option<AccountId>"), (b!"next", b!"Option<AccountId>")]),
    (b!"voting::VoteType", .ev [b!"Binary", b!"MultiOption"]),
    (b!"voting::TallyType", .ev [b!"OnePerson", b!"OneCoin"]),
    (b!"Points", .al b!"u32"),
    (b!"EraPoints", .st [(b!"total", b!"Points"), (b!"individual", b!"Vec<Points>")]),
    (b!"Weight#38-?", .al b!"u64"),
    (b!"DispatchResult#0-37", .en [(b!"Error", b!"DispatchError"), (b!"Ok", b!"Null")]),
    (b!"Address#38-41", .al b!"GenericAddress"),
    (b!"LookupSource#38-41", .al b!"GenericAddress"),
    (b!"RefCount", .al b!"u32"),
    (b!"voting::Tally", .al b!"VotingTally"),
    (b!"Address#45-?", .al b!"MultiAddress"),
    (b!"LookupSource#45-?", .al b!"MultiAddress"),
    (b!"AssetId", .al b!"u32") ]

/-- network/equilibrium.json. -/
def equilibrium : List (Str × Entry) :=
  [ (b!"Weight", .al b!"u64"),
    (b!"RefCount", .al b!"u32"),
    (b!"DispatchResult", .en [(b!"Ok", b!"Null"), (b!"Error", b!"DispatchError")]),
    (b!"ReinitRequest", .st [(b!"account", b!"AccountId"), (b!"authority_index", b!"AuthIndex"), (b!"validators_len", b!"u32"), (b!"block_num", b!"BlockNumber")]),
    (b!"ChainId", .al b!"u8"),
    (b!"FinancialMetrics", .st [(b!"period_start", b!"Duration"), (b!"period_end", b!"Duration"), (b!"assets", b!"Vec<Asset>"), (b!"mean_returns", b!"Vec<FixedNumber>"), (b!"volatilities", b!"Vec<FixedNumber>"), (b!"correlations", b!"Vec<FixedNumber>"), (b!"covariances", b!"Vec<FixedNumber>")]),
    (b!"UserGroup", .ev [b!"Unknown", b!"Balances", b!"Bailsmen", b!"Borrowers", b!"Lenders"]),
    (b!"PricePeriod", .ev [b!"Min", b!"TenMin", b!"Hour", b!"FourHour", b!"Day"]),
    (b!"PricePayload", .al b!"Data"),
    (b!"Asset", .al b!"Currency"),
    (b!"DepositNonce", .al b!"u64"),
    (b!"Keys", .al b!"SessionKeys3"),
    (b!"ResourceId", .al b!"[u8; 32]"),
    (b!"OperationRequest", .st [(b!"account", b!"AccountId"), (b!"authority_index", b!"AuthIndex"), (b!"validators_len", b!"u32"), (b!"block_num", b!"BlockNumber")]),
    (b!"TransferReason", .ev [b!"Common", b!"InterestFee", b!"MarginCall", b!"LiquidityFarming", b!"BailsmenRedistribution", b!"TreasuryEqBuyout", b!"TreasuryBuyEq", b!"Subaccount", b!"Lock"]),
    (b!"TotalAggregates", .st [(b!"collateral", b!"Balance"), (b!"debt", b!"Balance")]),
    (b!"Address", .al b!"AccountId"),
    (b!"PricePoint", .st [(b!"block_number", b!"BlockNumber"), (b!"timestamp", b!"u64"), (b!"price", b!"u64"), (b!"data_points", b!"Vec<DataPoint>")]),
    (b!"PriceUpdate", .st [(b!"period_start", b!"Duration"), (b!"time", b!"Duration"), (b!"price", b!"FixedNumber")]),
    (b!"BalanceOf", .al b!"Balance"),
    (b!"LookupSource", .al b!"AccountId"),
    (b!"CapVec", .st [(b!"head_index", b!"u32"), (b!"len_cap", b!"u32"), (b!"items", b!"Vec<FixedNumber>")]),
    (b!"AssetMetrics", .st [(b!"period_start", b!"Duration"), (b!"period_end", b!"Duration"), (b!"returns", b!"Vec<FixedNumber>"), (b!"volatility", b!"FixedNumber"), (b!"correlations", b!"Vec<(Asset, FixedNumber)>")]),
    (b!"FixedI64", .al b!"i64"),
    (b!"FixedNumber", .al b!"u128"),
    (b!"SignedBalance", .en [(b!"Positive", b!"Balance"), (b!"Negative", b!"Balance")]),
    (b!"Balance", .al b!"u64"),
    (b!"VestingInfo", .st [(b!"locked", b!"Balance"), (b!"perBlock", b!"Balance"), (b!"startingBlock", b!"BlockNumber")]),
    (b!"PriceLog", .st [(b!"latest_timestamp", b!"Duration"), (b!"prices", b!"CapVec<Price>")]),
    (b!"BlockNumber", .al b!"u64"),
    (b!"Currency", .ev [b!"Unknown", b!"Usd", b!"Eq", b!"Eth", b!"Btc", b!"Eos", b!"Dot", b!"Crv"]),
    (b!"DataPoint", .st [(b!"price", b!"u64"), (b!"account_id", b!"AccountId"), (b!"block_number", b!"BlockNumber"), (b!"timestamp", b!"u64")]),
    (b!"ProposalVotes", .st [(b!"votes_for", b!"Vec<AccountId>"), (b!"votes_against", b!"Vec<AccountId>"), (b!"status", b!"ProposalStatus"), (b!"expiry", b!"BlockNumber")]),
    (b!"ProposalStatus", .ev [b!"Initiated", b!"Approved", b!"Rejected"]),
    (b!"PortfolioMetrics", .st [(b!"period_start", b!"Duration"), (b!"period_end", b!"Duration"), (b!"z_score", b!"u32"), (b!"volatility", b!"FixedNumber"), (b!"value_at_risk", b!"FixedNumber")]),
    (b!"Duration", .st [(b!"secs", b!"u64"), (b!"nanos", b!"u32")]),
    (b!"BalancesAggregate", .st [(b!"total_issuance", b!"Balance"), (b!"total_debt", b!"Balance")]),
    (b!"Price", .al b!"u128"),
    (b!"SubAccType", .ev [b!"Bailsman", b!"Borrower", b!"Lender"]) ]

/-- network/gateway-test.json. -/
def gateway_test : List (Str × Entry) :=
  [ (b!"AccountData", .al b!"NULL"),
    (b!"ChainAccountSignature", .en [(b!"Gate", b!"Gateway__Chain__Address"), (b!"Eth", b!"ChainAccountSignatureEth"), (b!"Dot", b!"ChainAccountSignatureDot")]),
    (b!"ChainAccountSignatureGate", .al b!"(Gateway__Chain__Address,Gateway__Chain__Signature)"),
    (b!"ApiRates", .al b!"(ApiAPR,ApiAPR)"),
    (b!"Solana__Chain__Signature", .al b!"[u8; 65]"),
    (b!"CashExtractionNotice", .en [(b!"Eth", b!"CashExtractionNoticeEth")]),
    (b!"CashIndex", .al b!"Uint"),
    (b!"RatesError", .en [(b!"ModelRateOutOfBounds", b!"NULL"), (b!"ZeroAboveKink", b!"NULL"), (b!"KinkAboveFull", b!"NULL"), (b!"KinkUtilizationTooHigh", b!"NULL"), (b!"Overflowed", b!"NULL")]),
    (b!"InterestRateModelFixed", .st [(b!"rate", b!"APR")]),
    (b!"BlockLength", .st [(b!"max", b!"PerDispatchClass_u32")]),
    (b!"ApiValidators", .st [(b!"current_block", b!"String"), (b!"current_validators", b!"Vec<(String,String)>"), (b!"miner_payouts", b!"Vec<(ChainAccount,String)>")]),
    (b!"ApiAssetMeta", .st [(b!"supplier_counts", b!"BTreeMap<String,u32>"), (b!"borrower_counts", b!"BTreeMap<String,u32>"), (b!"combined_supplier_count", b!"u32"), (b!"combined_borrower_count", b!"u32")]),
    (b!"ReasonIncorrectNonce", .al b!"(Nonce,Nonce)"),
    (b!"Polkadot__Chain__PublicKey", .al b!"[u8; 64]"),
    (b!"ChainLogId", .en [(b!"Eth", b!"ChainLogIdEth")]),
    (b!"EthereumClientError", .en [(b!"DecodeError", b!"NULL"), (b!"HttpIoError", b!"NULL"), (b!"HttpTimeout", b!"NULL"), (b!"HttpErrorCode", b!"U16"), (b!"InvalidUTF8", b!"NULL"), (b!"JsonParseError", b!"NULL"), (b!"NoResult", b!"NULL")]),
    (b!"CashPrincipalPerAsset", .al b!"AssetIndex"),
    (b!"ExtractionNotice", .en [(b!"Eth", b!"ExtractionNoticeEth")]),
    (b!"Nonce", .al b!"u32"),
    (b!"Notice", .en [(b!"ExtractionNotice", b!"ExtractionNotice"), (b!"CashExtractionNotice", b!"CashExtractionNotice"), (b!"FutureYieldNotice", b!"FutureYieldNotice"), (b!"SetSupplyCapNotice", b!"SetSupplyCapNotice"), (b!"ChangeAuthorityNotice", b!"ChangeAuthorityNotice")]),
    (b!"Tezos__Chain__Rate", .al b!"u128"),
    (b!"Polkadot__Chain__Amount", .al b!"u128"),
    (b!"Tezos__Chain__PublicKey", .al b!"[u8; 64]"),
    (b!"Polkadot__Chain__Block", .al b!"NULL"),
    (b!"Reason", .en [(b!"AssetExtractionNotSupported", b!"null"), (b!"AssetNotSupported", b!"null"), (b!"BadAccount", b!"null"), (b!"BadAddress", b!"null"), (b!"BadAsset", b!"null"), (b!"BadChainId", b!"null"), (b!"BadFactor", b!"null"), (b!"BadHash", b!"null"), (b!"BadSymbol", b!"null"), (b!"BadTicker", b!"null"), (b!"BadUnits", b!"null"), (b!"ChainMismatch", b!"null"), (b!"HashMismatch", b!"null"), (b!"CryptoError", b!"CryptoError"), (b!"EventError", b!"EventError"), (b!"FailedToSubmitExtrinsic", b!"null"), (b!"CannotFormulateReorg", b!"null"), (b!"WorkerFetchError", b!"null"), (b!"WorkerBusy", b!"null"), (b!"IncorrectNonce", b!"ReasonIncorrectNonce"), (b!"InKindLiquidation", b!"null"), (b!"InsufficientChainCash", b!"null"), (b!"InsufficientLiquidity", b!"null"), (b!"InsufficientTotalFunds", b!"null"), (b!"InvalidAPR", b!"null"), (b!"InvalidCodeHash", b!"null"), (b!"InvalidLiquidation", b!"null"), (b!"InvalidUTF8", b!"null"), (b!"KeyNotFound", b!"null"), (b!"MathError", b!"MathError"), (b!"MaxForNonCashAsset", b!"null"), (b!"MinTxValueNotMet", b!"null"), (b!"None", b!"null"), (b!"NoPrice", b!"null"), (b!"NoSuchAsset", b!"null"), (b!"NoticeMissing", b!"ReasonNoticeMissing"), (b!"NotImplemented", b!"null"), (b!"OracleError", b!"OracleError"), (b!"RatesError", b!"RatesError"), (b!"RepayTooMuch", b!"null"), (b!"SelfTransfer", b!"null"), (b!"SerdeError", b!"null"), (b!"SetYieldNextError", b!"SetYieldNextError"), (b!"SignatureAccountMismatch", b!"null"), (b!"SignatureMismatch", b!"null"), (b!"TimestampMissing", b!"null"), (b!"TimeTravelNotAllowed", b!"null"), (b!"TrxRequestParseError", b!"TrxReqParseError"), (b!"UnknownValidator", b!"null"), (b!"InvalidChain", b!"null"), (b!"PendingAuthNotice", b!"null"), (b!"ChangeValidatorsError", b!"null"), (b!"InsufficientCashForMaxTransfer", b!"null"), (b!"SufficientLiquidity", b!"null"), (b!"AssetQuantityMismatch", b!"null"), (b!"Unreachable", b!"null"), (b!"TotalBorrowUnderflow", b!"null"), (b!"InsufficientCollateral", b!"null"), (b!"NegativeChainCash", b!"null"), (b!"MissingLastBlock", b!"null"), (b!"StarportMissing", b!"null"), (b!"InvalidChainBlock", b!"null")]),
    (b!"SessionKeys", .st [(b!"aura", b!"[u8;32]"), (b!"grandpa", b!"[u8;32]")]),
    (b!"Uint", .al b!"u128"),
    (b!"Tezos__Chain__Event", .al b!"tez__Event"),
    (b!"ChainHash", .en [(b!"Gate", b!"Gateway__Chain__Hash"), (b!"Eth", b!"Ethereum__Chain__Hash"), (b!"Dot", b!"Polkadot__Chain__Hash")]),
    (b!"AssetBalance", .al b!"Int"),
    (b!"Tezos__Chain__Amount", .al b!"u128"),
    (b!"AccountId32", .al b!"[u8; 32]"),
    (b!"Solana__Chain__PublicKey", .al b!"[u8; 64]"),
    (b!"Solana__Chain__Amount", .al b!"u128"),
    (b!"ChainAccountSignatureTez", .al b!"(Tezos__Chain__Address,Tezos__Chain__Signature)"),
    (b!"USDQuantity", .al b!"Quantity"),
    (b!"SetSupplyCapNoticeEth", .st [(b!"id", b!"NoticeId"), (b!"parent", b!"Ethereum__Chain__Hash"), (b!"asset", b!"Ethereum__Chain__Address"), (b!"cap", b!"Ethereum__Chain__Amount")]),
    (b!"APR", .al b!"Uint"),
    (b!"ValidatorKeys", .st [(b!"substrate_id", b!"SubstrateId"), (b!"eth_address", b!"Ethereum__Chain__Address")]),
    (b!"ApiPortfolio", .st [(b!"cash", b!"String"), (b!"positions", b!"Vec<(ChainAsset,String)>")]),
    (b!"CashQuantity", .al b!"Quantity"),
    (b!"Tezos__Chain__Timestamp", .al b!"u64"),
    (b!"Oracle__Timestamp", .al b!"u64"),
    (b!"EthereumEventExecuteProposal", .st [(b!"title", b!"String"), (b!"extrinsics", b!"Vec<Vec<u8>>")]),
    (b!"ApiInterestRateModelFixed", .st [(b!"rate", b!"String")]),
    (b!"sol__EventId", .al b!"(u64,u64)"),
    (b!"AssetPrice", .al b!"u128"),
    (b!"ApiInterestRateModelKink", .st [(b!"zero_rate", b!"String"), (b!"kink_rate", b!"String"), (b!"kink_utilization", b!"String"), (b!"full_rate", b!"String")]),
    (b!"Factor", .al b!"Uint"),
    (b!"Units", .st [(b!"ticker", b!"Ticker"), (b!"decimals", b!"Decimals")]),
    (b!"ReasonNoticeMissing", .al b!"(ChainId,NoticeId)"),
    (b!"AssetInfo", .st [(b!"asset", b!"ChainAsset"), (b!"decimals", b!"Decimals"), (b!"liquidity_factor", b!"LiquidityFactor"), (b!"rate_model", b!"InterestRateModel"), (b!"miner_shares", b!"MinerShares"), (b!"supply_cap", b!"AssetAmount"), (b!"symbol", b!"Symbol"), (b!"ticker", b!"Ticker")]),
    (b!"Solana__Chain__Rate", .al b!"u128"),
    (b!"ChainAccountSignatureSol", .al b!"(Solana__Chain__Address,Solana__Chain__Signature)"),
    (b!"LiquidityFactor", .al b!"Factor"),
    (b!"Gateway__Chain__EventId", .al b!"comp__EventId"),
    (b!"EventStateFailed", .st [(b!"reason", b!"Reason")]),
    (b!"SubstrateId", .al b!"AccountId32"),
    (b!"CashPrincipal", .al b!"AssetBalance"),
    (b!"MinerShares", .al b!"Factor"),
    (b!"ChainSignatureList", .en [(b!"Gate", b!"Reserved"), (b!"Eth", b!"Vec<(Ethereum__Chain__Address,Ethereum__Chain__Signature)>"), (b!"Dot", b!"Vec<(Polkadot__Chain__Address,Polkadot__Chain__Signature)>")]),
    (b!"AssetAmount", .al b!"Uint"),
    (b!"Solana__Chain__Event", .al b!"sol__Event"),
    (b!"Polkadot__Chain__Address", .al b!"[u8; 32]"),
    (b!"Ethereum__Chain__Amount", .al b!"u128"),
    (b!"Solana__Chain__Hash", .al b!"[u8; 32]"),
    (b!"Ethereum__Chain__Rate", .al b!"u128"),
    (b!"NoticeStatePending", .st [(b!"signature_pairs", b!"ChainSignatureList")]),
    (b!"PerDispatchClass_u32", .st [(b!"normal", b!"u32"), (b!"operational", b!"u32"), (b!"mandatory", b!"u32")]),
    (b!"NoticeId", .al b!"(EraId,EraIndex)"),
    (b!"ChainAsset", .en [(b!"Gate", b!"Reserved"), (b!"Eth", b!"Ethereum__Chain__Address"), (b!"Dot", b!"Polkadot__Chain__Address")]),
    (b!"ApiAssetInfo", .st [(b!"asset", b!"ChainAsset"), (b!"decimals", b!"u8"), (b!"liquidity_factor", b!"String"), (b!"rate_model", b!"ApiInterestRateModel"), (b!"miner_shares", b!"String"), (b!"supply_cap", b!"String"), (b!"symbol", b!"Symbol"), (b!"ticker", b!"String")]),
    (b!"CashPerCashPrincipal", .al b!"CashIndex"),
    (b!"ChainAccountSignatureEth", .al b!"(Ethereum__Chain__Address,Ethereum__Chain__Signature)"),
    (b!"Ethereum__Chain__PublicKey", .al b!"[u8; 64]"),
    (b!"ValidatorIdentity", .al b!"SubstrateId"),
    (b!"TrxReqParseError", .en [(b!"NotImplemented", b!"null"), (b!"LexError", b!"null"), (b!"InvalidAmount", b!"null"), (b!"InvalidAddress", b!"null"), (b!"InvalidArgs", b!"null"), (b!"UnknownFunction", b!"null"), (b!"InvalidExpression", b!"null"), (b!"InvalidChain", b!"null"), (b!"InvalidChainAccount", b!"null")]),
    (b!"VersionedAuthorityList", .st [(b!"version", b!"u8"), (b!"authorityList", b!"AuthorityList")]),
    (b!"ChainAccountSignatureDot", .al b!"(Polkadot__Chain__Address,Polkadot__Chain__Signature)"),
    (b!"AssetIndex", .al b!"Uint"),
    (b!"ExtractionNoticeEth", .st [(b!"id", b!"NoticeId"), (b!"parent", b!"Ethereum__Chain__Hash"), (b!"asset", b!"Ethereum__Chain__Address"), (b!"account", b!"Ethereum__Chain__Address"), (b!"amount", b!"Ethereum__Chain__Amount")]),
    (b!"EthereumEvent", .en [(b!"Lock", b!"EthereumEventLock"), (b!"LockCash", b!"EthereumEventLockCash"), (b!"ExecTrxRequest", b!"EthereumEventExecTrxRequest"), (b!"ExecuteProposal", b!"EthereumEventExecuteProposal"), (b!"NoticeInvoked", b!"EthereumEventNoticeInvoked")]),
    (b!"EventInfo", .st [(b!"latest_eth_block", b!"u64"), (b!"events", b!"Vec<(ChainLogId,ChainLogEvent)>")]),
    (b!"SignersSet", .al b!"BTreeSet<ValidatorIdentity>"),
    (b!"InterestRateModelKink", .st [(b!"zero_rate", b!"APR"), (b!"kink_rate", b!"APR"), (b!"kink_utilization", b!"Factor"), (b!"full_rate", b!"APR")]),
    (b!"CashAmount", .al b!"Uint"),
    (b!"FutureYieldNoticeEth", .st [(b!"id", b!"NoticeId"), (b!"parent", b!"Ethereum__Chain__Hash"), (b!"next_cash_yield", b!"Ethereum__Chain__Rate"), (b!"next_cash_index", b!"Ethereum__Chain__CashIndex"), (b!"next_cash_yield_start", b!"Ethereum__Chain__Timestamp")]),
    (b!"GovernanceResult", .en [(b!"FailedToDecodeCall", b!"NULL"), (b!"DispatchSuccess", b!"NULL"), (b!"DispatchFailure", b!"DispatchError")]),
    (b!"ChainLogEvent", .en [(b!"Eth", b!"EthereumLogEvent")]),
    (b!"Ethereum__Chain__Event", .al b!"EthereumEvent"),
    (b!"dot__EventId", .al b!"(u64,u64)"),
    (b!"tez__EventId", .al b!"(u128,u128)"),
    (b!"CashExtractionNoticeEth", .st [(b!"id", b!"NoticeId"), (b!"parent", b!"Ethereum__Chain__Hash"), (b!"account", b!"Ethereum__Chain__Address"), (b!"principal", b!"Ethereum__Chain__Amount")]),
    (b!"ChainReorgEth", .st [(b!"from_hash", b!"Ethereum__Chain__Hash"), (b!"to_hash", b!"Ethereum__Chain__Hash"), (b!"reverse_blocks", b!"Vec<Ethereum__Chain__Block>"), (b!"forward_blocks", b!"Vec<Ethereum__Chain__Block>")]),
    (b!"ChainReorgTally", .st [(b!"reorg", b!"ChainReorg"), (b!"support", b!"SignersSet")]),
    (b!"ChainId", .en [(b!"Gate", b!"NULL"), (b!"Eth", b!"NULL"), (b!"Dot", b!"NULL")]),
    (b!"ChainReorg", .en [(b!"Eth", b!"ChainReorgEth")]),
    (b!"eth__LogIndex", .al b!"u64"),
    (b!"SetSupplyCapNotice", .en [(b!"Eth", b!"SetSupplyCapNoticeEth")]),
    (b!"Polkadot__Chain__Rate", .al b!"u128"),
    (b!"eth__BlockNumber", .al b!"u64"),
    (b!"EraIndex", .al b!"u32"),
    (b!"ChangeAuthorityNoticeEth", .st [(b!"id", b!"NoticeId"), (b!"parent", b!"Ethereum__Chain__Hash"), (b!"new_authorities", b!"Vec<Ethereum__Chain__Address>")]),
    (b!"Ethereum__Chain__EventId", .al b!"eth__EventId"),
    (b!"Polkadot__Chain__Hash", .al b!"[u8; 32]"),
    (b!"Ethereum__Chain__CashIndex", .al b!"u128"),
    (b!"comp__EventId", .al b!"(u64,u64)"),
    (b!"ChainSignature", .en [(b!"Gate", b!"Gateway__Chain__Signature"), (b!"Eth", b!"Ethereum__Chain__Signature"), (b!"Dot", b!"Polkadot__Chain__Signature")]),
    (b!"ChangeAuthorityNotice", .en [(b!"Eth", b!"ChangeAuthorityNoticeEth")]),
    (b!"Reporter", .al b!"[u8; 20]"),
    (b!"Keys", .al b!"SessionKeys"),
    (b!"Timestamp", .al b!"u64"),
    (b!"Symbol", .al b!"[u8; 12]"),
    (b!"CodeHash", .al b!"Ethereum__Chain__Hash"),
    (b!"Tezos__Chain__Hash", .al b!"[u8; 32]"),
    (b!"CryptoError", .en [(b!"Unknown", b!"NULL"), (b!"KeyNotFound", b!"NULL"), (b!"KeyringLock", b!"NULL"), (b!"InvalidKeyId", b!"NULL"), (b!"ParseError", b!"NULL"), (b!"RecoverError", b!"NULL"), (b!"HSMError", b!"NULL"), (b!"EnvironmentVariablePrivateKeyNotSet", b!"NULL"), (b!"HexDecodeFailed", b!"NULL"), (b!"EnvironmentVariableHexDecodeFailed", b!"NULL"), (b!"EnvironmentVariableInvalidSeed", b!"NULL")]),
    (b!"EraId", .al b!"u32"),
    (b!"Ethereum__Chain__Hash", .al b!"[u8; 32]"),
    (b!"ValidatorSig", .al b!"Ethereum__Chain__Signature"),
    (b!"EthereumEventExecTrxRequest", .st [(b!"account", b!"[u8; 20]"), (b!"trx_request", b!"String")]),
    (b!"Tezos__Chain__CashIndex", .al b!"u128"),
    (b!"Balance", .st [(b!"value", b!"AssetBalance"), (b!"units", b!"Units")]),
    (b!"Decimals", .al b!"u8"),
    (b!"Quantity", .st [(b!"value", b!"AssetAmount"), (b!"units", b!"Units")]),
    (b!"EthereumEventLockCash", .st [(b!"sender", b!"[u8; 20]"), (b!"chain", b!"String"), (b!"recipient", b!"[u8; 32]"), (b!"amount", b!"u128"), (b!"principal", b!"u128")]),
    (b!"Polkadot__Chain__Timestamp", .al b!"u64"),
    (b!"ChainAccount", .en [(b!"Gate", b!"Gateway__Chain__Address"), (b!"Eth", b!"Ethereum__Chain__Address"), (b!"Dot", b!"Polkadot__Chain__Address")]),
    (b!"InterestRateModel", .en [(b!"Kink", b!"InterestRateModelKink"), (b!"Fixed", b!"InterestRateModelFixed")]),
    (b!"eth__EventId", .al b!"(BlockNumber,LogIndex)"),
    (b!"Int", .al b!"i128"),
    (b!"Ethereum__Chain__Timestamp", .al b!"u64"),
    (b!"Solana__Chain__Address", .al b!"[u8; 20]"),
    (b!"EthereumLogEvent", .st [(b!"block_hash", b!"[u8; 32]"), (b!"block_number", b!"u64"), (b!"transaction_index", b!"u64"), (b!"log_index", b!"u64"), (b!"event", b!"EthereumEvent")]),
    (b!"EncodedNotice", .al b!"Vec<u8>"),
    (b!"Tezos__Chain__Address", .al b!"[u8; 20]"),
    (b!"Bips", .al b!"u128"),
    (b!"ReporterSet", .al b!"Vec<Reporter>"),
    (b!"Price", .st [(b!"ticker", b!"Ticker"), (b!"value", b!"AssetPrice")]),
    (b!"ApiInterestRateModel", .en [(b!"Kink", b!"ApiInterestRateModelKink"), (b!"Fixed", b!"ApiInterestRateModelFixed")]),
    (b!"EventState", .en [(b!"Pending", b!"EventStatePending"), (b!"Failed", b!"EventStateFailed"), (b!"Done", b!"null")]),
    (b!"SetYieldNextError", .en [(b!"NotEnoughTimeToSyncBeforeNext", b!"null"), (b!"NotEnoughTimeToSyncBeforeCancel", b!"null")]),
    (b!"EventError", .en [(b!"NoRpcUrl", b!"NULL"), (b!"NoStarportAddress", b!"NULL"), (b!"EthereumClientError", b!"EthereumClientError"), (b!"ErrorDecodingHex", b!"NULL"), (b!"InvalidBlockchain", b!"NULL")]),
    (b!"Polkadot__Chain__Event", .al b!"NULL"),
    (b!"SignedPayload", .al b!"Vec<u8>"),
    (b!"ApiAssetData", .st [(b!"asset", b!"String"), (b!"balance", b!"String"), (b!"total_supply", b!"String"), (b!"total_borrow", b!"String"), (b!"supply_rate", b!"String"), (b!"borrow_rate", b!"String"), (b!"liquidity_factor", b!"String"), (b!"price", b!"String")]),
    (b!"Address", .al b!"MultiAddress"),
    (b!"Authorities", .al b!"Vec<AccountId32>"),
    (b!"Solana__Chain__Timestamp", .al b!"u64"),
    (b!"CashPrincipalAmount", .al b!"AssetAmount"),
    (b!"CashOrChainAsset", .en [(b!"Cash", b!"NULL"), (b!"ChainAsset", b!"ChainAsset")]),
    (b!"Ticker", .al b!"[u8; 12]"),
    (b!"AssetQuantity", .al b!"Quantity"),
    (b!"Solana__Chain__EventId", .al b!"sol__EventId"),
    (b!"LookupSource", .al b!"MultiAddress"),
    (b!"Ethereum__Chain__Signature", .al b!"[u8; 65]"),
    (b!"EthereumEventLock", .st [(b!"asset", b!"[u8; 20]"), (b!"sender", b!"[u8; 20]"), (b!"chain", b!"String"), (b!"recipient", b!"[u8; 32]"), (b!"amount", b!"u128")]),
    (b!"OracleError", .en [(b!"BadTicker", b!"null"), (b!"CryptoError", b!"null"), (b!"EthAbiParseError", b!"null"), (b!"HexParseError", b!"null"), (b!"HttpError", b!"null"), (b!"InvalidApiEndpoint", b!"null"), (b!"InvalidKind", b!"null"), (b!"InvalidReporter", b!"null"), (b!"InvalidSymbol", b!"null"), (b!"InvalidTicker", b!"null"), (b!"InvalidTimestamp", b!"null"), (b!"JsonParseError", b!"null"), (b!"NoPriceFeedURL", b!"null"), (b!"StalePrice", b!"null"), (b!"SubmitError", b!"null"), (b!"NoPrice", b!"null")]),
    (b!"MathError", .en [(b!"AbnormalFloatingPointResult", b!"NULL"), (b!"DivisionByZero", b!"NULL"), (b!"Overflow", b!"NULL"), (b!"Underflow", b!"NULL"), (b!"SignMismatch", b!"NULL"), (b!"PriceNotUSD", b!"NULL"), (b!"UnitsMismatch", b!"NULL")]),
    (b!"SessionIndex", .al b!"u32"),
    (b!"Portfolio", .st [(b!"cash", b!"Balance"), (b!"positions", b!"Vec<(AssetInfo,Balance)>")]),
    (b!"ApiCashData", .st [(b!"balance", b!"String"), (b!"cash_yield", b!"String"), (b!"price", b!"String")]),
    (b!"Ethereum__Chain__Address", .al b!"[u8; 20]"),
    (b!"NoticeState", .en [(b!"Missing", b!"null"), (b!"Pending", b!"NoticeStatePending"), (b!"Executed", b!"null")]),
    (b!"ChainLogIdEth", .al b!"(eth__BlockNumber,eth__LogIndex)"),
    (b!"Polkadot__Chain__Signature", .al b!"[u8; 65]"),
    (b!"FutureYieldNotice", .en [(b!"Eth", b!"FutureYieldNoticeEth")]),
    (b!"EthereumEventNoticeInvoked", .st [(b!"era_id", b!"u32"), (b!"era_index", b!"u32"), (b!"notice_hash", b!"[u8; 32]"), (b!"result", b!"Vec<u8>")]),
    (b!"ApiAPR", .al b!"u64"),
    (b!"Polkadot__Chain__CashIndex", .al b!"u128"),
    (b!"Tezos__Chain__EventId", .al b!"tez__EventId"),
    (b!"Polkadot__Chain__EventId", .al b!"dot__EventId"),
    (b!"Solana__Chain__CashIndex", .al b!"u128"),
    (b!"Tezos__Chain__Signature", .al b!"[u8; 65]"),
    (b!"EventStatePending", .st [(b!"signers", b!"SignersSet")]),
    (b!"Weight", .al b!"u64"),
    (b!"CompactAssignments", .al b!"CompactAssignmentsLatest"),
    (b!"DispatchResult", .en [(b!"Ok", b!"Null"), (b!"Error", b!"DispatchError")]),
    (b!"ChainBlock", .en [(b!"Eth", b!"EthereumBlock")]),
    (b!"ChainBlockEvent", .en [(b!"Reserved", b!"NULL"), (b!"Eth", b!"ChainBlockEventEth")]),
    (b!"ChainBlockEvents", .en [(b!"Reserved", b!"NULL"), (b!"Eth", b!"Vec<(ChainBlockNumber,Ethereum__Chain__Event)>")]),
    (b!"ChainBlocks", .en [(b!"Eth", b!"Vec<Ethereum__Chain__Block>")]),
    (b!"ChainBlockEventEth", .al b!"(ChainBlockNumber, Ethereum__Chain__Event)"),
    (b!"ChainBlockNumber", .al b!"u64"),
    (b!"Ethereum__Chain__Block", .al b!"EthereumBlock"),
    (b!"EthereumBlock", .st [(b!"hash", b!"EthereumHash"), (b!"parent_hash", b!"EthereumHash"), (b!"number", b!"EthereumBlockNumber"), (b!"events", b!"Vec<EthereumEvent>")]),
    (b!"ChainBlockTally", .st [(b!"block", b!"ChainBlock"), (b!"support", b!"SignersSet"), (b!"dissent", b!"SignersSet")]),
    (b!"EthereumBlockNumber", .al b!"U64"),
    (b!"EthereumHash", .al b!"[u8; 32]"),
    (b!"ApiCashData#10-?", .st [(b!"balance", b!"String"), (b!"cash_yield", b!"String"), (b!"price", b!"String"), (b!"cash_principal", b!"String"), (b!"cash_index", b!"String"), (b!"total_cash", b!"String")]),
    (b!"Reserved", .al b!"NULL"),
    (b!"Gateway__Chain__Address", .al b!"[u8; 32]"),
    (b!"Gateway__Chain__Amount", .al b!"u128"),
    (b!"Gateway__Chain__Block", .al b!"()"),
    (b!"Gateway__Chain__CashIndex", .al b!"u128"),
    (b!"Gateway__Chain__Event", .al b!"()"),
    (b!"Gateway__Chain__Hash", .al b!"[u8; 32]"),
    (b!"Gateway__Chain__PublicKey", .al b!"[u8; 64]"),
    (b!"Gateway__Chain__Rate", .al b!"u128"),
    (b!"Gateway__Chain__Signature", .al b!"[u8; 65]"),
    (b!"Gateway__Chain__Timestamp", .al b!"u64") ]

end ScaleGo.Network
