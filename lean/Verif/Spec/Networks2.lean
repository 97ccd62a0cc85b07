import Verif.Model.Registry

/-! # The classes of the names that the shipped networks define, part 2

Lower-case name (with its version range, if any) and class, for every file in `network/`, without the one
name in each of crab, darwinia, pangolin and sora whose class depends on the order of loading. Written down by a script; C108 proves that loading produces exactly these. -/

set_option maxRecDepth 20000

namespace ScaleGo.NetClasses

/-- Classes of the names of network/datahighway-harbour.json. -/
def datahighway_harbour : List (Str × Cls) :=
  [ (b!"roamingchargingpolicyindex", .u64),
    (b!"miningrateshardwarecategory3maxtokenbonuspergateway", .u32),
    (b!"miningclaimstoken", .fixedU8 16),
    (b!"roamingorganizationindex", .u64),
    (b!"miningeligibilityhardwareauditoraccountid", .u64),
    (b!"roamingorganization", .fixedU8 16),
    (b!"roamingroutingprofile", .fixedU8 16),
    (b!"miningconfigtokentype", .string),
    (b!"miningconfigtokenindex", .u64),
    (b!"decimalsafterpoint", .u32),
    (b!"roamingpacketbundlereceivedpacketscount", .u64),
    (b!"roamingdeviceprofiledeveui", .string),
    (b!"address", .enum [] (some [(b!"Id", b!"AccountId"), (b!"Index", b!"Compact<AccountIndex>"), (b!"Raw", b!"Bytes"), (b!"Address32", b!"H256"), (b!"Address20", b!"H160")])),
    (b!"lookupsource", .enum [] (some [(b!"Id", b!"AccountId"), (b!"Index", b!"Compact<AccountIndex>"), (b!"Raw", b!"Bytes"), (b!"Address32", b!"H256"), (b!"Address20", b!"H160")])),
    (b!"miningconfigtokenconfig", .struct (some [(b!"token_type", b!"Text"), (b!"token_lock_amount", b!"u64"), (b!"token_lock_start_block", b!"Moment"), (b!"token_lock_interval_blocks", b!"Moment")])),
    (b!"roamingagreementpolicyindex", .u64),
    (b!"miningexecutiontoken", .fixedU8 16),
    (b!"roamingdeviceprofiledevaddr", .string),
    (b!"miningeligibilitytokenlockedpercentage", .u32),
    (b!"roamingpacketbundleindex", .u64),
    (b!"miningeligibilitytokenauditoraccountid", .u64),
    (b!"miningratestokenindex", .u64),
    (b!"miningrateshardwareconfig", .struct (some [(b!"hardware_hardware_secure", b!"u32"), (b!"hardware_hardware_insecure", b!"u32"), (b!"hardware_max_hardware", b!"u32"), (b!"hardware_category_1_max_token_bonus_per_gateway", b!"u32"), (b!"hardware_category_2_max_token_bonus_per_gateway", b!"u32"), (b!"hardware_category_3_max_token_bonus_per_gateway", b!"u32")])),
    (b!"miningconfighardwareindex", .u64),
    (b!"miningratestoken", .fixedU8 16),
    (b!"roamingoperatorindex", .u64),
    (b!"roamingnetworkprofileindex", .u64),
    (b!"roamingchargingpolicyconfig", .struct (some [(b!"policy_next_charging_at_block", b!"Moment"), (b!"policy_delay_after_billing_in_blocks", b!"u64")])),
    (b!"roamingserviceprofile", .fixedU8 16),
    (b!"miningclaimstokenindex", .u64),
    (b!"miningeligibilitytokencalculatedeligibility", .u64),
    (b!"roamingdeviceindex", .u64),
    (b!"roamingaccountingpolicyconfig", .struct (some [(b!"policy_type", b!"Text"), (b!"subscription_fee", b!"Balance"), (b!"uplink_fee_factor", b!"u32"), (b!"downlink_fee_factor", b!"u32")])),
    (b!"miningeligibilityhardware", .fixedU8 16),
    (b!"miningrateshardwaremaxhardware", .u32),
    (b!"roamingaccountingpolicyindex", .u64),
    (b!"roamingpacketbundle", .fixedU8 16),
    (b!"miningclaimshardware", .fixedU8 16),
    (b!"miningeligibilityhardwareresult", .struct (some [(b!"hardware_calculated_eligibility", b!"u64"), (b!"hardware_uptime_percentage", b!"u32"), (b!"hardware_block_audited", b!"Moment"), (b!"hardware_auditor_account_id", b!"u64")])),
    (b!"miningrateshardwarecategory1maxtokenbonuspergateway", .u32),
    (b!"miningeligibilityhardwareindex", .u64),
    (b!"roamingpacketbundlereceivedathome", .bool),
    (b!"roamingdeviceprofilejoineui", .string),
    (b!"miningclaimshardwareclaimamount", .u64),
    (b!"roamingroutingprofileappserver", .string),
    (b!"miningratestokentokenmxc", .u32),
    (b!"miningconfighardwaresecure", .bool),
    (b!"roamingsessionindex", .u64),
    (b!"roamingserviceprofileindex", .u64),
    (b!"miningconfigtokenlockamount", .u64),
    (b!"miningeligibilitytokenindex", .u64),
    (b!"roamingbillingpolicyconfig", .struct (some [(b!"policy_next_billing_at_block", b!"Moment"), (b!"policy_frequency_in_blocks", b!"Moment")])),
    (b!"roamingsession", .fixedU8 16),
    (b!"roamingdeviceprofile", .fixedU8 16),
    (b!"exchangerateconfig", .struct (some [(b!"hbtc", b!"u64"), (b!"dot", b!"u64"), (b!"iota", b!"u64"), (b!"fil", b!"u64"), (b!"decimals_after_point", b!"u32")])),
    (b!"roamingdeviceprofilevendorid", .string),
    (b!"roamingserviceprofileuplinkrate", .u32),
    (b!"miningsamplingtokenconfig", .struct (some [(b!"token_sample_block", b!"Moment"), (b!"token_sample_locked_amount", b!"u64")])),
    (b!"miningsamplinghardware", .fixedU8 16),
    (b!"miningconfigtokenrequirementsconfig", .struct (some [(b!"token_type", b!"Text"), (b!"token_lock_min_amount", b!"u64"), (b!"token_lock_min_blocks", b!"u32")])),
    (b!"miningratestokenmaxtoken", .u32),
    (b!"hbtcrate", .u64),
    (b!"miningclaimshardwareindex", .u64),
    (b!"miningsamplingtoken", .fixedU8 16),
    (b!"miningconfighardwaretype", .string),
    (b!"miningclaimstokenclaimresult", .struct (some [(b!"token_claim_amount", b!"u64"), (b!"token_claim_block_redeemed", b!"u64")])),
    (b!"miningeligibilitytoken", .fixedU8 16),
    (b!"miningratestokentokendot", .u32),
    (b!"miningsamplinghardwareindex", .u64),
    (b!"miningeligibilityhardwarecalculatedeligibility", .u64),
    (b!"iotarate", .u64),
    (b!"dotrate", .u64),
    (b!"miningrateshardwaresecure", .u32),
    (b!"miningconfigtoken", .fixedU8 16),
    (b!"roamingserviceprofiledownlinkrate", .u32),
    (b!"miningratestokentokeniota", .u32),
    (b!"miningconfighardwareid", .u64),
    (b!"miningconfighardwareconfig", .struct (some [(b!"hardware_secure", b!"bool"), (b!"hardware_type", b!"Text"), (b!"hardware_id", b!"u64"), (b!"hardware_dev_eui", b!"u64"), (b!"hardware_lock_start_block", b!"Moment"), (b!"hardware_lock_interval_blocks", b!"Moment")])),
    (b!"miningclaimstokenclaimamount", .u64),
    (b!"miningrateshardwarecategory2maxtokenbonuspergateway", .u32),
    (b!"miningexecutiontokenexecutoraccountid", .u64),
    (b!"miningrateshardwareinsecure", .u32),
    (b!"miningeligibilityhardwareuptimepercentage", .u32),
    (b!"filrate", .u64),
    (b!"miningconfighardwaredeveui", .u64),
    (b!"miningratestokenconfig", .struct (some [(b!"token_token_mxc", b!"u32"), (b!"token_token_iota", b!"u32"), (b!"token_token_dot", b!"u32"), (b!"token_max_token", b!"u32"), (b!"token_max_loyalty", b!"u32")])),
    (b!"miningsamplinghardwareconfig", .struct (some [(b!"hardware_sample_block", b!"Moment"), (b!"hardware_sample_hardware_online", b!"bool")])),
    (b!"miningratestokenmaxloyalty", .u32),
    (b!"miningsamplingtokenindex", .u64),
    (b!"miningexecutiontokenexecutionresult", .struct (some [(b!"token_execution_exector_account_id", b!"u64"), (b!"token_execution_started_block", b!"Moment"), (b!"token_execution_ended_block", b!"Moment")])),
    (b!"miningexecutiontokenindex", .u64),
    (b!"miningeligibilitytokenresult", .struct (some [(b!"token_calculated_eligibility", b!"u64"), (b!"token_token_locked_percentage", b!"u32"), (b!"token_date_audited", b!"Moment"), (b!"token_auditor_account_id", b!"u64")])),
    (b!"miningrateshardwareindex", .u64),
    (b!"miningrateshardware", .fixedU8 16),
    (b!"miningsamplinghardwaresamplehardwareonline", .u64),
    (b!"exchangerateindex", .u64),
    (b!"miningsamplingtokensamplelockedamount", .u64),
    (b!"miningclaimshardwareclaimresult", .struct (some [(b!"hardware_claim_amount", b!"u64"), (b!"hardware_claim_block_redeemed", b!"u64")])),
    (b!"miningconfighardware", .fixedU8 16),
    (b!"weight", .u64),
    (b!"compactassignments", .struct (some [(b!"votes1", b!"Vec<(NominatorIndexCompact, ValidatorIndexCompact)>"), (b!"votes2", b!"Vec<(NominatorIndexCompact, CompactScoreCompact, ValidatorIndexCompact)>"), (b!"votes3", b!"Vec<(NominatorIndexCompact, [CompactScoreCompact; 2], ValidatorIndexCompact)>"), (b!"votes4", b!"Vec<(NominatorIndexCompact, [CompactScoreCompact; 3], ValidatorIndexCompact)>"), (b!"votes5", b!"Vec<(NominatorIndexCompact, [CompactScoreCompact; 4], ValidatorIndexCompact)>"), (b!"votes6", b!"Vec<(NominatorIndexCompact, [CompactScoreCompact; 5], ValidatorIndexCompact)>"), (b!"votes7", b!"Vec<(NominatorIndexCompact, [CompactScoreCompact; 6], ValidatorIndexCompact)>"), (b!"votes8", b!"Vec<(NominatorIndexCompact, [CompactScoreCompact; 7], ValidatorIndexCompact)>"), (b!"votes9", b!"Vec<(NominatorIndexCompact, [CompactScoreCompact; 8], ValidatorIndexCompact)>"), (b!"votes10", b!"Vec<(NominatorIndexCompact, [CompactScoreCompact; 9], ValidatorIndexCompact)>"), (b!"votes11", b!"Vec<(NominatorIndexCompact, [CompactScoreCompact; 10], ValidatorIndexCompact)>"), (b!"votes12", b!"Vec<(NominatorIndexCompact, [CompactScoreCompact; 11], ValidatorIndexCompact)>"), (b!"votes13", b!"Vec<(NominatorIndexCompact, [CompactScoreCompact; 12], ValidatorIndexCompact)>"), (b!"votes14", b!"Vec<(NominatorIndexCompact, [CompactScoreCompact; 13], ValidatorIndexCompact)>"), (b!"votes15", b!"Vec<(NominatorIndexCompact, [CompactScoreCompact; 14], ValidatorIndexCompact)>"), (b!"votes16", b!"Vec<(NominatorIndexCompact, [CompactScoreCompact; 15], ValidatorIndexCompact)>")])),
    (b!"refcount", .u32),
    (b!"dispatchresult", .enum [] (some [(b!"Ok", b!"Null"), (b!"Error", b!"DispatchError")])),
    (b!"miningspeedboostconfigurationtokenminingtokenlockperiod", .u32),
    (b!"miningspeedboostlodgementstokenmininglodgementresult", .struct (some [(b!"token_claim_amount", b!"u64"), (b!"token_date_redeemed", b!"u64")])),
    (b!"roamingchargingpolicydelayafterbillingindays", .u64),
    (b!"miningspeedboostratestokenminingtokendot", .u32),
    (b!"miningspeedboostconfigurationhardwaremininghardwareconfig", .struct (some [(b!"hardware_secure", b!"bool"), (b!"hardware_type", b!"Text"), (b!"hardware_id", b!"u64"), (b!"hardware_dev_eui", b!"u64"), (b!"hardware_lock_period_start_date", b!"Moment"), (b!"hardware_lock_period_end_date", b!"Moment")])),
    (b!"miningspeedboostlodgementstokenminingindex", .u64),
    (b!"miningspeedboosteligibilitytokenminingindex", .u64),
    (b!"miningspeedboostrateshardwaremininghardwaresecure", .u32),
    (b!"miningspeedboostconfigurationhardwaremininghardwarelockperiodenddate", .u64),
    (b!"miningspeedboostconfigurationtokenminingindex", .u64),
    (b!"miningspeedboostrateshardwareminingindex", .u64),
    (b!"miningspeedboostratestokenminingtokenmxc", .u32),
    (b!"miningspeedboostconfigurationhardwaremininghardwareid", .u64),
    (b!"roamingpacketbundlereceivedstartedat", .moment),
    (b!"miningspeedboostlodgementstokenmininglodgementamount", .u64),
    (b!"miningspeedboostconfigurationhardwaremining", .fixedU8 16),
    (b!"miningspeedboostconfigurationtokenminingtokenlockedamount", .u64),
    (b!"miningspeedboostsamplinghardwareminingsamplingconfig", .struct (some [(b!"hardware_sample_date", b!"Moment"), (b!"hardware_sample_hardware_online", b!"bool")])),
    (b!"miningspeedboostrateshardwaremining", .fixedU8 16),
    (b!"roamingchargingpolicynextchargingat", .moment),
    (b!"miningspeedboostconfigurationtokenminingtokenlockperiodenddate", .u64),
    (b!"miningspeedboosteligibilityhardwareminingauditoraccountid", .u64),
    (b!"miningspeedboostsamplingtokenminingindex", .u64),
    (b!"miningspeedboostconfigurationhardwaremininghardwaresecure", .bool),
    (b!"miningspeedboostlodgementshardwaremininglodgementresult", .struct (some [(b!"hardware_claim_amount", b!"u64"), (b!"hardware_date_redeemed", b!"u64")])),
    (b!"miningspeedboostlodgementstokenmining", .fixedU8 16),
    (b!"miningspeedboostconfigurationhardwaremininghardwaredeveui", .u64),
    (b!"miningspeedboostsamplingtokenminingsampledate", .u64),
    (b!"miningspeedboostconfigurationtokenmining", .fixedU8 16),
    (b!"miningspeedboosteligibilitytokenminingcalculatedeligibility", .u64),
    (b!"miningspeedboostconfigurationtokenminingtokentype", .string),
    (b!"miningspeedboostrateshardwaremininghardwareinsecure", .u32),
    (b!"miningspeedboostconfigurationhardwaremininghardwarelockperiodstartdate", .u64),
    (b!"roamingaccountingpolicydownlinkfeefactor", .u32),
    (b!"roamingoperator", .fixedU8 16),
    (b!"miningspeedboostrateshardwareminingmaxhardware", .u32),
    (b!"roamingsessionjoinrequest", .struct (some [(b!"session_network_server_id", b!"Moment"), (b!"session_join_request_requested_at", b!"Moment")])),
    (b!"roamingsessionjoinrequestrequestedat", .moment),
    (b!"miningspeedboosteligibilityhardwaremining", .fixedU8 16),
    (b!"miningspeedboosteligibilitytokenminingtokenlockedpercentage", .u32),
    (b!"roamingaccountingpolicy", .fixedU8 16),
    (b!"roamingsessionjoinrequestacceptacceptedat", .moment),
    (b!"miningspeedboostsamplinghardwareminingsamplehardwareonline", .u64),
    (b!"roamingroutingprofileindex", .u64),
    (b!"roamingagreementpolicy", .fixedU8 16),
    (b!"roamingchargingpolicy", .fixedU8 16),
    (b!"roamingbillingpolicynextbillingat", .moment),
    (b!"miningspeedboosteligibilitytokenminingdateaudited", .u64),
    (b!"keys", .struct (some [(b!"col1", b!"AccountId"), (b!"col2", b!"AccountId")])),
    (b!"roamingdeviceprofileindex", .u64),
    (b!"miningspeedboosteligibilityhardwaremininghardwareuptimepercentage", .u32),
    (b!"roamingbillingpolicyfrequencyindays", .u64),
    (b!"roamingnetwork", .fixedU8 16),
    (b!"miningspeedboostrateshardwareminingratesconfig", .struct (some [(b!"hardware_hardware_secure", b!"u32"), (b!"hardware_hardware_insecure", b!"u32"), (b!"hardware_max_hardware", b!"u32")])),
    (b!"miningspeedboostratestokenminingmaxtoken", .u32),
    (b!"miningspeedboostratestokenminingmaxloyalty", .u32),
    (b!"miningspeedboostratestokenminingtokeniota", .u32),
    (b!"roamingdevice", .fixedU8 16),
    (b!"miningspeedboostsamplingtokenmining", .fixedU8 16),
    (b!"miningspeedboostratestokenminingindex", .u64),
    (b!"roamingbillingpolicy", .fixedU8 16),
    (b!"roamingaccountingpolicyuplinkfeefactor", .u32),
    (b!"miningspeedboostlodgementshardwaremininglodgementdateredeemed", .u64),
    (b!"roamingbillingpolicyindex", .u64),
    (b!"miningspeedboostlodgementshardwareminingindex", .u64),
    (b!"roamingpacketbundlereceivedpacketsokcount", .u64),
    (b!"roamingnetworkprofile", .fixedU8 16),
    (b!"miningspeedboosteligibilityhardwareminingindex", .u64),
    (b!"roamingagreementpolicyactivationtype", .string),
    (b!"miningspeedboostratestokenminingratesconfig", .struct (some [(b!"token_token_mxc", b!"u32"), (b!"token_token_iota", b!"u32"), (b!"token_token_dot", b!"u32"), (b!"token_max_token", b!"u32"), (b!"token_max_loyalty", b!"u32")])),
    (b!"miningspeedboosteligibilityhardwareminingeligibilityresult", .struct (some [(b!"hardware_calculated_eligibility", b!"u64"), (b!"hardware_hardware_uptime_percentage", b!"u32"), (b!"hardware_date_audited", b!"u64"), (b!"hardware_auditor_account_id", b!"u64")])),
    (b!"roamingpacketbundlereceivedendedat", .moment),
    (b!"roamingaccountingpolicytype", .string),
    (b!"roamingdeviceprofileconfig", .struct (some [(b!"device_profile_devaddr", b!"Text"), (b!"device_profile_deveui", b!"Text"), (b!"device_profile_joineui", b!"Text"), (b!"device_profile_vendorid", b!"Text")])),
    (b!"miningspeedboostconfigurationhardwareminingindex", .u64),
    (b!"miningspeedboostconfigurationtokenminingtokenlockperiodstartdate", .u64),
    (b!"miningspeedboostlodgementshardwaremininglodgementamount", .u64),
    (b!"miningspeedboosteligibilitytokenmining", .fixedU8 16),
    (b!"roamingnetworkserverindex", .u64),
    (b!"miningspeedboostsamplingtokenminingsamplingconfig", .struct (some [(b!"token_sample_date", b!"Moment"), (b!"token_sample_tokens_locked", b!"u64")])),
    (b!"miningspeedboostsamplinghardwaremining", .fixedU8 16),
    (b!"miningspeedboostlodgementstokenmininglodgementdateredeemed", .u64),
    (b!"roamingagreementpolicyexpiry", .moment),
    (b!"miningspeedboostsamplingtokenminingsampletokenslocked", .u64),
    (b!"miningspeedboosteligibilitytokenminingauditoraccountid", .u64),
    (b!"miningspeedboostconfigurationtokenminingtokenconfig", .struct (some [(b!"token_type", b!"Text"), (b!"token_locked_amount", b!"u64"), (b!"token_lock_period", b!"u32"), (b!"token_lock_period_start_date", b!"Moment"), (b!"token_lock_period_end_date", b!"Moment")])),
    (b!"miningspeedboosteligibilitytokenminingeligibilityresult", .struct (some [(b!"token_calculated_eligibility", b!"u64"), (b!"token_token_locked_percentage", b!"u32"), (b!"token_date_audited", b!"u64"), (b!"token_auditor_account_id", b!"u64")])),
    (b!"roamingpacketbundleexternaldatastoragehash", .hash 32),
    (b!"miningspeedboosteligibilityhardwareminingdateaudited", .u64),
    (b!"miningspeedboostconfigurationhardwaremininghardwaretype", .string),
    (b!"roamingsessionjoinrequestacceptexpiry", .moment),
    (b!"roamingagreementpolicyconfig", .struct (some [(b!"policy_activation_type", b!"Text"), (b!"policy_expiry", b!"u64")])),
    (b!"miningspeedboostlodgementshardwaremining", .fixedU8 16),
    (b!"roamingnetworkindex", .u64),
    (b!"roamingsessionjoinaccept", .struct (some [(b!"session_join_request_accept_expiry", b!"Moment"), (b!"session_join_request_accept_accepted_at", b!"Moment")])),
    (b!"miningspeedboostsamplinghardwareminingindex", .u64),
    (b!"roamingnetworkserver", .fixedU8 16),
    (b!"roamingpacketbundlereceiver", .struct (some [(b!"packet_bundle_received_at_home", b!"bool"), (b!"packet_bundle_received_packets_count", b!"u64"), (b!"packet_bundle_received_packets_ok_count", b!"u64"), (b!"packet_bundle_received_started_at", b!"Moment"), (b!"packet_bundle_received_ended_at", b!"Moment"), (b!"packet_bundle_external_data_storage_hash", b!"Hash")])),
    (b!"miningspeedboostratestokenmining", .fixedU8 16),
    (b!"miningspeedboosteligibilityhardwareminingcalculatedeligibility", .u64),
    (b!"miningspeedboostsamplinghardwareminingsampledate", .u64),
    (b!"accountinfo", .struct (some [(b!"nonce", b!"Index"), (b!"consumers", b!"RefCount"), (b!"providers", b!"RefCount"), (b!"data", b!"AccountData")])) ]

/-- Classes of the names of network/datahighway.json. -/
def datahighway : List (Str × Cls) :=
  [ (b!"weight", .u64),
    (b!"compactassignments", .struct (some [(b!"votes1", b!"Vec<(NominatorIndexCompact, ValidatorIndexCompact)>"), (b!"votes2", b!"Vec<(NominatorIndexCompact, CompactScoreCompact, ValidatorIndexCompact)>"), (b!"votes3", b!"Vec<(NominatorIndexCompact, [CompactScoreCompact; 2], ValidatorIndexCompact)>"), (b!"votes4", b!"Vec<(NominatorIndexCompact, [CompactScoreCompact; 3], ValidatorIndexCompact)>"), (b!"votes5", b!"Vec<(NominatorIndexCompact, [CompactScoreCompact; 4], ValidatorIndexCompact)>"), (b!"votes6", b!"Vec<(NominatorIndexCompact, [CompactScoreCompact; 5], ValidatorIndexCompact)>"), (b!"votes7", b!"Vec<(NominatorIndexCompact, [CompactScoreCompact; 6], ValidatorIndexCompact)>"), (b!"votes8", b!"Vec<(NominatorIndexCompact, [CompactScoreCompact; 7], ValidatorIndexCompact)>"), (b!"votes9", b!"Vec<(NominatorIndexCompact, [CompactScoreCompact; 8], ValidatorIndexCompact)>"), (b!"votes10", b!"Vec<(NominatorIndexCompact, [CompactScoreCompact; 9], ValidatorIndexCompact)>"), (b!"votes11", b!"Vec<(NominatorIndexCompact, [CompactScoreCompact; 10], ValidatorIndexCompact)>"), (b!"votes12", b!"Vec<(NominatorIndexCompact, [CompactScoreCompact; 11], ValidatorIndexCompact)>"), (b!"votes13", b!"Vec<(NominatorIndexCompact, [CompactScoreCompact; 12], ValidatorIndexCompact)>"), (b!"votes14", b!"Vec<(NominatorIndexCompact, [CompactScoreCompact; 13], ValidatorIndexCompact)>"), (b!"votes15", b!"Vec<(NominatorIndexCompact, [CompactScoreCompact; 14], ValidatorIndexCompact)>"), (b!"votes16", b!"Vec<(NominatorIndexCompact, [CompactScoreCompact; 15], ValidatorIndexCompact)>")])),
    (b!"refcount", .u32),
    (b!"dispatchresult", .enum [] (some [(b!"Ok", b!"Null"), (b!"Error", b!"DispatchError")])),
    (b!"roamingchargingpolicyindex", .u64),
    (b!"miningrateshardwarecategory3maxtokenbonuspergateway", .u32),
    (b!"roamingorganizationindex", .u64),
    (b!"miningeligibilityhardwareauditoraccountid", .u64),
    (b!"roamingorganization", .fixedU8 16),
    (b!"dotrate", .u64),
    (b!"roamingroutingprofile", .fixedU8 16),
    (b!"roamingaccountingpolicyindex", .u64),
    (b!"roamingagreementpolicysetting", .struct (some [(b!"policy_activation_type", b!"Text"), (b!"policy_expiry_block", b!"Moment")])),
    (b!"decimalsafterpoint", .u32),
    (b!"roamingpacketbundlereceivedpacketscount", .u64),
    (b!"requestordata", .struct (some [(b!"mining_eligibility_proxy_id", b!"MiningEligibilityProxyIndex"), (b!"total_amt", b!"Balance"), (b!"rewardee_count", b!"u64"), (b!"member_kind", b!"u32"), (b!"requested_date", b!"Moment")])),
    (b!"roamingdeviceprofiledeveui", .string),
    (b!"miningsettinghardware", .fixedU8 16),
    (b!"roamingagreementpolicyindex", .u64),
    (b!"miningexecutiontoken", .fixedU8 16),
    (b!"roamingdeviceprofiledevaddr", .string),
    (b!"miningeligibilitytokenlockedpercentage", .u32),
    (b!"roamingpacketbundleindex", .u64),
    (b!"miningeligibilitytokenauditoraccountid", .u64),
    (b!"miningratestokenindex", .u64),
    (b!"roamingbillingpolicysetting", .struct (some [(b!"policy_next_billing_at_block", b!"Moment"), (b!"policy_frequency_in_blocks", b!"Moment")])),
    (b!"miningratestoken", .fixedU8 16),
    (b!"roamingoperatorindex", .u64),
    (b!"miningsettingtokenlockamount", .u64),
    (b!"roamingsessionjoinaccept", .struct (some [(b!"session_join_request_accept_expiry", b!"Moment"), (b!"session_join_request_accept_accepted_at_block", b!"Moment")])),
    (b!"dailydata", .struct (some [(b!"mining_eligibility_proxy_id", b!"MiningEligibilityProxyIndex"), (b!"total_amt", b!"Balance"), (b!"proxy_claim_requestor_account_id", b!"AccountId"), (b!"member_kind", b!"u32"), (b!"rewarded_date", b!"Date")])),
    (b!"roamingserviceprofile", .fixedU8 16),
    (b!"miningclaimstokenindex", .u64),
    (b!"miningeligibilitytokencalculatedeligibility", .u64),
    (b!"roamingdeviceindex", .u64),
    (b!"miningeligibilityproxyclaimrewardeedata", .struct (some [(b!"proxy_claim_rewardee_account_id", b!"AccountId"), (b!"proxy_claim_reward_amount", b!"Balance"), (b!"proxy_claim_start_date", b!"Date"), (b!"proxy_claim_end_date", b!"Date")])),
    (b!"miningeligibilityhardware", .fixedU8 16),
    (b!"miningrateshardwaremaxhardware", .u32),
    (b!"roamingpacketbundle", .fixedU8 16),
    (b!"miningclaimshardware", .fixedU8 16),
    (b!"roamingchargingpolicysetting", .struct (some [(b!"policy_next_charging_at_block", b!"Moment"), (b!"policy_delay_after_billing_in_blocks", b!"u64")])),
    (b!"miningeligibilityhardwareresult", .struct (some [(b!"hardware_calculated_eligibility", b!"u64"), (b!"hardware_uptime_percentage", b!"u32"), (b!"hardware_block_audited", b!"Moment"), (b!"hardware_auditor_account_id", b!"u64")])),
    (b!"miningrateshardwarecategory1maxtokenbonuspergateway", .u32),
    (b!"miningeligibilityhardwareindex", .u64),
    (b!"roamingpacketbundlereceivedathome", .bool),
    (b!"roamingdeviceprofilejoineui", .string),
    (b!"exchangeratesetting", .struct (some [(b!"hbtc", b!"u64"), (b!"dot", b!"u64"), (b!"iota", b!"u64"), (b!"fil", b!"u64"), (b!"decimals_after_point", b!"u32")])),
    (b!"miningclaimshardwareclaimamount", .u64),
    (b!"roamingroutingprofileappserver", .string),
    (b!"miningratestokentokenmxc", .u32),
    (b!"miningclaimstoken", .fixedU8 16),
    (b!"roamingsessionindex", .u64),
    (b!"roamingserviceprofileindex", .u64),
    (b!"miningeligibilitytokenindex", .u64),
    (b!"roamingsession", .fixedU8 16),
    (b!"roamingdeviceprofile", .fixedU8 16),
    (b!"rewardtransferdata", .struct (some [(b!"mining_eligibility_proxy_id", b!"MiningEligibilityProxyIndex"), (b!"is_sent", b!"bool"), (b!"total_amt", b!"Balance"), (b!"rewardee_count", b!"u64"), (b!"member_kind", b!"u32"), (b!"requested_date", b!"Moment")])),
    (b!"roamingdeviceprofilevendorid", .string),
    (b!"transferdata", .struct (some [(b!"mining_eligibility_proxy_id", b!"MiningEligibilityProxyIndex"), (b!"is_sent", b!"bool"), (b!"total_amt", b!"Balance"), (b!"rewardee_count", b!"u64"), (b!"member_kind", b!"u32"), (b!"requested_date", b!"Moment")])),
    (b!"roamingserviceprofileuplinkrate", .u32),
    (b!"roamingchargingpolicy", .fixedU8 16),
    (b!"roamingdeviceprofilesetting", .struct (some [(b!"device_profile_devaddr", b!"Text"), (b!"device_profile_deveui", b!"Text"), (b!"device_profile_joineui", b!"Text"), (b!"device_profile_vendorid", b!"Text")])),
    (b!"roamingdevice", .fixedU8 16),
    (b!"roamingaccountingpolicydownlinkfeefactor", .u32),
    (b!"miningsettinghardwareid", .u64),
    (b!"miningsamplinghardware", .fixedU8 16),
    (b!"miningsamplinghardwaresetting", .struct (some [(b!"hardware_sample_block", b!"Moment"), (b!"hardware_sample_hardware_online", b!"bool")])),
    (b!"roamingnetworkprofileindex", .u64),
    (b!"rewardeedata", .struct (some [(b!"proxy_claim_rewardee_account_id", b!"AccountId"), (b!"proxy_claim_reward_amount", b!"Balance"), (b!"proxy_claim_start_date", b!"Date"), (b!"proxy_claim_end_date", b!"Date")])),
    (b!"miningsettingtokenrequirementssetting", .struct (some [(b!"token_type", b!"Text"), (b!"token_lock_min_amount", b!"u64"), (b!"token_lock_min_blocks", b!"u32")])),
    (b!"roamingoperator", .fixedU8 16),
    (b!"miningrateshardwaresetting", .struct (some [(b!"hardware_hardware_secure", b!"u32"), (b!"hardware_hardware_insecure", b!"u32"), (b!"hardware_max_hardware", b!"u32"), (b!"hardware_category_1_max_token_bonus_per_gateway", b!"u32"), (b!"hardware_category_2_max_token_bonus_per_gateway", b!"u32"), (b!"hardware_category_3_max_token_bonus_per_gateway", b!"u32")])),
    (b!"miningratestokenmaxtoken", .u32),
    (b!"roamingsessionjoinrequest", .struct (some [(b!"session_network_server_id", b!"Moment"), (b!"session_join_requested_at_block", b!"Moment")])),
    (b!"hbtcrate", .u64),
    (b!"roamingpacketbundlereceivedpacketsokcount", .u64),
    (b!"roamingaccountingpolicysetting", .struct (some [(b!"policy_type", b!"Text"), (b!"subscription_fee", b!"Balance"), (b!"uplink_fee_factor", b!"u32"), (b!"downlink_fee_factor", b!"u32")])),
    (b!"miningclaimshardwareindex", .u64),
    (b!"miningsamplingtoken", .fixedU8 16),
    (b!"miningclaimstokenclaimresult", .struct (some [(b!"token_claim_amount", b!"u64"), (b!"token_claim_block_redeemed", b!"u64")])),
    (b!"roamingaccountingpolicy", .fixedU8 16),
    (b!"roamingroutingprofileindex", .u64),
    (b!"roamingagreementpolicy", .fixedU8 16),
    (b!"miningeligibilitytoken", .fixedU8 16),
    (b!"miningclaimstokenclaimamount", .u64),
    (b!"miningeligibilityproxyindex", .u64),
    (b!"keys", .struct (some [(b!"col1", b!"AccountId"), (b!"col2", b!"AccountId")])),
    (b!"miningratestokentokendot", .u32),
    (b!"roamingdeviceprofileindex", .u64),
    (b!"date", .intFixed 8),
    (b!"miningsamplinghardwareindex", .u64),
    (b!"roamingnetwork", .fixedU8 16),
    (b!"miningsettingtokentype", .string),
    (b!"miningeligibilityhardwarecalculatedeligibility", .u64),
    (b!"miningsettingtokensetting", .struct (some [(b!"token_type", b!"Text"), (b!"token_lock_amount", b!"u64"), (b!"token_lock_start_block", b!"Moment"), (b!"token_lock_interval_blocks", b!"Moment")])),
    (b!"iotarate", .u64),
    (b!"roamingbillingpolicy", .fixedU8 16),
    (b!"roamingaccountingpolicyuplinkfeefactor", .u32),
    (b!"miningsettinghardwaresecure", .bool),
    (b!"roamingbillingpolicyindex", .u64),
    (b!"miningrateshardwaresecure", .u32),
    (b!"rewardrequestordata", .struct (some [(b!"mining_eligibility_proxy_id", b!"MiningEligibilityProxyIndex"), (b!"total_amt", b!"Balance"), (b!"rewardee_count", b!"u64"), (b!"member_kind", b!"u32"), (b!"requested_date", b!"Moment")])),
    (b!"roamingnetworkprofile", .fixedU8 16),
    (b!"roamingagreementpolicyactivationtype", .string),
    (b!"roamingserviceprofiledownlinkrate", .u32),
    (b!"miningsettinghardwaresetting", .struct (some [(b!"hardware_secure", b!"bool"), (b!"hardware_type", b!"Text"), (b!"hardware_id", b!"u64"), (b!"hardware_dev_eui", b!"u64"), (b!"hardware_lock_start_block", b!"Moment"), (b!"hardware_lock_interval_blocks", b!"Moment")])),
    (b!"miningratestokentokeniota", .u32),
    (b!"roamingaccountingpolicytype", .string),
    (b!"miningsettingtokenindex", .u64),
    (b!"miningrateshardwarecategory2maxtokenbonuspergateway", .u32),
    (b!"miningexecutiontokenexecutoraccountid", .u64),
    (b!"miningrateshardwareinsecure", .u32),
    (b!"miningeligibilityhardwareuptimepercentage", .u32),
    (b!"filrate", .u64),
    (b!"roamingnetworkserverindex", .u64),
    (b!"accountinfo", .struct (some [(b!"nonce", b!"Index"), (b!"consumers", b!"RefCount"), (b!"providers", b!"RefCount"), (b!"data", b!"AccountData")])),
    (b!"miningsamplingtokensetting", .struct (some [(b!"token_sample_block", b!"Moment"), (b!"token_sample_locked_amount", b!"u64")])),
    (b!"address", .enum [] (some [(b!"Id", b!"AccountId"), (b!"Index", b!"Compact<AccountIndex>"), (b!"Raw", b!"Bytes"), (b!"Address32", b!"H256"), (b!"Address20", b!"H160")])),
    (b!"miningratestokenmaxloyalty", .u32),
    (b!"miningeligibilityproxyrewardrequest", .struct (some [(b!"proxy_claim_requestor_account_id", b!"AccountId"), (b!"proxy_claim_total_reward_amount", b!"Balance"), (b!"proxy_claim_timestamp_redeemed", b!"Moment")])),
    (b!"lookupsource", .enum [] (some [(b!"Id", b!"AccountId"), (b!"Index", b!"Compact<AccountIndex>"), (b!"Raw", b!"Bytes"), (b!"Address32", b!"H256"), (b!"Address20", b!"H160")])),
    (b!"miningsamplingtokenindex", .u64),
    (b!"miningexecutiontokenexecutionresult", .struct (some [(b!"token_execution_exector_account_id", b!"u64"), (b!"token_execution_started_block", b!"Moment"), (b!"token_execution_ended_block", b!"Moment")])),
    (b!"roamingpacketbundleexternaldatastoragehash", .hash 32),
    (b!"miningexecutiontokenindex", .u64),
    (b!"miningeligibilitytokenresult", .struct (some [(b!"token_calculated_eligibility", b!"u64"), (b!"token_token_locked_percentage", b!"u32"), (b!"token_date_audited", b!"Moment"), (b!"token_auditor_account_id", b!"u64")])),
    (b!"miningrateshardwareindex", .u64),
    (b!"miningrateshardware", .fixedU8 16),
    (b!"miningeligibilityproxy", .fixedU8 16),
    (b!"miningsettinghardwaretype", .string),
    (b!"rewarddailydata", .struct (some [(b!"mining_eligibility_proxy_id", b!"MiningEligibilityProxyIndex"), (b!"total_amt", b!"Balance"), (b!"proxy_claim_requestor_account_id", b!"AccountId"), (b!"member_kind", b!"u32"), (b!"rewarded_date", b!"Date")])),
    (b!"roamingnetworkindex", .u64),
    (b!"miningsettinghardwaredeveui", .u64),
    (b!"miningclaimshardwareclaimresult", .struct (some [(b!"hardware_claim_amount", b!"u64"), (b!"hardware_claim_block_redeemed", b!"u64")])),
    (b!"miningsamplinghardwaresamplehardwareonline", .u64),
    (b!"exchangerateindex", .u64),
    (b!"miningsamplingtokensamplelockedamount", .u64),
    (b!"roamingnetworkserver", .fixedU8 16),
    (b!"roamingpacketbundlereceiver", .struct (some [(b!"packet_bundle_received_at_home", b!"bool"), (b!"packet_bundle_received_packets_count", b!"u64"), (b!"packet_bundle_received_packets_ok_count", b!"u64"), (b!"packet_bundle_received_started_at_block", b!"Moment"), (b!"packet_bundle_received_ended_at_block", b!"Moment"), (b!"packet_bundle_external_data_storage_hash", b!"Hash")])),
    (b!"miningsettingtoken", .fixedU8 16),
    (b!"miningsettinghardwareindex", .u64),
    (b!"miningratestokensetting", .struct (some [(b!"token_token_mxc", b!"u32"), (b!"token_token_iota", b!"u32"), (b!"token_token_dot", b!"u32"), (b!"token_max_token", b!"u32"), (b!"token_max_loyalty", b!"u32")])) ]

/-- Classes of the names of network/deepbrain.json. -/
def deepbrain : List (Str × Cls) :=
  [ (b!"weight", .u64),
    (b!"compactassignments", .struct (some [(b!"votes1", b!"Vec<(NominatorIndexCompact, ValidatorIndexCompact)>"), (b!"votes2", b!"Vec<(NominatorIndexCompact, CompactScoreCompact, ValidatorIndexCompact)>"), (b!"votes3", b!"Vec<(NominatorIndexCompact, [CompactScoreCompact; 2], ValidatorIndexCompact)>"), (b!"votes4", b!"Vec<(NominatorIndexCompact, [CompactScoreCompact; 3], ValidatorIndexCompact)>"), (b!"votes5", b!"Vec<(NominatorIndexCompact, [CompactScoreCompact; 4], ValidatorIndexCompact)>"), (b!"votes6", b!"Vec<(NominatorIndexCompact, [CompactScoreCompact; 5], ValidatorIndexCompact)>"), (b!"votes7", b!"Vec<(NominatorIndexCompact, [CompactScoreCompact; 6], ValidatorIndexCompact)>"), (b!"votes8", b!"Vec<(NominatorIndexCompact, [CompactScoreCompact; 7], ValidatorIndexCompact)>"), (b!"votes9", b!"Vec<(NominatorIndexCompact, [CompactScoreCompact; 8], ValidatorIndexCompact)>"), (b!"votes10", b!"Vec<(NominatorIndexCompact, [CompactScoreCompact; 9], ValidatorIndexCompact)>"), (b!"votes11", b!"Vec<(NominatorIndexCompact, [CompactScoreCompact; 10], ValidatorIndexCompact)>"), (b!"votes12", b!"Vec<(NominatorIndexCompact, [CompactScoreCompact; 11], ValidatorIndexCompact)>"), (b!"votes13", b!"Vec<(NominatorIndexCompact, [CompactScoreCompact; 12], ValidatorIndexCompact)>"), (b!"votes14", b!"Vec<(NominatorIndexCompact, [CompactScoreCompact; 13], ValidatorIndexCompact)>"), (b!"votes15", b!"Vec<(NominatorIndexCompact, [CompactScoreCompact; 14], ValidatorIndexCompact)>"), (b!"votes16", b!"Vec<(NominatorIndexCompact, [CompactScoreCompact; 15], ValidatorIndexCompact)>")])),
    (b!"refcount", .u32),
    (b!"address", .enum [] (some [(b!"Id", b!"AccountId"), (b!"Index", b!"Compact<AccountIndex>"), (b!"Raw", b!"Bytes"), (b!"Address32", b!"H256"), (b!"Address20", b!"H160")])),
    (b!"lookupsource", .enum [] (some [(b!"Id", b!"AccountId"), (b!"Index", b!"Compact<AccountIndex>"), (b!"Raw", b!"Bytes"), (b!"Address32", b!"H256"), (b!"Address20", b!"H160")])),
    (b!"accountinfo", .struct (some [(b!"nonce", b!"Index"), (b!"consumers", b!"RefCount"), (b!"providers", b!"RefCount"), (b!"data", b!"AccountData")])) ]

/-- Classes of the names of network/dock-pos.json. -/
def dock_pos : List (Str × Cls) :=
  [ (b!"weight", .u64),
    (b!"refcount", .u32),
    (b!"dispatchresult", .enum [] (some [(b!"Ok", b!"Null"), (b!"Error", b!"DispatchError")])),
    (b!"address", .accountId),
    (b!"lookupsource", .accountId),
    (b!"address#23-?", .enum [] (some [(b!"Id", b!"AccountId"), (b!"Index", b!"Compact<AccountIndex>"), (b!"Raw", b!"Bytes"), (b!"Address32", b!"H256"), (b!"Address20", b!"H160")])),
    (b!"lookupsource#23-?", .enum [] (some [(b!"Id", b!"AccountId"), (b!"Index", b!"Compact<AccountIndex>"), (b!"Raw", b!"Bytes"), (b!"Address32", b!"H256"), (b!"Address20", b!"H160")])),
    (b!"accountinfo", .struct (some [(b!"nonce", b!"Index"), (b!"consumers", b!"RefCount"), (b!"providers", b!"RefCount"), (b!"sufficients", b!"RefCount"), (b!"data", b!"AccountData")])),
    (b!"compactassignments", .struct (some [(b!"votes1", b!"Vec<(NominatorIndexCompact, ValidatorIndexCompact)>"), (b!"votes2", b!"Vec<(NominatorIndexCompact, CompactScoreCompact, ValidatorIndexCompact)>"), (b!"votes3", b!"Vec<(NominatorIndexCompact, [CompactScoreCompact; 2], ValidatorIndexCompact)>"), (b!"votes4", b!"Vec<(NominatorIndexCompact, [CompactScoreCompact; 3], ValidatorIndexCompact)>"), (b!"votes5", b!"Vec<(NominatorIndexCompact, [CompactScoreCompact; 4], ValidatorIndexCompact)>"), (b!"votes6", b!"Vec<(NominatorIndexCompact, [CompactScoreCompact; 5], ValidatorIndexCompact)>"), (b!"votes7", b!"Vec<(NominatorIndexCompact, [CompactScoreCompact; 6], ValidatorIndexCompact)>"), (b!"votes8", b!"Vec<(NominatorIndexCompact, [CompactScoreCompact; 7], ValidatorIndexCompact)>"), (b!"votes9", b!"Vec<(NominatorIndexCompact, [CompactScoreCompact; 8], ValidatorIndexCompact)>"), (b!"votes10", b!"Vec<(NominatorIndexCompact, [CompactScoreCompact; 9], ValidatorIndexCompact)>"), (b!"votes11", b!"Vec<(NominatorIndexCompact, [CompactScoreCompact; 10], ValidatorIndexCompact)>"), (b!"votes12", b!"Vec<(NominatorIndexCompact, [CompactScoreCompact; 11], ValidatorIndexCompact)>"), (b!"votes13", b!"Vec<(NominatorIndexCompact, [CompactScoreCompact; 12], ValidatorIndexCompact)>"), (b!"votes14", b!"Vec<(NominatorIndexCompact, [CompactScoreCompact; 13], ValidatorIndexCompact)>"), (b!"votes15", b!"Vec<(NominatorIndexCompact, [CompactScoreCompact; 14], ValidatorIndexCompact)>"), (b!"votes16", b!"Vec<(NominatorIndexCompact, [CompactScoreCompact; 15], ValidatorIndexCompact)>")])),
    (b!"blocknumber", .u32),
    (b!"epochdetail<balance>", .struct (some [(b!"validator_count", b!"u8"), (b!"starting_slot", b!"SlotNo"), (b!"expected_ending_slot", b!"SlotNo"), (b!"ending_slot", b!"Option<SlotNo>"), (b!"emission_for_validators", b!"Option<Balance>"), (b!"emission_for_treasury", b!"Option<Balance>")])),
    (b!"validatorstatsperepoch<balance>", .struct (some [(b!"block_count", b!"EpochLen"), (b!"locked_reward", b!"Option<Balance>"), (b!"unlocked_reward", b!"Option<Balance>")])),
    (b!"bonus<balance, blocknumber>", .struct (some [(b!"swap_bonuses", b!"Vec<(Balance, BlockNumber)>"), (b!"vesting_bonuses", b!"Vec<(Balance, Balance, BlockNumber)>")])),
    (b!"bonus", .struct (some [(b!"swap_bonuses", b!"Vec<(Balance, BlockNumber)>"), (b!"vesting_bonuses", b!"Vec<(Balance, Balance, BlockNumber)>")])),
    (b!"validatorstatsperepoch", .struct (some [(b!"block_count", b!"EpochLen"), (b!"locked_reward", b!"Option<Balance>"), (b!"unlocked_reward", b!"Option<Balance>")])),
    (b!"transaction", .struct (some [(b!"nonce", b!"U256"), (b!"action", b!"String"), (b!"gas_price", b!"u64"), (b!"gas_limit", b!"u64"), (b!"value", b!"U256"), (b!"input", b!"Vec<u8>"), (b!"signature", b!"TransactionSignature")])),
    (b!"blob", .struct (some [(b!"id", b!"BlobId"), (b!"blob", b!"Vec<u8>"), (b!"author", b!"Did")])),
    (b!"policy", .enum [] (some [(b!"OneOf", b!"BTreeSet<Did>")])),
    (b!"slotno", .u64),
    (b!"epochlen", .u32),
    (b!"statechange", .enum [] (some [(b!"KeyUpdate", b!"KeyUpdate"), (b!"DidRemoval", b!"DidRemoval"), (b!"Revoke", b!"Revoke"), (b!"UnRevoke", b!"UnRevoke"), (b!"RemoveRegistry", b!"RemoveRegistry"), (b!"Blob", b!"Blob"), (b!"MasterVote", b!"Payload"), (b!"Attestation", b!"(Did, Attestation)")])),
    (b!"blocklength", .struct (some [(b!"max", b!"PerDispatchClassU32")])),
    (b!"didsignature", .enum [] (some [(b!"Sr25519", b!"Bytes64"), (b!"Ed25519", b!"Bytes64"), (b!"Secp256k1", b!"Bytes65")])),
    (b!"membership", .struct (some [(b!"members", b!"BTreeSet<Did>"), (b!"vote_requirement", b!"u64")])),
    (b!"registry", .struct (some [(b!"policy", b!"Policy"), (b!"add_only", b!"bool")])),
    (b!"epochno", .u32),
    (b!"unrevoke", .struct (some [(b!"registry_id", b!"RegistryId"), (b!"revoke_ids", b!"BTreeSet<RevokeId>"), (b!"last_modified", b!"BlockNumber")])),
    (b!"pmauth", .btreeMap b!"Did, DidSignature"),
    (b!"account", .struct (some [(b!"nonce", b!"U256"), (b!"balance", b!"U256")])),
    (b!"keydetail", .struct (some [(b!"controller", b!"Did"), (b!"public_key", b!"PublicKey")])),
    (b!"did", .fixedU8 32),
    (b!"bytes33", .struct (some [(b!"value", b!"[u8;33]")])),
    (b!"removeregistry", .struct (some [(b!"registry_id", b!"RegistryId"), (b!"last_modified", b!"BlockNumber")])),
    (b!"blobid", .fixedArray 32 b!"u8"),
    (b!"bytes32", .struct (some [(b!"value", b!"[u8;32]")])),
    (b!"attestation", .struct (some [(b!"priority", b!"Compact<u64>"), (b!"iri", b!"Option<Vec<u8>>")])),
    (b!"registryid", .fixedArray 32 b!"u8"),
    (b!"transactionsignature", .struct (some [(b!"v", b!"u64"), (b!"r", b!"H256"), (b!"s", b!"H256")])),
    (b!"balance", .u64),
    (b!"contractconfig", .struct (some [(b!"address", b!"H160"), (b!"query_aggregator_call_encoded", b!"Vec<u8>"), (b!"query_price_abi_encoded", b!"Vec<u8>"), (b!"return_val_abi", b!"Vec<ParamType>")])),
    (b!"revokeid", .fixedArray 32 b!"u8"),
    (b!"revoke", .struct (some [(b!"registry_id", b!"RegistryId"), (b!"revoke_ids", b!"BTreeSet<RevokeId>"), (b!"last_modified", b!"BlockNumber")])),
    (b!"paramtype", .enum [] (some [(b!"Address", b!"null"), (b!"Int", b!"u16"), (b!"Uint", b!"u16")])),
    (b!"didremoval", .struct (some [(b!"did", b!"Did"), (b!"last_modified_in_block", b!"BlockNumber")])),
    (b!"perdispatchclassu32", .struct (some [(b!"normal", b!"u32"), (b!"operational", b!"u32"), (b!"mandatory", b!"u32")])),
    (b!"keys", .struct (some [(b!"col1", b!"AccountId"), (b!"col2", b!"AccountId")])),
    (b!"publickey", .enum [] (some [(b!"Sr25519", b!"Bytes32"), (b!"Ed25519", b!"Bytes32"), (b!"Secp256k1", b!"Bytes33")])),
    (b!"keyupdate", .struct (some [(b!"did", b!"Did"), (b!"public_key", b!"PublicKey"), (b!"controller", b!"Option<Did>"), (b!"last_modified_in_block", b!"BlockNumber")])),
    (b!"bytes64", .struct (some [(b!"value", b!"[u8;64]")])),
    (b!"bytes65", .struct (some [(b!"value", b!"[u8;65]")])),
    (b!"epochdetail", .struct (some [(b!"validator_count", b!"u8"), (b!"starting_slot", b!"SlotNo"), (b!"expected_ending_slot", b!"SlotNo"), (b!"ending_slot", b!"Option<SlotNo>"), (b!"emission_for_validators", b!"Option<Balance>"), (b!"emission_for_treasury", b!"Option<Balance>")])),
    (b!"payload", .struct (some [(b!"proposal", b!"Vec<u8>"), (b!"round_no", b!"u64")])),
    (b!"pauth", .btreeMap b!"Did, DidSignature") ]

/-- Classes of the names of network/dock.json. -/
def dock : List (Str × Cls) :=
  [ (b!"weight", .u64),
    (b!"refcount", .u32),
    (b!"dispatchresult", .enum [] (some [(b!"Ok", b!"Null"), (b!"Error", b!"DispatchError")])),
    (b!"address", .accountId),
    (b!"lookupsource", .accountId),
    (b!"address#23-?", .enum [] (some [(b!"Id", b!"AccountId"), (b!"Index", b!"Compact<AccountIndex>"), (b!"Raw", b!"Bytes"), (b!"Address32", b!"H256"), (b!"Address20", b!"H160")])),
    (b!"lookupsource#23-?", .enum [] (some [(b!"Id", b!"AccountId"), (b!"Index", b!"Compact<AccountIndex>"), (b!"Raw", b!"Bytes"), (b!"Address32", b!"H256"), (b!"Address20", b!"H160")])),
    (b!"accountinfo", .struct (some [(b!"nonce", b!"Index"), (b!"consumers", b!"RefCount"), (b!"providers", b!"RefCount"), (b!"sufficients", b!"RefCount"), (b!"data", b!"AccountData")])),
    (b!"blocknumber", .u32),
    (b!"epochdetail<balance>", .struct (some [(b!"validator_count", b!"u8"), (b!"starting_slot", b!"SlotNo"), (b!"expected_ending_slot", b!"SlotNo"), (b!"ending_slot", b!"Option<SlotNo>"), (b!"emission_for_validators", b!"Option<Balance>"), (b!"emission_for_treasury", b!"Option<Balance>")])),
    (b!"validatorstatsperepoch<balance>", .struct (some [(b!"block_count", b!"EpochLen"), (b!"locked_reward", b!"Option<Balance>"), (b!"unlocked_reward", b!"Option<Balance>")])),
    (b!"bonus<balance, blocknumber>", .struct (some [(b!"swap_bonuses", b!"Vec<(Balance, BlockNumber)>"), (b!"vesting_bonuses", b!"Vec<(Balance, Balance, BlockNumber)>")])),
    (b!"bonus", .struct (some [(b!"swap_bonuses", b!"Vec<(Balance, BlockNumber)>"), (b!"vesting_bonuses", b!"Vec<(Balance, Balance, BlockNumber)>")])),
    (b!"validatorstatsperepoch", .struct (some [(b!"block_count", b!"EpochLen"), (b!"locked_reward", b!"Option<Balance>"), (b!"unlocked_reward", b!"Option<Balance>")])),
    (b!"transaction", .struct (some [(b!"nonce", b!"U256"), (b!"action", b!"String"), (b!"gas_price", b!"u64"), (b!"gas_limit", b!"u64"), (b!"value", b!"U256"), (b!"input", b!"Vec<u8>"), (b!"signature", b!"TransactionSignature")])),
    (b!"blob", .struct (some [(b!"id", b!"BlobId"), (b!"blob", b!"Vec<u8>"), (b!"author", b!"Did")])),
    (b!"policy", .enum [] (some [(b!"OneOf", b!"BTreeSet<Did>")])),
    (b!"slotno", .u64),
    (b!"epochlen", .u32),
    (b!"statechange", .enum [] (some [(b!"KeyUpdate", b!"KeyUpdate"), (b!"DidRemoval", b!"DidRemoval"), (b!"Revoke", b!"Revoke"), (b!"UnRevoke", b!"UnRevoke"), (b!"RemoveRegistry", b!"RemoveRegistry"), (b!"Blob", b!"Blob"), (b!"MasterVote", b!"Payload"), (b!"Attestation", b!"(Did, Attestation)")])),
    (b!"blocklength", .struct (some [(b!"max", b!"PerDispatchClassU32")])),
    (b!"didsignature", .enum [] (some [(b!"Sr25519", b!"Bytes64"), (b!"Ed25519", b!"Bytes64"), (b!"Secp256k1", b!"Bytes65")])),
    (b!"membership", .struct (some [(b!"members", b!"BTreeSet<Did>"), (b!"vote_requirement", b!"u64")])),
    (b!"registry", .struct (some [(b!"policy", b!"Policy"), (b!"add_only", b!"bool")])),
    (b!"epochno", .u32),
    (b!"unrevoke", .struct (some [(b!"registry_id", b!"RegistryId"), (b!"revoke_ids", b!"BTreeSet<RevokeId>"), (b!"last_modified", b!"BlockNumber")])),
    (b!"pmauth", .btreeMap b!"Did, DidSignature"),
    (b!"account", .struct (some [(b!"nonce", b!"U256"), (b!"balance", b!"U256")])),
    (b!"keydetail", .struct (some [(b!"controller", b!"Did"), (b!"public_key", b!"PublicKey")])),
    (b!"did", .fixedU8 32),
    (b!"bytes33", .struct (some [(b!"value", b!"[u8;33]")])),
    (b!"removeregistry", .struct (some [(b!"registry_id", b!"RegistryId"), (b!"last_modified", b!"BlockNumber")])),
    (b!"blobid", .fixedArray 32 b!"u8"),
    (b!"bytes32", .struct (some [(b!"value", b!"[u8;32]")])),
    (b!"attestation", .struct (some [(b!"priority", b!"Compact<u64>"), (b!"iri", b!"Option<Vec<u8>>")])),
    (b!"registryid", .fixedArray 32 b!"u8"),
    (b!"transactionsignature", .struct (some [(b!"v", b!"u64"), (b!"r", b!"H256"), (b!"s", b!"H256")])),
    (b!"balance", .u64),
    (b!"contractconfig", .struct (some [(b!"address", b!"H160"), (b!"query_aggregator_call_encoded", b!"Vec<u8>"), (b!"query_price_abi_encoded", b!"Vec<u8>"), (b!"return_val_abi", b!"Vec<ParamType>")])),
    (b!"revokeid", .fixedArray 32 b!"u8"),
    (b!"revoke", .struct (some [(b!"registry_id", b!"RegistryId"), (b!"revoke_ids", b!"BTreeSet<RevokeId>"), (b!"last_modified", b!"BlockNumber")])),
    (b!"paramtype", .enum [] (some [(b!"Address", b!"null"), (b!"Int", b!"u16"), (b!"Uint", b!"u16")])),
    (b!"didremoval", .struct (some [(b!"did", b!"Did"), (b!"last_modified_in_block", b!"BlockNumber")])),
    (b!"perdispatchclassu32", .struct (some [(b!"normal", b!"u32"), (b!"operational", b!"u32"), (b!"mandatory", b!"u32")])),
    (b!"keys", .struct (some [(b!"col1", b!"AccountId"), (b!"col2", b!"AccountId")])),
    (b!"publickey", .enum [] (some [(b!"Sr25519", b!"Bytes32"), (b!"Ed25519", b!"Bytes32"), (b!"Secp256k1", b!"Bytes33")])),
    (b!"keyupdate", .struct (some [(b!"did", b!"Did"), (b!"public_key", b!"PublicKey"), (b!"controller", b!"Option<Did>"), (b!"last_modified_in_block", b!"BlockNumber")])),
    (b!"bytes64", .struct (some [(b!"value", b!"[u8;64]")])),
    (b!"bytes65", .struct (some [(b!"value", b!"[u8;65]")])),
    (b!"epochdetail", .struct (some [(b!"validator_count", b!"u8"), (b!"starting_slot", b!"SlotNo"), (b!"expected_ending_slot", b!"SlotNo"), (b!"ending_slot", b!"Option<SlotNo>"), (b!"emission_for_validators", b!"Option<Balance>"), (b!"emission_for_treasury", b!"Option<Balance>")])),
    (b!"payload", .struct (some [(b!"proposal", b!"Vec<u8>"), (b!"round_no", b!"u64")])),
    (b!"pauth", .btreeMap b!"Did, DidSignature") ]

/-- Classes of the names of network/dusty.json. -/
def dusty : List (Str × Cls) :=
  [ (b!"lockdrop", .struct (some [(b!"duration", b!"u64"), (b!"public_key", b!"[u8; 33]"), (b!"transaction_hash", b!"H256"), (b!"type", b!"u8"), (b!"value", b!"u128")])),
    (b!"parameters", .struct (some [(b!"canBeNominated", b!"bool"), (b!"optionExpired", b!"u128"), (b!"optionP", b!"u32")])),
    (b!"claimvote", .struct (some [(b!"approve", b!"bool"), (b!"authority", b!"u16"), (b!"claim_id", b!"ClaimId")])),
    (b!"decision", .enum [b!"Undecided", b!"True", b!"False"] none),
    (b!"claimid", .hash 32),
    (b!"challengegameof", .struct (some [(b!"challenges", b!"Vec<Hash>"), (b!"createdBlock", b!"BlockNumber"), (b!"decision", b!"Decision"), (b!"propertyHash", b!"Hash")])),
    (b!"propertyof", .struct (some [(b!"inputs", b!"Vec<Vec<u8>>"), (b!"predicateAddress", b!"AccountId")])),
    (b!"erastakingpoints", .struct (some [(b!"individual", b!"BTreeMap<AccountId, Balance>"), (b!"total", b!"Balance")])),
    (b!"accountinfo", .struct (some [(b!"nonce", b!"Index"), (b!"consumers", b!"RefCount"), (b!"providers", b!"RefCount"), (b!"data", b!"AccountData")])),
    (b!"authorityvote", .u32),
    (b!"authorityid", .accountId),
    (b!"schedule", .struct (some [(b!"putCodePerByteCost", b!"Weight"), (b!"version", b!"u32")])),
    (b!"keys", .struct (some [(b!"col1", b!"AccountId"), (b!"col2", b!"AccountId"), (b!"col3", b!"AccountId")])),
    (b!"predicatehash", .hash 32),
    (b!"eraindex", .u32),
    (b!"dollarrate", .u128),
    (b!"predicatecontractof", .struct (some [(b!"inputs", b!"Vec<u8>"), (b!"predicateHash", b!"Hash")])),
    (b!"smartcontract", .enum [] (some [(b!"Wasm", b!"AccountId"), (b!"Evm", b!"H160")])),
    (b!"prefabovmmodule", .struct (some [(b!"code", b!"Vec<u8>"), (b!"scheduleVersion", b!"u32")])),
    (b!"votecounts", .struct (some [(b!"bad", b!"u32"), (b!"good", b!"u32")])),
    (b!"tickerrate", .struct (some [(b!"authority", b!"u16"), (b!"btc", b!"u128"), (b!"eth", b!"u128")])),
    (b!"property", .struct (some [(b!"inputs", b!"Vec<Vec<u8>>"), (b!"predicateAddress", b!"AccountId")])),
    (b!"claim", .struct (some [(b!"amount", b!"u128"), (b!"approve", b!"BTreeSet<AuthorityId>"), (b!"complete", b!"bool"), (b!"decline", b!"BTreeSet<AuthorityId>"), (b!"params", b!"Lockdrop")])),
    (b!"stakingparameters", .struct (some [(b!"canBeNominated", b!"bool"), (b!"optionExpired", b!"u128"), (b!"optionP", b!"u32")])),
    (b!"weight", .u64),
    (b!"compactassignments", .struct (some [(b!"votes1", b!"Vec<(NominatorIndexCompact, ValidatorIndexCompact)>"), (b!"votes2", b!"Vec<(NominatorIndexCompact, CompactScoreCompact, ValidatorIndexCompact)>"), (b!"votes3", b!"Vec<(NominatorIndexCompact, [CompactScoreCompact; 2], ValidatorIndexCompact)>"), (b!"votes4", b!"Vec<(NominatorIndexCompact, [CompactScoreCompact; 3], ValidatorIndexCompact)>"), (b!"votes5", b!"Vec<(NominatorIndexCompact, [CompactScoreCompact; 4], ValidatorIndexCompact)>"), (b!"votes6", b!"Vec<(NominatorIndexCompact, [CompactScoreCompact; 5], ValidatorIndexCompact)>"), (b!"votes7", b!"Vec<(NominatorIndexCompact, [CompactScoreCompact; 6], ValidatorIndexCompact)>"), (b!"votes8", b!"Vec<(NominatorIndexCompact, [CompactScoreCompact; 7], ValidatorIndexCompact)>"), (b!"votes9", b!"Vec<(NominatorIndexCompact, [CompactScoreCompact; 8], ValidatorIndexCompact)>"), (b!"votes10", b!"Vec<(NominatorIndexCompact, [CompactScoreCompact; 9], ValidatorIndexCompact)>"), (b!"votes11", b!"Vec<(NominatorIndexCompact, [CompactScoreCompact; 10], ValidatorIndexCompact)>"), (b!"votes12", b!"Vec<(NominatorIndexCompact, [CompactScoreCompact; 11], ValidatorIndexCompact)>"), (b!"votes13", b!"Vec<(NominatorIndexCompact, [CompactScoreCompact; 12], ValidatorIndexCompact)>"), (b!"votes14", b!"Vec<(NominatorIndexCompact, [CompactScoreCompact; 13], ValidatorIndexCompact)>"), (b!"votes15", b!"Vec<(NominatorIndexCompact, [CompactScoreCompact; 14], ValidatorIndexCompact)>"), (b!"votes16", b!"Vec<(NominatorIndexCompact, [CompactScoreCompact; 15], ValidatorIndexCompact)>")])),
    (b!"refcount", .u32),
    (b!"address", .enum [] (some [(b!"Id", b!"AccountId"), (b!"Index", b!"Compact<AccountIndex>"), (b!"Raw", b!"Bytes"), (b!"Address32", b!"H256"), (b!"Address20", b!"H160")])),
    (b!"lookupsource", .enum [] (some [(b!"Id", b!"AccountId"), (b!"Index", b!"Compact<AccountIndex>"), (b!"Raw", b!"Bytes"), (b!"Address32", b!"H256"), (b!"Address20", b!"H160")])) ]

/-- Classes of the names of network/edgeware.json. -/
def edgeware : List (Str × Cls) :=
  [ (b!"blocknumber", .u32),
    (b!"sessionindex", .u32),
    (b!"auctionindex", .u32),
    (b!"authindex", .u32),
    (b!"balanceupload", .struct (some [(b!"col1", b!"AccountId"), (b!"col2", b!"u64")])),
    (b!"egressqueueroot", .struct (some [(b!"col1", b!"ParaId"), (b!"col2", b!"Hash")])),
    (b!"eventindex", .u32),
    (b!"leaseperiodof", .u32),
    (b!"leaseperiod", .u32),
    (b!"membercount", .u32),
    (b!"momentof", .moment),
    (b!"offender", .struct (some [(b!"col1", b!"ValidatorId"), (b!"col2", b!"Exposure")])),
    (b!"reportidof", .hash 32),
    (b!"subid", .u32),
    (b!"weight", .u32),
    (b!"weightmultiplier", .u64),
    (b!"winningdata", .vec b!"WinningDataEntry"),
    (b!"index", .u32),
    (b!"kind", .fixedU8 16),
    (b!"opaquetimeslot", .bytes),
    (b!"proposalcontents", .bytes),
    (b!"proposaltitle", .bytes),
    (b!"voteoutcome", .fixedU8 32),
    (b!"votingtally", .option b!"Vec<(VoteOutcome, u128)>"),
    (b!"box<<t as trait<i>>::proposal>", .call),
    (b!"validatorprefs", .struct (some [(b!"Commission", b!"Compact<Balance>")])),
    (b!"keys", .struct (some [(b!"grandpa", b!"AccountId"), (b!"babe", b!"AccountId"), (b!"im_online", b!"AccountId"), (b!"authority_discovery", b!"AccountId")])),
    (b!"forcing", .enum [b!"NotForcing", b!"ForceNew", b!"ForceNone"] none),
    (b!"votestage", .enum [b!"PreVoting", b!"Commit", b!"Voting", b!"Completed"] none),
    (b!"votedata", .struct (some [(b!"initiator", b!"AccountId"), (b!"stage", b!"VoteStage"), (b!"vote_type", b!"VoteType"), (b!"tally_type", b!"TallyType"), (b!"is_commit_reveal", b!"Bool")])),
    (b!"voterecord", .struct (some [(b!"id", b!"u64"), (b!"commitments", b!"Commitments"), (b!"reveals", b!"Reveals"), (b!"data", b!"VoteData"), (b!"outcomes", b!"Vec<(VoteOutcome)>")])),
    (b!"commitments", .vec b!"(AccountId, VoteOutcome)"),
    (b!"reveals", .vec b!"(AccountId, Vec<VoteOutcome>)"),
    (b!"votetype", .enum [b!"Binary", b!"MultiOption", b!"RankedChoice"] none),
    (b!"identitystage", .enum [b!"Registered", b!"Attested", b!"Verified"] none),
    (b!"identityrecord", .struct (some [(b!"account", b!"AccountId"), (b!"identity_type", b!"String"), (b!"identity", b!"Bytes"), (b!"stage", b!"IdentityStage"), (b!"expiration_time", b!"BlockNumber"), (b!"proof", b!"Bytes"), (b!"metadata", b!"Bytes")])),
    (b!"metadatarecord", .struct (some [(b!"avatar", b!"String"), (b!"display_name", b!"String"), (b!"tagline", b!"String")])),
    (b!"proposalcategory", .enum [b!"Signaling"] none),
    (b!"proposalstage", .enum [b!"PreVoting", b!"Voting", b!"Completed"] none),
    (b!"proposalrecord", .struct (some [(b!"index", b!"u32"), (b!"author", b!"AccountId"), (b!"stage", b!"VoteStage"), (b!"transition_time", b!"u32"), (b!"category", b!"ProposalCategory"), (b!"title", b!"Text"), (b!"contents", b!"Text"), (b!"vote_id", b!"u64")])),
    (b!"balance2", .balance),
    (b!"balancelock<balance, blocknumber>", .struct (some [(b!"id", b!"LockIdentifier"), (b!"amount", b!"Balance"), (b!"reasons", b!"Reasons")])),
    (b!"linkage", .struct (some [(b!"previous", b!"Option<AccountId>"), (b!"next", b!"Option<AccountId>")])),
    (b!"voting::votetype", .enum [b!"Binary", b!"MultiOption"] none),
    (b!"voting::tallytype", .enum [b!"OnePerson", b!"OneCoin"] none),
    (b!"points", .u32),
    (b!"erapoints", .struct (some [(b!"total", b!"Points"), (b!"individual", b!"Vec<Points>")])),
    (b!"weight#38-?", .u64),
    (b!"dispatchresult#0-37", .enum [] (some [(b!"Error", b!"DispatchError"), (b!"Ok", b!"Null")])),
    (b!"address#38-41", .genericAddress),
    (b!"lookupsource#38-41", .genericAddress),
    (b!"refcount", .u32),
    (b!"voting::tally", .option b!"Vec<(VoteOutcome, u128)>"),
    (b!"address#45-?", .enum [] (some [(b!"Id", b!"AccountId"), (b!"Index", b!"Compact<AccountIndex>"), (b!"Raw", b!"Bytes"), (b!"Address32", b!"H256"), (b!"Address20", b!"H160")])),
    (b!"lookupsource#45-?", .enum [] (some [(b!"Id", b!"AccountId"), (b!"Index", b!"Compact<AccountIndex>"), (b!"Raw", b!"Bytes"), (b!"Address32", b!"H256"), (b!"Address20", b!"H160")])),
    (b!"assetid", .u32) ]

/-- Classes of the names of network/equilibrium.json. -/
def equilibrium : List (Str × Cls) :=
  [ (b!"weight", .u64),
    (b!"refcount", .u32),
    (b!"dispatchresult", .enum [] (some [(b!"Ok", b!"Null"), (b!"Error", b!"DispatchError")])),
    (b!"reinitrequest", .struct (some [(b!"account", b!"AccountId"), (b!"authority_index", b!"AuthIndex"), (b!"validators_len", b!"u32"), (b!"block_num", b!"BlockNumber")])),
    (b!"chainid", .u8),
    (b!"financialmetrics", .struct (some [(b!"period_start", b!"Duration"), (b!"period_end", b!"Duration"), (b!"assets", b!"Vec<Asset>"), (b!"mean_returns", b!"Vec<FixedNumber>"), (b!"volatilities", b!"Vec<FixedNumber>"), (b!"correlations", b!"Vec<FixedNumber>"), (b!"covariances", b!"Vec<FixedNumber>")])),
    (b!"usergroup", .enum [b!"Unknown", b!"Balances", b!"Bailsmen", b!"Borrowers", b!"Lenders"] none),
    (b!"priceperiod", .enum [b!"Min", b!"TenMin", b!"Hour", b!"FourHour", b!"Day"] none),
    (b!"pricepayload", .data),
    (b!"asset", .enum [b!"Unknown", b!"Usd", b!"Eq", b!"Eth", b!"Btc", b!"Eos", b!"Dot", b!"Crv"] none),
    (b!"depositnonce", .u64),
    (b!"keys", .struct (some [(b!"col1", b!"AccountId"), (b!"col2", b!"AccountId"), (b!"col3", b!"AccountId")])),
    (b!"resourceid", .fixedU8 32),
    (b!"operationrequest", .struct (some [(b!"account", b!"AccountId"), (b!"authority_index", b!"AuthIndex"), (b!"validators_len", b!"u32"), (b!"block_num", b!"BlockNumber")])),
    (b!"transferreason", .enum [b!"Common", b!"InterestFee", b!"MarginCall", b!"LiquidityFarming", b!"BailsmenRedistribution", b!"TreasuryEqBuyout", b!"TreasuryBuyEq", b!"Subaccount", b!"Lock"] none),
    (b!"totalaggregates", .struct (some [(b!"collateral", b!"Balance"), (b!"debt", b!"Balance")])),
    (b!"address", .accountId),
    (b!"pricepoint", .struct (some [(b!"block_number", b!"BlockNumber"), (b!"timestamp", b!"u64"), (b!"price", b!"u64"), (b!"data_points", b!"Vec<DataPoint>")])),
    (b!"priceupdate", .struct (some [(b!"period_start", b!"Duration"), (b!"time", b!"Duration"), (b!"price", b!"FixedNumber")])),
    (b!"balanceof", .u64),
    (b!"lookupsource", .accountId),
    (b!"capvec", .struct (some [(b!"head_index", b!"u32"), (b!"len_cap", b!"u32"), (b!"items", b!"Vec<FixedNumber>")])),
    (b!"assetmetrics", .struct (some [(b!"period_start", b!"Duration"), (b!"period_end", b!"Duration"), (b!"returns", b!"Vec<FixedNumber>"), (b!"volatility", b!"FixedNumber"), (b!"correlations", b!"Vec<(Asset, FixedNumber)>")])),
    (b!"fixedi64", .intFixed 8),
    (b!"fixednumber", .u128),
    (b!"signedbalance", .enum [] (some [(b!"Positive", b!"Balance"), (b!"Negative", b!"Balance")])),
    (b!"balance", .u64),
    (b!"vestinginfo", .struct (some [(b!"locked", b!"Balance"), (b!"perBlock", b!"Balance"), (b!"startingBlock", b!"BlockNumber")])),
    (b!"pricelog", .struct (some [(b!"latest_timestamp", b!"Duration"), (b!"prices", b!"CapVec<Price>")])),
    (b!"blocknumber", .u64),
    (b!"currency", .enum [b!"Unknown", b!"Usd", b!"Eq", b!"Eth", b!"Btc", b!"Eos", b!"Dot", b!"Crv"] none),
    (b!"datapoint", .struct (some [(b!"price", b!"u64"), (b!"account_id", b!"AccountId"), (b!"block_number", b!"BlockNumber"), (b!"timestamp", b!"u64")])),
    (b!"proposalvotes", .struct (some [(b!"votes_for", b!"Vec<AccountId>"), (b!"votes_against", b!"Vec<AccountId>"), (b!"status", b!"ProposalStatus"), (b!"expiry", b!"BlockNumber")])),
    (b!"proposalstatus", .enum [b!"Initiated", b!"Approved", b!"Rejected"] none),
    (b!"portfoliometrics", .struct (some [(b!"period_start", b!"Duration"), (b!"period_end", b!"Duration"), (b!"z_score", b!"u32"), (b!"volatility", b!"FixedNumber"), (b!"value_at_risk", b!"FixedNumber")])),
    (b!"duration", .struct (some [(b!"secs", b!"u64"), (b!"nanos", b!"u32")])),
    (b!"balancesaggregate", .struct (some [(b!"total_issuance", b!"Balance"), (b!"total_debt", b!"Balance")])),
    (b!"price", .u128),
    (b!"subacctype", .enum [b!"Bailsman", b!"Borrower", b!"Lender"] none) ]

/-- Classes of the names of network/gateway-test.json. -/
def gateway_test : List (Str × Cls) :=
  [ (b!"accountdata", .null),
    (b!"chainaccountsignature", .enum [] (some [(b!"Gate", b!"Gateway__Chain__Address"), (b!"Eth", b!"ChainAccountSignatureEth"), (b!"Dot", b!"ChainAccountSignatureDot")])),
    (b!"chainaccountsignaturegate", .struct (some [(b!"col1", b!"Gateway__Chain__Address"), (b!"col2", b!"Gateway__Chain__Signature")])),
    (b!"apirates", .struct (some [(b!"col1", b!"ApiAPR"), (b!"col2", b!"ApiAPR")])),
    (b!"solana__chain__signature", .fixedU8 65),
    (b!"cashextractionnotice", .enum [] (some [(b!"Eth", b!"CashExtractionNoticeEth")])),
    (b!"cashindex", .u128),
    (b!"rateserror", .enum [] (some [(b!"ModelRateOutOfBounds", b!"NULL"), (b!"ZeroAboveKink", b!"NULL"), (b!"KinkAboveFull", b!"NULL"), (b!"KinkUtilizationTooHigh", b!"NULL"), (b!"Overflowed", b!"NULL")])),
    (b!"interestratemodelfixed", .struct (some [(b!"rate", b!"APR")])),
    (b!"blocklength", .struct (some [(b!"max", b!"PerDispatchClass_u32")])),
    (b!"apivalidators", .struct (some [(b!"current_block", b!"String"), (b!"current_validators", b!"Vec<(String,String)>"), (b!"miner_payouts", b!"Vec<(ChainAccount,String)>")])),
    (b!"apiassetmeta", .struct (some [(b!"supplier_counts", b!"BTreeMap<String,u32>"), (b!"borrower_counts", b!"BTreeMap<String,u32>"), (b!"combined_supplier_count", b!"u32"), (b!"combined_borrower_count", b!"u32")])),
    (b!"reasonincorrectnonce", .struct (some [(b!"col1", b!"Nonce"), (b!"col2", b!"Nonce")])),
    (b!"polkadot__chain__publickey", .fixedU8 64),
    (b!"chainlogid", .enum [] (some [(b!"Eth", b!"ChainLogIdEth")])),
    (b!"ethereumclienterror", .enum [] (some [(b!"DecodeError", b!"NULL"), (b!"HttpIoError", b!"NULL"), (b!"HttpTimeout", b!"NULL"), (b!"HttpErrorCode", b!"U16"), (b!"InvalidUTF8", b!"NULL"), (b!"JsonParseError", b!"NULL"), (b!"NoResult", b!"NULL")])),
    (b!"cashprincipalperasset", .u128),
    (b!"extractionnotice", .enum [] (some [(b!"Eth", b!"ExtractionNoticeEth")])),
    (b!"nonce", .u32),
    (b!"notice", .enum [] (some [(b!"ExtractionNotice", b!"ExtractionNotice"), (b!"CashExtractionNotice", b!"CashExtractionNotice"), (b!"FutureYieldNotice", b!"FutureYieldNotice"), (b!"SetSupplyCapNotice", b!"SetSupplyCapNotice"), (b!"ChangeAuthorityNotice", b!"ChangeAuthorityNotice")])),
    (b!"tezos__chain__rate", .u128),
    (b!"polkadot__chain__amount", .u128),
    (b!"tezos__chain__publickey", .fixedU8 64),
    (b!"polkadot__chain__block", .null),
    (b!"reason", .enum [] (some [(b!"AssetExtractionNotSupported", b!"null"), (b!"AssetNotSupported", b!"null"), (b!"BadAccount", b!"null"), (b!"BadAddress", b!"null"), (b!"BadAsset", b!"null"), (b!"BadChainId", b!"null"), (b!"BadFactor", b!"null"), (b!"BadHash", b!"null"), (b!"BadSymbol", b!"null"), (b!"BadTicker", b!"null"), (b!"BadUnits", b!"null"), (b!"ChainMismatch", b!"null"), (b!"HashMismatch", b!"null"), (b!"CryptoError", b!"CryptoError"), (b!"EventError", b!"EventError"), (b!"FailedToSubmitExtrinsic", b!"null"), (b!"CannotFormulateReorg", b!"null"), (b!"WorkerFetchError", b!"null"), (b!"WorkerBusy", b!"null"), (b!"IncorrectNonce", b!"ReasonIncorrectNonce"), (b!"InKindLiquidation", b!"null"), (b!"InsufficientChainCash", b!"null"), (b!"InsufficientLiquidity", b!"null"), (b!"InsufficientTotalFunds", b!"null"), (b!"InvalidAPR", b!"null"), (b!"InvalidCodeHash", b!"null"), (b!"InvalidLiquidation", b!"null"), (b!"InvalidUTF8", b!"null"), (b!"KeyNotFound", b!"null"), (b!"MathError", b!"MathError"), (b!"MaxForNonCashAsset", b!"null"), (b!"MinTxValueNotMet", b!"null"), (b!"None", b!"null"), (b!"NoPrice", b!"null"), (b!"NoSuchAsset", b!"null"), (b!"NoticeMissing", b!"ReasonNoticeMissing"), (b!"NotImplemented", b!"null"), (b!"OracleError", b!"OracleError"), (b!"RatesError", b!"RatesError"), (b!"RepayTooMuch", b!"null"), (b!"SelfTransfer", b!"null"), (b!"SerdeError", b!"null"), (b!"SetYieldNextError", b!"SetYieldNextError"), (b!"SignatureAccountMismatch", b!"null"), (b!"SignatureMismatch", b!"null"), (b!"TimestampMissing", b!"null"), (b!"TimeTravelNotAllowed", b!"null"), (b!"TrxRequestParseError", b!"TrxReqParseError"), (b!"UnknownValidator", b!"null"), (b!"InvalidChain", b!"null"), (b!"PendingAuthNotice", b!"null"), (b!"ChangeValidatorsError", b!"null"), (b!"InsufficientCashForMaxTransfer", b!"null"), (b!"SufficientLiquidity", b!"null"), (b!"AssetQuantityMismatch", b!"null"), (b!"Unreachable", b!"null"), (b!"TotalBorrowUnderflow", b!"null"), (b!"InsufficientCollateral", b!"null"), (b!"NegativeChainCash", b!"null"), (b!"MissingLastBlock", b!"null"), (b!"StarportMissing", b!"null"), (b!"InvalidChainBlock", b!"null")])),
    (b!"sessionkeys", .struct (some [(b!"aura", b!"[u8;32]"), (b!"grandpa", b!"[u8;32]")])),
    (b!"uint", .u128),
    (b!"chainhash", .enum [] (some [(b!"Gate", b!"Gateway__Chain__Hash"), (b!"Eth", b!"Ethereum__Chain__Hash"), (b!"Dot", b!"Polkadot__Chain__Hash")])),
    (b!"assetbalance", .intFixed 16),
    (b!"tezos__chain__amount", .u128),
    (b!"accountid32", .fixedU8 32),
    (b!"solana__chain__publickey", .fixedU8 64),
    (b!"solana__chain__amount", .u128),
    (b!"chainaccountsignaturetez", .struct (some [(b!"col1", b!"Tezos__Chain__Address"), (b!"col2", b!"Tezos__Chain__Signature")])),
    (b!"usdquantity", .struct (some [(b!"value", b!"AssetAmount"), (b!"units", b!"Units")])),
    (b!"setsupplycapnoticeeth", .struct (some [(b!"id", b!"NoticeId"), (b!"parent", b!"Ethereum__Chain__Hash"), (b!"asset", b!"Ethereum__Chain__Address"), (b!"cap", b!"Ethereum__Chain__Amount")])),
    (b!"apr", .u128),
    (b!"validatorkeys", .struct (some [(b!"substrate_id", b!"SubstrateId"), (b!"eth_address", b!"Ethereum__Chain__Address")])),
    (b!"apiportfolio", .struct (some [(b!"cash", b!"String"), (b!"positions", b!"Vec<(ChainAsset,String)>")])),
    (b!"cashquantity", .struct (some [(b!"value", b!"AssetAmount"), (b!"units", b!"Units")])),
    (b!"tezos__chain__timestamp", .u64),
    (b!"oracle__timestamp", .u64),
    (b!"ethereumeventexecuteproposal", .struct (some [(b!"title", b!"String"), (b!"extrinsics", b!"Vec<Vec<u8>>")])),
    (b!"apiinterestratemodelfixed", .struct (some [(b!"rate", b!"String")])),
    (b!"sol__eventid", .struct (some [(b!"col1", b!"u64"), (b!"col2", b!"u64")])),
    (b!"assetprice", .u128),
    (b!"apiinterestratemodelkink", .struct (some [(b!"zero_rate", b!"String"), (b!"kink_rate", b!"String"), (b!"kink_utilization", b!"String"), (b!"full_rate", b!"String")])),
    (b!"factor", .u128),
    (b!"units", .struct (some [(b!"ticker", b!"Ticker"), (b!"decimals", b!"Decimals")])),
    (b!"reasonnoticemissing", .struct (some [(b!"col1", b!"ChainId"), (b!"col2", b!"NoticeId")])),
    (b!"assetinfo", .struct (some [(b!"asset", b!"ChainAsset"), (b!"decimals", b!"Decimals"), (b!"liquidity_factor", b!"LiquidityFactor"), (b!"rate_model", b!"InterestRateModel"), (b!"miner_shares", b!"MinerShares"), (b!"supply_cap", b!"AssetAmount"), (b!"symbol", b!"Symbol"), (b!"ticker", b!"Ticker")])),
    (b!"solana__chain__rate", .u128),
    (b!"chainaccountsignaturesol", .struct (some [(b!"col1", b!"Solana__Chain__Address"), (b!"col2", b!"Solana__Chain__Signature")])),
    (b!"liquidityfactor", .u128),
    (b!"gateway__chain__eventid", .struct (some [(b!"col1", b!"u64"), (b!"col2", b!"u64")])),
    (b!"eventstatefailed", .struct (some [(b!"reason", b!"Reason")])),
    (b!"substrateid", .fixedU8 32),
    (b!"cashprincipal", .intFixed 16),
    (b!"minershares", .u128),
    (b!"chainsignaturelist", .enum [] (some [(b!"Gate", b!"Reserved"), (b!"Eth", b!"Vec<(Ethereum__Chain__Address,Ethereum__Chain__Signature)>"), (b!"Dot", b!"Vec<(Polkadot__Chain__Address,Polkadot__Chain__Signature)>")])),
    (b!"assetamount", .u128),
    (b!"polkadot__chain__address", .fixedU8 32),
    (b!"ethereum__chain__amount", .u128),
    (b!"solana__chain__hash", .fixedU8 32),
    (b!"ethereum__chain__rate", .u128),
    (b!"noticestatepending", .struct (some [(b!"signature_pairs", b!"ChainSignatureList")])),
    (b!"perdispatchclass_u32", .struct (some [(b!"normal", b!"u32"), (b!"operational", b!"u32"), (b!"mandatory", b!"u32")])),
    (b!"noticeid", .struct (some [(b!"col1", b!"EraId"), (b!"col2", b!"EraIndex")])),
    (b!"chainasset", .enum [] (some [(b!"Gate", b!"Reserved"), (b!"Eth", b!"Ethereum__Chain__Address"), (b!"Dot", b!"Polkadot__Chain__Address")])),
    (b!"apiassetinfo", .struct (some [(b!"asset", b!"ChainAsset"), (b!"decimals", b!"u8"), (b!"liquidity_factor", b!"String"), (b!"rate_model", b!"ApiInterestRateModel"), (b!"miner_shares", b!"String"), (b!"supply_cap", b!"String"), (b!"symbol", b!"Symbol"), (b!"ticker", b!"String")])),
    (b!"cashpercashprincipal", .u128),
    (b!"chainaccountsignatureeth", .struct (some [(b!"col1", b!"Ethereum__Chain__Address"), (b!"col2", b!"Ethereum__Chain__Signature")])),
    (b!"ethereum__chain__publickey", .fixedU8 64),
    (b!"validatoridentity", .fixedU8 32),
    (b!"trxreqparseerror", .enum [] (some [(b!"NotImplemented", b!"null"), (b!"LexError", b!"null"), (b!"InvalidAmount", b!"null"), (b!"InvalidAddress", b!"null"), (b!"InvalidArgs", b!"null"), (b!"UnknownFunction", b!"null"), (b!"InvalidExpression", b!"null"), (b!"InvalidChain", b!"null"), (b!"InvalidChainAccount", b!"null")])),
    (b!"versionedauthoritylist", .struct (some [(b!"version", b!"u8"), (b!"authorityList", b!"AuthorityList")])),
    (b!"chainaccountsignaturedot", .struct (some [(b!"col1", b!"Polkadot__Chain__Address"), (b!"col2", b!"Polkadot__Chain__Signature")])),
    (b!"assetindex", .u128),
    (b!"extractionnoticeeth", .struct (some [(b!"id", b!"NoticeId"), (b!"parent", b!"Ethereum__Chain__Hash"), (b!"asset", b!"Ethereum__Chain__Address"), (b!"account", b!"Ethereum__Chain__Address"), (b!"amount", b!"Ethereum__Chain__Amount")])),
    (b!"ethereumevent", .enum [] (some [(b!"Lock", b!"EthereumEventLock"), (b!"LockCash", b!"EthereumEventLockCash"), (b!"ExecTrxRequest", b!"EthereumEventExecTrxRequest"), (b!"ExecuteProposal", b!"EthereumEventExecuteProposal"), (b!"NoticeInvoked", b!"EthereumEventNoticeInvoked")])),
    (b!"eventinfo", .struct (some [(b!"latest_eth_block", b!"u64"), (b!"events", b!"Vec<(ChainLogId,ChainLogEvent)>")])),
    (b!"signersset", .vec b!"ValidatorIdentity"),
    (b!"interestratemodelkink", .struct (some [(b!"zero_rate", b!"APR"), (b!"kink_rate", b!"APR"), (b!"kink_utilization", b!"Factor"), (b!"full_rate", b!"APR")])),
    (b!"cashamount", .u128),
    (b!"futureyieldnoticeeth", .struct (some [(b!"id", b!"NoticeId"), (b!"parent", b!"Ethereum__Chain__Hash"), (b!"next_cash_yield", b!"Ethereum__Chain__Rate"), (b!"next_cash_index", b!"Ethereum__Chain__CashIndex"), (b!"next_cash_yield_start", b!"Ethereum__Chain__Timestamp")])),
    (b!"governanceresult", .enum [] (some [(b!"FailedToDecodeCall", b!"NULL"), (b!"DispatchSuccess", b!"NULL"), (b!"DispatchFailure", b!"DispatchError")])),
    (b!"chainlogevent", .enum [] (some [(b!"Eth", b!"EthereumLogEvent")])),
    (b!"ethereum__chain__event", .enum [] (some [(b!"Lock", b!"EthereumEventLock"), (b!"LockCash", b!"EthereumEventLockCash"), (b!"ExecTrxRequest", b!"EthereumEventExecTrxRequest"), (b!"ExecuteProposal", b!"EthereumEventExecuteProposal"), (b!"NoticeInvoked", b!"EthereumEventNoticeInvoked")])),
    (b!"dot__eventid", .struct (some [(b!"col1", b!"u64"), (b!"col2", b!"u64")])),
    (b!"tez__eventid", .struct (some [(b!"col1", b!"u128"), (b!"col2", b!"u128")])),
    (b!"cashextractionnoticeeth", .struct (some [(b!"id", b!"NoticeId"), (b!"parent", b!"Ethereum__Chain__Hash"), (b!"account", b!"Ethereum__Chain__Address"), (b!"principal", b!"Ethereum__Chain__Amount")])),
    (b!"chainreorgeth", .struct (some [(b!"from_hash", b!"Ethereum__Chain__Hash"), (b!"to_hash", b!"Ethereum__Chain__Hash"), (b!"reverse_blocks", b!"Vec<Ethereum__Chain__Block>"), (b!"forward_blocks", b!"Vec<Ethereum__Chain__Block>")])),
    (b!"chainreorgtally", .struct (some [(b!"reorg", b!"ChainReorg"), (b!"support", b!"SignersSet")])),
    (b!"chainid", .enum [] (some [(b!"Gate", b!"NULL"), (b!"Eth", b!"NULL"), (b!"Dot", b!"NULL")])),
    (b!"chainreorg", .enum [] (some [(b!"Eth", b!"ChainReorgEth")])),
    (b!"eth__logindex", .u64),
    (b!"setsupplycapnotice", .enum [] (some [(b!"Eth", b!"SetSupplyCapNoticeEth")])),
    (b!"polkadot__chain__rate", .u128),
    (b!"eth__blocknumber", .u64),
    (b!"eraindex", .u32),
    (b!"changeauthoritynoticeeth", .struct (some [(b!"id", b!"NoticeId"), (b!"parent", b!"Ethereum__Chain__Hash"), (b!"new_authorities", b!"Vec<Ethereum__Chain__Address>")])),
    (b!"ethereum__chain__eventid", .struct (some [(b!"col1", b!"BlockNumber"), (b!"col2", b!"LogIndex")])),
    (b!"polkadot__chain__hash", .fixedU8 32),
    (b!"ethereum__chain__cashindex", .u128),
    (b!"comp__eventid", .struct (some [(b!"col1", b!"u64"), (b!"col2", b!"u64")])),
    (b!"chainsignature", .enum [] (some [(b!"Gate", b!"Gateway__Chain__Signature"), (b!"Eth", b!"Ethereum__Chain__Signature"), (b!"Dot", b!"Polkadot__Chain__Signature")])),
    (b!"changeauthoritynotice", .enum [] (some [(b!"Eth", b!"ChangeAuthorityNoticeEth")])),
    (b!"reporter", .fixedU8 20),
    (b!"keys", .struct (some [(b!"aura", b!"[u8;32]"), (b!"grandpa", b!"[u8;32]")])),
    (b!"timestamp", .u64),
    (b!"symbol", .fixedArray 12 b!"u8"),
    (b!"codehash", .fixedU8 32),
    (b!"tezos__chain__hash", .fixedU8 32),
    (b!"cryptoerror", .enum [] (some [(b!"Unknown", b!"NULL"), (b!"KeyNotFound", b!"NULL"), (b!"KeyringLock", b!"NULL"), (b!"InvalidKeyId", b!"NULL"), (b!"ParseError", b!"NULL"), (b!"RecoverError", b!"NULL"), (b!"HSMError", b!"NULL"), (b!"EnvironmentVariablePrivateKeyNotSet", b!"NULL"), (b!"HexDecodeFailed", b!"NULL"), (b!"EnvironmentVariableHexDecodeFailed", b!"NULL"), (b!"EnvironmentVariableInvalidSeed", b!"NULL")])),
    (b!"eraid", .u32),
    (b!"ethereum__chain__hash", .fixedU8 32),
    (b!"validatorsig", .fixedU8 65),
    (b!"ethereumeventexectrxrequest", .struct (some [(b!"account", b!"[u8; 20]"), (b!"trx_request", b!"String")])),
    (b!"tezos__chain__cashindex", .u128),
    (b!"balance", .struct (some [(b!"value", b!"AssetBalance"), (b!"units", b!"Units")])),
    (b!"decimals", .u8),
    (b!"quantity", .struct (some [(b!"value", b!"AssetAmount"), (b!"units", b!"Units")])),
    (b!"ethereumeventlockcash", .struct (some [(b!"sender", b!"[u8; 20]"), (b!"chain", b!"String"), (b!"recipient", b!"[u8; 32]"), (b!"amount", b!"u128"), (b!"principal", b!"u128")])),
    (b!"polkadot__chain__timestamp", .u64),
    (b!"chainaccount", .enum [] (some [(b!"Gate", b!"Gateway__Chain__Address"), (b!"Eth", b!"Ethereum__Chain__Address"), (b!"Dot", b!"Polkadot__Chain__Address")])),
    (b!"interestratemodel", .enum [] (some [(b!"Kink", b!"InterestRateModelKink"), (b!"Fixed", b!"InterestRateModelFixed")])),
    (b!"eth__eventid", .struct (some [(b!"col1", b!"BlockNumber"), (b!"col2", b!"LogIndex")])),
    (b!"int", .intFixed 16),
    (b!"ethereum__chain__timestamp", .u64),
    (b!"solana__chain__address", .fixedU8 20),
    (b!"ethereumlogevent", .struct (some [(b!"block_hash", b!"[u8; 32]"), (b!"block_number", b!"u64"), (b!"transaction_index", b!"u64"), (b!"log_index", b!"u64"), (b!"event", b!"EthereumEvent")])),
    (b!"encodednotice", .bytes),
    (b!"tezos__chain__address", .fixedU8 20),
    (b!"bips", .u128),
    (b!"reporterset", .vec b!"Reporter"),
    (b!"price", .struct (some [(b!"ticker", b!"Ticker"), (b!"value", b!"AssetPrice")])),
    (b!"apiinterestratemodel", .enum [] (some [(b!"Kink", b!"ApiInterestRateModelKink"), (b!"Fixed", b!"ApiInterestRateModelFixed")])),
    (b!"eventstate", .enum [] (some [(b!"Pending", b!"EventStatePending"), (b!"Failed", b!"EventStateFailed"), (b!"Done", b!"null")])),
    (b!"setyieldnexterror", .enum [] (some [(b!"NotEnoughTimeToSyncBeforeNext", b!"null"), (b!"NotEnoughTimeToSyncBeforeCancel", b!"null")])),
    (b!"eventerror", .enum [] (some [(b!"NoRpcUrl", b!"NULL"), (b!"NoStarportAddress", b!"NULL"), (b!"EthereumClientError", b!"EthereumClientError"), (b!"ErrorDecodingHex", b!"NULL"), (b!"InvalidBlockchain", b!"NULL")])),
    (b!"polkadot__chain__event", .null),
    (b!"signedpayload", .bytes),
    (b!"apiassetdata", .struct (some [(b!"asset", b!"String"), (b!"balance", b!"String"), (b!"total_supply", b!"String"), (b!"total_borrow", b!"String"), (b!"supply_rate", b!"String"), (b!"borrow_rate", b!"String"), (b!"liquidity_factor", b!"String"), (b!"price", b!"String")])),
    (b!"address", .enum [] (some [(b!"Id", b!"AccountId"), (b!"Index", b!"Compact<AccountIndex>"), (b!"Raw", b!"Bytes"), (b!"Address32", b!"H256"), (b!"Address20", b!"H160")])),
    (b!"authorities", .vec b!"AccountId32"),
    (b!"solana__chain__timestamp", .u64),
    (b!"cashprincipalamount", .u128),
    (b!"cashorchainasset", .enum [] (some [(b!"Cash", b!"NULL"), (b!"ChainAsset", b!"ChainAsset")])),
    (b!"ticker", .fixedArray 12 b!"u8"),
    (b!"assetquantity", .struct (some [(b!"value", b!"AssetAmount"), (b!"units", b!"Units")])),
    (b!"solana__chain__eventid", .struct (some [(b!"col1", b!"u64"), (b!"col2", b!"u64")])),
    (b!"lookupsource", .enum [] (some [(b!"Id", b!"AccountId"), (b!"Index", b!"Compact<AccountIndex>"), (b!"Raw", b!"Bytes"), (b!"Address32", b!"H256"), (b!"Address20", b!"H160")])),
    (b!"ethereum__chain__signature", .fixedU8 65),
    (b!"ethereumeventlock", .struct (some [(b!"asset", b!"[u8; 20]"), (b!"sender", b!"[u8; 20]"), (b!"chain", b!"String"), (b!"recipient", b!"[u8; 32]"), (b!"amount", b!"u128")])),
    (b!"oracleerror", .enum [] (some [(b!"BadTicker", b!"null"), (b!"CryptoError", b!"null"), (b!"EthAbiParseError", b!"null"), (b!"HexParseError", b!"null"), (b!"HttpError", b!"null"), (b!"InvalidApiEndpoint", b!"null"), (b!"InvalidKind", b!"null"), (b!"InvalidReporter", b!"null"), (b!"InvalidSymbol", b!"null"), (b!"InvalidTicker", b!"null"), (b!"InvalidTimestamp", b!"null"), (b!"JsonParseError", b!"null"), (b!"NoPriceFeedURL", b!"null"), (b!"StalePrice", b!"null"), (b!"SubmitError", b!"null"), (b!"NoPrice", b!"null")])),
    (b!"matherror", .enum [] (some [(b!"AbnormalFloatingPointResult", b!"NULL"), (b!"DivisionByZero", b!"NULL"), (b!"Overflow", b!"NULL"), (b!"Underflow", b!"NULL"), (b!"SignMismatch", b!"NULL"), (b!"PriceNotUSD", b!"NULL"), (b!"UnitsMismatch", b!"NULL")])),
    (b!"sessionindex", .u32),
    (b!"portfolio", .struct (some [(b!"cash", b!"Balance"), (b!"positions", b!"Vec<(AssetInfo,Balance)>")])),
    (b!"apicashdata", .struct (some [(b!"balance", b!"String"), (b!"cash_yield", b!"String"), (b!"price", b!"String")])),
    (b!"ethereum__chain__address", .fixedU8 20),
    (b!"noticestate", .enum [] (some [(b!"Missing", b!"null"), (b!"Pending", b!"NoticeStatePending"), (b!"Executed", b!"null")])),
    (b!"chainlogideth", .struct (some [(b!"col1", b!"eth__BlockNumber"), (b!"col2", b!"eth__LogIndex")])),
    (b!"polkadot__chain__signature", .fixedU8 65),
    (b!"futureyieldnotice", .enum [] (some [(b!"Eth", b!"FutureYieldNoticeEth")])),
    (b!"ethereumeventnoticeinvoked", .struct (some [(b!"era_id", b!"u32"), (b!"era_index", b!"u32"), (b!"notice_hash", b!"[u8; 32]"), (b!"result", b!"Vec<u8>")])),
    (b!"apiapr", .u64),
    (b!"polkadot__chain__cashindex", .u128),
    (b!"tezos__chain__eventid", .struct (some [(b!"col1", b!"u128"), (b!"col2", b!"u128")])),
    (b!"polkadot__chain__eventid", .struct (some [(b!"col1", b!"u64"), (b!"col2", b!"u64")])),
    (b!"solana__chain__cashindex", .u128),
    (b!"tezos__chain__signature", .fixedU8 65),
    (b!"eventstatepending", .struct (some [(b!"signers", b!"SignersSet")])),
    (b!"weight", .u64),
    (b!"compactassignments", .struct (some [(b!"votes1", b!"Vec<(NominatorIndexCompact, ValidatorIndexCompact)>"), (b!"votes2", b!"Vec<(NominatorIndexCompact, CompactScoreCompact, ValidatorIndexCompact)>"), (b!"votes3", b!"Vec<(NominatorIndexCompact, [CompactScoreCompact; 2], ValidatorIndexCompact)>"), (b!"votes4", b!"Vec<(NominatorIndexCompact, [CompactScoreCompact; 3], ValidatorIndexCompact)>"), (b!"votes5", b!"Vec<(NominatorIndexCompact, [CompactScoreCompact; 4], ValidatorIndexCompact)>"), (b!"votes6", b!"Vec<(NominatorIndexCompact, [CompactScoreCompact; 5], ValidatorIndexCompact)>"), (b!"votes7", b!"Vec<(NominatorIndexCompact, [CompactScoreCompact; 6], ValidatorIndexCompact)>"), (b!"votes8", b!"Vec<(NominatorIndexCompact, [CompactScoreCompact; 7], ValidatorIndexCompact)>"), (b!"votes9", b!"Vec<(NominatorIndexCompact, [CompactScoreCompact; 8], ValidatorIndexCompact)>"), (b!"votes10", b!"Vec<(NominatorIndexCompact, [CompactScoreCompact; 9], ValidatorIndexCompact)>"), (b!"votes11", b!"Vec<(NominatorIndexCompact, [CompactScoreCompact; 10], ValidatorIndexCompact)>"), (b!"votes12", b!"Vec<(NominatorIndexCompact, [CompactScoreCompact; 11], ValidatorIndexCompact)>"), (b!"votes13", b!"Vec<(NominatorIndexCompact, [CompactScoreCompact; 12], ValidatorIndexCompact)>"), (b!"votes14", b!"Vec<(NominatorIndexCompact, [CompactScoreCompact; 13], ValidatorIndexCompact)>"), (b!"votes15", b!"Vec<(NominatorIndexCompact, [CompactScoreCompact; 14], ValidatorIndexCompact)>"), (b!"votes16", b!"Vec<(NominatorIndexCompact, [CompactScoreCompact; 15], ValidatorIndexCompact)>")])),
    (b!"dispatchresult", .enum [] (some [(b!"Ok", b!"Null"), (b!"Error", b!"DispatchError")])),
    (b!"chainblock", .enum [] (some [(b!"Eth", b!"EthereumBlock")])),
    (b!"chainblockevent", .enum [] (some [(b!"Reserved", b!"NULL"), (b!"Eth", b!"ChainBlockEventEth")])),
    (b!"chainblockevents", .enum [] (some [(b!"Reserved", b!"NULL"), (b!"Eth", b!"Vec<(ChainBlockNumber,Ethereum__Chain__Event)>")])),
    (b!"chainblocks", .enum [] (some [(b!"Eth", b!"Vec<Ethereum__Chain__Block>")])),
    (b!"chainblockeventeth", .struct (some [(b!"col1", b!"ChainBlockNumber"), (b!"col2", b!"Ethereum__Chain__Event")])),
    (b!"chainblocknumber", .u64),
    (b!"ethereum__chain__block", .struct (some [(b!"hash", b!"EthereumHash"), (b!"parent_hash", b!"EthereumHash"), (b!"number", b!"EthereumBlockNumber"), (b!"events", b!"Vec<EthereumEvent>")])),
    (b!"ethereumblock", .struct (some [(b!"hash", b!"EthereumHash"), (b!"parent_hash", b!"EthereumHash"), (b!"number", b!"EthereumBlockNumber"), (b!"events", b!"Vec<EthereumEvent>")])),
    (b!"chainblocktally", .struct (some [(b!"block", b!"ChainBlock"), (b!"support", b!"SignersSet"), (b!"dissent", b!"SignersSet")])),
    (b!"ethereumblocknumber", .u64),
    (b!"ethereumhash", .fixedU8 32),
    (b!"apicashdata#10-?", .struct (some [(b!"balance", b!"String"), (b!"cash_yield", b!"String"), (b!"price", b!"String"), (b!"cash_principal", b!"String"), (b!"cash_index", b!"String"), (b!"total_cash", b!"String")])),
    (b!"reserved", .null),
    (b!"gateway__chain__address", .fixedU8 32),
    (b!"gateway__chain__amount", .u128),
    (b!"gateway__chain__block", .null),
    (b!"gateway__chain__cashindex", .u128),
    (b!"gateway__chain__event", .null),
    (b!"gateway__chain__hash", .fixedU8 32),
    (b!"gateway__chain__publickey", .fixedU8 64),
    (b!"gateway__chain__rate", .u128),
    (b!"gateway__chain__signature", .fixedU8 65),
    (b!"gateway__chain__timestamp", .u64) ]

end ScaleGo.NetClasses
