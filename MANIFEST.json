{
 "claims": [
  {
   "property": "C01",
   "status": "proved",
   "theorems": [
    "Verif.Props.C01_balances_sum_to_supply"
   ],
   "note": "Sum over all 2^160 addresses, every history."
  },
  {
   "property": "C02",
   "status": "proved",
   "theorems": [
    "Verif.Props.C02_transfer_succeeds_iff",
    "Verif.Props.C02_transfer_effect",
    "Verif.Props.C02_transfer_errors"
   ],
   "note": "Success condition, exact effect and complete error table."
  },
  {
   "property": "C03",
   "status": "proved",
   "theorems": [
    "Verif.Props.C03_transferFrom_succeeds_iff",
    "Verif.Props.C03_transferFrom_effect",
    "Verif.Props.C03_transferFrom_errors",
    "Verif.Props.C03_from_zero_fails"
   ],
   "note": "Success condition, exact effect and complete error table (non-zero caller and owner)."
  },
  {
   "property": "C04",
   "status": "proved",
   "theorems": [
    "Verif.Props.C04_allowance_budget",
    "Verif.Props.C04_taken_le_allowance"
   ],
   "note": ""
  },
  {
   "property": "C05",
   "status": "proved",
   "theorems": [
    "Verif.Props.C05_only_authorised_debit"
   ],
   "note": ""
  },
  {
   "property": "C06",
   "status": "proved",
   "theorems": [
    "Verif.Props.C06_zero_address_clean"
   ],
   "note": ""
  },
  {
   "property": "C07",
   "status": "proved",
   "theorems": [
    "Verif.Props.C07_accepts_iff",
    "Verif.Props.C07_no_wraparound",
    "Verif.Props.C07_panics_iff"
   ],
   "note": ""
  },
  {
   "property": "C08",
   "status": "proved",
   "theorems": [
    "Verif.Props.C08_events_replay"
   ],
   "note": ""
  },
  {
   "property": "C09",
   "status": "proved",
   "theorems": [
    "Verif.Props.C09_approve_exact"
   ],
   "note": ""
  },
  {
   "property": "C10",
   "status": "proved",
   "theorems": [
    "Verif.Props.Erc20Example.C10_supply_le_cap",
    "Verif.Props.Erc20Example.C10_mint_boundary"
   ],
   "note": ""
  },
  {
   "property": "C11",
   "status": "proved",
   "theorems": [
    "Verif.Props.Erc20Example.C11_paused_rejects",
    "Verif.Props.Erc20Example.C11_paused_frozen",
    "Verif.Props.Erc20Example.C11_toggles",
    "Verif.Props.Erc20Example.C11_unpaused_is_bare_token"
   ],
   "note": ""
  },
  {
   "property": "C12",
   "status": "proved",
   "theorems": [
    "Verif.Props.C12_burn_succeeds_iff",
    "Verif.Props.C12_burnFrom_effect",
    "Verif.Props.C12_burn_effect"
   ],
   "note": ""
  },
  {
   "property": "C13",
   "status": "proved",
   "theorems": [
    "Verif.Props.Permit.C13_succeeds_iff",
    "Verif.Props.Permit.C13_effect",
    "Verif.Props.Permit.C13_expired",
    "Verif.Props.Permit.C13_wrong_signer",
    "Verif.Props.Permit.C13_message_injective"
   ],
   "note": ""
  },
  {
   "property": "C14",
   "status": "proved",
   "theorems": [
    "Verif.Props.Permit.C14_nonces_monotone",
    "Verif.Props.Permit.C14_no_replay",
    "Verif.Props.Permit.C14_resubmission"
   ],
   "note": ""
  },
  {
   "property": "C15",
   "status": "proved",
   "theorems": [
    "Verif.Props.FlashMint.C15_loan_is_repaid",
    "Verif.Props.FlashMint.C15_limits",
    "Verif.Props.FlashMint.C15_bad_answer",
    "Verif.Props.FlashMint.C15_repayment_accepted"
   ],
   "note": ""
  },
  {
   "property": "C16",
   "status": "proved",
   "theorems": [
    "Verif.Props.FlashMint.C16_balances_sum_to_supply",
    "Verif.Props.FlashMint.C16_supply_restored",
    "Verif.Props.FlashMint.C16_supply_exact"
   ],
   "note": ""
  },
  {
   "property": "C17",
   "status": "proved",
   "theorems": [
    "Verif.Props.Wrapper.C17_always_backed",
    "Verif.Props.Wrapper.C17_recover",
    "Verif.Props.Wrapper.C17_exact_without_donations"
   ],
   "note": ""
  },
  {
   "property": "C18",
   "status": "proved",
   "theorems": [
    "Verif.Props.Wrapper.C18_deposit_succeeds_iff",
    "Verif.Props.Wrapper.C18_deposit_effect",
    "Verif.Props.Wrapper.C18_withdraw_succeeds_iff",
    "Verif.Props.Wrapper.C18_withdraw_effect",
    "Verif.Props.Wrapper.C18_round_trip"
   ],
   "note": ""
  },
  {
   "property": "C19",
   "status": "proved",
   "theorems": [
    "Verif.Props.Erc4626.C19_shares_floor",
    "Verif.Props.Erc4626.C19_shares_ceil",
    "Verif.Props.Erc4626.C19_assets_floor",
    "Verif.Props.Erc4626.C19_assets_ceil",
    "Verif.Props.Erc4626.C19_only_panics"
   ],
   "note": ""
  },
  {
   "property": "C20",
   "status": "proved",
   "theorems": [
    "Verif.Props.Erc4626.C20_deposit",
    "Verif.Props.Erc4626.C20_mint",
    "Verif.Props.Erc4626.C20_withdraw",
    "Verif.Props.Erc4626.C20_redeem",
    "Verif.Props.Erc4626.C20_allowance_used"
   ],
   "note": ""
  },
  {
   "property": "C21",
   "status": "proved",
   "theorems": [
    "Verif.Props.Erc4626.C21_deposit_redeem",
    "Verif.Props.Erc4626.C21_mint_redeem",
    "Verif.Props.Erc4626.C21_deposit_withdraw",
    "Verif.Props.Erc4626.C21_mint_withdraw",
    "Verif.Props.Erc4626.C21_withdraw_deposit",
    "Verif.Props.Erc4626.C21_withdraw_mint",
    "Verif.Props.Erc4626.C21_redeem_deposit",
    "Verif.Props.Erc4626.C21_redeem_mint"
   ],
   "note": ""
  },
  {
   "property": "C22",
   "status": "proved",
   "theorems": [
    "Verif.Props.Erc4626.C22_step",
    "Verif.Props.Erc4626.C22_history",
    "Verif.Props.Erc4626.C22_convertible_monotone"
   ],
   "note": ""
  },
  {
   "property": "C23",
   "status": "proved",
   "theorems": [
    "Verif.Props.Erc4626.C23_withdraw_limit",
    "Verif.Props.Erc4626.C23_redeem_limit",
    "Verif.Props.Erc4626.C23_withdraw_affordable",
    "Verif.Props.Erc4626.C23_redeem_succeeds"
   ],
   "note": ""
  },
  {
   "property": "C24",
   "status": "proved",
   "theorems": [
    "Verif.Props.Erc4626.C24_no_profit",
    "Verif.Props.Erc4626.C24_loss_bound",
    "Verif.Props.Erc4626.C24_attack_cost",
    "Verif.Props.Erc4626.C24_inflation_attack",
    "Verif.Props.Inflation.C24_any_attack",
    "Verif.Props.Inflation.C24_two_depositors"
   ],
   "note": ""
  },
  {
   "property": "C25",
   "status": "proved",
   "theorems": [
    "Verif.Props.SafeErc20.C25_safe_transfer",
    "Verif.Props.SafeErc20.C25_safe_transfer_from",
    "Verif.Props.SafeErc20.C25_full_word",
    "Verif.Props.SafeErc20.C25_short_answer_accepted"
   ],
   "note": ""
  },
  {
   "property": "C26",
   "status": "proved",
   "theorems": [
    "Verif.Props.SafeErc20.C26_force_approve",
    "Verif.Props.SafeErc20.C26_increase",
    "Verif.Props.SafeErc20.C26_decrease",
    "Verif.Props.SafeErc20.C26_standard_conforms",
    "Verif.Props.SafeErc20.C26_usdt_conforms",
    "Verif.Props.SafeErc20.C26_only_documented_panic"
   ],
   "note": ""
  },
  {
   "property": "C27",
   "status": "proved",
   "theorems": [
    "Verif.Props.Math.C27_floor",
    "Verif.Props.Math.C27_ceil",
    "Verif.Props.Math.C27_panics_iff"
   ],
   "note": ""
  },
  {
   "property": "C28",
   "status": "proved",
   "theorems": [
    "Verif.Props.Math.C28_sqrt_exact",
    "Verif.Props.Math.C28_sqrt_largest",
    "Verif.Props.Math.C28_no_overflow"
   ],
   "note": ""
  },
  {
   "property": "C29",
   "status": "proved",
   "theorems": [
    "Verif.Props.Math.C29_average"
   ],
   "note": ""
  },
  {
   "property": "C30",
   "status": "proved",
   "theorems": [
    "Verif.Props.Vesting.C30_schedule_is_curve",
    "Verif.Props.Vesting.C30_curve_shape"
   ],
   "note": ""
  },
  {
   "property": "C31",
   "status": "proved",
   "theorems": [
    "Verif.Props.Vesting.C31_eth_accounting",
    "Verif.Props.Vesting.C31_token_accounting",
    "Verif.Props.Vesting.C31_releasable_exact",
    "Verif.Props.Vesting.C31_release_effect",
    "Verif.Props.Vesting.C31_release_token_effect",
    "Verif.Props.Vesting.C31_all_released_at_end",
    "Verif.Props.Vesting.C31_all_tokens_released_at_end",
    "Verif.Props.Vesting.C31_release_succeeds",
    "Verif.Props.Vesting.C31_released_is_paid",
    "Verif.Props.Vesting.C31_shrinking_token_wraps"
   ],
   "note": ""
  },
  {
   "property": "C32",
   "status": "proved",
   "theorems": [
    "Verif.Props.Utils.C32_use_nonce",
    "Verif.Props.Utils.C32_use_nonce_fails_iff",
    "Verif.Props.Utils.C32_use_checked_nonce",
    "Verif.Props.Utils.C32_consumed_sequential"
   ],
   "note": ""
  },
  {
   "property": "C33",
   "status": "proved",
   "theorems": [
    "Verif.Props.Utils.C33_pause",
    "Verif.Props.Utils.C33_unpause",
    "Verif.Props.Utils.C33_guards",
    "Verif.Props.Utils.C33_paused_is_parity",
    "Verif.Props.Utils.C33_log_alternates"
   ],
   "note": ""
  },
  {
   "property": "C34",
   "status": "proved",
   "theorems": [
    "Verif.Props.Utils.C34_refines_set",
    "Verif.Props.Utils.C34_write_is_local"
   ],
   "note": ""
  },
  {
   "property": "C35",
   "status": "proved",
   "theorems": [
    "Verif.Props.Checkpoints.C35_history",
    "Verif.Props.Checkpoints.C35_push_nonempty",
    "Verif.Props.Checkpoints.C35_push_empty",
    "Verif.Props.Checkpoints.C35_observers"
   ],
   "note": ""
  },
  {
   "property": "C36",
   "status": "proved",
   "theorems": [
    "Verif.Props.Checkpoints.C36_lower_lookup",
    "Verif.Props.Checkpoints.C36_upper_lookup",
    "Verif.Props.Checkpoints.C36_upper_lookup_recent"
   ],
   "note": ""
  },
  {
   "property": "C37",
   "status": "proved",
   "theorems": [
    "Verif.Props.Checkpoints.C37_past_immutable"
   ],
   "note": ""
  },
  {
   "property": "C38",
   "status": "proved",
   "theorems": [
    "Verif.Props.Access.C38_grant_role",
    "Verif.Props.Access.C38_revoke_role",
    "Verif.Props.Access.C38_renounce_role",
    "Verif.Props.Access.C38_only_role",
    "Verif.Props.Access.C38_gain_only_by_admin_grant",
    "Verif.Props.Access.C38_lose_only_by_admin_or_self",
    "Verif.Props.Access.C38_admin_fixed",
    "Verif.Props.Access.C38_no_escalation"
   ],
   "note": ""
  },
  {
   "property": "C39",
   "status": "proved",
   "theorems": [
    "Verif.Props.Access.C39_log_replay",
    "Verif.Props.Access.C39_no_redundant_event",
    "Verif.Props.Access.C39_event_names_sender"
   ],
   "note": ""
  },
  {
   "property": "C40",
   "status": "proved",
   "theorems": [
    "Verif.Props.Access.C40_only_owner",
    "Verif.Props.Access.C40_transfer_ownership",
    "Verif.Props.Access.C40_renounce_ownership",
    "Verif.Props.Access.C40_owner_changes_only_by_owner",
    "Verif.Props.Access.C40_strangers_change_nothing",
    "Verif.Props.Access.C40_renounced_forever",
    "Verif.Props.Access.C40_log_replay"
   ],
   "note": ""
  },
  {
   "property": "C41",
   "status": "proved",
   "theorems": [
    "Verif.Props.Access.C41_transfer_ownership",
    "Verif.Props.Access.C41_accept_ownership",
    "Verif.Props.Access.C41_renounce_ownership",
    "Verif.Props.Access.C41_owner_change",
    "Verif.Props.Access.C41_pending_change",
    "Verif.Props.Access.C41_accept_requires_nomination",
    "Verif.Props.Access.C41_strangers_change_nothing",
    "Verif.Props.Access.C41_renounced_forever"
   ],
   "note": ""
  },
  {
   "property": "C42",
   "status": "proved",
   "theorems": [
    "Verif.Props.Crypto.C42_recover_ok_iff",
    "Verif.Props.Crypto.C42_high_s_rejected",
    "Verif.Props.Crypto.C42_one_of_two",
    "Verif.Props.Crypto.C42_empty_answer_panics"
   ],
   "note": ""
  },
  {
   "property": "C43",
   "status": "proved",
   "theorems": [
    "Verif.Props.Crypto.C43_preimage_injective",
    "Verif.Props.Crypto.C43_preimage_layout",
    "Verif.Props.Crypto.C43_domain_injective",
    "Verif.Props.Crypto.C43_digest_binds",
    "Verif.Props.Crypto.C43_domain_reported"
   ],
   "note": ""
  },
  {
   "property": "C44",
   "status": "proved",
   "theorems": [
    "Verif.Props.Erc2981.C44_royalty_exact",
    "Verif.Props.Erc2981.C44_at_most_price",
    "Verif.Props.Erc2981.C44_setters"
   ],
   "note": ""
  },
  {
   "property": "C45",
   "status": "proved",
   "theorems": [
    "Verif.Props.Erc721.C45_balance_is_count",
    "Verif.Props.Erc721.C45_balance_mod",
    "Verif.Props.Erc721.C45_zero_owns_nothing"
   ],
   "note": ""
  },
  {
   "property": "C46",
   "status": "proved",
   "theorems": [
    "Verif.Props.Erc721.C46_transferFrom_succeeds_iff",
    "Verif.Props.Erc721.C46_transferFrom_errors",
    "Verif.Props.Erc721.C46_transferFrom_effect",
    "Verif.Props.Erc721.C46_balances_move_by_one"
   ],
   "note": ""
  },
  {
   "property": "C47",
   "status": "proved",
   "theorems": [
    "Verif.Props.Erc721.C47_no_theft",
    "Verif.Props.Erc721.C47_users_cannot_mint",
    "Verif.Props.Erc721.C47_safe_from_others"
   ],
   "note": ""
  },
  {
   "property": "C48",
   "status": "proved",
   "theorems": [
    "Verif.Props.Erc721.C48_mint_result",
    "Verif.Props.Erc721.C48_mint_effect",
    "Verif.Props.Erc721.C48_burn",
    "Verif.Props.Erc721.C48_user_burn",
    "Verif.Props.Erc721.C48_remint"
   ],
   "note": ""
  },
  {
   "property": "C49",
   "status": "proved",
   "theorems": [
    "Verif.Props.Erc721.C49_cleared_on_change",
    "Verif.Props.Erc721.C49_set_only_by_owner",
    "Verif.Props.Erc721.C49_no_approval_without_owner",
    "Verif.Props.Erc721.C49_approve",
    "Verif.Props.Erc721.C49_operators"
   ],
   "note": ""
  },
  {
   "property": "C50",
   "status": "proved",
   "theorems": [
    "Verif.Props.Erc721.C50_safe_transfer",
    "Verif.Props.Erc721.C50_safe_transfer_no_data",
    "Verif.Props.Erc721.C50_safe_mint",
    "Verif.Props.Erc721.C50_safe_transfer_internal",
    "Verif.Props.Erc721.C50_refusal_reported"
   ],
   "note": ""
  },
  {
   "property": "C51",
   "status": "proved",
   "theorems": [
    "Verif.Props.Erc721.C51_events_replay",
    "Verif.Props.Erc721.C51_events_truthful"
   ],
   "note": ""
  },
  {
   "property": "C52",
   "status": "partial",
   "theorems": [
    "Verif.Props.Enumerable.C52_total_supply",
    "Verif.Props.Enumerable.C52_each_token_listed_once",
    "Verif.Props.Enumerable.C52_every_index",
    "Verif.Props.Enumerable.C52_each_owned_token_listed_once_partial",
    "Verif.Props.Enumerable.C52_every_owner_index_partial",
    "Verif.Props.Enumerable.C52_zero_id_not_listed",
    "Verif.Props.Enumerable.C52_self_transfer_corrupts",
    "Verif.Props.Enumerable.C52_no_batch_mint"
   ],
   "note": "All-tokens half proved for every history. Owner half proved for non-zero ids and histories without self-transfers; both restrictions are shown necessary for the code as written (C52_zero_id_not_listed, C52_self_transfer_corrupts)."
  },
  {
   "property": "C53",
   "status": "proved",
   "theorems": [
    "Verif.Props.Consecutive.C53_deploy_succeeds_iff",
    "Verif.Props.Consecutive.C53_batch_errors",
    "Verif.Props.Consecutive.C53_batches_own_their_ranges",
    "Verif.Props.Consecutive.C53_behaves_as_plain",
    "Verif.Props.Consecutive.C53_same_errors",
    "Verif.Props.Consecutive.C53_balance_is_count",
    "Verif.Props.Consecutive.C53_burn_not_recorded_at_max",
    "Verif.Props.Consecutive.C53_first_batch_wraps",
    "Verif.Props.Consecutive.C53_late_batch_overlaps"
   ],
   "note": ""
  },
  {
   "property": "C54",
   "status": "proved",
   "theorems": [
    "Verif.Props.Erc721Wrapper.C54_wrapped_is_backed",
    "Verif.Props.Erc721Wrapper.C54_backing_cannot_be_moved",
    "Verif.Props.Erc721Wrapper.C54_deposit",
    "Verif.Props.Erc721Wrapper.C54_deposit_succeeds_iff",
    "Verif.Props.Erc721Wrapper.C54_withdraw",
    "Verif.Props.Erc721Wrapper.C54_withdraw_always_possible",
    "Verif.Props.Erc721Wrapper.C54_only_withdraw_unwraps",
    "Verif.Props.Erc721Wrapper.C54_hook_refuses_strangers",
    "Verif.Props.Erc721Wrapper.C54_safe_transfer_wraps",
    "Verif.Props.Erc721Wrapper.C54_recover"
   ],
   "note": ""
  },
  {
   "property": "C55",
   "status": "proved",
   "theorems": [
    "Verif.Erc1155.Props.C55_supply_is_minted_minus_burned",
    "Verif.Erc1155.Props.C55_balance_matches_log",
    "Verif.Erc1155.Props.C55_transfer_conserves",
    "Verif.Erc1155.Props.C55_single_transfer_conserves",
    "Verif.Erc1155.Props.C55_batch_is_sequence",
    "Verif.Erc1155.Props.C55_mint",
    "Verif.Erc1155.Props.C55_burn"
   ],
   "note": ""
  },
  {
   "property": "C56",
   "status": "proved",
   "theorems": [
    "Verif.Erc1155.Props.C56_authorised",
    "Verif.Erc1155.Props.C56_strangers_refused",
    "Verif.Erc1155.Props.C56_balance_falls_only_by_authority",
    "Verif.Erc1155.Props.C56_approvals_only_by_owner",
    "Verif.Erc1155.Props.C56_set_approval"
   ],
   "note": ""
  },
  {
   "property": "C57",
   "status": "proved",
   "theorems": [
    "Verif.Erc1155.Props.C57_batch_transfer",
    "Verif.Erc1155.Props.C57_single_transfer",
    "Verif.Erc1155.Props.C57_length_mismatch",
    "Verif.Erc1155.Props.C57_first_shortfall_reported",
    "Verif.Erc1155.Props.C57_balance_of_batch"
   ],
   "note": ""
  },
  {
   "property": "C58",
   "status": "proved",
   "theorems": [
    "Verif.Erc1155Supply.Props.C58_total_is_sum",
    "Verif.Erc1155Supply.Props.C58_exists_iff_held",
    "Verif.Erc1155Supply.Props.C58_same_token",
    "Verif.Erc1155Supply.Props.C58_fails_only_on_overflow",
    "Verif.Erc1155Supply.Props.C58_inner_burn_bypasses_totals"
   ],
   "note": ""
  },
  {
   "property": "C59",
   "status": "proved",
   "theorems": [
    "Verif.Erc1155Supply.Props.C59_aggregate_modulo",
    "Verif.Erc1155Supply.Props.C59_aggregate_exact",
    "Verif.Erc1155Supply.Props.C59_batch_sum_wraps"
   ],
   "note": ""
  },
  {
   "property": "C60",
   "status": "proved",
   "theorems": [
    "Verif.Props.Limb.C60_widening_mul",
    "Verif.Props.Limb.C60_wasm_equals_native",
    "Verif.Props.Limb.C60_mac",
    "Verif.Props.Limb.C60_carrying_mac",
    "Verif.Props.Limb.C60_adc",
    "Verif.Props.Limb.C60_adc_assign",
    "Verif.Props.Limb.C60_sbb",
    "Verif.Props.Limb.C60_sbb_assign",
    "Verif.Props.Limb.C60_no_overflow"
   ],
   "note": ""
  },
  {
   "property": "C61",
   "status": "proved",
   "theorems": [
    "Verif.Props.Uint.C61_representation",
    "Verif.Props.Uint.C61_add",
    "Verif.Props.Uint.C61_sub",
    "Verif.Props.Uint.C61_double",
    "Verif.Props.Uint.C61_halve",
    "Verif.Props.Uint.C61_adc",
    "Verif.Props.Uint.C61_add_variants",
    "Verif.Props.Uint.C61_constants"
   ],
   "note": ""
  },
  {
   "property": "C62",
   "status": "proved",
   "theorems": [
    "Verif.Props.Uint.C62_widening_mul",
    "Verif.Props.Uint.C62_mul"
   ],
   "note": ""
  },
  {
   "property": "C63",
   "status": "proved",
   "theorems": [
    "Verif.Props.Uint.C63_comparisons",
    "Verif.Props.Uint.C63_parity",
    "Verif.Props.Uint.C63_num_bits",
    "Verif.Props.Uint.C63_get_bit",
    "Verif.Props.Uint.C63_bitwise"
   ],
   "note": ""
  },
  {
   "property": "C64",
   "status": "proved",
   "theorems": [
    "Verif.Props.Uint.C64_remainder",
    "Verif.Props.Uint.C64_fails",
    "Verif.Props.Uint.C64_wide_bits"
   ],
   "note": ""
  },
  {
   "property": "C65",
   "status": "proved",
   "theorems": [
    "Verif.Props.Uint.C65_into_bytes",
    "Verif.Props.Uint.C65_from_bytes",
    "Verif.Props.Uint.C65_bytes_round_trip",
    "Verif.Props.Uint.C65_from_str_radix",
    "Verif.Props.Uint.C65_from_str_radix_canonical",
    "Verif.Props.Uint.C65_leading_zeros_refused",
    "Verif.Props.Uint.C65_from_str_hex",
    "Verif.Props.Uint.C65_hex_round_trip",
    "Verif.Props.Uint.C65_bits",
    "Verif.Props.Uint.C65_bits_primitive"
   ],
   "note": ""
  },
  {
   "property": "C66",
   "status": "proved",
   "theorems": [
    "Verif.Props.Fp.C66_inv",
    "Verif.Props.Fp.C66_radix",
    "Verif.Props.Fp.C66_spare_bit"
   ],
   "note": ""
  },
  {
   "property": "C67",
   "status": "proved",
   "theorems": [
    "Verif.Props.Fp.C67_add",
    "Verif.Props.Fp.C67_sub",
    "Verif.Props.Fp.C67_neg",
    "Verif.Props.Fp.C67_double",
    "Verif.Props.Fp.C67_mul",
    "Verif.Props.Fp.C67_square",
    "Verif.Props.Fp.C67_constants",
    "Verif.Props.Fp.C67_every_expression",
    "Verif.Props.FpField.C67_field_operations",
    "Verif.Props.FpField.C67_field_is_zmod"
   ],
   "note": ""
  },
  {
   "property": "C68",
   "status": "proved",
   "theorems": [
    "Verif.Props.Fp.C68_from_then_into",
    "Verif.Props.Fp.C68_into_then_from",
    "Verif.Props.Fp.C68_equality",
    "Verif.Props.Fp.C68_order",
    "Verif.Props.Fp.C68_from_integers",
    "Verif.Props.Fp.C68_from_wide_integers",
    "Verif.Props.Fp.C68_to_integers",
    "Verif.Props.Fp.C68_display"
   ],
   "note": ""
  },
  {
   "property": "C69",
   "status": "proved",
   "theorems": [
    "Verif.Props.Fp.C69_zero",
    "Verif.Props.Fp.C69_inverse",
    "Verif.Props.Fp.C69_inverse_of_coprime",
    "Verif.Props.Fp.C69_mul_inverse",
    "Verif.Props.Fp.C69_composite_does_not_stop",
    "Verif.Props.Fp.C69_div",
    "Verif.Props.FpField.C69_field_inverse"
   ],
   "note": ""
  },
  {
   "property": "C70",
   "status": "proved",
   "theorems": [
    "Verif.Props.Fp.C70_pow_bits",
    "Verif.Props.Fp.C70_pow_uint",
    "Verif.Props.Fp.C70_pow_primitive",
    "Verif.Props.Fp.C70_sums_and_products",
    "Verif.Props.Fp.C70_fermat"
   ],
   "note": ""
  },
  {
   "property": "C71",
   "status": "proved",
   "theorems": [
    "Verif.Props.Curve.C71_double",
    "Verif.Props.Curve.C71_add",
    "Verif.Props.Curve.C71_add_affine",
    "Verif.Props.Curve.C71_affine_ops",
    "Verif.Props.Curve.C71_neg",
    "Verif.Props.Curve.C71_sub",
    "Verif.Props.Curve.C71_sum",
    "Verif.Props.Curve.C71_identity",
    "Verif.Props.Curve.C71_every_expression",
    "Verif.Props.FpField.C71_over_library_fields"
   ],
   "note": ""
  },
  {
   "property": "C72",
   "status": "proved",
   "theorems": [
    "Verif.Props.Curve.C72_mul",
    "Verif.Props.Curve.C72_mul_bigint",
    "Verif.Props.Curve.C72_mul_mul",
    "Verif.Props.Curve.C72_cofactor_is_one",
    "Verif.Props.Curve.C72_subgroup",
    "Verif.Props.Curve.C72_clear_cofactor",
    "Verif.Props.Curve.C72_cleared_point_in_subgroup",
    "Verif.Props.Curve.C72_mul_by_cofactor_inv"
   ],
   "note": ""
  },
  {
   "property": "C73",
   "status": "proved",
   "theorems": [
    "Verif.Props.Curve.C73_coefficients",
    "Verif.Props.Curve.C73_conversions",
    "Verif.Props.Curve.C73_to_affine_total",
    "Verif.Props.Curve.C73_round_trip",
    "Verif.Props.Curve.C73_equality",
    "Verif.Props.Curve.C73_equal_points_same_affine",
    "Verif.Props.Curve.C73_on_curve",
    "Verif.Props.Curve.C73_on_curve_point",
    "Verif.Props.Curve.C73_new",
    "Verif.Props.Curve.C73_new_projective",
    "Verif.Props.Curve.C73_batch_inversion",
    "Verif.Props.Curve.C73_batch_inversion_and_mul",
    "Verif.Props.Curve.C73_normalize_batch"
   ],
   "note": ""
  },
  {
   "property": "C74",
   "status": "proved",
   "theorems": [
    "Verif.Props.Merkle.C74_members_verify",
    "Verif.Props.Merkle.C74_nodes_verify",
    "Verif.Props.Merkle.C74_array_trees"
   ],
   "note": ""
  },
  {
   "property": "C75",
   "status": "proved",
   "theorems": [
    "Verif.Props.Merkle.C75_sound",
    "Verif.Props.Merkle.C75_uniform_depth",
    "Verif.Props.Merkle.C75_data",
    "Verif.Props.Merkle.C75_inner_node_accepted"
   ],
   "note": ""
  },
  {
   "property": "C76",
   "status": "proved",
   "theorems": [
    "Verif.Props.Merkle.C76_result",
    "Verif.Props.Merkle.C76_sound",
    "Verif.Props.Merkle.C76_data",
    "Verif.Props.Merkle.C76_complete",
    "Verif.Props.Merkle.C76_single"
   ],
   "note": ""
  },
  {
   "property": "C77",
   "status": "proved",
   "theorems": [
    "Verif.Props.Merkle.C77_commutative",
    "Verif.Props.Merkle.C77_sorted",
    "Verif.Props.Merkle.C77_keccak"
   ],
   "note": ""
  },
  {
   "property": "C78",
   "status": "proved",
   "theorems": [
    "Verif.Props.Poseidon.C78_external",
    "Verif.Props.Poseidon.C78_internal",
    "Verif.Props.Poseidon.C78_other_sizes"
   ],
   "note": ""
  },
  {
   "property": "C79",
   "status": "proved",
   "theorems": [
    "Verif.Props.Poseidon.C79_hash",
    "Verif.Props.Poseidon.C79_blocks_exist",
    "Verif.Props.Poseidon.C79_batches",
    "Verif.Props.Poseidon.C79_absorb_effect",
    "Verif.Props.Poseidon.C79_histories",
    "Verif.Props.Poseidon.C79_trailing_zeros"
   ],
   "note": ""
  },
  {
   "property": "C80",
   "status": "proved",
   "theorems": [
    "Verif.Props.Poseidon.C80_permute_is_specified",
    "Verif.Props.Poseidon.C80_bijective",
    "Verif.Props.Poseidon.C80_matrices",
    "Verif.Props.Poseidon.C80_power",
    "Verif.Props.PoseidonInstances.C80_bn256",
    "Verif.Props.PoseidonInstances.C80_pallas",
    "Verif.Props.PoseidonInstances.C80_vesta",
    "Verif.Props.PoseidonInstances.C80_bls2",
    "Verif.Props.PoseidonInstances.C80_bls3",
    "Verif.Props.PoseidonInstances.C80_bls4",
    "Verif.Props.PoseidonInstances.C80_goldilocks12",
    "Verif.Props.PoseidonInstances.C80_babyBear24",
    "Verif.Props.PoseidonInstances.C80_library_operations",
    "Verif.Props.PoseidonInstances.C80_library"
   ],
   "note": ""
  },
  {
   "property": "C81",
   "status": "proved",
   "theorems": [
    "Verif.Props.FpInstances.C81_vesta",
    "Verif.Props.FpInstances.C81_vesta_generator",
    "Verif.Props.FpInstances.C81_pallas",
    "Verif.Props.FpInstances.C81_pallas_generator",
    "Verif.Props.FpInstances.C81_bls12",
    "Verif.Props.FpInstances.C81_bls12_generator",
    "Verif.Props.FpInstances.C81_bn256",
    "Verif.Props.FpInstances.C81_bn256_generator",
    "Verif.Props.FpInstances.C81_goldilocks",
    "Verif.Props.FpInstances.C81_goldilocks_generator",
    "Verif.Props.FpInstances.C81_babybear",
    "Verif.Props.FpInstances.C81_babybear_generator"
   ],
   "note": ""
  },
  {
   "property": "C82",
   "status": "proved",
   "theorems": [
    "Verif.Props.Metadata.C82_decimal_form",
    "Verif.Props.Metadata.C82_token_uri",
    "Verif.Props.Metadata.C82_distinct"
   ],
   "note": ""
  },
  {
   "property": "C83",
   "status": "proved",
   "theorems": [
    "Verif.Props.Metadata.C83_token_uri",
    "Verif.Props.Metadata.C83_tokens_untouched",
    "Verif.Props.Metadata.C83_uri_outlives_token"
   ],
   "note": ""
  },
  {
   "property": "C84",
   "status": "proved",
   "theorems": [
    "Verif.Props.Metadata1155.C84_uri",
    "Verif.Props.Metadata1155.C84_events",
    "Verif.Props.Metadata1155.C84_event_stays_true",
    "Verif.Props.Metadata1155.C84_base_change_is_silent"
   ],
   "note": ""
  },
  {
   "property": "C85",
   "status": "proved",
   "theorems": [
    "Verif.Props.Erc1155Example.C85_erc1155_paused_rejects",
    "Verif.Props.Erc1155Example.C85_erc1155_paused_frozen",
    "Verif.Props.Erc1155Example.C85_erc1155_otherwise_bare_token",
    "Verif.Props.Erc1155Example.C85_erc1155_toggles",
    "Verif.Props.Erc721Example.C85_erc721_paused_rejects",
    "Verif.Props.Erc721Example.C85_erc721_paused_frozen"
   ],
   "note": ""
  },
  {
   "property": "C86",
   "status": "proved",
   "theorems": [
    "Verif.Props.OwnableExample.C86_owner_gate",
    "Verif.Props.OwnableExample.C86_renounced_disables_transfer",
    "Verif.Props.OwnableExample.C86_gate_is_bypassed",
    "Verif.Props.Ownable2StepExample.C86_owner_gate_two_step",
    "Verif.Props.AccessExample.C86_role_gate",
    "Verif.Props.AccessExample.C86_role_needed_to_debit",
    "Verif.Props.AccessExample.C86_no_role_no_escalation",
    "Verif.Props.AccessExample.C86_any_role_is_every_role",
    "Verif.Props.AccessExample.C86_make_admin"
   ],
   "note": ""
  },
  {
   "property": "C87",
   "status": "proved",
   "theorems": [
    "Verif.Props.Interfaces.C87_order",
    "Verif.Props.Interfaces.C87_standard_ids",
    "Verif.Props.Interfaces.C87_access_control_differs",
    "Verif.Props.Interfaces.C87_supports",
    "Verif.Props.Interfaces.C87_invalid_id",
    "Verif.Props.Interfaces.C87_access_control_not_standard",
    "Verif.Props.Interfaces.C87_supply_example_silent",
    "Verif.Props.Interfaces.C87_constants"
   ],
   "note": ""
  },
  {
   "property": "C88",
   "status": "proved",
   "theorems": [
    "Verif.Props.Reentrant.C88_erc721_call",
    "Verif.Props.Reentrant.C88_erc1155_call",
    "Verif.Props.Reentrant.C88_supply_call",
    "Verif.Props.Reentrant.C88_erc721_linearises",
    "Verif.Props.Reentrant.C88_erc1155_linearises",
    "Verif.Props.Reentrant.C88_supply_linearises",
    "Verif.Props.Reentrant.C88_erc721_passive",
    "Verif.Props.Reentrant.C88_erc721_balances",
    "Verif.Props.Reentrant.C88_erc721_safe_from_others",
    "Verif.Props.Reentrant.C88_erc721_events",
    "Verif.Props.Reentrant.C88_erc721_receiver_sees_result",
    "Verif.Props.Reentrant.C88_erc1155_books",
    "Verif.Props.Reentrant.C88_supply_totals"
   ],
   "note": ""
  },
  {
   "property": "C89",
   "status": "proved",
   "theorems": [
    "Verif.Props.VestingReentrant.C89_passive",
    "Verif.Props.VestingReentrant.C89_ether_within_curve",
    "Verif.Props.VestingReentrant.C89_token_within_curve",
    "Verif.Props.VestingReentrant.C89_books",
    "Verif.Props.VestingReentrant.C89_early_token_overpaid"
   ],
   "note": ""
  },
  {
   "property": "C90",
   "status": "proved",
   "theorems": [
    "Verif.Props.Erc4626Reentrant.C90_passive",
    "Verif.Props.Erc4626Reentrant.C90_rate_never_falls",
    "Verif.Props.Erc4626Reentrant.C90_convertible_never_falls",
    "Verif.Props.Erc4626Reentrant.C90_holder_keeps_shares",
    "Verif.Props.Erc4626Reentrant.C90_holder_keeps_value",
    "Verif.Props.Erc4626Reentrant.C90_late_hook_is_not_harmless",
    "Verif.Props.Erc4626Reentrant.C90_early_hook_is_not_harmless"
   ],
   "note": ""
  },
  {
   "property": "C91",
   "status": "proved",
   "theorems": [
    "Verif.Props.WrapperReentrant.C91_passive",
    "Verif.Props.WrapperReentrant.C91_backed_without_recover",
    "Verif.Props.WrapperReentrant.C91_backed_with_recover",
    "Verif.Props.WrapperReentrant.C91_recover_in_hook_breaks"
   ],
   "note": ""
  },
  {
   "property": "C92",
   "status": "proved",
   "theorems": [
    "Verif.Props.Wrapper721Reentrant.C92_passive",
    "Verif.Props.Wrapper721Reentrant.C92_wrapped_is_backed",
    "Verif.Props.Wrapper721Reentrant.C92_backing_cannot_be_moved"
   ],
   "note": ""
  },
  {
   "property": "C93",
   "status": "proved",
   "theorems": [
    "Verif.Props.GenericHash.C93_hash_of_bytes",
    "Verif.Props.GenericHash.C93_commutative",
    "Verif.Props.GenericHash.C93_partial_order_is_not_enough",
    "Verif.Props.GenericHash.C93_words",
    "Verif.Props.GenericHash.C93_keccak_words"
   ],
   "note": ""
  },
  {
   "property": "C94",
   "status": "proved",
   "theorems": [
    "Verif.Props.PoseidonExample.C94_hash",
    "Verif.Props.PoseidonExample.C94_aliases"
   ],
   "note": ""
  },
  {
   "property": "C95",
   "status": "proved",
   "theorems": [
    "Verif.Props.Revert.C95_erc20",
    "Verif.Props.Revert.C95_erc721",
    "Verif.Props.Revert.C95_erc1155",
    "Verif.Props.Revert.C95_access_and_utils",
    "Verif.Props.Revert.C95_erc4626",
    "Verif.Props.Revert.C95_extensions",
    "Verif.Props.Revert.C95_passed_on",
    "Verif.Props.Revert.C95_distinguishable",
    "Verif.Props.Revert.C95_not_builtin",
    "Verif.Props.Revert.C95_all_declared",
    "Verif.Props.Revert.C95_erc20_decodes",
    "Verif.Props.Revert.C95_erc721_decodes",
    "Verif.Props.Revert.C95_erc1155_decodes",
    "Verif.Props.Revert.C95_transfer_data_truthful",
    "Verif.Props.Revert.C95_allowance_data_truthful",
    "Verif.Props.Revert.C95_receiver_forges",
    "Verif.Props.Revert.C95_safeErc20_not_standard",
    "Verif.Props.Revert.C95_standard_selectors"
   ],
   "note": ""
  },
  {
   "property": "C96",
   "status": "proved",
   "theorems": [
    "Verif.Props.Logs.C96_all_declared",
    "Verif.Props.Logs.C96_erc20_not_erc721",
    "Verif.Props.Logs.C96_erc20_indexer",
    "Verif.Props.Logs.C96_erc721_indexer",
    "Verif.Props.Logs.C96_roles_indexer",
    "Verif.Props.Logs.C96_erc1155_logs_determine",
    "Verif.Props.Logs.C96_published_topics",
    "Verif.Props.Logs.C96_erc20",
    "Verif.Props.Logs.C96_erc721",
    "Verif.Props.Logs.C96_erc1155",
    "Verif.Props.Logs.C96_metadata",
    "Verif.Props.Logs.C96_consecutive",
    "Verif.Props.Logs.C96_access",
    "Verif.Props.Logs.C96_finance",
    "Verif.Props.Logs.C96_encoding_decodes",
    "Verif.Props.Logs.C96_distinguishable"
   ],
   "note": ""
  },
  {
   "property": "C97",
   "status": "proved",
   "theorems": [
    "Verif.Props.Router.C97_abi",
    "Verif.Props.Router.C97_no_collisions",
    "Verif.Props.Router.C97_published",
    "Verif.Props.Router.C97_standards",
    "Verif.Props.Router.C97_pausable_complete",
    "Verif.Props.Router.C97_gates",
    "Verif.Props.Router.C97_decimals_overridden",
    "Verif.Props.Router.C97_wrapper_selector",
    "Verif.Props.Router.C97_wrapper_refuses"
   ],
   "note": ""
  },
  {
   "property": "C98",
   "status": "proved",
   "theorems": [
    "Verif.Props.Storage.C98_isolation",
    "Verif.Props.Storage.C98_read_own_write",
    "Verif.Props.Storage.C98_frame",
    "Verif.Props.Storage.C98_cells",
    "Verif.Props.Storage.C98_layouts_ok"
   ],
   "note": ""
  },
  {
   "property": "C99",
   "status": "proved",
   "theorems": [
    "Verif.Props.ConsecutiveConstructor.C99_consecutive",
    "Verif.Props.ConsecutiveConstructor.C99_consecutive_lengths",
    "Verif.Props.Constructors.C99_same_layout",
    "Verif.Props.Constructors.C99_erc20",
    "Verif.Props.Constructors.C99_basic_token",
    "Verif.Props.Constructors.C99_erc4626",
    "Verif.Props.Constructors.C99_erc721_metadata",
    "Verif.Props.Constructors.C99_erc1155_metadata_uri",
    "Verif.Props.Constructors.C99_access_control",
    "Verif.Props.Constructors.C99_erc1155",
    "Verif.Props.Constructors.C99_flash_mint",
    "Verif.Props.Constructors.C99_permit",
    "Verif.Props.Constructors.C99_erc20_wrapper",
    "Verif.Props.Constructors.C99_erc721_wrapper",
    "Verif.Props.Constructors.C99_erc721",
    "Verif.Props.Constructors.C99_ownable",
    "Verif.Props.Constructors.C99_ownable_two_step",
    "Verif.Props.Constructors.C99_vesting_wallet",
    "Verif.Props.Constructors.C99_reads",
    "Verif.Props.Constructors.C99_text",
    "Verif.Props.Constructors.C99_erc20_deployed",
    "Verif.Props.Constructors.C99_erc20_short"
   ],
   "note": ""
  },
  {
   "property": "C100",
   "status": "proved",
   "theorems": [
    "Verif.Props.StoragePrograms.C100_programs",
    "Verif.Props.StoragePrograms.C100_programs_frame",
    "Verif.Props.StoragePrograms.C100_erc20_step",
    "Verif.Props.StoragePrograms.C100_erc20",
    "Verif.Props.StoragePrograms.C100_erc20_fresh",
    "Verif.Props.StoragePrograms.C100_erc20_sum"
   ],
   "note": ""
  },
  {
   "property": "C101",
   "status": "proved",
   "theorems": [
    "Verif.Props.Calls.C101_token_messages",
    "Verif.Props.Calls.C101_receiver_messages",
    "Verif.Props.Calls.C101_read_back",
    "Verif.Props.Calls.C101_unambiguous",
    "Verif.Props.Calls.C101_erc721_receiver",
    "Verif.Props.Calls.C101_erc721_revert",
    "Verif.Props.Calls.C101_erc1155_receiver",
    "Verif.Props.Calls.C101_erc1155_batch_receiver",
    "Verif.Props.Calls.C101_flash_loan",
    "Verif.Props.Calls.C101_token_round_trip",
    "Verif.Props.Calls.C101_standard_token",
    "Verif.Props.Calls.C101_balance_read",
    "Verif.Props.Refusals.C101_erc1155_refusal",
    "Verif.Props.Refusals.C101_erc1155_batch_refusal",
    "Verif.Props.Refusals.C101_erc1155_batch_of_one"
   ],
   "note": ""
  },
  {
   "property": "C102",
   "status": "proved",
   "theorems": [
    "Verif.Props.Entry.C102_call",
    "Verif.Props.Entry.C102_views",
    "Verif.Props.Entry.C102_no_other_effect",
    "Verif.Props.Entry.C102_refused",
    "Verif.Props.Entry.C102_history",
    "Verif.Props.Entry.C102_supply",
    "Verif.Props.Entry.C102_only_authorised",
    "Verif.Props.Entry.C102_paused"
   ],
   "note": ""
  },
  {
   "property": "C103",
   "status": "proved",
   "theorems": [
    "Verif.Props.Contracts.Erc1155Contract.C103_erc1155_call",
    "Verif.Props.Contracts.Erc1155Contract.C103_erc1155_no_other_effect",
    "Verif.Props.Contracts.Erc1155Contract.C103_erc1155_history",
    "Verif.Props.Contracts.Erc1155Contract.C103_erc1155_sends",
    "Verif.Props.Contracts.Erc1155Contract.C103_erc1155_views",
    "Verif.Props.Contracts.Erc1155Contract.C103_erc1155_batch_view",
    "Verif.Props.Contracts.Erc1155Contract.C103_erc1155_no_theft",
    "Verif.Props.Contracts.Erc1155Contract.C103_erc1155_errors",
    "Verif.Props.Contracts.Erc1155SupplyContract.C103_erc1155_supply_call",
    "Verif.Props.Contracts.Erc1155SupplyContract.C103_erc1155_supply_no_other_effect",
    "Verif.Props.Contracts.Erc1155SupplyContract.C103_erc1155_supply_history",
    "Verif.Props.Contracts.Erc1155SupplyContract.C103_erc1155_supply_sends",
    "Verif.Props.Contracts.Erc1155SupplyContract.C103_erc1155_supply_views",
    "Verif.Props.Contracts.Erc1155SupplyContract.C103_erc1155_supply_batch_view",
    "Verif.Props.Contracts.Erc1155SupplyContract.C103_erc1155_supply_outside",
    "Verif.Props.Contracts.Erc1155SupplyContract.C103_erc1155_supply_who_lowers",
    "Verif.Props.Contracts.Erc1155SupplyContract.C103_erc1155_supply_anybody_burns",
    "Verif.Props.Contracts.Erc1155MetadataContract.C103_erc1155_metadata_call",
    "Verif.Props.Contracts.Erc1155MetadataContract.C103_erc1155_metadata_no_other_effect",
    "Verif.Props.Contracts.Erc1155MetadataContract.C103_erc1155_metadata_history",
    "Verif.Props.Contracts.Erc1155MetadataContract.C103_erc1155_metadata_sends",
    "Verif.Props.Contracts.Erc1155MetadataContract.C103_erc1155_metadata_views",
    "Verif.Props.Contracts.Erc1155MetadataContract.C103_erc1155_metadata_batch_view",
    "Verif.Props.Contracts.Erc1155MetadataContract.C103_erc1155_metadata_nobody_holds_any",
    "Verif.Props.Contracts.BasicTokenContract.C103_basic_token_call",
    "Verif.Props.Contracts.BasicTokenContract.C103_basic_token_no_other_effect",
    "Verif.Props.Contracts.BasicTokenContract.C103_basic_token_history",
    "Verif.Props.Contracts.BasicTokenContract.C103_basic_token_sends",
    "Verif.Props.Contracts.BasicTokenContract.C103_basic_token_views",
    "Verif.Props.Contracts.BasicTokenContract.C103_basic_token_supply",
    "Verif.Props.Contracts.BasicTokenContract.C103_basic_token_no_theft",
    "Verif.Props.Contracts.OwnableContract.C103_ownable_call",
    "Verif.Props.Contracts.OwnableContract.C103_ownable_no_other_effect",
    "Verif.Props.Contracts.OwnableContract.C103_ownable_history",
    "Verif.Props.Contracts.OwnableContract.C103_ownable_sends",
    "Verif.Props.Contracts.OwnableContract.C103_ownable_views",
    "Verif.Props.Contracts.OwnableContract.C103_ownable_owner_changes",
    "Verif.Props.Contracts.OwnableContract.C103_ownable_gate",
    "Verif.Props.Contracts.OwnableContract.C103_ownable_errors",
    "Verif.Props.Contracts.Ownable2StepContract.C103_ownable_two_step_call",
    "Verif.Props.Contracts.Ownable2StepContract.C103_ownable_two_step_no_other_effect",
    "Verif.Props.Contracts.Ownable2StepContract.C103_ownable_two_step_history",
    "Verif.Props.Contracts.Ownable2StepContract.C103_ownable_two_step_sends",
    "Verif.Props.Contracts.Ownable2StepContract.C103_ownable_two_step_views",
    "Verif.Props.Contracts.Ownable2StepContract.C103_ownable_two_step_owner_changes",
    "Verif.Props.Contracts.Ownable2StepContract.C103_ownable_two_step_gate",
    "Verif.Props.Contracts.Ownable2StepContract.C103_ownable_two_step_errors",
    "Verif.Props.Contracts.AccessContract.C103_access_control_call",
    "Verif.Props.Contracts.AccessContract.C103_access_control_no_other_effect",
    "Verif.Props.Contracts.AccessContract.C103_access_control_history",
    "Verif.Props.Contracts.AccessContract.C103_access_control_sends",
    "Verif.Props.Contracts.AccessContract.C103_access_control_views",
    "Verif.Props.Contracts.AccessContract.C103_access_control_roles_change",
    "Verif.Props.Contracts.AccessContract.C103_access_control_gate",
    "Verif.Props.Contracts.AccessContract.C103_access_control_errors",
    "Verif.Props.Contracts.PermitContract.C103_permit_call",
    "Verif.Props.Contracts.PermitContract.C103_permit_no_other_effect",
    "Verif.Props.Contracts.PermitContract.C103_permit_history",
    "Verif.Props.Contracts.PermitContract.C103_permit_sends",
    "Verif.Props.Contracts.PermitContract.C103_permit_views",
    "Verif.Props.Contracts.PermitContract.C103_permit_permit",
    "Verif.Props.Contracts.PermitContract.C103_permit_nonces",
    "Verif.Props.Contracts.PermitContract.C103_permit_allowance_rises",
    "Verif.Props.Contracts.Erc721Contract.C103_erc721_call",
    "Verif.Props.Contracts.Erc721Contract.C103_erc721_no_other_effect",
    "Verif.Props.Contracts.Erc721Contract.C103_erc721_history",
    "Verif.Props.Contracts.Erc721Contract.C103_erc721_sends",
    "Verif.Props.Contracts.Erc721Contract.C103_erc721_views",
    "Verif.Props.Contracts.Erc721Contract.C103_erc721_outside",
    "Verif.Props.Contracts.Erc721Contract.C103_erc721_no_theft",
    "Verif.Props.Contracts.Erc721Contract.C103_erc721_paused",
    "Verif.Props.Contracts.Erc721MetadataContract.C103_erc721_metadata_call",
    "Verif.Props.Contracts.Erc721MetadataContract.C103_erc721_metadata_no_other_effect",
    "Verif.Props.Contracts.Erc721MetadataContract.C103_erc721_metadata_history",
    "Verif.Props.Contracts.Erc721MetadataContract.C103_erc721_metadata_sends",
    "Verif.Props.Contracts.Erc721MetadataContract.C103_erc721_metadata_views",
    "Verif.Props.Contracts.Erc721MetadataContract.C103_erc721_metadata_uri",
    "Verif.Props.Contracts.Erc721MetadataContract.C103_erc721_metadata_uri_changes",
    "Verif.Props.Contracts.Erc721MetadataContract.C103_erc721_metadata_anybody_sets_uri",
    "Verif.Props.Contracts.Erc721MetadataContract.C103_erc721_metadata_no_theft",
    "Verif.Props.Contracts.Erc721ConsecutiveContract.C103_erc721_consecutive_call",
    "Verif.Props.Contracts.Erc721ConsecutiveContract.C103_erc721_consecutive_no_other_effect",
    "Verif.Props.Contracts.Erc721ConsecutiveContract.C103_erc721_consecutive_history",
    "Verif.Props.Contracts.Erc721ConsecutiveContract.C103_erc721_consecutive_sends",
    "Verif.Props.Contracts.Erc721ConsecutiveContract.C103_erc721_consecutive_views",
    "Verif.Props.Contracts.Erc721ConsecutiveContract.C103_erc721_consecutive_outside",
    "Verif.Props.Contracts.Erc721ConsecutiveContract.C103_erc721_consecutive_who_moves",
    "Verif.Props.Contracts.Erc721ConsecutiveContract.C103_erc721_consecutive_anybody_burns"
   ],
   "note": ""
  },
  {
   "property": "C104",
   "status": "proved",
   "theorems": [
    "Verif.Props.Deployed.C104_deploy",
    "Verif.Props.Deployed.C104_answers",
    "Verif.Props.Deployed.C104_names",
    "Verif.Props.Deployed.C104_supply",
    "Verif.Props.Deployed.C104_only_authorised",
    "Verif.Props.Deployed.C104_strings",
    "Verif.Props.Deployed.C104_paused"
   ],
   "note": ""
  },
  {
   "property": "C105",
   "status": "proved",
   "theorems": [
    "Verif.Props.Vault.C105_vault_call",
    "Verif.Props.Vault.C105_vault_no_other_effect",
    "Verif.Props.Vault.C105_vault_views",
    "Verif.Props.Vault.C105_decimals",
    "Verif.Props.Vault.C105_questions",
    "Verif.Props.Vault.C105_no_answer",
    "Verif.Props.Vault.C105_no_code",
    "Verif.Props.Vault.C105_fixed",
    "Verif.Props.Vault.C105_share_supply",
    "Verif.Props.Vault.C105_no_theft",
    "Verif.Props.Vault.C105_deposit",
    "Verif.Props.Vault.C105_mint",
    "Verif.Props.Vault.C105_withdraw",
    "Verif.Props.Vault.C105_redeem",
    "Verif.Props.Vault.C105_shares_are_paid",
    "Verif.Props.Vault.C105_assets_are_paid",
    "Verif.Props.Vault.C105_system",
    "Verif.Props.Vault.C105_rate",
    "Verif.Props.Vault.C105_system_sends"
   ],
   "note": ""
  },
  {
   "property": "C106",
   "status": "proved",
   "theorems": [
    "Verif.Props.WrapperBytes.C106_wrapper_call",
    "Verif.Props.WrapperBytes.C106_wrapper_no_other_effect",
    "Verif.Props.WrapperBytes.C106_wrapper_views",
    "Verif.Props.WrapperBytes.C106_fixed",
    "Verif.Props.WrapperBytes.C106_supply",
    "Verif.Props.WrapperBytes.C106_no_theft",
    "Verif.Props.WrapperBytes.C106_depositFor",
    "Verif.Props.WrapperBytes.C106_withdrawTo",
    "Verif.Props.WrapperBytes.C106_one_for_one",
    "Verif.Props.WrapperBytes.C106_recover",
    "Verif.Props.WrapperBytes.C106_system",
    "Verif.Props.WrapperBytes.C106_backed",
    "Verif.Props.WrapperBytes.C106_system_sends"
   ],
   "note": ""
  },
  {
   "property": "C107",
   "status": "proved",
   "theorems": [
    "Verif.Props.Pure.Recover.C107_recover",
    "Verif.Props.Pure.Recover.C107_recover_only",
    "Verif.Props.Pure.MerkleProofs.C107_verify",
    "Verif.Props.Pure.MerkleProofs.C107_multi",
    "Verif.Props.Pure.MerkleProofs.C107_merkle_only",
    "Verif.Props.Pure.MerkleProofs.C107_allow_list",
    "Verif.Props.Pure.PoseidonContract.C107_hash",
    "Verif.Props.Pure.PoseidonContract.C107_hash_only"
   ],
   "note": ""
  },
  {
   "property": "C108",
   "status": "proved",
   "theorems": [
    "Verif.Props.SafeBytes.C108_call",
    "Verif.Props.SafeBytes.C108_no_other_effect",
    "Verif.Props.SafeBytes.C108_safeTransfer",
    "Verif.Props.SafeBytes.C108_safeTransferFrom",
    "Verif.Props.SafeBytes.C108_forceApprove",
    "Verif.Props.SafeBytes.C108_increase",
    "Verif.Props.SafeBytes.C108_decrease",
    "Verif.Props.SafeBytes.C108_anybody_takes",
    "Verif.Props.SafeBytes.C108_anybody_spends",
    "Verif.Props.SafeBytes.C108_anybody_approves"
   ],
   "note": ""
  },
  {
   "property": "C109",
   "status": "proved",
   "theorems": [
    "Verif.Props.VestingBytes.C109_call",
    "Verif.Props.VestingBytes.C109_no_other_effect",
    "Verif.Props.VestingBytes.C109_receive",
    "Verif.Props.VestingBytes.C109_views",
    "Verif.Props.VestingBytes.C109_vested_eth",
    "Verif.Props.VestingBytes.C109_vested_token",
    "Verif.Props.VestingBytes.C109_release_eth",
    "Verif.Props.VestingBytes.C109_release_token",
    "Verif.Props.VestingBytes.C109_releasable_eth",
    "Verif.Props.VestingBytes.C109_releasable_token",
    "Verif.Props.VestingBytes.C109_invalid_token",
    "Verif.Props.VestingBytes.C109_fixed",
    "Verif.Props.VestingBytes.C109_owner",
    "Verif.Props.VestingBytes.C109_eth_schedule",
    "Verif.Props.VestingBytes.C109_token_schedule",
    "Verif.Props.VestingSystem.C109_system",
    "Verif.Props.VestingSystem.C109_renounced_loses"
   ],
   "note": ""
  },
  {
   "property": "C110",
   "status": "proved",
   "theorems": [
    "Verif.Props.FlashBytes.C110_call",
    "Verif.Props.FlashBytes.C110_no_other_effect",
    "Verif.Props.FlashBytes.C110_fixed",
    "Verif.Props.FlashBytes.C110_views",
    "Verif.Props.FlashBytes.C110_supply",
    "Verif.Props.FlashBytes.C110_magic",
    "Verif.Props.FlashBytes.C110_loan",
    "Verif.Props.FlashBytes.C110_refused",
    "Verif.Props.FlashBytes.C110_bad_answer",
    "Verif.Props.FlashBytes.C110_supply_restored",
    "Verif.Props.FlashBytes.C110_loan_supply",
    "Verif.Props.FlashBytes.C110_holder",
    "Verif.Props.FlashBytes.C110_nothing_lost",
    "Verif.Props.FlashBytes.C110_careful_borrower",
    "Verif.Props.FlashBytes.C110_anybody_charges"
   ],
   "note": ""
  },
  {
   "property": "C111",
   "status": "proved",
   "theorems": [
    "Verif.Props.NftBytes.C111_call",
    "Verif.Props.NftBytes.C111_no_other_effect",
    "Verif.Props.NftBytes.C111_views",
    "Verif.Props.NftBytes.C111_fixed",
    "Verif.Props.NftBytes.C111_outside",
    "Verif.Props.NftBytes.C111_depositFor",
    "Verif.Props.NftBytes.C111_withdrawTo",
    "Verif.Props.NftBytes.C111_onReceived",
    "Verif.Props.NftBytes.C111_transferFrom",
    "Verif.Props.NftBytes.C111_safeTransferFrom",
    "Verif.Props.NftBytes.C111_approvals",
    "Verif.Props.NftBytes.C111_wrapped",
    "Verif.Props.NftBytes.C111_unwrapped",
    "Verif.Props.NftBytes.C111_no_theft",
    "Verif.Props.NftBytes.C111_refused",
    "Verif.Props.NftBytes.C111_nothing_there",
    "Verif.Props.NftBytes.C111_backed",
    "Verif.Props.NftBytes.C111_redeemable",
    "Verif.Props.NftBytes.C111_depositable"
   ],
   "note": ""
  },
  {
   "property": "C112",
   "status": "proved",
   "theorems": [
    "Verif.Props.CurveScalar.C112_meaning",
    "Verif.Props.CurveScalar.C112_scalars_act",
    "Verif.Props.CurveScalar.C112_inverse_scalar",
    "Verif.Props.CurveScalar.C112_faithful",
    "Verif.Props.CurveScalar.C112_integers",
    "Verif.Props.CurveScalar.C112_checked_points",
    "Verif.Props.CurveScalar.C112_outside_the_subgroup",
    "Verif.Props.Secp256k1.C112_secp256k1_generator",
    "Verif.Props.Secp256k1.C112_secp256k1",
    "Verif.Props.Secp256k1.C112_secp256k1_integers",
    "Verif.Props.Secp256k1.C112_secp256k1_points",
    "Verif.Props.Secp256k1.C112_secp256k1_every_point"
   ],
   "note": ""
  },
  {
   "property": "C113",
   "status": "proved",
   "theorems": [
    "Verif.Props.Erc721Words.C113_shows",
    "Verif.Props.Erc721Words.C113_step",
    "Verif.Props.Erc721Words.C113_balance_is_count",
    "Verif.Props.Erc721Words.C113_no_theft",
    "Verif.Props.Erc721Words.C113_untouched"
   ],
   "note": ""
  },
  {
   "property": "C114",
   "status": "proved",
   "theorems": [
    "Verif.Props.NftDeployed.C114_deploy",
    "Verif.Props.NftDeployed.C114_answers",
    "Verif.Props.NftDeployed.C114_words",
    "Verif.Props.NftDeployed.C114_call_within",
    "Verif.Props.NftDeployed.C114_outside",
    "Verif.Props.NftDeployed.C114_no_theft",
    "Verif.Props.NftDeployed.C114_paused"
   ],
   "note": ""
  },
  {
   "property": "C115",
   "status": "proved",
   "theorems": [
    "Verif.Props.OwnableDeployed.C115_ownable_deploy",
    "Verif.Props.OwnableDeployed.C115_ownable_answers",
    "Verif.Props.OwnableDeployed.C115_ownable_call_within",
    "Verif.Props.OwnableDeployed.C115_ownable_start",
    "Verif.Props.OwnableDeployed.C115_ownable_owner_changes",
    "Verif.Props.OwnableDeployed.C115_ownable_gate",
    "Verif.Props.Ownable2StepDeployed.C115_ownable_two_step_deploy",
    "Verif.Props.Ownable2StepDeployed.C115_ownable_two_step_answers",
    "Verif.Props.Ownable2StepDeployed.C115_ownable_two_step_call_within",
    "Verif.Props.Ownable2StepDeployed.C115_ownable_two_step_start",
    "Verif.Props.Ownable2StepDeployed.C115_ownable_two_step_owner_changes",
    "Verif.Props.Ownable2StepDeployed.C115_ownable_two_step_gate",
    "Verif.Props.AccessDeployed.C115_access_control_deploy",
    "Verif.Props.AccessDeployed.C115_access_control_answers",
    "Verif.Props.AccessDeployed.C115_access_control_call_within",
    "Verif.Props.AccessDeployed.C115_access_control_start",
    "Verif.Props.AccessDeployed.C115_access_control_roles_change",
    "Verif.Props.AccessDeployed.C115_access_control_gate"
   ],
   "note": ""
  },
  {
   "property": "C116",
   "status": "proved",
   "theorems": [
    "Verif.Props.Erc1155Deployed.C116_erc1155_deploy",
    "Verif.Props.Erc1155Deployed.C116_erc1155_answers",
    "Verif.Props.Erc1155Deployed.C116_erc1155_call_within",
    "Verif.Props.Erc1155Deployed.C116_erc1155_start",
    "Verif.Props.Erc1155Deployed.C116_erc1155_no_theft",
    "Verif.Props.Erc1155Deployed.C116_erc1155_paused",
    "Verif.Props.Erc1155SupplyDeployed.C116_erc1155_supply_answers",
    "Verif.Props.Erc1155SupplyDeployed.C116_erc1155_supply_call_within",
    "Verif.Props.Erc1155SupplyDeployed.C116_erc1155_supply_outside",
    "Verif.Props.Erc1155SupplyDeployed.C116_erc1155_supply_who_lowers",
    "Verif.Props.Erc1155SupplyDeployed.C116_erc1155_supply_anybody_burns"
   ],
   "note": ""
  },
  {
   "property": "C117",
   "status": "proved",
   "theorems": [
    "Verif.Props.PermitDeployed.C117_deploy",
    "Verif.Props.PermitDeployed.C117_answers",
    "Verif.Props.PermitDeployed.C117_call_within",
    "Verif.Props.PermitDeployed.C117_start",
    "Verif.Props.PermitDeployed.C117_permit",
    "Verif.Props.PermitDeployed.C117_nonces",
    "Verif.Props.PermitDeployed.C117_allowance_rises"
   ],
   "note": ""
  },
  {
   "property": "C118",
   "status": "proved",
   "theorems": [
    "Verif.Props.Erc1155UriDeployed.C118_erc1155_metadata_deploy",
    "Verif.Props.Erc1155UriDeployed.C118_erc1155_metadata_answers",
    "Verif.Props.Erc1155UriDeployed.C118_erc1155_metadata_call_within",
    "Verif.Props.Erc1155UriDeployed.C118_erc1155_metadata_start",
    "Verif.Props.Erc1155UriDeployed.C118_erc1155_metadata_sets_uri",
    "Verif.Props.Erc1155UriDeployed.C118_erc1155_metadata_words",
    "Verif.Props.Erc1155UriDeployed.C118_erc1155_metadata_uri_changes",
    "Verif.Props.Erc1155UriDeployed.C118_erc1155_metadata_nobody_holds_any",
    "Verif.Props.Erc721UriDeployed.C118_erc721_metadata_deploy",
    "Verif.Props.Erc721UriDeployed.C118_erc721_metadata_answers",
    "Verif.Props.Erc721UriDeployed.C118_erc721_metadata_call_within",
    "Verif.Props.Erc721UriDeployed.C118_erc721_metadata_name",
    "Verif.Props.Erc721UriDeployed.C118_erc721_metadata_uri",
    "Verif.Props.Erc721UriDeployed.C118_erc721_metadata_anybody_sets_uri",
    "Verif.Props.Erc721UriDeployed.C118_erc721_metadata_words",
    "Verif.Props.Erc721UriDeployed.C118_erc721_metadata_uri_changes",
    "Verif.Props.Erc721UriDeployed.C118_erc721_metadata_no_theft"
   ],
   "note": ""
  },
  {
   "property": "C119",
   "status": "proved",
   "theorems": [
    "Verif.Props.VestingDeployed.C119_deploy",
    "Verif.Props.VestingDeployed.C119_answers",
    "Verif.Props.VestingDeployed.C119_call_within",
    "Verif.Props.VestingDeployed.C119_start",
    "Verif.Props.VestingDeployed.C119_fixed",
    "Verif.Props.VestingDeployed.C119_owner_changes",
    "Verif.Props.VestingDeployed.C119_eth_schedule",
    "Verif.Props.VestingDeployed.C119_token_schedule",
    "Verif.Props.VestingDeployed.C119_release_eth",
    "Verif.Props.VestingDeployed.C119_release_token",
    "Verif.Props.VestingDeployed.C119_invalid_token"
   ],
   "note": ""
  },
  {
   "property": "C120",
   "status": "proved",
   "theorems": [
    "Verif.Props.WrapperDeployed.C120_deploy",
    "Verif.Props.WrapperDeployed.C120_answers",
    "Verif.Props.WrapperDeployed.C120_call_within",
    "Verif.Props.WrapperDeployed.C120_start",
    "Verif.Props.WrapperDeployed.C120_fixed",
    "Verif.Props.WrapperDeployed.C120_supply",
    "Verif.Props.WrapperDeployed.C120_no_theft",
    "Verif.Props.WrapperDeployed.C120_depositFor",
    "Verif.Props.WrapperDeployed.C120_withdrawTo",
    "Verif.Props.WrapperDeployed.C120_one_for_one",
    "Verif.Props.WrapperDeployed.C120_backed"
   ],
   "note": ""
  },
  {
   "property": "C121",
   "status": "proved",
   "theorems": [
    "Verif.Props.VaultDeployed.C121_deploy",
    "Verif.Props.VaultDeployed.C121_answers",
    "Verif.Props.VaultDeployed.C121_call_within",
    "Verif.Props.VaultDeployed.C121_start",
    "Verif.Props.VaultDeployed.C121_fixed",
    "Verif.Props.VaultDeployed.C121_supply",
    "Verif.Props.VaultDeployed.C121_no_theft",
    "Verif.Props.VaultDeployed.C121_questions",
    "Verif.Props.VaultDeployed.C121_no_answer",
    "Verif.Props.VaultDeployed.C121_deposit",
    "Verif.Props.VaultDeployed.C121_mint",
    "Verif.Props.VaultDeployed.C121_withdraw",
    "Verif.Props.VaultDeployed.C121_redeem",
    "Verif.Props.VaultDeployed.C121_shares_are_paid",
    "Verif.Props.VaultDeployed.C121_assets_are_paid",
    "Verif.Props.VaultDeployed.C121_rate"
   ],
   "note": ""
  },
  {
   "property": "C122",
   "status": "proved",
   "theorems": [
    "Verif.Props.FlashDeployed.C122_deploy",
    "Verif.Props.FlashDeployed.C122_call_within",
    "Verif.Props.FlashDeployed.C122_answers",
    "Verif.Props.FlashDeployed.C122_start",
    "Verif.Props.FlashDeployed.C122_fixed",
    "Verif.Props.FlashDeployed.C122_max_loan",
    "Verif.Props.FlashDeployed.C122_supply",
    "Verif.Props.FlashDeployed.C122_loan",
    "Verif.Props.FlashDeployed.C122_refused",
    "Verif.Props.FlashDeployed.C122_supply_restored",
    "Verif.Props.FlashDeployed.C122_nothing_lost",
    "Verif.Props.FlashDeployed.C122_careful_borrower"
   ],
   "note": ""
  },
  {
   "property": "C123",
   "status": "proved",
   "theorems": [
    "Verif.Props.NftWrapperDeployed.C123_deploy",
    "Verif.Props.NftWrapperDeployed.C123_call_within",
    "Verif.Props.NftWrapperDeployed.C123_answers",
    "Verif.Props.NftWrapperDeployed.C123_start",
    "Verif.Props.NftWrapperDeployed.C123_fixed",
    "Verif.Props.NftWrapperDeployed.C123_balances",
    "Verif.Props.NftWrapperDeployed.C123_depositFor",
    "Verif.Props.NftWrapperDeployed.C123_withdrawTo",
    "Verif.Props.NftWrapperDeployed.C123_onReceived",
    "Verif.Props.NftWrapperDeployed.C123_transferFrom",
    "Verif.Props.NftWrapperDeployed.C123_wrapped",
    "Verif.Props.NftWrapperDeployed.C123_unwrapped",
    "Verif.Props.NftWrapperDeployed.C123_no_theft",
    "Verif.Props.NftWrapperDeployed.C123_refused",
    "Verif.Props.NftWrapperDeployed.C123_backed",
    "Verif.Props.NftWrapperDeployed.C123_redeemable",
    "Verif.Props.NftWrapperDeployed.C123_depositable"
   ],
   "note": ""
  },
  {
   "property": "C124",
   "status": "proved",
   "theorems": [
    "Verif.Props.ConsecutiveDeployed.C124_deploy",
    "Verif.Props.ConsecutiveDeployed.C124_lengths",
    "Verif.Props.ConsecutiveDeployed.C124_answers",
    "Verif.Props.ConsecutiveDeployed.C124_call_within",
    "Verif.Props.ConsecutiveDeployed.C124_outside",
    "Verif.Props.ConsecutiveDeployed.C124_who_moves",
    "Verif.Props.ConsecutiveDeployed.C124_anybody_burns"
   ],
   "note": ""
  },
  {
   "property": "C125",
   "status": "proved",
   "theorems": [
    "Verif.Props.BasicDeployed.C125_deploy",
    "Verif.Props.BasicDeployed.C125_answers",
    "Verif.Props.BasicDeployed.C125_call_within",
    "Verif.Props.BasicDeployed.C125_start",
    "Verif.Props.BasicDeployed.C125_supply",
    "Verif.Props.BasicDeployed.C125_transfer",
    "Verif.Props.BasicDeployed.C125_transferFrom",
    "Verif.Props.BasicDeployed.C125_approve",
    "Verif.Props.BasicDeployed.C125_mint",
    "Verif.Props.BasicDeployed.C125_no_theft"
   ],
   "note": ""
  },
  {
   "property": "C126",
   "status": "proved",
   "theorems": [
    "Verif.Props.TwoDeployed.Wrapper.C126_wrapper_answers",
    "Verif.Props.TwoDeployed.Wrapper.C126_backed",
    "Verif.Props.TwoDeployed.Wrapper.C126_withdraw",
    "Verif.Props.TwoDeployed.Wrapper.C126_deposit",
    "Verif.Props.TwoDeployed.Vault.C126_vault_answers",
    "Verif.Props.TwoDeployed.Vault.C126_rate",
    "Verif.Props.TwoDeployed.Vault.C126_vault_deposit",
    "Verif.Props.TwoDeployed.Vault.C126_vault_redeem"
   ],
   "note": ""
  },
  {
   "property": "C127",
   "status": "proved",
   "theorems": [
    "Verif.Props.WalletTokenDeployed.C127_answers",
    "Verif.Props.WalletTokenDeployed.C127_schedule",
    "Verif.Props.WalletTokenDeployed.C127_release_token",
    "Verif.Props.WalletTokenDeployed.C127_release_eth"
   ],
   "note": ""
  },
  {
   "property": "C128",
   "status": "proved",
   "theorems": [
    "Verif.Props.NftTwoDeployed.C128_answers",
    "Verif.Props.NftTwoDeployed.C128_backed",
    "Verif.Props.NftTwoDeployed.C128_redeemable",
    "Verif.Props.NftTwoDeployed.C128_depositable",
    "Verif.Props.NftTwoDeployed.C128_released"
   ],
   "note": ""
  }
 ]
}
