{
 "claims": [
  {
   "property": "C01",
   "status": "proved",
   "theorems": [
    "ZKAP.C01_single_least",
    "ZKAP.C01_least_unique",
    "ZKAP.C01_price_is_sum_of_least",
    "ZKAP.C01_order_independent",
    "ZKAP.C01_additive",
    "ZKAP.C01_monotone_grow",
    "ZKAP.C01_monotone_add",
    "ZKAP.C01_zero_pass_value",
    "ZKAP.C01_checked_eq"
   ],
   "note": ""
  },
  {
   "property": "C02",
   "status": "proved",
   "theorems": [
    "ZKAP.C02_client_server_agree",
    "ZKAP.C02_client_price_is_growth",
    "ZKAP.C02_server_demand",
    "ZKAP.C02_never_refused",
    "ZKAP.C02_wire_price"
   ],
   "note": ""
  },
  {
   "property": "C03",
   "status": "proved",
   "theorems": [
    "ZKAP.C03_free_iff",
    "ZKAP.C03_read_free",
    "ZKAP.C03_covered_write_free"
   ],
   "note": ""
  },
  {
   "property": "C04",
   "status": "proved",
   "theorems": [
    "ZKAP.C04_refused",
    "ZKAP.C04_granted",
    "ZKAP.C04_malformed"
   ],
   "note": ""
  },
  {
   "property": "C05",
   "status": "proved",
   "theorems": [
    "ZKAP.C05_same_passes_paid"
   ],
   "note": ""
  },
  {
   "property": "C06",
   "status": "proved",
   "theorems": [
    "ZKAP.C06_refused",
    "ZKAP.C06_malformed",
    "ZKAP.C06_granted",
    "ZKAP.C06_never_refused"
   ],
   "note": ""
  },
  {
   "property": "C07",
   "status": "proved",
   "theorems": [
    "ZKAP.C07_refused",
    "ZKAP.C07_malformed",
    "ZKAP.C07_written_shares_leased",
    "ZKAP.C07_failed_test_keeps_data"
   ],
   "note": ""
  },
  {
   "property": "C08",
   "status": "proved",
   "theorems": [
    "ZKAP.C08_new_length_refused"
   ],
   "note": ""
  },
  {
   "property": "C09",
   "status": "proved",
   "theorems": [
    "ZKAP.C09_message_binding",
    "ZKAP.C09_pass_binding"
   ],
   "note": ""
  },
  {
   "property": "C10",
   "status": "partial",
   "theorems": [
    "ZKAP.C10_double_spend_fails",
    "ZKAP.C10_repeated_pass_fails",
    "ZKAP.C10_spent_recorded_partial"
   ],
   "note": "The property is false of the code: the server never compares passes with those already spent (C10_double_spend_fails, C10_repeated_pass_fails). Proved: every honoured pass is recorded (C10_spent_recorded_partial)."
  },
  {
   "property": "C11",
   "status": "partial",
   "theorems": [
    "ZKAP.C11_failed_test_spends_fails",
    "ZKAP.C11_overspend_fails",
    "ZKAP.C11_spends_valid_partial"
   ],
   "note": "The property is false of the code: a write whose test vector fails still spends, and surplus valid passes are spent (C11_failed_test_spends_fails, C11_overspend_fails). Proved: errors spend nothing and successes spend exactly the valid passes sent (C11_spends_valid_partial)."
  },
  {
   "property": "C12",
   "status": "partial",
   "theorems": [
    "ZKAP.C12_immutable_size",
    "ZKAP.C12_mutable_size",
    "ZKAP.C12_stat_immutable",
    "ZKAP.C12_stat_mutable",
    "ZKAP.C12_bad_header_rejected",
    "ZKAP.C12_truncated_mutable_fails",
    "ZKAP.C12_tiny_immutable_fails",
    "ZKAP.C12_truncated_magic_partial",
    "ZKAP.C12_magic"
   ],
   "note": "Sizes of well-formed files are proved for all data and lease counts. False of the code: a mutable file truncated after its magic is given a wrong size (C12_truncated_mutable_fails) and a tiny immutable file without leases is refused (C12_tiny_immutable_fails)."
  },
  {
   "property": "C13",
   "status": "partial",
   "theorems": [
    "ZKAP.C13_wire_length",
    "ZKAP.C13_roundtrip_fails",
    "ZKAP.C13_roundtrip_partial",
    "ZKAP.C13_base64_roundtrip",
    "ZKAP.C13_parse_sound"
   ],
   "note": "The round trip is false of the code for components containing a space (C13_roundtrip_fails); it is proved for space-free components (C13_roundtrip_partial) and for base64 components as the client builds them (C13_base64_roundtrip)."
  },
  {
   "property": "C14",
   "status": "proved",
   "theorems": [
    "ZKAP.C14_no_token_handed_out_twice"
   ],
   "note": ""
  },
  {
   "property": "C15",
   "status": "proved",
   "theorems": [
    "ZKAP.C15_spent_tokens_are_gone",
    "ZKAP.C15_discard_succeeds"
   ],
   "note": ""
  },
  {
   "property": "C16",
   "status": "proved",
   "theorems": [
    "ZKAP.C16_count_is_exact"
   ],
   "note": ""
  },
  {
   "property": "C17",
   "status": "partial",
   "theorems": [
    "ZKAP.C17_negative_request_fails",
    "ZKAP.C17_exactly_as_many_partial"
   ],
   "note": "The property is false of the code for negative counts: they hand out every available token (C17_negative_request_fails). Proved for every count of zero or more (C17_exactly_as_many_partial)."
  },
  {
   "property": "C18",
   "status": "proved",
   "theorems": [
    "ZKAP.C18_only_allowed_keys",
    "ZKAP.C18_sequestered_tokens_never_spent"
   ],
   "note": ""
  },
  {
   "property": "C19",
   "status": "proved",
   "theorems": [
    "ZKAP.C19_restart_releases"
   ],
   "note": ""
  },
  {
   "property": "C20",
   "status": "proved",
   "theorems": [
    "ZKAP.C20_tokens_are_conserved",
    "ZKAP.C20_issued_tokens_stay_in_the_book",
    "ZKAP.C20_counts"
   ],
   "note": ""
  },
  {
   "property": "C21",
   "status": "partial",
   "theorems": [
    "ZKAP.C21_in_use_means_waiting_ristretto",
    "ZKAP.C21_one_key",
    "ZKAP.C21_in_use_means_waiting_partial",
    "ZKAP.C21_held_once",
    "ZKAP.C21_finished_call_releases_partial",
    "ZKAP.C21_signing_error_fails"
   ],
   "note": "Proved for every history when making passes from tokens does not raise (C21_in_use_means_waiting_partial, C21_finished_call_releases_partial, C21_held_once). If it raises, the tokens stay in use although no call is in progress (C21_signing_error_fails)."
  },
  {
   "property": "C22",
   "status": "proved",
   "theorems": [
    "ZKAP.C22_exact_number_of_passes",
    "ZKAP.C22_effect_of_answer",
    "ZKAP.C22_tokens_only_leave_for_a_reason"
   ],
   "note": ""
  },
  {
   "property": "C23",
   "status": "partial",
   "theorems": [
    "ZKAP.C23_retries_are_bounded_partial",
    "ZKAP.C23_our_server_names_sent_passes",
    "ZKAP.C23_out_of_range_fails"
   ],
   "note": "Proved when every rejection names at least one pass that was sent (C23_retries_are_bounded_partial), as this project's server does (C23_our_server_names_sent_passes). A server that names only positions outside the request is asked again forever (C23_out_of_range_fails)."
  },
  {
   "property": "C24",
   "status": "proved",
   "theorems": [
    "ZKAP.C24_split",
    "ZKAP.C24_expand"
   ],
   "note": ""
  },
  {
   "property": "C25",
   "status": "proved",
   "theorems": [
    "ZKAP.C25_groups_add_up",
    "ZKAP.C25_other_inputs_rejected"
   ],
   "note": ""
  },
  {
   "property": "C26",
   "status": "partial",
   "theorems": [
    "ZKAP.C26_stored_before_sent",
    "ZKAP.C26_requests_come_from_events",
    "ZKAP.C26_same_tokens_fails",
    "ZKAP.C26_same_tokens_partial",
    "ZKAP.C26_issued_partial"
   ],
   "note": "Tokens are stored before they are sent in every history (C26_stored_before_sent, C26_requests_come_from_events). Reuse on retry is false of the code after an unpaid answer followed by a partial redemption and an error (C26_same_tokens_fails); it is proved for vouchers whose redemption is not begun anew in that situation (C26_same_tokens_partial), and for all vouchers with an issuer that redeems each group for one list of random tokens (C26_issued_partial)."
  },
  {
   "property": "C27",
   "status": "proved",
   "theorems": [
    "ZKAP.C27_one_request_outstanding"
   ],
   "note": ""
  },
  {
   "property": "C28",
   "status": "proved",
   "theorems": [
    "ZKAP.C28_counter_counts",
    "ZKAP.C28_groups_in_order",
    "ZKAP.C28_crash_resumes"
   ],
   "note": ""
  },
  {
   "property": "C29",
   "status": "proved",
   "theorems": [
    "ZKAP.C29_redeemed_yields_value",
    "ZKAP.C29_redeemed_when_complete"
   ],
   "note": ""
  },
  {
   "property": "C30",
   "status": "proved",
   "theorems": [
    "ZKAP.C30_final",
    "ZKAP.C30_already_spent"
   ],
   "note": ""
  },
  {
   "property": "C31",
   "status": "partial",
   "theorems": [
    "ZKAP.C31_never_retried",
    "ZKAP.C31_error_retried_fails",
    "ZKAP.C31_restart_retries_partial"
   ],
   "note": "The property is false of the code: a voucher in the error state is never requested again until the process restarts (C31_never_retried, C31_error_retried_fails). Proved: a restart requests it again with its stored tokens (C31_restart_retries_partial)."
  },
  {
   "property": "C32",
   "status": "partial",
   "theorems": [
    "ZKAP.C32_resumes_after_unpaid_fails",
    "ZKAP.C32_resumes_partial"
   ],
   "note": "The property is false of the code: after an unpaid answer redemption starts again at the first group (C32_resumes_after_unpaid_fails). Proved for redemptions begun by a process that has not seen the voucher reported unpaid (C32_resumes_partial)."
  },
  {
   "property": "C33",
   "status": "proved",
   "theorems": [
    "ZKAP.C33_double_spend_loses_nothing"
   ],
   "note": ""
  },
  {
   "property": "C34",
   "status": "proved",
   "theorems": [
    "ZKAP.C34_version",
    "ZKAP.C34_voucher_json_round_trips",
    "ZKAP.C34_voucher_json_distinct",
    "ZKAP.C34_stored_times_round_trip",
    "ZKAP.C34_rows_read_back"
   ],
   "note": ""
  },
  {
   "property": "C35",
   "status": "partial",
   "theorems": [
    "ZKAP.C35_accepts_iff",
    "ZKAP.C35_exact_fails",
    "ZKAP.C35_accepts_wrong_lengths_fails",
    "ZKAP.C35_accepts_vouchers_partial",
    "ZKAP.C35_decoded_length"
   ],
   "note": "The property is false of the code: encodings of 31 or 33 bytes are accepted (C35_exact_fails, C35_accepts_wrong_lengths_fails). Proved: the exact accepted set (C35_accepts_iff), every real voucher is accepted (C35_accepts_vouchers_partial), and the bounds on the decoded length (C35_decoded_length)."
  },
  {
   "property": "C36",
   "status": "proved",
   "theorems": [
    "ZKAP.C36_add_again_changes_nothing",
    "ZKAP.C36_add_never_changes_a_voucher"
   ],
   "note": ""
  },
  {
   "property": "C37",
   "status": "partial",
   "theorems": [
    "ZKAP.C37_fails",
    "ZKAP.C37_partial",
    "ZKAP.C37_all_or_nothing",
    "ZKAP.C37_transact",
    "ZKAP.C37_crash",
    "ZKAP.C37_recorded"
   ],
   "note": "The property is false of the code: the method's transaction is committed before the one that records changes, which can fail (C37_fails). Proved for failures of the method itself and its commit (C37_partial), with all-or-nothing for every failure (C37_all_or_nothing) and crashes (C37_crash)."
  },
  {
   "property": "C38",
   "status": "proved",
   "theorems": [
    "ZKAP.C38_activity_is_exact",
    "ZKAP.C38_finished_run"
   ],
   "note": ""
  },
  {
   "property": "C39",
   "status": "proved",
   "theorems": [
    "ZKAP.C39_latest_activity",
    "ZKAP.C39_text_order_is_time_order",
    "ZKAP.C39_latest_in_time"
   ],
   "note": ""
  },
  {
   "property": "C40",
   "status": "proved",
   "theorems": [
    "ZKAP.C40_renewed_iff_expiring_soon",
    "ZKAP.C40_complete_means_granted",
    "ZKAP.C40_never_renewed_without_need",
    "ZKAP.C40_whole_run"
   ],
   "note": ""
  },
  {
   "property": "C41",
   "status": "partial",
   "theorems": [
    "ZKAP.C41_visits_exactly_reachable",
    "ZKAP.C41_indexes_distinct",
    "ZKAP.C41_error_from_listing",
    "ZKAP.C41_ends_partial",
    "ZKAP.C41_cycle_fails"
   ],
   "note": "What is visited is proved for every graph (C41_visits_exactly_reachable, C41_indexes_distinct, C41_error_from_listing). Termination is false of the code on cyclic directories (C41_cycle_fails); it is proved exactly for graphs without infinite paths (C41_ends_partial)."
  },
  {
   "property": "C42",
   "status": "partial",
   "theorems": [
    "ZKAP.C42_delays",
    "ZKAP.C42_first_delay",
    "ZKAP.C42_next_run_partial",
    "ZKAP.C42_range_fails",
    "ZKAP.C42_intervals",
    "ZKAP.C42_one_run_each"
   ],
   "note": "Delays are proved (C42_delays, C42_first_delay). That there is always a next run is false of the code for ranges over twice the mean (C42_range_fails) and proved otherwise (C42_next_run_partial)."
  },
  {
   "property": "C43",
   "status": "partial",
   "theorems": [
    "ZKAP.C43_stopped_partial",
    "ZKAP.C43_stop_fails_while_running",
    "ZKAP.C43_stop_fails",
    "ZKAP.C43_one_at_a_time"
   ],
   "note": "The property is false of the code: stopping during a run raises and the next run is still scheduled (C43_stop_fails). Proved when stopService returns normally (C43_stopped_partial), with an exact account of when it does not (C43_stop_fails_while_running)."
  },
  {
   "property": "C44",
   "status": "proved",
   "theorems": [
    "ZKAP.C44_config_round_trips"
   ],
   "note": ""
  },
  {
   "property": "C45",
   "status": "proved",
   "theorems": [
    "ZKAP.C45_replay"
   ],
   "note": ""
  },
  {
   "property": "C46",
   "status": "partial",
   "theorems": [
    "ZKAP.C46_fails",
    "ZKAP.C46_partial",
    "ZKAP.C46_idle_has_snapshot"
   ],
   "note": "The property is false of the code: a snapshot taken before the first change is treated as if it covered change number 1, so that change is dropped (C46_fails). Proved, with restarts and failing uploads too, when no change is made while such a snapshot is uploaded (C46_partial, C46_idle_has_snapshot)."
  },
  {
   "property": "C47",
   "status": "partial",
   "theorems": [
    "ZKAP.C47_fails",
    "ZKAP.C47_overlap_fails",
    "ZKAP.C47_lost_fails",
    "ZKAP.C47_partial",
    "ZKAP.C47_window"
   ],
   "note": "The property is false of the code: obsolete streams are replayed on a new snapshot (C47_fails), streams overlap after a restart (C47_overlap_fails), and a crash between the transaction of a call and the one recording it loses the change (C47_lost_fails). Proved for orderly histories when no stream is older than the snapshot (C47_partial), which holds outside the window named in C47_window."
  },
  {
   "property": "C48",
   "status": "partial",
   "theorems": [
    "ZKAP.C48_fails",
    "ZKAP.C48_partial",
    "ZKAP.C48_nothing_lost"
   ],
   "note": "The property is false of the code: statements of a rolled back call are recorded with the next one (C48_fails). Proved when every call returns or raises before executing anything (C48_partial); nothing committed is ever missing (C48_nothing_lost)."
  },
  {
   "property": "C49",
   "status": "partial",
   "theorems": [
    "ZKAP.C49_fails",
    "ZKAP.C49_partial"
   ],
   "note": "The property is false of the code: the first change is pruned when a snapshot taken before it is uploaded (C49_fails). Proved for all histories otherwise (C49_partial)."
  },
  {
   "property": "C50",
   "status": "proved",
   "theorems": [
    "ZKAP.C50_important_pending",
    "ZKAP.C50_vouchers_are_important"
   ],
   "note": ""
  },
  {
   "property": "C51",
   "status": "proved",
   "theorems": [
    "ZKAP.C51_replayed_in_order",
    "ZKAP.C51_numbers_increase",
    "ZKAP.C51_names_injective",
    "ZKAP.C51_prune_names",
    "ZKAP.C51_order_restored",
    "ZKAP.C51_never_reused",
    "ZKAP.C51_transactions_skipped"
   ],
   "note": ""
  },
  {
   "property": "C52",
   "status": "proved",
   "theorems": [
    "ZKAP.C52_never_overwritten",
    "ZKAP.C52_one_at_a_time",
    "ZKAP.C52_answers",
    "ZKAP.C52_failed"
   ],
   "note": ""
  },
  {
   "property": "C53",
   "status": "partial",
   "theorems": [
    "ZKAP.C53_fails",
    "ZKAP.C53_partial"
   ],
   "note": "The property is false of the code: a token taken before and again after a restart is inserted twice by the replay (C53_fails). Proved when no token is in use at the restart (C53_partial)."
  },
  {
   "property": "C54",
   "status": "partial",
   "theorems": [
    "ZKAP.C54_fails",
    "ZKAP.C54_nothing_recorded",
    "ZKAP.C54_early_lost",
    "ZKAP.C54_partial",
    "ZKAP.C54_opened"
   ],
   "note": "The property is false of the code: nothing observes the connection when the schema is upgraded (C54_fails, C54_nothing_recorded), nor before the replication service is started (C54_early_lost). Proved for methods of the store called later (C54_partial, C54_opened)."
  },
  {
   "property": "C55",
   "status": "proved",
   "theorems": [
    "ZKAP.C55_refused",
    "ZKAP.C55_once"
   ],
   "note": ""
  },
  {
   "property": "C56",
   "status": "partial",
   "theorems": [
    "ZKAP.C56_fails",
    "ZKAP.C56_broken",
    "ZKAP.C56_first_call",
    "ZKAP.C56_partial"
   ],
   "note": "The property is false of the code: a store method called during the download rolls back the transaction of the recovery, later ones succeed, and what they stored is dropped by the import (C56_fails, C56_broken). Proved when no method returns while a recovery waits (C56_partial); the first method always raises and changes nothing (C56_first_call)."
  },
  {
   "property": "C57",
   "status": "partial",
   "theorems": [
    "ZKAP.C57_emptied",
    "ZKAP.C57_fails",
    "ZKAP.C57_partial"
   ],
   "note": "The property is false of the code: an import that fails in between is committed as far as it got; a bad first statement empties any store (C57_emptied, C57_fails). Proved for failed downloads, unreadable snapshots and failed commits (C57_partial)."
  },
  {
   "property": "C58",
   "status": "partial",
   "theorems": [
    "ZKAP.C58_fails",
    "ZKAP.C58_partial",
    "ZKAP.C58_truthful",
    "ZKAP.C58_ended"
   ],
   "note": "The property is false of the code: success is reported before the commit, which can fail (C58_fails). Proved otherwise: the reports are documented up to one more import_failed (C58_partial), the last one is true (C58_truthful), nothing follows the end (C58_ended)."
  },
  {
   "property": "C59",
   "status": "partial",
   "theorems": [
    "ZKAP.C59_fails",
    "ZKAP.C59_other_updates",
    "ZKAP.C59_partial",
    "ZKAP.C59_others",
    "ZKAP.C59_malformed"
   ],
   "note": "The property is false of the code: a client that asks with a different capability is not refused; an AttributeError leaves onMessage (C59_fails), and the client stays in the list (C59_other_updates). Proved: clients of the active recovery are told every stage in order (C59_partial), others nothing (C59_others), malformed requests are refused (C59_malformed)."
  },
  {
   "property": "C60",
   "status": "proved",
   "theorems": [
    "ZKAP.C60_restores",
    "ZKAP.C60_recovered",
    "ZKAP.C60_with_events",
    "ZKAP.C60_reachable"
   ],
   "note": ""
  },
  {
   "property": "C61",
   "status": "proved",
   "theorems": [
    "ZKAP.C61_share_size",
    "ZKAP.C61_price",
    "ZKAP.C61_nonneg",
    "ZKAP.C61_zero_iff",
    "ZKAP.C61_monotone",
    "ZKAP.C61_order_independent",
    "ZKAP.C61_predicts_upload"
   ],
   "note": ""
  },
  {
   "property": "C62",
   "status": "proved",
   "theorems": [
    "ZKAP.C62_reaches_current",
    "ZKAP.C62_new_database",
    "ZKAP.C62_idempotent",
    "ZKAP.C62_steps",
    "ZKAP.C62_preserves",
    "ZKAP.C62_new_columns"
   ],
   "note": ""
  },
  {
   "property": "C63",
   "status": "partial",
   "theorems": [
    "ZKAP.C63_fails",
    "ZKAP.C63_partial"
   ],
   "note": "The property is false of the code: if no voucher is marked as redeemed (for example the only voucher is redeemed in part), the tokens are put into a redemption group that does not exist (C63_fails). Proved when some voucher is marked as redeemed (C63_partial)."
  },
  {
   "property": "C64",
   "status": "partial",
   "theorems": [
    "ZKAP.C64_fails",
    "ZKAP.C64_partial"
   ],
   "note": "The property is false of the code: the time at which a voucher was redeemed or found spent is not converted and the voucher cannot be read (C64_fails). Proved for pending vouchers (C64_partial)."
  },
  {
   "property": "C65",
   "status": "proved",
   "theorems": [
    "ZKAP.C65_token_required"
   ],
   "note": ""
  },
  {
   "property": "C66",
   "status": "partial",
   "theorems": [
    "ZKAP.C66_strictness_fails",
    "ZKAP.C66_price_iff_partial",
    "ZKAP.C66_otherwise_bad_request",
    "ZKAP.C66_well_formed_priced",
    "ZKAP.C66_negative_rejected",
    "ZKAP.C66_version",
    "ZKAP.C66_sizes"
   ],
   "note": "The exact set of priced requests is proved (C66_price_iff_partial). It is larger than the property says: extra keys and the booleans Python counts as integers are accepted (C66_strictness_fails)."
  },
  {
   "property": "C67",
   "status": "partial",
   "theorems": [
    "ZKAP.C67_scrub_idempotent",
    "ZKAP.C67_api_root_path_fails",
    "ZKAP.C67_digest_only_partial",
    "ZKAP.C67_str_shows",
    "ZKAP.C67_str_fails"
   ],
   "note": "Scrubbing is idempotent, and errors show only a digest for API roots without a path (C67_digest_only_partial). With a path in the API root the capability is shown in full (C67_api_root_path_fails)."
  },
  {
   "property": "C68",
   "status": "proved",
   "theorems": [
    "ZKAP.C68_first_definitive",
    "ZKAP.C68_success_is_definitive",
    "ZKAP.C68_runs_forever_iff"
   ],
   "note": ""
  },
  {
   "property": "C69",
   "status": "partial",
   "theorems": [
    "ZKAP.C69_merging_fails",
    "ZKAP.C69_all_items_partial",
    "ZKAP.C69_last_section_kept",
    "ZKAP.C69_quoting_reads_back"
   ],
   "note": "The property is false of the code: a later section replaces an earlier one of the same name (C69_merging_fails). Proved for configurations without repeated section names (C69_all_items_partial) and for the last section of a name (C69_last_section_kept)."
  },
  {
   "property": "C70",
   "status": "proved",
   "theorems": [
    "ZKAP.C70_registrations_match_writers",
    "ZKAP.C70_per_connection",
    "ZKAP.C70_disconnect_aborts_own"
   ],
   "note": ""
  },
  {
   "property": "C71",
   "status": "proved",
   "theorems": [
    "ZKAP.C71_policy",
    "ZKAP.C71_monotone"
   ],
   "note": ""
  },
  {
   "property": "C72",
   "status": "proved",
   "theorems": [
    "ZKAP.C72_uploads_distinct",
    "ZKAP.C72_download_returns_upload",
    "ZKAP.C72_link_one_entry",
    "ZKAP.C72_unlink_one_entry",
    "ZKAP.C72_failure_changes_nothing",
    "ZKAP.C72_listing_shows_entries",
    "ZKAP.C72_listing_is_true"
   ],
   "note": ""
  },
  {
   "property": "C73",
   "status": "proved",
   "theorems": [
    "ZKAP.C73_b64_roundtrip",
    "ZKAP.C73_b64_injective",
    "ZKAP.C73_urlsafe_roundtrip",
    "ZKAP.C73_b64_length"
   ],
   "note": ""
  },
  {
   "property": "C74",
   "status": "partial",
   "theorems": [
    "ZKAP.C74_cheap_renewal_fails",
    "ZKAP.C74_covering_write_partial"
   ],
   "note": "The property is false of the code: a short write renews the lease of a large expired share for the price of the write (C74_cheap_renewal_fails). Proved when the write reaches the end of the share (C74_covering_write_partial)."
  },
  {
   "property": "C75",
   "status": "partial",
   "theorems": [
    "ZKAP.C75_everything_stored_was_paid_partial",
    "ZKAP.C75_nospace_fails"
   ],
   "note": "Proved for all histories in which leases never fail for lack of disk space (C75_everything_stored_was_paid_partial); without that assumption it is false of the code (C75_nospace_fails)."
  },
  {
   "property": "C76",
   "status": "partial",
   "theorems": [
    "ZKAP.C76_before_first_failure_partial",
    "ZKAP.C76_all_healthy_partial",
    "ZKAP.C76_failing_server_fails"
   ],
   "note": "The property is false of the code: a failing server ends the run (C76_failing_server_fails). Proved for the servers visited before the first failure (C76_before_first_failure_partial)."
  },
  {
   "property": "C77",
   "status": "proved",
   "theorems": [
    "ZKAP.C77_leases_last"
   ],
   "note": ""
  },
  {
   "property": "C78",
   "status": "partial",
   "theorems": [
    "ZKAP.C78_restore_fails",
    "ZKAP.C78_restored_on_success_partial"
   ],
   "note": "The property is false of the code when the operation raises (C78_restore_fails); proved when it returns (C78_restored_on_success_partial)."
  },
  {
   "property": "C79",
   "status": "partial",
   "theorems": [
    "ZKAP.C79_fails",
    "ZKAP.C79_partial"
   ],
   "note": "The property is false of the code: one failing grid operation ends replication until the next start (C79_fails). Proved for every history as long as the service runs (C79_partial)."
  },
  {
   "property": "C80",
   "status": "partial",
   "theorems": [
    "ZKAP.C80_fails",
    "ZKAP.C80_restart_partial",
    "ZKAP.C80_partial"
   ],
   "note": "The property is false of the code: tokens the source was using stay in use in the recovered process (C80_fails). Proved after a restart of the recovered node (C80_restart_partial) and for the tokens that could be obtained from the source (C80_partial)."
  },
  {
   "property": "C81",
   "status": "partial",
   "theorems": [
    "ZKAP.C81_fails",
    "ZKAP.C81_stuck",
    "ZKAP.C81_partial"
   ],
   "note": "The property is false of the code: schema-changing statements are committed one by one until the first data-changing statement, and after a crash between them the database can never be opened again (C81_fails, C81_stuck). Proved for version 7 and the current version (C81_partial)."
  },
  {
   "property": "C82",
   "status": "partial",
   "theorems": [
    "ZKAP.C82_fails",
    "ZKAP.C82_partial"
   ],
   "note": "The property is false of the code: a digest of the write capability is parsed as a read capability (C82_fails). Proved: the request fails and changes nothing (C82_partial)."
  },
  {
   "property": "C83",
   "status": "partial",
   "theorems": [
    "ZKAP.C83_fails",
    "ZKAP.C83_partial",
    "ZKAP.C83_restart",
    "ZKAP.C83_unrecorded"
   ],
   "note": "The property is false of the code: the schema of a recovered database is not upgraded (C83_fails, C83_unrecorded). Proved for replicas of version 8 and later (C83_partial) and, for all versions, after a restart (C83_restart)."
  },
  {
   "property": "C84",
   "status": "partial",
   "theorems": [
    "ZKAP.C84_fails",
    "ZKAP.C84_partial"
   ],
   "note": "The property is false of the code: the connection of a client that asks after the end is left open (C84_fails). Proved for clients that ask before the end (C84_partial)."
  },
  {
   "property": "C85",
   "status": "partial",
   "theorems": [
    "ZKAP.C85_fails",
    "ZKAP.C85_stuck",
    "ZKAP.C85_partial"
   ],
   "note": "The property is false of the code: if the new process has the number of the one that died, the lock counts as held (C85_fails, C85_stuck). Proved for other process numbers (C85_partial)."
  },
  {
   "property": "C86",
   "status": "proved",
   "theorems": [
    "ZKAP.C86_spent_was_valid",
    "ZKAP.C86_spent_from_request"
   ],
   "note": ""
  },
  {
   "property": "C87",
   "status": "partial",
   "theorems": [
    "ZKAP.C87_fails",
    "ZKAP.C87_partial",
    "ZKAP.C87_never_more"
   ],
   "note": "The property is false of the code: for a mutable write the price is observed while every valid pass sent is recorded (C87_fails). Proved if no mutable write carries more valid passes than it costs (C87_partial); the metric never shows more than was spent (C87_never_more)."
  },
  {
   "property": "C88",
   "status": "proved",
   "theorems": [
    "ZKAP.C88_accepted",
    "ZKAP.C88_honest_issuer",
    "ZKAP.C88_lease_paid"
   ],
   "note": ""
  },
  {
   "property": "C89",
   "status": "proved",
   "theorems": [
    "ZKAP.C89_proved",
    "ZKAP.C89_classified",
    "ZKAP.C89_no_tokens_without_proof",
    "ZKAP.C89_success"
   ],
   "note": ""
  },
  {
   "property": "C90",
   "status": "proved",
   "theorems": [
    "ZKAP.C90_unlinkable",
    "ZKAP.C90_request"
   ],
   "note": ""
  },
  {
   "property": "C91",
   "status": "partial",
   "theorems": [
    "ZKAP.C91_accepted_iff",
    "ZKAP.C91_refused_unchanged",
    "ZKAP.C91_small_count_fails",
    "ZKAP.C91_recorded_partial",
    "ZKAP.C91_others_kept"
   ],
   "note": "Accepting is characterised exactly; recording fails when the configured token count is below the number of groups (witness) and is proved otherwise."
  },
  {
   "property": "C92",
   "status": "proved",
   "theorems": [
    "ZKAP.C92_views_agree"
   ],
   "note": ""
  },
  {
   "property": "C93",
   "status": "partial",
   "theorems": [
    "ZKAP.C93_not_utf8_fails",
    "ZKAP.C93_utf8_partial"
   ],
   "note": "Fails for addresses that are not UTF-8 (witness); proved for all that are."
  },
  {
   "property": "C94",
   "status": "partial",
   "theorems": [
    "ZKAP.C94_server_refuses",
    "ZKAP.C94_invalid_under_some_key_partial",
    "ZKAP.C94_one_key_partial",
    "ZKAP.C94_two_keys_fails"
   ],
   "note": "fails when the issuer has two keys (C94_two_keys_fails); proved for one key, and in general that each invalidated token was not made with the key of some server"
  },
  {
   "property": "C95",
   "status": "proved",
   "theorems": [
    "ZKAP.C95_same_issuer",
    "ZKAP.C95_usable_iff",
    "ZKAP.C95_no_issuer"
   ],
   "note": ""
  },
  {
   "property": "C96",
   "status": "partial",
   "theorems": [
    "ZKAP.C96_collected_fails",
    "ZKAP.C96_kept_partial",
    "ZKAP.C96_unreplicated_partial",
    "ZKAP.C96_separate"
   ],
   "note": "fails once a store was garbage collected (C96_collected_fails); proved while it is not, and for nodes that never replicate"
  },
  {
   "property": "C97",
   "status": "proved",
   "theorems": [
    "ZKAP.C97_lease_maintenance"
   ],
   "note": ""
  },
  {
   "property": "C98",
   "status": "partial",
   "theorems": [
    "ZKAP.C98_database_fails",
    "ZKAP.C98_services_partial"
   ],
   "note": "fails: the database is opened for every node (C98_database_fails); proved: its services are not changed"
  },
  {
   "property": "C99",
   "status": "partial",
   "theorems": [
    "ZKAP.C99_no_rootcap_fails",
    "ZKAP.C99_reachable_partial"
   ],
   "note": "fails: only the rootcap is a starting point (C99_no_rootcap_fails); proved if the replica can be reached from it"
  },
  {
   "property": "C100",
   "status": "partial",
   "theorems": [
    "ZKAP.C100_space_fails",
    "ZKAP.C100_no_space_partial",
    "ZKAP.C100_missing",
    "ZKAP.C100_white_space"
   ],
   "note": "fails for white space around a comma (C100_space_fails); proved: only listed keys are allowed, all of them if white space occurs at the ends only"
  },
  {
   "property": "C101",
   "status": "proved",
   "theorems": [
    "ZKAP.C101_announced_keys_honoured",
    "ZKAP.C101_white_space",
    "ZKAP.C101_starts_iff",
    "ZKAP.C101_white_bytes"
   ],
   "note": ""
  },
  {
   "property": "C102",
   "status": "partial",
   "theorems": [
    "ZKAP.C102_not_announced_fails",
    "ZKAP.C102_same_item_partial"
   ],
   "note": "fails: the value is not announced (C102_not_announced_fails); proved if both have the same item or none"
  },
  {
   "property": "C103",
   "status": "proved",
   "theorems": [
    "ZKAP.C103_event_stream",
    "ZKAP.C103_replayed",
    "ZKAP.C103_snapshot",
    "ZKAP.C103_old_rows"
   ],
   "note": ""
  },
  {
   "property": "C104",
   "status": "proved",
   "theorems": [
    "ZKAP.C104_event_stream",
    "ZKAP.C104_snapshot"
   ],
   "note": ""
  },
  {
   "property": "C105",
   "status": "proved",
   "theorems": [
    "ZKAP.C105_other_version"
   ],
   "note": ""
  },
  {
   "property": "C106",
   "status": "partial",
   "theorems": [
    "ZKAP.C106_outside_fails",
    "ZKAP.C106_private_only_partial"
   ],
   "note": "fails for names with a slash; proved for directories where no event stream has a slash in its name"
  },
  {
   "property": "C107",
   "status": "partial",
   "theorems": [
    "ZKAP.C107_complete_fails",
    "ZKAP.C107_complete_partial",
    "ZKAP.C107_others"
   ],
   "note": "fails for responses without a length that are cut off; proved for all others"
  },
  {
   "property": "C108",
   "status": "proved",
   "theorems": [
    "ZKAP.C108_sound",
    "ZKAP.C108_complete",
    "ZKAP.C108_intact",
    "ZKAP.C108_errors"
   ],
   "note": ""
  },
  {
   "property": "C109",
   "status": "proved",
   "theorems": [
    "ZKAP.C109_contents",
    "ZKAP.C109_outcomes",
    "ZKAP.C109_service_prunes"
   ],
   "note": ""
  },
  {
   "property": "C110",
   "status": "proved",
   "theorems": [
    "ZKAP.C110_fetched"
   ],
   "note": ""
  },
  {
   "property": "C111",
   "status": "partial",
   "theorems": [
    "ZKAP.C111_no_lapse_partial",
    "ZKAP.C111_no_lapse_fails"
   ],
   "note": "fails with the default configuration; proved if the minimum time remaining is at least the longest interval"
  },
  {
   "property": "C112",
   "status": "partial",
   "theorems": [
    "ZKAP.C112_due_partial",
    "ZKAP.C112_keeps_going",
    "ZKAP.C112_due_fails",
    "ZKAP.C112_time_round_trips"
   ],
   "note": "fails for nodes restarted before their first run; proved after it"
  },
  {
   "property": "C113",
   "status": "partial",
   "theorems": [
    "ZKAP.C113_failed_runs_fails",
    "ZKAP.C113_last_end_partial"
   ],
   "note": "fails if a run fails; proved that it is the time of the last run that ended in whichever way"
  },
  {
   "property": "C114",
   "status": "proved",
   "theorems": [
    "ZKAP.C114_payment_lasts"
   ],
   "note": ""
  },
  {
   "property": "C115",
   "status": "proved",
   "theorems": [
    "ZKAP.C115_calls_arrive",
    "ZKAP.C115_pass_limit"
   ],
   "note": ""
  },
  {
   "property": "C116",
   "status": "partial",
   "theorems": [
    "ZKAP.C116_any_price",
    "ZKAP.C116_overcharge_fails",
    "ZKAP.C116_lease_fails",
    "ZKAP.C116_write_partial"
   ],
   "note": "fails for servers that report negative sizes, and for lease renewals; proved for writes if no reported size is negative"
  },
  {
   "property": "C117",
   "status": "partial",
   "theorems": [
    "ZKAP.C117_integers",
    "ZKAP.C117_allocate_fails",
    "ZKAP.C117_stat_fails",
    "ZKAP.C117_sizes_partial",
    "ZKAP.C117_write_partial",
    "ZKAP.C117_buckets_partial"
   ],
   "note": "fails for allocate_buckets and stat_shares; proved for share_sizes, slot writes and get_buckets"
  },
  {
   "property": "C118",
   "status": "partial",
   "theorems": [
    "ZKAP.C118_balance",
    "ZKAP.C118_discarded_is_recorded",
    "ZKAP.C118_nothing_else_recorded",
    "ZKAP.C118_books_agree_partial",
    "ZKAP.C118_lost_answer_fails"
   ],
   "note": "fails when an answer is lost or the client restarts before it arrives; proved otherwise, together with the exact balance for every history"
  },
  {
   "property": "C119",
   "status": "partial",
   "theorems": [
    "ZKAP.C119_lost_node_fails",
    "ZKAP.C119_unpaid_retry_fails",
    "ZKAP.C119_never_refused_partial",
    "ZKAP.C119_value_partial",
    "ZKAP.C119_signed_is_safe_partial",
    "ZKAP.C119_resumes_after_loss"
   ],
   "note": "fails when the node is lost between the issuer's signature and the upload, and for vouchers once reported unpaid; proved for tokens uploaded before the issuer deals with them"
  },
  {
   "property": "C120",
   "status": "partial",
   "theorems": [
    "ZKAP.C120_stuck_fails",
    "ZKAP.C120_groups_left_partial",
    "ZKAP.C120_redeemed_partial",
    "ZKAP.C120_bounded",
    "ZKAP.C120_goes_on",
    "ZKAP.C120_finishes",
    "ZKAP.C120_issued_partial"
   ],
   "note": "fails for vouchers begun again after a report that they are unpaid; proved for all others, for all whose groups have not all been counted, and for all with an issuer that redeems each group for one list of random tokens (C120_issued_partial)"
  },
  {
   "property": "C121",
   "status": "proved",
   "theorems": [
    "ZKAP.C121_history",
    "ZKAP.C121_new_store",
    "ZKAP.C121_reading",
    "ZKAP.C121_statements_fit",
    "ZKAP.C121_well_formed",
    "ZKAP.C121_recorded",
    "ZKAP.C121_count_fits"
   ],
   "note": ""
  },
  {
   "property": "C122",
   "status": "proved",
   "theorems": [
    "ZKAP.C122_recovery"
   ],
   "note": ""
  },
  {
   "property": "C123",
   "status": "proved",
   "theorems": [
    "ZKAP.C123_backlog",
    "ZKAP.C123_only_vouchers",
    "ZKAP.C123_not_sooner",
    "ZKAP.C123_count"
   ],
   "note": ""
  },
  {
   "property": "C124",
   "status": "proved",
   "theorems": [
    "ZKAP.C124_allocate",
    "ZKAP.C124_add_lease",
    "ZKAP.C124_write",
    "ZKAP.C124_enough"
   ],
   "note": ""
  },
  {
   "property": "C125",
   "status": "proved",
   "theorems": [
    "ZKAP.C125_written",
    "ZKAP.C125_not_written"
   ],
   "note": ""
  },
  {
   "property": "C126",
   "status": "partial",
   "theorems": [
    "ZKAP.C126_unlink_file_fails",
    "ZKAP.C126_same_partial",
    "ZKAP.C126_file_capability"
   ],
   "note": "The property as stated fails for links in and unlinks from capabilities of files."
  },
  {
   "property": "C127",
   "status": "partial",
   "theorems": [
    "ZKAP.C127_unlink",
    "ZKAP.C127_unlink_fails",
    "ZKAP.C127_once_partial"
   ],
   "note": "The property as stated fails for unlinking."
  },
  {
   "property": "C128",
   "status": "partial",
   "theorems": [
    "ZKAP.C128_name_fails",
    "ZKAP.C128_retried_iff",
    "ZKAP.C128_ends_partial",
    "ZKAP.C128_names"
   ],
   "note": "The property as stated fails for names of entries that contain the name of the exception."
  },
  {
   "property": "C129",
   "status": "partial",
   "theorems": [
    "ZKAP.C129_not_new",
    "ZKAP.C129_never",
    "ZKAP.C129_fails",
    "ZKAP.C129_restarted_partial",
    "ZKAP.C129_submitted_partial",
    "ZKAP.C129_finishes",
    "ZKAP.C129_goes_on"
   ],
   "note": "refuted in full generality (`C129_never`): nothing but a restart or a new submission starts the redemption; after either the voucher is redeemed"
  },
  {
   "property": "C130",
   "status": "partial",
   "theorems": [
    "ZKAP.C130_reads_bucket_partial",
    "ZKAP.C130_stray_file_fails",
    "ZKAP.C130_stray_size",
    "ZKAP.C130_stray_breaks_write",
    "ZKAP.C130_stray_file_partial",
    "ZKAP.C130_unreadable"
   ],
   "note": "refuted for files whose names are other spellings of a number (`C130_stray_file_fails`); proved for all names that `int` does not read"
  },
  {
   "property": "C131",
   "status": "partial",
   "theorems": [
    "ZKAP.C131_no_answer",
    "ZKAP.C131_damaged_share_fails",
    "ZKAP.C131_no_renewal",
    "ZKAP.C131_others_partial",
    "ZKAP.C131_same_index"
   ],
   "note": "refuted (`C131_no_answer`): one damaged share leaves a whole request unanswered; proved for indexes that are not in the request"
  },
  {
   "property": "C132",
   "status": "partial",
   "theorems": [
    "ZKAP.C132_one_lease_each",
    "ZKAP.C132_upload_replaces_fails",
    "ZKAP.C132_never_shortened_partial",
    "ZKAP.C132_maintenance_renews",
    "ZKAP.C132_others_untouched"
   ],
   "note": "refuted for a slot created while an immutable share with the same storage index and number is being uploaded (`C132_upload_replaces_fails`); proved for all other shares"
  },
  {
   "property": "C133",
   "status": "proved",
   "theorems": [
    "ZKAP.C133_without_token",
    "ZKAP.C133_with_token",
    "ZKAP.C133_strangers_leave_no_trace",
    "ZKAP.C133_recovery_needs_token",
    "ZKAP.C133_only_orders_change",
    "ZKAP.C133_unknown_address",
    "ZKAP.C133_missing_token",
    "ZKAP.C133_version",
    "ZKAP.C133_methods"
   ],
   "note": ""
  },
  {
   "property": "C134",
   "status": "partial",
   "theorems": [
    "ZKAP.C134_names_fail",
    "ZKAP.C134_values_partial"
   ],
   "note": "refuted for the keys (`C134_names_fail`: they are `total` and `spending`); proved for the values"
  },
  {
   "property": "C135",
   "status": "partial",
   "theorems": [
    "ZKAP.C135_unpaid_fails",
    "ZKAP.C135_no_effect_partial",
    "ZKAP.C135_nothing_lost_partial"
   ],
   "note": "refuted for vouchers whose redemption failed (`C135_unpaid_fails`); proved for the others"
  },
  {
   "property": "C136",
   "status": "proved",
   "theorems": [
    "ZKAP.C136_settings",
    "ZKAP.C136_price"
   ],
   "note": ""
  },
  {
   "property": "C137",
   "status": "partial",
   "theorems": [
    "ZKAP.C137_no_checkpoint_fails",
    "ZKAP.C137_not_found_partial"
   ],
   "note": "refuted (`C137_no_checkpoint_fails`); proved: such requests are told 404 and change nothing"
  },
  {
   "property": "C138",
   "status": "proved",
   "theorems": [
    "ZKAP.C138_shown",
    "ZKAP.C138_no_tokens",
    "ZKAP.C138_dummy_tokens",
    "ZKAP.C138_selected",
    "ZKAP.C138_selectable"
   ],
   "note": ""
  },
  {
   "property": "C139",
   "status": "partial",
   "theorems": [
    "ZKAP.C139_long_voucher_fails",
    "ZKAP.C139_random_tokens_partial",
    "ZKAP.C139_random_tokens_distinct",
    "ZKAP.C139_unblinded",
    "ZKAP.C139_never_recorded",
    "ZKAP.C139_passes"
   ],
   "note": "refuted for vouchers of 33 bytes (`C139_long_voucher_fails`); proved for the others and for distinctness"
  },
  {
   "property": "C140",
   "status": "partial",
   "theorems": [
    "ZKAP.C140_decision",
    "ZKAP.C140_listing",
    "ZKAP.C140_fails",
    "ZKAP.C140_partial",
    "ZKAP.C140_after_upload",
    "ZKAP.C140_restored"
   ],
   "note": "refuted for restarts; proved for histories without restart or failure, and from the next uploaded event stream on after any history"
  },
  {
   "property": "C141",
   "status": "partial",
   "theorems": [
    "ZKAP.C141_never_deleted",
    "ZKAP.C141_immutable",
    "ZKAP.C141_uploaded",
    "ZKAP.C141_partial",
    "ZKAP.C141_fails"
   ],
   "note": "refuted when someone writes a slot with the storage index of an upload under way; proved whenever there is no slot at that index when the upload is completed (C177_uploaded), whatever is requested later, and the bytes stay stored in any case"
  },
  {
   "property": "C142",
   "status": "partial",
   "theorems": [
    "ZKAP.C142_quiet_partial",
    "ZKAP.C142_partial",
    "ZKAP.C142_who",
    "ZKAP.C142_fails"
   ],
   "note": "refuted when an upload to the slot's storage index started before the slot existed is completed later; proved for every share whose very place is not being uploaded to, whatever else is requested"
  },
  {
   "property": "C143",
   "status": "partial",
   "theorems": [
    "ZKAP.C143_order",
    "ZKAP.C143_partial",
    "ZKAP.C143_fails"
   ],
   "note": "refuted for storage operations at the same time; proved for a node that does one after the other, each spending the first of its tokens and giving back the rest"
  },
  {
   "property": "C144",
   "status": "partial",
   "theorems": [
    "ZKAP.C144_fails",
    "ZKAP.C144_partial",
    "ZKAP.C144_recorded",
    "ZKAP.C144_recorded_kept"
   ],
   "note": "refuted for a change made while the first snapshot of a new node is uploaded; proved otherwise, and in full for nodes that have recorded a change"
  },
  {
   "property": "C145",
   "status": "partial",
   "theorems": [
    "ZKAP.C145_fails",
    "ZKAP.C145_partial",
    "ZKAP.C145_recovered"
   ],
   "note": "refuted for text with NUL; proved for all other text, from database to database"
  },
  {
   "property": "C146",
   "status": "partial",
   "theorems": [
    "ZKAP.C146_fails",
    "ZKAP.C146_other_fails",
    "ZKAP.C146_partial",
    "ZKAP.C146_plugin"
   ],
   "note": "refuted for names with single quotes; proved for all others, among them all tables of the plugin"
  },
  {
   "property": "C147",
   "status": "partial",
   "theorems": [
    "ZKAP.C147_fails",
    "ZKAP.C147_partial",
    "ZKAP.C147_ignored"
   ],
   "note": "refuted; proved: only tokens whose key was allowed when the issuer sent them"
  },
  {
   "property": "C148",
   "status": "partial",
   "theorems": [
    "ZKAP.C148_fails",
    "ZKAP.C148_partial",
    "ZKAP.C148_decided_once"
   ],
   "note": "refuted; proved: sequestered tokens stay sequestered for good"
  },
  {
   "property": "C149",
   "status": "proved",
   "theorems": [
    "ZKAP.C149_entered",
    "ZKAP.C149_fixed"
   ],
   "note": ""
  },
  {
   "property": "C150",
   "status": "partial",
   "theorems": [
    "ZKAP.C150_fails",
    "ZKAP.C150_partial",
    "ZKAP.C150_redeemed",
    "ZKAP.C150_tokens"
   ],
   "note": "refuted; proved for backups that have what the issuer signed, in particular for those made after the voucher was redeemed"
  },
  {
   "property": "C151",
   "status": "proved",
   "theorems": [
    "ZKAP.C151_wrong_server",
    "ZKAP.C151_error",
    "ZKAP.C151_right_server",
    "ZKAP.C151_free_operations"
   ],
   "note": ""
  },
  {
   "property": "C152",
   "status": "partial",
   "theorems": [
    "ZKAP.C152_takes_everything",
    "ZKAP.C152_negative_size_fails",
    "ZKAP.C152_exact_partial"
   ],
   "note": "refuted; proved for all requests but lease renewals priced at a negative number"
  },
  {
   "property": "C153",
   "status": "proved",
   "theorems": [
    "ZKAP.C153_calls_of_an_operation",
    "ZKAP.C153_success_spends",
    "ZKAP.C153_upload_buckets",
    "ZKAP.C153_tokens_in_use",
    "ZKAP.C153_tokens_leave_for_a_reason"
   ],
   "note": ""
  },
  {
   "property": "C154",
   "status": "partial",
   "theorems": [
    "ZKAP.C154_sent_again_partial",
    "ZKAP.C154_spent_never_sent_again_partial",
    "ZKAP.C154_surplus_fails"
   ],
   "note": "refuted; proved that a preimage is only sent again by the same operation after a refusal of some of its passes, after the operation failed, after an upload that got fewer buckets than it asked for, or after a restart, and never after its token has left the store"
  },
  {
   "property": "C155",
   "status": "partial",
   "theorems": [
    "ZKAP.C155_unpaid_hides_failure_fails",
    "ZKAP.C155_sequestered_not_counted_fails",
    "ZKAP.C155_invariant",
    "ZKAP.C155_created",
    "ZKAP.C155_state_partial",
    "ZKAP.C155_redeeming",
    "ZKAP.C155_full_partial"
   ],
   "note": "refuted in two ways; proved for the time of creation and for attempts under way in all cases, and for every state unless an earlier report to the same process hides the latest outcome"
  },
  {
   "property": "C156",
   "status": "partial",
   "theorems": [
    "ZKAP.C156_carried_out_partial",
    "ZKAP.C156_lease_ends_fails"
   ],
   "note": "refuted for slot writes during which a lease ends; proved for uploads and renewals in all cases and for writes during which no lease at the index ends"
  },
  {
   "property": "C157",
   "status": "proved",
   "theorems": [
    "ZKAP.C157_bad_tokens"
   ],
   "note": ""
  },
  {
   "property": "C158",
   "status": "proved",
   "theorems": [
    "ZKAP.C158_told"
   ],
   "note": ""
  },
  {
   "property": "C159",
   "status": "proved",
   "theorems": [
    "ZKAP.C159_answered"
   ],
   "note": ""
  },
  {
   "property": "C160",
   "status": "proved",
   "theorems": [
    "ZKAP.C160_written_is_read"
   ],
   "note": ""
  },
  {
   "property": "C161",
   "status": "partial",
   "theorems": [
    "ZKAP.C161_no_effect_partial",
    "ZKAP.C161_half_renewed_fails",
    "ZKAP.C161_written_fails"
   ],
   "note": "refuted where a server has no room for a lease; proved for servers with room"
  },
  {
   "property": "C162",
   "status": "proved",
   "theorems": [
    "ZKAP.C162_none_fails",
    "ZKAP.C162_moves"
   ],
   "note": ""
  },
  {
   "property": "C163",
   "status": "proved",
   "theorems": [
    "ZKAP.C163_uploaded_is_read"
   ],
   "note": ""
  },
  {
   "property": "C164",
   "status": "proved",
   "theorems": [
    "ZKAP.C164_none_fails",
    "ZKAP.C164_moves"
   ],
   "note": ""
  },
  {
   "property": "C165",
   "status": "proved",
   "theorems": [
    "ZKAP.C165_has_writes",
    "ZKAP.C165_sharenums",
    "ZKAP.C165_furthest",
    "ZKAP.C165_nowhere"
   ],
   "note": ""
  },
  {
   "property": "C166",
   "status": "proved",
   "theorems": [
    "ZKAP.C166_well_tended"
   ],
   "note": ""
  },
  {
   "property": "C167",
   "status": "partial",
   "theorems": [
    "ZKAP.C167_form_partial",
    "ZKAP.C167_negative_fails",
    "ZKAP.C167_negative_is_free_fails"
   ],
   "note": "refuted for the sign of numbers; proved otherwise, as an equivalence"
  },
  {
   "property": "C168",
   "status": "partial",
   "theorems": [
    "ZKAP.C168_in_order_partial",
    "ZKAP.C168_either_partial",
    "ZKAP.C168_dear_lease_fails"
   ],
   "note": "refuted; the run's end and effects are characterised"
  },
  {
   "property": "C169",
   "status": "proved",
   "theorems": [
    "ZKAP.C169_passes_made",
    "ZKAP.C169_operation",
    "ZKAP.C169_traffic",
    "ZKAP.C169_maintenance"
   ],
   "note": ""
  },
  {
   "property": "C170",
   "status": "proved",
   "theorems": [
    "ZKAP.C170_stays_leased",
    "ZKAP.C170_stays_leased_real"
   ],
   "note": ""
  },
  {
   "property": "C171",
   "status": "proved",
   "theorems": [
    "ZKAP.C171_real_life",
    "ZKAP.C171_real_life_smooth",
    "ZKAP.C171_operation_issued",
    "ZKAP.C171_history",
    "ZKAP.C171_operation",
    "ZKAP.C171_traffic",
    "ZKAP.C171_maintenance"
   ],
   "note": ""
  },
  {
   "property": "C172",
   "status": "partial",
   "theorems": [
    "ZKAP.C172_once_partial",
    "ZKAP.C172_partial",
    "ZKAP.C172_issuer_partial",
    "ZKAP.C172_fails"
   ],
   "note": "refuted; proved unless a voucher is started again after it was unpaid and partly redeemed"
  },
  {
   "property": "C173",
   "status": "proved",
   "theorems": [
    "ZKAP.C173_value",
    "ZKAP.C173_value_smooth"
   ],
   "note": ""
  },
  {
   "property": "C174",
   "status": "proved",
   "theorems": [
    "ZKAP.C174_client",
    "ZKAP.C174_node",
    "ZKAP.C174_issued",
    "ZKAP.C174_smooth"
   ],
   "note": ""
  },
  {
   "property": "C175",
   "status": "proved",
   "theorems": [
    "ZKAP.C175_client",
    "ZKAP.C175_node",
    "ZKAP.C175_worth",
    "ZKAP.C175_worth_smooth"
   ],
   "note": ""
  },
  {
   "property": "C176",
   "status": "proved",
   "theorems": [
    "ZKAP.C176_file",
    "ZKAP.C176_first",
    "ZKAP.C176_never_more",
    "ZKAP.C176_pace",
    "ZKAP.C176_configuration"
   ],
   "note": ""
  },
  {
   "property": "C177",
   "status": "proved",
   "theorems": [
    "ZKAP.C177_stays_readable",
    "ZKAP.C177_uploaded",
    "ZKAP.C177_kept",
    "ZKAP.C177_uploaded_kept"
   ],
   "note": ""
  },
  {
   "property": "C178",
   "status": "partial",
   "theorems": [
    "ZKAP.C178_nothing_renewed",
    "ZKAP.C178_no_renewals",
    "ZKAP.C178_partial",
    "ZKAP.C178_finite_partial",
    "ZKAP.C178_fails"
   ],
   "note": "refuted; proved if every file and directory has a storage index"
  },
  {
   "property": "C179",
   "status": "partial",
   "theorems": [
    "ZKAP.C179_nothing_done",
    "ZKAP.C179_partial",
    "ZKAP.C179_fails"
   ],
   "note": "refuted; proved if every directory in the tree can be read"
  }
 ]
}