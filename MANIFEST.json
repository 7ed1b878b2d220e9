{
 "claims": [
  {
   "property": "C01",
   "status": "partial",
   "theorems": [
    "Verif.Replay.C01_faithful_replay_fails",
    "Verif.Replay.C01_unread_retry_duplicates_first_chunk",
    "Verif.Replay.C01_replay_prefix_partial",
    "Verif.Replay.C01_replay_complete_partial"
   ],
   "note": "The full claim is false of the code (C01_faithful_replay_fails, C01_unread_retry_duplicates_first_chunk). Proved for the original and for every clone first polled after at least one byte was read by anyone; missing: clones first polled before that."
  },
  {
   "property": "C02",
   "status": "partial",
   "theorems": [
    "Verif.Replay.C02_too_large_is_rejected",
    "Verif.Replay.C02_buffer_bounded",
    "Verif.Replay.C02_single_state",
    "Verif.Replay.C02_capped_clone_only_errors",
    "Verif.Replay.C02_capped_iff_limit_exceeded",
    "Verif.Replay.C02_active_clone_undisturbed_partial",
    "Verif.Replay.C02_active_clone_can_be_cut_off"
   ],
   "note": "Bound, rejection, cap detection and 'a fresh clone of a capped body only errors' are proved in full; 'the active clone is undisturbed' only for clones covered by C01 (C02_active_clone_can_be_cut_off is the counterexample otherwise)."
  },
  {
   "property": "C03",
   "status": "proved",
   "theorems": [
    "Verif.Retry.C03_attempts_bounded",
    "Verif.Retry.C03_resend_only_when_allowed",
    "Verif.Retry.C03_resend_waits",
    "Verif.Retry.C03_answer_is_last_attempt",
    "Verif.Retry.C03_ready_failure_discards_response",
    "Verif.Retry.C03_stops_only_for_reason",
    "Verif.Retry.C03_metrics_agree",
    "Verif.Retry.C03_without_policy_passthrough"
   ],
   "note": "The readiness error of the service replaces the last response (C03_ready_failure_discards_response); everything else as stated."
  },
  {
   "property": "C04",
   "status": "proved",
   "theorems": [
    "Verif.PeekTrailers.C04_peeking_is_transparent",
    "Verif.PeekTrailers.C04_wrapped_body_ends",
    "Verif.PeekTrailers.C04_peeked_trailers_are_the_trailers",
    "Verif.PeekTrailers.C04_prompt_trailers_are_peeked",
    "Verif.PeekTrailers.C04_http1_untouched",
    "Verif.PeekTrailers.C04_end_stream_sound",
    "Verif.PeekTrailers.C04_size_hint_sound"
   ],
   "note": ""
  },
  {
   "property": "C05",
   "status": "proved",
   "theorems": [
    "Verif.Backoff.C05_try_new_validates",
    "Verif.Backoff.C05_delay_within_bounds",
    "Verif.Backoff.C05_jitter_at_most_ratio",
    "Verif.Backoff.C05_base_monotone",
    "Verif.Backoff.C05_base_doubles",
    "Verif.Backoff.C05_base_reaches_max",
    "Verif.Backoff.C05_max_may_be_unreachable",
    "Verif.Backoff.C05_items_take_time",
    "Verif.Backoff.C05_wait_at_most_max",
    "Verif.Backoff.C05_kth_wait",
    "Verif.Backoff.C05_waits_double"
   ],
   "note": "Bounds, jitter, growth and pacing are proved; that the base delay reaches the maximum holds exactly when max <= (2^32-1)*min (C05_base_reaches_max); C05_max_may_be_unreachable is the counterexample otherwise."
  },
  {
   "property": "C06",
   "status": "proved",
   "theorems": [
    "Verif.IdleCache.C06_never_panics",
    "Verif.IdleCache.C06_lookup_shares_value",
    "Verif.IdleCache.C06_permanent_never_evicted",
    "Verif.IdleCache.C06_one_value_per_key",
    "Verif.IdleCache.C06_evicted_only_after_idle",
    "Verif.IdleCache.C06_prompt_eviction_after_idle",
    "Verif.IdleCache.C06_limit_used_just_now",
    "Verif.IdleCache.C06_idle_entry_is_evicted"
   ],
   "note": ""
  },
  {
   "property": "C07",
   "status": "proved",
   "theorems": [
    "Verif.Gate.C07_open_and_shut",
    "Verif.Gate.C07_admissions_bounded",
    "Verif.Gate.C07_permits_conserved",
    "Verif.Gate.C07_free_permit_grants",
    "Verif.Gate.C07_call_needs_readiness"
   ],
   "note": ""
  },
  {
   "property": "C08",
   "status": "proved",
   "theorems": [
    "Verif.FailFast.C08_failfast_only_after_timeout",
    "Verif.FailFast.C08_ready_means_forwarded_or_failfast",
    "Verif.FailFast.C08_recovers",
    "Verif.FailFast.C08_gate_shut_iff",
    "Verif.FailFast.C08_failfast_starts",
    "Verif.FailFast.Task.C08_failfast_only_after_timeout_any_schedule",
    "Verif.FailFast.Task.C08_recovers_any_schedule",
    "Verif.FailFast.Task.C08_gate_any_schedule",
    "Verif.FailFast.Task.C08_limit_failfast_after_recovery",
    "Verif.FailFast.Task.C08_coarse_histories"
   ],
   "note": ""
  },
  {
   "property": "C09",
   "status": "proved",
   "theorems": [
    "Verif.SwitchReady.C09_secondary_only_after_timeout",
    "Verif.SwitchReady.C09_returns_to_primary",
    "Verif.SwitchReady.C09_call_goes_to_ready_service",
    "Verif.SwitchReady.C09_switches_after_timeout"
   ],
   "note": ""
  },
  {
   "property": "C10",
   "status": "proved",
   "theorems": [
    "Verif.LoadShed.C10_always_ready",
    "Verif.LoadShed.C10_shed_iff_unready"
   ],
   "note": ""
  },
  {
   "property": "C11",
   "status": "proved",
   "theorems": [
    "Spec.C11_updates_are_counted",
    "Verif.P2c.C11_endpoints_are_the_fold_of_updates",
    "Verif.P2c.C11_gauge_counts_endpoints",
    "Verif.P2c.C11_request_goes_to_a_ready_endpoint",
    "Verif.P2c.C11_removed_endpoints_get_no_requests",
    "Verif.P2c.C11_replaced_endpoint_gets_at_most_one_request",
    "Verif.P2c.C11_poll_never_panics",
    "Verif.P2c.C11_ready_pool_accepts_a_request",
    "Verif.P2c.C11_waits_only_when_no_endpoint_is_ready",
    "Verif.P2c.C11_chooses_the_lower_load",
    "Verif.P2c.C11_never_chooses_the_most_loaded",
    "Verif.P2c.C11_every_pair_has_one_draw",
    "Verif.P2c.C11_every_endpoint_can_be_chosen"
   ],
   "note": ""
  },
  {
   "property": "C12",
   "status": "proved",
   "theorems": [
    "Verif.Distribute.C12_construction",
    "Verif.Distribute.C12_choice_is_proportional_to_weight",
    "Verif.Distribute.C12_request_goes_to_a_ready_backend",
    "Verif.Distribute.C12_readiness",
    "Verif.Distribute.C12_ready_backend_makes_ready",
    "Verif.Distribute.C12_ready_accepts_a_request",
    "Verif.Distribute.C12_empty_is_never_ready"
   ],
   "note": ""
  },
  {
   "property": "C13",
   "status": "proved",
   "theorems": [
    "Verif.Breaker.C13_trips_exactly_at_n_failures_in_a_row",
    "Verif.Breaker.C13_only_a_response_trips",
    "Verif.Breaker.C13_in_service_admits_every_request",
    "Verif.Breaker.C13_one_probe_per_backoff",
    "Verif.Breaker.C13_no_request_during_backoff",
    "Verif.Breaker.C13_backoff_ends_in_a_probe",
    "Verif.Breaker.C13_probe_decides",
    "Verif.Breaker.C13_zero_never_trips"
   ],
   "note": ""
  },
  {
   "property": "C14",
   "status": "proved",
   "theorems": [
    "Verif.Breaker.C14_counters_count_the_recent_responses",
    "Verif.Breaker.C14_counters_never_overcount",
    "Verif.Breaker.C14_counters_fit",
    "Verif.Breaker.C14_counted_responses_are_recent",
    "Verif.Breaker.C14_trips_only_below_the_threshold",
    "Verif.Breaker.C14_trips_iff_recent_responses_fall_short",
    "Verif.Breaker.C14_reset_forgets"
   ],
   "note": ""
  },
  {
   "property": "C15",
   "status": "proved",
   "theorems": [
    "Verif.Breaker.C15_trips_exactly_on_either_condition",
    "Verif.Breaker.C15_disabled_never_trips",
    "Verif.Breaker.C15_only_a_good_response_restores_service",
    "Verif.Breaker.C15_admission",
    "Verif.Breaker.C15_reopening_forgets"
   ],
   "note": ""
  },
  {
   "property": "C16",
   "status": "proved",
   "theorems": [
    "Verif.RetryAfter.C16_retry_after_meaning",
    "Verif.RetryAfter.C16_pushback_meaning",
    "Verif.RetryAfter.C16_never_exceeds_the_cap",
    "Verif.RetryAfter.C16_written_delays_are_read",
    "Verif.RetryAfter.C16_negative_pushback_is_ignored",
    "Verif.RetryAfter.C16_caching_is_transparent",
    "Verif.RetryAfter.C16_penalised_responses",
    "Verif.RetryAfter.C16_penalty_bounds"
   ],
   "note": ""
  },
  {
   "property": "C17",
   "status": "proved",
   "theorems": [
    "Verif.Load.C17_estimate_follows_increases",
    "Verif.Load.C17_estimate_moves_toward_the_sample",
    "Verif.Load.C17_first_sample",
    "Verif.Load.C17_load_counts_requests_in_flight",
    "Verif.Load.C17_load_grows_with_requests_in_flight",
    "Verif.Load.C17_only_time_lowers_the_estimate",
    "Verif.Load.C17_penalties_last",
    "Verif.Load.C17_estimate_is_bounded_by_the_samples"
   ],
   "note": ""
  },
  {
   "property": "C18",
   "status": "proved",
   "theorems": [
    "Verif.Gauge.C18_gauges_count_endpoints",
    "Verif.Gauge.C18_gauges_are_never_negative",
    "Verif.Gauge.C18_drop_decrements_its_gauge",
    "Verif.Gauge.C18_gauges_return_to_zero"
   ],
   "note": ""
  },
  {
   "property": "C19",
   "status": "proved",
   "theorems": [
    "Verif.Queue.C19_answered_once_and_in_order",
    "Verif.Queue.C19_no_request_is_lost",
    "Verif.Queue.C19_backlog_is_bounded",
    "Verif.Queue.C19_length_gauge",
    "Verif.Queue.C19_never_panics",
    "Verif.Queue.C19_terminal_failure_reaches_everyone",
    "Verif.Queue.C19_discovery_failure_is_terminal",
    "Verif.Queue.C19_pool_failure_is_terminal",
    "Verif.Queue.C19_terminal_answers_only_after_failure",
    "Verif.Queue.C19_queued_requests_are_drained",
    "Verif.Queue.C19_fail_fast_only_after_the_timeout",
    "Verif.Queue.C19_timeout_answers",
    "Verif.Queue.C19_gate_follows_fail_fast",
    "Verif.Queue.C19_requests_see_every_update",
    "Verif.Queue.C19_every_request_can_be_answered",
    "Verif.Queue.C19_room_is_given",
    "Verif.Queue.C19_a_place_is_kept",
    "Verif.Queue.C19_gives_up_only_after_a_failure",
    "Verif.Queue.C19_held_at_most_the_timeout"
   ],
   "note": ""
  },
  {
   "property": "C20",
   "status": "proved",
   "theorems": [
    "Verif.Reconnect.C20_attempts_are_lawful",
    "Verif.Reconnect.C20_calls_reach_a_connected_service",
    "Verif.Reconnect.C20_unrecoverable_errors_surface",
    "Verif.Reconnect.C20_lost_connections_are_replaced"
   ],
   "note": ""
  },
  {
   "property": "C21",
   "status": "proved",
   "theorems": [
    "Verif.Recover.C21_consumer_agrees_with_session",
    "Verif.Recover.C21_attempts_are_lawful",
    "Verif.Recover.C21_unrecoverable_errors_surface",
    "Verif.Recover.C21_updates_are_passed_on",
    "Verif.Recover.C21_lost_sessions_are_replaced"
   ],
   "note": ""
  },
  {
   "property": "C22",
   "status": "proved",
   "theorems": [
    "Verif.HttpRoute.C22_http_route_is_the_right_choice",
    "Verif.HttpRoute.C22_http_none_iff_nothing_applies",
    "Verif.HttpRoute.C22_grpc_route_is_the_right_choice",
    "Verif.HttpRoute.C22_grpc_none_iff_nothing_applies",
    "Verif.HttpRoute.C22_right_choice_is_unique",
    "Verif.HttpRoute.C22_exact_path_does_not_outrank_prefix",
    "Verif.HttpRoute.C22_order_of_matches_shows_in_the_summary"
   ],
   "note": ""
  },
  {
   "property": "C23",
   "status": "proved",
   "theorems": [
    "Verif.HttpRoute.C23_prefix_is_by_segments",
    "Verif.HttpRoute.C23_root_prefix_applies",
    "Verif.HttpRoute.C23_trailing_slash_of_path",
    "Verif.HttpRoute.C23_trailing_slash_of_prefix",
    "Verif.HttpRoute.C23_exact_is_equality",
    "Verif.HttpRoute.C23_regex_is_anchored",
    "Verif.HttpRoute.C23_length_of_the_match"
   ],
   "note": ""
  },
  {
   "property": "C24",
   "status": "proved",
   "theorems": [
    "Verif.HttpRoute.C24_exact_host",
    "Verif.HttpRoute.C24_wildcard_host",
    "Verif.HttpRoute.C24_no_host",
    "Verif.HttpRoute.C24_exact_outranks_suffix",
    "Verif.HttpRoute.C24_longer_suffix_outranks",
    "Verif.HttpRoute.C24_empty_label_is_accepted"
   ],
   "note": ""
  },
  {
   "property": "C25",
   "status": "proved",
   "theorems": [
    "Verif.HttpRoute.C25_redirect_points_to_the_target",
    "Verif.HttpRoute.C25_no_redirect_means_already_there",
    "Verif.HttpRoute.C25_redirect_succeeds",
    "Verif.HttpRoute.C25_prefix_replacement_needs_a_prefix_match",
    "Verif.HttpRoute.C25_replaces_the_matched_prefix",
    "Verif.HttpRoute.C25_new_prefix_with_slash_doubles_it",
    "Verif.HttpRoute.C25_connect_panics"
   ],
   "note": ""
  },
  {
   "property": "C26",
   "status": "proved",
   "theorems": [
    "Verif.HttpRoute.C26_removed_is_absent",
    "Verif.HttpRoute.C26_set_has_the_value",
    "Verif.HttpRoute.C26_added_after_the_old",
    "Verif.HttpRoute.C26_others_are_unchanged"
   ],
   "note": ""
  },
  {
   "property": "C27",
   "status": "proved",
   "theorems": [
    "Verif.TlsRoute.C27_route_is_the_right_choice",
    "Verif.TlsRoute.C27_none_iff_nothing_applies",
    "Verif.TlsRoute.C27_exact_name",
    "Verif.TlsRoute.C27_wildcard_name",
    "Verif.TlsRoute.C27_upper_case_pattern_never_applies"
   ],
   "note": ""
  },
  {
   "property": "C28",
   "status": "proved",
   "theorems": [
    "Verif.ServerPolicy.C28_authorized_iff",
    "Verif.ServerPolicy.C28_no_identity_is_refused",
    "Verif.ServerPolicy.C28_refused_iff",
    "Verif.ServerPolicy.C28_named_entry_is_the_first",
    "Verif.ServerPolicy.C28_suffix_is_by_labels",
    "Verif.ServerPolicy.C28_uri_needs_its_exact_text",
    "Verif.ServerPolicy.C28_single_address",
    "Verif.ServerPolicy.C28_whole_network"
   ],
   "note": ""
  },
  {
   "property": "C29",
   "status": "proved",
   "theorems": [
    "Verif.InboundPolicy.C29_accepted_iff",
    "Verif.InboundPolicy.C29_refused_stays_refused",
    "Verif.InboundPolicy.C29_waiting_means_authorized",
    "Verif.InboundPolicy.C29_withdrawal_ends_the_connection",
    "Verif.InboundPolicy.C29_withdrawal_terminates",
    "Verif.InboundPolicy.C29_terminated_only_without_authorization",
    "Verif.InboundPolicy.C29_authorized_is_never_terminated",
    "Verif.InboundPolicy.C29_http_policy_authorizes_no_connection",
    "Verif.InboundPolicy.C29_overwritten_update_is_not_seen"
   ],
   "note": ""
  },
  {
   "property": "C30",
   "status": "proved",
   "theorems": [
    "Verif.InboundPolicy.C30_forwarded_iff",
    "Verif.InboundPolicy.C30_refused_iff",
    "Verif.InboundPolicy.C30_refused_requests_use_no_limit",
    "Verif.InboundPolicy.C30_refused_or_passes",
    "Verif.InboundPolicy.C30_counted_once",
    "Verif.InboundPolicy.C30_identity_of_the_client",
    "Verif.InboundPolicy.C30_injected_failure",
    "Verif.InboundPolicy.C30_invalid_policy_is_unauthorized"
   ],
   "note": ""
  },
  {
   "property": "C31",
   "status": "proved",
   "theorems": [
    "Verif.ServerPolicy.C31_admits_iff",
    "Verif.ServerPolicy.C31_at_most_the_rate",
    "Verif.ServerPolicy.C31_keeping_to_the_rate",
    "Verif.ServerPolicy.C31_total_rate",
    "Verif.ServerPolicy.C31_account_rate",
    "Verif.ServerPolicy.C31_limit_more_than_one_a_nanosecond",
    "Verif.ServerPolicy.C31_verdict",
    "Verif.ServerPolicy.C31_one_account",
    "Verif.ServerPolicy.C31_no_limits",
    "Verif.ServerPolicy.C31_accounts_are_independent",
    "Verif.ServerPolicy.C31_first_request_of_an_account",
    "Verif.ServerPolicy.C31_total_is_a_cap",
    "Verif.ServerPolicy.C31_account_is_a_cap",
    "Verif.ServerPolicy.C31_zero_is_no_limit",
    "Verif.ServerPolicy.C31_overrides_of_the_configuration",
    "Verif.ServerPolicy.C31_rejected_requests_use_up_the_total"
   ],
   "note": ""
  },
  {
   "property": "C32",
   "status": "proved",
   "theorems": [
    "Verif.InboundPolicy.C32_fixed_policy",
    "Verif.InboundPolicy.C32_discovered_for_its_port",
    "Verif.InboundPolicy.C32_first_policy",
    "Verif.InboundPolicy.C32_stream_follows_updates",
    "Verif.InboundPolicy.C32_held_port_keeps_its_stream",
    "Verif.InboundPolicy.C32_configured_port_keeps_its_stream",
    "Verif.InboundPolicy.C32_defaults_can_be_made_opaque",
    "Verif.InboundPolicy.C32_opaque_default_admits_the_same",
    "Verif.InboundPolicy.C32_deny"
   ],
   "note": ""
  },
  {
   "property": "C33",
   "status": "proved",
   "theorems": [
    "Verif.Dns.C33_accepted_iff",
    "Verif.Dns.C33_kept_in_lower_case",
    "Verif.Dns.C33_idempotent",
    "Verif.Dns.C33_equal_up_to_case",
    "Verif.Dns.C33_without_trailing_dot",
    "Verif.Dns.C33_labels_unique",
    "Verif.Dns.C33_localhost_needs_the_final_dot"
   ],
   "note": ""
  },
  {
   "property": "C34",
   "status": "proved",
   "theorems": [
    "Verif.Dns.C34_contains_iff",
    "Verif.Dns.C34_contains_as_read",
    "Verif.Dns.C34_root",
    "Verif.Dns.C34_parse",
    "Verif.Dns.C34_order"
   ],
   "note": ""
  },
  {
   "property": "C35",
   "status": "proved",
   "theorems": [
    "Verif.Addr.C35_name_matches_iff",
    "Verif.Addr.C35_ip_matches_iff",
    "Verif.Addr.C35_empty",
    "Verif.Addr.C35_monotone"
   ],
   "note": ""
  },
  {
   "property": "C36",
   "status": "proved",
   "theorems": [
    "Verif.TransportHeader.C36_reads",
    "Verif.TransportHeader.C36_reads_in_time",
    "Verif.TransportHeader.C36_independent_of_segmentation",
    "Verif.TransportHeader.C36_round_trip",
    "Verif.TransportHeader.C36_port_zero_is_refused",
    "Verif.TransportHeader.C36_writes",
    "Verif.TransportHeader.C36_server",
    "Verif.TransportHeader.C36_server_refuses",
    "Verif.TransportHeader.C36_unknown_fields_are_ignored"
   ],
   "note": ""
  },
  {
   "property": "C37",
   "status": "proved",
   "theorems": [
    "Verif.Tls.C37_verdict_is_final",
    "Verif.Tls.C37_independent_of_segmentation",
    "Verif.Tls.C37_name_is_found",
    "Verif.Tls.C37_waits_for_the_record",
    "Verif.Tls.C37_not_tls",
    "Verif.Tls.C37_complete_records_are_decided",
    "Verif.Tls.C37_other_handshakes_wait_forever"
   ],
   "note": ""
  },
  {
   "property": "C38",
   "status": "proved",
   "theorems": [
    "Verif.Tls.C38_no_byte_is_lost",
    "Verif.Tls.C38_decision",
    "Verif.Tls.C38_client_hello",
    "Verif.Tls.C38_not_tls",
    "Verif.Tls.C38_accepts",
    "Verif.Tls.C38_buffers_without_bound",
    "Verif.Tls.C38_required_sni"
   ],
   "note": ""
  },
  {
   "property": "C39",
   "status": "proved",
   "theorems": [
    "Verif.Io.C39_reads_are_exact",
    "Verif.Io.C39_end_only_at_the_end",
    "Verif.Io.C39_prefix_is_ready",
    "Verif.Io.C39_peek",
    "Verif.Io.C39_writes_are_exact"
   ],
   "note": ""
  },
  {
   "property": "C40",
   "status": "proved",
   "theorems": [
    "Verif.Duplex.C40_holds_a_bounded_number_of_bytes",
    "Verif.Duplex.C40_flushes_before_waiting",
    "Verif.Duplex.C40_bytes_are_forwarded_in_order",
    "Verif.Duplex.C40_shut_down_after_everything",
    "Verif.Duplex.C40_completes_when_both_are_shut_down",
    "Verif.Duplex.C40_zero_write_fails",
    "Verif.Duplex.C40_never_panics",
    "Verif.Duplex.C40_completes",
    "Verif.Duplex.C40_last_bytes_may_stay_unflushed"
   ],
   "note": ""
  },
  {
   "property": "C41",
   "status": "proved",
   "theorems": [
    "Verif.HttpDetect.C41_classification",
    "Verif.HttpDetect.C41_no_byte_is_lost",
    "Verif.HttpDetect.C41_errors",
    "Verif.HttpDetect.C41_what_is_looked_at",
    "Verif.HttpDetect.C41_short_first_read_is_not_http"
   ],
   "note": ""
  },
  {
   "property": "C42",
   "status": "proved",
   "theorems": [
    "Verif.InboundDetect.C42_dispatch",
    "Verif.InboundDetect.C42_aborts_iff",
    "Verif.InboundDetect.C42_change_to_opaque_aborts",
    "Verif.InboundDetect.C42_no_byte_is_lost"
   ],
   "note": ""
  },
  {
   "property": "C43",
   "status": "proved",
   "theorems": [
    "Verif.Workers.C43_within_available",
    "Verif.Workers.C43_at_least_the_minimum",
    "Verif.Workers.C43_explicit_maximum",
    "Verif.Workers.C43_ratio",
    "Verif.Workers.C43_ratio_half",
    "Verif.Workers.C43_default",
    "Verif.Workers.C43_ratio_monotone"
   ],
   "note": ""
  },
  {
   "property": "C44",
   "status": "proved",
   "theorems": [
    "Verif.H1.C44_request_round_trip",
    "Verif.H1.C44_response_round_trip",
    "Verif.H1.C44_response_is_http1",
    "Verif.H1.C44_not_upgraded",
    "Verif.H1.C44_http11_upgrade_stays",
    "Verif.H1.C44_received_header",
    "Verif.H1.C44_upgrade_panics_iff",
    "Verif.H1.C44_h2_errors_are_wrapped"
   ],
   "note": ""
  },
  {
   "property": "C45",
   "status": "proved",
   "theorems": [
    "Verif.H1.C45_unchanged",
    "Verif.H1.C45_authority",
    "Verif.H1.C45_every_request_has_an_authority",
    "Verif.H1.C45_override"
   ],
   "note": ""
  },
  {
   "property": "C46",
   "status": "proved",
   "theorems": [
    "Verif.Classify.C46_sent",
    "Verif.Classify.C46_exactly_once",
    "Verif.Classify.C46_unclassified",
    "Verif.Classify.C46_abandoned_request_is_not_classified",
    "Verif.Classify.C46_delivered_iff_room"
   ],
   "note": ""
  },
  {
   "property": "C47",
   "status": "proved",
   "theorems": [
    "Verif.Classify.C47_http",
    "Verif.Classify.C47_grpc",
    "Verif.Classify.C47_profile",
    "Verif.Classify.C47_conditions",
    "Verif.Classify.C47_no_classes",
    "Verif.Classify.C47_missing_grpc_status_is_success"
   ],
   "note": ""
  },
  {
   "property": "C48",
   "status": "proved",
   "theorems": [
    "Verif.StreamTimeouts.C48_never_early",
    "Verif.StreamTimeouts.C48_waiting_is_failed_when_due",
    "Verif.StreamTimeouts.C48_request_is_failed_when_due",
    "Verif.StreamTimeouts.C48_response_is_failed_when_due",
    "Verif.StreamTimeouts.C48_response_end_waits_for_headers",
    "Verif.StreamTimeouts.C48_idle_does_not_apply_to_waiting"
   ],
   "note": ""
  },
  {
   "property": "C49",
   "status": "proved",
   "theorems": [
    "Verif.ErrorRespond.C49_codes",
    "Verif.ErrorRespond.C49_grpc",
    "Verif.ErrorRespond.C49_http",
    "Verif.ErrorRespond.C49_text_is_not_revealed",
    "Verif.ErrorRespond.C49_inbound_reveals_only_to_identified_clients",
    "Verif.ErrorRespond.C49_unrescued",
    "Verif.ErrorRespond.C49_responses",
    "Verif.ErrorRespond.C49_other_bodies",
    "Verif.ErrorRespond.C49_grpc_body",
    "Verif.ErrorRespond.C49_grpc_body_error"
   ],
   "note": ""
  },
  {
   "property": "C50",
   "status": "proved",
   "theorems": [
    "Verif.ProfileRetry.C50_decision",
    "Verif.ProfileRetry.C50_not_kept",
    "Verif.ProfileRetry.C50_every_resend_was_granted",
    "Verif.ProfileRetry.C50_one_deposit_per_request",
    "Verif.ProfileRetry.C50_budget_is_not_exceeded",
    "Verif.ProfileRetry.C50_counters",
    "Verif.ProfileRetry.C50_resent_request",
    "Verif.ProfileRetry.C50_resends_are_copies",
    "Verif.ProfileRetry.C50_budget",
    "Verif.ProfileRetry.C50_retries_in_time",
    "Verif.ProfileRetry.C50_limit_reserve_renews",
    "Verif.ProfileRetry.C50_limit_early"
   ],
   "note": ""
  },
  {
   "property": "C51",
   "status": "proved",
   "theorems": [
    "Verif.ApiResolve.C51_addresses",
    "Verif.ApiResolve.C51_port_is_truncated",
    "Verif.ApiResolve.C51_updates_say_what_messages_say",
    "Verif.ApiResolve.C51_kinds",
    "Verif.ApiResolve.C51_own_labels_override",
    "Verif.ApiResolve.C51_fields",
    "Verif.ApiResolve.C51_port_65535_is_ignored",
    "Verif.ApiResolve.C51_identity",
    "Verif.ApiResolve.C51_unreadable_identity_is_no_identity",
    "Verif.ApiResolve.C51_http2"
   ],
   "note": ""
  },
  {
   "property": "C52",
   "status": "partial",
   "theorems": [
    "Verif.Replay.C52_chunk_contract_fails",
    "Verif.Replay.C52_copy_never_terminates",
    "Verif.Replay.C52_chunk_contract_partial",
    "Verif.Replay.C52_advance_drops",
    "Verif.Replay.C52_copy_to_bytes_partial",
    "Verif.Replay.C52_slices"
   ],
   "note": "The full contract is false for buffers containing an empty chunk (C52_chunk_contract_fails, C52_copy_never_terminates); proved for buffers without empty chunks."
  },
  {
   "property": "C53",
   "status": "partial",
   "theorems": [
    "Verif.Replay.C53_end_stream_sound",
    "Verif.Replay.C53_unread_clone_size",
    "Verif.Replay.C53_size_while_read",
    "Verif.Replay.C53_size_hint_overestimates"
   ],
   "note": "End-of-stream soundness proved under the assumption that the inner body's own report is sound; the size report of a clone being read is not what remains (C53_size_hint_overestimates)."
  },
  {
   "property": "C54",
   "status": "partial",
   "theorems": [
    "Verif.Retry.C54_resend_has_free_body",
    "Verif.Retry.C54_resends_are_faithful_partial",
    "Verif.Retry.C54_failed_unread_send_duplicates_data",
    "Verif.Retry.C54_lagging_send_panics"
   ],
   "note": "Ownership of the buffer is proved in full; faithfulness is proved when each failed send was read (C01's condition). C54_failed_unread_send_duplicates_data shows the full claim is false of the code."
  },
  {
   "property": "C55",
   "status": "proved",
   "theorems": [
    "Verif.Retry.Policy.C55_response_retried_iff",
    "Verif.Retry.Policy.C55_grpc_status_source",
    "Verif.Retry.Policy.C55_error_retried_iff"
   ],
   "note": ""
  },
  {
   "property": "C56",
   "status": "proved",
   "theorems": [
    "Verif.Retry.Policy.C56_attempt_numbers",
    "Verif.Retry.Policy.C56_header_timeout_lifted_on_last",
    "Verif.Retry.Policy.C56_zero_limit_keeps_timeout"
   ],
   "note": ""
  },
  {
   "property": "C57",
   "status": "proved",
   "theorems": [
    "Verif.Retry.Policy.C57_http_conditions_roundtrip",
    "Verif.Retry.Policy.C57_http_conditions_safe",
    "Verif.Retry.Policy.C57_grpc_conditions_roundtrip",
    "Verif.Retry.Policy.C57_duration_roundtrip",
    "Verif.Retry.Policy.C57_disallowed_headers_inert",
    "Verif.Retry.Policy.C57_control_headers_removed",
    "Verif.Retry.Policy.C57_allowed_headers_override",
    "Verif.Retry.Policy.C57_headers_enable_retries",
    "Verif.Retry.Policy.C57_unreadable_conditions_disable_retries"
   ],
   "note": ""
  },
  {
   "property": "C58",
   "status": "proved",
   "theorems": [
    "Verif.Distribute.Cache.C58_cache_holds_exactly_the_backends",
    "Verif.Distribute.Cache.C58_kept_backends_keep_their_service"
   ],
   "note": ""
  },
  {
   "property": "C59",
   "status": "proved",
   "theorems": [
    "Verif.HttpRoute.C59_only_post",
    "Verif.HttpRoute.C59_service_and_method",
    "Verif.HttpRoute.C59_needs_service_and_method",
    "Verif.HttpRoute.C59_extra_segments_are_ignored"
   ],
   "note": ""
  },
  {
   "property": "C60",
   "status": "proved",
   "theorems": [
    "Verif.InboundPolicy.C60_entry",
    "Verif.InboundPolicy.C60_connections",
    "Verif.InboundPolicy.C60_http_routes",
    "Verif.InboundPolicy.C60_grpc_routes",
    "Verif.InboundPolicy.C60_no_routes",
    "Verif.InboundPolicy.C60_one_bad_entry_spoils_the_policy",
    "Verif.InboundPolicy.C60_unreadable_update_denies",
    "Verif.InboundPolicy.C60_readable_update_is_used",
    "Verif.InboundPolicy.C60_unknown_filter_stops_the_request",
    "Verif.InboundPolicy.C60_grpc_is_not_limited",
    "Verif.InboundPolicy.C60_http_rate_limit",
    "Verif.InboundPolicy.C60_default_policy",
    "Verif.InboundPolicy.C60_defaults",
    "Verif.InboundPolicy.C60_all_authenticated_refuses_uri_identities"
   ],
   "note": ""
  },
  {
   "property": "C61",
   "status": "proved",
   "theorems": [
    "Verif.StreamWatch.C61_value_is_the_last_delivered",
    "Verif.StreamWatch.C61_stops_exactly_when_unrecoverable",
    "Verif.StreamWatch.C61_goes_on",
    "Verif.StreamWatch.C61_waits_after_a_failure",
    "Verif.StreamWatch.C61_failures_in_a_row_use_one_backoff",
    "Verif.StreamWatch.C61_broken_streams_are_reopened_at_once",
    "Verif.StreamWatch.C61_stops_without_receivers",
    "Verif.StreamWatch.C61_recovery_policies"
   ],
   "note": ""
  },
  {
   "property": "C62",
   "status": "proved",
   "theorems": [
    "Verif.Addr.C62_parse_iff",
    "Verif.Addr.C62_text_round_trip",
    "Verif.Addr.C62_authority_round_trip",
    "Verif.Addr.C62_authority_port",
    "Verif.Addr.C62_port_80_depends_on_the_default",
    "Verif.Addr.C62_ip_first",
    "Verif.Addr.C62_errors",
    "Verif.Addr.C62_loopback"
   ],
   "note": ""
  },
  {
   "property": "C63",
   "status": "proved",
   "theorems": [
    "Verif.Tls.C63_tls_as_asked",
    "Verif.Tls.C63_never_panics"
   ],
   "note": ""
  },
  {
   "property": "C64",
   "status": "proved",
   "theorems": [
    "Verif.H1.C64_connection_headers_are_removed",
    "Verif.H1.C64_second_connection_header_is_not_read",
    "Verif.H1.C64_requests",
    "Verif.H1.C64_responses"
   ],
   "note": ""
  },
  {
   "property": "C65",
   "status": "proved",
   "theorems": [
    "Verif.H1.C65_joined_iff_both_inserted"
   ],
   "note": ""
  },
  {
   "property": "C66",
   "status": "proved",
   "theorems": [
    "Verif.ErrorRespond.C66_inbound",
    "Verif.ErrorRespond.C66_outbound",
    "Verif.ErrorRespond.C66_endpoints",
    "Verif.ErrorRespond.C66_context_does_not_matter",
    "Verif.ErrorRespond.C66_inbound_refusals",
    "Verif.ErrorRespond.C66_inbound_injected_status_is_lost",
    "Verif.ErrorRespond.C66_grpc_failure_of_other_request_is_200",
    "Verif.ErrorRespond.C66_body_timeout_is_internal"
   ],
   "note": ""
  },
  {
   "property": "C67",
   "status": "proved",
   "theorems": [
    "Verif.ProfileRetry.C67_budget_made",
    "Verif.ProfileRetry.C67_limit_budget_panics",
    "Verif.Profiles.C67_readable_matches_are_exact",
    "Verif.Profiles.C67_unreadable_parts_are_left_out",
    "Verif.Profiles.C67_unreadable_conditions_match_everything",
    "Verif.Profiles.C67_paths_are_anchored",
    "Verif.Profiles.C67_alternatives_are_anchored_apart",
    "Verif.Profiles.C67_escaped_dollar_is_taken_for_an_anchor",
    "Verif.Profiles.C67_first_route_that_applies",
    "Verif.Profiles.C67_budget",
    "Verif.Profiles.C67_retries_and_timeouts",
    "Verif.Profiles.C67_targets",
    "Verif.Profiles.C67_response_classes",
    "Verif.Profiles.C67_empty_response_conditions",
    "Verif.Profiles.C67_statuses_are_truncated",
    "Verif.Profiles.C67_the_rest_of_a_profile",
    "Verif.Profiles.C67_rejections"
   ],
   "note": ""
  },
  {
   "property": "C68",
   "status": "proved",
   "theorems": [
    "Verif.Profiles.C68_route_of_the_profile_in_use",
    "Verif.Profiles.C68_never_panics",
    "Verif.Profiles.C68_one_proxy_per_route",
    "Verif.Profiles.C68_proxies_are_kept"
   ],
   "note": ""
  },
  {
   "property": "C69",
   "status": "proved",
   "theorems": [
    "Verif.HttpRoute.Api.C69_http_match_means_what_it_says",
    "Verif.HttpRoute.Api.C69_http_match_refused_iff",
    "Verif.HttpRoute.Api.C69_grpc_match_means_what_it_says",
    "Verif.HttpRoute.Api.C69_grpc_match_refused_iff",
    "Verif.HttpRoute.Api.C69_hosts",
    "Verif.HttpRoute.Api.C69_modifier",
    "Verif.HttpRoute.Api.C69_http_injector",
    "Verif.HttpRoute.Api.C69_grpc_injector",
    "Verif.HttpRoute.Api.C69_injector_always_and_never",
    "Verif.HttpRoute.Api.C69_redirect"
   ],
   "note": ""
  },
  {
   "property": "C70",
   "status": "proved",
   "theorems": [
    "Verif.ClientPolicy.C70_read_is_written",
    "Verif.ClientPolicy.C70_refused_iff",
    "Verif.ClientPolicy.C70_received",
    "Verif.ClientPolicy.C70_invalid_policy_has_only_errors",
    "Verif.ClientPolicy.C70_empty_policy_has_no_routes",
    "Verif.ClientPolicy.C70_same_backend",
    "Verif.ClientPolicy.C70_backends",
    "Verif.ClientPolicy.C70_backoffs_are_valid",
    "Verif.ClientPolicy.C70_request_timeout"
   ],
   "note": ""
  },
  {
   "property": "C71",
   "status": "proved",
   "theorems": [
    "Spec.C71_selects_the_policys_route",
    "Spec.C71_panics_iff",
    "Spec.C71_same_target",
    "Spec.C71_every_target_is_cached",
    "Spec.C71_every_tcp_target_is_cached",
    "Spec.C71_http_routers_of_a_read_policy",
    "Spec.C71_opaque_route",
    "Spec.C71_tls_route",
    "Spec.C71_limit_bad_path_panics",
    "Spec.C71_limit_bad_weights_panic"
   ],
   "note": ""
  },
  {
   "property": "C72",
   "status": "proved",
   "theorems": [
    "Spec.C72_refused_requests_are_not_sent",
    "Spec.C72_passed_requests_are_changed_as_written",
    "Spec.C72_refused_or_passed",
    "Spec.C72_invalid_policy_sends_nothing",
    "Spec.C72_refused_rpcs_are_not_sent",
    "Spec.C72_passed_rpcs_are_changed_as_written",
    "Spec.C72_connections_pass_only_without_filters"
   ],
   "note": ""
  },
  {
   "property": "C73",
   "status": "proved",
   "theorems": [
    "Spec.C73_how_a_connection_is_served",
    "Spec.C73_served_one_way",
    "Spec.C73_http_routes",
    "Spec.C73_opaque_routes",
    "Spec.C73_tls_routes",
    "Spec.C73_panics_iff",
    "Spec.C73_steady_panics_iff",
    "Spec.C73_limit_opaque_profile_of_an_http_service",
    "Spec.C73_limit_change_during_detection"
   ],
   "note": ""
  },
  {
   "property": "C74",
   "status": "proved",
   "theorems": [
    "Spec.C74_found_policy",
    "Spec.C74_without_a_policy",
    "Spec.C74_names",
    "Spec.C74_fails_iff",
    "Spec.C74_follows_the_profile",
    "Spec.C74_without_a_policy_never_panics",
    "Spec.C74_routers_forward"
   ],
   "note": ""
  },
  {
   "property": "C75",
   "status": "proved",
   "theorems": [
    "Spec.C75_target",
    "Spec.C75_header_is_removed",
    "Spec.C75_limit_ip_addresses_are_refused",
    "Spec.C75_http_routes",
    "Spec.C75_http_refused_iff",
    "Spec.C75_without_a_policy",
    "Spec.C75_names",
    "Spec.C75_fails_iff",
    "Spec.C75_found_policy",
    "Spec.C75_fallback",
    "Spec.C75_limit_bytes_for_an_http_service"
   ],
   "note": ""
  },
  {
   "property": "C76",
   "status": "proved",
   "theorems": [
    "Spec.C76_panics_iff",
    "Spec.C76_every_request_has_a_route",
    "Spec.C76_every_target_is_cached",
    "Spec.C76_targets_are_readable",
    "Spec.C76_bad_weights_of_a_read_profile",
    "Spec.C76_opaque_panics_iff",
    "Spec.C76_opaque_spread",
    "Spec.C76_limit_great_weights_panic",
    "Spec.C76_limit_opaque_split_without_targets"
   ],
   "note": ""
  },
  {
   "property": "C77",
   "status": "proved",
   "theorems": [
    "Spec.C77_uses_published_values_in_order",
    "Spec.C77_latest_value_is_used",
    "Spec.C77_limit_closed_is_frozen",
    "Spec.C77_limit_panic_freezes",
    "Spec.C77_limit_last_value_may_be_lost",
    "Spec.C77_http_follows_its_policy",
    "Spec.C77_http_keeps_its_routes",
    "Spec.C77_http_follows_its_profile",
    "Spec.C77_http_follows_the_profile_without_a_policy",
    "Spec.C77_limit_new_profile_routes_are_not_used"
   ],
   "note": ""
  },
  {
   "property": "C78",
   "status": "proved",
   "theorems": [
    "Verif.Endpoint.C78_dials",
    "Verif.Endpoint.C78_tls",
    "Verif.Endpoint.C78_header",
    "Verif.Endpoint.C78_fails_iff",
    "Verif.Endpoint.C78_header_is_sent",
    "Verif.Endpoint.C78_local_iff",
    "Verif.Endpoint.C78_endpoints",
    "Verif.Endpoint.C78_http_version",
    "Verif.Endpoint.C78_session",
    "Verif.Endpoint.C78_local",
    "Verif.Endpoint.C78_limit_opaque_forward_is_never_local",
    "Verif.Endpoint.C78_limit_authority_without_port",
    "Verif.Endpoint.C78_limit_authority_without_name",
    "Verif.Endpoint.C78_limit_port_without_identity"
   ],
   "note": ""
  },
  {
   "property": "C79",
   "status": "proved",
   "theorems": [
    "Verif.Endpoint.C79_accept",
    "Verif.Endpoint.C79_direct",
    "Verif.Endpoint.C79_refused",
    "Verif.Endpoint.C79_stays_here",
    "Verif.Endpoint.C79_no_loop",
    "Verif.Endpoint.C79_arrives"
   ],
   "note": ""
  },
  {
   "property": "C80",
   "status": "proved",
   "theorems": [
    "Verif.Endpoint.C80_identity",
    "Verif.Endpoint.C80_request",
    "Verif.Endpoint.C80_limit_needs_a_handle",
    "Verif.Endpoint.C80_limit_unreadable_identity",
    "Verif.Endpoint.C80_closes_iff",
    "Verif.Endpoint.C80_forwarded_closes",
    "Verif.Endpoint.C80_response"
   ],
   "note": ""
  },
  {
   "property": "C81",
   "status": "proved",
   "theorems": [
    "Spec.C81_domain_invalid_iff",
    "Spec.C81_resolved",
    "Spec.C81_failed_iff",
    "Spec.C81_protocol",
    "Spec.C81_http_routes",
    "Spec.C81_http_router",
    "Spec.C81_opaque_routes",
    "Spec.C81_loop_iff",
    "Spec.C81_request",
    "Spec.C81_other_versions",
    "Spec.C81_no_loops",
    "Spec.C81_hops_bounded",
    "Spec.C81_follows_the_profile",
    "Spec.C81_limit_identities_with_separators",
    "Spec.C81_limit_combined_entries",
    "Spec.C81_limit_http_ignores_the_policy",
    "Spec.C81_limit_opaque_for_an_http_service"
   ],
   "note": ""
  },
  {
   "property": "C82",
   "status": "proved",
   "theorems": [
    "Verif.Prom.C82_each_end_is_counted_once",
    "Verif.Prom.C82_one_label",
    "Verif.Prom.C82_requests",
    "Verif.Prom.C82_requests_are_accounted_for",
    "Verif.Prom.C82_dropped_bodies_are_counted",
    "Verif.Prom.C82_frames_are_unchanged",
    "Verif.Prom.C82_ended_iff_recorded",
    "Verif.Prom.C82_limit_cancelled_before_the_response",
    "Verif.Prom.C82_http_label",
    "Verif.Prom.C82_grpc_label",
    "Verif.Prom.C82_limit_trailers_hide_the_head",
    "Verif.Prom.C82_grpc_code",
    "Verif.Prom.C82_error_labels_name_a_cause",
    "Verif.Prom.C82_unknown_errors",
    "Verif.Prom.C82_error_statuses",
    "Verif.Prom.C82_http_route_label",
    "Verif.Prom.C82_grpc_route_label"
   ],
   "note": ""
  },
  {
   "property": "C83",
   "status": "proved",
   "theorems": [
    "Verif.Prom.C83_request_durations",
    "Verif.Prom.C83_response_durations",
    "Verif.Prom.C83_observed_iff_counted",
    "Verif.Prom.C83_frame_sizes",
    "Verif.Prom.C83_bytes",
    "Verif.Prom.C83_ended_iff_recorded",
    "Verif.Prom.C83_limit_unrecorded_bodies_look_ended",
    "Verif.Prom.C83_limit_early_responses_take_no_time"
   ],
   "note": ""
  },
  {
   "property": "C84",
   "status": "proved",
   "theorems": [
    "Verif.Identity.C84_trust_anchors",
    "Verif.Identity.C84_only_valid_certificates",
    "Verif.Identity.C84_the_last_valid_certificate_is_used",
    "Verif.Identity.C84_ready",
    "Verif.Identity.C84_counts",
    "Verif.Identity.C84_timestamps",
    "Verif.Identity.C84_limit_stated_expiry_is_not_checked"
   ],
   "note": ""
  },
  {
   "property": "C85",
   "status": "proved",
   "theorems": [
    "Verif.Identity.C85_servers_are_who_they_should_be",
    "Verif.Identity.C85_clients_are_who_they_seem",
    "Verif.Identity.C85_proxies_meet",
    "Verif.Identity.C85_before_the_first_certificate",
    "Verif.Identity.C85_client_alpn",
    "Verif.Identity.C85_server_alpn",
    "Verif.Identity.C85_what_is_served",
    "Verif.Identity.C85_limit_first_name_counts",
    "Verif.Identity.C85_limit_server_sees_refused_connections"
   ],
   "note": ""
  },
  {
   "property": "C86",
   "status": "proved",
   "theorems": [
    "Verif.Identity.C86_documents",
    "Verif.Identity.C86_requests",
    "Verif.Identity.C86_granted_certificates_are_installed",
    "Verif.Identity.C86_wait",
    "Verif.Identity.C86_next_round_is_before_expiry",
    "Verif.Identity.C86_goes_on",
    "Verif.Identity.C86_limit_far_expiry_panics",
    "Verif.Identity.C86_limit_minimum_beyond_expiry",
    "Verif.Identity.C86_limit_minimum_wins"
   ],
   "note": ""
  },
  {
   "property": "C87",
   "status": "proved",
   "theorems": [
    "Verif.Identity.C87_own_entry_is_used",
    "Verif.Identity.C87_latest_update_is_processed",
    "Verif.Identity.C87_limit_only_uris",
    "Verif.Identity.C87_limit_start_panics",
    "Verif.Identity.C87_limit_no_updates_after_the_end"
   ],
   "note": ""
  },
  {
   "property": "C88",
   "status": "proved",
   "theorems": [
    "Spec.C88_selects",
    "Spec.C88_accepts",
    "Spec.C88_limit_empty_sequences",
    "Spec.C88_limit_no_universal_network",
    "Spec.C88_limit_unknown_is_not"
   ],
   "note": ""
  },
  {
   "property": "C89",
   "status": "proved",
   "theorems": [
    "Verif.Tap.C89_tells_the_truth",
    "Verif.Tap.C89_tells_all",
    "Verif.Tap.C89_small_limits_keep_up",
    "Verif.Tap.C89_ends_when_done",
    "Verif.Tap.C89_done_then_ends",
    "Verif.Tap.C89_given_iff",
    "Verif.Tap.C89_only_the_permitted",
    "Verif.Tap.C89_limit_given_up_looks_ended",
    "Verif.Tap.C89_limit_given_up_requests_do_not_end",
    "Verif.Tap.C89_limit_size_is_always_zero",
    "Verif.Tap.C89_limit_missed_requests_count",
    "Verif.Tap.C89_grpc_status"
   ],
   "note": ""
  },
  {
   "property": "C90",
   "status": "proved",
   "theorems": [
    "Verif.Trace.C90_reads_w3c",
    "Verif.Trace.C90_reads_w3c_header",
    "Verif.Trace.C90_reads_b3",
    "Verif.Trace.C90_reads_grpc",
    "Verif.Trace.C90_precedence",
    "Verif.Trace.C90_continues",
    "Verif.Trace.C90_nothing_else_changes",
    "Verif.Trace.C90_untouched",
    "Verif.Trace.C90_span_iff",
    "Verif.Trace.C90_links_up",
    "Verif.Trace.C90_credentials_are_hidden",
    "Verif.Trace.C90_other_headers_are_hidden",
    "Verif.Trace.C90_labels",
    "Verif.Trace.C90_urls_are_shown",
    "Verif.Trace.C90_server_labels",
    "Verif.Trace.C90_limit_no_flags_panic",
    "Verif.Trace.C90_limit_failures_leave_no_span",
    "Verif.Trace.C90_limit_binary_without_trace_id",
    "Verif.Trace.C90_limit_zero_span",
    "Verif.Trace.C90_path"
   ],
   "note": ""
  },
  {
   "property": "C91",
   "status": "proved",
   "theorems": [
    "Verif.Trace.C91_told_once_in_order",
    "Verif.Trace.C91_refused_iff",
    "Verif.Trace.C91_what_is_told",
    "Verif.Trace.C91_all_can_be_told",
    "Verif.Trace.C91_limit_last_batch_is_lost",
    "Verif.Trace.C91_limit_failed_batches_are_not_retried"
   ],
   "note": ""
  },
  {
   "property": "C92",
   "status": "proved",
   "theorems": [
    "Verif.InboundHttp.C92_identity_cannot_be_claimed",
    "Verif.InboundHttp.C92_sent_iff",
    "Verif.InboundHttp.C92_identity_is_told",
    "Verif.InboundHttp.C92_reaches_its_server",
    "Verif.InboundHttp.C92_as_the_client_sent_it",
    "Verif.InboundHttp.C92_headers_are_kept",
    "Verif.InboundHttp.C92_logical_name",
    "Verif.InboundHttp.C92_lookups",
    "Verif.InboundHttp.C92_limit_anyone_names_the_profile",
    "Verif.InboundHttp.C92_from_proxy_to_proxy",
    "Verif.InboundHttp.C92_no_panic",
    "Verif.InboundHttp.C92_errors_are_told_to_the_mesh",
    "Verif.InboundHttp.C92_refused_iff",
    "Verif.InboundHttp.C92_no_authority_iff",
    "Verif.InboundHttp.C92_authority_filled_in",
    "Verif.InboundHttp.C92_profiles_that_are_used",
    "Verif.InboundHttp.C92_limit_connection_host",
    "Verif.InboundHttp.C92_limit_addresses_are_passed_over",
    "Verif.InboundHttp.C92_limit_anyone_downgrades"
   ],
   "note": ""
  },
  {
   "property": "C93",
   "status": "proved",
   "theorems": [
    "Verif.DnsResolve.C93_srv_v4",
    "Verif.DnsResolve.C93_srv_v6",
    "Verif.DnsResolve.C93_srv_addresses",
    "Verif.DnsResolve.C93_srv_then_a",
    "Verif.DnsResolve.C93_negative_ttl",
    "Verif.DnsResolve.C93_what_is_looked_up",
    "Verif.DnsResolve.C93_origin",
    "Verif.DnsResolve.C93_identity_is_fixed",
    "Verif.DnsResolve.C93_limit_other_records"
   ],
   "note": ""
  },
  {
   "property": "C94",
   "status": "proved",
   "theorems": [
    "Verif.DnsResolve.C94_never_too_early",
    "Verif.DnsResolve.C94_told_in_order",
    "Verif.DnsResolve.C94_keeps_looking",
    "Verif.DnsResolve.C94_looks_again",
    "Verif.DnsResolve.C94_limit_missed_periods",
    "Verif.DnsResolve.C94_limit_only_the_first_counts"
   ],
   "note": ""
  },
  {
   "property": "C95",
   "status": "proved",
   "theorems": [
    "Verif.Admin.C95_local_iff",
    "Verif.Admin.C95_cannot_pretend",
    "Verif.Admin.C95_others_change_nothing",
    "Verif.Admin.C95_others_learn_nothing",
    "Verif.Admin.C95_shutdown",
    "Verif.Admin.C95_level_set",
    "Verif.Admin.C95_level_in_force",
    "Verif.Admin.C95_level_shown",
    "Verif.Admin.C95_refused_is_403",
    "Verif.Admin.C95_logs_are_for_localhost",
    "Verif.Admin.C95_ready",
    "Verif.Admin.C95_ready_for_ever",
    "Verif.Admin.C95_ready_when_all_released",
    "Verif.Admin.C95_ready_iff_released",
    "Verif.Admin.C95_live",
    "Verif.Admin.C95_metrics",
    "Verif.Admin.C95_env",
    "Verif.Admin.C95_not_found",
    "Verif.Admin.C95_policy",
    "Verif.Admin.C95_refused",
    "Verif.Admin.C95_connections",
    "Verif.Admin.C95_limit_env_is_told_to_anyone",
    "Verif.Admin.C95_limit_only_the_first_frame",
    "Verif.Admin.C95_types",
    "Verif.Admin.C95_failures",
    "Verif.Admin.C95_methods",
    "Verif.Admin.C95_streams",
    "Verif.Admin.C95_bad_requests"
   ],
   "note": ""
  },
  {
   "property": "C96",
   "status": "proved",
   "theorems": [
    "Verif.Lifecycle.C96_no_proxying_before_identity",
    "Verif.Lifecycle.C96_not_ready_before_identity",
    "Verif.Lifecycle.C96_becomes_ready",
    "Verif.Lifecycle.C96_starts",
    "Verif.Lifecycle.C96_admin_always",
    "Verif.Lifecycle.C96_who_can_stop",
    "Verif.Lifecycle.C96_stop_is_heard",
    "Verif.Lifecycle.C96_stops_accepting",
    "Verif.Lifecycle.C96_no_early_exit",
    "Verif.Lifecycle.C96_connections_survive",
    "Verif.Lifecycle.C96_exits",
    "Verif.Lifecycle.C96_ends_with_its_connections",
    "Verif.Lifecycle.C96_asked_to_end",
    "Verif.Lifecycle.C96_limit_waits_for_identity",
    "Verif.Lifecycle.C96_limit_tap_is_cut"
   ],
   "note": ""
  },
  {
   "property": "C97",
   "status": "proved",
   "theorems": [
    "Verif.Metrics.C97_labels_endpoint",
    "Verif.Metrics.C97_labels_response",
    "Verif.Metrics.C97_labels_profile_route",
    "Verif.Metrics.C97_labels_control",
    "Verif.Metrics.C97_labels_stack",
    "Verif.Metrics.C97_labels_transport",
    "Verif.Metrics.C97_labels_authz",
    "Verif.Metrics.C97_resources",
    "Verif.Metrics.C97_unlabeled",
    "Verif.Metrics.C97_http_reports",
    "Verif.Metrics.C97_tcp_report",
    "Verif.Metrics.C97_retry_report",
    "Verif.Metrics.C97_stack_report",
    "Verif.Metrics.C97_http_authz_report",
    "Verif.Metrics.C97_tcp_authz_report",
    "Verif.Metrics.C97_error_reports",
    "Verif.Metrics.C97_histogram",
    "Verif.Metrics.C97_milliseconds",
    "Verif.Metrics.C97_exact",
    "Verif.Metrics.C97_bounds_are_numbers",
    "Verif.Metrics.C97_distinct_endpoints",
    "Verif.Metrics.C97_distinct_responses",
    "Verif.Metrics.C97_limit_unescaped",
    "Verif.Metrics.C97_limit_zone",
    "Verif.Metrics.C97_limit_wraps"
   ],
   "note": ""
  },
  {
   "property": "C98",
   "status": "proved",
   "theorems": [
    "Verif.Metrics.Requests.C98_counted_once",
    "Verif.Metrics.Requests.C98_nothing_else",
    "Verif.Metrics.Requests.C98_at_most_once",
    "Verif.Metrics.Requests.C98_all_counted",
    "Verif.Metrics.Requests.C98_series_is_all",
    "Verif.Metrics.Requests.C98_report",
    "Verif.Metrics.Requests.C98_served_is_known",
    "Verif.Metrics.Requests.C98_summary",
    "Verif.Metrics.Requests.C98_no_empty_class",
    "Verif.Metrics.Requests.C98_kept",
    "Verif.Metrics.Requests.C98_forgotten_was_written",
    "Verif.Metrics.Requests.C98_limit_unread_body",
    "Verif.Metrics.Requests.C98_limit_first_frame",
    "Verif.Metrics.Requests.C98_limit_error_has_no_latency",
    "Verif.Metrics.Requests.C98_limit_cancelled",
    "Verif.Metrics.Requests.C98_limit_slow_report"
   ],
   "note": ""
  },
  {
   "property": "C99",
   "status": "proved",
   "theorems": [
    "Verif.Metrics.Transport.C99_counted",
    "Verif.Metrics.Transport.C99_nothing_else",
    "Verif.Metrics.Transport.C99_shape",
    "Verif.Metrics.Transport.C99_transparent",
    "Verif.Metrics.Transport.C99_all_counted",
    "Verif.Metrics.Transport.C99_series_is_all",
    "Verif.Metrics.Transport.C99_report",
    "Verif.Metrics.Transport.C99_served_is_known",
    "Verif.Metrics.Transport.C99_summary",
    "Verif.Metrics.Transport.C99_kept",
    "Verif.Metrics.Transport.C99_forgotten_was_written",
    "Verif.Metrics.Transport.C99_gauge",
    "Verif.Metrics.Transport.C99_gauge_reported",
    "Verif.Metrics.Transport.C99_limit_failed_connect",
    "Verif.Metrics.Transport.C99_limit_after_failure",
    "Verif.Metrics.Transport.C99_limit_other_errors"
   ],
   "note": ""
  },
  {
   "property": "C100",
   "status": "proved",
   "theorems": [
    "Verif.Metrics.Track.C100_polls",
    "Verif.Metrics.Track.C100_millis",
    "Verif.Metrics.Track.C100_created",
    "Verif.Metrics.Track.C100_dropped_at_most",
    "Verif.Metrics.Track.C100_dropped",
    "Verif.Metrics.Track.C100_millis_at_most",
    "Verif.Metrics.Track.C100_limit_race",
    "Verif.Metrics.Track.C100_limit_millis"
   ],
   "note": ""
  },
  {
   "property": "C101",
   "status": "proved",
   "theorems": [
    "Verif.Metrics.Errors.C101_inbound_kind",
    "Verif.Metrics.Errors.C101_outbound_kind",
    "Verif.Metrics.Errors.C101_context",
    "Verif.Metrics.Errors.C101_counted",
    "Verif.Metrics.Errors.C101_transparent",
    "Verif.Metrics.Errors.C101_registries",
    "Verif.Metrics.Errors.C101_limit_refusals",
    "Verif.Metrics.Errors.C101_limit_rescued",
    "Verif.Metrics.Errors.C101_limit_policy_timeout"
   ],
   "note": ""
  },
  {
   "property": "C102",
   "status": "proved",
   "theorems": [
    "Verif.Env.C102_duration",
    "Verif.Env.C102_duration_exact",
    "Verif.Env.C102_duration_bare",
    "Verif.Env.C102_duration_optional",
    "Verif.Env.C102_ports",
    "Verif.Env.C102_ports_accepted",
    "Verif.Env.C102_ports_round_trip",
    "Verif.Env.C102_suffixes",
    "Verif.Env.C102_networks",
    "Verif.Env.C102_listen_addrs",
    "Verif.Env.C102_ips",
    "Verif.Env.C102_bool",
    "Verif.Env.C102_number",
    "Verif.Env.C102_limit_duration",
    "Verif.Env.C102_limit_empty"
   ],
   "note": ""
  },
  {
   "property": "C103",
   "status": "proved",
   "theorems": [
    "Verif.Env.C103_attribute_files",
    "Verif.Env.C103_authority_labels",
    "Verif.Env.C103_default_policies_bear_their_names",
    "Verif.Env.C103_config",
    "Verif.Env.C103_local",
    "Verif.Env.C103_invalid_refused",
    "Verif.Env.C103_default_policy",
    "Verif.Env.C103_ports",
    "Verif.Env.C103_control_tls",
    "Verif.Env.C103_identity",
    "Verif.Env.C103_trace_attributes",
    "Verif.Env.C103_attributes_round_trip",
    "Verif.Env.C103_limit_unread",
    "Verif.Env.C103_limit_commas",
    "Verif.Env.C103_limit_spiffe",
    "Verif.Env.C103_limit_audit",
    "Verif.Env.C103_limit_keep_alive"
   ],
   "note": ""
  },
  {
   "property": "C104",
   "status": "proved",
   "theorems": [
    "Verif.TonicStream.C104_call",
    "Verif.TonicStream.C104_exact",
    "Verif.TonicStream.C104_not_early",
    "Verif.TonicStream.C104_not_late",
    "Verif.TonicStream.C104_wakes",
    "Verif.TonicStream.C104_items",
    "Verif.TonicStream.C104_unlimited",
    "Verif.TonicStream.C104_limit_initial_only",
    "Verif.TonicStream.C104_limit_lifetime_from_response",
    "Verif.TonicStream.C104_limit_not_fused"
   ],
   "note": ""
  },
  {
   "property": "C105",
   "status": "proved",
   "theorems": [
    "Verif.Discover.C105_shared",
    "Verif.Discover.C105_own_answer",
    "Verif.Discover.C105_same_answer",
    "Verif.Discover.C105_lookups",
    "Verif.Discover.C105_told",
    "Verif.Discover.C105_first_answer",
    "Verif.Discover.C105_again",
    "Verif.Discover.C105_limit_failure_kept"
   ],
   "note": ""
  },
  {
   "property": "C106",
   "status": "proved",
   "theorems": [
    "Verif.OutboundTcp.C106_counts",
    "Spec.C106_where",
    "Spec.C106_kind",
    "Spec.C106_labels_apart",
    "Spec.C106_limit_failed_uncounted",
    "Spec.C106_limit_namespaces_share",
    "Spec.C106_limit_dropped_never_closed",
    "Spec.C106_limit_refusing_backend_chosen",
    "Verif.OutboundTcp.C106_connection"
   ],
   "note": ""
  },
  {
   "property": "C107",
   "status": "proved",
   "theorems": [
    "Verif.OutboundHttp.C107_http",
    "Verif.OutboundHttp.C107_grpc",
    "Verif.OutboundHttp.C107_retries_of_routes",
    "Verif.OutboundHttp.C107_sends_bounded",
    "Verif.OutboundHttp.C107_what_is_sent",
    "Verif.OutboundHttp.C107_unsent_is_not_retried",
    "Verif.OutboundHttp.C107_refusing_route_sends_nothing",
    "Verif.OutboundHttp.C107_where",
    "Verif.OutboundHttp.C107_limit_overflow_never_counted",
    "Verif.OutboundHttp.C107_limit_retry_discards_response"
   ],
   "note": ""
  },
  {
   "property": "C108",
   "status": "proved",
   "theorems": [
    "Verif.Circuit.C108_limit_lost_probe",
    "Verif.Circuit.C108_limit_timed_out_probe",
    "Verif.Circuit.C108_limit_old_response_decides",
    "Verif.Circuit.C108_limit_full_channel",
    "Verif.Circuit.C108_classes_in_order",
    "Verif.Circuit.C108_lost_only_when_full",
    "Verif.Circuit.C108_reported_once",
    "Verif.Circuit.C108_only_requests_are_reported",
    "Verif.Circuit.C108_trips_exactly",
    "Verif.Circuit.C108_in_service",
    "Verif.Circuit.C108_readiness",
    "Verif.Circuit.C108_outage_bounded",
    "Verif.Circuit.C108_probes_wait",
    "Verif.Circuit.C108_probe_decides",
    "Verif.Circuit.C108_no_policy"
   ],
   "note": ""
  },
  {
   "property": "C109",
   "status": "proved",
   "theorems": [
    "Verif.Balancer.C109_sent_to_a_listed_ready_endpoint",
    "Verif.Balancer.C109_never_panics",
    "Verif.Balancer.C109_each_request_is_sent_once",
    "Verif.Balancer.C109_removed_endpoints_get_no_requests",
    "Verif.Balancer.C109_waits_only_when_no_endpoint_is_ready",
    "Verif.Balancer.C109_fails_fast_only_after_the_timeout",
    "Verif.Balancer.C109_an_endpoint_found_ready_is_used",
    "Verif.Balancer.C109_gives_up_only_after_a_failure",
    "Verif.Balancer.C109_every_request_can_be_sent"
   ],
   "note": ""
  },
  {
   "property": "C110",
   "status": "proved",
   "theorems": [
    "Verif.AccessLog.C110_one_apache_line_per_request",
    "Verif.AccessLog.C110_no_line_before_the_end",
    "Verif.AccessLog.C110_lines_in_order_of_ending",
    "Verif.AccessLog.C110_apache_line_reads_back",
    "Verif.AccessLog.C110_one_json_object_per_request",
    "Verif.AccessLog.C110_worked_on_no_longer_than_it_took",
    "Verif.AccessLog.C110_nothing_printed_unless_asked",
    "Verif.AccessLog.C110_answers_are_passed_on",
    "Verif.AccessLog.C110_when_there_is_a_log",
    "Verif.AccessLog.C110_limit_off_turns_off_the_access_log",
    "Verif.AccessLog.C110_limit_unreadable_trace_hides_the_next"
   ],
   "note": ""
  },
  {
   "property": "C111",
   "status": "proved",
   "theorems": [
    "Verif.LogStream.C111_each_stream_is_as_if_alone",
    "Verif.LogStream.C111_only_what_was_asked_for_in_order",
    "Verif.LogStream.C111_every_event_is_accounted_for",
    "Verif.LogStream.C111_memory_is_bounded",
    "Verif.LogStream.C111_dropped_only_when_full",
    "Verif.LogStream.C111_nothing_lost_if_never_full",
    "Verif.LogStream.C111_losses_are_told_with_the_next_line",
    "Verif.LogStream.C111_closed_streams_are_left_alone",
    "Verif.LogStream.C111_unwanted_events_change_nothing",
    "Verif.LogStream.C111_no_loss_stays_untold"
   ],
   "note": ""
  },
  {
   "property": "C112",
   "status": "proved",
   "theorems": [
    "Verif.Destination.C112_endpoints_are_what_the_control_plane_says",
    "Verif.Destination.C112_endpoints_are_kept_while_the_control_plane_is_silent",
    "Verif.Destination.C112_only_the_current_session_counts",
    "Verif.Destination.C112_requests_go_where_the_control_plane_says",
    "Verif.Destination.C112_removed_endpoints_get_no_requests",
    "Verif.Destination.C112_gives_up_only_when_rejected",
    "Verif.Destination.C112_a_rejection_fails_the_requests",
    "Verif.Destination.C112_never_panics",
    "Verif.Destination.C112_limit_a_removal_that_begins_a_session_is_ignored",
    "Verif.Destination.C112_an_outage_holds_up_no_request"
   ],
   "note": ""
  },
  {
   "property": "C113",
   "status": "proved",
   "theorems": [
    "Verif.InFlight.C113_load_counts_unanswered_requests",
    "Verif.InFlight.C113_nothing_is_leaked",
    "Verif.InFlight.C113_measured_exactly_once",
    "Verif.InFlight.C113_penalised_for_troubled_responses",
    "Verif.InFlight.C113_a_penalty_lasts",
    "Verif.InFlight.C113_measures_the_time_to_the_first_frame",
    "Verif.InFlight.C113_penalties_are_those_of_the_policy",
    "Verif.InFlight.C113_loads_are_positive",
    "Verif.InFlight.C113_limit_failures_in_trailers_are_not_penalised",
    "Verif.InFlight.C113_limit_the_decay_of_penalties_is_ignored"
   ],
   "note": ""
  },
  {
   "property": "C114",
   "status": "proved",
   "theorems": [
    "Verif.Retain.C114_a_service_is_kept_while_in_use",
    "Verif.Retain.C114_one_service_per_key",
    "Verif.Retain.C114_dropped_only_when_idle",
    "Verif.Retain.C114_idle_services_are_dropped",
    "Verif.Retain.C114_every_request_is_given_a_service",
    "Verif.Retain.C114_no_service_is_of_two_keys",
    "Verif.Retain.C114_limit_dropped_right_after_use"
   ],
   "note": ""
  },
  {
   "property": "C115",
   "status": "proved",
   "theorems": [
    "Verif.Arrival.C115_requests_leave_in_order",
    "Verif.Arrival.C115_each_request_has_one_fate",
    "Verif.Arrival.C115_never_panics",
    "Verif.Arrival.C115_shed_only",
    "Verif.Arrival.C115_shed_while_failing",
    "Verif.Arrival.C115_fails_fast_only_after_the_timeout",
    "Verif.Arrival.C115_passed_where",
    "Verif.Arrival.C115_abandoned_requests_are_dropped",
    "Verif.Arrival.C115_waits_at_most_the_timeout",
    "Verif.Arrival.C115_the_backlog_is_failed_too",
    "Verif.Arrival.C115_recovers",
    "Verif.Arrival.C115_slow_discovery_fails_no_request",
    "Verif.Arrival.C115_slow_discovery_delays_at_most",
    "Verif.Arrival.C115_limit_a_failure_is_for_ever",
    "Verif.Arrival.C115_refused_only_after_a_failure",
    "Verif.Arrival.C115_limit_skip_longer_than_the_timeout",
    "Verif.Arrival.C115_one_leaves_in_each_timeout",
    "Verif.Arrival.C115_every_request_leaves"
   ],
   "note": ""
  },
  {
   "property": "C116",
   "status": "proved",
   "theorems": [
    "Verif.Accept.C116_each_connection_is_served_once",
    "Verif.Accept.C116_served_with_its_own_addresses",
    "Verif.Accept.C116_clients_are_not_mapped",
    "Verif.Accept.C116_options_refuse_no_connection",
    "Verif.Accept.C116_no_listener_starves",
    "Verif.Accept.C116_stops_at_shutdown",
    "Verif.Accept.C116_serves_until_shutdown",
    "Verif.Accept.C116_connections_end_on_their_own",
    "Verif.Accept.C116_bound_to_both_or_none",
    "Verif.Accept.C116_limit_no_original_destination",
    "Verif.Accept.C116_limit_errors_are_not_paced"
   ],
   "note": ""
  },
  {
   "property": "C117",
   "status": "proved",
   "theorems": [
    "Verif.Passage.C117_everything_can_still_arrive",
    "Verif.Passage.C117_bytes_arrive_as_they_were_sent",
    "Verif.Passage.C117_bytes_on_the_way",
    "Verif.Passage.C117_an_end_comes_after_everything",
    "Verif.Passage.C117_directions_are_apart",
    "Verif.Passage.C117_headers_are_read_by_the_next_proxy",
    "Verif.Passage.C117_connections_begin_with_the_header",
    "Verif.Passage.C117_what_the_client_wrote",
    "Verif.Passage.C117_what_the_server_wrote",
    "Verif.Passage.C117_limit_a_drop_may_look_like_an_end",
    "Verif.Passage.C117_everything_can_arrive_from_the_start"
   ],
   "note": ""
  },
  {
   "property": "C118",
   "status": "proved",
   "theorems": [
    "Verif.Lookup.C118_waits_for_both",
    "Verif.Lookup.C118_policy_is_the_last_said",
    "Verif.Lookup.C118_without_a_policy_the_profile",
    "Verif.Lookup.C118_made_policies_catch_up",
    "Verif.Lookup.C118_with_neither",
    "Verif.Lookup.C118_fails_iff",
    "Verif.Lookup.C118_where_profiles_are_looked_up",
    "Verif.Lookup.C118_profiles_not_allowed",
    "Verif.Lookup.C118_requests_name_the_destination",
    "Verif.Lookup.C118_limit_frozen_after_an_answer_that_is_final",
    "Verif.Lookup.C118_limit_a_missing_profile_is_waited_for"
   ],
   "note": ""
  },
  {
   "property": "C119",
   "status": "proved",
   "theorems": [
    "Verif.RouteMetrics.C119_requests",
    "Verif.RouteMetrics.C119_statuses",
    "Verif.RouteMetrics.C119_request_durations",
    "Verif.RouteMetrics.C119_response_durations",
    "Verif.RouteMetrics.C119_families_agree",
    "Verif.RouteMetrics.C119_response_frames",
    "Verif.RouteMetrics.C119_request_frames",
    "Verif.RouteMetrics.C119_what_is_heard",
    "Verif.RouteMetrics.C119_other_routes_are_not_touched",
    "Verif.RouteMetrics.C119_only_what_is_let_through",
    "Verif.RouteMetrics.C119_events_reach_the_metrics",
    "Verif.RouteMetrics.C119_refused_requests_leave_no_trace",
    "Verif.RouteMetrics.C119_limit_labels_may_mix_two_policies",
    "Verif.RouteMetrics.C119_labels_tell_routes_apart",
    "Verif.RouteMetrics.C119_limit_resources_that_look_like_defaults",
    "Verif.RouteMetrics.C119_references",
    "Verif.RouteMetrics.C119_limit_cancelled_before_the_response"
   ],
   "note": ""
  },
  {
   "property": "C120",
   "status": "proved",
   "theorems": [
    "Verif.Mesh.C120_http1_request",
    "Verif.Mesh.C120_http1_headers",
    "Verif.Mesh.C120_http2_request",
    "Verif.Mesh.C120_identity_is_told",
    "Verif.Mesh.C120_required_identity",
    "Verif.Mesh.C120_only_if_authorized",
    "Verif.Mesh.C120_http1_response",
    "Verif.Mesh.C120_http2_response",
    "Verif.Mesh.C120_http1_arrives",
    "Verif.Mesh.C120_host_of_absolute_form",
    "Verif.Mesh.C120_requirement_is_not_told",
    "Verif.Mesh.C120_limit_https_is_not_kept",
    "Verif.Mesh.C120_limit_applications_close_connections",
    "Verif.Mesh.C120_limit_filters_can_break_it"
   ],
   "note": ""
  },
  {
   "property": "C121",
   "status": "proved",
   "theorems": [
    "Verif.RetryMetrics.C121_bodies_agree",
    "Verif.RetryMetrics.C121_one_request_for_the_route",
    "Verif.RetryMetrics.C121_each_attempt_is_of_one_request",
    "Verif.RetryMetrics.C121_tries_are_bounded",
    "Verif.RetryMetrics.C121_nothing_is_left_behind",
    "Verif.RetryMetrics.C121_two_open_attempts",
    "Verif.RetryMetrics.C121_the_last_attempt_is_given",
    "Verif.RetryMetrics.C121_retries_are_counted",
    "Verif.RetryMetrics.C121_how_retries_ended",
    "Verif.RetryMetrics.C121_attempts_add_up",
    "Verif.RetryMetrics.C121_limit_counted_late"
   ],
   "note": ""
  },
  {
   "property": "C122",
   "status": "proved",
   "theorems": [
    "Verif.Teardown.C122_own_error",
    "Verif.Teardown.C122_own_errors",
    "Verif.Teardown.C122_no_close_is_missed",
    "Verif.Teardown.C122_end_of_the_process",
    "Verif.Teardown.C122_closed_only_for_a_reason",
    "Verif.Teardown.C122_requests_taken_are_answered",
    "Verif.Teardown.C122_no_request_is_taken_after",
    "Verif.Teardown.C122_last_response_ends",
    "Verif.Teardown.C122_closing_ends",
    "Verif.Teardown.C122_other_connections_go_on",
    "Verif.Teardown.C122_error_crosses_http1",
    "Verif.Teardown.C122_error_crosses_http2",
    "Verif.Teardown.C122_some_errors",
    "Verif.Teardown.C122_application_is_disconnected",
    "Verif.Teardown.C122_application_stays_connected",
    "Verif.Teardown.C122_limit_requests_until_acknowledged",
    "Verif.Teardown.C122_limit_attempts"
   ],
   "note": ""
  },
  {
   "property": "C123",
   "status": "proved",
   "theorems": [
    "Verif.Proven.C123_passes_for",
    "Verif.Proven.C123_admitted_iff",
    "Verif.Proven.C123_connections",
    "Verif.Proven.C123_requests",
    "Verif.Proven.C123_without_a_certificate",
    "Verif.Proven.C123_limit_opaque_ports",
    "Verif.Proven.C123_direct",
    "Verif.Proven.C123_proxies_are_peers",
    "Verif.Proven.C123_taps"
   ],
   "note": ""
  },
  {
   "property": "C124",
   "status": "proved",
   "theorems": [
    "Verif.Proven.C124_endpoints",
    "Verif.Proven.C124_fails_iff",
    "Verif.Proven.C124_told",
    "Verif.Proven.C124_control",
    "Verif.Proven.C124_proxies_are_peers",
    "Verif.Proven.C124_limit_unreadable_identities"
   ],
   "note": ""
  },
  {
   "property": "C125",
   "status": "proved",
   "theorems": [
    "Verif.ProfileRoute.C125_routes_apart",
    "Verif.ProfileRoute.C125_profile_exchange",
    "Verif.ProfileRoute.C125_retries_in_time",
    "Verif.ProfileRoute.C125_exchange",
    "Verif.ProfileRoute.C125_timeout",
    "Verif.ProfileRoute.C125_timeout_reply",
    "Verif.ProfileRoute.C125_attempts_within_budget",
    "Verif.ProfileRoute.C125_retries_counted",
    "Verif.ProfileRoute.C125_no_retries",
    "Verif.ProfileRoute.C125_profile_retries_in_time"
   ],
   "note": ""
  },
  {
   "property": "C126",
   "status": "proved",
   "theorems": [
    "Verif.Zone.C126_counted",
    "Verif.Zone.C126_transparent",
    "Verif.Zone.C126_zone"
   ],
   "note": ""
  },
  {
   "property": "C127",
   "status": "proved",
   "theorems": [
    "Verif.ConnCount.C127_direct_counted",
    "Verif.ConnCount.C127_direct_transparent",
    "Verif.ConnCount.C127_direct_counts_all",
    "Verif.ConnCount.C127_direct_series",
    "Verif.ConnCount.C127_outbound_counted",
    "Verif.ConnCount.C127_outbound_protocol",
    "Verif.ConnCount.C127_outbound_series",
    "Verif.ConnCount.C127_limit_namespaces_share"
   ],
   "note": ""
  }
 ]
}