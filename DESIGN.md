# Design

A Lean 4 model of emersion/soju (Go, pinned commit in /repo) and machine-checked proofs of the
properties listed in `properties.jsonl`.

## Layout

| directory | content |
|---|---|
| `lean/Verif/Basic.lean` | byte strings, literal macro |
| `lean/Verif/Model/*.lean` | the model: one definition per Go function, each citing file and lines |
| `lean/Verif/Spec/*.lean` | small independent specifications, written from the English property, not importing the model |
| `lean/Verif/Proof/*.lean` | helper lemmas (not part of the claims) |
| `lean/Verif/Props/*.lean` | the property theorems, named `Cnn_...`, each followed by an `example` showing that its hypotheses are satisfiable in a non-trivial case |

`MANIFEST.json` maps every property to its theorems. `seeded/LOG.jsonl` records the mutation
experiments (wrong programs the theorems must reject).

## Trusted base

* Lean 4.33.0's kernel, and the axioms `propext`, `Classical.choice`, `Quot.sound` only (the list per theorem is
  below). No `sorry`, no `admit`, no `native_decide`, no `bv_decide`, no added axioms; `decide +kernel` is checked
  by the kernel.
* The model's fidelity: the Go code is not executed. Every definition cites the lines it models, and its comment
  says what is simplified. Nothing checks mechanically that a definition corresponds to the lines it cites.
* Go semantics assumed by the model: bytes are natural numbers (theorems that need `< 256` say so);
  `int`/`time.Duration` arithmetic is unbounded unless the property is about overflow; Go maps are association lists
  or functions, and where iteration order matters the order is an explicit, universally quantified argument;
  goroutines and channels are explicit transition systems whose steps may be interleaved in any order; library calls
  (`bcrypt`, HTTP, SQL engine, `unicode.IsLetter`, ...) are parameters or follow their documented contract as stated
  at the definition.

### Axioms

<!-- BEGIN axioms -->
* **Classical.choice, Quot.sound, propext** (488): C01_fold_eq_iff_same, C01_fold_idempotent, C02_has, C02_iteration, C02_iteration_distinct, C02_lookup_last_write, C02_recase_collision_loses_entry, C02_recase_keeps_entries, C02_store_delete_visible, C03_highest_prefix, C03_membership_set, C03_prefix_token, C03_sorted_nodup_exact, C04_apply, C05_accepts_iff, C05_members, C05_modes, C05_told, C05_told_after, C06_delay_bounds, C06_delays, C06_no_overflow, C07_join_covers, C07_keyed_first, C07_length_partial, C08_isupport_lossless, C09_sasl_roundtrip, C100_kept, C100_valid, C101_certfp, C101_certfp_key, C101_channel_accepted, C101_channel_create_partial, C101_channel_delete, C101_channel_update, C101_network_create, C101_network_update, C101_password_off, C101_sasl_reset, C101_sasl_set, C101_stray_channel, C101_stray_credentials, C101_stray_network, C101_stray_user, C101_user_create, C102_command, C102_group, C102_list_partial, C102_unknown, C103_change, C103_create, C103_running_violated, C103_succeeds, C104_asked, C104_known_partial, C105_addressed_partial, C105_bouncer, C105_frame, C105_known_partial, C105_motd, C105_network, C105_reconnect_violated, C106_wait_bounds, C106_waits, C107_ascii, C107_replaced, C107_text, C107_unchanged, C108_asked, C108_created, C108_elsewhere, C108_known, C108_listed, C108_queried, C109_bind_asked, C109_impersonate, C109_pass, C109_sasl, C110_asked, C110_elsewhere, C110_known, C111_bound, C111_complete, C111_framed, C111_order, C111_stopped, C111_turn, C112_told_partial, C113_history_partial, C113_reads, C113_shown, C114_burst, C114_prompt, C114_spaced, C114_upstream, C114_window, C115_figures_partial, C115_notice, C115_reached, C116_alone, C116_credentials, C116_login, C116_over_partial, C116_success, C117_names, C117_once, C117_origin, C117_passed_on, C117_whois_service, C118_answers, C118_idle, C118_nothing_else, C118_partway, C119_calls_back, C119_error_violated, C119_fatal, C119_hears, C119_only_clients, C119_pushed, C119_refused, C119_says_nothing, C11_msgid_header, C11_msgid_injective, C11_msgid_roundtrip, C11_msgid_typed, C11_msgid_version, C120_client, C120_in_time, C120_told, C121_complete, C121_debug, C121_harmless, C121_in, C121_out_open, C121_out_partial, C121_quiet_partial, C121_switch, C121_written, C122_host, C122_published, C122_rare, C122_survives_partial, C122_total, C123_fixed, C123_kept, C123_offered_partial, C123_place_partial, C123_reach_partial, C123_readback, C123_separate, C124_lossless_partial, C124_once, C12_last_id_partial, C12_latest_after_id, C12_targets_independent, C13_after_window_partial, C13_before_general, C13_before_window_partial, C13_resume_after_append, C13_resume_after_last, C14_distinct, C14_inside_partial, C14_never_escapes, C14_rename_dir, C15_events_hidden, C15_roundtrip, C16_advances, C16_change_is_broadcast, C16_monotone, C16_not_future, C16_reply_reports_stored, C17_abort, C17_abort_reply, C17_answered_or_aborted_partial, C17_no_crash, C17_one_in_flight_partial, C17_stale_violated, C18_batch_gets_label, C18_batch_keeps_label, C18_foreign_label_violated, C18_label_roundtrip, C18_labels_distinct, C18_reply_is_for_client, C18_routing, C19_echo_partial, C19_forwarded, C21_lossless_crash_partial, C21_lossless_partial, C21_new_target, C21_no_replay, C21_session, C23_disabled, C23_follows_presence, C24_answered, C24_bounded, C24_merged_partial, C24_told, C25_client_knows_partial, C25_enabled_offered, C25_offered_registered, C25_offers_known, C25_req_ack_iff, C25_req_atomic, C25_values, C25_withdrawn, C26_exact, C26_fanout, C26_filtered, C26_shared, C26_unchanged, C27_authenticated, C27_bounded, C28_admin_partial, C29_reassemble, C29_repeated_separator, C29_split, C30_lookup_id, C30_lookup_partial, C30_unique, C30_wellformed, C31_limit, C32_accepted, C32_accepted_any, C32_history, C34_order, C34_roundtrip, C34_stored, C35_after, C35_before, C35_last_id, C35_latest, C35_list_targets, C35_query, C35_resume_partial, C35_resume_violated, C35_search, C35_targets, C39_ambiguous, C39_gated, C39_lookup, C39_order, C40_authority, C40_delete, C40_history, C40_other_update, C40_own_flags, C40_own_update, C43_named, C43_nameless, C43_store, C44_authenticated, C44_complete, C45_answer_partial, C45_only_owner, C45_query, C45_refused, C46_assigned, C46_base, C46_distinct, C46_inside, C46_leading_zero, C47_accepted, C47_auth, C47_patterns, C47_proxy, C47_ranges, C48_modes_partial, C48_relayed_partial, C48_tracked_partial, C48_welcome_partial, C49_ctcp_bare, C49_ctcp_iff, C49_ctcp_split, C50_complete, C50_exact_partial, C51_external, C51_kept_partial, C51_origin, C52_roundtrip_partial, C53_limit, C53_messages, C53_refused_partial, C53_targets, C54_forgotten, C54_one_loop, C54_restart, C55_one_admin_partial, C55_ordered_partial, C56_last_reported_partial, C56_quit, C56_visible_partial, C56_whom, C57_bounded, C57_expired, C57_registered, C57_unique, C57_unregistered, C58_detached_partial, C58_rejoin_partial, C58_saved_partial, C60_inactive_partial, C60_only, C62_disabled_partial, C63_delay, C64_accepted, C64_search, C65_no_crash_partial, C65_who_partial, C66_accepted_partial, C67_disabled_partial, C67_password_partial, C68_postgres, C68_sqlite_partial, C69_agree_partial, C69_credentials, C69_end, C69_end_partial, C69_introduces, C69_login, C69_nick, C69_refused_violated, C69_requests_partial, C69_stalled_violated, C69_wanted_partial, C71_allowed, C71_refused, C72_roundtrip_partial, C75_attach_violated, C75_detach_violated, C75_login_violated, C75_nick, C75_part_violated, C75_present, C75_reconnect_violated, C75_stay_partial, C75_view_partial, C76_attributes_partial, C76_login, C76_names, C76_networks, C76_present, C76_state_partial, C76_unasked, C77_defaults, C77_kept_partial, C77_named_partial, C77_once, C77_subscriber, C77_upgrade, C77_upgrade_postgres, C78_fingerprint, C78_insecure, C78_pin_partial, C78_pin_violated, C78_source, C78_tls, C79_accepted, C79_harmless_partial, C79_http_partial, C79_http_violated, C79_oauth, C79_oauth_method, C79_pam, C79_race_violated, C79_registered, C79_undone_violated, C80_asked, C80_monitor, C80_no_panic, C80_once, C80_quiet, C80_timer_partial, C81_after, C81_before, C81_bytes_violated, C81_deleted, C81_exact, C81_ids, C81_last_id, C81_latest, C81_query, C81_resume_partial, C81_resume_violated, C81_search, C81_store, C81_targets, C82_channels, C82_configs, C82_delete_user, C82_get_user, C82_ids, C82_inactive, C82_networks, C82_no_orphans, C82_read, C82_receipts, C82_stored_partial, C82_subs, C82_success, C82_users, C83_effect, C83_migrated_partial, C83_sqlite_effect, C83_sqlite_partial, C84_channels, C84_configs, C84_delete_user, C84_get_user, C84_ids_partial, C84_inactive, C84_networks, C84_no_orphans, C84_read, C84_receipts, C84_stats, C84_stored_partial, C84_subs, C84_success, C84_users, C85_none_lost, C85_own_log_partial, C85_rename_failed, C85_search_latest_partial, C85_search_partial, C85_search_sound, C85_targets_partial, C86_account_partial, C86_host, C86_realname_partial, C86_setname_partial, C86_user_partial, C87_admin, C87_admin_default, C87_admin_scheme, C87_local, C87_plain, C87_raw, C87_scheme, C87_tcp, C87_tls, C87_unix_partial, C88_answers, C88_path, C89_get, C89_server_partial, C90_channels, C90_networks_partial, C90_rest, C90_twice, C90_users, C91_moved_partial, C91_name_violated, C91_success, C92_monitored_partial, C92_same_partial, C93_channels_partial, C94_bounded_partial, C94_database_last_partial, C94_goes_on_partial, C94_saved_partial, C95_answer, C95_contained, C95_forwarded, C95_sent, C95_whole, C96_broadcast, C96_echoed, C96_errors, C96_not_forged, C96_one_target_partial, C96_relayed, C96_sent_tags, C96_service, C97_batch, C97_framed, C97_framed_partial, C97_not_asked, C98_dismissed_partial, C98_marker_only, C98_only, C98_result, C99_due, C99_keeps_trying, C99_recovers, C99_spacing_partial, C99_told_error, C99_told_state, C99_turned_away
* **Quot.sound, propext** (336): C03_prefix_roundtrip, C05_standard_modes, C05_told_not_ascii, C05_told_shape, C06_reaches_cap, C07_length_violated, C08_monitor_length, C08_monitor_lossless, C08_monitor_violated, C08_names_lossless, C08_names_violated, C09_sasl_chunk_sizes, C09_sasl_too_long, C100_bouncer_add_partial, C100_bouncer_change_partial, C100_bouncer_nick_violated, C100_create, C100_delete, C100_login, C100_nick, C100_realname_partial, C100_realname_violated, C100_refresh, C100_sasl, C100_update, C101_create_detached_violated, C101_meant_partial, C101_name_violated, C101_network_delete, C101_not_a_command, C101_slash_violated, C101_stray_delete, C102_server_violated, C103_input, C103_name_violated, C104_bouncer, C105_addressed_violated, C106_ends, C106_served, C107_line_violated, C108_detached_violated, C108_relisted_violated, C109_bind_early, C10_who_form, C10_who_roundtrip, C10_whox_options, C10_whox_order, C10_whox_roundtrip, C10_whox_wire_partial, C10_whox_wire_violated, C110_set, C112_account, C112_network, C112_nick, C112_own, C112_restart, C112_setname, C113_live, C113_summer_violated, C115_connections_violated, C115_upstreams_violated, C116_again_violated, C116_already_violated, C116_fail_violated, C116_identity_violated, C116_lost_violated, C116_own_violated, C117_addressed_violated, C117_bouncer, C117_disconnected, C117_mode_change, C117_mode_refused, C117_others, C117_own_modes, C117_ping, C117_quit_violated, C117_register, C117_short, C117_told, C117_who_known, C117_who_self, C117_who_service, C117_whois_violated, C118_away_violated, C118_gone_violated, C118_nobody_violated, C118_register_violated, C118_server_violated, C118_who_violated, C119_greeting_violated, C120_said_partial, C121_error, C121_out_violated, C121_quiet_violated, C121_skipped_violated, C122_crash_violated, C122_private_violated, C123_client, C123_come_and_go, C123_offered_violated, C123_reload_violated, C124_memory_violated, C124_return_violated, C124_switch_violated, C14_escape_id, C14_escape_plain, C15_action_violated, C15_dm_target_violated, C15_mode_violated, C15_others_not_logged, C16_query_is_private, C16_sender_answered, C18_foreign_label_refused, C19_unlabelled_echo_violated, C20_not_logged, C20_received_logged, C20_sent_logged_partial, C20_service_host_violated, C20_services_not_logged, C20_status_prefix_violated, C22_attach_idempotent, C22_detach_attach, C22_hidden, C22_history, C22_reattach, C24_desired_nick_violated, C24_forwarded, C24_full, C24_listed, C24_race_violated, C24_refused, C24_unknown_violated, C25_contradictory_req_violated, C25_version_overflow_violated, C27_others, C28_disabled_admin_violated, C28_refused, C30_lookup_violated, C30_reserved_violated, C31_exact, C31_ignore_admin, C31_refused, C33_closed, C33_drains, C33_ends, C33_not_stuck, C33_prefix, C33_queued_once, C33_senders, C33_shutdown, C36_delete_network, C36_delete_user, C36_network_gone, C36_user_gone, C37_insert, C37_saved, C37_update, C38_open_quote, C38_quoted, C38_sojuctl_partial, C38_sojuctl_violated, C38_terminated, C38_words_partial, C39_allowed, C41_clean, C41_plain, C41_subsequence, C41_unformatted, C41_unique, C42_query, C43_fetch, C43_roundtrip, C44_announced, C44_answers, C44_charset, C44_malformed, C44_oversize_violated, C44_rejected, C45_same_port_violated, C45_session, C46_contains, C47_database, C47_defaults, C47_delay, C47_drivers, C47_given, C47_origin_accepted, C47_origins, C48_isupport_encoding, C48_negation_violated, C48_relayed_violated, C49_flags, C49_statusmsg, C50_context_violated, C50_occurrence, C50_violated, C51_abort_violated, C51_no_panic, C51_violated, C52_violated, C55_broadcast_violated, C55_deleted_violated, C55_lock, C55_mutual_update_violated, C55_own_deletion_violated, C55_run_violated, C56_chghost_violated, C56_offline_violated, C58_detach_violated, C58_late_violated, C58_mapping_violated, C59_channel_create_violated, C59_channel_update_partial, C59_channel_update_violated, C59_delete, C59_memory_partial, C59_network, C59_sasl_violated, C59_stored_is_used_partial, C59_stored_partial, C59_user_partial, C59_user_update_violated, C60_race_violated, C60_restart_violated, C61_auto_detach_waits_partial, C62_alive_partial, C62_hang_up, C62_turned_away, C63_insert, C63_update, C65_empty_source_violated, C65_who_violated, C66_internal_violated, C66_loopback, C69_agree_violated, C69_challenge, C69_echo_violated, C69_lines_violated, C69_refused, C69_withdrawn_violated, C70_delete, C70_login, C70_same_network, C70_update, C72_colon_violated, C73_no_scripts, C74_forwarded, C74_local, C74_not_spoofed, C74_proxy, C75_offline_nick_violated, C76_late_violated, C76_nick_violated, C76_removed_violated, C76_stale_error_violated, C76_stale_state_violated, C76_updated, C77_channels_violated, C77_failed, C77_kept_postgres_partial, C77_new, C77_subscription_violated, C78_client, C78_verified, C79_internal, C80_dropped_violated, C80_later_violated, C80_refused_violated, C82_stored_violated, C83_failure, C83_migrated_violated, C83_named_partial, C83_named_violated, C83_reads_violated, C83_sqlite_violated, C83_subs_violated, C83_violated, C84_ids_violated, C84_other_user_violated, C84_stored_violated, C85_order_violated, C85_rename, C86_account_violated, C86_realname_violated, C87_reload, C87_reload_failed, C87_start, C87_unix_violated, C88_client, C88_ctl_partial, C88_effect, C88_success, C89_ipv6_violated, C89_only_partial, C89_reads, C89_rest_violated, C90_chosen, C90_same_server_violated, C90_stops_violated, C90_unnamed_violated, C91_stops_violated, C91_twice_violated, C93_channels_violated, C93_extra_words, C93_networks, C93_notice_partial, C93_readable, C93_unknown, C93_user, C93_users, C93_users_failed, C94_deadlock_stays, C94_deadlock_violated, C95_no_fetch, C96_label_leak_violated, C96_labels_violated, C96_race_violated, C97_memory_violated, C97_race_violated, C98_forgotten_violated, C98_invite, C98_key_accepted, C98_mention, C98_order_violated, C98_private, C98_sent, C98_unsaved_violated, C99_alive_partial, C99_commands, C99_disabled, C99_fallback_violated, C99_gives_up, C99_hammering_violated, C99_no_panic, C99_removed, C99_reported
* **none** (14): C04_not_ascii, C104_operator_violated, C104_sign_violated, C113_skipped_violated, C13_gap_violated, C13_midnight_violated, C14_collision_violated, C14_empty_name_violated, C14_shared_iff, C28_admin_meaning, C57_subcommand_violated, C80_swallowed_violated, C93_notice_violated, C98_two_violated
* **propext** (82): C01_fold_length, C01_parse_casemapping, C04_malformed, C04_malformed_iff, C05_malformed_unchanged, C103_empty_violated, C103_failed, C103_flag_violated, C103_login, C103_unknown, C104_change, C104_reconnect_violated, C105_nick, C108_change, C110_clock_violated, C110_time_violated, C111_lost_violated, C112_failed_violated, C112_follows_violated, C112_registering_violated, C112_setname_lost_violated, C112_setname_violated, C113_zero_violated, C119_hears_unique, C120_dial, C120_silent_violated, C120_slow_violated, C12_last_id_violated, C12_only_text, C13_before_now, C21_crash_violated, C21_limit_violated, C21_new_client_violated, C21_update_replay_violated, C21_update_violated, C22_attach_crash_violated, C22_crash_only_incomplete, C22_detach_idempotent, C22_own_hidden, C23_command_partial, C23_empty_violated, C33_call_after_close, C37_unsupported, C38_words_violated, C39_admin_socket, C42_runs_unique, C47_unambiguous, C48_isupport_no_space, C49_channel_status_partial, C49_channel_status_violated, C49_membership_lossless, C50_no_panic, C50_who, C51_message, C53_violated, C57_refresh_violated, C57_reused_violated, C58_kick, C61_kick_timer_violated, C61_stale_event_violated, C62_message_violated, C62_socket_violated, C63_delete, C67_failed_login_violated, C67_ignored, C67_pending_violated, C68_sqlite_violated, C79_kept, C85_event_violated, C85_left_behind_violated, C85_reuse_violated, C86_setname_violated, C88_error_violated, C89_each, C92_early_violated, C92_monitored_violated, C92_unknown_violated, C94_late_account_violated, C96_incomplete, C98_key, C99_overlap_violated, C99_reenabled_violated
<!-- END axioms -->

### What is modelled

| model | code | left out or simplified |
|---|---|---|
| `GoStr`, `GoNum`, `GoMap`, `Words` | the parts of `strings`, `strconv` and of Go's maps that are used; service.go `splitWords`; contrib sojuctl quoting | strings are bytes; `splitWords` and quoting over characters; `TrimSpace`/`Fields`/`ToUpper`/`ToLower` on ASCII |
| `Casemap` | xirc/casemapping.go | – |
| `Modes`, `Ctcp` | irc.go, xirc (memberships, modes, prefixes, CTCP) | – |
| `GenMsg`, `Whox`, `Base64` | xirc generators, WHOX replies, SASL chunks | length arithmetic without the message prefix, as in the code |
| `Backoff` | upstream backoff | jitter is an input |
| `MsgId`, `MemStore`, `ZncLog`, `FsStore`, `LogPath` | msgstore/* | file system as a map from days to lines; a log line is opaque in `FsStore`, its text is in `ZncLog`; symbolic links and I/O errors left out |
| `SqlTime`, `MsgDb`, `Db` | database/sqlite.go, database/postgres.go | SQL as filter, sort, limit on row lists; the order of equal keys is an arbitrary parameter; only `UNIQUE` and foreign keys can fail unless said otherwise |
| `SearchText` | database/utils.go, FTS quoting | runes |
| `ReadMarker`, `History` | MARKREAD, CHATHISTORY, SEARCH handlers | `time.Parse` is a parameter |
| `Conn` | conn.go | sockets reduced to "write succeeds or fails" |
| `PendingCmds`, `Labels`, `Delivery`, `Filter`, `Backlog`, `Detach`, `Away`, `Monitor`, `Caps`, `Isupport`, `UserCache`, `Creds` | upstream.go, downstream.go, user.go | one network each; each model has the part of the connection state its property is about; INVITE and BOUNCER messages are gated outside `SendMessage` and are not part of `Filter`; the SASL exchange is reduced to decoded responses in `Creds` |
| `UpReg` | upstream.go registration with a server, CAP, SASL client | the network's settings are an input of every message; SASL mechanisms reduced to their initial response |
| `Register` | downstream.go registration, SASL, impersonation | authenticator is a parameter |
| `Url`, `Network`, `Settings`, `Flags`, `Service` | service.go, user.go network and account commands; the `flag` package; net/url as far as used | `UrlLib` is the rest of net/url; hashing, key generation and durations are parameters; commands on other accounts and commands that print have no effect in `Settings` |
| `Registry`, `Loops`, `UserLoop`, `Inactive`, `SavedChans`, `WebPush` | server.go, user.go: table of users, event loops, goroutines of networks, scan for inactive accounts, saved channels, push subscriptions | an account is a row and a name in `Registry`; users are numbered and none is created in `Loops`; the event channel is unbounded in `UserLoop`; natural-number times and no database errors in `Inactive`; one network and only `UNIQUE` errors in `SavedChans` |
| `DbUpgrade` | database/sqlite.go 61-323; database/postgres.go 21-227; database/sqlite_schema.sql; database/postgres_schema.sql | SQL statements as far as tables, columns, rows, NOT NULL, UNIQUE and foreign keys; no types, indexes or full-text search; a transaction is atomic; rows of a table without identifiers have their `rowid` |
| `Dial` | upstream.go 240-398, 2474-2493 | hash functions, X.509 verification and keys are parameters; the handshake by what it promises; timeouts and the debug messages are left out |
| `AuthDriver` | auth/internal.go, auth/http.go, auth/oauth2.go, auth/pam.go, database/database.go 109-138 | bcrypt, HTTP transport, JSON decoding and the PAM library are parameters; the discovery request of OAuth 2.0 by its result |
| `Regain` | upstream.go 231-237, 1026-1045, 1085-1103, 1666-1685, 1822-1854, 2319-2380; user.go 847-848, 895-899 | one network; the case mapping is fixed; intervals of the timer are `Backoff`; which nicks the server monitors is `Monitor` |
| `PgMsg` | database/postgres.go 801-1052; database/postgres_schema.sql 90-112 | calls are atomic; accepted texts, rounding of times, full-text search and sorts are parameters; parsing the stored messages back is not modelled |
| `PgDb` | database/postgres.go 255-661, 733-798; database/postgres_schema.sql 1-88 | calls are atomic; accepted texts and what is read back of times are parameters; overflows of integers are not modelled |
| `MigrateDb` | contrib/migrate-db/main.go 35-158, database/database.go 73-82 | the source is given by what its list functions return; the destination is an empty PostgreSQL or SQLite database; logging is not modelled |
| `SqDb` | database/sqlite.go 328-1054; database/sqlite_schema.sql 1-91 | calls are atomic; the messages that a deletion also removes are in `MsgDb`; databases created by older versions are not modelled |
| `FsLog` | msgstore/fs.go | files kept open, renames, conversations, search with the log-file store |
| `Ident` | downstream.go, upstream.go, user.go | what clients are told about their own nick, host, real name and account |
| `Listen` | `cmd/soju/main.go`, `fileupload/fileupload.go` | listen directives and SIGHUP. Errors of the system (address in use) are left out; what the library accepts as host of a URL and the reading of certificates are parameters |
| `Admin` | `server.go`, `cmd/sojuctl/main.go` | the administration socket and sojuctl. Messages are carried whole; the service command is a parameter |
| `ZncConf` | `contrib/znc-import/main.go` | the parser for ZNC configuration files, on runes, and the server setting |
| `ZncImport` | `contrib/znc-import/main.go` | the import of the users, networks and channels into an SQLite database |
| `MigrateLogs` | `contrib/migrate-logs/main.go`, `database/sqlite.go` | moving the log files into an SQLite database |
| `Folding` | `user.go`, `upstream.go`, `downstream.go`, `xirc/casemapping.go` | the tables of names of a network and the changes of its case mapping |
| `Reports` | service.go, user.go, database/database.go | the status commands and the answer to `server notice`; `sort.Slice` and map order are parameters |
| `Shutdown` | server.go 379-402, 404-460, 464-512, 630-660, 718-771; user.go 642, 876-888 | what an event does is reduced to whether it needs the lock of the server; commands that wait for another user are in `Loops` |
| `UploadHttp` | fileupload/http.go 19-60; fileupload/fileupload.go 66-83, 143-166, 224-351 | the service, the HTTP client and the resolution of locations are parameters |
| `Say` | downstream.go 438-446, 2387-2520; irc.go 210-230; upstream.go 2100-2119; conn.go 118-160 | the filter of what clients get is `Filter`, logging and delivery `Delivery`, the service `Service`; the channel to the writer is not bounded |
| `Batches` | downstream.go 551-571, 1570-1580, 1684-1695, 2754, 2770, 2852-2877, 3066-3071, 3085-3095; upstream.go 2184-2203; conn.go 118-160; msgstore/memory.go 84-102, 147-171 (pointers) | which messages are found is C12-C13, C35, C53, C81; the filter is `Filter`; channels are not bounded |
| `Pushes` | upstream.go 618-704, 1616-1645; downstream.go 2030, 2879-2986, 3204-3350; user.go 448-525; server.go 302-378 | one network; case mapping fixed; the encryption and the HTTP client are the library's; pushes are sent by goroutines of their own, in any order (see `WebPush`) |
| `Reconnect` | user.go 196-203, 221-318, 643-690, 895-930; upstream.go 57-83, 2056-2098 | time in nanoseconds given by the environment; jitter a parameter; the parts of the registration are in `UpReg`, the back-off in `Backoff`, the loop of the account in `UserLoop` |
| `Help` | service.go | the listing of commands and the help texts |
| `Sojudb` | cmd/sojudb/main.go | with an SQLite database |
| `UserModes` | upstream.go (MODE, 221), downstream.go (welcome, MODE) | one network and the bouncer connections |
| `Greeting` | downstream.go (welcome), xirc/genmsg.go (GenerateMOTD) | message sources and tags left out |
| `Accept` | server.go (retryListener, Serve), identd/identd.go (Serve) | the listener is the list of its answers |
| `WebSocket` | conn.go (websocketIRCConn) | strings.ToValidUTF8, utf8.DecodeRuneInString and irc.ParseMessage (for lines without tags and source) are modelled from their documentation; deadlines left out |
| `ChanModes` | upstream.go (MODE, 324, 329), downstream.go (MODE, welcome, forwardChannel), user.go (attach, detach) | one channel of one network; labels and the queue of the client are left out; the other messages of a join are not shown |
| `Topics` | upstream.go, downstream.go, user.go | topic, author and time of a channel as the clients hear of them |
| `Pump` | server.go, user.go, downstream.go, upstream.go, conn.go | what handling a message does is left open, except that it may close connections, end the registration or stop the loop |
| `Names` | user.go, downstream.go, upstream.go, database/database.go | only the nick and the real name; the answers of servers (nick in use, SETNAME) are left out |
| `MsgTime` | upstream.go, user.go, msgstore/fs.go, msgstore/znclog, database/sqlite.go, database/postgres.go | one message; the time zone and the parser are parameters; `irc.Message.String` and `ParseMessage` keep the tag |
| `Rate` | conn.go, server.go | time in nanoseconds as integers, where the library counts tokens in floating point; the clock as an input; writing a message takes any time |
| `Stats` | server.go, user.go, service.go | users, networks and notices are numbered; whom a notice reaches before the deadline is an input; queues are not bounded; connections do not panic |
| `SaslBridge` | downstream.go, upstream.go | SASL of registered clients: AUTHENTICATE by clients and by the server, ends, loss of the connection; texts and the saving of credentials left out |
| `Route` | downstream.go, upstream.go, user.go | the commands that are passed on or answered at once; answers about channels and cached people are given |
| `Replies` | upstream.go | replies to queued commands; tags, caches and SASL left out |
| `Passing` | upstream.go:401-450, 923-929, 1027-1048, 1616-1652, 1714-1742, 1792-1855 | messages passed on; those with other topics are in other modules |
| `Patience` | `downstream.go` (`runUntilRegistered`), `conn.go` (queue, writer, shutdown), `user.go` (`runConn`), `upstream.go` (`runUntilRegistered`) | deadlines; goroutines go on at once when they can |
| `DebugLog` | `server.go` (`DebugLogger`, counters), `service.go` (`server debug`), `conn.go`, `user.go` (`eventDownstreamMessage`), `downstream.go` (errors of handlers) | the lines of the log with a message of or to a client or server; results of handlers are left open |
| `TopNets` | `database/postgres.go` (`listTopNetworkAddrs`, `postgresMetricsCollector`) | the query does not fail; orders of maps are left open; `MustNewConstMetric` panics for labels that are not UTF-8 |
| `StoreChoice` | `user.go` (`newUser`), `downstream.go` (`newDownstreamConn`, uses of the store), `cmd/soju/main.go` (SIGHUP), `server.go` (`addUserLocked`, `createUser`) | a configuration is its message store; stores are known by their place; failures of the database and stores left out |
| `StoreSwitch` | `user.go` (`storeClientDeliveryReceipts`, loading receipts), `downstream.go` (`sendTargetBacklog`), `LoadLatestID` of the stores | one conversation and one client; IDs are a kind and a position (C11); no limit on the backlog, no crashes (C21) |
| `NetView` | user.go 597-705, 895-964, 1052-1220; downstream.go 92-141, 880-902, 1569-1581, 1838-1839, 3084-3098; database/database.go 180-232 | message tags are lists of attributes; failed operations change nothing and are left out |
| `ChanView` | upstream.go 85-97, 406-444, 1083-1127, 1202-1339, 1477-1523, 2184-2203; downstream.go 1137-1158, 1442-1607, 3426-3498; user.go 320-387, 643-672, 895-931 | modes other than memberships, read markers, batches, RPL_TOPICWHOTIME, tags and user@host left out; casemapping and PREFIX fixed; one network |
| `HttpFront` | fileupload/fileupload.go 120-222, 320-351, fileupload/fs.go, server.go 672-706, cmd/soju/main.go 467-482 | texts of errors, ranges and conditional requests left out; `EqualFold` on ASCII; net/http, mime and go-proxyproto are parameters |
| `Upload`, `PathMatch` | fileupload/*, `path.Match` | symbolic links and the HTTP driver left out; `MkdirAll` succeeds; characters instead of UTF-8 |
| `Identd`, `UserIp`, `Config`, `Highlight` | identd, user.go `localTCPAddr`, config, irc.go `isHighlight` | scfg decoder and floating point days are parameters; character classes are parameters |

Not modelled at all: TLS and sockets, WebSocket framing, net/http, PAM/OAuth back ends (their verdict is a
parameter), Web Push encryption, Prometheus metrics, logging, the SQL engines themselves, schema migrations, the
irc.v4 parser (except tags, prefixes and parameters where a property needs them), contrib/ tools other than the
quoting of sojuctl.

## Plan per property

Shapes: R = round-trip law, I = invariant by induction over operation lists, F = refinement to a spec,
D = decision logic.

| id | shape | what is modelled and how it is proved |
|---|---|---|
| C01 | D/R | the three fold functions as maps over bytes; equality of folds characterised by a relation listing the letter pairs |
| C02 | F | `CaseMappingMap` as association list keyed by folded name, refined to "last write wins over history modulo equivalence" |
| C03 | I/F | `MembershipSet.Add/Remove` over lists, invariant sorted+nodup, membership = grant/revoke history |
| C04 | F | `userModes` as byte list, refined to set semantics of the mode string |
| C05 | F | `applyChannelModes` with an argument cursor, refined to a spec that first pairs letters with arguments, then applies the pairs; the reply `Format` read back by the same function |
| C06 | I | `backoffer` as a state machine with jitter as input |
| C07 | F | `GenerateJoin` as fold; lossless partition and length bound |
| C08 | F | `GenerateMonitor/NamesReply/Isupport` as folds; concatenation and bounds |
| C09 | R | `GenerateSASL` and `handleAuthenticate` including base64 |
| C10 | R | `GenerateWHOXReply`/`ParseWHOXReply` over a field record |
| C11 | R | BARE varints, zigzag, length-prefixed strings, base64url; injectivity |
| C12 | F | ring buffer refined to "last N of the log" |
| C13 | F | day-file scan functions refined to take/drop on the filtered log |
| C14 | D | `EscapeFilename` and path join; component safety |
| C15 | R | line formatter/parser |
| C16 | I | MARKREAD handler as a step over (stored marker, clock, clients) |
| C17 | I/F | pending command queues as a transition system |
| C18 | I/R | label printing/parsing, label counter |
| C19 | D | `produce` and PRIVMSG echo over a list of clients |
| C20 | D | `appendLog` decision function |
| C21 | I | receipts, acks and store as a transition system |
| C22 | I/D | channel record with detach/attach steps and relay decision |
| C23 | I | away state machine |
| C24 | I | per-client lists and upstream merge; what clients are told, against what the server said |
| C25 | I | capability registry and CAP handler |
| C26 | D | tag/command filter of `SendMessage` |
| C27, C28 | I | registration state machine with an arbitrary authenticator |
| C29 | R | `unmarshalUsername` |
| C30, C31, C32 | I | network list with create/update/delete and checks |
| C33 | I | writer goroutine, bounded channel, close flag: all interleavings |
| C34 | R/D | fixed-width decimal layout; lexicographic = chronological |
| C35 | F | relational query as filter/sort/limit, refined to the window spec |
| C36 | I | tables as row lists, cascaded deletes |
| C37 | R | record to row and back |
| C38 | R | `splitWords`, `strconv.Quote` |
| C39 | D | command tree lookup over any permutation of the table |
| C40 | D | handlers' authority checks |
| C41 | F | `stripANSI` index loop refined to a grammar |
| C42 | R | tokenizer and quoting, parsed back by an FTS string lexer |
| C43 | D | `path.Clean/Join/Base` on components; file system as a map |
| C44 | D | upload handler with arbitrary authenticator |
| C45 | F | ident table |
| C46 | D | address arithmetic on naturals |
| C47 | D | `Load` after scfg decoding |
| C48 | R/I | ISUPPORT encoder, token update |
| C49 | D | parsers |
| C50 | D | `isHighlight` against an existential spec over occurrences |
| C51 | D | NickServ parser and autosave |
| C52 | R | address/attribute conversion |
| C53 | D | CHATHISTORY handler over an abstract store |
| C54, C55 | I | server registry and admin command transition systems |
| C56 | I | user cache |
| C57 | I | subscription table |
| C58 | I | saved channel list |
| C59 | D/I | service commands over two copies of the settings, with a database whose writes may fail |
| C60 | I | scan, logins and delivery of its events as a transition system with times |
| C61 | I | timers of channels as part of the detach model |
| C62 | I | event loop, goroutines of networks and clients of one account |
| C63 | R | channel record to row and back |
| C64 | D | SEARCH handler over the database query |
| C65 | I | user cache with a panic outcome |
| C66 | D | URL and address checks with an arbitrary resolver |
| C67 | I | as C62, with password versions |
| C68 | I | as C54, with deletions in flight |
| C69 | I | registration as a state machine over the server's messages; bouncer and server joined by FIFO queues |
| C70 | I | as C62: numbers and objects of networks, and the clients bound to them |
| C71 | D | the HTTP handler with the URL parser and the pattern matcher; an independent grammar and meaning of patterns |
| C72 | R, I | the handler over any list of later requests; escaping and parsing of the location inverted |
| C73 | D | all answers of the handler; a list of types with scripts that is independent of the list of shown types |
| C74 | D | addresses as in C46; library calls as parameters |
| C75 | I | the messages to each client are read by a small specification of an IRC client; invariant relating its view, the view of a client connected directly and the state of the bouncer, by induction over histories |
| C76 | I | the notifications sent to each client are read as doc/ext/bouncer-networks.md says; invariant relating what a client knows to the networks, by induction over histories; the attributes are specified on their own |
| C77 | I, R | the migrations are a program over a small SQL semantics; answers to queries are compared before and after, by induction over the statements, given facts about the names of tables and columns of each version, which the kernel computes; races by induction over the operations |
| C78 | D | `crypto/tls` by what it promises (the peer holds the key of its first certificate; the chain is verified, or our own function accepts it); the fingerprint the user types is specified as the bytes its digits stand for; addresses by what their text is |
| C79 | I, D | bcrypt as three functions of which only what its documentation says is assumed; a login as its three steps (row read, password checked, row stored) interleaved with the changes of the account by the event loop; the Basic header and the form body are specified by decoding them; PAM and the web servers are arbitrary functions |
| C80 | I, D | the timer, its goroutine and the queue of the user as a transition system; what has happened (nick held, nick wanted, whether it was had, the attempt that waits for its answer) is a fold over the events in `Spec/Regain.lean`; liveness as: from every such state the next tick leads to an attempt |
| C81 | I, R | the tables and their sequences under every sequence of calls; what must be there is a fold over the calls and their results in `Spec/PgMsg.lean`; queries are windows of it, as for SQLite (C35) |
| C82 | I, R | the tables under every sequence of calls; what must be there is a fold over the calls and their results in `Spec/PgDb.lean`; an invariant relates the tables to it |
| C83 | D, I | the loops of the program over any source, on the models of the destination of C82 and C84; the effect of the whole run is stated on what the lists of the destination return |
| C84 | I, R | the tables under every sequence of calls, deletions statement by statement with the foreign keys checked after each; what must be there is a fold over the calls and their results in `Spec/SqDb.lean`; an invariant relates the tables to it, and times are read back by C34 |
| C85 | I, R, D | model the log directory with inodes and the table of open files; invariant: every file holds the lines of its conversation's day and every open file is where its path leads, or its network's name was given up; the listing and the search are compared with the log computed from the operations alone |
| C86 | I, R | model the connection, the clients with their capabilities and the messages sent; a reader for clients and one for the server's messages; invariant: what a client read is what the bouncer noted for it, and that is what the connection has |
| C87 | D | `Model/Listen` models one function from a directive to a listener (over the URL parser of `Model/Url`) and one from the outcome of loading the files to the state of the server. The documented table of schemes is in `Spec/Listen`; the URL is parsed symbolically for every host, port and path of the documented form, the claims about all directives are by cases on the parsed scheme. What a file means is stated field by field, and that it is usable by what it names; `_partial` because a relative path of a Unix socket is not handled as documented (`C87_unix_violated`). |
| C88 | R, D | `Model/Admin` models `HandleAdmin` as a fold over messages, with the service command as a parameter, and sojuctl as a function of the messages it reads; both are composed. Induction over the messages; the words by C38, the path of the socket by C87. `_partial`: an error with a percent sign is shown wrongly (`C88_error_violated`). |
| C89 | R, I | `Model/ZncConf` models the parser on runes, `Spec/ZncConf` gives the format as an inductive relation between what is said and the texts in which it is written. Completeness by induction on the relation, for any continuation; soundness by induction on the number of iterations. Servers are composed with the connection plan of C78. `_partial`: a section that ends without having begun hides the rest of the file (`C89_rest_violated`), IPv6 addresses lose their brackets (`C89_ipv6_violated`). |
| C90 | I, R | `Model/ZncImport` composes the sections of C89 with the SQLite model of C84. The three loops are proved by induction with the relation between records and tables as invariant; `Spec/ZncImport` reads the database by names only. `_partial`: a network without a name loses the name it is known by (`C90_unnamed_violated`); a failed import is not undone (`C90_stops_violated`) and networks on the same server with the same nickname make it fail (`C90_same_server_violated`). |
| C91 | I, R | `Model/MigrateLogs` composes the line reader of C04 with the SQLite message table. Induction over networks, conversations, days and lines; the specification speaks of the entries that were logged, written with the line writer. `_partial`: the conversation is named after its directory, so that `#a/b` is found as `#a-b` (`C91_name_violated`); a second run stores everything again (`C91_twice_violated`); a file that is no log stops it half-way (`C91_stops_violated`). |
| C92 | I | `Model/Folding` keeps the actual tables of C02 for a network, its connection and its clients. Invariant: once the mapping is known all tables have it and are keyed by it; the specification computes what the server has said from the history alone. `_partial`: between the connection and the announcement the tables differ (`C92_unknown_violated`); an announcement before the connection is accepted is lost for the tables of the connection (`C92_early_violated`); a change of the settings makes a client lose a monitored nick (`C92_monitored_violated`). |
| C93 | D, R | The reports as lists of lines; a separate form of each fact and of its line, truth of a fact by the tables of the connection; for `channel status` the lines are a sorted permutation of the true facts, and a line determines its fact; witnesses for a name that is also an address and for the count of `server notice`. |
| C94 | I, D | `Shutdown`, the event loops with their bounded channels, the listeners and the lock as a transition system; invariants from the call of `Shutdown` on, absence of deadlock except in one described situation, a bound on the number of steps; the deadlock and accounts created meanwhile are witnesses against the full claim |
| C95 | D | the handler with the service as a parameter (a function from requests to answers or errors), all requests sent are recorded; case analysis |
| C96 | I, D | the loop over the targets and the goroutine that writes to the server as a transition system with the shared map of tags; invariant over all schedules; the data race, labels used twice and labels shown to clients are witnesses against the full claim |
| C97 | I, F | clients, their goroutines and the memory with shared messages as a transition system; it refines a system without memory as long as no message is changed that someone has yet to get; framing by an invariant of that system; wrong references and the data race with the store in memory are witnesses against the full claim |
| C98 | I, D | decision logic of pushes against a description of the messages; memory of pushed conversations as an invariant over histories; requests against the table of subscriptions; keys over starts and stops |
| C99 | I, D, V | the goroutine of a network as a transition system over attempts, with the registration of `UpReg` inside; traces of attempts and reports; liveness over the histories of `UserLoop` |
| C100 | D, I, V | each operation of `Network` against a description of the settings given, in terms of the values used; frame over histories |
| C101 | R, D | the words of a command are generated from a list of settings, and parsing is proved to give back the settings that count; then the effects on the records. What does not hold is proved in the negative: the name that is shown for a network may mean another one, `-detached` is ignored by `channel create`, and a channel with a slash in its name cannot be meant in an unbound client |
| C102 | D | the listing is compared with the lookup and the checks of rights on the whole table, for arbitrary contexts, orders and abbreviations; the commands of a group by lemmas on the lookup |
| C103 | D, R | the program on the tables of the SQLite model; the effect by the records of C84, which hold for every history of calls; the password by C79 |
| C104 | I | a transition system with the server's messages and the clients' output; invariant: the modes kept, read as a set (C04), are those the server said, and every client that logged in during the connection has heard the same |
| C105 | D, I | the greeting as a function of settings and state; what a client reads in it (by the name of a feature) is compared to a table, and composed with C48 for what the server says before and after |
| C106 | I | the two loops as functions of the list of answers; induction over it |
| C107 | D | UTF-8 is specified by its encoder; the loop of strings.ToValidUTF8, with the table of the decoder, is proved to produce encodings only, by strong induction on the length |
| C108 | I | one channel with its clients as a transition system; what a client knows is a fold over what it was sent, what the server said is a fold over the events; the two agree by induction, with C05 for the reading of one line and of the reply |
| C109 | D | the whole exchange is run symbolically; the lines of the response by induction on its length |
| C110 | I, D | what a client knows is a fold over what it was sent, what the server told a fold over its messages; invariant between the two and what the bouncer keeps |
| C111 | I | `Model/Pump.lean`: the goroutine of each connection (registering, announcing, reading, sending, ending), the channel of events and the loop; for each connection, what was done, what waits and what is unread is what was sent, by induction over the steps |
| C112 | I, D | `Model/Names.lean`: the settings in memory and in the database, and what each server was last told; by induction, in histories without the listed gaps, every server was told what is set; each change of a setting by its effect on any state |
| C113 | R, D | `Model/MsgTime.lean`: the tag a message is shown with, the instant and the tag each store has for it, with Go's `time.Date` for any table of offsets; round trip through each store, for log files by cases on the offsets `Date` tries; witnesses at the end of summer time |
| C114 | I | `Model/Rate.lean`: the goroutine that writes messages, with the token bucket of golang.org/x/time/rate over time in nanoseconds; invariant on the credit of the bucket against the messages since each earlier one, then a count over the sorted times |
| C115 | I | `Model/Stats.lean`: users with their queues of events, the goroutines of client connections and of connections to servers, with the two gauges; invariant that the clients of a user once its queue is handled are those logged in, and that each is added once; then the notice is followed through the queue; witnesses for the two wrong figures |
| C116 | I, R | a transition system of the clients' exchanges and the one with the server; an invariant relates both to what the clients were heard saying, from which the origin of the credentials and of each success follows; a complete login from every idle state by induction over the lines of the response |
| C117 | D, I | one function for the decision and one for the states; each branch is shown to be one of three kinds by case analysis, and the origin of what servers got by induction over the history |
| C118 | I, D | `Replies`: the queue of C17 with the handlers of all lines of replies and the clients; a server that keeps what it has yet to say. Invariant: what a client was sent in answer to a kind of command, with what the server owes it, is the concatenation of the answers to its commands the server got; those, with the ones that wait, are the ones it gave. Witnesses for what goes wrong. |
| C119 | I, D | induction over histories: a client hears exactly what a separate relation over the past calls due; violations: a reply that comes during the greeting, the reason given in ERROR |
| C120 | I, D | invariants over histories of the clock, the queue, the writer and the goroutine that waits for the deadline; that servers are waited for without end, and that what should be said to a slow one is lost, are proved as violations |
| C121 | I, D | invariants over histories of messages, connections and `server debug`; that a message handled after its connection was closed, or said to be for the service, is written to the log in any case, and that messages never sent are counted, are proved as violations |
| C122 | D | sums over grouped lists, for every order; that one user can have a host named, and that a host name that is not UTF-8 crashes the bouncer, are proved as violations |
| C123 | D | invariants of a transition system of the server with reloads; that a reload changes the store of new users, and offers history to clients of old users that is then refused, is proved as violations |
| C124 | I | invariants of a transition system of one conversation with typed receipts; that receipts of another store make the client miss messages is proved as violations |

## Disagreements between the code and the properties

Each is proved as the negation of the property, or of the part of it that fails, on a concrete witness.

<!-- BEGIN violated -->
| theorem | what it says |
|---|---|
| `C07_length_violated` | Two channels whose JOIN line, with its CR LF, is longer than the 512 bytes IRC allows. |
| `C08_monitor_violated` | A MONITOR line naming two targets can exceed, with its CR LF, the 512 bytes IRC allows; and an oversized first target produces a line naming no target at all. |
| `C08_names_violated` | The RPL_NAMREPLY length computation leaves no room for the `:server` prefix, the client's nick and CR LF that are added when the line is sent: the body alone can take 512 bytes. |
| `C100_bouncer_nick_violated` | Is violated for the user `alice` whose nick is `ali`: their client asks for the nick `alice` on a network with BOUNCER CHANGENETWORK (or ADDNETWORK), this succeeds, and the bouncer uses the nick `ali` there. |
| `C100_realname_violated` | SETNAME on a network whose server knows it succeeds, but the realname that is used for the next connection to the network is still the old one. |
| `C101_create_detached_violated` | `channel create` accepts `-detached true`, and creates a channel that is not detached. |
| `C101_name_violated` | The service lists a network without a name under its address, but that name may mean another network, one with the same address: of a network named "bot" and one without a name on the same server, `network delete irc.libera.chat` deletes "bot". |
| `C101_slash_violated` | A channel with a slash in its name cannot be meant in a client that is not bound to a network: what comes after the first slash is taken for the name of the network. |
| `C102_server_violated` | The list is not complete on the administration socket: `server status` can be used there and is not in it. |
| `C103_empty_violated` | On a terminal the empty password is accepted (it is not on the standard input). |
| `C103_flag_violated` | A flag before the name is taken for the name: the account is called `-admin`, and is not an administrator. |
| `C103_name_violated` | An account can be created under a name with which nobody can log in: what follows a slash or an at sign is never taken for a part of the name. |
| `C103_running_violated` | While the server runs, a change of a password is undone by the next thing the server stores about the user, which it does as soon as one of their clients does something: it writes the record it has in memory, with the old password (user.go:1192-1204, 1334-1342). |
| `C104_operator_violated` | An administrator who connects to the bouncer is told that they are an operator, and when they ask that they are none. |
| `C104_reconnect_violated` | A client connected before the bouncer lost its server and connected again is not told that the modes are gone. |
| `C104_sign_violated` | RPL_UMODEIS without a sign is taken to say that there are no modes, and the clients do not hear of it. |
| `C105_addressed_violated` | Those are sent to `*`, as if the client had no name. |
| `C105_reconnect_violated` | A client that stays while the bouncer connects to the server again goes on believing in features the server no longer has: this one has been told of no feature on the new connection. |
| `C107_line_violated` | A frame should hold one message. One with a line break in it is taken as a message whose text has the line break in it, and passed on to a server, or to a client on a plain connection, it is two lines: the second is a message of its own. |
| `C108_detached_violated` | A client that asks for the modes of a detached channel before the server has listed them never gets an answer, although the server answers the bouncer. |
| `C108_relisted_violated` | When the server lists other modes than it has said, the clients are not told: the bouncer keeps the new list for itself, and those who do not ask again go on with the old one. |
| `C10_whox_wire_violated` | A client that requests the token field without giving a token gets a line with an empty parameter in the middle, from which it reads its own nick as the token. |
| `C110_clock_violated` | The clock of the bouncer is used for the time of a topic, not the time the server gives (a TODO in the code): a client that hears of the change and one that comes later do not agree on when it was made. |
| `C110_time_violated` | If the server gives a time that is not a number, the author is kept all the same: a client that asks is told that the topic was set in the year one. |
| `C111_lost_violated` | Fails in full: a message that was received, from a connection nothing had closed when it was read, is not handled when the other side leaves right after it: the goroutine of the connection closes it before the loop gets to the message. |
| `C112_failed_violated` | A client's SETNAME fails, as the setting cannot be stored, but the server has been told. |
| `C112_follows_violated` | Without a real name that is set, the nick is used; when the nick changes, the server is told the nick but not the real name. |
| `C112_registering_violated` | The nick changes while a connection is registering: the server is never told. |
| `C112_setname_lost_violated` | A client changes the real name over SETNAME of the server, and then the nick: the real name that was set is lost. |
| `C112_setname_violated` | A client changes the real name over SETNAME of the server; once the bouncer has connected again, the server is told the old one. |
| `C113_skipped_violated` | Is violated at the end of summer time in a second way: of two messages in the same log file, shown as of 00:30 and 01:10, neither is found when the messages before 01:20 are asked for. The search stops at the first one, whose line it takes for one of 01:30. |
| `C113_summer_violated` | Is violated at the end of summer time: with log files, a message of the hour that comes twice is shown with its time when it arrives, and comes from the history as one that was said an hour later. |
| `C113_zero_violated` | Is violated with SQLite: a message that the server dates to the first instant of the year 1 is shown to the clients and not kept. |
| `C115_connections_violated` | It says that it counts connections of clients, but counts users: a notice no client can see was, it says, sent to one connection of one; and one that three clients get as well. |
| `C115_upstreams_violated` | A network whose server cannot be reached counts as a connection to a server. |
| `C116_again_violated` | A client that is told to try again (263) and tries again is told that it failed: its `AUTHENTICATE PLAIN` is taken for a part of the first response. |
| `C116_already_violated` | A server that does not let users log in twice says so with 907. The bouncer does not take this for the end of the exchange: from then on nobody can log in through this connection, whoever tries is told that it failed, and nothing is sent to the server. |
| `C116_fail_violated` | The same happens when the server refuses AUTHENTICATE with the standard reply FAIL. |
| `C116_identity_violated` | A client that gives an identity different from its name (`i`, NUL, `u`, NUL, `p`) is told that this failed; when it then tries to log in it is told again that it failed. |
| `C116_lost_violated` | The connection is lost while a client is asked for its response, and the client is told that it failed; when the network can be logged in to again and the client tries again it is told again that it failed. |
| `C116_own_violated` | The server withdraws `sasl` and offers it again while a client logs in. The bouncer then logs in as its settings say, and the client is told that it has logged in, although the server was never given what the client said. |
| `C117_addressed_violated` | The numerics with which the bouncer refuses a command, or ends a list, need not name the client they are for, as numerics do: in its place there is a star. |
| `C117_quit_violated` | What a client sends after QUIT is still carried out: a KICK reaches the server. |
| `C117_whois_violated` | WHOIS may name several nicks, but if the first one is that of the service the others are not asked for: nothing is sent to the server, and the client is told nothing of them. |
| `C118_away_violated` | That somebody is away (301), or a bot (335), is part of the reply to WHOIS. Without labels every client is sent it. |
| `C118_gone_violated` | Without labels, what the server says to the command of a client that has gone is sent to all others, if it is a refusal. |
| `C118_nobody_violated` | Most servers end the reply to WHOIS when there is nobody of the name, too. That end is taken for the end of the next reply, of another client, even if it has the label of the first one: the other client gets the end of a reply it did not ask for, and its own reply is dropped. The client that asked does not get the end. |
| `C118_register_violated` | An answer to REGISTER without the name of the account is not passed on: the client that asked is told nothing. |
| `C118_server_violated` | WHOIS for somebody by a server that does not exist is answered with the name of the server. Without labels all clients are sent it, and no other WHOIS gets to the server: here that of the second client. |
| `C118_who_violated` | A line of the reply to WHO with the distance, but no real name after it, is not passed on. |
| `C119_error_violated` | *violated*: why the server closes the connection is not told to anybody. |
| `C119_greeting_violated` | *violated*: a client that asks for the message of the day while the server still greets gets no answer: the lines of the reply, although labelled with the client, are taken for the greeting. |
| `C120_silent_violated` | Violated** A server that accepts the connection and says nothing is waited for without end: at any time the bouncer may still be waiting for it, though the code means to give it a minute. |
| `C120_slow_violated` | Violated** When a server lets the bouncer in more than a minute after the connection was begun, the saved channels may be left unjoined and the connect commands unsent, whatever they are, and the connection is used all the same. |
| `C121_out_violated` | Is violated for the number of messages sent to clients: a message for a client that has hung up is counted, and never sent. |
| `C121_quiet_violated` | Is violated: debugging is never on, and the password a user sends to a service of the network is written to the log, because the client hung up before the message was handled. |
| `C121_skipped_violated` | Is violated: debugging is never on, and what somebody on the network sends to a user whose nick there is that of the service is written to the log. |
| `C122_crash_violated` | Is violated: one user who is no administrator has ten networks whose host name is not UTF-8 when it is decoded, each of which is accepted, and the bouncer crashes when the numbers are to be published. |
| `C122_private_violated` | Is violated if it is to hide what few users do: one user who is no administrator has ten networks on a host of their own, each of which is accepted, and the host is published. |
| `C123_offered_violated` | Is violated: after a reload a client can be offered the history of a user whose store does not answer requests for it. The client that accepts the offer gets an error, is sent no backlog, and so misses the message that was kept for it. |
| `C123_reload_violated` | Is violated: the manual says that the message store cannot be reloaded, but after a reload the messages of new users go to another place than those of the others, and than the bouncer was started with. |
| `C124_memory_violated` | Is violated: with the memory store, a client that comes back after a restart is not sent what was said after the restart, though it is in memory: receipts are not saved. |
| `C124_return_violated` | Is violated: after a visit to another store on disk, the messages said before it in the first one are not sent any more, though the first one is used again: the receipt has been replaced. |
| `C124_switch_violated` | Is violated: after a change from log files to the database (or back) a client that comes back is not sent what was said since, though it is in the store: its receipt is one of the old store, which the new one refuses. |
| `C12_last_id_violated` | The "current position" ID of a target that already has messages is one too far: the next message appended is not among the messages after it. |
| `C13_gap_violated` | History older than 100 days without message is never found, although it is within the bounds and the limit is not reached. |
| `C13_midnight_violated` | A message logged exactly at midnight is not returned by a forward search that starts on an earlier day, although it is within the bounds. |
| `C14_collision_violated` | Two different network names (a network without a name is named after its address, which may contain slashes) share the directory. |
| `C14_empty_name_violated` | An empty target name collapses a level, so the log file lies directly in the network's directory. |
| `C15_action_violated` | An action without text gains a space, and a lower-case one changes case. |
| `C15_dm_target_violated` | The log of a direct conversation is kept under the case-folded nick of the peer (upstream.go:2150), so a message from `Alice` (log `alice`) reads back as addressed to `alice` instead of to the user. |
| `C15_mode_violated` | A mode change whose last parameter contains a space reads back as two. |
| `C17_stale_violated` | Fails once a query has been unanswered for over 30 seconds: the next query of that kind is queued twice, is not sent, and nor is any query of that kind that any client issues later (until the server answers the first one after all, or the connection is closed). |
| `C18_foreign_label_violated` | Is not exact the other way: a label the bouncer never attached, with text after the second number, is taken as client 7's. |
| `C19_unlabelled_echo_violated` | Fails if the server echoes messages but does not support message tags (so that no label comes back): a client that did not enable echo-message gets its own message. |
| `C20_service_host_violated` | A message to the services bot given with its server is logged, password included. |
| `C20_status_prefix_violated` | A client's own message to the operators of a channel is logged under the prefixed name, whereas the same message from somebody else is logged under the channel. |
| `C21_crash_violated` | The full claim fails over a crash: the receipt made for an absent client at the first message of a new target is only in memory, so that after a crash that message is never replayed to it. |
| `C21_limit_violated` | Messages beyond the limit are skipped for good. |
| `C21_new_client_violated` | The full claim fails: a client that has been connected but has acknowledged nothing on an existing target, because nothing was said there, misses what is said there after it has left. |
| `C21_update_replay_violated` | After such a change, a restart that is not a crash makes a client see again what it has acknowledged. |
| `C21_update_violated` | The full claim fails when the settings of the network are changed: the receipts are lost, and what is said while the client is away is never replayed to it. |
| `C22_attach_crash_violated` | The code does not always manage to attach: while the list of members of the channel is still being received, a message that brings the channel back, or a client's JOIN, makes the user's goroutine panic. |
| `C23_empty_violated` | A client that comes back with an empty text, as servers allow, is taken as away: with auto-away its user, who has said to be present, is away on the network. |
| `C24_desired_nick_violated` | The full claim fails for the user's desired nick: each update of the list drops it again when no client monitors it, so that it is monitored only every other time. |
| `C24_race_violated` | It also fails when the server's report is still on its way: a nick removed by the last client that monitors it is recorded again when the report arrives, and a client that adds it then gets nothing sent to the server, although the server does not monitor the nick any more. |
| `C24_unknown_violated` | Violated: a client that asks for the status of a nick the server has not reported on yet (because the nick was just added, or the connection to the server is new) is told that it is offline. |
| `C25_contradictory_req_violated` | A request naming a capability both ways is judged against the state before it and acknowledged, but not applied in order: after "foo -foo" the capability is enabled. |
| `C25_version_overflow_violated` | A version number out of range is refused as an error but recorded, so that the client counts as one of version 302 or later although cap-notify was not enabled for it. |
| `C28_disabled_admin_violated` | An administrator whose account has been disabled can still register as anybody else. |
| `C30_lookup_violated` | Fails in general: a network may be named like the address of another one, and then its name finds the other one. |
| `C30_reserved_violated` | The name "*" is reserved (service.go:546), but the BOUNCER commands accept it; a client cannot log in for such a network by its name. |
| `C35_resume_violated` | Fails as stated: the last message is looked up by time, so when the message that arrived last has an earlier time than one before it (or, at the database's choice, the same time), a client that has received everything is sent that message again. |
| `C38_sojuctl_violated` | A tab in a word given to sojuctl arrives as the letter t. |
| `C38_words_violated` | A word that ends in an escaped space is lost, or glued to the next one. |
| `C44_oversize_violated` | It fails for bodies whose length is not announced: the first 50 MiB stay in the directory. |
| `C45_same_port_violated` | It fails with several local addresses: the second connection takes the place of the first, which has the same local port on another address. The server is then told the wrong user. |
| `C48_negation_violated` | Negating a token does not restore the default. |
| `C48_relayed_violated` | A token with an escape sequence is escaped a second time: the clients see another value. |
| `C49_channel_status_violated` | An empty channel status (an RPL_NAMREPLY with an empty parameter) crashes instead of being refused. |
| `C50_context_violated` | The two other ways the verdict differs from the statement. |
| `C51_abort_violated` | A client that aborts an exchange and begins another one before the server has answered the first makes the bouncer panic when the server accepts it. |
| `C55_broadcast_violated` | An administrator sends a message to all users of the bouncer while their own channel is full (their clients have sent 64 other messages): their loop waits for a place in its own channel, with the lock of the table of users held. Whatever happens afterwards it waits forever, and nobody gets the lock any more. |
| `C55_deleted_violated` | A `user delete` is not answered in time, and its author then updates the account: the loop of the account ends before it handles the update, and the loop of the author waits for the answer forever. |
| `C55_mutual_update_violated` | Two administrators update each other's account at the same time: each loop has sent its event to the other one and waits for the answer, which the other one would only give after its own wait. There is no deadline (service.go:1129): whatever happens afterwards, both loops wait forever. |
| `C55_own_deletion_violated` | A user deletes their own account: the loop waits for its own end, forever. |
| `C55_run_violated` | An administrator runs a command that prints a line for another user, and gives up because the loop of that user is busy for longer than the deadline. The loop then executes the command, and since nobody reads its messages any more it is stuck in sending the second one (user.go:871-874: its context never ends): the loop of that user never handles another event. |
| `C56_chghost_violated` | Does not hold of CHGHOST: the server says that the host of a member of our channel changed, and the cache goes on giving the old one. |
| `C56_offline_violated` | Does not hold of monitored users: someone we monitor goes offline and someone else comes online under the nick; the cache gives the information of the first. |
| `C57_refresh_violated` | Does not hold beside a running broadcast: a subscription refreshed while a broadcast finds it expired is acknowledged and not there. |
| `C57_reused_violated` | Does not hold beside a running broadcast: row identifiers are reused, so a broadcast that finds an old endpoint expired removes the subscription registered since, which is in good health. |
| `C57_subcommand_violated` | Violated: "It has a case-insensitive subcommand" (doc/ext/webpush.md), but only upper case is understood. |
| `C58_detach_violated` | `PART name :detach` saves a channel the user never joined, even one whose name no channel can have, and the bouncer asks for it when it reconnects. |
| `C58_late_violated` | A timer of a connection that is handled after the settings of the network were changed stores the record the channel had before: the key the user has given since is lost, and after a restart the channel is detached, of which the clients are told nothing. |
| `C58_mapping_violated` | Between the moment the server accepts the connection and the moment it announces its case mapping, `#a{` is taken for another channel than `#a[`; both are saved, and which key is kept depends on the order of a Go map. Leaving the channel then removes only one of them from the table, and the channel is joined again after a restart. |
| `C59_channel_create_violated` | `channel create #d` reports an error if the database does not work; the channel exists in memory all the same. |
| `C59_channel_update_violated` | `channel update #c -relay-detached none -detach-on bogus`, in a client of network 1, reports an error: "bogus" is not a filter. The first setting has been changed in memory all the same, and the database still has the old one. |
| `C59_sasl_violated` | `sasl set-plain bob secret` reports an error if the database does not work; the credentials are in use all the same. |
| `C59_user_update_violated` | Somebody who is no longer an administrator but has a `unix` network asks for another real name. An error is reported, because such a network is reserved to administrators; the real name has been changed in both copies all the same. |
| `C60_race_violated` | A client that logs in after the scan and before its event is handled is thrown out again: the account is disabled with a client connected and seen this very moment. |
| `C60_restart_violated` | The time of the last activity is stored when a client connects and disconnects, but not when the bouncer stops. A client that has been connected for longer than the delay when the bouncer is restarted has its account disabled although it was seen, and connected, a moment before. |
| `C61_kick_timer_violated` | The full claim fails: the timer of a channel we have been kicked from keeps running. Here the channel is detached 1 unit after being joined again and spoken in, with `detach-after` 10. |
| `C61_stale_event_violated` | It also fails because a timer that has just fired cannot be stopped: a message processed before the timer's event does not prevent the detachment. |
| `C62_message_violated` | Is violated: a client is turned away because the account is disabled, then sends a command that reads the account, such as `NICK bob`, and the event loop of the account panics. |
| `C62_socket_violated` | Is violated: an administrator has a network with a local socket; they lose their rights, then their account is disabled. The update fails at that network and so the network stays connected, without being stopped, and the client stays connected too, although the account is stored as disabled. |
| `C65_empty_source_violated` | Does not hold of a message whose source has an empty nick (`:!u@h JOIN #c`): it crashes the event loop of the user in any state. |
| `C65_who_violated` | Does not hold of a server that gives someone the nick `#c`: a WHO for it crashes the event loop of the user. |
| `C66_internal_violated` | Does not hold of the unspecified address and of link-local addresses: a client can have the bouncer connect to the machine itself (0.0.0.0) or to the metadata service of its cloud. |
| `C67_failed_login_violated` | Is violated: a client asks for a network that does not exist and is told that this has failed, but its connection stays open outside the list of clients. The password is changed and the account is disabled, and the client can still create a network. |
| `C67_pending_violated` | Is violated: a client authenticates, the password is changed before the loop handles the client, which is then let in with the old password. |
| `C68_sqlite_violated` | Is violated with SQLite: two administrators confirm the deletion of `bob` at the same time; the first deletion is executed, `bob` is created again and gets the row of the old account; then the second deletion is executed and deletes the new account, whose event loop runs. |
| `C69_agree_violated` | If the server adds a capability and withdraws it while a request is under way, the bouncer asks twice for another capability; the refusal of the second request makes it treat that capability as disabled, although the server has enabled it. |
| `C69_echo_violated` | The server offers `labeled-response` without `echo-message`: the bouncer requests both. A request with a capability that is not on offer is to be refused as a whole, so that none is enabled. |
| `C69_lines_violated` | A server that addresses the bouncer by its nick, and lists its capabilities on two lines with `sasl` on the second one: the negotiation is ended after the first one, without login. |
| `C69_refused_violated` | The server grants `sasl` and then refuses the login, for instance because it is busy. The bouncer does not go on without login: unless the server lists its capabilities again, the negotiation does not end. |
| `C69_stalled_violated` | The server offers SASL PLAIN and `labeled-response` but not `echo-message`. It refuses the request of the bouncer, which contains a capability that is not on offer. Whatever else it says, unless it lists its capabilities again or ends a login that was never started, the bouncer does not end the negotiation, and so is never registered. |
| `C69_withdrawn_violated` | A capability withdrawn with a capital letter is requested all the same. |
| `C72_colon_violated` | The code does not give back the file of a user whose name contains a colon, which soju allows: the location of the file of `a:b` is outside of `/uploads/`, and the upload of `1:b` is answered with an error although the file was stored. |
| `C75_attach_violated` | Does not hold of a saved detached channel that the bouncer could not join: a JOIN from a client attaches it and tells every client that it joined (user.go:354-387). |
| `C75_detach_violated` | A detach that also saves the channel (downstream.go:2003-2015) is not announced: the clients stay in a channel whose messages no longer reach them. |
| `C75_login_violated` | Does not hold of a client that logs in after the JOIN of the bouncer and before the end of the list of members: the burst leaves the channel out (downstream.go:1583-1585), and the 366 makes the bouncer send the topic and the members, but no JOIN (upstream.go:1516-1522). |
| `C75_offline_nick_violated` | Without a connection a NICK from one client renames that client alone (downstream.go:1836-1841): the clients of the network then have different nicks. |
| `C75_part_violated` | Does not hold after a PART of a detached channel: it deletes the saved channel, and until the server confirms the PART the channel counts as attached although the clients are not in it. |
| `C75_reconnect_violated` | Does not hold across a reconnection: nothing tells the clients that the channels are gone (user.go:895-931 sends neither PART nor KICK), so a client stays in a channel that the bouncer is no longer in, for good if the JOIN of the bouncer is refused. |
| `C76_late_violated` | Disagreement ("MUST send an initial batch"): a client that enables the capability once it is registered is not told which networks there are. |
| `C76_nick_violated` | Disagreement with doc/ext/bouncer-networks.md ("MUST broadcast a BOUNCER NETWORK message with the updated attributes"): when a client changes its nick on a network, clients that asked for notifications are not told. |
| `C76_removed_violated` | Disagreement: an attribute that an update removes is not announced as removed ("An attribute without a value means that the attribute has been removed"): here the port and the user name remain. |
| `C76_stale_error_violated` | Disagreement: likewise for an error. |
| `C76_stale_state_violated` | Disagreement: the goroutine of a network that an update replaced may still report that it connected; the clients are then told that the new network is connected, and not that it isn't when that connection is closed. |
| `C77_channels_violated` | Sqlite.go:132-161: a database of version 13 with a channel cannot be upgraded: the table of the networks is dropped with foreign keys enforced, while channels refer to it. |
| `C77_subscription_violated` | Sqlite.go:191-194: a subscription to push notifications that is not for a network belongs to no user after the upgrade from version 16, so that it is never used again, although the column cannot be empty in a new database. |
| `C78_pin_violated` | Upstream.go:293-307: every certificate the server presents is compared with the fingerprint, not only the one whose key it has to hold. Whoever is in between can present a certificate of their own followed by that of the server, which is public, and is accepted. |
| `C79_http_violated` | Auth/http.go:33: a user name with a colon is sent as it is. Whoever the server knows as `a` with a password `b:p` is accepted as the user `a:b`, whom the server may not know at all. |
| `C79_race_violated` | Auth/internal.go:18-36: a login with a hash of an older kind stores the whole row it has read. Whatever has been changed since is undone: a new password no longer works and the old one does, and an account that was disabled, or whose administrator was demoted, is as before. |
| `C79_undone_violated` | The loop of the user goes on with the record it has loaded, so that the next time it stores it, which it does as soon as the client is connected (user.go:1334-1342), the hash is the older one again. |
| `C80_dropped_violated` | Disagreement: if the queue of the user is full for a moment when the clock ticks, the bouncer never tries again during this connection. |
| `C80_later_violated` | Disagreement: a nick that the user wants later, and that is taken then, is never tried again. |
| `C80_refused_violated` | Disagreement ("periodically try to regain our desired nick", upstream.go:1039): if the server refuses one attempt for another reason than that the nick is in use, say because it is temporarily unavailable, the bouncer never tries again during this connection. |
| `C80_swallowed_violated` | From then on, when a client itself asks for the nick and is refused, the client is not told. |
| `C81_bytes_violated` | Fails as stated: a message the database does not accept — with the usual encoding, one that is not well-formed UTF-8, which the bouncer relays all the same — is not stored: the history lacks it. |
| `C81_resume_violated` | Fails as stated: the last message is looked up by time, so when the message that arrived last has an earlier time than one before it, a client that has received everything is sent that message again. |
| `C82_stored_violated` | Is violated for records that are gone: storing a network that was deleted meanwhile succeeds, and nothing is stored. |
| `C83_migrated_violated` | Is violated when identifiers have gaps: after a migration without any error, bob, who had no network, has the network of ana, with its password, and ana has none. |
| `C83_named_violated` | Is violated for databases whose source has a colon, such as `postgres://soju@db/soju` or `C:/soju.db`, which the configuration file takes: the program refuses them. |
| `C83_reads_violated` | Is violated for read receipts, even if identifiers have no gaps: they are not copied. |
| `C83_sqlite_violated` | Is violated when identifiers have gaps, with SQLite as well: after a migration without any error from an SQLite database to another, bob, who had no network, has the network of eve, with its password. |
| `C83_subs_violated` | Is violated for push subscriptions that are for no network: they are not copied. |
| `C84_ids_violated` | Is violated for identifiers: one is given again after the record that had it was deleted. |
| `C84_other_user_violated` | Is violated for users: storing the settings of a user that was deleted meanwhile overwrites those of another user, whose identifier differs and who got the name. |
| `C84_stored_violated` | Is violated for records that are gone: storing a network that was deleted meanwhile succeeds, and nothing is stored. |
| `C85_event_violated` | A conversation in which nothing but an event (say, a join) was logged is listed although it has no message, to a client that did not ask for events. |
| `C85_left_behind_violated` | Logs stay when a network is deleted. If a network is then renamed to the name of the deleted one, the rename of the logs fails, which is only written to the bouncer's own log: the network is shown the logs of the deleted one instead of its own. |
| `C85_order_violated` | Newest first, the comparison given to the sorting function says of two conversations of the same second that each comes before the other, which the function's documentation forbids. |
| `C85_reuse_violated` | A network is renamed from `libera` to `chat`, and another one is renamed to `libera` (or created with this name). The next message of `#soju` on the latter is written to the file of the former. |
| `C86_account_violated` | A client that enables sasl again when the network is back (it was disabled when the connection was lost) is not told that it is logged in to another account, or to none, now. |
| `C86_realname_violated` | A client that enables setname after having logged in is not told its real name. |
| `C86_setname_violated` | While the network is not connected, a client that asks for the real name it was told last is answered that it has it, although the setting is another one and stays so. |
| `C87_unix_violated` | With a relative path the socket is made in one place and the permissions are set in another, or the first part of the path is dropped. |
| `C88_error_violated` | An error is used as a format: what it says about percent signs is shown wrongly. |
| `C89_ipv6_violated` | Is violated for IPv6 addresses: they are written into the URL without brackets, so the bouncer later takes the port for a part of the address. |
| `C89_rest_violated` | Is violated for the end of a section that was not begun: the rest of the file, here a user, is silently ignored. |
| `C90_same_server_violated` | Two networks of a user on the same server with the same nickname, which ZNC allows, are not both imported. |
| `C90_stops_violated` | An import that ends with an error has changed the database: the first of two sections about the same new user has been stored, the second is refused. |
| `C90_unnamed_violated` | A network of the database without a name, which is known by its address, gets another address if the file has a network with this name: after the import there is no network with the name of the section. |
| `C91_name_violated` | Does not hold for a conversation whose name cannot be the name of a directory: what was logged in `#a/b` is afterwards in `#a-b`. |
| `C91_stops_violated` | Migrate-logs stops at a file that is no log of a day, after it has stored a part of the history; the rest is not stored, and to run it again stores this part twice. |
| `C91_twice_violated` | A second run stores everything again. |
| `C92_early_violated` | A server that announces its mapping before it accepts the connection is never understood: the tables of the connection keep the mapping of RFC 1459, two channels are taken for one and the members of the first are forgotten, also after the end of the greeting. |
| `C92_monitored_violated` | On a server with the mapping `ascii`, a client that monitors both `bob[` and `bob{` loses one of them when the settings of the network are changed: until the server has announced its mapping on the new connection they are taken for the same. |
| `C92_unknown_violated` | While the server is connected again and has not announced its mapping yet, two tables of the connection compare names differently: `#a{` and `#a[` are one channel, but `bob{` and `bob[` are two of its members. |
| `C93_channels_violated` | Does not hold for a client of a network whose name is the address of another network: `channel status` lists the channels of the other, although the names of all networks are distinct. |
| `C93_notice_violated` | Does not hold for the answer to `server notice`: it counts users and says that it counts connections. |
| `C94_deadlock_violated` | `Shutdown` may wait forever. The loop of a user waits for the lock, which `Shutdown` has; clients have filled the channel of the user; `Shutdown` waits for a place in the channel. The database is never closed. |
| `C94_late_account_violated` | An account that is created while the bouncer stops, for a client that has connected before, is not stopped: `Shutdown` waits for its goroutine forever, although nobody has anything to do; or the database is closed while the goroutine runs. |
| `C96_label_leak_violated` | Nor this one: the label is still in the map when it is copied for the clients and the log. |
| `C96_labels_violated` | Nor this one: if the first message is written late, it carries the label of the second. |
| `C96_race_violated` | The code does not have this property: the messages to the targets of one command share a map, and the label for the second target is written to it while the message to the first is being written to the server. The Go runtime ends the program when it notices this. |
| `C97_memory_violated` | Violated with the store in memory: a message is on its way to the first client when the second one connects and is sent the messages it missed. The first client gets the message with a reference to a batch it knows nothing of; so does a client that has not asked for batches. |
| `C97_race_violated` | Violated with the store in memory: two clients are sent the same messages at the same time. The goroutine of the first one is reading the tags of a message while the user goroutine writes to them for the second one: the Go runtime stops the whole bouncer when it sees this. |
| `C98_forgotten_violated` | Violated: when the settings of the network are changed, or the bouncer restarts, or the user leaves the channel, between the push message and the read marker, the marker is not pushed. |
| `C98_order_violated` | Violated: when the server sends an older message after a newer one, the read marker that covers the newer one may not be pushed. |
| `C98_two_violated` | Violated: when two bouncers are started at once on a new database (for example by a supervisor that starts a second one before the first has stopped), each sees no keys and makes its own; from then on neither starts again. |
| `C98_unsaved_violated` | Violated: a mention in a channel that is not saved, such as one the server made the user join, is not pushed. |
| `C99_fallback_violated` | Its nick is in use, and the nick with an underscore, which nobody has asked for, is not allowed: the bouncer gives up for good, although the server has never objected to the settings of the network. |
| `C99_hammering_violated` | Is violated for servers that accept the bouncer and then close the connection: it comes back at once, any number of times without any time passing. |
| `C99_overlap_violated` | When a network is updated, the new connection does not wait for the end of the old one: the bouncer can be registered with the server twice at the same time (so that its nick is in use, by itself). |
| `C99_reenabled_violated` | Is violated if the database fails while a disabled account is enabled again: the account is stored as enabled, its network too, but nothing connects it. |
<!-- END violated -->

Smaller observations made while modelling, without a theorem of their own: `message-store memory ""` is accepted by
the configuration; a user name with `..` or `:` is used unchecked in upload paths and URLs; a client that fails the
identity check of AUTHENTICATE stays in its exchange; a disabled account can still upload files.

## What partial theorems leave out

<!-- BEGIN partial -->
| theorem | what it says |
|---|---|
| `C07_length_partial` | Every line names at least one channel and, unless it names a single channel, is at most 512 bytes long *without* its CR LF. Missing: the IRC limit is 512 bytes including CR LF, which the code does not reach — see `C07_length_violated`. |
| `C100_bouncer_add_partial` | BOUNCER ADDNETWORK adds one network, with the attributes given and the nick of the client, unless another is given. Partial: for the nick, see `C100_bouncer_nick_violated`. |
| `C100_bouncer_change_partial` | BOUNCER CHANGENETWORK changes the network with the identifier given, and only in the attributes given. Partial: for the nick, see `C100_bouncer_nick_violated`. |
| `C100_realname_partial` | SETNAME changes the realname that is used on the network, and nothing else: the nick that is used stays. Only if the server cannot be told of it: otherwise the realname is stored, but not used (C100_realname_violated). |
| `C101_channel_create_partial` | `channel create` adds one channel, with the settings given. Partial: the channel is not detached, whatever is asked for, see `C101_create_detached_violated`. |
| `C101_meant_partial` | When no other network has the name that is shown for a network as its address, that name means the network. |
| `C102_list_partial` | `help` prints a list of commands, each once, by their full names. Every line of it can be given to the service as it is printed, and runs a command; and every command that can be used is in it, except, where there is no user (on the administration socket), those of the group `server`. |
| `C104_known_partial` | A client of the network that has logged in knows the modes of the user for as long as the connection with the server lasts: what it was told adds up to what the server has said. Missing: after the bouncer has connected again (`C104_reconnect_violated`), mode strings no server sends. |
| `C105_addressed_partial` | Every message of the greeting names the client it is for, except for those about the features and the message of the day. |
| `C105_known_partial` | A client that logs in while the network is connected knows, for every feature of the server it may know, what the server said last on this connection, before or after. Missing: negated tokens and escape sequences (C48), and a server that the bouncer has connected to again (`C105_reconnect_violated`). |
| `C10_whox_wire_partial` | On the wire: if no requested field but possibly the last is empty, contains a space or starts with a colon (a host name may), then what a client splits from the line is exactly what was put in it, so that the whole exchange through the text of the line is lossless. |
| `C112_told_partial` | In a history without the gaps shown below, the server of each network has been told the nick and the real name that are set. |
| `C113_history_partial` | A message comes from the history with the time it was shown with when it arrived, and it is selected and sorted by this time. Partial: with log files the clocks must show its local time only once (`C113_summer_violated`), and a database does not keep a message of the first instant of the year 1 (`C113_zero_violated`). |
| `C115_figures_partial` | `server status` tells how many users there are, and how many connections of clients are open. For servers only a bound holds: it counts the attempts to connect as well. |
| `C116_over_partial` | In part: when a client is told with one of the numerics of SASL (902 to 906) that its exchange is over, then it is: if it may, it can start another, and is asked for its response. Missing: a client that is told so because the network cannot be logged in to (`C116_lost_violated`), one that has given a different identity (`C116_identity_violated`), and other messages of the server (`C116_again_violated`, `C116_already_violated`). |
| `C120_said_partial` | A server that lets the bouncer in within a minute is sent all it should be, in order: the saved channels are joined, and the connect commands are sent. The full property is that this is so however long the server takes; it is violated (`C120_slow_violated`). |
| `C121_out_partial` | The numbers of messages sent to clients and to servers are not less than those of the messages they were sent or will be sent. Missing: equality, see `C121_out_violated`. |
| `C121_quiet_partial` | If debugging was never on, nothing that was sent is in the log, and a message that was received is only there if it could not be handled, if a server said it was from or for the service, or if its connection was closed before it was handled. Missing: the latter two (`C121_quiet_violated`, `C121_skipped_violated`). |
| `C122_survives_partial` | The numbers are published if the host names that may be named are well-formed. Missing: other host names, for which the bouncer crashes (`C122_crash_violated`). |
| `C123_offered_partial` | A client is offered the history exactly if its requests are answered from the store of its user; and the history of a client that does not take it in this way is sent as a backlog. Missing: histories in which the configuration is reloaded with another message store (`C123_offered_violated`). |
| `C123_place_partial` | Messages are kept where the configuration said when the bouncer was started, in all histories. Missing: histories in which the configuration is reloaded with another message store (`C123_reload_violated`). |
| `C123_reach_partial` | No client is left without history, as long as the message store is not changed: a client gets it with the requests it has enabled, or it is sent the backlog. |
| `C124_lossless_partial` | Once a client has a receipt in a store that is kept on disk, it gets all messages said since in that store when it is connected, however often the bouncer is restarted, even if it was run with the memory store in between. Missing: that it is run with another store on disk, or always with the memory store (`C124_switch_violated`, `C124_return_violated`, `C124_memory_violated`). |
| `C12_last_id_partial` | The "current position" ID of a target that has had no message yet denotes the beginning of its log. Missing: the same for a target that already has messages, which is false — see `C12_last_id_violated`. |
| `C13_after_window_partial` | When the bounds are less than 100 days apart and no message was logged exactly at a midnight after the start, asking for the messages after an instant returns exactly the first `limit` matching messages between the bounds. Missing: messages logged at midnight — see `C13_midnight_violated` — and gaps of 100 days. |
| `C13_before_window_partial` | When the bounds are less than 100 days apart, asking for the messages before an instant returns exactly the last `limit` matching messages between the bounds, in chronological order. |
| `C14_inside_partial` | For every root directory, every non-empty user, network and target name and every date, the log file is `root/user/network/target/date.log`: resolving its path component by component leads, from the root directory, through exactly one directory entry per name. In particular no name can make the path leave the root. |
| `C17_answered_or_aborted_partial` | At the moment the upstream connection goes down, each query of a client that stayed connected has been answered, or is aborted now, exactly once. |
| `C17_one_in_flight_partial` | Queries of each kind are sent in the order they were issued, never two at the same time, and the end of a reply completes the oldest one. `inflight` and `waiting` are what remains of the queue. Partial: it needs `Timely`, the server answering each query within 30 seconds; see `C17_stale_violated` for what happens otherwise. |
| `C19_echo_partial` | Whether or not the server echoes messages, a message a client sends to a target reaches each other client of that network exactly once, the sender exactly once if it enabled echo-message and not at all otherwise, and no client of another network. Partial: if the server echoes messages, it must also support labels and message tags (see `C19_unlabelled_echo_violated`), and the target must not start with a status prefix of the network. |
| `C20_sent_logged_partial` | A message sent by a client to a server that does not echo messages is logged under the target as the client gave it, folded. Partial: that is not the channel if the client added a status prefix, see `C20_status_prefix_violated`. |
| `C21_lossless_crash_partial` | The same holds over any number of crashes, from the receipt the client had when it last disconnected: what it acknowledged after that may be sent again, nothing is lost. |
| `C21_lossless_partial` | Once a client has a receipt for a target, then after any history of messages, acknowledgements, disconnections, reconnections and clean restarts, if it is connected it has seen every message from that receipt on, as long as it never came back with more than `limit` messages to catch up on and the settings of the network were not changed (`C21_update_violated`). |
| `C23_command_partial` | An AWAY command makes the client away or present as it says, and the reply says which, unless its text is empty. |
| `C24_merged_partial` | After any sequence of MONITOR commands, connections and disconnections of any number of clients and new connections to the server, the server monitors exactly the nicks some client monitors, or as many of them as it allows. |
| `C25_client_knows_partial` | A client that spoke version 302 or later, and never asks for a capability both ways in one request, always knows exactly what is enabled: following the ACK and DEL messages it receives gives the set of enabled capabilities, cap-notify among them, whatever upstreams do. |
| `C28_admin_partial` | A connection registered as `u` on the strength of somebody else's credentials is marked as such, and that somebody was an administrator when the credentials were accepted. Missing: that the administrator's account was enabled, which the code does not check (see below). |
| `C30_lookup_partial` | What holds of the second half: looking a network up by its name finds it, unless its name is the address of another network. |
| `C35_resume_partial` | A client that comes back gets what was stored since, provided the times of the messages of the conversation are in the order in which they were stored (no two in the same millisecond). Missing: that it holds without the condition; `C35_resume_violated` shows that it does not. |
| `C38_sojuctl_partial` | The words given to sojuctl arrive intact if they consist of printable characters. Missing: words with other characters, see `C38_sojuctl_violated`. |
| `C38_words_partial` | Every accepted line is split into its words — the maximal runs of pieces other than white space, quotes and backslashes removed — if no word ends in an escaped white space. Missing: a word that ends in an escaped white space, see `C38_words_violated`. |
| `C45_answer_partial` | Over every history of connections that differ in the address of the server or in the local port: a well-formed question from a host about two ports is answered with the ident string of the open connection to this host with these ports, and with NO-USER if there is none. (The full property has no such restriction, see `C45_same_port_violated`.) |
| `C48_modes_partial` | The membership prefixes are those of the last PREFIX token, and every channel mode has the kind that the last CHANMODES token gives it. Missing: negated tokens. |
| `C48_relayed_partial` | The clients connected at the time are sent exactly the tokens meant for them, in the server's words, if these contain no escape sequence. Missing: tokens with escape sequences (`C48_relayed_violated`), negated tokens. |
| `C48_tracked_partial` | As long as the server negates no token, every setting of a connection is what the server said last about it, or the default: the table of features, the case mapping, the prefixes of channel names, of status messages, and the flood protection. Missing: negated tokens (`C48_negation_violated`). |
| `C48_welcome_partial` | A client that connects later is told, for every feature it may know, what the server said last. Missing: negated tokens. |
| `C49_channel_status_partial` | A channel status is accepted exactly when it is one of the three symbols. |
| `C50_exact_partial` | Where the occurrences of the nick are in different words, with at most one "://" in a word: a message highlights the user exactly if it mentions the nick. Missing: occurrences in the same word (`C50_violated`). |
| `C51_kept_partial` | If the user sends no `SET …` to the services bot: saved credentials are never replaced by empty ones (unless the user asks for it with an anonymous login, or gives an empty password to the server). Missing: `SET` followed by anything but a password (`C51_violated`). |
| `C52_roundtrip_partial` | For host names and IPv4 addresses: a client that reads the address of a network and sends it back, or some of its parts, leaves the server the bouncer connects to as it is, and everything else about the network. Missing: IPv6 addresses (`C52_violated`). |
| `C53_refused_partial` | Unless one of its parameters is empty, a request that reaches the message store is well formed: a known kind, bounds that are instants, a limit between zero and the limit of the server. Missing: a request with an empty second bound reaches the store (`C53_violated`). |
| `C55_one_admin_partial` | With one administrator, any number of users and any interleaving, everything the administrator asks for is answered: whenever no loop can take a step any more, all loops are free, and that happens after a bounded number of steps. Missing: see above. |
| `C55_ordered_partial` | For every number of users, every order of them and every history in which clients only send commands that wait for users below their own, whatever the interleaving: the loops stop working after a bounded number of steps, and when no loop can take a step all loops wait for events and all events have been handled — so every command has been answered. Missing: commands that do not follow an order (see the violations below), deletions, broadcasts, commands timed out while they are being executed elsewhere, loops that crash. |
| `C56_last_reported_partial` | A WHO answered from the cache gives, in each column asked for, what the server last said of the user of that nick, followed through its changes of nick — for a well-behaved server that sends no CHGHOST, tells of no monitored user going offline, and sends no empty real name or account. |
| `C56_visible_partial` | With a well-behaved server, nobody stays cached who is neither us, nor monitored, nor on one of our channels. (It does not hold of a server that tells about people we cannot see.) |
| `C58_detached_partial` | (attached or detached): whatever attaches or detaches a channel is saved for it at once, and for no other channel of the network. Missing: events before the bouncer knows the case mapping of the server. |
| `C58_rejoin_partial` | (the lines): read as a server reads them, the JOIN lines sent on reconnection ask for exactly those channels with exactly those keys. |
| `C58_saved_partial` | For every orderly history of a network — joins, parts, kicks, detaching, attaching, commands to the service, reconnections, changes of the settings and restarts — the bouncer asks for a channel when it reconnects exactly when the user asked for it and did not leave it since, with the last key they gave; and it asks for it once. Missing: histories in which channels are named before the bouncer knows the case mapping of the server, see `C58_mapping_violated`, detaching a channel the user is not in, see `C58_detach_violated`, and timers that are handled after a change of the settings, see `C58_late_violated`. |
| `C59_channel_update_partial` | An update of a channel that reports an error although no write to the database fails has changed nothing but, in memory, the four filter settings of that channel: the network, name, key and attachment of every channel, the user's record, the networks and everything that is stored are as before. |
| `C59_memory_partial` | A command that reports an error although no write to the database fails leaves both copies of the settings as they were — except the update of a channel and that of the user's own record. |
| `C59_stored_is_used_partial` | As long as no write to the database fails and no update of a channel reports an error, what is stored is what is in use: a restart changes no setting. |
| `C59_stored_partial` | A command that reports an error leaves the stored settings as they were, whichever writes to the database fail — except the update of the user's own record (see `C59_user_update_violated`). |
| `C59_user_partial` | An update of the user's own record that reports an error although no write to the database fails leaves both copies of the settings as they were, provided the networks of the user would all be accepted today. |
| `C60_inactive_partial` | Take any history in which the bouncer is not restarted, that ends with a scan at time `s`, other events, and the delivery of the scan's event to the loop of an account; suppose nobody logs in to that account between the scan and the delivery. Then the configured delay is not zero, the account was created and its clients were last seen longer than the delay before the scan, and it has no client now. Missing: logins between the scan and the delivery, see `C60_race_violated`, and restarts, see `C60_restart_violated`. |
| `C61_auto_detach_waits_partial` | After activity in an attached channel whose timer has not fired yet, the channel is not detached by itself before `detach-after` has passed. In between the user may leave and join the channel, the connection may be lost and come back, the settings of the network and the other settings of the channel may change. |
| `C62_alive_partial` | As long as the clients that were turned away send nothing but `CAP`, `PING`, `PONG` and `USER`, the event loop goes on, whatever else happens. `C62_message_violated` shows that the restriction is needed. |
| `C62_disabled_partial` | After every history, if the account is disabled then none of its networks has a connection or is connecting, and every client in its list has been closed. A network object that was replaced when the account was disabled may still have its connection for a moment, but it has been told to stop (see `C62_hang_up`). Partial: no update of the account has failed half-way (`netErr`). `C62_socket_violated` shows that this is needed. |
| `C65_no_crash_partial` | No sequence of messages about users crashes the bouncer, as long as each names the user it is about. |
| `C65_who_partial` | Answering WHO from the cache does not crash the bouncer, unless someone is cached under the very mask asked for and that mask looks like a channel. |
| `C66_accepted_partial` | An endpoint is accepted exactly if it is an HTTPS URL whose host has addresses none of which is a loopback, private or multicast address. Partial: unspecified and link-local addresses are accepted (`C66_internal_violated`). |
| `C67_disabled_partial` | When the account is disabled no client can act on it. Partial as in `C67_password_partial` and `C62_disabled_partial`. |
| `C67_password_partial` | Whatever happens, a client that can act on the account has given its current password: changing the password cuts off the others, whether or not the update succeeds otherwise. Partial: every client is handled as soon as it has authenticated and no request for a network fails at login. `C67_pending_violated` and `C67_failed_login_violated` show that both are needed. |
| `C68_sqlite_partial` | With SQLite, the same, if no two deletions are executed for the same user object. |
| `C69_agree_partial` | In part: with a server that waits for the end of a negotiation before it changes its offer, whenever no CAP message is on the way the bouncer and the server agree on what is on offer and on what is enabled. |
| `C69_end_partial` | Before registration, the negotiation is ended as soon as the login has ended, or when the capabilities on offer, listed on one line, do not allow the login the network asks for. Partial: if the server does not grant `sasl`, no login is started and none ends (`C69_stalled_violated`); and the capabilities may be listed on several lines (`C69_lines_violated`). |
| `C69_requests_partial` | Capabilities are requested in answer to an offer only, and only those the bouncer supports and the server offers. Partial: except that `echo-message` is requested as soon as `labeled-response` is offered (`C69_echo_violated`), and provided that capabilities are withdrawn in lower case (`C69_withdrawn_violated`). |
| `C69_wanted_partial` | In part: with such a server that never offers `labeled-response` without `echo-message`, whenever no CAP message is on the way every capability the bouncer wants and the server offers is enabled. |
| `C72_roundtrip_partial` | What was uploaded is what is served. If an upload is answered with success, then whatever requests the bouncer is sent afterwards, a GET request for the location given in the answer gets exactly the uploaded data; and if the upload named a file, it is shown under that name, completed by an extension only if it had none. Here user names contain no colon (`C72_colon_violated`) and are plain. |
| `C75_stay_partial` | If moreover the bouncer does not reconnect while clients are there and attaches only channels it is in, then a client thinks it is in a channel exactly if the direct client is. |
| `C75_view_partial` | For every history of the connection, of the clients and of attaching and detaching, a client knows of a channel that is not detached the same as a client connected directly in place of the bouncer: it is in the channel if the direct client is, and once the direct client has the list of members they agree on the members and on the topic. They always agree on the own nick. Assumed: the server is orderly, no client logs in while the list of members is on its way (`C75_login_violated`) and no client sends PART for the channel while it is detached (`C75_part_violated`). Left out: the ranks of members, the other commands. The converse, that a client is not in more channels, is `C75_stay_partial`. |
| `C76_attributes_partial` | It knows every attribute that a network has, as it is now. For the nick and the real name this needs that nobody changed them without a reconnection (`C76_nick_violated`); for the state and the error, that no goroutine of a network that was replaced has spoken up (`C76_stale_state_violated`). Partial: the client may also know attributes that the network no longer has (`C76_removed_violated`). |
| `C76_state_partial` | And, in histories in which no replaced network speaks up, which networks are connected. |
| `C77_kept_partial` | SQLite databases of version 8 or later: if the upgrade succeeds, every query that could be made before has the same answer. That it succeeds is missing for versions 8 to 13, see `C77_channels_violated`. |
| `C77_kept_postgres_partial` | PostgreSQL databases of every version: if the upgrade succeeds, every query that could be made before has the same answer, but for the subscriptions to push notifications. |
| `C77_named_partial` | SQLite databases of versions 1 to 7, in which the owner of a network is given by name: if the upgrade succeeds, every query that could be made before has the same answer, but for the owners of the networks, which are then given by identifier: that of the user who has had this name. |
| `C78_pin_partial` | A server that presents a single certificate is accepted only if it holds the key of a certificate of which the user has entered the fingerprint. Missing: servers that present several, see `C78_pin_violated`. |
| `C79_harmless_partial` | With hashes of the current kind, which is what the bouncer makes, the account is at all times what the user and the administrators last set it to, however logins and updates are interleaved. Missing: hashes of an older kind, see `C79_race_violated`. |
| `C79_http_partial` | With the HTTP authenticator, a user name without colon and a password are accepted if and only if the server says they are valid. Missing: user names with a colon, see `C79_http_violated`. |
| `C80_timer_partial` | Without MONITOR: as long as the user wants the same nick and has not got it, and no tick of the clock was lost, the bouncer goes on trying. Unless an attempt still waits for its answer, the next tick, once the events before it are handled, makes it ask for the nick again. (Partial: attempts that the server refuses for another reason never stop waiting, ticks can be lost, and a nick wanted later is not tried, see below.) |
| `C81_resume_partial` | A client that comes back gets what was stored since, provided the times of the messages of the conversation are in the order in which they were stored (no two the same). Missing: that it holds without the condition; `C81_resume_violated` shows that it does not. |
| `C82_stored_partial` | A network that was stored is listed. Missing: when the network with this identifier is gone, see `C82_stored_violated`. |
| `C83_migrated_partial` | If the users of the source have the identifiers 1, 2, … in the order in which they are listed, every user is copied with the networks, channels, delivery receipts and push subscriptions of these networks, and so are the keys for push messages. Missing: other identifiers, read receipts and subscriptions for no network, see the theorems below. |
| `C83_named_partial` | An argument is taken for a database exactly if it is a kind of database, a colon and a source without a colon; the source is then passed on as it is. Missing: sources with a colon, see below. |
| `C83_sqlite_partial` | The same with an SQLite database as the destination: if the users of the source have the identifiers 1, 2, … in the order in which they are listed, every user is copied with the networks, channels, delivery receipts and push subscriptions of these networks, and so are the keys for push messages. Missing: as above. |
| `C84_ids_partial` | At any time, the records of a kind have different identifiers, none of which is 0. Missing: an identifier can be given again once its record is deleted, see `C84_ids_violated`. |
| `C84_stored_partial` | A network that was stored is listed. Missing: when the network with this identifier is gone, see `C84_stored_violated`. |
| `C85_own_log_partial` | After any history of messages, renames and restarts, the files that are read for a conversation hold exactly the lines that were stored for it — also those stored before its network was renamed —, day by day, in the order in which they were stored. Missing: a network that takes a name which another one has given up since the store was opened (`C85_reuse_violated`); names with slashes or backslashes (`C14_collision_violated`). |
| `C85_search_latest_partial` | A search without lower bound returns the last `limit` messages searched for before the upper bound, in chronological order, if there are no 100 days without one of them; otherwise the last ones of the days after such a gap. |
| `C85_search_partial` | A search with a lower bound, less than 100 days before the upper one, returns exactly the first `limit` messages searched for between the bounds, in chronological order. Missing: messages logged exactly at a midnight (`C13_midnight_violated`) and gaps of 100 days (`C13_gap_violated`). |
| `C85_targets_partial` | The conversations listed are, in the order asked for, the first `limit` ones of those whose last line was written — to the second — strictly between the bounds. Missing: newest first, conversations of the same second make the order that of no strict order (`C85_order_violated`); the time of a message is not the time of its writing (`C85_event_violated`); names with slashes or backslashes are listed changed. |
| `C86_account_partial` | A client with the sasl capability, which it did not enable after logging in, knows the account it is logged in to. |
| `C86_realname_partial` | A client with the setname capability, which it did not enable after logging in, knows its real name. |
| `C86_setname_partial` | While the network is connected, SETNAME of a client that has the setname capability and did not enable it after logging in is answered at once if the real name is already that one; otherwise the server is asked to change it, or the setting is changed (an empty real name stands for the default) and the bouncer disconnects in order to connect with it. |
| `C86_user_partial` | A client with the chghost capability, which it did not enable after logging in, also knows its user name. |
| `C87_unix_partial` | An absolute path after the scheme for Unix domain sockets is the path of the socket, whose permissions are set. |
| `C88_ctl_partial` | Sojuctl with printable words: the service runs the command made of exactly these words, with the rights of an administrator; the texts it prints are printed, and sojuctl succeeds just when the command does. If it fails its error is shown. Missing: an error that has a percent sign in it, see `C88_error_violated`; words that are not printable, see `C38_sojuctl_violated`. |
| `C89_only_partial` | What is read is what is written at the beginning of the file, so a malformed file is not read as something else. Missing: that this is the whole file, see `C89_rest_violated`; what follows begins with the end of a section that was not begun, is a single character or a comment. |
| `C89_server_partial` | Of a server setting — a host, a port with or without a plus sign and possibly a password — the bouncer connects to this host and port, over TLS just if there is a plus sign, and asks for a certificate for this host; the password is kept. (For host names and IPv4 addresses; missing: IPv6 addresses, see `C89_ipv6_violated`.) |
| `C90_networks_partial` | Part: after the import, each network chosen is in the database with the server, the password, the nickname, the user name and the real name written in the file, those of the user's section where the network's has none; other settings of a network that was there before have not changed. Missing: networks of the database without a name, see `C90_unnamed_violated`. |
| `C91_moved_partial` | Migrate-logs succeeds, and stores every entry of every conversation of every network once, those of a conversation in the order in which they were logged, at their time, with their sender and their contents. What was in the database before stays. The conversation in the database has the name of the directory, see `C91_name_violated`. |
| `C92_monitored_partial` | A nick that a client monitors stays in its list until the client removes it, whatever happens meanwhile to the connection and however often the server announces its mapping again. Missing: a server that changes its mapping, see `C02_recase_collision_loses_entry`; changes of the settings of the network, see `C92_monitored_violated`. |
| `C92_same_partial` | After every history, once the server has said how it compares names (or has ended its greeting without), every table in which the bouncer keeps names for the network, its connection, its channels and its clients compares names in this way, whenever and under whatever mapping the table and its entries were made; and a name is taken for the nick of a client exactly if it is the same to the server. Missing: the time between the connection and the announcement (`C92_unknown_violated`); announcements before the connection is accepted (`C92_early_violated`). |
| `C93_channels_partial` | `channel status` lists the saved channels of the networks it is asked about, each once, network by network and sorted by name, and says of each truly whether the user is in it and whether it is detached. Missing: a client of a network whose name another network has for an address (`C93_channels_violated`). |
| `C93_notice_partial` | A notice of the server reaches each client of each user whose event loop was reached, once, and the answer tells how many, if each user has one client. Missing: users with another number of clients (`C93_notice_violated`). |
| `C94_bounded_partial` | Part: the goroutines do not keep `Shutdown` waiting forever: once it is called, there is a bound to the number of steps they can make, which grows by at most two with each event that comes from outside. Missing: accounts created and listeners started after `Shutdown` was called. |
| `C94_database_last_partial` | Part: when the database is closed, every goroutine that uses it has ended: those of the users, those of the listeners and the one that disables inactive accounts. Missing: accounts that are created, and listeners that are started, after `Shutdown` was called (see `C94_late_account_violated`). |
| `C94_goes_on_partial` | Part: as long as `Shutdown` has not returned, some goroutine can go on, unless `Shutdown` waits for a place in the channel of a user whose goroutine waits for the lock that `Shutdown` has (`C94_deadlock_violated`). Missing: that case, and accounts created after `Shutdown` was called. |
| `C94_saved_partial` | Part: when the database is closed, every user whose goroutine has not crashed has stored the delivery receipts of the clients. Missing: accounts created after `Shutdown` was called. |
| `C96_one_target_partial` | No memory is written while another goroutine reads it, and a message carries the label that was chosen for it, if the command has one target only. (For several targets see `C96_race_violated` and `C96_labels_violated`.) |
| `C97_framed_partial` | If no tag of a message is changed before all clients have got it, then whatever happens, in whatever order, everything a client has been sent is framed: each batch has a reference of its own, is ended once, and every message with a reference comes between the start and the end of its batch. When a client has got everything, no batch is open. |
| `C98_dismissed_partial` | A message that was pushed is dismissed when it is read elsewhere: when the read marker of its conversation moves to its time or beyond, that is pushed too. This needs that the server sends messages in the order of their times, that the conversation is not left and that neither the bouncer nor the network is restarted (`C98_forgotten_violated`, `C98_order_violated`). |
| `C99_alive_partial` | After every history of the account, an enabled network of an enabled account has a goroutine that has not ended and has not been told to stop, unless its server has refused the bouncer for good. Partial: no update of the account has failed half-way (`netErr`). `C99_reenabled_violated` shows that this is needed. |
| `C99_spacing_partial` | Two attempts in a row begin at least the smallest delay (a minute) apart, unless the server has closed the connection of the first after accepting it. |
<!-- END partial -->
