{
 "claims": [
  {
   "property": "C01",
   "status": "proved",
   "theorems": [
    "Verif.Props.C01_fold_idempotent",
    "Verif.Props.C01_fold_length",
    "Verif.Props.C01_fold_eq_iff_same",
    "Verif.Props.C01_parse_casemapping"
   ],
   "note": ""
  },
  {
   "property": "C02",
   "status": "proved",
   "theorems": [
    "Verif.Props.C02_lookup_last_write",
    "Verif.Props.C02_has",
    "Verif.Props.C02_iteration",
    "Verif.Props.C02_iteration_distinct",
    "Verif.Props.C02_store_delete_visible",
    "Verif.Props.C02_recase_keeps_entries",
    "Verif.Props.C02_recase_collision_loses_entry"
   ],
   "note": ""
  },
  {
   "property": "C03",
   "status": "proved",
   "theorems": [
    "Verif.Props.C03_membership_set",
    "Verif.Props.C03_sorted_nodup_exact",
    "Verif.Props.C03_highest_prefix",
    "Verif.Props.C03_prefix_roundtrip",
    "Verif.Props.C03_prefix_token"
   ],
   "note": ""
  },
  {
   "property": "C04",
   "status": "proved",
   "theorems": [
    "Verif.Props.C04_apply",
    "Verif.Props.C04_malformed_iff",
    "Verif.Props.C04_malformed",
    "Verif.Props.C04_not_ascii"
   ],
   "note": ""
  },
  {
   "property": "C05",
   "status": "proved",
   "theorems": [
    "Verif.Props.C05_told",
    "Verif.Props.C05_told_after",
    "Verif.Props.C05_told_shape",
    "Verif.Props.C05_standard_modes",
    "Verif.Props.C05_told_not_ascii",
    "Verif.Props.C05_accepts_iff",
    "Verif.Props.C05_modes",
    "Verif.Props.C05_members",
    "Verif.Props.C05_malformed_unchanged"
   ],
   "note": ""
  },
  {
   "property": "C06",
   "status": "proved",
   "theorems": [
    "Verif.Props.C06_delays",
    "Verif.Props.C06_delay_bounds",
    "Verif.Props.C06_reaches_cap",
    "Verif.Props.C06_no_overflow"
   ],
   "note": ""
  },
  {
   "property": "C07",
   "status": "partial",
   "theorems": [
    "Verif.Props.C07_join_covers",
    "Verif.Props.C07_keyed_first",
    "Verif.Props.C07_length_partial",
    "Verif.Props.C07_length_violated"
   ],
   "note": "C07_length_partial: Every line names at least one channel and, unless it names a single channel, is at most 512 bytes long *without* its CR LF. Missing: the IRC limit is 512 bytes including CR LF, which the code does not reach — see `C07_length_violated`. C07_length_violated: Two channels whose JOIN line, with its CR LF, is longer than the 512 bytes IRC allows."
  },
  {
   "property": "C08",
   "status": "partial",
   "theorems": [
    "Verif.Props.C08_monitor_lossless",
    "Verif.Props.C08_monitor_length",
    "Verif.Props.C08_monitor_violated",
    "Verif.Props.C08_names_lossless",
    "Verif.Props.C08_names_violated",
    "Verif.Props.C08_isupport_lossless"
   ],
   "note": "C08_monitor_violated: A MONITOR line naming two targets can exceed, with its CR LF, the 512 bytes IRC allows; and an oversized first target produces a line naming no target at all. C08_names_violated: The RPL_NAMREPLY length computation leaves no room for the `:server` prefix, the client's nick and CR LF that are added when the line is sent: the body alone can take 512 bytes."
  },
  {
   "property": "C09",
   "status": "proved",
   "theorems": [
    "Verif.Props.C09_sasl_roundtrip",
    "Verif.Props.C09_sasl_chunk_sizes",
    "Verif.Props.C09_sasl_too_long"
   ],
   "note": ""
  },
  {
   "property": "C10",
   "status": "partial",
   "theorems": [
    "Verif.Props.C10_whox_roundtrip",
    "Verif.Props.C10_whox_order",
    "Verif.Props.C10_whox_wire_partial",
    "Verif.Props.C10_whox_wire_violated",
    "Verif.Props.C10_who_roundtrip",
    "Verif.Props.C10_who_form",
    "Verif.Props.C10_whox_options"
   ],
   "note": "C10_whox_wire_partial: On the wire: if no requested field but possibly the last is empty, contains a space or starts with a colon (a host name may), then what a client splits from the line is exactly what was put in it, so that the whole exchange through the text of the line is lossless. C10_whox_wire_violated: A client that requests the token field without giving a token gets a line with an empty parameter in the middle, from which it reads its own nick as the token."
  },
  {
   "property": "C11",
   "status": "proved",
   "theorems": [
    "Verif.Props.C11_msgid_roundtrip",
    "Verif.Props.C11_msgid_header",
    "Verif.Props.C11_msgid_typed",
    "Verif.Props.C11_msgid_injective",
    "Verif.Props.C11_msgid_version"
   ],
   "note": ""
  },
  {
   "property": "C12",
   "status": "partial",
   "theorems": [
    "Verif.Props.C12_latest_after_id",
    "Verif.Props.C12_only_text",
    "Verif.Props.C12_targets_independent",
    "Verif.Props.C12_last_id_partial",
    "Verif.Props.C12_last_id_violated"
   ],
   "note": "C12_last_id_partial: The \"current position\" ID of a target that has had no message yet denotes the beginning of its log. Missing: the same for a target that already has messages, which is false — see `C12_last_id_violated`. C12_last_id_violated: The \"current position\" ID of a target that already has messages is one too far: the next message appended is not among the messages after it."
  },
  {
   "property": "C13",
   "status": "partial",
   "theorems": [
    "Verif.Props.C13_before_general",
    "Verif.Props.C13_before_window_partial",
    "Verif.Props.C13_before_now",
    "Verif.Props.C13_gap_violated",
    "Verif.Props.C13_after_window_partial",
    "Verif.Props.C13_midnight_violated",
    "Verif.Props.C13_resume_after_append",
    "Verif.Props.C13_resume_after_last"
   ],
   "note": "C13_before_window_partial: When the bounds are less than 100 days apart, asking for the messages before an instant returns exactly the last `limit` matching messages between the bounds, in chronological order. C13_gap_violated: History older than 100 days without message is never found, although it is within the bounds and the limit is not reached. C13_after_window_partial: When the bounds are less than 100 days apart and no message was logged exactly at a midnight after the start, asking for the messages after an instant returns exactly the first `limit` matching messages between the bounds. Missing: messages logged at midnight — see `C13_midnight_violated` — and gaps of 100 days. C13_midnight_violated: A message logged exactly at midnight is not returned by a forward search that starts on an earlier day, although it is within the bounds."
  },
  {
   "property": "C14",
   "status": "partial",
   "theorems": [
    "Verif.Props.C14_escape_plain",
    "Verif.Props.C14_inside_partial",
    "Verif.Props.C14_never_escapes",
    "Verif.Props.C14_escape_id",
    "Verif.Props.C14_shared_iff",
    "Verif.Props.C14_distinct",
    "Verif.Props.C14_rename_dir",
    "Verif.Props.C14_empty_name_violated",
    "Verif.Props.C14_collision_violated"
   ],
   "note": "C14_inside_partial: For every root directory, every non-empty user, network and target name and every date, the log file is `root/user/network/target/date.log`: resolving its path component by component leads, from the root directory, through exactly one directory entry per name. In particular no name can make the path leave the root. C14_empty_name_violated: An empty target name collapses a level, so the log file lies directly in the network's directory. C14_collision_violated: Two different network names (a network without a name is named after its address, which may contain slashes) share the directory."
  },
  {
   "property": "C15",
   "status": "partial",
   "theorems": [
    "Verif.Props.C15_roundtrip",
    "Verif.Props.C15_events_hidden",
    "Verif.Props.C15_others_not_logged",
    "Verif.Props.C15_dm_target_violated",
    "Verif.Props.C15_action_violated",
    "Verif.Props.C15_mode_violated"
   ],
   "note": "C15_dm_target_violated: The log of a direct conversation is kept under the case-folded nick of the peer (upstream.go:2150), so a message from `Alice` (log `alice`) reads back as addressed to `alice` instead of to the user. C15_action_violated: An action without text gains a space, and a lower-case one changes case. C15_mode_violated: A mode change whose last parameter contains a space reads back as two."
  },
  {
   "property": "C16",
   "status": "proved",
   "theorems": [
    "Verif.Props.C16_monotone",
    "Verif.Props.C16_not_future",
    "Verif.Props.C16_reply_reports_stored",
    "Verif.Props.C16_change_is_broadcast",
    "Verif.Props.C16_advances",
    "Verif.Props.C16_sender_answered",
    "Verif.Props.C16_query_is_private"
   ],
   "note": ""
  },
  {
   "property": "C17",
   "status": "partial",
   "theorems": [
    "Verif.Props.C17_one_in_flight_partial",
    "Verif.Props.C17_no_crash",
    "Verif.Props.C17_abort",
    "Verif.Props.C17_answered_or_aborted_partial",
    "Verif.Props.C17_abort_reply",
    "Verif.Props.C17_stale_violated"
   ],
   "note": "C17_one_in_flight_partial: Queries of each kind are sent in the order they were issued, never two at the same time, and the end of a reply completes the oldest one. `inflight` and `waiting` are what remains of the queue. Partial: it needs `Timely`, the server answering each query within 30 seconds; see `C17_stale_violated` for what happens otherwise. C17_answered_or_aborted_partial: At the moment the upstream connection goes down, each query of a client that stayed connected has been answered, or is aborted now, exactly once. C17_stale_violated: Fails once a query has been unanswered for over 30 seconds: the next query of that kind is queued twice, is not sent, and nor is any query of that kind that any client issues later (until the server answers the first one after all, or the connection is closed)."
  },
  {
   "property": "C18",
   "status": "partial",
   "theorems": [
    "Verif.Props.C18_label_roundtrip",
    "Verif.Props.C18_reply_is_for_client",
    "Verif.Props.C18_batch_keeps_label",
    "Verif.Props.C18_batch_gets_label",
    "Verif.Props.C18_labels_distinct",
    "Verif.Props.C18_routing",
    "Verif.Props.C18_foreign_label_refused",
    "Verif.Props.C18_foreign_label_violated"
   ],
   "note": "C18_foreign_label_violated: Is not exact the other way: a label the bouncer never attached, with text after the second number, is taken as client 7's."
  },
  {
   "property": "C19",
   "status": "partial",
   "theorems": [
    "Verif.Props.C19_forwarded",
    "Verif.Props.C19_echo_partial",
    "Verif.Props.C19_unlabelled_echo_violated"
   ],
   "note": "C19_echo_partial: Whether or not the server echoes messages, a message a client sends to a target reaches each other client of that network exactly once, the sender exactly once if it enabled echo-message and not at all otherwise, and no client of another network. Partial: if the server echoes messages, it must also support labels and message tags (see `C19_unlabelled_echo_violated`), and the target must not start with a status prefix of the network. C19_unlabelled_echo_violated: Fails if the server echoes messages but does not support message tags (so that no label comes back): a client that did not enable echo-message gets its own message."
  },
  {
   "property": "C20",
   "status": "partial",
   "theorems": [
    "Verif.Props.C20_services_not_logged",
    "Verif.Props.C20_received_logged",
    "Verif.Props.C20_sent_logged_partial",
    "Verif.Props.C20_not_logged",
    "Verif.Props.C20_status_prefix_violated",
    "Verif.Props.C20_service_host_violated"
   ],
   "note": "C20_sent_logged_partial: A message sent by a client to a server that does not echo messages is logged under the target as the client gave it, folded. Partial: that is not the channel if the client added a status prefix, see `C20_status_prefix_violated`. C20_status_prefix_violated: A client's own message to the operators of a channel is logged under the prefixed name, whereas the same message from somebody else is logged under the channel. C20_service_host_violated: A message to the services bot given with its server is logged, password included."
  },
  {
   "property": "C21",
   "status": "partial",
   "theorems": [
    "Verif.Props.C21_session",
    "Verif.Props.C21_lossless_partial",
    "Verif.Props.C21_lossless_crash_partial",
    "Verif.Props.C21_new_target",
    "Verif.Props.C21_no_replay",
    "Verif.Props.C21_new_client_violated",
    "Verif.Props.C21_crash_violated",
    "Verif.Props.C21_limit_violated",
    "Verif.Props.C21_update_violated",
    "Verif.Props.C21_update_replay_violated"
   ],
   "note": "C21_lossless_partial: Once a client has a receipt for a target, then after any history of messages, acknowledgements, disconnections, reconnections and clean restarts, if it is connected it has seen every message from that receipt on, as long as it never came back with more than `limit` messages to catch up on and the settings of the network were not changed (`C21_update_violated`). C21_lossless_crash_partial: The same holds over any number of crashes, from the receipt the client had when it last disconnected: what it acknowledged after that may be sent again, nothing is lost. C21_new_client_violated: The full claim fails: a client that has been connected but has acknowledged nothing on an existing target, because nothing was said there, misses what is said there after it has left. C21_crash_violated: The full claim fails over a crash: the receipt made for an absent client at the first message of a new target is only in memory, so that after a crash that message is never replayed to it. C21_limit_violated: Messages beyond the limit are skipped for good. C21_update_violated: The full claim fails when the settings of the network are changed: the receipts are lost, and what is said while the client is away is never replayed to it. C21_update_replay_violated: After such a change, a restart that is not a crash makes a client see again what it has acknowledged."
  },
  {
   "property": "C22",
   "status": "partial",
   "theorems": [
    "Verif.Props.C22_detach_idempotent",
    "Verif.Props.C22_attach_idempotent",
    "Verif.Props.C22_detach_attach",
    "Verif.Props.C22_hidden",
    "Verif.Props.C22_own_hidden",
    "Verif.Props.C22_reattach",
    "Verif.Props.C22_history",
    "Verif.Props.C22_attach_crash_violated",
    "Verif.Props.C22_crash_only_incomplete"
   ],
   "note": "C22_attach_crash_violated: The code does not always manage to attach: while the list of members of the channel is still being received, a message that brings the channel back, or a client's JOIN, makes the user's goroutine panic."
  },
  {
   "property": "C23",
   "status": "partial",
   "theorems": [
    "Verif.Props.C23_follows_presence",
    "Verif.Props.C23_disabled",
    "Verif.Props.C23_command_partial",
    "Verif.Props.C23_empty_violated"
   ],
   "note": "C23_command_partial: An AWAY command makes the client away or present as it says, and the reply says which, unless its text is empty. C23_empty_violated: A client that comes back with an empty text, as servers allow, is taken as away: with auto-away its user, who has said to be present, is away on the network."
  },
  {
   "property": "C24",
   "status": "partial",
   "theorems": [
    "Verif.Props.C24_told",
    "Verif.Props.C24_forwarded",
    "Verif.Props.C24_full",
    "Verif.Props.C24_listed",
    "Verif.Props.C24_unknown_violated",
    "Verif.Props.C24_bounded",
    "Verif.Props.C24_merged_partial",
    "Verif.Props.C24_answered",
    "Verif.Props.C24_refused",
    "Verif.Props.C24_desired_nick_violated",
    "Verif.Props.C24_race_violated"
   ],
   "note": "C24_unknown_violated: Violated: a client that asks for the status of a nick the server has not reported on yet (because the nick was just added, or the connection to the server is new) is told that it is offline. C24_merged_partial: After any sequence of MONITOR commands, connections and disconnections of any number of clients and new connections to the server, the server monitors exactly the nicks some client monitors, or as many of them as it allows. C24_desired_nick_violated: The full claim fails for the user's desired nick: each update of the list drops it again when no client monitors it, so that it is monitored only every other time. C24_race_violated: It also fails when the server's report is still on its way: a nick removed by the last client that monitors it is recorded again when the report arrives, and a client that adds it then gets nothing sent to the server, although the server does not monitor the nick any more."
  },
  {
   "property": "C25",
   "status": "partial",
   "theorems": [
    "Verif.Props.C25_enabled_offered",
    "Verif.Props.C25_req_atomic",
    "Verif.Props.C25_req_ack_iff",
    "Verif.Props.C25_contradictory_req_violated",
    "Verif.Props.C25_withdrawn",
    "Verif.Props.C25_client_knows_partial",
    "Verif.Props.C25_offers_known",
    "Verif.Props.C25_values",
    "Verif.Props.C25_offered_registered",
    "Verif.Props.C25_version_overflow_violated"
   ],
   "note": "C25_contradictory_req_violated: A request naming a capability both ways is judged against the state before it and acknowledged, but not applied in order: after \"foo -foo\" the capability is enabled. C25_client_knows_partial: A client that spoke version 302 or later, and never asks for a capability both ways in one request, always knows exactly what is enabled: following the ACK and DEL messages it receives gives the set of enabled capabilities, cap-notify among them, whatever upstreams do. C25_version_overflow_violated: A version number out of range is refused as an error but recorded, so that the client counts as one of version 302 or later although cap-notify was not enabled for it."
  },
  {
   "property": "C26",
   "status": "proved",
   "theorems": [
    "Verif.Props.C26_filtered",
    "Verif.Props.C26_exact",
    "Verif.Props.C26_unchanged",
    "Verif.Props.C26_shared",
    "Verif.Props.C26_fanout"
   ],
   "note": ""
  },
  {
   "property": "C27",
   "status": "proved",
   "theorems": [
    "Verif.Props.C27_authenticated",
    "Verif.Props.C27_others",
    "Verif.Props.C27_bounded"
   ],
   "note": ""
  },
  {
   "property": "C28",
   "status": "partial",
   "theorems": [
    "Verif.Props.C28_admin_partial",
    "Verif.Props.C28_admin_meaning",
    "Verif.Props.C28_refused",
    "Verif.Props.C28_disabled_admin_violated"
   ],
   "note": "C28_admin_partial: A connection registered as `u` on the strength of somebody else's credentials is marked as such, and that somebody was an administrator when the credentials were accepted. Missing: that the administrator's account was enabled, which the code does not check (see below). C28_disabled_admin_violated: An administrator whose account has been disabled can still register as anybody else."
  },
  {
   "property": "C29",
   "status": "proved",
   "theorems": [
    "Verif.Props.C29_split",
    "Verif.Props.C29_reassemble",
    "Verif.Props.C29_repeated_separator"
   ],
   "note": ""
  },
  {
   "property": "C30",
   "status": "partial",
   "theorems": [
    "Verif.Props.C30_unique",
    "Verif.Props.C30_lookup_id",
    "Verif.Props.C30_wellformed",
    "Verif.Props.C30_lookup_partial",
    "Verif.Props.C30_lookup_violated",
    "Verif.Props.C30_reserved_violated"
   ],
   "note": "C30_lookup_partial: What holds of the second half: looking a network up by its name finds it, unless its name is the address of another network. C30_lookup_violated: Fails in general: a network may be named like the address of another one, and then its name finds the other one. C30_reserved_violated: The name \"*\" is reserved (service.go:546), but the BOUNCER commands accept it; a client cannot log in for such a network by its name."
  },
  {
   "property": "C31",
   "status": "proved",
   "theorems": [
    "Verif.Props.C31_limit",
    "Verif.Props.C31_ignore_admin",
    "Verif.Props.C31_refused",
    "Verif.Props.C31_exact"
   ],
   "note": ""
  },
  {
   "property": "C32",
   "status": "proved",
   "theorems": [
    "Verif.Props.C32_accepted",
    "Verif.Props.C32_accepted_any",
    "Verif.Props.C32_history"
   ],
   "note": ""
  },
  {
   "property": "C33",
   "status": "proved",
   "theorems": [
    "Verif.Props.C33_prefix",
    "Verif.Props.C33_queued_once",
    "Verif.Props.C33_shutdown",
    "Verif.Props.C33_drains",
    "Verif.Props.C33_closed",
    "Verif.Props.C33_senders",
    "Verif.Props.C33_call_after_close",
    "Verif.Props.C33_ends",
    "Verif.Props.C33_not_stuck"
   ],
   "note": ""
  },
  {
   "property": "C34",
   "status": "proved",
   "theorems": [
    "Verif.Props.C34_roundtrip",
    "Verif.Props.C34_stored",
    "Verif.Props.C34_order"
   ],
   "note": ""
  },
  {
   "property": "C35",
   "status": "partial",
   "theorems": [
    "Verif.Props.C35_query",
    "Verif.Props.C35_before",
    "Verif.Props.C35_after",
    "Verif.Props.C35_search",
    "Verif.Props.C35_latest",
    "Verif.Props.C35_last_id",
    "Verif.Props.C35_resume_partial",
    "Verif.Props.C35_resume_violated",
    "Verif.Props.C35_targets",
    "Verif.Props.C35_list_targets"
   ],
   "note": "C35_resume_partial: A client that comes back gets what was stored since, provided the times of the messages of the conversation are in the order in which they were stored (no two in the same millisecond). Missing: that it holds without the condition; `C35_resume_violated` shows that it does not. C35_resume_violated: Fails as stated: the last message is looked up by time, so when the message that arrived last has an earlier time than one before it (or, at the database's choice, the same time), a client that has received everything is sent that message again."
  },
  {
   "property": "C36",
   "status": "proved",
   "theorems": [
    "Verif.Props.C36_delete_user",
    "Verif.Props.C36_delete_network",
    "Verif.Props.C36_user_gone",
    "Verif.Props.C36_network_gone"
   ],
   "note": ""
  },
  {
   "property": "C37",
   "status": "proved",
   "theorems": [
    "Verif.Props.C37_insert",
    "Verif.Props.C37_update",
    "Verif.Props.C37_unsupported",
    "Verif.Props.C37_saved"
   ],
   "note": ""
  },
  {
   "property": "C38",
   "status": "partial",
   "theorems": [
    "Verif.Props.C38_quoted",
    "Verif.Props.C38_terminated",
    "Verif.Props.C38_open_quote",
    "Verif.Props.C38_words_partial",
    "Verif.Props.C38_words_violated",
    "Verif.Props.C38_sojuctl_partial",
    "Verif.Props.C38_sojuctl_violated"
   ],
   "note": "C38_words_partial: Every accepted line is split into its words — the maximal runs of pieces other than white space, quotes and backslashes removed — if no word ends in an escaped white space. Missing: a word that ends in an escaped white space, see `C38_words_violated`. C38_words_violated: A word that ends in an escaped space is lost, or glued to the next one. C38_sojuctl_partial: The words given to sojuctl arrive intact if they consist of printable characters. Missing: words with other characters, see `C38_sojuctl_violated`. C38_sojuctl_violated: A tab in a word given to sojuctl arrives as the letter t."
  },
  {
   "property": "C39",
   "status": "proved",
   "theorems": [
    "Verif.Props.C39_admin_socket",
    "Verif.Props.C39_lookup",
    "Verif.Props.C39_order",
    "Verif.Props.C39_ambiguous",
    "Verif.Props.C39_gated",
    "Verif.Props.C39_allowed"
   ],
   "note": ""
  },
  {
   "property": "C40",
   "status": "proved",
   "theorems": [
    "Verif.Props.C40_own_update",
    "Verif.Props.C40_other_update",
    "Verif.Props.C40_authority",
    "Verif.Props.C40_own_flags",
    "Verif.Props.C40_delete",
    "Verif.Props.C40_history"
   ],
   "note": ""
  },
  {
   "property": "C41",
   "status": "proved",
   "theorems": [
    "Verif.Props.C41_unformatted",
    "Verif.Props.C41_unique",
    "Verif.Props.C41_clean",
    "Verif.Props.C41_subsequence",
    "Verif.Props.C41_plain"
   ],
   "note": ""
  },
  {
   "property": "C42",
   "status": "proved",
   "theorems": [
    "Verif.Props.C42_query",
    "Verif.Props.C42_runs_unique"
   ],
   "note": ""
  },
  {
   "property": "C43",
   "status": "proved",
   "theorems": [
    "Verif.Props.C43_fetch",
    "Verif.Props.C43_store",
    "Verif.Props.C43_roundtrip",
    "Verif.Props.C43_named",
    "Verif.Props.C43_nameless"
   ],
   "note": ""
  },
  {
   "property": "C44",
   "status": "partial",
   "theorems": [
    "Verif.Props.C44_answers",
    "Verif.Props.C44_malformed",
    "Verif.Props.C44_authenticated",
    "Verif.Props.C44_rejected",
    "Verif.Props.C44_announced",
    "Verif.Props.C44_complete",
    "Verif.Props.C44_oversize_violated",
    "Verif.Props.C44_charset"
   ],
   "note": "C44_oversize_violated: It fails for bodies whose length is not announced: the first 50 MiB stay in the directory."
  },
  {
   "property": "C45",
   "status": "partial",
   "theorems": [
    "Verif.Props.C45_answer_partial",
    "Verif.Props.C45_only_owner",
    "Verif.Props.C45_query",
    "Verif.Props.C45_refused",
    "Verif.Props.C45_session",
    "Verif.Props.C45_same_port_violated"
   ],
   "note": "C45_answer_partial: Over every history of connections that differ in the address of the server or in the local port: a well-formed question from a host about two ports is answered with the ident string of the open connection to this host with these ports, and with NO-USER if there is none. (The full property has no such restriction, see `C45_same_port_violated`.) C45_same_port_violated: It fails with several local addresses: the second connection takes the place of the first, which has the same local port on another address. The server is then told the wrong user."
  },
  {
   "property": "C46",
   "status": "proved",
   "theorems": [
    "Verif.Props.C46_inside",
    "Verif.Props.C46_distinct",
    "Verif.Props.C46_base",
    "Verif.Props.C46_assigned",
    "Verif.Props.C46_leading_zero",
    "Verif.Props.C46_contains"
   ],
   "note": ""
  },
  {
   "property": "C47",
   "status": "proved",
   "theorems": [
    "Verif.Props.C47_drivers",
    "Verif.Props.C47_database",
    "Verif.Props.C47_given",
    "Verif.Props.C47_defaults",
    "Verif.Props.C47_delay",
    "Verif.Props.C47_ranges",
    "Verif.Props.C47_proxy",
    "Verif.Props.C47_origins",
    "Verif.Props.C47_origin_accepted",
    "Verif.Props.C47_unambiguous",
    "Verif.Props.C47_patterns",
    "Verif.Props.C47_accepted",
    "Verif.Props.C47_auth"
   ],
   "note": ""
  },
  {
   "property": "C48",
   "status": "partial",
   "theorems": [
    "Verif.Props.C48_isupport_encoding",
    "Verif.Props.C48_isupport_no_space",
    "Verif.Props.C48_tracked_partial",
    "Verif.Props.C48_modes_partial",
    "Verif.Props.C48_negation_violated",
    "Verif.Props.C48_relayed_partial",
    "Verif.Props.C48_relayed_violated",
    "Verif.Props.C48_welcome_partial"
   ],
   "note": "C48_tracked_partial: As long as the server negates no token, every setting of a connection is what the server said last about it, or the default: the table of features, the case mapping, the prefixes of channel names, of status messages, and the flood protection. Missing: negated tokens (`C48_negation_violated`). C48_modes_partial: The membership prefixes are those of the last PREFIX token, and every channel mode has the kind that the last CHANMODES token gives it. Missing: negated tokens. C48_negation_violated: Negating a token does not restore the default. C48_relayed_partial: The clients connected at the time are sent exactly the tokens meant for them, in the server's words, if these contain no escape sequence. Missing: tokens with escape sequences (`C48_relayed_violated`), negated tokens. C48_relayed_violated: A token with an escape sequence is escaped a second time: the clients see another value. C48_welcome_partial: A client that connects later is told, for every feature it may know, what the server said last. Missing: negated tokens."
  },
  {
   "property": "C49",
   "status": "partial",
   "theorems": [
    "Verif.Props.C49_ctcp_iff",
    "Verif.Props.C49_ctcp_split",
    "Verif.Props.C49_ctcp_bare",
    "Verif.Props.C49_channel_status_partial",
    "Verif.Props.C49_channel_status_violated",
    "Verif.Props.C49_statusmsg",
    "Verif.Props.C49_flags",
    "Verif.Props.C49_membership_lossless"
   ],
   "note": "C49_channel_status_partial: A channel status is accepted exactly when it is one of the three symbols. C49_channel_status_violated: An empty channel status (an RPL_NAMREPLY with an empty parameter) crashes instead of being refused."
  },
  {
   "property": "C50",
   "status": "partial",
   "theorems": [
    "Verif.Props.C50_complete",
    "Verif.Props.C50_exact_partial",
    "Verif.Props.C50_occurrence",
    "Verif.Props.C50_violated",
    "Verif.Props.C50_context_violated",
    "Verif.Props.C50_who",
    "Verif.Props.C50_no_panic"
   ],
   "note": "C50_exact_partial: Where the occurrences of the nick are in different words, with at most one \"://\" in a word: a message highlights the user exactly if it mentions the nick. Missing: occurrences in the same word (`C50_violated`). C50_context_violated: The two other ways the verdict differs from the statement."
  },
  {
   "property": "C51",
   "status": "partial",
   "theorems": [
    "Verif.Props.C51_message",
    "Verif.Props.C51_origin",
    "Verif.Props.C51_external",
    "Verif.Props.C51_kept_partial",
    "Verif.Props.C51_violated",
    "Verif.Props.C51_abort_violated",
    "Verif.Props.C51_no_panic"
   ],
   "note": "C51_kept_partial: If the user sends no `SET …` to the services bot: saved credentials are never replaced by empty ones (unless the user asks for it with an anonymous login, or gives an empty password to the server). Missing: `SET` followed by anything but a password (`C51_violated`). C51_abort_violated: A client that aborts an exchange and begins another one before the server has answered the first makes the bouncer panic when the server accepts it."
  },
  {
   "property": "C52",
   "status": "partial",
   "theorems": [
    "Verif.Props.C52_roundtrip_partial",
    "Verif.Props.C52_violated"
   ],
   "note": "C52_roundtrip_partial: For host names and IPv4 addresses: a client that reads the address of a network and sends it back, or some of its parts, leaves the server the bouncer connects to as it is, and everything else about the network. Missing: IPv6 addresses (`C52_violated`)."
  },
  {
   "property": "C53",
   "status": "partial",
   "theorems": [
    "Verif.Props.C53_refused_partial",
    "Verif.Props.C53_violated",
    "Verif.Props.C53_messages",
    "Verif.Props.C53_targets",
    "Verif.Props.C53_limit"
   ],
   "note": "C53_refused_partial: Unless one of its parameters is empty, a request that reaches the message store is well formed: a known kind, bounds that are instants, a limit between zero and the limit of the server. Missing: a request with an empty second bound reaches the store (`C53_violated`)."
  },
  {
   "property": "C54",
   "status": "proved",
   "theorems": [
    "Verif.Props.C54_one_loop",
    "Verif.Props.C54_forgotten",
    "Verif.Props.C54_restart"
   ],
   "note": ""
  },
  {
   "property": "C55",
   "status": "partial",
   "theorems": [
    "Verif.Props.C55_ordered_partial",
    "Verif.Props.C55_one_admin_partial",
    "Verif.Props.C55_mutual_update_violated",
    "Verif.Props.C55_deleted_violated",
    "Verif.Props.C55_own_deletion_violated",
    "Verif.Props.C55_run_violated",
    "Verif.Props.C55_broadcast_violated",
    "Verif.Props.C55_lock"
   ],
   "note": "C55_ordered_partial: For every number of users, every order of them and every history in which clients only send commands that wait for users below their own, whatever the interleaving: the loops stop working after a bounded number of steps, and when no loop can take a step all loops wait for events and all events have been handled — so every command has been answered. Missing: commands that do not follow an order (see the violations below), deletions, broadcasts, commands timed out while they are being executed elsewhere, loops that crash. C55_one_admin_partial: With one administrator, any number of users and any interleaving, everything the administrator asks for is answered: whenever no loop can take a step any more, all loops are free, and that happens after a bounded number of steps. Missing: see above. C55_mutual_update_violated: Two administrators update each other's account at the same time: each loop has sent its event to the other one and waits for the answer, which the other one would only give after its own wait. There is no deadline (service.go:1129): whatever happens afterwards, both loops wait forever. C55_deleted_violated: A `user delete` is not answered in time, and its author then updates the account: the loop of the account ends before it handles the update, and the loop of the author waits for the answer forever. C55_own_deletion_violated: A user deletes their own account: the loop waits for its own end, forever. C55_run_violated: An administrator runs a command that prints a line for another user, and gives up because the loop of that user is busy for longer than the deadline. The loop then executes the command, and since nobody reads its messages any more it is stuck in sending the second one (user.go:871-874: its context never ends): the loop of that user never handles another event. C55_broadcast_violated: An administrator sends a message to all users of the bouncer while their own channel is full (their clients have sent 64 other messages): their loop waits for a place in its own channel, with the lock of the table of users held. Whatever happens afterwards it waits forever, and nobody gets the lock any more."
  },
  {
   "property": "C56",
   "status": "partial",
   "theorems": [
    "Verif.Props.C56_last_reported_partial",
    "Verif.Props.C56_whom",
    "Verif.Props.C56_visible_partial",
    "Verif.Props.C56_quit",
    "Verif.Props.C56_chghost_violated",
    "Verif.Props.C56_offline_violated"
   ],
   "note": "C56_last_reported_partial: A WHO answered from the cache gives, in each column asked for, what the server last said of the user of that nick, followed through its changes of nick — for a well-behaved server that sends no CHGHOST, tells of no monitored user going offline, and sends no empty real name or account. C56_visible_partial: With a well-behaved server, nobody stays cached who is neither us, nor monitored, nor on one of our channels. (It does not hold of a server that tells about people we cannot see.) C56_chghost_violated: Does not hold of CHGHOST: the server says that the host of a member of our channel changed, and the cache goes on giving the old one. C56_offline_violated: Does not hold of monitored users: someone we monitor goes offline and someone else comes online under the nick; the cache gives the information of the first."
  },
  {
   "property": "C57",
   "status": "partial",
   "theorems": [
    "Verif.Props.C57_subcommand_violated",
    "Verif.Props.C57_bounded",
    "Verif.Props.C57_unique",
    "Verif.Props.C57_registered",
    "Verif.Props.C57_unregistered",
    "Verif.Props.C57_expired",
    "Verif.Props.C57_reused_violated",
    "Verif.Props.C57_refresh_violated"
   ],
   "note": "C57_subcommand_violated: Violated: \"It has a case-insensitive subcommand\" (doc/ext/webpush.md), but only upper case is understood. C57_reused_violated: Does not hold beside a running broadcast: row identifiers are reused, so a broadcast that finds an old endpoint expired removes the subscription registered since, which is in good health. C57_refresh_violated: Does not hold beside a running broadcast: a subscription refreshed while a broadcast finds it expired is acknowledged and not there."
  },
  {
   "property": "C58",
   "status": "partial",
   "theorems": [
    "Verif.Props.C58_saved_partial",
    "Verif.Props.C58_rejoin_partial",
    "Verif.Props.C58_detached_partial",
    "Verif.Props.C58_kick",
    "Verif.Props.C58_detach_violated",
    "Verif.Props.C58_mapping_violated",
    "Verif.Props.C58_late_violated"
   ],
   "note": "C58_saved_partial: For every orderly history of a network — joins, parts, kicks, detaching, attaching, commands to the service, reconnections, changes of the settings and restarts — the bouncer asks for a channel when it reconnects exactly when the user asked for it and did not leave it since, with the last key they gave; and it asks for it once. Missing: histories in which channels are named before the bouncer knows the case mapping of the server, see `C58_mapping_violated`, detaching a channel the user is not in, see `C58_detach_violated`, and timers that are handled after a change of the settings, see `C58_late_violated`. C58_rejoin_partial: (the lines): read as a server reads them, the JOIN lines sent on reconnection ask for exactly those channels with exactly those keys. C58_detached_partial: (attached or detached): whatever attaches or detaches a channel is saved for it at once, and for no other channel of the network. Missing: events before the bouncer knows the case mapping of the server. C58_detach_violated: `PART name :detach` saves a channel the user never joined, even one whose name no channel can have, and the bouncer asks for it when it reconnects. C58_mapping_violated: Between the moment the server accepts the connection and the moment it announces its case mapping, `#a{` is taken for another channel than `#a[`; both are saved, and which key is kept depends on the order of a Go map. Leaving the channel then removes only one of them from the table, and the channel is joined again after a restart. C58_late_violated: A timer of a connection that is handled after the settings of the network were changed stores the record the channel had before: the key the user has given since is lost, and after a restart the channel is detached, of which the clients are told nothing."
  },
  {
   "property": "C59",
   "status": "partial",
   "theorems": [
    "Verif.Props.C59_network",
    "Verif.Props.C59_delete",
    "Verif.Props.C59_stored_partial",
    "Verif.Props.C59_memory_partial",
    "Verif.Props.C59_channel_update_partial",
    "Verif.Props.C59_user_partial",
    "Verif.Props.C59_channel_update_violated",
    "Verif.Props.C59_channel_create_violated",
    "Verif.Props.C59_sasl_violated",
    "Verif.Props.C59_user_update_violated",
    "Verif.Props.C59_stored_is_used_partial"
   ],
   "note": "C59_stored_partial: A command that reports an error leaves the stored settings as they were, whichever writes to the database fail — except the update of the user's own record (see `C59_user_update_violated`). C59_memory_partial: A command that reports an error although no write to the database fails leaves both copies of the settings as they were — except the update of a channel and that of the user's own record. C59_channel_update_partial: An update of a channel that reports an error although no write to the database fails has changed nothing but, in memory, the four filter settings of that channel: the network, name, key and attachment of every channel, the user's record, the networks and everything that is stored are as before. C59_user_partial: An update of the user's own record that reports an error although no write to the database fails leaves both copies of the settings as they were, provided the networks of the user would all be accepted today. C59_channel_update_violated: `channel update #c -relay-detached none -detach-on bogus`, in a client of network 1, reports an error: \"bogus\" is not a filter. The first setting has been changed in memory all the same, and the database still has the old one. C59_channel_create_violated: `channel create #d` reports an error if the database does not work; the channel exists in memory all the same. C59_sasl_violated: `sasl set-plain bob secret` reports an error if the database does not work; the credentials are in use all the same. C59_user_update_violated: Somebody who is no longer an administrator but has a `unix` network asks for another real name. An error is reported, because such a network is reserved to administrators; the real name has been changed in both copies all the same. C59_stored_is_used_partial: As long as no write to the database fails and no update of a channel reports an error, what is stored is what is in use: a restart changes no setting."
  },
  {
   "property": "C60",
   "status": "partial",
   "theorems": [
    "Verif.Props.C60_inactive_partial",
    "Verif.Props.C60_only",
    "Verif.Props.C60_race_violated",
    "Verif.Props.C60_restart_violated"
   ],
   "note": "C60_inactive_partial: Take any history in which the bouncer is not restarted, that ends with a scan at time `s`, other events, and the delivery of the scan's event to the loop of an account; suppose nobody logs in to that account between the scan and the delivery. Then the configured delay is not zero, the account was created and its clients were last seen longer than the delay before the scan, and it has no client now. Missing: logins between the scan and the delivery, see `C60_race_violated`, and restarts, see `C60_restart_violated`. C60_race_violated: A client that logs in after the scan and before its event is handled is thrown out again: the account is disabled with a client connected and seen this very moment. C60_restart_violated: The time of the last activity is stored when a client connects and disconnects, but not when the bouncer stops. A client that has been connected for longer than the delay when the bouncer is restarted has its account disabled although it was seen, and connected, a moment before."
  },
  {
   "property": "C61",
   "status": "partial",
   "theorems": [
    "Verif.Props.C61_auto_detach_waits_partial",
    "Verif.Props.C61_kick_timer_violated",
    "Verif.Props.C61_stale_event_violated"
   ],
   "note": "C61_auto_detach_waits_partial: After activity in an attached channel whose timer has not fired yet, the channel is not detached by itself before `detach-after` has passed. In between the user may leave and join the channel, the connection may be lost and come back, the settings of the network and the other settings of the channel may change. C61_kick_timer_violated: The full claim fails: the timer of a channel we have been kicked from keeps running. Here the channel is detached 1 unit after being joined again and spoken in, with `detach-after` 10. C61_stale_event_violated: It also fails because a timer that has just fired cannot be stopped: a message processed before the timer's event does not prevent the detachment."
  },
  {
   "property": "C62",
   "status": "partial",
   "theorems": [
    "Verif.Props.C62_disabled_partial",
    "Verif.Props.C62_hang_up",
    "Verif.Props.C62_turned_away",
    "Verif.Props.C62_message_violated",
    "Verif.Props.C62_socket_violated",
    "Verif.Props.C62_alive_partial"
   ],
   "note": "C62_disabled_partial: After every history, if the account is disabled then none of its networks has a connection or is connecting, and every client in its list has been closed. A network object that was replaced when the account was disabled may still have its connection for a moment, but it has been told to stop (see `C62_hang_up`). Partial: no update of the account has failed half-way (`netErr`). `C62_socket_violated` shows that this is needed. C62_message_violated: Is violated: a client is turned away because the account is disabled, then sends a command that reads the account, such as `NICK bob`, and the event loop of the account panics. C62_socket_violated: Is violated: an administrator has a network with a local socket; they lose their rights, then their account is disabled. The update fails at that network and so the network stays connected, without being stopped, and the client stays connected too, although the account is stored as disabled. C62_alive_partial: As long as the clients that were turned away send nothing but `CAP`, `PING`, `PONG` and `USER`, the event loop goes on, whatever else happens. `C62_message_violated` shows that the restriction is needed."
  },
  {
   "property": "C63",
   "status": "proved",
   "theorems": [
    "Verif.Props.C63_delay",
    "Verif.Props.C63_insert",
    "Verif.Props.C63_update",
    "Verif.Props.C63_delete"
   ],
   "note": ""
  },
  {
   "property": "C64",
   "status": "proved",
   "theorems": [
    "Verif.Props.C64_search",
    "Verif.Props.C64_accepted"
   ],
   "note": ""
  },
  {
   "property": "C65",
   "status": "partial",
   "theorems": [
    "Verif.Props.C65_no_crash_partial",
    "Verif.Props.C65_empty_source_violated",
    "Verif.Props.C65_who_partial",
    "Verif.Props.C65_who_violated"
   ],
   "note": "C65_no_crash_partial: No sequence of messages about users crashes the bouncer, as long as each names the user it is about. C65_empty_source_violated: Does not hold of a message whose source has an empty nick (`:!u@h JOIN #c`): it crashes the event loop of the user in any state. C65_who_partial: Answering WHO from the cache does not crash the bouncer, unless someone is cached under the very mask asked for and that mask looks like a channel. C65_who_violated: Does not hold of a server that gives someone the nick `#c`: a WHO for it crashes the event loop of the user."
  },
  {
   "property": "C66",
   "status": "partial",
   "theorems": [
    "Verif.Props.C66_accepted_partial",
    "Verif.Props.C66_loopback",
    "Verif.Props.C66_internal_violated"
   ],
   "note": "C66_accepted_partial: An endpoint is accepted exactly if it is an HTTPS URL whose host has addresses none of which is a loopback, private or multicast address. Partial: unspecified and link-local addresses are accepted (`C66_internal_violated`). C66_internal_violated: Does not hold of the unspecified address and of link-local addresses: a client can have the bouncer connect to the machine itself (0.0.0.0) or to the metadata service of its cloud."
  },
  {
   "property": "C67",
   "status": "partial",
   "theorems": [
    "Verif.Props.C67_password_partial",
    "Verif.Props.C67_disabled_partial",
    "Verif.Props.C67_ignored",
    "Verif.Props.C67_pending_violated",
    "Verif.Props.C67_failed_login_violated"
   ],
   "note": "C67_password_partial: Whatever happens, a client that can act on the account has given its current password: changing the password cuts off the others, whether or not the update succeeds otherwise. Partial: every client is handled as soon as it has authenticated and no request for a network fails at login. `C67_pending_violated` and `C67_failed_login_violated` show that both are needed. C67_disabled_partial: When the account is disabled no client can act on it. Partial as in `C67_password_partial` and `C62_disabled_partial`. C67_pending_violated: Is violated: a client authenticates, the password is changed before the loop handles the client, which is then let in with the old password. C67_failed_login_violated: Is violated: a client asks for a network that does not exist and is told that this has failed, but its connection stays open outside the list of clients. The password is changed and the account is disabled, and the client can still create a network."
  },
  {
   "property": "C68",
   "status": "partial",
   "theorems": [
    "Verif.Props.C68_postgres",
    "Verif.Props.C68_sqlite_partial",
    "Verif.Props.C68_sqlite_violated"
   ],
   "note": "C68_sqlite_partial: With SQLite, the same, if no two deletions are executed for the same user object. C68_sqlite_violated: Is violated with SQLite: two administrators confirm the deletion of `bob` at the same time; the first deletion is executed, `bob` is created again and gets the row of the old account; then the second deletion is executed and deletes the new account, whose event loop runs."
  },
  {
   "property": "C69",
   "status": "partial",
   "theorems": [
    "Verif.Props.C69_agree_partial",
    "Verif.Props.C69_wanted_partial",
    "Verif.Props.C69_agree_violated",
    "Verif.Props.C69_requests_partial",
    "Verif.Props.C69_echo_violated",
    "Verif.Props.C69_withdrawn_violated",
    "Verif.Props.C69_credentials",
    "Verif.Props.C69_login",
    "Verif.Props.C69_end",
    "Verif.Props.C69_end_partial",
    "Verif.Props.C69_stalled_violated",
    "Verif.Props.C69_lines_violated",
    "Verif.Props.C69_nick",
    "Verif.Props.C69_introduces",
    "Verif.Props.C69_refused",
    "Verif.Props.C69_refused_violated",
    "Verif.Props.C69_challenge"
   ],
   "note": "C69_agree_partial: In part: with a server that waits for the end of a negotiation before it changes its offer, whenever no CAP message is on the way the bouncer and the server agree on what is on offer and on what is enabled. C69_wanted_partial: In part: with such a server that never offers `labeled-response` without `echo-message`, whenever no CAP message is on the way every capability the bouncer wants and the server offers is enabled. C69_agree_violated: If the server adds a capability and withdraws it while a request is under way, the bouncer asks twice for another capability; the refusal of the second request makes it treat that capability as disabled, although the server has enabled it. C69_requests_partial: Capabilities are requested in answer to an offer only, and only those the bouncer supports and the server offers. Partial: except that `echo-message` is requested as soon as `labeled-response` is offered (`C69_echo_violated`), and provided that capabilities are withdrawn in lower case (`C69_withdrawn_violated`). C69_echo_violated: The server offers `labeled-response` without `echo-message`: the bouncer requests both. A request with a capability that is not on offer is to be refused as a whole, so that none is enabled. C69_withdrawn_violated: A capability withdrawn with a capital letter is requested all the same. C69_end_partial: Before registration, the negotiation is ended as soon as the login has ended, or when the capabilities on offer, listed on one line, do not allow the login the network asks for. Partial: if the server does not grant `sasl`, no login is started and none ends (`C69_stalled_violated`); and the capabilities may be listed on several lines (`C69_lines_violated`). C69_stalled_violated: The server offers SASL PLAIN and `labeled-response` but not `echo-message`. It refuses the request of the bouncer, which contains a capability that is not on offer. Whatever else it says, unless it lists its capabilities again or ends a login that was never started, the bouncer does not end the negotiation, and so is never registered. C69_lines_violated: A server that addresses the bouncer by its nick, and lists its capabilities on two lines with `sasl` on the second one: the negotiation is ended after the first one, without login. C69_refused_violated: The server grants `sasl` and then refuses the login, for instance because it is busy. The bouncer does not go on without login: unless the server lists its capabilities again, the negotiation does not end."
  },
  {
   "property": "C70",
   "status": "proved",
   "theorems": [
    "Verif.Props.C70_same_network",
    "Verif.Props.C70_update",
    "Verif.Props.C70_delete",
    "Verif.Props.C70_login"
   ],
   "note": ""
  },
  {
   "property": "C71",
   "status": "proved",
   "theorems": [
    "Verif.Props.C71_refused",
    "Verif.Props.C71_allowed"
   ],
   "note": ""
  },
  {
   "property": "C72",
   "status": "partial",
   "theorems": [
    "Verif.Props.C72_roundtrip_partial",
    "Verif.Props.C72_colon_violated"
   ],
   "note": "C72_roundtrip_partial: What was uploaded is what is served. If an upload is answered with success, then whatever requests the bouncer is sent afterwards, a GET request for the location given in the answer gets exactly the uploaded data; and if the upload named a file, it is shown under that name, completed by an extension only if it had none. Here user names contain no colon (`C72_colon_violated`) and are plain. C72_colon_violated: The code does not give back the file of a user whose name contains a colon, which soju allows: the location of the file of `a:b` is outside of `/uploads/`, and the upload of `1:b` is answered with an error although the file was stored."
  },
  {
   "property": "C73",
   "status": "proved",
   "theorems": [
    "Verif.Props.C73_no_scripts"
   ],
   "note": ""
  },
  {
   "property": "C74",
   "status": "proved",
   "theorems": [
    "Verif.Props.C74_proxy",
    "Verif.Props.C74_not_spoofed",
    "Verif.Props.C74_local",
    "Verif.Props.C74_forwarded"
   ],
   "note": ""
  },
  {
   "property": "C75",
   "status": "partial",
   "theorems": [
    "Verif.Props.C75_view_partial",
    "Verif.Props.C75_stay_partial",
    "Verif.Props.C75_nick",
    "Verif.Props.C75_login_violated",
    "Verif.Props.C75_reconnect_violated",
    "Verif.Props.C75_part_violated",
    "Verif.Props.C75_attach_violated",
    "Verif.Props.C75_detach_violated",
    "Verif.Props.C75_offline_nick_violated",
    "Verif.Props.C75_present"
   ],
   "note": "C75_view_partial: For every history of the connection, of the clients and of attaching and detaching, a client knows of a channel that is not detached the same as a client connected directly in place of the bouncer: it is in the channel if the direct client is, and once the direct client has the list of members they agree on the members and on the topic. They always agree on the own nick. Assumed: the server is orderly, no client logs in while the list of members is on its way (`C75_login_violated`) and no client sends PART for the channel while it is detached (`C75_part_violated`). Left out: the ranks of members, the other commands. The converse, that a client is not in more channels, is `C75_stay_partial`. C75_stay_partial: If moreover the bouncer does not reconnect while clients are there and attaches only channels it is in, then a client thinks it is in a channel exactly if the direct client is. C75_login_violated: Does not hold of a client that logs in after the JOIN of the bouncer and before the end of the list of members: the burst leaves the channel out (downstream.go:1583-1585), and the 366 makes the bouncer send the topic and the members, but no JOIN (upstream.go:1516-1522). C75_reconnect_violated: Does not hold across a reconnection: nothing tells the clients that the channels are gone (user.go:895-931 sends neither PART nor KICK), so a client stays in a channel that the bouncer is no longer in, for good if the JOIN of the bouncer is refused. C75_part_violated: Does not hold after a PART of a detached channel: it deletes the saved channel, and until the server confirms the PART the channel counts as attached although the clients are not in it. C75_attach_violated: Does not hold of a saved detached channel that the bouncer could not join: a JOIN from a client attaches it and tells every client that it joined (user.go:354-387). C75_detach_violated: A detach that also saves the channel (downstream.go:2003-2015) is not announced: the clients stay in a channel whose messages no longer reach them. C75_offline_nick_violated: Without a connection a NICK from one client renames that client alone (downstream.go:1836-1841): the clients of the network then have different nicks."
  },
  {
   "property": "C76",
   "status": "partial",
   "theorems": [
    "Verif.Props.C76_networks",
    "Verif.Props.C76_attributes_partial",
    "Verif.Props.C76_names",
    "Verif.Props.C76_state_partial",
    "Verif.Props.C76_login",
    "Verif.Props.C76_updated",
    "Verif.Props.C76_unasked",
    "Verif.Props.C76_nick_violated",
    "Verif.Props.C76_stale_state_violated",
    "Verif.Props.C76_stale_error_violated",
    "Verif.Props.C76_removed_violated",
    "Verif.Props.C76_late_violated",
    "Verif.Props.C76_present"
   ],
   "note": "C76_attributes_partial: It knows every attribute that a network has, as it is now. For the nick and the real name this needs that nobody changed them without a reconnection (`C76_nick_violated`); for the state and the error, that no goroutine of a network that was replaced has spoken up (`C76_stale_state_violated`). Partial: the client may also know attributes that the network no longer has (`C76_removed_violated`). C76_state_partial: And, in histories in which no replaced network speaks up, which networks are connected. C76_nick_violated: Disagreement with doc/ext/bouncer-networks.md (\"MUST broadcast a BOUNCER NETWORK message with the updated attributes\"): when a client changes its nick on a network, clients that asked for notifications are not told. C76_stale_state_violated: Disagreement: the goroutine of a network that an update replaced may still report that it connected; the clients are then told that the new network is connected, and not that it isn't when that connection is closed. C76_stale_error_violated: Disagreement: likewise for an error. C76_removed_violated: Disagreement: an attribute that an update removes is not announced as removed (\"An attribute without a value means that the attribute has been removed\"): here the port and the user name remain. C76_late_violated: Disagreement (\"MUST send an initial batch\"): a client that enables the capability once it is registered is not told which networks there are."
  },
  {
   "property": "C77",
   "status": "partial",
   "theorems": [
    "Verif.Props.C77_upgrade",
    "Verif.Props.C77_upgrade_postgres",
    "Verif.Props.C77_new",
    "Verif.Props.C77_kept_partial",
    "Verif.Props.C77_named_partial",
    "Verif.Props.C77_kept_postgres_partial",
    "Verif.Props.C77_defaults",
    "Verif.Props.C77_subscriber",
    "Verif.Props.C77_failed",
    "Verif.Props.C77_once",
    "Verif.Props.C77_channels_violated",
    "Verif.Props.C77_subscription_violated"
   ],
   "note": "C77_kept_partial: SQLite databases of version 8 or later: if the upgrade succeeds, every query that could be made before has the same answer. That it succeeds is missing for versions 8 to 13, see `C77_channels_violated`. C77_named_partial: SQLite databases of versions 1 to 7, in which the owner of a network is given by name: if the upgrade succeeds, every query that could be made before has the same answer, but for the owners of the networks, which are then given by identifier: that of the user who has had this name. C77_kept_postgres_partial: PostgreSQL databases of every version: if the upgrade succeeds, every query that could be made before has the same answer, but for the subscriptions to push notifications. C77_channels_violated: Sqlite.go:132-161: a database of version 13 with a channel cannot be upgraded: the table of the networks is dropped with foreign keys enforced, while channels refer to it. C77_subscription_violated: Sqlite.go:191-194: a subscription to push notifications that is not for a network belongs to no user after the upgrade from version 16, so that it is never used again, although the column cannot be empty in a new database."
  },
  {
   "property": "C78",
   "status": "partial",
   "theorems": [
    "Verif.Props.C78_fingerprint",
    "Verif.Props.C78_pin_partial",
    "Verif.Props.C78_pin_violated",
    "Verif.Props.C78_tls",
    "Verif.Props.C78_insecure",
    "Verif.Props.C78_verified",
    "Verif.Props.C78_client",
    "Verif.Props.C78_source"
   ],
   "note": "C78_pin_partial: A server that presents a single certificate is accepted only if it holds the key of a certificate of which the user has entered the fingerprint. Missing: servers that present several, see `C78_pin_violated`. C78_pin_violated: Upstream.go:293-307: every certificate the server presents is compared with the fingerprint, not only the one whose key it has to hold. Whoever is in between can present a certificate of their own followed by that of the server, which is public, and is accepted."
  },
  {
   "property": "C79",
   "status": "partial",
   "theorems": [
    "Verif.Props.C79_internal",
    "Verif.Props.C79_accepted",
    "Verif.Props.C79_harmless_partial",
    "Verif.Props.C79_kept",
    "Verif.Props.C79_race_violated",
    "Verif.Props.C79_undone_violated",
    "Verif.Props.C79_http_partial",
    "Verif.Props.C79_http_violated",
    "Verif.Props.C79_oauth",
    "Verif.Props.C79_oauth_method",
    "Verif.Props.C79_pam",
    "Verif.Props.C79_registered"
   ],
   "note": "C79_harmless_partial: With hashes of the current kind, which is what the bouncer makes, the account is at all times what the user and the administrators last set it to, however logins and updates are interleaved. Missing: hashes of an older kind, see `C79_race_violated`. C79_race_violated: Auth/internal.go:18-36: a login with a hash of an older kind stores the whole row it has read. Whatever has been changed since is undone: a new password no longer works and the old one does, and an account that was disabled, or whose administrator was demoted, is as before. C79_undone_violated: The loop of the user goes on with the record it has loaded, so that the next time it stores it, which it does as soon as the client is connected (user.go:1334-1342), the hash is the older one again. C79_http_partial: With the HTTP authenticator, a user name without colon and a password are accepted if and only if the server says they are valid. Missing: user names with a colon, see `C79_http_violated`. C79_http_violated: Auth/http.go:33: a user name with a colon is sent as it is. Whoever the server knows as `a` with a password `b:p` is accepted as the user `a:b`, whom the server may not know at all."
  },
  {
   "property": "C80",
   "status": "partial",
   "theorems": [
    "Verif.Props.C80_no_panic",
    "Verif.Props.C80_asked",
    "Verif.Props.C80_monitor",
    "Verif.Props.C80_quiet",
    "Verif.Props.C80_timer_partial",
    "Verif.Props.C80_once",
    "Verif.Props.C80_refused_violated",
    "Verif.Props.C80_swallowed_violated",
    "Verif.Props.C80_dropped_violated",
    "Verif.Props.C80_later_violated"
   ],
   "note": "C80_timer_partial: Without MONITOR: as long as the user wants the same nick and has not got it, and no tick of the clock was lost, the bouncer goes on trying. Unless an attempt still waits for its answer, the next tick, once the events before it are handled, makes it ask for the nick again. (Partial: attempts that the server refuses for another reason never stop waiting, ticks can be lost, and a nick wanted later is not tried, see below.) C80_refused_violated: Disagreement (\"periodically try to regain our desired nick\", upstream.go:1039): if the server refuses one attempt for another reason than that the nick is in use, say because it is temporarily unavailable, the bouncer never tries again during this connection. C80_swallowed_violated: From then on, when a client itself asks for the nick and is refused, the client is not told. C80_dropped_violated: Disagreement: if the queue of the user is full for a moment when the clock ticks, the bouncer never tries again during this connection. C80_later_violated: Disagreement: a nick that the user wants later, and that is taken then, is never tried again."
  },
  {
   "property": "C81",
   "status": "partial",
   "theorems": [
    "Verif.Props.C81_store",
    "Verif.Props.C81_ids",
    "Verif.Props.C81_query",
    "Verif.Props.C81_before",
    "Verif.Props.C81_after",
    "Verif.Props.C81_search",
    "Verif.Props.C81_latest",
    "Verif.Props.C81_exact",
    "Verif.Props.C81_deleted",
    "Verif.Props.C81_last_id",
    "Verif.Props.C81_targets",
    "Verif.Props.C81_resume_partial",
    "Verif.Props.C81_resume_violated",
    "Verif.Props.C81_bytes_violated"
   ],
   "note": "C81_resume_partial: A client that comes back gets what was stored since, provided the times of the messages of the conversation are in the order in which they were stored (no two the same). Missing: that it holds without the condition; `C81_resume_violated` shows that it does not. C81_resume_violated: Fails as stated: the last message is looked up by time, so when the message that arrived last has an earlier time than one before it, a client that has received everything is sent that message again. C81_bytes_violated: Fails as stated: a message the database does not accept — with the usual encoding, one that is not well-formed UTF-8, which the bouncer relays all the same — is not stored: the history lacks it."
  },
  {
   "property": "C82",
   "status": "partial",
   "theorems": [
    "Verif.Props.C82_users",
    "Verif.Props.C82_get_user",
    "Verif.Props.C82_inactive",
    "Verif.Props.C82_networks",
    "Verif.Props.C82_channels",
    "Verif.Props.C82_receipts",
    "Verif.Props.C82_read",
    "Verif.Props.C82_subs",
    "Verif.Props.C82_configs",
    "Verif.Props.C82_success",
    "Verif.Props.C82_no_orphans",
    "Verif.Props.C82_ids",
    "Verif.Props.C82_delete_user",
    "Verif.Props.C82_stored_partial",
    "Verif.Props.C82_stored_violated"
   ],
   "note": "C82_stored_partial: A network that was stored is listed. Missing: when the network with this identifier is gone, see `C82_stored_violated`. C82_stored_violated: Is violated for records that are gone: storing a network that was deleted meanwhile succeeds, and nothing is stored."
  },
  {
   "property": "C83",
   "status": "partial",
   "theorems": [
    "Verif.Props.C83_effect",
    "Verif.Props.C83_migrated_partial",
    "Verif.Props.C83_migrated_violated",
    "Verif.Props.C83_reads_violated",
    "Verif.Props.C83_violated",
    "Verif.Props.C83_subs_violated",
    "Verif.Props.C83_failure",
    "Verif.Props.C83_sqlite_effect",
    "Verif.Props.C83_sqlite_partial",
    "Verif.Props.C83_sqlite_violated",
    "Verif.Props.C83_named_partial",
    "Verif.Props.C83_named_violated"
   ],
   "note": "C83_migrated_partial: If the users of the source have the identifiers 1, 2, … in the order in which they are listed, every user is copied with the networks, channels, delivery receipts and push subscriptions of these networks, and so are the keys for push messages. Missing: other identifiers, read receipts and subscriptions for no network, see the theorems below. C83_migrated_violated: Is violated when identifiers have gaps: after a migration without any error, bob, who had no network, has the network of ana, with its password, and ana has none. C83_reads_violated: Is violated for read receipts, even if identifiers have no gaps: they are not copied. C83_subs_violated: Is violated for push subscriptions that are for no network: they are not copied. C83_sqlite_partial: The same with an SQLite database as the destination: if the users of the source have the identifiers 1, 2, … in the order in which they are listed, every user is copied with the networks, channels, delivery receipts and push subscriptions of these networks, and so are the keys for push messages. Missing: as above. C83_sqlite_violated: Is violated when identifiers have gaps, with SQLite as well: after a migration without any error from an SQLite database to another, bob, who had no network, has the network of eve, with its password. C83_named_partial: An argument is taken for a database exactly if it is a kind of database, a colon and a source without a colon; the source is then passed on as it is. Missing: sources with a colon, see below. C83_named_violated: Is violated for databases whose source has a colon, such as `postgres://soju@db/soju` or `C:/soju.db`, which the configuration file takes: the program refuses them."
  },
  {
   "property": "C84",
   "status": "partial",
   "theorems": [
    "Verif.Props.C84_users",
    "Verif.Props.C84_get_user",
    "Verif.Props.C84_inactive",
    "Verif.Props.C84_networks",
    "Verif.Props.C84_channels",
    "Verif.Props.C84_receipts",
    "Verif.Props.C84_read",
    "Verif.Props.C84_subs",
    "Verif.Props.C84_configs",
    "Verif.Props.C84_stats",
    "Verif.Props.C84_success",
    "Verif.Props.C84_no_orphans",
    "Verif.Props.C84_ids_partial",
    "Verif.Props.C84_delete_user",
    "Verif.Props.C84_stored_partial",
    "Verif.Props.C84_stored_violated",
    "Verif.Props.C84_other_user_violated",
    "Verif.Props.C84_ids_violated"
   ],
   "note": "C84_ids_partial: At any time, the records of a kind have different identifiers, none of which is 0. Missing: an identifier can be given again once its record is deleted, see `C84_ids_violated`. C84_stored_partial: A network that was stored is listed. Missing: when the network with this identifier is gone, see `C84_stored_violated`. C84_stored_violated: Is violated for records that are gone: storing a network that was deleted meanwhile succeeds, and nothing is stored. C84_other_user_violated: Is violated for users: storing the settings of a user that was deleted meanwhile overwrites those of another user, whose identifier differs and who got the name. C84_ids_violated: Is violated for identifiers: one is given again after the record that had it was deleted."
  },
  {
   "property": "C85",
   "status": "partial",
   "theorems": [
    "Verif.Props.C85_own_log_partial",
    "Verif.Props.C85_none_lost",
    "Verif.Props.C85_rename",
    "Verif.Props.C85_rename_failed",
    "Verif.Props.C85_reuse_violated",
    "Verif.Props.C85_left_behind_violated",
    "Verif.Props.C85_targets_partial",
    "Verif.Props.C85_order_violated",
    "Verif.Props.C85_event_violated",
    "Verif.Props.C85_search_sound",
    "Verif.Props.C85_search_partial",
    "Verif.Props.C85_search_latest_partial"
   ],
   "note": "C85_own_log_partial: After any history of messages, renames and restarts, the files that are read for a conversation hold exactly the lines that were stored for it — also those stored before its network was renamed —, day by day, in the order in which they were stored. Missing: a network that takes a name which another one has given up since the store was opened (`C85_reuse_violated`); names with slashes or backslashes (`C14_collision_violated`). C85_reuse_violated: A network is renamed from `libera` to `chat`, and another one is renamed to `libera` (or created with this name). The next message of `#soju` on the latter is written to the file of the former. C85_left_behind_violated: Logs stay when a network is deleted. If a network is then renamed to the name of the deleted one, the rename of the logs fails, which is only written to the bouncer's own log: the network is shown the logs of the deleted one instead of its own. C85_targets_partial: The conversations listed are, in the order asked for, the first `limit` ones of those whose last line was written — to the second — strictly between the bounds. Missing: newest first, conversations of the same second make the order that of no strict order (`C85_order_violated`); the time of a message is not the time of its writing (`C85_event_violated`); names with slashes or backslashes are listed changed. C85_order_violated: Newest first, the comparison given to the sorting function says of two conversations of the same second that each comes before the other, which the function's documentation forbids. C85_event_violated: A conversation in which nothing but an event (say, a join) was logged is listed although it has no message, to a client that did not ask for events. C85_search_partial: A search with a lower bound, less than 100 days before the upper one, returns exactly the first `limit` messages searched for between the bounds, in chronological order. Missing: messages logged exactly at a midnight (`C13_midnight_violated`) and gaps of 100 days (`C13_gap_violated`). C85_search_latest_partial: A search without lower bound returns the last `limit` messages searched for before the upper bound, in chronological order, if there are no 100 days without one of them; otherwise the last ones of the days after such a gap."
  },
  {
   "property": "C86",
   "status": "partial",
   "theorems": [
    "Verif.Props.C86_host",
    "Verif.Props.C86_user_partial",
    "Verif.Props.C86_realname_partial",
    "Verif.Props.C86_account_partial",
    "Verif.Props.C86_setname_partial",
    "Verif.Props.C86_account_violated",
    "Verif.Props.C86_realname_violated",
    "Verif.Props.C86_setname_violated"
   ],
   "note": "C86_user_partial: A client with the chghost capability, which it did not enable after logging in, also knows its user name. C86_realname_partial: A client with the setname capability, which it did not enable after logging in, knows its real name. C86_account_partial: A client with the sasl capability, which it did not enable after logging in, knows the account it is logged in to. C86_setname_partial: While the network is connected, SETNAME of a client that has the setname capability and did not enable it after logging in is answered at once if the real name is already that one; otherwise the server is asked to change it, or the setting is changed (an empty real name stands for the default) and the bouncer disconnects in order to connect with it. C86_account_violated: A client that enables sasl again when the network is back (it was disabled when the connection was lost) is not told that it is logged in to another account, or to none, now. C86_realname_violated: A client that enables setname after having logged in is not told its real name. C86_setname_violated: While the network is not connected, a client that asks for the real name it was told last is answered that it has it, although the setting is another one and stays so."
  },
  {
   "property": "C87",
   "status": "partial",
   "theorems": [
    "Verif.Props.C87_scheme",
    "Verif.Props.C87_tcp",
    "Verif.Props.C87_raw",
    "Verif.Props.C87_local",
    "Verif.Props.C87_unix_partial",
    "Verif.Props.C87_admin_default",
    "Verif.Props.C87_plain",
    "Verif.Props.C87_admin",
    "Verif.Props.C87_admin_scheme",
    "Verif.Props.C87_tls",
    "Verif.Props.C87_start",
    "Verif.Props.C87_reload",
    "Verif.Props.C87_reload_failed",
    "Verif.Props.C87_unix_violated"
   ],
   "note": "C87_unix_partial: An absolute path after the scheme for Unix domain sockets is the path of the socket, whose permissions are set. C87_unix_violated: With a relative path the socket is made in one place and the permissions are set in another, or the first part of the path is dropped."
  },
  {
   "property": "C88",
   "status": "partial",
   "theorems": [
    "Verif.Props.C88_effect",
    "Verif.Props.C88_client",
    "Verif.Props.C88_answers",
    "Verif.Props.C88_ctl_partial",
    "Verif.Props.C88_success",
    "Verif.Props.C88_path",
    "Verif.Props.C88_error_violated"
   ],
   "note": "C88_ctl_partial: Sojuctl with printable words: the service runs the command made of exactly these words, with the rights of an administrator; the texts it prints are printed, and sojuctl succeeds just when the command does. If it fails its error is shown. Missing: an error that has a percent sign in it, see `C88_error_violated`; words that are not printable, see `C38_sojuctl_violated`. C88_error_violated: An error is used as a format: what it says about percent signs is shown wrongly."
  },
  {
   "property": "C89",
   "status": "partial",
   "theorems": [
    "Verif.Props.C89_reads",
    "Verif.Props.C89_only_partial",
    "Verif.Props.C89_rest_violated",
    "Verif.Props.C89_get",
    "Verif.Props.C89_each",
    "Verif.Props.C89_server_partial",
    "Verif.Props.C89_ipv6_violated"
   ],
   "note": "C89_only_partial: What is read is what is written at the beginning of the file, so a malformed file is not read as something else. Missing: that this is the whole file, see `C89_rest_violated`; what follows begins with the end of a section that was not begun, is a single character or a comment. C89_rest_violated: Is violated for the end of a section that was not begun: the rest of the file, here a user, is silently ignored. C89_server_partial: Of a server setting — a host, a port with or without a plus sign and possibly a password — the bouncer connects to this host and port, over TLS just if there is a plus sign, and asks for a certificate for this host; the password is kept. (For host names and IPv4 addresses; missing: IPv6 addresses, see `C89_ipv6_violated`.) C89_ipv6_violated: Is violated for IPv6 addresses: they are written into the URL without brackets, so the bouncer later takes the port for a part of the address."
  },
  {
   "property": "C90",
   "status": "partial",
   "theorems": [
    "Verif.Props.C90_users",
    "Verif.Props.C90_networks_partial",
    "Verif.Props.C90_channels",
    "Verif.Props.C90_rest",
    "Verif.Props.C90_twice",
    "Verif.Props.C90_unnamed_violated",
    "Verif.Props.C90_stops_violated",
    "Verif.Props.C90_same_server_violated",
    "Verif.Props.C90_chosen"
   ],
   "note": "C90_networks_partial: Part: after the import, each network chosen is in the database with the server, the password, the nickname, the user name and the real name written in the file, those of the user's section where the network's has none; other settings of a network that was there before have not changed. Missing: networks of the database without a name, see `C90_unnamed_violated`. C90_unnamed_violated: A network of the database without a name, which is known by its address, gets another address if the file has a network with this name: after the import there is no network with the name of the section. C90_stops_violated: An import that ends with an error has changed the database: the first of two sections about the same new user has been stored, the second is refused. C90_same_server_violated: Two networks of a user on the same server with the same nickname, which ZNC allows, are not both imported."
  },
  {
   "property": "C91",
   "status": "partial",
   "theorems": [
    "Verif.Props.C91_moved_partial",
    "Verif.Props.C91_success",
    "Verif.Props.C91_name_violated",
    "Verif.Props.C91_twice_violated",
    "Verif.Props.C91_stops_violated"
   ],
   "note": "C91_moved_partial: Migrate-logs succeeds, and stores every entry of every conversation of every network once, those of a conversation in the order in which they were logged, at their time, with their sender and their contents. What was in the database before stays. The conversation in the database has the name of the directory, see `C91_name_violated`. C91_name_violated: Does not hold for a conversation whose name cannot be the name of a directory: what was logged in `#a/b` is afterwards in `#a-b`. C91_twice_violated: A second run stores everything again. C91_stops_violated: Migrate-logs stops at a file that is no log of a day, after it has stored a part of the history; the rest is not stored, and to run it again stores this part twice."
  },
  {
   "property": "C92",
   "status": "partial",
   "theorems": [
    "Verif.Props.C92_same_partial",
    "Verif.Props.C92_monitored_partial",
    "Verif.Props.C92_monitored_violated",
    "Verif.Props.C92_unknown_violated",
    "Verif.Props.C92_early_violated"
   ],
   "note": "C92_same_partial: After every history, once the server has said how it compares names (or has ended its greeting without), every table in which the bouncer keeps names for the network, its connection, its channels and its clients compares names in this way, whenever and under whatever mapping the table and its entries were made; and a name is taken for the nick of a client exactly if it is the same to the server. Missing: the time between the connection and the announcement (`C92_unknown_violated`); announcements before the connection is accepted (`C92_early_violated`). C92_monitored_partial: A nick that a client monitors stays in its list until the client removes it, whatever happens meanwhile to the connection and however often the server announces its mapping again. Missing: a server that changes its mapping, see `C02_recase_collision_loses_entry`; changes of the settings of the network, see `C92_monitored_violated`. C92_monitored_violated: On a server with the mapping `ascii`, a client that monitors both `bob[` and `bob{` loses one of them when the settings of the network are changed: until the server has announced its mapping on the new connection they are taken for the same. C92_unknown_violated: While the server is connected again and has not announced its mapping yet, two tables of the connection compare names differently: `#a{` and `#a[` are one channel, but `bob{` and `bob[` are two of its members. C92_early_violated: A server that announces its mapping before it accepts the connection is never understood: the tables of the connection keep the mapping of RFC 1459, two channels are taken for one and the members of the first are forgotten, also after the end of the greeting."
  },
  {
   "property": "C93",
   "status": "partial",
   "theorems": [
    "Verif.Props.C93_channels_partial",
    "Verif.Props.C93_unknown",
    "Verif.Props.C93_readable",
    "Verif.Props.C93_networks",
    "Verif.Props.C93_users",
    "Verif.Props.C93_user",
    "Verif.Props.C93_extra_words",
    "Verif.Props.C93_users_failed",
    "Verif.Props.C93_notice_partial",
    "Verif.Props.C93_notice_violated",
    "Verif.Props.C93_channels_violated"
   ],
   "note": "C93_channels_partial: `channel status` lists the saved channels of the networks it is asked about, each once, network by network and sorted by name, and says of each truly whether the user is in it and whether it is detached. Missing: a client of a network whose name another network has for an address (`C93_channels_violated`). C93_notice_partial: A notice of the server reaches each client of each user whose event loop was reached, once, and the answer tells how many, if each user has one client. Missing: users with another number of clients (`C93_notice_violated`). C93_notice_violated: Does not hold for the answer to `server notice`: it counts users and says that it counts connections. C93_channels_violated: Does not hold for a client of a network whose name is the address of another network: `channel status` lists the channels of the other, although the names of all networks are distinct."
  },
  {
   "property": "C94",
   "status": "partial",
   "theorems": [
    "Verif.Props.C94_database_last_partial",
    "Verif.Props.C94_saved_partial",
    "Verif.Props.C94_goes_on_partial",
    "Verif.Props.C94_bounded_partial",
    "Verif.Props.C94_deadlock_stays",
    "Verif.Props.C94_deadlock_violated",
    "Verif.Props.C94_late_account_violated"
   ],
   "note": "C94_database_last_partial: Part: when the database is closed, every goroutine that uses it has ended: those of the users, those of the listeners and the one that disables inactive accounts. Missing: accounts that are created, and listeners that are started, after `Shutdown` was called (see `C94_late_account_violated`). C94_saved_partial: Part: when the database is closed, every user whose goroutine has not crashed has stored the delivery receipts of the clients. Missing: accounts created after `Shutdown` was called. C94_goes_on_partial: Part: as long as `Shutdown` has not returned, some goroutine can go on, unless `Shutdown` waits for a place in the channel of a user whose goroutine waits for the lock that `Shutdown` has (`C94_deadlock_violated`). Missing: that case, and accounts created after `Shutdown` was called. C94_bounded_partial: Part: the goroutines do not keep `Shutdown` waiting forever: once it is called, there is a bound to the number of steps they can make, which grows by at most two with each event that comes from outside. Missing: accounts created and listeners started after `Shutdown` was called. C94_deadlock_violated: `Shutdown` may wait forever. The loop of a user waits for the lock, which `Shutdown` has; clients have filled the channel of the user; `Shutdown` waits for a place in the channel. The database is never closed. C94_late_account_violated: An account that is created while the bouncer stops, for a client that has connected before, is not stopped: `Shutdown` waits for its goroutine forever, although nobody has anything to do; or the database is closed while the goroutine runs."
  },
  {
   "property": "C95",
   "status": "proved",
   "theorems": [
    "Verif.Props.C95_sent",
    "Verif.Props.C95_forwarded",
    "Verif.Props.C95_answer",
    "Verif.Props.C95_whole",
    "Verif.Props.C95_no_fetch",
    "Verif.Props.C95_contained"
   ],
   "note": ""
  },
  {
   "property": "C96",
   "status": "partial",
   "theorems": [
    "Verif.Props.C96_relayed",
    "Verif.Props.C96_sent_tags",
    "Verif.Props.C96_not_forged",
    "Verif.Props.C96_broadcast",
    "Verif.Props.C96_service",
    "Verif.Props.C96_echoed",
    "Verif.Props.C96_errors",
    "Verif.Props.C96_incomplete",
    "Verif.Props.C96_one_target_partial",
    "Verif.Props.C96_race_violated",
    "Verif.Props.C96_labels_violated",
    "Verif.Props.C96_label_leak_violated"
   ],
   "note": "C96_one_target_partial: No memory is written while another goroutine reads it, and a message carries the label that was chosen for it, if the command has one target only. (For several targets see `C96_race_violated` and `C96_labels_violated`.) C96_race_violated: The code does not have this property: the messages to the targets of one command share a map, and the label for the second target is written to it while the message to the first is being written to the server. The Go runtime ends the program when it notices this. C96_labels_violated: Nor this one: if the first message is written late, it carries the label of the second. C96_label_leak_violated: Nor this one: the label is still in the map when it is copied for the clients and the log."
  },
  {
   "property": "C97",
   "status": "partial",
   "theorems": [
    "Verif.Props.C97_framed_partial",
    "Verif.Props.C97_framed",
    "Verif.Props.C97_batch",
    "Verif.Props.C97_not_asked",
    "Verif.Props.C97_memory_violated",
    "Verif.Props.C97_race_violated"
   ],
   "note": "C97_framed_partial: If no tag of a message is changed before all clients have got it, then whatever happens, in whatever order, everything a client has been sent is framed: each batch has a reference of its own, is ended once, and every message with a reference comes between the start and the end of its batch. When a client has got everything, no batch is open. C97_memory_violated: Violated with the store in memory: a message is on its way to the first client when the second one connects and is sent the messages it missed. The first client gets the message with a reference to a batch it knows nothing of; so does a client that has not asked for batches. C97_race_violated: Violated with the store in memory: two clients are sent the same messages at the same time. The goroutine of the first one is reading the tags of a message while the user goroutine writes to them for the second one: the Go runtime stops the whole bouncer when it sees this."
  },
  {
   "property": "C98",
   "status": "partial",
   "theorems": [
    "Verif.Props.C98_private",
    "Verif.Props.C98_mention",
    "Verif.Props.C98_only",
    "Verif.Props.C98_invite",
    "Verif.Props.C98_dismissed_partial",
    "Verif.Props.C98_marker_only",
    "Verif.Props.C98_forgotten_violated",
    "Verif.Props.C98_order_violated",
    "Verif.Props.C98_unsaved_violated",
    "Verif.Props.C98_sent",
    "Verif.Props.C98_result",
    "Verif.Props.C98_key",
    "Verif.Props.C98_key_accepted",
    "Verif.Props.C98_two_violated"
   ],
   "note": "C98_dismissed_partial: A message that was pushed is dismissed when it is read elsewhere: when the read marker of its conversation moves to its time or beyond, that is pushed too. This needs that the server sends messages in the order of their times, that the conversation is not left and that neither the bouncer nor the network is restarted (`C98_forgotten_violated`, `C98_order_violated`). C98_forgotten_violated: Violated: when the settings of the network are changed, or the bouncer restarts, or the user leaves the channel, between the push message and the read marker, the marker is not pushed. C98_order_violated: Violated: when the server sends an older message after a newer one, the read marker that covers the newer one may not be pushed. C98_unsaved_violated: Violated: a mention in a channel that is not saved, such as one the server made the user join, is not pushed. C98_two_violated: Violated: when two bouncers are started at once on a new database (for example by a supervisor that starts a second one before the first has stopped), each sees no keys and makes its own; from then on neither starts again."
  },
  {
   "property": "C99",
   "status": "partial",
   "theorems": [
    "Verif.Props.C99_keeps_trying",
    "Verif.Props.C99_turned_away",
    "Verif.Props.C99_gives_up",
    "Verif.Props.C99_disabled",
    "Verif.Props.C99_no_panic",
    "Verif.Props.C99_spacing_partial",
    "Verif.Props.C99_due",
    "Verif.Props.C99_hammering_violated",
    "Verif.Props.C99_recovers",
    "Verif.Props.C99_fallback_violated",
    "Verif.Props.C99_removed",
    "Verif.Props.C99_reported",
    "Verif.Props.C99_commands",
    "Verif.Props.C99_told_error",
    "Verif.Props.C99_told_state",
    "Verif.Props.C99_alive_partial",
    "Verif.Props.C99_reenabled_violated",
    "Verif.Props.C99_overlap_violated"
   ],
   "note": "C99_spacing_partial: Two attempts in a row begin at least the smallest delay (a minute) apart, unless the server has closed the connection of the first after accepting it. C99_hammering_violated: Is violated for servers that accept the bouncer and then close the connection: it comes back at once, any number of times without any time passing. C99_fallback_violated: Its nick is in use, and the nick with an underscore, which nobody has asked for, is not allowed: the bouncer gives up for good, although the server has never objected to the settings of the network. C99_alive_partial: After every history of the account, an enabled network of an enabled account has a goroutine that has not ended and has not been told to stop, unless its server has refused the bouncer for good. Partial: no update of the account has failed half-way (`netErr`). `C99_reenabled_violated` shows that this is needed. C99_reenabled_violated: Is violated if the database fails while a disabled account is enabled again: the account is stored as enabled, its network too, but nothing connects it. C99_overlap_violated: When a network is updated, the new connection does not wait for the end of the old one: the bouncer can be registered with the server twice at the same time (so that its nick is in use, by itself)."
  },
  {
   "property": "C100",
   "status": "partial",
   "theorems": [
    "Verif.Props.C100_create",
    "Verif.Props.C100_update",
    "Verif.Props.C100_valid",
    "Verif.Props.C100_bouncer_change_partial",
    "Verif.Props.C100_bouncer_add_partial",
    "Verif.Props.C100_bouncer_nick_violated",
    "Verif.Props.C100_login",
    "Verif.Props.C100_nick",
    "Verif.Props.C100_sasl",
    "Verif.Props.C100_realname_partial",
    "Verif.Props.C100_refresh",
    "Verif.Props.C100_delete",
    "Verif.Props.C100_realname_violated",
    "Verif.Props.C100_kept"
   ],
   "note": "C100_bouncer_change_partial: BOUNCER CHANGENETWORK changes the network with the identifier given, and only in the attributes given. Partial: for the nick, see `C100_bouncer_nick_violated`. C100_bouncer_add_partial: BOUNCER ADDNETWORK adds one network, with the attributes given and the nick of the client, unless another is given. Partial: for the nick, see `C100_bouncer_nick_violated`. C100_bouncer_nick_violated: Is violated for the user `alice` whose nick is `ali`: their client asks for the nick `alice` on a network with BOUNCER CHANGENETWORK (or ADDNETWORK), this succeeds, and the bouncer uses the nick `ali` there. C100_realname_partial: SETNAME changes the realname that is used on the network, and nothing else: the nick that is used stays. Only if the server cannot be told of it: otherwise the realname is stored, but not used (C100_realname_violated). C100_realname_violated: SETNAME on a network whose server knows it succeeds, but the realname that is used for the next connection to the network is still the old one."
  },
  {
   "property": "C101",
   "status": "partial",
   "theorems": [
    "Verif.Props.C101_user_create",
    "Verif.Props.C101_password_off",
    "Verif.Props.C101_network_update",
    "Verif.Props.C101_network_create",
    "Verif.Props.C101_sasl_set",
    "Verif.Props.C101_sasl_reset",
    "Verif.Props.C101_certfp",
    "Verif.Props.C101_network_delete",
    "Verif.Props.C101_meant_partial",
    "Verif.Props.C101_channel_update",
    "Verif.Props.C101_channel_accepted",
    "Verif.Props.C101_channel_create_partial",
    "Verif.Props.C101_channel_delete",
    "Verif.Props.C101_name_violated",
    "Verif.Props.C101_create_detached_violated",
    "Verif.Props.C101_slash_violated",
    "Verif.Props.C101_stray_network",
    "Verif.Props.C101_stray_channel",
    "Verif.Props.C101_stray_delete",
    "Verif.Props.C101_stray_credentials",
    "Verif.Props.C101_stray_user",
    "Verif.Props.C101_certfp_key",
    "Verif.Props.C101_not_a_command"
   ],
   "note": "C101_meant_partial: When no other network has the name that is shown for a network as its address, that name means the network. C101_channel_create_partial: `channel create` adds one channel, with the settings given. Partial: the channel is not detached, whatever is asked for, see `C101_create_detached_violated`. C101_name_violated: The service lists a network without a name under its address, but that name may mean another network, one with the same address: of a network named \"bot\" and one without a name on the same server, `network delete irc.libera.chat` deletes \"bot\". C101_create_detached_violated: `channel create` accepts `-detached true`, and creates a channel that is not detached. C101_slash_violated: A channel with a slash in its name cannot be meant in a client that is not bound to a network: what comes after the first slash is taken for the name of the network."
  },
  {
   "property": "C102",
   "status": "partial",
   "theorems": [
    "Verif.Props.C102_list_partial",
    "Verif.Props.C102_group",
    "Verif.Props.C102_command",
    "Verif.Props.C102_unknown",
    "Verif.Props.C102_server_violated"
   ],
   "note": "C102_list_partial: `help` prints a list of commands, each once, by their full names. Every line of it can be given to the service as it is printed, and runs a command; and every command that can be used is in it, except, where there is no user (on the administration socket), those of the group `server`. C102_server_violated: The list is not complete on the administration socket: `server status` can be used there and is not in it."
  },
  {
   "property": "C103",
   "status": "partial",
   "theorems": [
    "Verif.Props.C103_create",
    "Verif.Props.C103_change",
    "Verif.Props.C103_failed",
    "Verif.Props.C103_succeeds",
    "Verif.Props.C103_login",
    "Verif.Props.C103_input",
    "Verif.Props.C103_unknown",
    "Verif.Props.C103_running_violated",
    "Verif.Props.C103_flag_violated",
    "Verif.Props.C103_empty_violated",
    "Verif.Props.C103_name_violated"
   ],
   "note": "C103_running_violated: While the server runs, a change of a password is undone by the next thing the server stores about the user, which it does as soon as one of their clients does something: it writes the record it has in memory, with the old password (user.go:1192-1204, 1334-1342). C103_flag_violated: A flag before the name is taken for the name: the account is called `-admin`, and is not an administrator. C103_empty_violated: On a terminal the empty password is accepted (it is not on the standard input). C103_name_violated: An account can be created under a name with which nobody can log in: what follows a slash or an at sign is never taken for a part of the name."
  },
  {
   "property": "C104",
   "status": "partial",
   "theorems": [
    "Verif.Props.C104_known_partial",
    "Verif.Props.C104_asked",
    "Verif.Props.C104_change",
    "Verif.Props.C104_reconnect_violated",
    "Verif.Props.C104_bouncer",
    "Verif.Props.C104_operator_violated",
    "Verif.Props.C104_sign_violated"
   ],
   "note": "C104_known_partial: A client of the network that has logged in knows the modes of the user for as long as the connection with the server lasts: what it was told adds up to what the server has said. Missing: after the bouncer has connected again (`C104_reconnect_violated`), mode strings no server sends. C104_reconnect_violated: A client connected before the bouncer lost its server and connected again is not told that the modes are gone. C104_operator_violated: An administrator who connects to the bouncer is told that they are an operator, and when they ask that they are none. C104_sign_violated: RPL_UMODEIS without a sign is taken to say that there are no modes, and the clients do not hear of it."
  },
  {
   "property": "C105",
   "status": "partial",
   "theorems": [
    "Verif.Props.C105_frame",
    "Verif.Props.C105_nick",
    "Verif.Props.C105_motd",
    "Verif.Props.C105_bouncer",
    "Verif.Props.C105_network",
    "Verif.Props.C105_known_partial",
    "Verif.Props.C105_addressed_partial",
    "Verif.Props.C105_addressed_violated",
    "Verif.Props.C105_reconnect_violated"
   ],
   "note": "C105_known_partial: A client that logs in while the network is connected knows, for every feature of the server it may know, what the server said last on this connection, before or after. Missing: negated tokens and escape sequences (C48), and a server that the bouncer has connected to again (`C105_reconnect_violated`). C105_addressed_partial: Every message of the greeting names the client it is for, except for those about the features and the message of the day. C105_addressed_violated: Those are sent to `*`, as if the client had no name. C105_reconnect_violated: A client that stays while the bouncer connects to the server again goes on believing in features the server no longer has: this one has been told of no feature on the new connection."
  },
  {
   "property": "C106",
   "status": "proved",
   "theorems": [
    "Verif.Props.C106_served",
    "Verif.Props.C106_waits",
    "Verif.Props.C106_wait_bounds",
    "Verif.Props.C106_ends"
   ],
   "note": ""
  },
  {
   "property": "C107",
   "status": "partial",
   "theorems": [
    "Verif.Props.C107_text",
    "Verif.Props.C107_unchanged",
    "Verif.Props.C107_ascii",
    "Verif.Props.C107_replaced",
    "Verif.Props.C107_line_violated"
   ],
   "note": "C107_line_violated: A frame should hold one message. One with a line break in it is taken as a message whose text has the line break in it, and passed on to a server, or to a client on a plain connection, it is two lines: the second is a message of its own."
  },
  {
   "property": "C108",
   "status": "partial",
   "theorems": [
    "Verif.Props.C108_known",
    "Verif.Props.C108_listed",
    "Verif.Props.C108_asked",
    "Verif.Props.C108_change",
    "Verif.Props.C108_elsewhere",
    "Verif.Props.C108_queried",
    "Verif.Props.C108_created",
    "Verif.Props.C108_detached_violated",
    "Verif.Props.C108_relisted_violated"
   ],
   "note": "C108_detached_violated: A client that asks for the modes of a detached channel before the server has listed them never gets an answer, although the server answers the bouncer. C108_relisted_violated: When the server lists other modes than it has said, the clients are not told: the bouncer keeps the new list for itself, and those who do not ask again go on with the old one."
  },
  {
   "property": "C109",
   "status": "proved",
   "theorems": [
    "Verif.Props.C109_sasl",
    "Verif.Props.C109_impersonate",
    "Verif.Props.C109_pass",
    "Verif.Props.C109_bind_early",
    "Verif.Props.C109_bind_asked"
   ],
   "note": ""
  },
  {
   "property": "C110",
   "status": "partial",
   "theorems": [
    "Verif.Props.C110_known",
    "Verif.Props.C110_asked",
    "Verif.Props.C110_set",
    "Verif.Props.C110_elsewhere",
    "Verif.Props.C110_clock_violated",
    "Verif.Props.C110_time_violated"
   ],
   "note": "C110_clock_violated: The clock of the bouncer is used for the time of a topic, not the time the server gives (a TODO in the code): a client that hears of the change and one that comes later do not agree on when it was made. C110_time_violated: If the server gives a time that is not a number, the author is kept all the same: a client that asks is told that the topic was set in the year one."
  },
  {
   "property": "C111",
   "status": "partial",
   "theorems": [
    "Verif.Props.C111_order",
    "Verif.Props.C111_framed",
    "Verif.Props.C111_complete",
    "Verif.Props.C111_turn",
    "Verif.Props.C111_bound",
    "Verif.Props.C111_stopped",
    "Verif.Props.C111_lost_violated"
   ],
   "note": "C111_lost_violated: Fails in full: a message that was received, from a connection nothing had closed when it was read, is not handled when the other side leaves right after it: the goroutine of the connection closes it before the loop gets to the message."
  },
  {
   "property": "C112",
   "status": "partial",
   "theorems": [
    "Verif.Props.C112_told_partial",
    "Verif.Props.C112_nick",
    "Verif.Props.C112_setname",
    "Verif.Props.C112_network",
    "Verif.Props.C112_restart",
    "Verif.Props.C112_account",
    "Verif.Props.C112_own",
    "Verif.Props.C112_registering_violated",
    "Verif.Props.C112_setname_violated",
    "Verif.Props.C112_setname_lost_violated",
    "Verif.Props.C112_follows_violated",
    "Verif.Props.C112_failed_violated"
   ],
   "note": "C112_told_partial: In a history without the gaps shown below, the server of each network has been told the nick and the real name that are set. C112_registering_violated: The nick changes while a connection is registering: the server is never told. C112_setname_violated: A client changes the real name over SETNAME of the server; once the bouncer has connected again, the server is told the old one. C112_setname_lost_violated: A client changes the real name over SETNAME of the server, and then the nick: the real name that was set is lost. C112_follows_violated: Without a real name that is set, the nick is used; when the nick changes, the server is told the nick but not the real name. C112_failed_violated: A client's SETNAME fails, as the setting cannot be stored, but the server has been told."
  },
  {
   "property": "C113",
   "status": "partial",
   "theorems": [
    "Verif.Props.C113_live",
    "Verif.Props.C113_reads",
    "Verif.Props.C113_history_partial",
    "Verif.Props.C113_shown",
    "Verif.Props.C113_summer_violated",
    "Verif.Props.C113_skipped_violated",
    "Verif.Props.C113_zero_violated"
   ],
   "note": "C113_history_partial: A message comes from the history with the time it was shown with when it arrived, and it is selected and sorted by this time. Partial: with log files the clocks must show its local time only once (`C113_summer_violated`), and a database does not keep a message of the first instant of the year 1 (`C113_zero_violated`). C113_summer_violated: Is violated at the end of summer time: with log files, a message of the hour that comes twice is shown with its time when it arrives, and comes from the history as one that was said an hour later. C113_skipped_violated: Is violated at the end of summer time in a second way: of two messages in the same log file, shown as of 00:30 and 01:10, neither is found when the messages before 01:20 are asked for. The search stops at the first one, whose line it takes for one of 01:30. C113_zero_violated: Is violated with SQLite: a message that the server dates to the first instant of the year 1 is shown to the clients and not kept."
  },
  {
   "property": "C114",
   "status": "proved",
   "theorems": [
    "Verif.Props.C114_spaced",
    "Verif.Props.C114_window",
    "Verif.Props.C114_upstream",
    "Verif.Props.C114_prompt",
    "Verif.Props.C114_burst"
   ],
   "note": ""
  },
  {
   "property": "C115",
   "status": "partial",
   "theorems": [
    "Verif.Props.C115_figures_partial",
    "Verif.Props.C115_upstreams_violated",
    "Verif.Props.C115_notice",
    "Verif.Props.C115_reached",
    "Verif.Props.C115_connections_violated"
   ],
   "note": "C115_figures_partial: `server status` tells how many users there are, and how many connections of clients are open. For servers only a bound holds: it counts the attempts to connect as well. C115_upstreams_violated: A network whose server cannot be reached counts as a connection to a server. C115_connections_violated: It says that it counts connections of clients, but counts users: a notice no client can see was, it says, sent to one connection of one; and one that three clients get as well."
  },
  {
   "property": "C116",
   "status": "partial",
   "theorems": [
    "Verif.Props.C116_credentials",
    "Verif.Props.C116_success",
    "Verif.Props.C116_alone",
    "Verif.Props.C116_login",
    "Verif.Props.C116_over_partial",
    "Verif.Props.C116_already_violated",
    "Verif.Props.C116_fail_violated",
    "Verif.Props.C116_again_violated",
    "Verif.Props.C116_identity_violated",
    "Verif.Props.C116_lost_violated",
    "Verif.Props.C116_own_violated"
   ],
   "note": "C116_over_partial: In part: when a client is told with one of the numerics of SASL (902 to 906) that its exchange is over, then it is: if it may, it can start another, and is asked for its response. Missing: a client that is told so because the network cannot be logged in to (`C116_lost_violated`), one that has given a different identity (`C116_identity_violated`), and other messages of the server (`C116_again_violated`, `C116_already_violated`). C116_already_violated: A server that does not let users log in twice says so with 907. The bouncer does not take this for the end of the exchange: from then on nobody can log in through this connection, whoever tries is told that it failed, and nothing is sent to the server. C116_fail_violated: The same happens when the server refuses AUTHENTICATE with the standard reply FAIL. C116_again_violated: A client that is told to try again (263) and tries again is told that it failed: its `AUTHENTICATE PLAIN` is taken for a part of the first response. C116_identity_violated: A client that gives an identity different from its name (`i`, NUL, `u`, NUL, `p`) is told that this failed; when it then tries to log in it is told again that it failed. C116_lost_violated: The connection is lost while a client is asked for its response, and the client is told that it failed; when the network can be logged in to again and the client tries again it is told again that it failed. C116_own_violated: The server withdraws `sasl` and offers it again while a client logs in. The bouncer then logs in as its settings say, and the client is told that it has logged in, although the server was never given what the client said."
  },
  {
   "property": "C117",
   "status": "partial",
   "theorems": [
    "Verif.Props.C117_passed_on",
    "Verif.Props.C117_origin",
    "Verif.Props.C117_once",
    "Verif.Props.C117_names",
    "Verif.Props.C117_others",
    "Verif.Props.C117_bouncer",
    "Verif.Props.C117_disconnected",
    "Verif.Props.C117_ping",
    "Verif.Props.C117_own_modes",
    "Verif.Props.C117_mode_refused",
    "Verif.Props.C117_mode_change",
    "Verif.Props.C117_short",
    "Verif.Props.C117_told",
    "Verif.Props.C117_who_known",
    "Verif.Props.C117_who_service",
    "Verif.Props.C117_who_self",
    "Verif.Props.C117_register",
    "Verif.Props.C117_whois_service",
    "Verif.Props.C117_whois_violated",
    "Verif.Props.C117_quit_violated",
    "Verif.Props.C117_addressed_violated"
   ],
   "note": "C117_whois_violated: WHOIS may name several nicks, but if the first one is that of the service the others are not asked for: nothing is sent to the server, and the client is told nothing of them. C117_quit_violated: What a client sends after QUIT is still carried out: a KICK reaches the server. C117_addressed_violated: The numerics with which the bouncer refuses a command, or ends a list, need not name the client they are for, as numerics do: in its place there is a star."
  },
  {
   "property": "C118",
   "status": "partial",
   "theorems": [
    "Verif.Props.C118_answers",
    "Verif.Props.C118_partway",
    "Verif.Props.C118_nothing_else",
    "Verif.Props.C118_idle",
    "Verif.Props.C118_nobody_violated",
    "Verif.Props.C118_away_violated",
    "Verif.Props.C118_gone_violated",
    "Verif.Props.C118_who_violated",
    "Verif.Props.C118_server_violated",
    "Verif.Props.C118_register_violated"
   ],
   "note": "C118_nobody_violated: Most servers end the reply to WHOIS when there is nobody of the name, too. That end is taken for the end of the next reply, of another client, even if it has the label of the first one: the other client gets the end of a reply it did not ask for, and its own reply is dropped. The client that asked does not get the end. C118_away_violated: That somebody is away (301), or a bot (335), is part of the reply to WHOIS. Without labels every client is sent it. C118_gone_violated: Without labels, what the server says to the command of a client that has gone is sent to all others, if it is a refusal. C118_who_violated: A line of the reply to WHO with the distance, but no real name after it, is not passed on. C118_server_violated: WHOIS for somebody by a server that does not exist is answered with the name of the server. Without labels all clients are sent it, and no other WHOIS gets to the server: here that of the second client. C118_register_violated: An answer to REGISTER without the name of the account is not passed on: the client that asked is told nothing."
  },
  {
   "property": "C119",
   "status": "partial",
   "theorems": [
    "Verif.Props.C119_hears",
    "Verif.Props.C119_hears_unique",
    "Verif.Props.C119_only_clients",
    "Verif.Props.C119_calls_back",
    "Verif.Props.C119_says_nothing",
    "Verif.Props.C119_pushed",
    "Verif.Props.C119_greeting_violated",
    "Verif.Props.C119_error_violated",
    "Verif.Props.C119_fatal",
    "Verif.Props.C119_refused"
   ],
   "note": "C119_greeting_violated: *violated*: a client that asks for the message of the day while the server still greets gets no answer: the lines of the reply, although labelled with the client, are taken for the greeting. C119_error_violated: *violated*: why the server closes the connection is not told to anybody."
  },
  {
   "property": "C120",
   "status": "partial",
   "theorems": [
    "Verif.Props.C120_client",
    "Verif.Props.C120_told",
    "Verif.Props.C120_in_time",
    "Verif.Props.C120_dial",
    "Verif.Props.C120_said_partial",
    "Verif.Props.C120_silent_violated",
    "Verif.Props.C120_slow_violated"
   ],
   "note": "C120_said_partial: A server that lets the bouncer in within a minute is sent all it should be, in order: the saved channels are joined, and the connect commands are sent. The full property is that this is so however long the server takes; it is violated (`C120_slow_violated`). C120_silent_violated: Violated** A server that accepts the connection and says nothing is waited for without end: at any time the bouncer may still be waiting for it, though the code means to give it a minute. C120_slow_violated: Violated** When a server lets the bouncer in more than a minute after the connection was begun, the saved channels may be left unjoined and the connect commands unsent, whatever they are, and the connection is used all the same."
  },
  {
   "property": "C121",
   "status": "partial",
   "theorems": [
    "Verif.Props.C121_switch",
    "Verif.Props.C121_debug",
    "Verif.Props.C121_complete",
    "Verif.Props.C121_quiet_partial",
    "Verif.Props.C121_quiet_violated",
    "Verif.Props.C121_skipped_violated",
    "Verif.Props.C121_in",
    "Verif.Props.C121_harmless",
    "Verif.Props.C121_out_partial",
    "Verif.Props.C121_written",
    "Verif.Props.C121_out_open",
    "Verif.Props.C121_out_violated",
    "Verif.Props.C121_error"
   ],
   "note": "C121_quiet_partial: If debugging was never on, nothing that was sent is in the log, and a message that was received is only there if it could not be handled, if a server said it was from or for the service, or if its connection was closed before it was handled. Missing: the latter two (`C121_quiet_violated`, `C121_skipped_violated`). C121_quiet_violated: Is violated: debugging is never on, and the password a user sends to a service of the network is written to the log, because the client hung up before the message was handled. C121_skipped_violated: Is violated: debugging is never on, and what somebody on the network sends to a user whose nick there is that of the service is written to the log. C121_out_partial: The numbers of messages sent to clients and to servers are not less than those of the messages they were sent or will be sent. Missing: equality, see `C121_out_violated`. C121_out_violated: Is violated for the number of messages sent to clients: a message for a client that has hung up is counted, and never sent."
  },
  {
   "property": "C122",
   "status": "partial",
   "theorems": [
    "Verif.Props.C122_published",
    "Verif.Props.C122_rare",
    "Verif.Props.C122_total",
    "Verif.Props.C122_survives_partial",
    "Verif.Props.C122_host",
    "Verif.Props.C122_private_violated",
    "Verif.Props.C122_crash_violated"
   ],
   "note": "C122_survives_partial: The numbers are published if the host names that may be named are well-formed. Missing: other host names, for which the bouncer crashes (`C122_crash_violated`). C122_private_violated: Is violated if it is to hide what few users do: one user who is no administrator has ten networks on a host of their own, each of which is accepted, and the host is published. C122_crash_violated: Is violated: one user who is no administrator has ten networks whose host name is not UTF-8 when it is decoded, each of which is accepted, and the bouncer crashes when the numbers are to be published."
  },
  {
   "property": "C123",
   "status": "partial",
   "theorems": [
    "Verif.Props.C123_place_partial",
    "Verif.Props.C123_kept",
    "Verif.Props.C123_offered_partial",
    "Verif.Props.C123_reach_partial",
    "Verif.Props.C123_fixed",
    "Verif.Props.C123_readback",
    "Verif.Props.C123_separate",
    "Verif.Props.C123_client",
    "Verif.Props.C123_come_and_go",
    "Verif.Props.C123_reload_violated",
    "Verif.Props.C123_offered_violated"
   ],
   "note": "C123_place_partial: Messages are kept where the configuration said when the bouncer was started, in all histories. Missing: histories in which the configuration is reloaded with another message store (`C123_reload_violated`). C123_offered_partial: A client is offered the history exactly if its requests are answered from the store of its user; and the history of a client that does not take it in this way is sent as a backlog. Missing: histories in which the configuration is reloaded with another message store (`C123_offered_violated`). C123_reach_partial: No client is left without history, as long as the message store is not changed: a client gets it with the requests it has enabled, or it is sent the backlog. C123_reload_violated: Is violated: the manual says that the message store cannot be reloaded, but after a reload the messages of new users go to another place than those of the others, and than the bouncer was started with. C123_offered_violated: Is violated: after a reload a client can be offered the history of a user whose store does not answer requests for it. The client that accepts the offer gets an error, is sent no backlog, and so misses the message that was kept for it."
  },
  {
   "property": "C124",
   "status": "partial",
   "theorems": [
    "Verif.Props.C124_once",
    "Verif.Props.C124_lossless_partial",
    "Verif.Props.C124_switch_violated",
    "Verif.Props.C124_return_violated",
    "Verif.Props.C124_memory_violated"
   ],
   "note": "C124_lossless_partial: Once a client has a receipt in a store that is kept on disk, it gets all messages said since in that store when it is connected, however often the bouncer is restarted, even if it was run with the memory store in between. Missing: that it is run with another store on disk, or always with the memory store (`C124_switch_violated`, `C124_return_violated`, `C124_memory_violated`). C124_switch_violated: Is violated: after a change from log files to the database (or back) a client that comes back is not sent what was said since, though it is in the store: its receipt is one of the old store, which the new one refuses. C124_return_violated: Is violated: after a visit to another store on disk, the messages said before it in the first one are not sent any more, though the first one is used again: the receipt has been replaced. C124_memory_violated: Is violated: with the memory store, a client that comes back after a restart is not sent what was said after the restart, though it is in memory: receipts are not saved."
  }
 ]
}