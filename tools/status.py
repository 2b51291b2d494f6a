STATUS = {
 'C01': ('proved', ''),
 'C02': ('proved', 'labels obtained from text; intersections are such labels'),
 'C03': ('proved', 'labels obtained from text'),
 'C04': ('proved', 'all constructor forms'),
 'C05': ('partial', 'violated for labels built from an int (C05_fails); proved for all other pairs'),
 'C06': ('partial', 'violated: upper bound off by one (C06_fails)'),
 'C07': ('proved', 'exact grammar; names containing the URN prefix are misread (C07_embedded_prefix_fails)'),
 'C08': ('proved', ''),
 'C09': ('proved', ''),
 'C10': ('proved', 'limit of start times by the calendar (C10_far_future); zero-length and expired entries block a resource (C10_degenerate_blocks)'),
 'C11': ('proved', ''),
 'C12': ('proved', ''),
 'C13': ('proved', 'non-negative costs; local networks not blacklisted'),
 'C14': ('proved', 'non-negative costs; local networks not blacklisted'),
 'C15': ('partial', 'violated with a negative cost (C15_fails); proved for non-negative costs'),
 'C16': ('partial', 'violated: a changed cost is not stored (C16_fails); proved for new destinations and deletes'),
 'C17': ('proved', ''),
 'C18': ('proved', 'admission characterised exactly for label sets parsed from text; refusals leave no trace, except the calendar on a connection id collision (C22)'),
 'C19': ('partial', 'allocated values are among the requested; among the configured ones only if the requested labels are a subset of these. Violated: the requested label is enumerated, not its intersection with the port, genericbackend.py:288 (C19_configured_fails)'),
 'C20': ('proved', 'smallest free value per end (swapping) or for both ends; refusal only if all were taken at some instant during the search'),
 'C21': ('partial', 'entries of the calendar: every interleaving without restarts (C21_interleaved_partial, C21_interleaved_ends_partial); stored connections: clean histories of completed operations, and orderly interleavings at every moment (C21_connections_interleaved_partial: operations that change what a connection has booked do not overlap others on the same connection), with restarts when no operation is under way if operations on the same connection do not overlap at all (C21_restarts_interleaved_partial); between the ends: ports different or label sets disjoint. Violated otherwise (C21_connections_fails, C21_ends_fails, C21_commit_race_fails), and by requests served before a restart has loaded the stored connections (C21_restart_fails)'),
 'C22': ('partial', 'clean histories of completed operations, with restarts; orderly interleavings without restarts (C22_interleaved_partial); interleavings in which operations on the same connection do not overlap, with restarts when no operation is under way (C22_restarts_interleaved_partial). Violated after an id collision, after a repeated terminate and when a commit overlaps the reservation timeout (C22_collision_fails, C22_retry_fails, C22_commit_race_fails), and for a connection provisioned while the backend is starting (C22_restart_fails)'),
 'C23': ('partial', 'every interleaving, with failures and restarts: link up only after start time and authorised commit and provision requests (C23_interleaved); the states when the link is set up, and the active flag: clean histories of completed operations, and interleavings in which operations on the same connection do not overlap, with restarts when no operation is under way (C23_active_interleaved_partial)'),
 'C24': ('partial', 'clean histories of completed operations; interleavings in which operations on the same connection do not overlap, with restarts when no operation is under way (C24_deadline_interleaved_partial, C24_expires_interleaved_partial). Violated: reservation without start time and with end time in the past is held for ever (C24_past_end_fails)'),
 'C25': ('partial', 'clean histories of completed operations; interleavings in which operations on the same connection do not overlap, with restarts when no operation is under way (C25_terminate_interleaved_partial). Violated: repeating terminate raises AttributeError, genericbackend.py:496 (C25_repeat_fails)'),
 'C26': ('partial', 'restarts that run through; not for connections found provisioning or releasing, or starting at that very instant. Violated: C26_no_end_fails, C26_start_now_fails'),
 'C54': ('partial', 'clean histories of completed operations; interleavings in which operations on the same connection do not overlap, with restarts when no operation is under way (C54_released_interleaved_partial). Violated: provision fails if the start time passes by more than a second while the state is stored (C54_provision_fails)'),
 'C27': ('partial', 'operations that follow each other, with restarts: released or over connections stay so until provisioned (C27_stays_partial), also if interleaved with operations on other connections (C27_stays_interleaved_partial; see also C25_terminate_interleaved_partial). Violated for operations that overlap: a slow activation resurrects a released or terminated connection (C27_release_fails, C27_terminate_fails)'),
 'C32': ('partial', 'messages handled one after the other; every network of ours has a provider. Violated: the terminate requests carry the URN of the provider asked last (C32_addressed_fails); no cleanup if a network on the way has no provider (C32_no_provider_fails)'),
 'C33': ('proved', 'messages handled one after the other; if a network on the way has no provider an initial part of the chain is requested. Connections from a remote source to a local destination are always refused (C33_remote_source_refused)'),
 'C34': ('partial', 'impossible times refused (C34_times); trace, user and transit policies proved for all interleavings; local hairpins make no request. Violated: hairpins in remote networks are passed on (C34_proxied_hairpin_fails); a refused hairpin stays in the database (C34_hairpin_cleaned_fails)'),
 'C28': ('partial', 'messages handled one after the other, segment ids and correlation ids not reused: at most one confirmation, every segment asked for is held. Violated: two confirmations handled at the same time (C28_twice_fails), a failure handled at the same time as a confirmation (C28_despite_failure_fails), a provider confirming after the request was refused (C28_after_error_fails)'),
 'C29': ('partial', 'messages handled one after the other, segment ids and correlation ids not reused. Violated for the destination unless the last segment is confirmed last (C29_destination_fails)'),
 'C30': ('partial', 'messages handled one after the other, segment ids not reused: at most one confirmation per request, when all segments have reached the state, and then it is sent. Violated: a terminate confirmation nobody asked for is passed on (C30_unrequested_fails), segments of two providers with the same id (C30_premature_fails), confirmations handled at the same time (C30_twice_fails), abort confirmations for a commit (C30_mixed_fails)'),
 'C31': ('partial', 'reservation replies with unknown correlation id: ignored in every state and every interleaving, and no reply is accepted twice, in every interleaving (C31_accepted_once). Messages one after the other: replies about unknown segments change nothing, and a reply changes only its segment and connection. Violated: replies about segments are not checked against the provider (C31_segment_fails)'),
 'C35': ('partial', 'as functions of the segments; notifications and summaries also as sent, when messages are handled one after the other. Violated: recursive query of segments without version (C35_recursive_fails); queries call segments consistent that do not agree (C35_consistent_fails)'),
 'C36': ('partial', 'messages one after the other: announced when the first segment times out, and not again while it stays so. Violated when timeouts are handled at the same time (C36_unnoticed_fails) and after an unsolicited commit confirmation (C36_twice_fails)'),
 'C37': ('partial', 'in every interleaving: answered at most once (C37_at_most_once), unknown replies ignored (C37_unknown_ignored), and complete when the correlation id of the query is not reused and generated ids differ (C37_complete_partial); violated when two requesters use the same correlation id (C37_mixed_fails); a query may stay unanswered (C37_unanswered_fails)'),
 'C39': ('partial', 'violated: no operation checks the requester (C39_fails)'),
 'C40': ('partial', 'backend: the notifications sent are numbered 0, 1, 2, ... since the start or the last restart, in every interleaving (C40_notifications, C40_notifications_since_restart; queries not included), so that ids repeat across restarts (C40_backend_restart_fails). Aggregator: ids in query results are unique between restarts in every interleaving (C40_query_ids_unique); violated for data plane notifications (C40_data_plane_fails) and across restarts (C40_restart_fails)'),
 'C55': ('partial', 'violated for abort (C55_abort_fails)'),
 'C38': ('partial', 'privacy in every interleaving; exactness when messages are handled one after the other. Violated: queries by global reservation id only are never answered (C38_global_id_fails)'),
 'C57': ('proved', 'every interleaving and restarts'),
 'C58': ('partial', 'violated: there is no check of ownership (C58_terminate_fails, C58_query_fails)'),
 'C41': ('partial', 'Provider: in every sequence of events each request is confirmed at most once, every confirmation goes to a request for that connection and operation, unasked ones are not sent, and a request is answered if no other request of its kind comes in between. Violated: commit and abort share a key; a second request of the same kind takes the place of the first; confirmations before the connection id is known are lost; refused requests stay pending; synchronous queries are keyed by correlation id only.'),
 'C42': ('partial', 'at most once, own reply, unknown replies ignored, completion by timeout: proved for every interleaving. Violated: a reply of another kind carrying the key loses the call (C42_lost_fails), reserveCommitFailed has no method (C42_commit_failed_fails), the timer of an answered call with a reused correlation id ends the later call (C42_stale_timer_fails)'),
 'C43': ('partial', 'every history of registrations; networks found by discovery share one provider. Violated for the own networks: each backend is registered as a provider of its own under one URN (C43_local_fails)'),
 'C44': ('partial', 'all classes in the code table. Violated: two classes are missing from the table (C44_class_fails); a code of five characters of unknown family raises ValueError (C44_malformed_fails)'),
 'C45': ('partial', 'holds if no value is the empty text (C45_attributes_partial); exact law C45_exact; empty values are lost (C45_empty_fails)'),
 'C47': ('proved', ''),
 'C59': ('proved', 'texts must not be empty'),
 'C46': ('partial', 'trees of any depth with at most ten children per criteria are received as sent (C46_tree_partial); exact law C46_exact: wider ones in textual order, nothing lost (C46_children_perm). Violated: order of eleven children (C46_order_fails), data plane version None (C46_version_fails), child without criteria (C46_no_criteria_fails)'),
 'C60': ('partial', 'all kinds of messages; violated for parameters with empty value (C60_parameter_fails); the service type of a request is not the one of its confirmation (C60_service_type_fails)'),
 'C61': ('proved', 'services without ERO and parameters, which are not sent'),
 'C50': ('partial', 'every history: what a notification sends (C50_steps), at most one commit per time held, at most one provision more than releases, nothing after a notification saw it provisioned. Once each, and committed before provisioned, if it is not checked again, not released, not aborted. Violated: provisioned after an abort (C50_abort_fails), again when released quickly (C50_released_fails), never committed when held before the watcher subscribes (C50_missed_fails)'),
 'C51': ('partial', 'SOAP with allow-list exact (C51_soap). Violated over REST, where a list admits nobody (C51_rest_fails) and the list of connections is not protected (C51_list_fails); SOAP over TLS without list and client certificate raises (C51_no_list_fails); resources for replies do not check the list (C51_callback_fails)'),
 'C52': ('partial', 'holds if the clock does not go back and documents of one second are not told apart (C52_not_hidden). Violated for two documents within a second (C52_same_second_fails) and if the clock goes back (C52_clock_fails)'),
 'C62': ('partial', 'fields, defaults and end points in full (C62_reserved, C62_described, C62_refused). Violated: the description of a connection without start or end time is refused if used as a request, because absent times are written as null (C62_null_fails)'),
 'C48': ('partial', 'exact for every line and every file, both directions (C48_line, C48_line_complete, C48_file, C48_file_complete, C48_error), what the tables by name hold (C48_last_wins). Violated: names that occur twice are not detected (C48_duplicate_fails)'),
 'C53': ('partial', 'exact costs for any sequence of documents, and in the running service (C53_service); limits and use if no cost below -1 is advertised (C53_limits_partial, C53_used_partial). Violated: a changed cost is ignored (C53_changed_cost_fails), a changed URL is ignored (C53_moved_fails), a negative cost makes the path search run for ever (C53_negative_cost_fails)'),
 'C49': ('partial', 'violated when an observer unsubscribes itself (C49_fails); exact behaviour in C49_self_removal'),
 'C56': ('proved', ''),
 'C63': ('partial', 'identity, URL and networks are what the peer registers (C63_document, C63_learned). Any document: refused as a whole if one cost is not a number (C63_refused), used as a whole otherwise (C63_read). Violated: reachability is never published (C63_reach_fails), and a service with only an aggregator does not start (C63_aggregator_fails)'),
 'C64': ('partial', 'exact content and directions (C64_network, C64_directions, C64_ids); everything in the document is read, except for the names of the label types (C64_read_partial, C64_file_partial). Violated: the last statement of the reader always raises (C64_parse_fails), label types are not mapped back (C64_label_fails), names with a colon (C64_colon_fails), ids that occur twice (C64_ids_fails)'),
 'C65': ('partial', 'exact for the test backend and for devices on which a vlan exists once (C65_dud, C65_global); exact for the backends that name resources after ports if no two ports share an interface (C65_ports_partial); with C21 no double booking (C65_booked_partial). Violated: ports that share an interface (C65_shared_fails, C65_double_fails), whole interfaces (C65_whole_fails), JunOS EX (C65_junosex_fails)'),
 'C66': ('partial', 'exact for Juniper EX and, between ports on different interfaces, VPLS (C66_juniperex, C66_vpls, C66_vpls_target_partial); for JunOS MX and EX under stated conditions on the ends (C66_junosmx_partial, C66_junosex_partial); exact for Brocade (C66_brocade), for Pica8 and OESS under stated conditions (C66_pica_partial, C66_oess_partial). Violated: whole interfaces, shared LSPs, remote and transit tear downs (C66_mx_..._fails), VPLS targets (C66_vpls_target_fails), Pica8 ports with the same last number (C66_pica_fails), OESS circuits between the same interfaces (C66_oess_vlan_fails)'),
 'C67': ('partial', 'exact for each backend: which pairs of ends can be set up and taken down, with commands for both ends (C67_mx_offered, C67_dud, C67_mx_partial, C67_space_partial, C67_space_circuit, C67_ex_partial, C67_vpls_partial, C67_brocade_partial, C67_pica_partial, C67_junosex_partial, C67_oess_partial). Violated: for each backend other pairs are accepted too (C67_..._fails); with Force10 and NCS VPN no connection can be made (C67_force10_fails, C67_ncs_fails)'),
 'C71': ('partial', 'a circuit exists after a set up that the server grants, and none is left after a tear down in the same process (C71_up_partial, C71_down_partial, C71_error, C71_interface, C71_none). Violated: refused circuits (C71_refused_fails), vlans that are not available (C71_unavailable_fails), after a restart (C71_restart_fails), circuits listed in reverse (C71_reverse_fails)'),
 'C68': ('partial', 'ports and demarcation points for all paths (C68_places, C68_demarcation); common value and success if no two networks that need help are neighbours (C68_helped_partial, C68_succeeds_partial), narrowing if both sides ask for the same label (C68_narrows_partial). Violated: single value (C68_single_fails), neighbours (C68_neighbour_fails, C68_adjacent_fails), ports without label (C68_none_fails). Only the first path is pruned (C68_paths), and nothing calls the pruner (C68_unused_fails)'),
 'C69': ('partial', 'exact conditions of acceptance (C69_accepted), all values (C69_values), administrators (C69_admins). Violated: policies with blanks, peers, list of hosts, blank entries, names of sections, unknown backends, a second file (C69_..._fails)'),
 'C70': ('proved', 'also over restarts (C70_never_twice, C70_made). The ids are those the plugin would make: its module cannot be imported (C80_canarie_fails)'),
 'C72': ('partial', 'order and completeness of what is written (C72_order) and what was printed before the end (C72_confirmed) for all channels, devices and packets; the session ends with Brocade and Pica8 however packets are cut (C72_brocade, C72_pica8), with Force10 if the shell is granted first (C72_force10_partial), with JunOS if lines are not cut (C72_lines_partial); all commands are answered before the end (C72_brocade_done, C72_force10_done). Violated: cut lines (C72_cut_fails), time limits (C72_timeout_fails), silent devices (C72_silent_fails), refused commands (C72_refused_fails), bytes and text (C72_text_fails), early prompts (C72_early_fails, C72_pica8_early_fails, C72_force10_early_fails)'),
 'C73': ('partial', 'one at a time with the lock (C73_one); all calls end if sessions end and no connection is lost (C73_all_partial), without lock also after losses (C73_ex_partial). Violated: after a loss (C73_lost_fails), behind a session that hangs (C73_blocked_fails), shared configuration of Juniper EX (C73_shared_fails)'),
 'C74': ('proved', 'every interleaving, with failures and restarts; labels parsed from text'),
 'C75': ('proved', 'every interleaving, with failures and restarts; labels parsed from text'),
 'C76': ('partial', 'the defaults file (C76_defaults, C76_shorthand), precedence (C76_precedence), attributes (C76_attributes), TLS (C76_tls), where replies are expected (C76_listener), what commands need (C76_required) in full; verification if the defaults file does not mention it (C76_verify_partial). Violated: no-verify in the defaults file means its opposite (C76_verify_fails), TLS without client certificate (C76_oneway_fails), defaults with two = (C76_equals_fails)'),
 'C77': ('partial', 'in full for all commands, providers and failures (C77_course, C77_reserved, C77_single, C77_unread, C77_correlation, C77_trace, C77_events, C77_events_read). Violated: events of other connections end the wait (C77_other_connection_fails), reservecommit without a connection id (C77_reservecommit_fails), routes with several vlans at a point (C77_route_fails)'),
 'C78': ('partial', 'host, port and TLS for all URLs with names or IPv4 addresses (C78_http, C78_https, C78_https_default); no https URL in whatever case goes out unencrypted (C78_secure, C78_no_context); SOAP headers (C78_soap); outcomes (C78_reserve, C78_refused, C78_fault_partial, C78_acknowledged_partial); rounds of discovery (C78_rounds_partial, C78_interval). Violated: default port of http (C78_http_default_fails), IPv6 (C78_ipv6_fails), schemes that begin with http (C78_scheme_fails), time limit (C78_timeout_fails), closed connections (C78_closed_fails), other statuses (C78_status_fails), one bad peer URL ends discovery (C78_peer_fails)'),
 'C79': ('partial', 'what is served, for all paths (C79_served); what the document lists (C79_listed); each URL answers if the base URL has no path and names are plain (C79_announced), and leads to the listener if there is no base URL (C79_reached); replies (C79_callback); topologies (C79_documents); the document is current unless no port leads to the peer (C79_current_partial). Violated: the list of connections is not reachable (C79_view_fails), names with a slash (C79_slash_fails), a base URL as in the template (C79_base_url_fails), replies behind a proxy (C79_proxy_fails), peers that no port leads to (C79_stale_fails)'),
 'C80': ('partial', 'start exactly characterised (C80_started), known types of backends (C80_types), sufficient condition on the configuration (C80_usable), settings, registry and vectors for any documents (C80_runs). Violated: backend types asyncfail and junosspace (C80_asyncfail_fails, C80_junosspace_fails), plugin canarie (C80_canarie_fails), vectors of ports (C80_vector_fails), missing port map (C80_missing_map_fails), no backends (C80_aggregator_fails), stop (C80_stop_fails)'),
 'C81': ('partial', 'requests (C81_request), replies and notifications (C81_reply), nothing else is called (C81_only, C81_only_requester), other actions (C81_unknown, C81_unknown_requester), elements (C81_element, C81_reply_element), answer (C81_answer). Violated: the body is not compared with the action (C81_body_fails), requests without decoder (C81_missing_fails), error events with exception or information (C81_event_exception_fails, C81_event_info_fails), errors without variables (C81_error_variables_fails), delivery timeouts (C81_delivery_fails), failed commits (C81_commit_failed_fails)'),
 'C82': ('partial', 'statements (C82_statement), rows recorded and read back (C82_recorded), which reservations, segments and backend connections are recorded (C82_service, C82_service_read, C82_segment, C82_backend, C82_backend_read). Violated: requests that only the database refuses (C82_schedule_fails, C82_direction_fails, C82_capacity_fails), negative capacities (C82_negative_fails), labels differ after a restart (C82_label_equal_fails)'),
 'C83': ('partial', 'what is recorded (C83_recorded), what is asked of other providers (C83_segment), what is confirmed (C83_confirmed_partial, C83_told), backends (C83_backend), queries (C83_query_partial). Violated: direction and symmetry of confirmations and query results (C83_direction_fails), parameters (C83_parameters_fails), versions (C83_version_fails)'),
 'C84': ('partial', 'operations in the course of a history, with failures of the device: each event makes at most one (C84_one), the link of a connection without failures is set up and torn down in turn (C84_in_turn), and never while another one without failures shares a resource, if links are not set up late (C84_operations_partial); without failures, what is then on the device (C84_settled_partial, C84_juniperex_partial, C84_vpls_partial, C84_brocade_partial, C84_pica_partial). Violated: a link that could not be torn down stays, and its resources are given to the next connection (C84_failed_fails); a backend that was down when one connection ended and the next on the same vlan began tears down the old after setting up the new (C84_late_fails), which removes the new one from a Juniper EX (C84_juniperex_late_fails). Missing: histories in which events overlap, the other devices'),
 'C85': ('partial', 'requests over SOAP (C85_soap), links (C85_link), chains of aggregators (C85_chain, C85_remote), the cleanup for ports without rules for hosts (C85_cleanup_partial). Violated for the cleanup at ports with rules for hosts (C85_cleanup_fails), for REST (C85_rest_fails), and in that nobody vouches for attributes (C85_attributes_fails)'),
 'C86': ('partial', 'every interleaving of the aggregator and the backends, with restarts, if nobody else speaks for a backend and correlation ids are unique: C86_reserved, C86_provisioned, C86_terminated, C86_active in full; C86_committed, C86_aborted: some backend was asked the same, all others to commit or abort; C86_released: some backend was asked. Messages handled one after the other: the source label (C86_reserved_partial), all segments at the time of the confirmation (C86_done_partial, C86_active_partial)'),
 'C87': ('partial', 'holds where the calls leave one choice (C87_fit_partial). Violated otherwise: each backend takes its first free label and the aggregator does not compare them (C87_fit_fails)'),
 'C88': ('partial', 'the pending call (C88_calls_partial), up from the start (C88_window_partial), over at the end (C88_over_partial, C88_released_partial); for operations that follow each other or are interleaved with operations on other connections, and are done at most a second after the start or end of their connection; with restarts when no operation is under way. Violated for connections whose activation failed, which never end (C88_failed_activation_fails)'),
 'C89': ('partial', 'a restart from any database: calendar (C89_calendar_partial), calls (C89_calls_partial), links (C89_links_partial), ended and terminated connections (C89_gone_partial), when it may stop (C89_runs_partial); for connections on which no operation was under way. Violated if the process died during a terminate (C89_terminated_up_fails, C89_blocked_fails), at an end time (C89_ended_up_fails), during a release (C89_releasing_fails) or at a reservation timeout (C89_timeout_fails)'),
 'C90': ('partial', 'causes of every kind of message to requesters, in every interleaving with restarts, for arbitrary received messages (C90_provision, C90_release, C90_commit, C90_abort, C90_terminate, C90_data_plane, C90_timeout, C90_error, C90_failed, C90_reserved; the last one for unique correlation ids). Violated for terminateConfirmed, which needs no request (C90_unasked_terminate_fails), and errors of connections with several segments are dropped (C90_error_lost_fails). Not shown for releaseConfirmed: that all segments were released before (a segment may be released because it was never provisioned)'),
 'C91': ('partial', 'every interleaving with restarts: each confirmation answers one request, which came before it and asked for it (C91_answers, C91_after), at most once (C91_once); what was confirmed has happened (C91_reserved, C91_failed, C91_committed, C91_aborted, C91_provisioned, C91_released, C91_terminated, with the limits of C86). Between restarts a request is answered by the next confirmation of its kind, unless another request for the same connection comes in between (C91_told, C91_received, C91_delivered). Violated: who asked is not always told (C91_lost_fails, C91_restart_fails), and somebody else may be told instead (C91_stranger_fails)'),
 'C92': ('partial', 'only to the configured host (C92_listed, C92_keys, C92_force10), with the configured credentials (C92_credentials), told at most once (C92_once, C92_connected), told if reached or refused (C92_reached, C92_refused), closed (C92_closed). Violated: another host key, refused credentials or a loss are never reported (C92_rejected_fails, C92_denied_fails), a configured port (C92_port_fails), Force10 with keys (C92_force10_fails), channels that are not opened (C92_unopened_fails), no credentials (C92_left_open_fails)'),
 'C93': ('proved', 'messages one after the other, ids not reused: the reservation (C93_reservation), each later request (C93_operation), any series of requests (C93_life), all together (C93_connection). Restarts are allowed except during the reservation, where the property is violated (C93_restart_fails). A recursive query handled at the same time as a request can leave a stale object behind, and the requester is never told (C93_query_fails).'),
 'C94': ('proved', 'as handled alone (C94_serial), untouched by others (C94_untouched), told the truth through a series of requests (C94_life); the conditions on what is in memory hold after a restart (C94_restart) and are kept (C94_again). The calls made to the providers are not compared, reservation messages of the connection itself are not among those handled. Messages about the same connection that overlap, be it only a notification, violate it (C94_overlap_fails).'),
 'C95': ('partial', 'requests (C95_requests), replies and notifications (C95_replies), acknowledgements (C95_answer, C95_acknowledgements), answers to synchronous queries (C95_sync), faults (C95_faults), requests passed on (C95_forwarded). Violated: a request without version is passed on with an invalid one (C95_version_fails), requests without schedule cannot be read (C95_schedule_fails), numeric booleans are read as false (C95_boolean_fails). The schema is transcribed from the standard (trusted), without bounds of numbers.'),
 'C96': ('partial', 'topologies (C96_topology, C96_references), the discovery document (C96_discovery, C96_interfaces), both at any time of a running service (C96_served). Violated: VLANs beyond 4094 are accepted and published (C96_vlan_range_fails), networks without VLANs publish a service for VLANs (C96_service_type_fails). The formats are transcribed (trusted).'),
 'C97': ('partial', 'every answer (C97_answer, C97_nothing), summaries from the provider to the screen (C97_summary), recursive queries likewise for criteria with at most ten children (C97_recursive_partial; more children are reordered, C46_order_fails). Answers with services other than point to point are not modelled.'),
 'C98': ('partial', 'exact lines (C98_mx_local, C98_mx_lsp, C98_mx_remote, C98_mx_transit, C98_junosex, C98_juniperex, C98_vpls, C98_brocade, C98_pica, C98_force10), what the device reads (C98_mx_read and the others ending in _read), the sessions in which the lines are sent (C98_brocade_session, C98_force10_session, C98_pica_session). Requests to OESS and what the server reads if names are plain (C98_oess, C98_oess_asked, C98_oess_down); violated for names with characters that mean something in a URL (C98_oess_fails). For transit connections over LSPs only what is read, not the exact lines.'),
 'C99': ('partial', 'C99_reported, C99_recorded, C99_query, C99_query_only over all interleavings with restarts; C99_told for what the requester of the aggregator is told. The code violates it for links that the device refuses to take down (stored as inactive), for notification ids in answers, and for queries by global id (never answered).'),
 'C100': ('partial', 'adding, replacing and looking up networks (C100_add, C100_update, C100_lookup), looking up ports (C100_port, C100_networkPort), the other side of a port (C100_demarcation, C100_demarcation_sound, C100_demarcation_none). Violated for paths: the search always raises an exception (C100_paths_fails).'),
 'C101': ('partial', 'as a client for every setting (C101_client), as a server with verify on (C101_server, C101_admitted), own certificate (C101_own), same authorities both ways if files have one certificate each (C101_same_partial). Violated with verify off (C101_unverified_fails), for files with several certificates (C101_bundle_fails), for files that are none (C101_bad_file_fails). Verification of chains is of the library (trusted).'),
 'C102': ('partial', 'the text of the page is made exactly if all connections have an end time (C102_made) and then shows the connections, if names have no markup (C102_shown_partial), with the times of day of their instants (C102_time). Violated: one connection without end time prevents the page (C102_no_end_fails), names are not escaped (C102_markup_fails), and the text is never sent as texts cannot be written (C102_written_fails).'),
}
