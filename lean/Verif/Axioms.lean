import Verif.Access.Props
import Verif.Agg.PropsAccepted
import Verif.Agg.PropsCauses
import Verif.Agg.PropsComplete
import Verif.Agg.PropsConfirm
import Verif.Agg.PropsCounts
import Verif.Agg.PropsForged
import Verif.Agg.PropsHeld
import Verif.Agg.PropsLabels
import Verif.Agg.PropsLife
import Verif.Agg.PropsOwn
import Verif.Agg.PropsOwner
import Verif.Agg.PropsPlane
import Verif.Agg.PropsQueries
import Verif.Agg.PropsReplyFails
import Verif.Agg.PropsReserve
import Verif.Agg.PropsStatus
import Verif.Agg.PropsTimeout
import Verif.Authz.Props
import Verif.Backend.PropsApart
import Verif.Backend.PropsBoot
import Verif.Backend.PropsConc
import Verif.Backend.PropsCrash
import Verif.Backend.PropsInter
import Verif.Backend.PropsLife
import Verif.Backend.PropsLively
import Verif.Backend.PropsNotes
import Verif.Backend.PropsOwn
import Verif.Backend.PropsReserve
import Verif.Backend.PropsRows
import Verif.Backend.PropsStays
import Verif.Backend.PropsStaysApart
import Verif.Backend.PropsTrace
import Verif.Backend.PropsUp
import Verif.Calendar.Props
import Verif.Calendar.PropsYears
import Verif.Cli.Props
import Verif.Cli.PropsFile
import Verif.Cli.PropsMore
import Verif.Cli.PropsPlan
import Verif.Cli.PropsRun
import Verif.Cli.PropsShow
import Verif.Config.Props
import Verif.Criteria.Props
import Verif.Db.Props
import Verif.Db.PropsBackend
import Verif.Device.PropsAccept
import Verif.Device.PropsAcceptVlan
import Verif.Device.PropsConfig
import Verif.Device.PropsConfigMx
import Verif.Device.PropsLines
import Verif.Device.PropsOess
import Verif.Device.PropsOessText
import Verif.Device.PropsResource
import Verif.Device.PropsSwitches
import Verif.Device.PropsTrace
import Verif.Discovery.Props
import Verif.Discovery.PropsDocument
import Verif.Discovery.PropsFormat
import Verif.Discovery.PropsRead
import Verif.Front.Props
import Verif.Front.PropsFails
import Verif.Front.PropsTold
import Verif.Http.Props
import Verif.Http.PropsClient
import Verif.Joint.Props
import Verif.Joint.PropsFit
import Verif.Joint.PropsUp
import Verif.Joint.PropsWhole
import Verif.Label.Props
import Verif.LinkVector.Props
import Verif.LinkVector.PropsTies
import Verif.Nml.Props
import Verif.Nml.PropsFormat
import Verif.Nml.PropsPaths
import Verif.Nrm.Props
import Verif.Plugin.Props
import Verif.Plugin.PropsIds
import Verif.Plugin.PropsUse
import Verif.Provider.Props
import Verif.Registry.Props
import Verif.Requester.Props
import Verif.Rest.Props
import Verif.Scheduler.Props
import Verif.Setup.Props
import Verif.Setup.PropsFails
import Verif.Setup.PropsFormat
import Verif.Setup.PropsLearn
import Verif.Setup.PropsStart
import Verif.Ssh.PropsData
import Verif.Ssh.PropsDone
import Verif.Ssh.PropsLines
import Verif.Ssh.PropsLogin
import Verif.Ssh.PropsSender
import Verif.State.Props
import Verif.Stp.Props
import Verif.Stp.PropsTypes
import Verif.Tls.Props
import Verif.View.Props
import Verif.Wire.PropsAnswers
import Verif.Wire.PropsDispatch
import Verif.Wire.PropsErrors
import Verif.Wire.PropsHeader
import Verif.Wire.PropsMessages
import Verif.Wire.PropsQuery
import Verif.Wire.PropsReplies
import Verif.Wire.PropsSchema
import Verif.Wire.PropsServices
import Verif.Wire.PropsTime
/-
Axioms used by every property theorem (generated by tools/gen.py).
-/
#print axioms OpenNSA.C01_label_parse
#print axioms OpenNSA.C01_items_exist_unique
#print axioms OpenNSA.C01_label_parse_list
#print axioms OpenNSA.C02_label_roundtrip
#print axioms OpenNSA.C02_intersect_fromText
#print axioms OpenNSA.C03_intersect_exact
#print axioms OpenNSA.C03_canMatch
#print axioms OpenNSA.C03_type_mismatch
#print axioms OpenNSA.C04_enumerate
#print axioms OpenNSA.C05_equality_partial
#print axioms OpenNSA.C05_fromText_form
#print axioms OpenNSA.C05_fails
#print axioms OpenNSA.C06_random_partial
#print axioms OpenNSA.C06_fails
#print axioms OpenNSA.C07_parse_exact
#print axioms OpenNSA.C07_urn_roundtrip
#print axioms OpenNSA.C07_namespace
#print axioms OpenNSA.C07_prefix_required
#print axioms OpenNSA.C07_urn_injective
#print axioms OpenNSA.C07_embedded_prefix_fails
#print axioms OpenNSA.C07_label_texts
#print axioms OpenNSA.C07_label_refused
#print axioms OpenNSA.C08_trace_is_nsi_path
#print axioms OpenNSA.C08_accept_iff
#print axioms OpenNSA.C08_refused_no_change
#print axioms OpenNSA.C08_multi_refusal_moves_object
#print axioms OpenNSA.C08_start_only_via_commit_or_abort
#print axioms OpenNSA.C08_provisioned_only_from_provisioning
#print axioms OpenNSA.C08_lifecycle_final
#print axioms OpenNSA.C08_commit_after_held
#print axioms OpenNSA.C09_book_matches
#print axioms OpenNSA.C09_no_overlap
#print axioms OpenNSA.C10_check_exact
#print axioms OpenNSA.C10_other_resources
#print axioms OpenNSA.C10_degenerate_blocks
#print axioms OpenNSA.C10_far_future
#print axioms OpenNSA.C11_remove_undoes_add
#print axioms OpenNSA.C11_remove_one
#print axioms OpenNSA.C11_remove_absent
#print axioms OpenNSA.C12_one_pending
#print axioms OpenNSA.C12_schedule_refused
#print axioms OpenNSA.C12_done_never_runs
#print axioms OpenNSA.C12_runs_once_not_early
#print axioms OpenNSA.C12_cancel_clears
#print axioms OpenNSA.C12_due_call_runs
#print axioms OpenNSA.C13_path_is_route
#print axioms OpenNSA.C14_cheapest_found
#print axioms OpenNSA.C14_ties
#print axioms OpenNSA.C15_path_ends_partial
#print axioms OpenNSA.C15_fails
#print axioms OpenNSA.C16_update_exact
#print axioms OpenNSA.C16_update_partial
#print axioms OpenNSA.C16_fails
#print axioms OpenNSA.C16_delete_exact
#print axioms OpenNSA.C16_deleted_not_used
#print axioms OpenNSA.C17_authorized_iff
#print axioms OpenNSA.C17_decides
#print axioms OpenNSA.C17_monotone
#print axioms OpenNSA.C17_no_request_info
#print axioms OpenNSA.Backend.C18_admission_exact
#print axioms OpenNSA.Backend.C18_accepted
#print axioms OpenNSA.Backend.C18_refused_no_effect
#print axioms OpenNSA.Backend.C19_requested_partial
#print axioms OpenNSA.Backend.C19_configured_partial
#print axioms OpenNSA.Backend.C19_configured_fails
#print axioms OpenNSA.Backend.C20_refused_only_if_taken
#print axioms OpenNSA.Backend.C20_smallest
#print axioms OpenNSA.Backend.C21_restarts_interleaved_partial
#print axioms OpenNSA.Backend.C21_restart_fails
#print axioms OpenNSA.Backend.C21_interleaved_partial
#print axioms OpenNSA.Backend.C21_interleaved_ends_partial
#print axioms OpenNSA.Backend.C21_connections_partial
#print axioms OpenNSA.Backend.C21_ends_partial
#print axioms OpenNSA.Backend.C21_connections_fails
#print axioms OpenNSA.Backend.C21_ends_fails
#print axioms OpenNSA.Backend.C21_connections_interleaved_partial
#print axioms OpenNSA.Backend.C21_commit_race_fails
#print axioms OpenNSA.Backend.C22_restarts_interleaved_partial
#print axioms OpenNSA.Backend.C22_restart_fails
#print axioms OpenNSA.Backend.C22_calendar_partial
#print axioms OpenNSA.Backend.C22_retry_fails
#print axioms OpenNSA.Backend.C22_collision_fails
#print axioms OpenNSA.Backend.C22_interleaved_partial
#print axioms OpenNSA.Backend.C22_commit_race_fails
#print axioms OpenNSA.Backend.C23_active_interleaved_partial
#print axioms OpenNSA.Backend.C23_setup_partial
#print axioms OpenNSA.Backend.C23_active_partial
#print axioms OpenNSA.Backend.C23_interleaved
#print axioms OpenNSA.Backend.C24_deadline_interleaved_partial
#print axioms OpenNSA.Backend.C24_expires_interleaved_partial
#print axioms OpenNSA.Backend.C24_deadline_partial
#print axioms OpenNSA.Backend.C24_expires_partial
#print axioms OpenNSA.Backend.C24_past_end_fails
#print axioms OpenNSA.Backend.C25_terminate_interleaved_partial
#print axioms OpenNSA.Backend.C25_terminate_partial
#print axioms OpenNSA.Backend.C25_repeat_fails
#print axioms OpenNSA.Backend.C26_restart_partial
#print axioms OpenNSA.Backend.C26_no_end_fails
#print axioms OpenNSA.Backend.C26_start_now_fails
#print axioms OpenNSA.Backend.C27_release_fails
#print axioms OpenNSA.Backend.C27_terminate_fails
#print axioms OpenNSA.Backend.C27_stays_partial
#print axioms OpenNSA.Backend.C27_stays_interleaved_partial
#print axioms OpenNSA.Agg.C28_once_partial
#print axioms OpenNSA.Agg.C28_all_held_partial
#print axioms OpenNSA.Agg.C28_twice_fails
#print axioms OpenNSA.Agg.C28_despite_failure_fails
#print axioms OpenNSA.Agg.C28_after_error_fails
#print axioms OpenNSA.Agg.C29_source_partial
#print axioms OpenNSA.Agg.C29_destination_partial
#print axioms OpenNSA.Agg.C29_destination_fails
#print axioms OpenNSA.Agg.C30_all_segments_partial
#print axioms OpenNSA.Agg.C30_completion_partial
#print axioms OpenNSA.Agg.C30_provision_release_count_partial
#print axioms OpenNSA.Agg.C30_commit_abort_count_partial
#print axioms OpenNSA.Agg.C30_terminate_once_partial
#print axioms OpenNSA.Agg.C30_unrequested_fails
#print axioms OpenNSA.Agg.C30_premature_fails
#print axioms OpenNSA.Agg.C30_twice_fails
#print axioms OpenNSA.Agg.C30_mixed_fails
#print axioms OpenNSA.Agg.C31_accepted_once
#print axioms OpenNSA.Agg.C31_forged_reservation
#print axioms OpenNSA.Agg.C31_forged_reservation_interleaved
#print axioms OpenNSA.Agg.C31_foreign_segment_partial
#print axioms OpenNSA.Agg.C31_segment_only_partial
#print axioms OpenNSA.Agg.C31_accepted_once_partial
#print axioms OpenNSA.Agg.C31_segment_fails
#print axioms OpenNSA.Agg.C32_cleanup_partial
#print axioms OpenNSA.Agg.C32_addressed_fails
#print axioms OpenNSA.Agg.C32_no_provider_fails
#print axioms OpenNSA.Agg.C33_chain
#print axioms OpenNSA.Agg.C33_remote_source_refused
#print axioms OpenNSA.Agg.C34_trace
#print axioms OpenNSA.Agg.C34_user
#print axioms OpenNSA.Agg.C34_transit
#print axioms OpenNSA.Agg.C34_given_id
#print axioms OpenNSA.Agg.C34_hairpin_no_request
#print axioms OpenNSA.Agg.C34_hairpin_refused
#print axioms OpenNSA.Agg.C34_hairpin_cleaned_fails
#print axioms OpenNSA.Agg.C34_proxied_hairpin_fails
#print axioms OpenNSA.Agg.C34_times
#print axioms OpenNSA.Agg.C35_told_partial
#print axioms OpenNSA.Agg.C35_query_partial
#print axioms OpenNSA.Agg.C35_summary
#print axioms OpenNSA.Agg.C35_notification
#print axioms OpenNSA.Agg.C35_recursive
#print axioms OpenNSA.Agg.C35_recursive_defined
#print axioms OpenNSA.Agg.C35_recursive_fails
#print axioms OpenNSA.Agg.C35_consistent_fails
#print axioms OpenNSA.Agg.C36_unnoticed_fails
#print axioms OpenNSA.Agg.C36_announced_partial
#print axioms OpenNSA.Agg.C36_once_partial
#print axioms OpenNSA.Agg.C36_twice_fails
#print axioms OpenNSA.Agg.C37_complete_partial
#print axioms OpenNSA.Agg.C37_unknown_ignored
#print axioms OpenNSA.Agg.C37_at_most_once
#print axioms OpenNSA.Agg.C37_unanswered_fails
#print axioms OpenNSA.Agg.C37_empty_fails
#print axioms OpenNSA.Agg.C37_mixed_fails
#print axioms OpenNSA.Agg.C38_private
#print axioms OpenNSA.Agg.C38_exact_partial
#print axioms OpenNSA.Agg.C38_global_id_fails
#print axioms OpenNSA.Agg.C39_fails
#print axioms OpenNSA.Agg.C40_query_ids_unique
#print axioms OpenNSA.Agg.C40_restart_fails
#print axioms OpenNSA.Agg.C40_data_plane_fails
#print axioms OpenNSA.Backend.C40_notifications
#print axioms OpenNSA.Backend.C40_notifications_since_restart
#print axioms OpenNSA.Backend.C40_backend_restart_fails
#print axioms OpenNSA.Provider.C41_at_most_once
#print axioms OpenNSA.Provider.C41_addressed
#print axioms OpenNSA.Provider.C41_queries
#print axioms OpenNSA.Provider.C41_unasked
#print axioms OpenNSA.Provider.C41_answered
#print axioms OpenNSA.Provider.C41_commit_abort_fails
#print axioms OpenNSA.Provider.C41_overwritten_fails
#print axioms OpenNSA.Provider.C41_early_fails
#print axioms OpenNSA.Provider.C41_refused_fails
#print axioms OpenNSA.Provider.C41_sync_fails
#print axioms OpenNSA.Requester.C42_at_most_once
#print axioms OpenNSA.Requester.C42_own_reply
#print axioms OpenNSA.Requester.C42_own_timeout
#print axioms OpenNSA.Requester.C42_unknown_ignored
#print axioms OpenNSA.Requester.C42_no_shared_key
#print axioms OpenNSA.Requester.C42_completes
#print axioms OpenNSA.Requester.C42_eventually_partial
#print axioms OpenNSA.Requester.C42_lost_fails
#print axioms OpenNSA.Requester.C42_commit_failed_fails
#print axioms OpenNSA.Requester.C42_stale_timer_fails
#print axioms OpenNSA.Registry.C43_forever
#print axioms OpenNSA.Registry.C43_registered
#print axioms OpenNSA.Registry.C43_unknown
#print axioms OpenNSA.Registry.C43_shared
#print axioms OpenNSA.Registry.C43_spawn
#print axioms OpenNSA.Registry.C43_local_fails
#print axioms OpenNSA.Wire.C44_class_partial
#print axioms OpenNSA.Wire.C44_wire_partial
#print axioms OpenNSA.Wire.C44_other
#print axioms OpenNSA.Wire.C44_family
#print axioms OpenNSA.Wire.C44_malformed_length
#print axioms OpenNSA.Wire.C44_class_fails
#print axioms OpenNSA.Wire.C44_malformed_fails
#print axioms OpenNSA.Wire.C45_exact
#print axioms OpenNSA.Wire.C45_attributes_partial
#print axioms OpenNSA.Wire.C45_empty_fails
#print axioms OpenNSA.Wire.C46_exact
#print axioms OpenNSA.Wire.C46_tree_partial
#print axioms OpenNSA.Wire.C46_children_perm
#print axioms OpenNSA.Wire.C46_order_fails
#print axioms OpenNSA.Wire.C46_version_fails
#print axioms OpenNSA.Wire.C46_no_criteria_fails
#print axioms OpenNSA.Wire.C47_offset
#print axioms OpenNSA.Wire.C47_roundtrip
#print axioms OpenNSA.Wire.C47_fields
#print axioms OpenNSA.Wire.C47_no_zone
#print axioms OpenNSA.Wire.C47_date_only
#print axioms OpenNSA.Wire.C47_zone_needed
#print axioms OpenNSA.Wire.C47_injective
#print axioms OpenNSA.Nrm.C48_line
#print axioms OpenNSA.Nrm.C48_line_complete
#print axioms OpenNSA.Nrm.C48_file
#print axioms OpenNSA.Nrm.C48_file_complete
#print axioms OpenNSA.Nrm.C48_error
#print axioms OpenNSA.Nrm.C48_remote_error
#print axioms OpenNSA.Nrm.C48_last_wins
#print axioms OpenNSA.Nrm.C48_duplicate_fails
#print axioms OpenNSA.C49_all_notified_partial
#print axioms OpenNSA.C49_self_removal
#print axioms OpenNSA.C49_fails
#print axioms OpenNSA.Rest.C50_steps
#print axioms OpenNSA.Rest.C50_when
#print axioms OpenNSA.Rest.C50_commit_once
#print axioms OpenNSA.Rest.C50_provision_once
#print axioms OpenNSA.Rest.C50_once_partial
#print axioms OpenNSA.Rest.C50_nothing_after
#print axioms OpenNSA.Rest.C50_committed_partial
#print axioms OpenNSA.Rest.C50_refused
#print axioms OpenNSA.Rest.C50_abort_fails
#print axioms OpenNSA.Rest.C50_released_fails
#print axioms OpenNSA.Rest.C50_missed_fails
#print axioms OpenNSA.Http.C51_soap
#print axioms OpenNSA.Http.C51_soap_otherwise
#print axioms OpenNSA.Http.C51_rest_exact
#print axioms OpenNSA.Http.C51_rest_fails
#print axioms OpenNSA.Http.C51_list_fails
#print axioms OpenNSA.Http.C51_no_list_fails
#print axioms OpenNSA.Setup.C51_callback_fails
#print axioms OpenNSA.Http.C52_not_hidden
#print axioms OpenNSA.Http.C52_current
#print axioms OpenNSA.Http.C52_unchanged
#print axioms OpenNSA.Http.C52_changed
#print axioms OpenNSA.Http.C52_same_second_fails
#print axioms OpenNSA.Http.C52_clock_fails
#print axioms OpenNSA.Discovery.C53_costs
#print axioms OpenNSA.Discovery.C53_providers
#print axioms OpenNSA.Discovery.C53_limits_partial
#print axioms OpenNSA.Discovery.C53_used_partial
#print axioms OpenNSA.Discovery.C53_discarded
#print axioms OpenNSA.Discovery.C53_no_sharing
#print axioms OpenNSA.Discovery.C53_raised
#print axioms OpenNSA.Discovery.C53_changed_cost_fails
#print axioms OpenNSA.Discovery.C53_negative_cost_fails
#print axioms OpenNSA.Setup.C53_moved_fails
#print axioms OpenNSA.Setup.C53_service
#print axioms OpenNSA.Backend.C54_released_interleaved_partial
#print axioms OpenNSA.Backend.C54_released_partial
#print axioms OpenNSA.Backend.C54_provision_fails
#print axioms OpenNSA.Agg.C55_success
#print axioms OpenNSA.Agg.C55_single
#print axioms OpenNSA.Agg.C55_several
#print axioms OpenNSA.Agg.C55_operations
#print axioms OpenNSA.Agg.C55_abort_fails
#print axioms OpenNSA.C56_cli_stp_exact
#print axioms OpenNSA.Agg.C57_addressee
#print axioms OpenNSA.Agg.C57_requester_fixed
#print axioms OpenNSA.Agg.C57_unique_ids
#print axioms OpenNSA.Agg.C57_segments_owned
#print axioms OpenNSA.Agg.C58_terminate_fails
#print axioms OpenNSA.Agg.C58_query_fails
#print axioms OpenNSA.Wire.C59_header
#print axioms OpenNSA.Wire.C60_reserve
#print axioms OpenNSA.Wire.C60_ero_refused
#print axioms OpenNSA.Wire.C60_confirmed
#print axioms OpenNSA.Wire.C60_generic
#print axioms OpenNSA.Wire.C60_failure
#print axioms OpenNSA.Wire.C60_timeout
#print axioms OpenNSA.Wire.C60_data_plane
#print axioms OpenNSA.Wire.C60_parameter_fails
#print axioms OpenNSA.Wire.C60_service_type_fails
#print axioms OpenNSA.Wire.C60_first_service
#print axioms OpenNSA.Wire.C61_sync
#print axioms OpenNSA.Wire.C61_answered
#print axioms OpenNSA.Wire.C61_summary
#print axioms OpenNSA.Rest.C62_reserved
#print axioms OpenNSA.Rest.C62_described
#print axioms OpenNSA.Rest.C62_refused
#print axioms OpenNSA.Rest.C62_null_fails
#print axioms OpenNSA.Rest.C62_text_fails
#print axioms OpenNSA.Discovery.C63_document
#print axioms OpenNSA.Discovery.C63_learned
#print axioms OpenNSA.Discovery.C63_features
#print axioms OpenNSA.Discovery.C63_aggregator_fails
#print axioms OpenNSA.Discovery.C63_reach_fails
#print axioms OpenNSA.Discovery.C63_refused
#print axioms OpenNSA.Discovery.C63_read
#print axioms OpenNSA.Nml.C64_network
#print axioms OpenNSA.Nml.C64_directions
#print axioms OpenNSA.Nml.C64_read_partial
#print axioms OpenNSA.Nml.C64_file_partial
#print axioms OpenNSA.Nml.C64_ids
#print axioms OpenNSA.Nml.C64_parse_fails
#print axioms OpenNSA.Nml.C64_label_fails
#print axioms OpenNSA.Nml.C64_colon_fails
#print axioms OpenNSA.Nml.C64_ids_fails
#print axioms OpenNSA.Device.C65_dud
#print axioms OpenNSA.Device.C65_global
#print axioms OpenNSA.Device.C65_ports_partial
#print axioms OpenNSA.Device.C65_shared_fails
#print axioms OpenNSA.Device.C65_whole_fails
#print axioms OpenNSA.Device.C65_junosex_partial
#print axioms OpenNSA.Device.C65_junosex_fails
#print axioms OpenNSA.Device.C65_booked_partial
#print axioms OpenNSA.Device.C65_double_fails
#print axioms OpenNSA.Device.C66_juniperex
#print axioms OpenNSA.Device.C66_vpls
#print axioms OpenNSA.Device.C66_vpls_target_partial
#print axioms OpenNSA.Device.C66_vpls_target_fails
#print axioms OpenNSA.Device.C66_junosmx_partial
#print axioms OpenNSA.Device.C66_mx_whole_fails
#print axioms OpenNSA.Device.C66_mx_lsp_fails
#print axioms OpenNSA.Device.C66_mx_remote_fails
#print axioms OpenNSA.Device.C66_mx_transit_fails
#print axioms OpenNSA.Device.C66_mx_left_fails
#print axioms OpenNSA.Device.C66_junosex_partial
#print axioms OpenNSA.Device.C66_oess_partial
#print axioms OpenNSA.Device.C66_oess_vlan_fails
#print axioms OpenNSA.Device.C66_brocade
#print axioms OpenNSA.Device.C66_pica_partial
#print axioms OpenNSA.Device.C66_pica_fails
#print axioms OpenNSA.Device.C67_mx_partial
#print axioms OpenNSA.Device.C67_mx_fails
#print axioms OpenNSA.Device.C67_mx_offered
#print axioms OpenNSA.Device.C67_space_partial
#print axioms OpenNSA.Device.C67_space_fails
#print axioms OpenNSA.Device.C67_space_circuit
#print axioms OpenNSA.Device.C67_ex_partial
#print axioms OpenNSA.Device.C67_ex_fails
#print axioms OpenNSA.Device.C67_vpls_partial
#print axioms OpenNSA.Device.C67_vpls_fails
#print axioms OpenNSA.Device.C67_brocade_partial
#print axioms OpenNSA.Device.C67_brocade_fails
#print axioms OpenNSA.Device.C67_pica_partial
#print axioms OpenNSA.Device.C67_pica_fails
#print axioms OpenNSA.Device.C67_junosex_partial
#print axioms OpenNSA.Device.C67_junosex_fails
#print axioms OpenNSA.Device.C67_oess_partial
#print axioms OpenNSA.Device.C67_oess_fails
#print axioms OpenNSA.Device.C67_force10_fails
#print axioms OpenNSA.Device.C67_ncs_fails
#print axioms OpenNSA.Device.C67_dud
#print axioms OpenNSA.Device.C67_vlans
#print axioms OpenNSA.Plugin.C68_places
#print axioms OpenNSA.Plugin.C68_demarcation
#print axioms OpenNSA.Plugin.C68_helped_partial
#print axioms OpenNSA.Plugin.C68_succeeds_partial
#print axioms OpenNSA.Plugin.C68_narrows_partial
#print axioms OpenNSA.Plugin.C68_single_fails
#print axioms OpenNSA.Plugin.C68_neighbour_fails
#print axioms OpenNSA.Plugin.C68_adjacent_fails
#print axioms OpenNSA.Plugin.C68_none_fails
#print axioms OpenNSA.Plugin.C68_paths
#print axioms OpenNSA.Plugin.C68_unused_fails
#print axioms OpenNSA.Config.C69_values
#print axioms OpenNSA.Config.C69_admins
#print axioms OpenNSA.Config.C69_accepted
#print axioms OpenNSA.Config.C69_policy_fails
#print axioms OpenNSA.Config.C69_peers_fails
#print axioms OpenNSA.Config.C69_hosts_fails
#print axioms OpenNSA.Config.C69_notls_fails
#print axioms OpenNSA.Config.C69_blank_fails
#print axioms OpenNSA.Config.C69_section_fails
#print axioms OpenNSA.Config.C69_unknown_fails
#print axioms OpenNSA.Config.C69_second_fails
#print axioms OpenNSA.Config.C69_obsolete
#print axioms OpenNSA.Plugin.C70_canarie
#print axioms OpenNSA.Plugin.C70_default
#print axioms OpenNSA.Plugin.C70_domains
#print axioms OpenNSA.Plugin.C70_never_twice
#print axioms OpenNSA.Plugin.C70_made
#print axioms OpenNSA.Device.C71_up_partial
#print axioms OpenNSA.Device.C71_error
#print axioms OpenNSA.Device.C71_interface
#print axioms OpenNSA.Device.C71_none
#print axioms OpenNSA.Device.C71_refused_fails
#print axioms OpenNSA.Device.C71_unavailable_fails
#print axioms OpenNSA.Device.C71_restart_fails
#print axioms OpenNSA.Device.C71_reverse_fails
#print axioms OpenNSA.Device.C71_down_partial
#print axioms OpenNSA.Ssh.C72_order
#print axioms OpenNSA.Ssh.C72_brocade
#print axioms OpenNSA.Ssh.C72_force10_partial
#print axioms OpenNSA.Ssh.C72_force10_early_fails
#print axioms OpenNSA.Ssh.C72_pica8
#print axioms OpenNSA.Ssh.C72_brocade_done
#print axioms OpenNSA.Ssh.C72_force10_done
#print axioms OpenNSA.Ssh.C72_early_fails
#print axioms OpenNSA.Ssh.C72_pica8_early_fails
#print axioms OpenNSA.Ssh.C72_refused_fails
#print axioms OpenNSA.Ssh.C72_silent_fails
#print axioms OpenNSA.Ssh.C72_timeout_fails
#print axioms OpenNSA.Ssh.C72_text_fails
#print axioms OpenNSA.Ssh.C72_patient
#print axioms OpenNSA.Ssh.C72_lines_partial
#print axioms OpenNSA.Ssh.C72_cut_fails
#print axioms OpenNSA.Ssh.C72_confirmed
#print axioms OpenNSA.Ssh.C73_one
#print axioms OpenNSA.Ssh.C73_all_partial
#print axioms OpenNSA.Ssh.C73_ex_partial
#print axioms OpenNSA.Ssh.C73_shared_fails
#print axioms OpenNSA.Ssh.C73_lost_fails
#print axioms OpenNSA.Ssh.C73_blocked_fails
#print axioms OpenNSA.Backend.C74_unique
#print axioms OpenNSA.Backend.C74_origin
#print axioms OpenNSA.Backend.C74_kept
#print axioms OpenNSA.Backend.C74_states
#print axioms OpenNSA.Backend.C75_messages
#print axioms OpenNSA.Cli.C76_defaults
#print axioms OpenNSA.Cli.C76_shorthand
#print axioms OpenNSA.Cli.C76_kinds
#print axioms OpenNSA.Cli.C76_files
#print axioms OpenNSA.Cli.C76_listener
#print axioms OpenNSA.Cli.C76_required
#print axioms OpenNSA.Cli.C76_precedence
#print axioms OpenNSA.Cli.C76_tls
#print axioms OpenNSA.Cli.C76_verify_partial
#print axioms OpenNSA.Cli.C76_verify_fails
#print axioms OpenNSA.Cli.C76_oneway_fails
#print axioms OpenNSA.Cli.C76_equals_fails
#print axioms OpenNSA.Cli.C76_attributes
#print axioms OpenNSA.Cli.C77_reserved
#print axioms OpenNSA.Cli.C77_route_fails
#print axioms OpenNSA.Cli.C77_course
#print axioms OpenNSA.Cli.C77_unread
#print axioms OpenNSA.Cli.C77_single
#print axioms OpenNSA.Cli.C77_correlation
#print axioms OpenNSA.Cli.C77_trace
#print axioms OpenNSA.Cli.C77_events
#print axioms OpenNSA.Cli.C77_events_read
#print axioms OpenNSA.Cli.C77_other_connection_fails
#print axioms OpenNSA.Cli.C77_reservecommit_fails
#print axioms OpenNSA.Http.Client.C78_http
#print axioms OpenNSA.Http.Client.C78_https
#print axioms OpenNSA.Http.Client.C78_https_default
#print axioms OpenNSA.Http.Client.C78_http_default_fails
#print axioms OpenNSA.Http.Client.C78_ipv6_fails
#print axioms OpenNSA.Http.Client.C78_secure
#print axioms OpenNSA.Http.Client.C78_no_context
#print axioms OpenNSA.Http.Client.C78_other_scheme
#print axioms OpenNSA.Http.Client.C78_scheme_fails
#print axioms OpenNSA.Http.Client.C78_soap
#print axioms OpenNSA.Http.Client.C78_timeout_fails
#print axioms OpenNSA.Http.Client.C78_acknowledged_partial
#print axioms OpenNSA.Http.Client.C78_closed_fails
#print axioms OpenNSA.Http.Client.C78_reserve
#print axioms OpenNSA.Http.Client.C78_refused
#print axioms OpenNSA.Http.Client.C78_fault_partial
#print axioms OpenNSA.Http.Client.C78_status_fails
#print axioms OpenNSA.Http.Client.C78_rounds_partial
#print axioms OpenNSA.Http.Client.C78_peer_fails
#print axioms OpenNSA.Http.Client.C78_interval
#print axioms OpenNSA.Setup.C79_served
#print axioms OpenNSA.Setup.C79_listed
#print axioms OpenNSA.Setup.C79_announced
#print axioms OpenNSA.Setup.C79_reached
#print axioms OpenNSA.Setup.C79_callback
#print axioms OpenNSA.Setup.C79_documents
#print axioms OpenNSA.Setup.C79_view_fails
#print axioms OpenNSA.Setup.C79_slash_fails
#print axioms OpenNSA.Setup.C79_base_url_fails
#print axioms OpenNSA.Setup.C79_proxy_fails
#print axioms OpenNSA.Setup.C79_stale_fails
#print axioms OpenNSA.Setup.C79_current_partial
#print axioms OpenNSA.Setup.C80_asyncfail_fails
#print axioms OpenNSA.Setup.C80_junosspace_fails
#print axioms OpenNSA.Setup.C80_canarie_fails
#print axioms OpenNSA.Setup.C80_vector_fails
#print axioms OpenNSA.Setup.C80_missing_map_fails
#print axioms OpenNSA.Setup.C80_aggregator_fails
#print axioms OpenNSA.Setup.C80_stop_fails
#print axioms OpenNSA.Setup.C80_types
#print axioms OpenNSA.Setup.C80_started
#print axioms OpenNSA.Setup.C80_usable
#print axioms OpenNSA.Setup.C80_runs
#print axioms OpenNSA.Wire.C81_element
#print axioms OpenNSA.Wire.C81_request
#print axioms OpenNSA.Wire.C81_only
#print axioms OpenNSA.Wire.C81_unknown
#print axioms OpenNSA.Wire.C81_answer
#print axioms OpenNSA.Wire.C81_body_fails
#print axioms OpenNSA.Wire.C81_missing_fails
#print axioms OpenNSA.Wire.C81_reply
#print axioms OpenNSA.Wire.C81_reply_element
#print axioms OpenNSA.Wire.C81_only_requester
#print axioms OpenNSA.Wire.C81_unknown_requester
#print axioms OpenNSA.Wire.C81_event_exception_fails
#print axioms OpenNSA.Wire.C81_event_info_fails
#print axioms OpenNSA.Wire.C81_error_variables_fails
#print axioms OpenNSA.Wire.C81_delivery_fails
#print axioms OpenNSA.Wire.C81_commit_failed_fails
#print axioms OpenNSA.Db.C82_statement
#print axioms OpenNSA.Db.C82_recorded
#print axioms OpenNSA.Db.C82_service
#print axioms OpenNSA.Db.C82_service_read
#print axioms OpenNSA.Db.C82_segment
#print axioms OpenNSA.Db.C82_backend
#print axioms OpenNSA.Db.C82_backend_read
#print axioms OpenNSA.Db.C82_label_equal_fails
#print axioms OpenNSA.Db.C82_schedule_fails
#print axioms OpenNSA.Db.C82_direction_fails
#print axioms OpenNSA.Db.C82_capacity_fails
#print axioms OpenNSA.Db.C82_negative_fails
#print axioms OpenNSA.Criteria.C83_recorded
#print axioms OpenNSA.Criteria.C83_segment
#print axioms OpenNSA.Criteria.C83_confirmed_partial
#print axioms OpenNSA.Criteria.C83_told
#print axioms OpenNSA.Criteria.C83_backend
#print axioms OpenNSA.Criteria.C83_query_partial
#print axioms OpenNSA.Criteria.C83_direction_fails
#print axioms OpenNSA.Criteria.C83_parameters_fails
#print axioms OpenNSA.Criteria.C83_version_fails
#print axioms OpenNSA.Backend.C84_operations_partial
#print axioms OpenNSA.Backend.C84_settled_partial
#print axioms OpenNSA.Backend.C84_in_turn
#print axioms OpenNSA.Backend.C84_one
#print axioms OpenNSA.Backend.C84_failed_fails
#print axioms OpenNSA.Backend.C84_late_fails
#print axioms OpenNSA.Device.C84_juniperex_partial
#print axioms OpenNSA.Device.C84_vpls_partial
#print axioms OpenNSA.Device.C84_brocade_partial
#print axioms OpenNSA.Device.C84_pica_partial
#print axioms OpenNSA.Device.C84_juniperex_late_fails
#print axioms OpenNSA.Access.C85_soap
#print axioms OpenNSA.Access.C85_link
#print axioms OpenNSA.Access.C85_chain
#print axioms OpenNSA.Access.C85_remote
#print axioms OpenNSA.Access.C85_cleanup_partial
#print axioms OpenNSA.Access.C85_cleanup_fails
#print axioms OpenNSA.Access.C85_attributes_fails
#print axioms OpenNSA.Access.C85_rest_fails
#print axioms OpenNSA.Joint.C86_reserved_partial
#print axioms OpenNSA.Joint.C86_done_partial
#print axioms OpenNSA.Joint.C86_active_partial
#print axioms OpenNSA.Joint.C86_provisioned
#print axioms OpenNSA.Joint.C86_terminated
#print axioms OpenNSA.Joint.C86_committed
#print axioms OpenNSA.Joint.C86_aborted
#print axioms OpenNSA.Joint.C86_released
#print axioms OpenNSA.Joint.C86_active
#print axioms OpenNSA.Joint.C86_reserved
#print axioms OpenNSA.Joint.C87_fit_partial
#print axioms OpenNSA.Joint.C87_fit_fails
#print axioms OpenNSA.Backend.C88_calls_interleaved_partial
#print axioms OpenNSA.Backend.C88_window_interleaved_partial
#print axioms OpenNSA.Backend.C88_over_interleaved_partial
#print axioms OpenNSA.Backend.C88_calls_partial
#print axioms OpenNSA.Backend.C88_window_partial
#print axioms OpenNSA.Backend.C88_over_partial
#print axioms OpenNSA.Backend.C88_released_partial
#print axioms OpenNSA.Backend.C88_failed_activation_fails
#print axioms OpenNSA.Backend.C89_calendar_partial
#print axioms OpenNSA.Backend.C89_calls_partial
#print axioms OpenNSA.Backend.C89_links_partial
#print axioms OpenNSA.Backend.C89_runs_partial
#print axioms OpenNSA.Backend.C89_gone_partial
#print axioms OpenNSA.Backend.C89_terminated_up_fails
#print axioms OpenNSA.Backend.C89_ended_up_fails
#print axioms OpenNSA.Backend.C89_releasing_fails
#print axioms OpenNSA.Backend.C89_timeout_fails
#print axioms OpenNSA.Backend.C89_blocked_fails
#print axioms OpenNSA.Agg.C90_provision
#print axioms OpenNSA.Agg.C90_release
#print axioms OpenNSA.Agg.C90_commit
#print axioms OpenNSA.Agg.C90_abort
#print axioms OpenNSA.Agg.C90_terminate
#print axioms OpenNSA.Agg.C90_data_plane
#print axioms OpenNSA.Agg.C90_timeout
#print axioms OpenNSA.Agg.C90_error
#print axioms OpenNSA.Agg.C90_failed
#print axioms OpenNSA.Agg.C90_reserved
#print axioms OpenNSA.Agg.C90_unasked_terminate_fails
#print axioms OpenNSA.Agg.C90_error_lost_fails
#print axioms OpenNSA.Front.C91_answers
#print axioms OpenNSA.Front.C91_after
#print axioms OpenNSA.Front.C91_once
#print axioms OpenNSA.Front.C91_reserved
#print axioms OpenNSA.Front.C91_provisioned
#print axioms OpenNSA.Front.C91_terminated
#print axioms OpenNSA.Front.C91_committed
#print axioms OpenNSA.Front.C91_aborted
#print axioms OpenNSA.Front.C91_released
#print axioms OpenNSA.Front.C91_failed
#print axioms OpenNSA.Front.C91_lost_fails
#print axioms OpenNSA.Front.C91_stranger_fails
#print axioms OpenNSA.Front.C91_restart_fails
#print axioms OpenNSA.Front.C91_delivered
#print axioms OpenNSA.Front.C91_told
#print axioms OpenNSA.Front.C91_received
#print axioms OpenNSA.SshLogin.C92_listed
#print axioms OpenNSA.SshLogin.C92_credentials
#print axioms OpenNSA.SshLogin.C92_keys
#print axioms OpenNSA.SshLogin.C92_once
#print axioms OpenNSA.SshLogin.C92_connected
#print axioms OpenNSA.SshLogin.C92_reached
#print axioms OpenNSA.SshLogin.C92_refused
#print axioms OpenNSA.SshLogin.C92_rejected_fails
#print axioms OpenNSA.SshLogin.C92_denied_fails
#print axioms OpenNSA.SshLogin.C92_port_fails
#print axioms OpenNSA.SshLogin.C92_force10_fails
#print axioms OpenNSA.SshLogin.C92_force10
#print axioms OpenNSA.SshLogin.C92_closed
#print axioms OpenNSA.SshLogin.C92_unopened_fails
#print axioms OpenNSA.SshLogin.C92_left_open_fails
#print axioms OpenNSA.Agg.C93_operation
#print axioms OpenNSA.Agg.C93_life
#print axioms OpenNSA.Agg.C93_reservation
#print axioms OpenNSA.Agg.C93_connection
#print axioms OpenNSA.Agg.C93_restart_fails
#print axioms OpenNSA.Agg.C93_query_fails
#print axioms OpenNSA.Agg.C94_serial
#print axioms OpenNSA.Agg.C94_untouched
#print axioms OpenNSA.Agg.C94_life
#print axioms OpenNSA.Agg.C94_restart
#print axioms OpenNSA.Agg.C94_again
#print axioms OpenNSA.Agg.C94_overlap_fails
#print axioms OpenNSA.Wire.C95_acknowledgements
#print axioms OpenNSA.Wire.C95_sync
#print axioms OpenNSA.Wire.C95_requests
#print axioms OpenNSA.Wire.C95_replies
#print axioms OpenNSA.Wire.C95_answer
#print axioms OpenNSA.Wire.C95_faults
#print axioms OpenNSA.Wire.C95_forwarded
#print axioms OpenNSA.Wire.C95_version_fails
#print axioms OpenNSA.Wire.C95_schedule_fails
#print axioms OpenNSA.Wire.C95_boolean_fails
#print axioms OpenNSA.Discovery.C96_discovery
#print axioms OpenNSA.Discovery.C96_interfaces
#print axioms OpenNSA.Nml.C96_topology
#print axioms OpenNSA.Nml.C96_references
#print axioms OpenNSA.Nml.C96_vlan_range_fails
#print axioms OpenNSA.Nml.C96_service_type_fails
#print axioms OpenNSA.Setup.C96_served
#print axioms OpenNSA.Cli.C97_answer
#print axioms OpenNSA.Cli.C97_nothing
#print axioms OpenNSA.Cli.C97_recursive_partial
#print axioms OpenNSA.Cli.C97_summary
#print axioms OpenNSA.Device.C98_mx_local
#print axioms OpenNSA.Device.C98_mx_lsp
#print axioms OpenNSA.Device.C98_mx_router
#print axioms OpenNSA.Device.C98_mx_remote
#print axioms OpenNSA.Device.C98_mx_transit
#print axioms OpenNSA.Device.C98_junosex
#print axioms OpenNSA.Device.C98_juniperex
#print axioms OpenNSA.Device.C98_vpls
#print axioms OpenNSA.Device.C98_brocade
#print axioms OpenNSA.Device.C98_pica
#print axioms OpenNSA.Device.C98_mx_read
#print axioms OpenNSA.Device.C98_junosex_read
#print axioms OpenNSA.Device.C98_juniperex_read
#print axioms OpenNSA.Device.C98_vpls_read
#print axioms OpenNSA.Device.C98_brocade_session
#print axioms OpenNSA.Device.C98_force10_session
#print axioms OpenNSA.Device.C98_brocade_read
#print axioms OpenNSA.Device.C98_pica_session
#print axioms OpenNSA.Device.C98_oess
#print axioms OpenNSA.Device.C98_oess_asked
#print axioms OpenNSA.Device.C98_oess_down
#print axioms OpenNSA.Device.C98_oess_fails
#print axioms OpenNSA.Device.C98_force10
#print axioms OpenNSA.Backend.C99_reported
#print axioms OpenNSA.Backend.C99_recorded
#print axioms OpenNSA.Backend.C99_query
#print axioms OpenNSA.Backend.C99_query_only
#print axioms OpenNSA.Backend.C99_refused_fails
#print axioms OpenNSA.Backend.C99_notification_fails
#print axioms OpenNSA.Backend.C99_global_fails
#print axioms OpenNSA.Joint.C99_told
#print axioms OpenNSA.Nml.C100_add
#print axioms OpenNSA.Nml.C100_lookup
#print axioms OpenNSA.Nml.C100_update
#print axioms OpenNSA.Nml.C100_port
#print axioms OpenNSA.Nml.C100_networkPort
#print axioms OpenNSA.Nml.C100_demarcation_sound
#print axioms OpenNSA.Nml.C100_demarcation
#print axioms OpenNSA.Nml.C100_demarcation_none
#print axioms OpenNSA.Nml.C100_paths_fails
#print axioms OpenNSA.Tls.C101_client
#print axioms OpenNSA.Tls.C101_own
#print axioms OpenNSA.Tls.C101_server
#print axioms OpenNSA.Tls.C101_admitted
#print axioms OpenNSA.Tls.C101_same_partial
#print axioms OpenNSA.Tls.C101_unverified_fails
#print axioms OpenNSA.Tls.C101_bundle_fails
#print axioms OpenNSA.Tls.C101_bad_file_fails
#print axioms OpenNSA.View.C102_shown_partial
#print axioms OpenNSA.View.C102_made
#print axioms OpenNSA.View.C102_time
#print axioms OpenNSA.View.C102_written_fails
#print axioms OpenNSA.View.C102_no_end_fails
#print axioms OpenNSA.View.C102_markup_fails
