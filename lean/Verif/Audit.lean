import Verif.Props.AnyTime
import Verif.Props.Attributes
import Verif.Props.Basename
import Verif.Props.Builder
import Verif.Props.Bytes
import Verif.Props.CapabilityList
import Verif.Props.Chain
import Verif.Props.ChangeDocs
import Verif.Props.ChangeList
import Verif.Props.ChangeOrder
import Verif.Props.ClientAuthority
import Verif.Props.ClientChanges
import Verif.Props.ClientDescribe
import Verif.Props.ClientEffects
import Verif.Props.ClientExample
import Verif.Props.ClientFetch
import Verif.Props.ClientHistory
import Verif.Props.ClientIncremental
import Verif.Props.ClientLog
import Verif.Props.ClientProgress
import Verif.Props.ClientResult
import Verif.Props.ClientSites
import Verif.Props.ClientState
import Verif.Props.ClientStatus
import Verif.Props.ClientUtils
import Verif.Props.ClientWrite
import Verif.Props.CommandLine
import Verif.Props.CommandRuns
import Verif.Props.CommandSafety
import Verif.Props.Container
import Verif.Props.Copies
import Verif.Props.Discovery
import Verif.Props.Doubles
import Verif.Props.DryRun
import Verif.Props.Dump
import Verif.Props.Excludes
import Verif.Props.ExploreCommand
import Verif.Props.Explorer
import Verif.Props.ExplorerAccount
import Verif.Props.ExplorerStart
import Verif.Props.FileNames
import Verif.Props.FirstCopy
import Verif.Props.Fixity
import Verif.Props.Follow
import Verif.Props.FollowExample
import Verif.Props.Generators
import Verif.Props.HashEffect
import Verif.Props.HashReuse
import Verif.Props.Hashes
import Verif.Props.Kinds
import Verif.Props.Lenient
import Verif.Props.LinkHref
import Verif.Props.Links
import Verif.Props.ListGuards
import Verif.Props.ListIndex
import Verif.Props.ListRead
import Verif.Props.Local
import Verif.Props.Locality
import Verif.Props.Logging
import Verif.Props.LoggingRuns
import Verif.Props.MapOrder
import Verif.Props.Mapper
import Verif.Props.MappingArgs
import Verif.Props.Mirror
import Verif.Props.NamedLinks
import Verif.Props.NewResource
import Verif.Props.OptionOrder
import Verif.Props.Order
import Verif.Props.OrderSource
import Verif.Props.OrderSync
import Verif.Props.Overlap
import Verif.Props.ParseDocument
import Verif.Props.Postpone
import Verif.Props.Prefixes
import Verif.Props.PruneAgain
import Verif.Props.PublishedChanges
import Verif.Props.Refusal
import Verif.Props.Repeat
import Verif.Props.Repr
import Verif.Props.RequestCount
import Verif.Props.Resource
import Verif.Props.ResourceList
import Verif.Props.Resume
import Verif.Props.SameSays
import Verif.Props.ScanAll
import Verif.Props.ScanMappings
import Verif.Props.Scripts
import Verif.Props.ScriptsBuild
import Verif.Props.ScriptsCopy
import Verif.Props.ScriptsExit
import Verif.Props.Separate
import Verif.Props.Sharing
import Verif.Props.Sitemap
import Verif.Props.Spelling
import Verif.Props.StateClients
import Verif.Props.StatusSites
import Verif.Props.Text
import Verif.Props.Tries
import Verif.Props.UrlAuthority
import Verif.Props.UrlOpen
import Verif.Props.W3CDatetime
import Verif.Props.WrittenAgain
/-
Generated by tools/manifest.py: prints the axioms of every property theorem.
-/
#print axioms Resync.C01_map_src_to_dst_partial
#print axioms Resync.C01_map_dst_to_src_partial
#print axioms Resync.C01_map_total_partial
#print axioms Resync.C01_src_to_dst_partial
#print axioms Resync.C01_src_to_dst_error_partial
#print axioms Resync.C01_dst_to_src_error_partial
#print axioms Resync.C01_dst_to_src_partial
#print axioms Resync.C01_covered_uri_is_translated
#print axioms Resync.C01_src_to_dst_dots_partial
#print axioms Resync.C01_src_to_dst_dots_error_partial
#print axioms Resync.C01_dst_to_src_dots_partial
#print axioms Resync.C01_dst_to_src_dots_error_partial
#print axioms Resync.C01_line_feed_violated
#print axioms Resync.C02_round_trip_partial
#print axioms Resync.C02_round_trip_single_partial
#print axioms Resync.C02_round_trip_file_partial
#print axioms Resync.C02_violated
#print axioms Resync.C03_literal_base_partial
#print axioms Resync.C03_dot_base_partial
#print axioms Resync.C03_violated
#print axioms Resync.C03_violated_not_recognised
#print axioms Resync.C04_one_trailing_slash_partial
#print axioms Resync.C04_removes_exactly_one
#print axioms Resync.C04_violated
#print axioms Resync.C05_no_duplicates_partial
#print axioms Resync.C05_violated
#print axioms Resync.C05_order
#print axioms Resync.C05_arguments
#print axioms Resync.C06_absolute_partial
#print axioms Resync.C06_relative_partial
#print axioms Resync.C06_mapper
#print axioms Resync.C06_violated
#print axioms Resync.C06_violated_absolute_vs_relative
#print axioms Resync.C06_same_path_unsafe
#print axioms Resync.C07_confined_partial
#print axioms Resync.C07_violated
#print axioms Resync.C08_safe_name
#print axioms Resync.C08_local_path
#print axioms Resync.C09_lax_authority
#print axioms Resync.C09_lax_authority_parsed
#print axioms Resync.C09_no_master
#print axioms Resync.C10_below_is_covered_partial
#print axioms Resync.C10_textual_prefix_partial
#print axioms Resync.C10_violated
#print axioms Resync.C100_exact
#print axioms Resync.C100_fragment
#print axioms Resync.C100_uri
#print axioms Resync.C100_read_back_partial
#print axioms Resync.C100_source_partial
#print axioms Resync.C100_violated
#print axioms Resync.C101_made
#print axioms Resync.C101_refused
#print axioms Resync.C101_copy
#print axioms Resync.C102_fixity
#print axioms Resync.C102_rewrite_violated
#print axioms Resync.C103_prefixes
#print axioms Resync.C103_says
#print axioms Resync.C103_space_violated
#print axioms Resync.C103_spelling
#print axioms Resync.C103_no_document
#print axioms Resync.C103_texts
#print axioms Resync.C104_basename
#print axioms Resync.C105_others_kept
#print axioms Resync.C105_assigned
#print axioms Resync.C105_assigned_text
#print axioms Resync.C105_last_assignment
#print axioms Resync.C105_text_read_back
#print axioms Resync.C106_follow_partial
#print axioms Resync.C106_stored_partial
#print axioms Resync.C106_deleted_stays_violated
#print axioms Resync.C106_violated
#print axioms Resync.C107_as_xml
#print axioms Resync.C107_part
#print axioms Resync.C107_write
#print axioms Resync.C107_no_count
#print axioms Resync.C107_second_violated
#print axioms Resync.C107_write_again_violated
#print axioms Resync.C107_number
#print axioms Resync.C107_parts_violated
#print axioms Resync.C108_baseline_partial
#print axioms Resync.C108_incremental_partial
#print axioms Resync.C108_baseline_behind_partial
#print axioms Resync.C108_incremental_behind_partial
#print axioms Resync.C108_performed
#print axioms Resync.ClientExample.C108_violated
#print axioms Resync.C109_same_runs
#print axioms Resync.C109_event_resource
#print axioms Resync.C109_baseline_partial
#print axioms Resync.C109_incremental_partial
#print axioms Resync.C109_kinds_partial
#print axioms Resync.C109_baseline_accounts
#print axioms Resync.C109_incremental_accounts
#print axioms Resync.C109_hashes_violated
#print axioms Resync.ClientExample.C109_violated
#print axioms Resync.C109_sites_kinds_partial
#print axioms Resync.C109_sites_accounts
#print axioms Resync.C11_round_trip
#print axioms Resync.C11_written_denotes
#print axioms Resync.C11_form
#print axioms Resync.C110_parsers
#print axioms Resync.C110_accepts
#print axioms Resync.C110_one_mode
#print axioms Resync.C110_word_counts
#print axioms Resync.C110_meant
#print axioms Resync.C110_unknown
#print axioms Resync.C110_no_number
#print axioms Resync.C110_choices
#print axioms Resync.C110_missing_value
#print axioms Resync.C110_unknown_letter
#print axioms Resync.C110_sync_options
#print axioms Resync.C110_build_options
#print axioms Resync.C110_order
#print axioms Resync.C110_refused
#print axioms Resync.C110_only_looks
#print axioms Resync.C110_dryrun
#print axioms Resync.C110_delete
#print axioms Resync.C110_between_violated
#print axioms Resync.C110_spellings_violated
#print axioms Resync.C110_explore_options
#print axioms Resync.C110_explore_ignored_violated
#print axioms Resync.C111_law
#print axioms Resync.C111_once_partial
#print axioms Resync.C111_programs
#print axioms Resync.C111_others
#print axioms Resync.C111_time
#print axioms Resync.C111_before
#print axioms Resync.C111_announced
#print axioms Resync.C111_unannounced
#print axioms Resync.C111_lines_partial
#print axioms Resync.C111_eval_violated
#print axioms Resync.C111_twice_violated
#print axioms Resync.C111_quiet
#print axioms Resync.C111_verbose
#print axioms Resync.C111_silent_violated
#print axioms Resync.C111_forged_violated
#print axioms Resync.C111_own_documents
#print axioms Resync.C111_names
#print axioms Resync.C111_digest_named
#print axioms Resync.C112_unambiguous
#print axioms Resync.C112_line
#print axioms Resync.C112_event_object
#print axioms Resync.C112_event
#print axioms Resync.C112_evaluation_partial
#print axioms Resync.C112_none_violated
#print axioms Resync.C112_copy_violated
#print axioms Resync.C113_exact
#print axioms Resync.C113_settled
#print axioms Resync.C113_chain
#print axioms Resync.C113_found
#print axioms Resync.C113_publishable
#print axioms Resync.C113_contents
#print axioms Resync.C114_list
#print axioms Resync.C114_changes
#print axioms Resync.C114_order
#print axioms Resync.C114_sync
#print axioms Resync.C114_incremental
#print axioms Resync.C115_read
#print axioms Resync.C115_found
#print axioms Resync.C115_sync
#print axioms Resync.C116_mapped
#print axioms Resync.C116_sync
#print axioms Resync.C116_overlap
#print axioms Resync.C117_prune
#print axioms Resync.C117_plan
#print axioms Resync.C117_sync
#print axioms Resync.ChangeOrderExample.C117_one_uri
#print axioms Resync.C118_resumed_partial
#print axioms Resync.C118_same_list
#print axioms Resync.C118_again
#print axioms Resync.CopyExample.C118_violated
#print axioms Resync.C119_publishing
#print axioms Resync.C119_sync
#print axioms Resync.C12_accepted_iff_w3c_partial
#print axioms Resync.C12_accepted_exactly
#print axioms Resync.C12_dates_are_midnight
#print axioms Resync.C12_violated
#print axioms Resync.C120_effect_partial
#print axioms Resync.C120_effect_violated
#print axioms Resync.C120_again
#print axioms Resync.C120_piecewise_partial
#print axioms Resync.C120_piecewise_kept
#print axioms Resync.C120_piecewise_violated
#print axioms Resync.C120_cutoffs
#print axioms Resync.C121_sync
#print axioms Resync.C121_incremental
#print axioms Resync.C122_baseline
#print axioms Resync.C122_incremental
#print axioms Resync.C122_audit
#print axioms Resync.C123_adds
#print axioms Resync.C123_postponed
#print axioms Resync.C124_either_order
#print axioms Resync.C124_same_run
#print axioms Resync.C124_any_number
#print axioms Resync.C124_any_order
#print axioms Resync.C125_baseline
#print axioms Resync.C125_incremental
#print axioms Resync.C125_same
#print axioms Resync.TriesExample.C125_no_tries
#print axioms Resync.TriesExample.C125_ignored
#print axioms Resync.C126_baseline
#print axioms Resync.C126_incremental
#print axioms Resync.C126_same
#print axioms Resync.C126_all_requested
#print axioms Resync.C126_all_changes_requested
#print axioms Resync.C126_fatal_first
#print axioms Resync.C127_baseline_noauth
#print axioms Resync.C127_incremental_noauth
#print axioms Resync.C127_baseline_strict
#print axioms Resync.C127_incremental_strict
#print axioms Resync.C127_same
#print axioms Resync.C13_violated
#print axioms Resync.C13_utc_instant_partial
#print axioms Resync.C13_actual_shift
#print axioms Resync.C14_string_order
#print axioms Resync.C14_whole_seconds
#print axioms Resync.C14_mixed_not_ordered
#print axioms Resync.C15_eq_iff_no_proof_of_inequality
#print axioms Resync.C15_not_eq_none
#print axioms Resync.C15_reflexive
#print axioms Resync.C15_symmetric
#print axioms Resync.C15_not_transitive
#print axioms Resync.C16_violated
#print axioms Resync.C16_default_delta_partial
#print axioms Resync.C16_positive_delta_partial
#print axioms Resync.C17_hash_round_trip
#print axioms Resync.C18_no_stale_digest
#print axioms Resync.C18_first_value_stored
#print axioms Resync.C18_error_iff
#print axioms Resync.C18_frame
#print axioms Resync.C19_change_always_valid
#print axioms Resync.C19_assignment
#print axioms Resync.C19_constructor_rejects
#print axioms Resync.C20_link_href
#print axioms Resync.C20_list_link_href
#print axioms Resync.C20_named_links
#print axioms Resync.C20_named_rels
#print axioms Resync.C20_contents_type
#print axioms Resync.C20_link_set
#print axioms Resync.C20_link_set_attribute
#print axioms Resync.C20_link_add
#print axioms Resync.C21_resource_list_is_map
#print axioms Resync.C21_add
#print axioms Resync.C21_add_iterable
#print axioms Resync.C22_iteration_sorted_complete
#print axioms Resync.C22_insertion_order_irrelevant
#print axioms Resync.C22_uris
#print axioms Resync.C22_ordered_variant
#print axioms Resync.C23_compare
#print axioms Resync.C24_violated_for_every_list
#print axioms Resync.C24_violated
#print axioms Resync.C24_equal_copy_partial
#print axioms Resync.C25_prune_dupes
#print axioms Resync.C25_at_most_one_per_uri
#print axioms Resync.C26_prune_updates_before
#print axioms Resync.C27_change_list_old_to_new
#print axioms Resync.C28_single
#print axioms Resync.C28_components_partial
#print axioms Resync.C28_nothing_lost
#print axioms Resync.C28_limit_one_violated
#print axioms Resync.C29_single
#print axioms Resync.C29_parts_partial
#print axioms Resync.C29_part_too_high
#print axioms Resync.C29_empty_part_violated
#print axioms Resync.C29_limit_one_violated
#print axioms Resync.C29_index
#print axioms Resync.C30_names
#print axioms Resync.C30_same_place
#print axioms Resync.C30_other_basename_violated
#print axioms Resync.C31_any_time_partial
#print axioms Resync.C31_any_time_remote_partial
#print axioms Resync.C31_round_trip_partial
#print axioms Resync.C31_remote_partial
#print axioms Resync.C31_https_violated
#print axioms Resync.C31_https_read_violated
#print axioms Resync.C32_index_last
#print axioms Resync.C32_rewrite_violated
#print axioms Resync.C33_any_time_partial
#print axioms Resync.C33_round_trip_partial
#print axioms Resync.C33_round_trip_settings_partial
#print axioms Resync.C33_times_violated
#print axioms Resync.C34_any_time_partial
#print axioms Resync.C34_round_trip_partial
#print axioms Resync.C34_violated
#print axioms Resync.C35_rejected
#print axioms Resync.C35_accepted_iff
#print axioms Resync.C36_capability
#print axioms Resync.C36_accepted_iff
#print axioms Resync.C36_reused_list_violated
#print axioms Resync.C37_order
#print axioms Resync.C37_uris
#print axioms Resync.C37_unknown_ignored
#print axioms Resync.C38_partition
#print axioms Resync.C38_iteration
#print axioms Resync.C38_iteration_perm
#print axioms Resync.C38_success
#print axioms Resync.C38_written
#print axioms Resync.C38_warc_violated
#print axioms Resync.C39_partial
#print axioms Resync.C39_violated
#print axioms Resync.C40_distinct
#print axioms Resync.C40_members
#print axioms Resync.C40_inside_iff
#print axioms Resync.C40_inside_partial
#print axioms Resync.C40_violated
#print axioms Resync.C40_manifest_name_violated
#print axioms Resync.C40_separate_manifest_violated
#print axioms Resync.C41_iff
#print axioms Resync.C41_lengths
#print axioms Resync.C41_errors
#print axioms Resync.C41_nothing_written
#print axioms Resync.C42_complete
#print axioms Resync.C42_sound
#print axioms Resync.C42_one_mapping
#print axioms Resync.C42_special_violated
#print axioms Resync.C42_overlap_violated
#print axioms Resync.C42_patterns
#print axioms Resync.C42_bad_pattern
#print axioms Resync.C42_scan_patterns
#print axioms Resync.C42_any_start
#print axioms Resync.C42_no_clash
#print axioms Resync.C42_mappings
#print axioms Resync.C43_history
#print axioms Resync.C43_read_back
#print axioms Resync.C43_violated
#print axioms Resync.C44_partial
#print axioms Resync.C44_shared
#print axioms Resync.C44_violated
#print axioms Resync.C45_serial_partial
#print axioms Resync.C45_lost_update_violated
#print axioms Resync.C45_garbled_violated
#print axioms Resync.C45_crash_violated
#print axioms Resync.C45_wrong_timestamp_violated
#print axioms Resync.C45_clients_partial
#print axioms Resync.C45_writer_partial
#print axioms Resync.C46_audit
#print axioms Resync.C47_files_partial
#print axioms Resync.C47_violated
#print axioms Resync.C48_no_deletion
#print axioms Resync.C48_baseline
#print axioms Resync.C48_incremental
#print axioms Resync.C49_baseline
#print axioms Resync.C49_baseline_no_deletion
#print axioms Resync.C49_incremental
#print axioms Resync.C49_directories
#print axioms Resync.C50_sites_partial
#print axioms Resync.C50_partial
#print axioms Resync.C50_sites_first_sync
#print axioms Resync.C50_first_sync
#print axioms Resync.C50_violated
#print axioms Resync.C50_violated_uri
#print axioms Resync.C51_sites_partial
#print axioms Resync.C51_partial
#print axioms Resync.C51_violated
#print axioms Resync.C52_nothing_done_before_checks
#print axioms Resync.C52_no_mapping
#print axioms Resync.C52_unsafe
#print axioms Resync.C52_empty
#print axioms Resync.C52_authority_partial
#print axioms Resync.C52_violated
#print axioms Resync.C53_default_partial
#print axioms Resync.C53_violated
#print axioms Resync.C54_partial
#print axioms Resync.C54_start
#print axioms Resync.C54_violated
#print axioms Resync.C55_crash_partial
#print axioms Resync.C55_next_run_partial
#print axioms Resync.C55_baseline_crash_partial
#print axioms Resync.C55_violated
#print axioms Resync.C56_partial
#print axioms Resync.C56_violated
#print axioms Resync.C57_wrong_hashes_violated
#print axioms Resync.C57_violated
#print axioms Resync.C57_incremental_violated
#print axioms Resync.C57_no_effect_violated
#print axioms Resync.C58_update_resource
#print axioms Resync.C58_baseline_requests
#print axioms Resync.C58_incremental_requests
#print axioms Resync.C59_no_body_partial
#print axioms Resync.C59_violated
#print axioms Resync.C60_partial
#print axioms Resync.C60_violated
#print axioms Resync.C61_explicit_list
#print axioms Resync.C61_explicit_capability_list
#print axioms Resync.C61_search
#print axioms Resync.C61_absolute_link
#print axioms Resync.C61_relative_link
#print axioms Resync.C61_violated
#print axioms Resync.C62_delay
#print axioms Resync.C62_token
#print axioms Resync.C62_url
#print axioms Resync.C62_count
#print axioms Resync.C63_every_entry
#print axioms Resync.C63_once
#print axioms Resync.C63_order_partial
#print axioms Resync.C63_violated
#print axioms Resync.C63_info
#print axioms Resync.C63_info_none
#print axioms Resync.C64_link_iff
#print axioms Resync.C64_link
#print axioms Resync.C64_violated
#print axioms Resync.C64_capabilities_iff
#print axioms Resync.C64_capabilities
#print axioms Resync.C64_links_iff
#print axioms Resync.C64_count_true
#print axioms Resync.C65_reuse
#print axioms Resync.C65_unused
#print axioms Resync.C65_after_failure
#print axioms Resync.C65_block_size
#print axioms Resync.C65_set
#print axioms Resync.C65_errors
#print axioms Resync.C65_block_size_zero
#print axioms Resync.C66_back_returns
#print axioms Resync.C66_next_start
#print axioms Resync.C66_done
#print axioms Resync.C66_quit
#print axioms Resync.C66_back
#print axioms Resync.C67_violated_inner_loop_ends_outer
#print axioms Resync.C67_violated
#print axioms Resync.C67_single_iteration_partial
#print axioms Resync.C68_options
#print axioms Resync.C68_follow
#print axioms Resync.C68_other_input
#print axioms Resync.C69_partial
#print axioms Resync.C69_head
#print axioms Resync.C69_violated
#print axioms Resync.C70_partial
#print axioms Resync.C70_violated
#print axioms Resync.C71_partial
#print axioms Resync.C71_violated
#print axioms Resync.C72_refused
#print axioms Resync.C72_local_partial
#print axioms Resync.C72_all_partial
#print axioms Resync.C72_violated
#print axioms Resync.C72_index_only_violated
#print axioms Resync.C72_local_file
#print axioms Resync.C73_published_list_partial
#print axioms Resync.C73_violated
#print axioms Resync.C74_change_list_partial
#print axioms Resync.C74_violated
#print axioms Resync.C75_capability_list
#print axioms Resync.C75_capability_list_refused
#print axioms Resync.C75_source_description_partial
#print axioms Resync.C75_source_description_refused
#print axioms Resync.C75_violated
#print axioms Resync.C76_last_assignment
#print axioms Resync.C76_read_back
#print axioms Resync.C77_same_runs
#print axioms Resync.C77_audit
#print axioms Resync.C77_synced_partial
#print axioms Resync.C77_incremental_partial
#print axioms Resync.C77_incremental_violated
#print axioms Resync.C77_announced_violated
#print axioms Resync.ClientExample.C77_violated
#print axioms Resync.C77_sites_audit
#print axioms Resync.C77_sites_synced_partial
#print axioms Resync.C78_mirror
#print axioms Resync.C78_mirror_made
#print axioms Resync.C78_then_in_sync
#print axioms Resync.C79_sites_succeed_partial
#print axioms Resync.C79_baseline_succeeds_partial
#print axioms Resync.ClientExample.C79_violated
#print axioms Resync.ClientExample.C79_late_time_violated
#print axioms Resync.C80_only_looks
#print axioms Resync.C80_delete
#print axioms Resync.C80_dryrun_partial
#print axioms Resync.C80_bad_options
#print axioms Resync.C80_requests
#print axioms Resync.C80_publish_and_copy
#print axioms Resync.ScriptsExample.C80_exclude_violated
#print axioms Resync.C80_checksum_violated
#print axioms Resync.C80_tries_violated
#print axioms Resync.C81_capability_list
#print axioms Resync.C81_source_description
#print axioms Resync.C81_change_list_partial
#print axioms Resync.C81_resource_list
#print axioms Resync.C81_where
#print axioms Resync.C81_usage
#print axioms Resync.C81_dryrun_violated
#print axioms Resync.C81_stdout_violated
#print axioms Resync.C81_changedump_violated
#print axioms Resync.C82_reported_partial
#print axioms Resync.C82_explorer
#print axioms Resync.C82_violated
#print axioms Resync.C83_one_document_partial
#print axioms Resync.C83_violated
#print axioms Resync.C83_add
#print axioms Resync.C84_own_kind
#print axioms Resync.C84_other_kind
#print axioms Resync.C84_several_documents_partial
#print axioms Resync.C84_index_violated
#print axioms Resync.C84_allow_multifile_violated
#print axioms Resync.C84_changes
#print axioms Resync.C84_index_only
#print axioms Resync.C85_incremental
#print axioms Resync.C86_copies_partial
#print axioms Resync.CopyExample.C86_violated
#print axioms Resync.C87_first_copy
#print axioms Resync.C87_lifecycle_partial
#print axioms Resync.CopyExample.C87_violated
#print axioms Resync.C88_account
#print axioms Resync.C88_entries
#print axioms Resync.C88_unknown_partial
#print axioms Resync.C88_announced_partial
#print axioms Resync.C88_unknown_violated
#print axioms Resync.C88_up_violated
#print axioms Resync.C89_explicit
#print axioms Resync.C89_nothing
#print axioms Resync.C89_directory
#print axioms Resync.C89_file
#print axioms Resync.C89_server
#print axioms Resync.C90_counts
#print axioms Resync.C90_written
#print axioms Resync.C90_script
#print axioms Resync.C90_listing_partial
#print axioms Resync.C90_text
#print axioms Resync.C90_text_parts
#print axioms Resync.C90_order_violated
#print axioms Resync.C91_applied_partial
#print axioms Resync.CopyExample.C91_deletion_violated
#print axioms Resync.C92_create
#print axioms Resync.C92_assign_partial
#print axioms Resync.C92_sharing_ends
#print axioms Resync.C92_sharing_begins
#print axioms Resync.C92_separate_partial
#print axioms Resync.C92_no_link_operations_partial
#print axioms Resync.C92_copies_with_links_partial
#print axioms Resync.SharingExample.C92_violated
#print axioms Resync.C93_rounding
#print axioms Resync.C93_same_text
#print axioms Resync.C93_same_reading
#print axioms Resync.C93_round_trip_partial
#print axioms Resync.C93_far_round_trip
#print axioms Resync.C93_violated
#print axioms Resync.C93_close_and_stable
#print axioms Resync.C93_order
#print axioms Resync.C93_no_fractions
#print axioms Resync.C93_compare
#print axioms Resync.C93_compare_zero
#print axioms Resync.C94_list_again
#print axioms Resync.C94_list_same_otherwise
#print axioms Resync.C94_list_unchanged_partial
#print axioms Resync.C94_list_violated
#print axioms Resync.C94_dump_after
#print axioms Resync.C94_dump_again_partial
#print axioms Resync.C94_dump_violated
#print axioms Resync.C94_dump_wrong_file_violated
#print axioms Resync.C95_text_is_document
#print axioms Resync.C95_round_trip
#print axioms Resync.C95_entries
#print axioms Resync.C96_cut_off
#print axioms Resync.C96_no_other_document
#print axioms Resync.C96_files
#print axioms Resync.C96_crash
#print axioms Resync.C97_beginnings
#print axioms Resync.C97_repaired_partial
#print axioms Resync.C97_finishes_partial
#print axioms Resync.ClientExample.C97_violated
#print axioms Resync.C98_round_trip
#print axioms Resync.C98_cut_off
#print axioms Resync.C98_files
#print axioms Resync.C98_crash
#print axioms Resync.C98_publish
#print axioms Resync.C98_mirror
#print axioms Resync.C98_list_cut_off
#print axioms Resync.C98_changes_cut_off
#print axioms Resync.C99_any_moment
#print axioms Resync.C99_last_partial
#print axioms Resync.C99_all_partial
#print axioms Resync.C99_alone
#print axioms Resync.ClientExample.C99_violated
