{
 "claims": [
  {
   "property": "C01",
   "status": "partial",
   "theorems": [
    "Resync.C01_map_src_to_dst_partial",
    "Resync.C01_map_dst_to_src_partial",
    "Resync.C01_map_total_partial",
    "Resync.C01_src_to_dst_partial",
    "Resync.C01_src_to_dst_error_partial",
    "Resync.C01_dst_to_src_error_partial",
    "Resync.C01_dst_to_src_partial",
    "Resync.C01_covered_uri_is_translated",
    "Resync.C01_src_to_dst_dots_partial",
    "Resync.C01_src_to_dst_dots_error_partial",
    "Resync.C01_dst_to_src_dots_partial",
    "Resync.C01_dst_to_src_dots_error_partial",
    "Resync.C01_line_feed_violated"
   ],
   "note": "Proved for one-line strings, bases without regular expression syntax, and bases with dots for every URI that no base covers only with its dots as wildcards. False with a trailing line feed (C01_line_feed_violated) and with dots as wildcards (C03)."
  },
  {
   "property": "C02",
   "status": "partial",
   "theorems": [
    "Resync.C02_round_trip_partial",
    "Resync.C02_round_trip_single_partial",
    "Resync.C02_round_trip_file_partial",
    "Resync.C02_violated"
   ],
   "note": "Proved for bases without regular expression syntax other than dots. False for a directory name with a plus sign (C02_violated)."
  },
  {
   "property": "C03",
   "status": "partial",
   "theorems": [
    "Resync.C03_literal_base_partial",
    "Resync.C03_dot_base_partial",
    "Resync.C03_violated",
    "Resync.C03_violated_not_recognised"
   ],
   "note": "code violates the claim (C03_violated): bases are used unescaped as regular expressions"
  },
  {
   "property": "C04",
   "status": "partial",
   "theorems": [
    "Resync.C04_one_trailing_slash_partial",
    "Resync.C04_removes_exactly_one",
    "Resync.C04_violated"
   ],
   "note": "only one slash is stripped (C04_violated)"
  },
  {
   "property": "C05",
   "status": "partial",
   "theorems": [
    "Resync.C05_no_duplicates_partial",
    "Resync.C05_violated",
    "Resync.C05_order",
    "Resync.C05_arguments"
   ],
   "note": "a trailing slash hides a duplicate (C05_violated)"
  },
  {
   "property": "C06",
   "status": "partial",
   "theorems": [
    "Resync.C06_absolute_partial",
    "Resync.C06_relative_partial",
    "Resync.C06_mapper",
    "Resync.C06_violated",
    "Resync.C06_violated_absolute_vs_relative",
    "Resync.C06_same_path_unsafe"
   ],
   "note": "absolute/absolute and plain relative/relative proved; mixed spellings violate the claim"
  },
  {
   "property": "C07",
   "status": "partial",
   "theorems": [
    "Resync.C07_confined_partial",
    "Resync.C07_violated"
   ],
   "note": "'..' in URIs escapes the destination (C07_violated)"
  },
  {
   "property": "C08",
   "status": "proved",
   "theorems": [
    "Resync.C08_safe_name",
    "Resync.C08_local_path"
   ],
   "note": ""
  },
  {
   "property": "C09",
   "status": "proved",
   "theorems": [
    "Resync.C09_lax_authority",
    "Resync.C09_lax_authority_parsed",
    "Resync.C09_no_master"
   ],
   "note": ""
  },
  {
   "property": "C10",
   "status": "partial",
   "theorems": [
    "Resync.C10_below_is_covered_partial",
    "Resync.C10_textual_prefix_partial",
    "Resync.C10_violated"
   ],
   "note": "paths are compared as text, so a sibling directory with the same prefix is covered (C10_violated); the covered direction and the exact textual criterion are proved"
  },
  {
   "property": "C11",
   "status": "proved",
   "theorems": [
    "Resync.C11_round_trip",
    "Resync.C11_written_denotes",
    "Resync.C11_form"
   ],
   "note": ""
  },
  {
   "property": "C12",
   "status": "partial",
   "theorems": [
    "Resync.C12_accepted_iff_w3c_partial",
    "Resync.C12_accepted_exactly",
    "Resync.C12_dates_are_midnight",
    "Resync.C12_violated"
   ],
   "note": "a final newline after a full datetime is accepted (C12_violated); exact acceptance set proved in C12_accepted_exactly"
  },
  {
   "property": "C13",
   "status": "partial",
   "theorems": [
    "Resync.C13_violated",
    "Resync.C13_utc_instant_partial",
    "Resync.C13_actual_shift"
   ],
   "note": "the code adds the offset instead of subtracting it (C13_violated); exact behaviour in C13_actual_shift, claim holds for zero offsets"
  },
  {
   "property": "C14",
   "status": "proved",
   "theorems": [
    "Resync.C14_string_order",
    "Resync.C14_whole_seconds",
    "Resync.C14_mixed_not_ordered"
   ],
   "note": ""
  },
  {
   "property": "C15",
   "status": "proved",
   "theorems": [
    "Resync.C15_eq_iff_no_proof_of_inequality",
    "Resync.C15_not_eq_none",
    "Resync.C15_reflexive",
    "Resync.C15_symmetric",
    "Resync.C15_not_transitive"
   ],
   "note": ""
  },
  {
   "property": "C16",
   "status": "partial",
   "theorems": [
    "Resync.C16_violated",
    "Resync.C16_default_delta_partial",
    "Resync.C16_positive_delta_partial"
   ],
   "note": "equal() with the default delta 0.0 is not reflexive on timestamps as < is strict (C16_violated); positive deltas proved"
  },
  {
   "property": "C17",
   "status": "proved",
   "theorems": [
    "Resync.C17_hash_round_trip"
   ],
   "note": ""
  },
  {
   "property": "C18",
   "status": "proved",
   "theorems": [
    "Resync.C18_no_stale_digest",
    "Resync.C18_first_value_stored",
    "Resync.C18_error_iff",
    "Resync.C18_frame"
   ],
   "note": ""
  },
  {
   "property": "C19",
   "status": "proved",
   "theorems": [
    "Resync.C19_change_always_valid",
    "Resync.C19_assignment",
    "Resync.C19_constructor_rejects"
   ],
   "note": ""
  },
  {
   "property": "C20",
   "status": "proved",
   "theorems": [
    "Resync.C20_link_href",
    "Resync.C20_list_link_href",
    "Resync.C20_named_links",
    "Resync.C20_named_rels",
    "Resync.C20_contents_type",
    "Resync.C20_link_set",
    "Resync.C20_link_set_attribute",
    "Resync.C20_link_add"
   ],
   "note": ""
  },
  {
   "property": "C21",
   "status": "proved",
   "theorems": [
    "Resync.C21_resource_list_is_map",
    "Resync.C21_add",
    "Resync.C21_add_iterable"
   ],
   "note": ""
  },
  {
   "property": "C22",
   "status": "proved",
   "theorems": [
    "Resync.C22_iteration_sorted_complete",
    "Resync.C22_insertion_order_irrelevant",
    "Resync.C22_uris",
    "Resync.C22_ordered_variant"
   ],
   "note": ""
  },
  {
   "property": "C23",
   "status": "proved",
   "theorems": [
    "Resync.C23_compare"
   ],
   "note": ""
  },
  {
   "property": "C24",
   "status": "partial",
   "theorems": [
    "Resync.C24_violated_for_every_list",
    "Resync.C24_violated",
    "Resync.C24_equal_copy_partial"
   ],
   "note": "comparing a list object with itself shares one iterator: for every non-empty list the result is wrong (C24_violated_for_every_list); a separate list with equal contents gives the expected result"
  },
  {
   "property": "C25",
   "status": "proved",
   "theorems": [
    "Resync.C25_prune_dupes",
    "Resync.C25_at_most_one_per_uri"
   ],
   "note": ""
  },
  {
   "property": "C26",
   "status": "proved",
   "theorems": [
    "Resync.C26_prune_updates_before"
   ],
   "note": ""
  },
  {
   "property": "C27",
   "status": "proved",
   "theorems": [
    "Resync.C27_change_list_old_to_new"
   ],
   "note": ""
  },
  {
   "property": "C28",
   "status": "partial",
   "theorems": [
    "Resync.C28_single",
    "Resync.C28_components_partial",
    "Resync.C28_nothing_lost",
    "Resync.C28_limit_one_violated"
   ],
   "note": "with the limit 1 a component gets two entries (C28_limit_one_violated); proved for other limits"
  },
  {
   "property": "C29",
   "status": "partial",
   "theorems": [
    "Resync.C29_single",
    "Resync.C29_parts_partial",
    "Resync.C29_part_too_high",
    "Resync.C29_empty_part_violated",
    "Resync.C29_limit_one_violated",
    "Resync.C29_index"
   ],
   "note": "limit 1, and the first part number past the end when the last component is full, violate the claim"
  },
  {
   "property": "C30",
   "status": "partial",
   "theorems": [
    "Resync.C30_names",
    "Resync.C30_same_place",
    "Resync.C30_other_basename_violated"
   ],
   "note": "a list at x and one at x.xml get the same component names (C30_other_basename_violated)"
  },
  {
   "property": "C31",
   "status": "partial",
   "theorems": [
    "Resync.C31_any_time_partial",
    "Resync.C31_any_time_remote_partial",
    "Resync.C31_round_trip_partial",
    "Resync.C31_remote_partial",
    "Resync.C31_https_violated",
    "Resync.C31_https_read_violated"
   ],
   "note": "https URIs are taken for local files (C31_https_violated)"
  },
  {
   "property": "C32",
   "status": "partial",
   "theorems": [
    "Resync.C32_index_last",
    "Resync.C32_rewrite_violated"
   ],
   "note": "rewriting in place exposes a mixture of old and new parts (C32_rewrite_violated); index last is proved"
  },
  {
   "property": "C33",
   "status": "partial",
   "theorems": [
    "Resync.C33_any_time_partial",
    "Resync.C33_round_trip_partial",
    "Resync.C33_round_trip_settings_partial",
    "Resync.C33_times_violated"
   ],
   "note": "round trip for every expressible resource, both versions, any times; the at/completed/from/until times of entries are written and never read (C33_times_violated)"
  },
  {
   "property": "C34",
   "status": "partial",
   "theorems": [
    "Resync.C34_any_time_partial",
    "Resync.C34_round_trip_partial",
    "Resync.C34_violated"
   ],
   "note": "whole documents, sitemap and sitemapindex; partial only in what C33 loses"
  },
  {
   "property": "C35",
   "status": "proved",
   "theorems": [
    "Resync.C35_rejected",
    "Resync.C35_accepted_iff"
   ],
   "note": ""
  },
  {
   "property": "C36",
   "status": "partial",
   "theorems": [
    "Resync.C36_capability",
    "Resync.C36_accepted_iff",
    "Resync.C36_reused_list_violated"
   ],
   "note": "C36_accepted_iff for a fresh list; a list object that already has a capability accepts a document without one (C36_reused_list_violated)"
  },
  {
   "property": "C37",
   "status": "proved",
   "theorems": [
    "Resync.C37_order",
    "Resync.C37_uris",
    "Resync.C37_unknown_ignored"
   ],
   "note": ""
  },
  {
   "property": "C38",
   "status": "partial",
   "theorems": [
    "Resync.C38_partition",
    "Resync.C38_iteration",
    "Resync.C38_iteration_perm",
    "Resync.C38_success",
    "Resync.C38_written",
    "Resync.C38_warc_violated"
   ],
   "note": "The statement is proved for every list and limit, and carried over to what is written as ZIP packages (C38_written). Partial only in that no dump in the format WARC can be written (C38_warc_violated)."
  },
  {
   "property": "C39",
   "status": "partial",
   "theorems": [
    "Resync.C39_partial",
    "Resync.C39_violated"
   ],
   "note": "the size test comes after adding, so a package may exceed max_size (C39_violated, for every limit); bound proved: below max_size without the last file, below twice max_size"
  },
  {
   "property": "C40",
   "status": "partial",
   "theorems": [
    "Resync.C40_distinct",
    "Resync.C40_members",
    "Resync.C40_inside_iff",
    "Resync.C40_inside_partial",
    "Resync.C40_violated",
    "Resync.C40_manifest_name_violated",
    "Resync.C40_separate_manifest_violated"
   ],
   "note": "distinctness and member/manifest agreement proved; '..' occurs because the common prefix is computed per character (C40_violated); exact criterion in C40_inside_iff"
  },
  {
   "property": "C41",
   "status": "proved",
   "theorems": [
    "Resync.C41_iff",
    "Resync.C41_lengths",
    "Resync.C41_errors",
    "Resync.C41_nothing_written"
   ],
   "note": ""
  },
  {
   "property": "C42",
   "status": "partial",
   "theorems": [
    "Resync.C42_complete",
    "Resync.C42_sound",
    "Resync.C42_one_mapping",
    "Resync.C42_special_violated",
    "Resync.C42_overlap_violated",
    "Resync.C42_patterns",
    "Resync.C42_bad_pattern",
    "Resync.C42_scan_patterns",
    "Resync.C42_any_start",
    "Resync.C42_no_clash",
    "Resync.C42_mappings"
   ],
   "note": "C42_any_start characterises the list after every successful scan, from start paths of any kind, with or without links, and into an empty or a filled list; C42_no_clash: every file found was mapped, to a URI of its own. C42_complete and C42_sound are the case of directories without links; C42_one_mapping and C42_mappings show that a scan with one mapping, or with several that are apart from each other, succeeds for every tree. Not as claimed: special files (FIFO, socket, device) are listed too (C42_special_violated); start paths that overlap make the scan fail (C42_overlap_violated). C42_patterns, C42_bad_pattern: what is excluded after any calls of add_exclude_patterns; one bad pattern makes every later call fail, too."
  },
  {
   "property": "C43",
   "status": "partial",
   "theorems": [
    "Resync.C43_history",
    "Resync.C43_read_back",
    "Resync.C43_violated"
   ],
   "note": "every history, starting without a state file, of calls with non-empty site names; the empty name makes the file unreadable (C43_violated)"
  },
  {
   "property": "C44",
   "status": "partial",
   "theorems": [
    "Resync.C44_partial",
    "Resync.C44_shared",
    "Resync.C44_violated"
   ],
   "note": "names share an entry exactly if SameKey; for those the claim fails (C44_shared, C44_violated)"
  },
  {
   "property": "C45",
   "status": "partial",
   "theorems": [
    "Resync.C45_serial_partial",
    "Resync.C45_lost_update_violated",
    "Resync.C45_garbled_violated",
    "Resync.C45_crash_violated",
    "Resync.C45_wrong_timestamp_violated",
    "Resync.C45_clients_partial",
    "Resync.C45_writer_partial"
   ],
   "note": "there is no lock and no atomic replacement: lost updates, unreadable files and lost or wrong timestamps after a crash are shown possible; non-overlapping calls are shown right. For any number of clients in any order whose writes are in one piece, C45_clients_partial and C45_writer_partial show that nobody fails and that no site gets a timestamp nobody set (updates may still be lost)."
  },
  {
   "property": "C46",
   "status": "proved",
   "theorems": [
    "Resync.C46_audit"
   ],
   "note": "at every moment of the run, and for every outcome"
  },
  {
   "property": "C47",
   "status": "partial",
   "theorems": [
    "Resync.C47_files_partial",
    "Resync.C47_violated"
   ],
   "note": "files are untouched and nothing is requested; directories are created and the state is stored (C47_violated)"
  },
  {
   "property": "C48",
   "status": "proved",
   "theorems": [
    "Resync.C48_no_deletion",
    "Resync.C48_baseline",
    "Resync.C48_incremental"
   ],
   "note": "at every moment; C48_baseline and C48_incremental say which files can go at all"
  },
  {
   "property": "C49",
   "status": "proved",
   "theorems": [
    "Resync.C49_baseline",
    "Resync.C49_baseline_no_deletion",
    "Resync.C49_incremental",
    "Resync.C49_directories"
   ],
   "note": "at every moment; directories in C49_directories"
  },
  {
   "property": "C50",
   "status": "partial",
   "theorems": [
    "Resync.C50_sites_partial",
    "Resync.C50_partial",
    "Resync.C50_sites_first_sync",
    "Resync.C50_first_sync",
    "Resync.C50_violated",
    "Resync.C50_violated_uri"
   ],
   "note": "any number of sites mapped to directories apart from each other (C50_sites_partial; C50_partial is the case of one), no dry run, failures not ignored; a file with listed time and length is left alone whatever its content (C50_violated); URIs not in normal form (C50_violated_uri)"
  },
  {
   "property": "C51",
   "status": "partial",
   "theorems": [
    "Resync.C51_sites_partial",
    "Resync.C51_partial",
    "Resync.C51_violated"
   ],
   "note": "any number of sites; listed resources have times and true lengths; otherwise violated (C51_violated)"
  },
  {
   "property": "C52",
   "status": "partial",
   "theorems": [
    "Resync.C52_nothing_done_before_checks",
    "Resync.C52_no_mapping",
    "Resync.C52_unsafe",
    "Resync.C52_empty",
    "Resync.C52_authority_partial",
    "Resync.C52_violated"
   ],
   "note": "in full for no mapping, unsafe mapping, empty list; for authority the run succeeds if there is nothing to do (C52_violated)"
  },
  {
   "property": "C53",
   "status": "partial",
   "theorems": [
    "Resync.C53_default_partial",
    "Resync.C53_violated"
   ],
   "note": "without an explicit change list URI; with one nothing is checked (C53_violated)"
  },
  {
   "property": "C54",
   "status": "partial",
   "theorems": [
    "Resync.C54_partial",
    "Resync.C54_start",
    "Resync.C54_violated"
   ],
   "note": "all but resources whose first selected change is a creation and whose last is a deletion (C54_violated)"
  },
  {
   "property": "C55",
   "status": "partial",
   "theorems": [
    "Resync.C55_crash_partial",
    "Resync.C55_next_run_partial",
    "Resync.C55_baseline_crash_partial",
    "Resync.C55_violated"
   ],
   "note": "crash points and the next run's selection; four ways in which changes are passed over are shown (C55_violated); a stored time outside the years 1 to 9999 ends the run with an error after it has been stored"
  },
  {
   "property": "C56",
   "status": "partial",
   "theorems": [
    "Resync.C56_partial",
    "Resync.C56_violated"
   ],
   "note": "the time that the version uses is accepted; the other one alone is not (C56_violated); the start time is in the years 1 to 9999"
  },
  {
   "property": "C57",
   "status": "partial",
   "theorems": [
    "Resync.C57_wrong_hashes_violated",
    "Resync.C57_violated",
    "Resync.C57_incremental_violated",
    "Resync.C57_no_effect_violated"
   ],
   "note": "the code does the opposite: proved for all inputs (C57_wrong_hashes_violated); and so a baseline sync or audit is the same run whatever digests are asked for (C57_no_effect_violated)"
  },
  {
   "property": "C58",
   "status": "proved",
   "theorems": [
    "Resync.C58_update_resource",
    "Resync.C58_baseline_requests",
    "Resync.C58_incremental_requests"
   ],
   "note": "all servers, all numbers of tries; C58_baseline_requests and C58_incremental_requests are about whole runs (also those that end with an error)"
  },
  {
   "property": "C59",
   "status": "partial",
   "theorems": [
    "Resync.C59_no_body_partial",
    "Resync.C59_violated"
   ],
   "note": "when no body arrives; a broken transfer destroys the copy (C59_violated)"
  },
  {
   "property": "C60",
   "status": "partial",
   "theorems": [
    "Resync.C60_partial",
    "Resync.C60_violated"
   ],
   "note": "what can be stored is characterised; it may be the time of a file not listed (C60_violated)"
  },
  {
   "property": "C61",
   "status": "partial",
   "theorems": [
    "Resync.C61_explicit_list",
    "Resync.C61_explicit_capability_list",
    "Resync.C61_search",
    "Resync.C61_absolute_link",
    "Resync.C61_relative_link",
    "Resync.C61_violated"
   ],
   "note": "Proved for http and https sources: exact places, order of documents read and the stopping rule. Violated for local and ftp sources: lstrip('file:///') strips a character set (C61_violated)."
  },
  {
   "property": "C62",
   "status": "proved",
   "theorems": [
    "Resync.C62_delay",
    "Resync.C62_token",
    "Resync.C62_url",
    "Resync.C62_count"
   ],
   "note": ""
  },
  {
   "property": "C63",
   "status": "partial",
   "theorems": [
    "Resync.C63_every_entry",
    "Resync.C63_once",
    "Resync.C63_order_partial",
    "Resync.C63_violated",
    "Resync.C63_info",
    "Resync.C63_info_none"
   ],
   "note": "Every entry once, specified order, URI order within a capability are proved in full. The claim about unknown capabilities is false: they come in insertion order (C63_violated)."
  },
  {
   "property": "C64",
   "status": "partial",
   "theorems": [
    "Resync.C64_link_iff",
    "Resync.C64_link",
    "Resync.C64_violated",
    "Resync.C64_capabilities_iff",
    "Resync.C64_capabilities",
    "Resync.C64_links_iff",
    "Resync.C64_count_true"
   ],
   "note": "Exact accept/reject conditions proved for both parsers. Two corners break the reading 'exactly those attributes': a later href= or rel= replaces the given one, and an empty rel is accepted (C64_violated)."
  },
  {
   "property": "C65",
   "status": "proved",
   "theorems": [
    "Resync.C65_reuse",
    "Resync.C65_unused",
    "Resync.C65_after_failure",
    "Resync.C65_block_size",
    "Resync.C65_set",
    "Resync.C65_errors",
    "Resync.C65_block_size_zero"
   ],
   "note": ""
  },
  {
   "property": "C66",
   "status": "proved",
   "theorems": [
    "Resync.C66_back_returns",
    "Resync.C66_next_start",
    "Resync.C66_done",
    "Resync.C66_quit",
    "Resync.C66_back"
   ],
   "note": "stack discipline for every tour; also that b is accepted where it is not offered (C66_back), which the claim does not forbid"
  },
  {
   "property": "C67",
   "status": "partial",
   "theorems": [
    "Resync.C67_violated_inner_loop_ends_outer",
    "Resync.C67_violated",
    "Resync.C67_single_iteration_partial"
   ],
   "note": "the list object is its own iterator, so an inner loop ends the outer one (C67_violated_*); a single undisturbed iteration is complete"
  },
  {
   "property": "C68",
   "status": "proved",
   "theorems": [
    "Resync.C68_options",
    "Resync.C68_follow",
    "Resync.C68_other_input"
   ],
   "note": ""
  },
  {
   "property": "C69",
   "status": "partial",
   "theorems": [
    "Resync.C69_partial",
    "Resync.C69_head",
    "Resync.C69_violated"
   ],
   "note": "all links but up and index of lists and dumps (C69_violated)"
  },
  {
   "property": "C70",
   "status": "partial",
   "theorems": [
    "Resync.C70_partial",
    "Resync.C70_violated"
   ],
   "note": "local files; nothing is reported for URIs (C70_violated)"
  },
  {
   "property": "C71",
   "status": "partial",
   "theorems": [
    "Resync.C71_partial",
    "Resync.C71_violated"
   ],
   "note": "only an entry with a time outside the representable years ends it (C71_violated)"
  },
  {
   "property": "C72",
   "status": "partial",
   "theorems": [
    "Resync.C72_refused",
    "Resync.C72_local_partial",
    "Resync.C72_all_partial",
    "Resync.C72_violated",
    "Resync.C72_index_only_violated",
    "Resync.C72_local_file"
   ],
   "note": "index refused; local index; for an index read from a server authority is not checked (C72_violated); what counts as a local file is said exactly (C72_local_file): in particular every https URI does"
  },
  {
   "property": "C73",
   "status": "partial",
   "theorems": [
    "Resync.C73_published_list_partial",
    "Resync.C73_violated"
   ],
   "note": "success and content, any limit on entries; names that XML cannot express excepted (C73_violated)"
  },
  {
   "property": "C74",
   "status": "partial",
   "theorems": [
    "Resync.C74_change_list_partial",
    "Resync.C74_violated"
   ],
   "note": "what readers get; no incremental sync accepts the list (C74_violated)"
  },
  {
   "property": "C75",
   "status": "partial",
   "theorems": [
    "Resync.C75_capability_list",
    "Resync.C75_capability_list_refused",
    "Resync.C75_source_description_partial",
    "Resync.C75_source_description_refused",
    "Resync.C75_violated"
   ],
   "note": "capability lists in full; source descriptions up to 50000 entries, more cannot be written (C75_violated)"
  },
  {
   "property": "C78",
   "status": "proved",
   "theorems": [
    "Resync.C78_mirror",
    "Resync.C78_mirror_made",
    "Resync.C78_then_in_sync"
   ],
   "note": "Names of files must be expressible in XML on one line; bases have no regular expression syntax other than dots (Spec Site, OneSite)."
  },
  {
   "property": "C79",
   "status": "partial",
   "theorems": [
    "Resync.C79_sites_succeed_partial",
    "Resync.C79_baseline_succeeds_partial",
    "Resync.ClientExample.C79_violated",
    "Resync.ClientExample.C79_late_time_violated"
   ],
   "note": "any number of sites apart from each other, a server that delivers within the number of tries (time-outs before that are allowed), and room for every file; a file in the way of a directory stops the sync for good (C79_violated); times are before the year 10000 (C79_late_time_violated)"
  },
  {
   "property": "C77",
   "status": "partial",
   "theorems": [
    "Resync.C77_same_runs",
    "Resync.C77_audit",
    "Resync.C77_synced_partial",
    "Resync.C77_incremental_partial",
    "Resync.C77_incremental_violated",
    "Resync.C77_announced_violated",
    "Resync.ClientExample.C77_violated",
    "Resync.C77_sites_audit",
    "Resync.C77_sites_synced_partial"
   ],
   "note": "first lines and the last line of a baseline sync with failures not ignored; incremental's lines, dry runs and ignored failures violate the claim"
  },
  {
   "property": "C76",
   "status": "proved",
   "theorems": [
    "Resync.C76_last_assignment",
    "Resync.C76_read_back"
   ],
   "note": ""
  },
  {
   "property": "C80",
   "status": "partial",
   "theorems": [
    "Resync.C80_only_looks",
    "Resync.C80_delete",
    "Resync.C80_dryrun_partial",
    "Resync.C80_bad_options",
    "Resync.C80_requests",
    "Resync.C80_publish_and_copy",
    "Resync.ScriptsExample.C80_exclude_violated",
    "Resync.C80_checksum_violated",
    "Resync.C80_tries_violated"
   ],
   "note": "--dryrun as C47 (directories and status file may change); --exclude has no effect in resync-sync, --checksum alone crashes, --tries 0 means 20 (..._violated)"
  },
  {
   "property": "C81",
   "status": "partial",
   "theorems": [
    "Resync.C81_capability_list",
    "Resync.C81_source_description",
    "Resync.C81_change_list_partial",
    "Resync.C81_resource_list",
    "Resync.C81_where",
    "Resync.C81_usage",
    "Resync.C81_dryrun_violated",
    "Resync.C81_stdout_violated",
    "Resync.C81_changedump_violated"
   ],
   "note": "change lists that fit into one document (see C83); --dryrun is ignored, --write-changedump writes a change list, and a line is printed after a change list on standard output (..._violated)"
  },
  {
   "property": "C82",
   "status": "partial",
   "theorems": [
    "Resync.C82_reported_partial",
    "Resync.C82_explorer",
    "Resync.C82_violated"
   ],
   "note": "what the client does not complete is reported by status or by the message FatalError; after the latter the status is 0 (C82_violated)"
  },
  {
   "property": "C83",
   "status": "partial",
   "theorems": [
    "Resync.C83_one_document_partial",
    "Resync.C83_violated",
    "Resync.C83_add"
   ],
   "note": "change lists in one document; several documents cannot be read (C83_violated, for all of them)"
  },
  {
   "property": "C84",
   "status": "partial",
   "theorems": [
    "Resync.C84_own_kind",
    "Resync.C84_other_kind",
    "Resync.C84_several_documents_partial",
    "Resync.C84_index_violated",
    "Resync.C84_allow_multifile_violated",
    "Resync.C84_changes",
    "Resync.C84_index_only"
   ],
   "note": "one document: every class, both directions. Several documents: only for the classes kept in a dictionary by URI (resource lists, resource dumps and their manifests, change dumps), read by a remote reader; the other classes cannot read an index at all (C84_index_violated). Constructors of dumps and manifests drop allow_multifile (C84_allow_multifile_violated)."
  },
  {
   "property": "C85",
   "status": "proved",
   "theorems": [
    "Resync.C85_incremental"
   ],
   "note": ""
  },
  {
   "property": "C86",
   "status": "partial",
   "theorems": [
    "Resync.C86_copies_partial",
    "Resync.CopyExample.C86_violated"
   ],
   "note": "histories in which, by the time of each run, something has happened later than the creation of whatever is deleted after it (Settled); without this C86_violated"
  },
  {
   "property": "C87",
   "status": "partial",
   "theorems": [
    "Resync.C87_first_copy",
    "Resync.C87_lifecycle_partial",
    "Resync.CopyExample.C87_violated"
   ],
   "note": "the first copy in full; the further runs under the condition of C86 and its analogue for the baseline sync (C87_violated)"
  },
  {
   "property": "C88",
   "status": "partial",
   "theorems": [
    "Resync.C88_account",
    "Resync.C88_entries",
    "Resync.C88_unknown_partial",
    "Resync.C88_announced_partial",
    "Resync.C88_unknown_violated",
    "Resync.C88_up_violated"
   ],
   "note": "an index of source descriptions is called unknown (a spelling slip, C88_unknown_violated) and following 'up' from a list announces the wrong kind (C88_up_violated); the account itself, the remarks and the expectations for entries are proved"
  },
  {
   "property": "C89",
   "status": "proved",
   "theorems": [
    "Resync.C89_explicit",
    "Resync.C89_nothing",
    "Resync.C89_directory",
    "Resync.C89_file",
    "Resync.C89_server"
   ],
   "note": ""
  },
  {
   "property": "C90",
   "status": "partial",
   "theorems": [
    "Resync.C90_counts",
    "Resync.C90_written",
    "Resync.C90_script",
    "Resync.C90_listing_partial",
    "Resync.C90_text",
    "Resync.C90_text_parts",
    "Resync.C90_order_violated"
   ],
   "note": "the listing said to be sorted by URI is in document order (C90_order_violated); counts, kinds and the text of entries are proved, listing for times within the years 1 to 9999"
  },
  {
   "property": "C91",
   "status": "partial",
   "theorems": [
    "Resync.C91_applied_partial",
    "Resync.CopyExample.C91_deletion_violated"
   ],
   "note": "holds by version 1.0 from a time before all the listed times; deletions are passed over after a later stored time (C91_deletion_violated), and version 1.1 does not apply published changes at all (C74_violated)"
  },
  {
   "property": "C92",
   "status": "partial",
   "theorems": [
    "Resync.C92_create",
    "Resync.C92_assign_partial",
    "Resync.C92_sharing_ends",
    "Resync.C92_sharing_begins",
    "Resync.C92_separate_partial",
    "Resync.C92_no_link_operations_partial",
    "Resync.C92_copies_with_links_partial",
    "Resync.SharingExample.C92_violated"
   ],
   "note": "copies share the list of links of the original until `ln` is assigned (C92_violated); exactly that is shared and nothing else (C92_assign_partial, C92_sharing_begins, C92_sharing_ends), so the value model of resources used elsewhere is right for programs without link operations on copies"
  },
  {
   "property": "C93",
   "status": "partial",
   "theorems": [
    "Resync.C93_rounding",
    "Resync.C93_same_text",
    "Resync.C93_same_reading",
    "Resync.C93_round_trip_partial",
    "Resync.C93_far_round_trip",
    "Resync.C93_violated",
    "Resync.C93_close_and_stable",
    "Resync.C93_order",
    "Resync.C93_no_fractions",
    "Resync.C93_compare",
    "Resync.C93_compare_zero"
   ],
   "note": "near the start of 1970 the number read may be a neighbour of the one written (C93_violated); everything else is proved for all doubles in the years 1 to 9999 (C93_round_trip_partial excludes fractional times with 1 <= |t| < 9000 and negative ones below 1)"
  },
  {
   "property": "C94",
   "status": "partial",
   "theorems": [
    "Resync.C94_list_again",
    "Resync.C94_list_same_otherwise",
    "Resync.C94_list_unchanged_partial",
    "Resync.C94_list_violated",
    "Resync.C94_dump_after",
    "Resync.C94_dump_again_partial",
    "Resync.C94_dump_violated",
    "Resync.C94_dump_wrong_file_violated"
   ],
   "note": "writing again writes the same for all lists (C94_list_again) though an index link changes (C94_list_violated); a dump cannot in general be written again (C94_dump_violated, C94_dump_wrong_file_violated); C94_dump_after says exactly what is left, and without a common directory writing again is the same (C94_dump_again_partial)"
  },
  {
   "property": "C95",
   "status": "proved",
   "theorems": [
    "Resync.C95_text_is_document",
    "Resync.C95_round_trip",
    "Resync.C95_entries"
   ],
   "note": "The text that write makes is read back as the tree that was written, hence (with C34) as what a document records about the resources. Attribute names given by the user must be XML names."
  },
  {
   "property": "C96",
   "status": "proved",
   "theorems": [
    "Resync.C96_cut_off",
    "Resync.C96_no_other_document",
    "Resync.C96_files",
    "Resync.C96_crash"
   ],
   "note": ""
  },
  {
   "property": "C97",
   "status": "partial",
   "theorems": [
    "Resync.C97_beginnings",
    "Resync.C97_repaired_partial",
    "Resync.C97_finishes_partial",
    "Resync.ClientExample.C97_violated"
   ],
   "note": "After any number of interrupted baseline and incremental syncs (also in the middle of writing bytes) a baseline sync that succeeds has repaired everything, if lengths are listed; it succeeds when server and disk work (C97_finishes_partial). Fails without lengths (C97_violated)."
  },
  {
   "property": "C98",
   "status": "proved",
   "theorems": [
    "Resync.C98_round_trip",
    "Resync.C98_cut_off",
    "Resync.C98_files",
    "Resync.C98_crash",
    "Resync.C98_publish",
    "Resync.C98_mirror",
    "Resync.C98_list_cut_off",
    "Resync.C98_changes_cut_off"
   ],
   "note": "For files opened with a UTF-8 locale (open(file,'w') uses the locale's encoding, which is not modelled). Byte order marks and other encodings are not modelled."
  },
  {
   "property": "C99",
   "status": "partial",
   "theorems": [
    "Resync.C99_any_moment",
    "Resync.C99_last_partial",
    "Resync.C99_all_partial",
    "Resync.C99_alone",
    "Resync.ClientExample.C99_violated"
   ],
   "note": "Holds at any moment as \"no wrong byte\" and for every file whose last opener finishes (in particular if all finish). Fails if the process that opened the file last is killed while another goes on (C99_violated). What the other processes do shows to a process only through its starting state and the failures of its system calls; file times are not modelled in the shared file system."
  },
  {
   "property": "C100",
   "status": "partial",
   "theorems": [
    "Resync.C100_exact",
    "Resync.C100_fragment",
    "Resync.C100_uri",
    "Resync.C100_read_back_partial",
    "Resync.C100_source_partial",
    "Resync.C100_violated"
   ],
   "note": "Holds exactly for names without scheme, '#', leading '//', %-escape and trailing blank (C100_exact, an equivalence); other names open another file or none (C100_fragment, C100_violated)."
  },
  {
   "property": "C101",
   "status": "proved",
   "theorems": [
    "Resync.C101_made",
    "Resync.C101_refused",
    "Resync.C101_copy"
   ],
   "note": ""
  },
  {
   "property": "C102",
   "status": "partial",
   "theorems": [
    "Resync.C102_fixity",
    "Resync.C102_rewrite_violated"
   ],
   "note": "C102_fixity is the claim, for every point of every first write. Writing over an older list breaks it for the old index (C102_rewrite_violated, for all lists). The checksum function is a parameter; the hypothesis is that Hashes gives the sum of what was just written to the file."
  },
  {
   "property": "C103",
   "status": "partial",
   "theorems": [
    "Resync.C103_prefixes",
    "Resync.C103_says",
    "Resync.C103_space_violated",
    "Resync.C103_spelling",
    "Resync.C103_no_document",
    "Resync.C103_texts"
   ],
   "note": "C103_says for trees (success with the same result; which error is raised first may differ), C103_prefixes for texts that differ in prefixes, C103_spelling and C103_texts for texts by the grammar in Spec/Xml. White space around URIs and datetimes is not ignored (C103_space_violated)."
  },
  {
   "property": "C104",
   "status": "proved",
   "theorems": [
    "Resync.C104_basename"
   ],
   "note": ""
  },
  {
   "property": "C105",
   "status": "proved",
   "theorems": [
    "Resync.C105_others_kept",
    "Resync.C105_assigned",
    "Resync.C105_assigned_text",
    "Resync.C105_last_assignment",
    "Resync.C105_text_read_back"
   ],
   "note": ""
  },
  {
   "property": "C106",
   "status": "partial",
   "theorems": [
    "Resync.C106_follow_partial",
    "Resync.C106_stored_partial",
    "Resync.C106_deleted_stays_violated",
    "Resync.C106_violated"
   ],
   "note": "Two halves. It holds if the start time given lies before the times of last modification of what is new, changed and deleted (C106_follow_partial), and from the stored time if nothing is deleted and what is new or changed was modified after everything else (C106_stored_partial). In general it fails: a deleted file stays (C106_deleted_stays_violated, for every directory in which it was not the newest file; C106_violated). Changes in content which change neither the size nor the time by a second are not assumed to be seen (see C25, C91)."
  },
  {
   "property": "C107",
   "status": "partial",
   "theorems": [
    "Resync.C107_as_xml",
    "Resync.C107_part",
    "Resync.C107_write",
    "Resync.C107_no_count",
    "Resync.C107_second_violated",
    "Resync.C107_write_again_violated",
    "Resync.C107_number",
    "Resync.C107_parts_violated"
   ],
   "note": "Each operation on a fresh list gives what the list of the same items gives (C107_as_xml, C107_part, C107_write, C107_number), and without a count that is needed there is an exception (C107_no_count). It fails for later calls on the same list: the generator is spent, and a document without entries (or with other entries) is given without an error (the _violated theorems, with a witness)."
  },
  {
   "property": "C108",
   "status": "partial",
   "theorems": [
    "Resync.C108_baseline_partial",
    "Resync.C108_incremental_partial",
    "Resync.C108_baseline_behind_partial",
    "Resync.C108_incremental_behind_partial",
    "Resync.C108_performed",
    "Resync.ClientExample.C108_violated"
   ],
   "note": "The client's system calls are done on a file system with symbolic links (Spec/Links.lean, after path_resolution(7)). With no links in the destinations (and none on the way to them, or any number that lead to the real destinations), nothing outside changes at any moment and the destinations hold what the model says. It fails when there is a link in a destination: the scan passes over it and open() writes through it (C108_violated)."
  },
  {
   "property": "C109",
   "status": "partial",
   "theorems": [
    "Resync.C109_same_runs",
    "Resync.C109_event_resource",
    "Resync.C109_baseline_partial",
    "Resync.C109_incremental_partial",
    "Resync.C109_kinds_partial",
    "Resync.C109_baseline_accounts",
    "Resync.C109_incremental_accounts",
    "Resync.C109_hashes_violated",
    "Resync.ClientExample.C109_violated",
    "Resync.C109_sites_kinds_partial",
    "Resync.C109_sites_accounts"
   ],
   "note": "Proved for every run with at least one try: the events are one for one, in order, about the completed downloads and the removals in the trace of the run (C109_baseline_partial, C109_incremental_partial); the kinds of events (C109_kinds_partial) and the accounts of runs that end normally (C109_baseline_accounts: one plain mapping; C109_sites_kinds_partial, C109_sites_accounts: any number of sites, each with a directory of its own; C109_incremental_accounts: any mapping). Violated: C109_hashes_violated proves that no complaint about a digest ever follows an event of a baseline sync, because prune_hashes removes exactly the types the source has (an incremental sync with hashes ends in an exception); C109_violated has instances, and --tries -1, with which events are logged and nothing is fetched."
  },
  {
   "property": "C110",
   "status": "partial",
   "theorems": [
    "Resync.C110_parsers",
    "Resync.C110_accepts",
    "Resync.C110_one_mode",
    "Resync.C110_word_counts",
    "Resync.C110_meant",
    "Resync.C110_unknown",
    "Resync.C110_no_number",
    "Resync.C110_choices",
    "Resync.C110_missing_value",
    "Resync.C110_unknown_letter",
    "Resync.C110_sync_options",
    "Resync.C110_build_options",
    "Resync.C110_order",
    "Resync.C110_refused",
    "Resync.C110_only_looks",
    "Resync.C110_dryrun",
    "Resync.C110_delete",
    "Resync.C110_between_violated",
    "Resync.C110_spellings_violated",
    "Resync.C110_explore_options",
    "Resync.C110_explore_ignored_violated"
   ],
   "note": "argparse (Python 3.11) is modelled for parsers of this shape, and compared with CPython's on random command lines (tools/libcheck/argv_gen.py). Proved for all lines of the proper form (C110_accepts, C110_sync_options, C110_build_options, C110_explore_options, C110_order) and, for the claims about safety, for all lists of words whatever (C110_one_mode, C110_word_counts, C110_meant, C110_only_looks, C110_dryrun, C110_delete, C110_refused, C110_unknown, C110_unknown_letter, C110_choices, C110_missing_value). It fails for options between the mapping arguments (C110_between_violated, for all of them) and for abbreviations of options with two spellings (C110_spellings_violated). resync-explorer takes options that have no effect (C110_explore_ignored_violated)."
  },
  {
   "property": "C111",
   "status": "partial",
   "theorems": [
    "Resync.C111_law",
    "Resync.C111_once_partial",
    "Resync.C111_programs",
    "Resync.C111_others",
    "Resync.C111_time",
    "Resync.C111_before",
    "Resync.C111_announced",
    "Resync.C111_unannounced",
    "Resync.C111_lines_partial",
    "Resync.C111_eval_violated",
    "Resync.C111_twice_violated",
    "Resync.C111_quiet",
    "Resync.C111_verbose",
    "Resync.C111_silent_violated",
    "Resync.C111_forged_violated",
    "Resync.C111_own_documents",
    "Resync.C111_names",
    "Resync.C111_digest_named"
   ],
   "note": "Proved: the law for every history of init_logging calls, every logger and record (C111_law), from which the programs' options follow for all proper command lines (C111_programs); other loggers keep what they had (C111_others); times (C111_time); log files can be read back as long as messages have no newlines (C111_lines_partial); what is shown of every sync (C111_quiet, C111_verbose). Violated: --eval and --logfile without --logger do nothing (C111_eval_violated); messages are repeated after a second call or with a nested logger (C111_twice_violated); mismatches of length or digest are not shown without --verbose, though said to be warnings (C111_silent_violated); a source can put lines of its own into the log (C111_forged_violated). Also: nothing is shown of messages before the call (C111_before); which capabilities are announced as unknown (C111_announced, C111_unannounced), none in documents written by this package (C111_own_documents); every message names the URI and file it is about (C111_names)."
  },
  {
   "property": "C112",
   "status": "partial",
   "theorems": [
    "Resync.C112_unambiguous",
    "Resync.C112_line",
    "Resync.C112_event_object",
    "Resync.C112_event",
    "Resync.C112_evaluation_partial",
    "Resync.C112_none_violated",
    "Resync.C112_copy_violated"
   ],
   "note": "Proved: the text is one line and determines the object (C112_unambiguous, C112_line), what is logged is determined by the attributes (C112_event_object) and not the text of another message (C112_event); events can be read off the log file as long as no other message has a newline in it (C112_evaluation_partial). How numbers are written is assumed to be injective and of digits, point, exponent and signs; str.isprintable is arbitrary. Violated: every event shows attributes that are None (C112_none_violated), and a copy with the same attributes has another text (C112_copy_violated)."
  },
  {
   "property": "C113",
   "status": "proved",
   "theorems": [
    "Resync.C113_exact",
    "Resync.C113_settled",
    "Resync.C113_chain",
    "Resync.C113_found",
    "Resync.C113_publishable",
    "Resync.C113_contents"
   ],
   "note": "Chains of any length: exact for sources in whole seconds (C113_exact), the times settle at the first mirror (C113_settled), any source (C113_chain), what the next publisher needs (C113_publishable, for copies without empty directories), and that what the next one finds on the disk is such a copy (C113_found). Each hop is a successful baseline sync at a place without files from a server that delivers what is in the files. For copies made in whatever way (C78, C80, C106) the contents are carried along (C113_contents)."
  },
  {
   "property": "C114",
   "status": "proved",
   "theorems": [
    "Resync.C114_list",
    "Resync.C114_changes",
    "Resync.C114_order",
    "Resync.C114_sync",
    "Resync.C114_incremental"
   ],
   "note": "Publisher: the same eligible files give the same output (C114_list, C114_changes), in particular any reordering at any depth (C114_order). Destination: baseline syncs and audits with disks listed in any other order (C114_sync, for one or more mapped sites and supported hash types), incremental syncs with disks of equal contents (C114_incremental)."
  },
  {
   "property": "C115",
   "status": "proved",
   "theorems": [
    "Resync.C115_read",
    "Resync.C115_found",
    "Resync.C115_sync"
   ],
   "note": "Reading (C115_read), discovery (C115_found) and whole runs (C115_sync, for one or more mapped sites and supported hash types). Document metadata and links keep their places before the entries, where the format has them. Change lists are not covered: their order is meant to be the order of the changes."
  },
  {
   "property": "C116",
   "status": "proved",
   "theorems": [
    "Resync.C116_mapped",
    "Resync.C116_sync",
    "Resync.C116_overlap"
   ],
   "note": "Mappings of one-line strings with literal bases, where a dot may count for any character (C116_mapped); whole runs with the list named (C116_sync); C116_overlap shows that the hypothesis is needed. If the list is not named its place is taken from the first mapping, so there the order counts, as documented."
  },
  {
   "property": "C117",
   "status": "proved",
   "theorems": [
    "Resync.C117_prune",
    "Resync.C117_plan",
    "Resync.C117_sync",
    "Resync.ChangeOrderExample.C117_one_uri"
   ],
   "note": "C117_prune and C117_plan hold without conditions on the surroundings (the kind of error may differ when a list has several faults); C117_sync in the situation of C85, with a listed time after 1970 and lastmod not after the datetime of a change; C117_one_uri shows that the order per URI matters."
  },
  {
   "property": "C118",
   "status": "partial",
   "theorems": [
    "Resync.C118_resumed_partial",
    "Resync.C118_same_list",
    "Resync.C118_again",
    "Resync.CopyExample.C118_violated"
   ],
   "note": "C118_resumed_partial allows the broken-off syncs to have read earlier beginnings of the change list, under NothingPassing; C118_same_list has no such condition; C118_violated shows that it is needed. C118_again is about repeating a sync that was not broken off."
  },
  {
   "property": "C119",
   "status": "proved",
   "theorems": [
    "Resync.C119_publishing",
    "Resync.C119_sync"
   ],
   "note": "C119_publishing is about exclude patterns within the syntax of the regex model (compile does not give `outside`), where the order does not matter even if some pattern is bad."
  },
  {
   "property": "C120",
   "status": "partial",
   "theorems": [
    "Resync.C120_effect_partial",
    "Resync.C120_effect_violated",
    "Resync.C120_again",
    "Resync.C120_piecewise_partial",
    "Resync.C120_piecewise_kept",
    "Resync.C120_piecewise_violated",
    "Resync.C120_cutoffs"
   ],
   "note": "The full statement fails for certain histories: C120_effect_violated (for every such list and collection) and C120_piecewise_violated say which; C120_effect_partial and C120_piecewise_partial cover all others."
  },
  {
   "property": "C121",
   "status": "proved",
   "theorems": [
    "Resync.C121_sync",
    "Resync.C121_incremental"
   ],
   "note": "C121_sync (baseline sync and audit) and C121_incremental. Hypotheses: destinations as in C50/C51 for several sites, URIs of the lists below the mapped ones (those which are not are refused or go elsewhere, see C49)."
  },
  {
   "property": "C122",
   "status": "proved",
   "theorems": [
    "Resync.C122_baseline",
    "Resync.C122_incremental",
    "Resync.C122_audit"
   ],
   "note": "tries at least 1 (with none the real run downloads nothing); C122_audit also supposes a proper file system and lists keyed by URI."
  },
  {
   "property": "C123",
   "status": "proved",
   "theorems": [
    "Resync.C123_adds",
    "Resync.C123_postponed"
   ],
   "note": "C123_adds holds of every run. C123_postponed is about destinations as in C50/C51, a list below the mapped URIs that is the same for both syncs, no failing removals, failures not ignored."
  },
  {
   "property": "C124",
   "status": "proved",
   "theorems": [
    "Resync.C124_either_order",
    "Resync.C124_same_run",
    "Resync.C124_any_number",
    "Resync.C124_any_order"
   ],
   "note": "That the destinations exist is assumed: otherwise the first sync may make directories on the way to those of the second one. An incremental sync without a start time takes it from the state file, which the syncs share; it is not included."
  },
  {
   "property": "C125",
   "status": "proved",
   "theorems": [
    "Resync.C125_baseline",
    "Resync.C125_incremental",
    "Resync.C125_same",
    "Resync.TriesExample.C125_no_tries",
    "Resync.TriesExample.C125_ignored"
   ],
   "note": "C125_baseline and C125_incremental hold of every run with at least one try in which failures are not ignored; C125_no_tries and C125_ignored show that both conditions are needed."
  },
  {
   "property": "C126",
   "status": "proved",
   "theorems": [
    "Resync.C126_baseline",
    "Resync.C126_incremental",
    "Resync.C126_same",
    "Resync.C126_all_requested",
    "Resync.C126_all_changes_requested",
    "Resync.C126_fatal_first"
   ],
   "note": "C126_baseline, C126_incremental, C126_same and C126_fatal_first hold of every run; C126_all_requested has the hypotheses about destinations of C50/C51; at least one try and no dry run for both _requested theorems."
  },
  {
   "property": "C127",
   "status": "proved",
   "theorems": [
    "Resync.C127_baseline_noauth",
    "Resync.C127_incremental_noauth",
    "Resync.C127_baseline_strict",
    "Resync.C127_incremental_strict",
    "Resync.C127_same"
   ],
   "note": "no hypotheses about the situation; that the checks themselves accept what they should is C09/C10."
  }
 ]
}