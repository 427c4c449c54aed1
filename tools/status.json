{
 "C01": {
  "note": "Proved for one-line strings, bases without regular expression syntax, and bases with dots for every URI that no base covers only with its dots as wildcards. False with a trailing line feed (C01_line_feed_violated) and with dots as wildcards (C03)."
 },
 "C03": {
  "note": "code violates the claim (C03_violated): bases are used unescaped as regular expressions"
 },
 "C04": {
  "note": "only one slash is stripped (C04_violated)"
 },
 "C05": {
  "note": "a trailing slash hides a duplicate (C05_violated)"
 },
 "C06": {
  "note": "absolute/absolute and plain relative/relative proved; mixed spellings violate the claim"
 },
 "C07": {
  "note": "'..' in URIs escapes the destination (C07_violated)"
 },
 "C10": {
  "note": "paths are compared as text, so a sibling directory with the same prefix is covered (C10_violated); the covered direction and the exact textual criterion are proved"
 },
 "C12": {
  "note": "a final newline after a full datetime is accepted (C12_violated); exact acceptance set proved in C12_accepted_exactly"
 },
 "C13": {
  "note": "the code adds the offset instead of subtracting it (C13_violated); exact behaviour in C13_actual_shift, claim holds for zero offsets"
 },
 "C16": {
  "note": "equal() with the default delta 0.0 is not reflexive on timestamps as < is strict (C16_violated); positive deltas proved"
 },
 "C24": {
  "note": "comparing a list object with itself shares one iterator: for every non-empty list the result is wrong (C24_violated_for_every_list); a separate list with equal contents gives the expected result"
 },
 "C67": {
  "note": "the list object is its own iterator, so an inner loop ends the outer one (C67_violated_*); a single undisturbed iteration is complete"
 },
 "C39": {
  "note": "the size test comes after adding, so a package may exceed max_size (C39_violated, for every limit); bound proved: below max_size without the last file, below twice max_size"
 },
 "C40": {
  "note": "distinctness and member/manifest agreement proved; '..' occurs because the common prefix is computed per character (C40_violated); exact criterion in C40_inside_iff"
 },
 "C28": {
  "note": "with the limit 1 a component gets two entries (C28_limit_one_violated); proved for other limits"
 },
 "C29": {
  "note": "limit 1, and the first part number past the end when the last component is full, violate the claim"
 },
 "C30": {
  "note": "a list at x and one at x.xml get the same component names (C30_other_basename_violated)"
 },
 "C31": {
  "note": "https URIs are taken for local files (C31_https_violated)"
 },
 "C32": {
  "note": "rewriting in place exposes a mixture of old and new parts (C32_rewrite_violated); index last is proved"
 },
 "C42": {
  "note": "C42_any_start characterises the list after every successful scan, from start paths of any kind, with or without links, and into an empty or a filled list; C42_no_clash: every file found was mapped, to a URI of its own. C42_complete and C42_sound are the case of directories without links; C42_one_mapping and C42_mappings show that a scan with one mapping, or with several that are apart from each other, succeeds for every tree. Not as claimed: special files (FIFO, socket, device) are listed too (C42_special_violated); start paths that overlap make the scan fail (C42_overlap_violated). C42_patterns, C42_bad_pattern: what is excluded after any calls of add_exclude_patterns; one bad pattern makes every later call fail, too."
 },
 "C43": {
  "note": "every history, starting without a state file, of calls with non-empty site names; the empty name makes the file unreadable (C43_violated)"
 },
 "C44": {
  "note": "names share an entry exactly if SameKey; for those the claim fails (C44_shared, C44_violated)"
 },
 "C45": {
  "note": "there is no lock and no atomic replacement: lost updates, unreadable files and lost or wrong timestamps after a crash are shown possible; non-overlapping calls are shown right. For any number of clients in any order whose writes are in one piece, C45_clients_partial and C45_writer_partial show that nobody fails and that no site gets a timestamp nobody set (updates may still be lost)."
 },
 "C61": {
  "note": "Proved for http and https sources: exact places, order of documents read and the stopping rule. Violated for local and ftp sources: lstrip('file:///') strips a character set (C61_violated)."
 },
 "C63": {
  "note": "Every entry once, specified order, URI order within a capability are proved in full. The claim about unknown capabilities is false: they come in insertion order (C63_violated)."
 },
 "C64": {
  "note": "Exact accept/reject conditions proved for both parsers. Two corners break the reading 'exactly those attributes': a later href= or rel= replaces the given one, and an empty rel is accepted (C64_violated)."
 },
 "C33": {
  "note": "round trip for every expressible resource, both versions, any times; the at/completed/from/until times of entries are written and never read (C33_times_violated)"
 },
 "C34": {
  "note": "whole documents, sitemap and sitemapindex; partial only in what C33 loses"
 },
 "C36": {
  "note": "C36_accepted_iff for a fresh list; a list object that already has a capability accepts a document without one (C36_reused_list_violated)"
 },
 "C46": {
  "note": "at every moment of the run, and for every outcome"
 },
 "C47": {
  "note": "files are untouched and nothing is requested; directories are created and the state is stored (C47_violated)"
 },
 "C48": {
  "note": "at every moment; C48_baseline and C48_incremental say which files can go at all"
 },
 "C49": {
  "note": "at every moment; directories in C49_directories"
 },
 "C50": {
  "note": "any number of sites mapped to directories apart from each other (C50_sites_partial; C50_partial is the case of one), no dry run, failures not ignored; a file with listed time and length is left alone whatever its content (C50_violated); URIs not in normal form (C50_violated_uri)"
 },
 "C51": {
  "note": "any number of sites; listed resources have times and true lengths; otherwise violated (C51_violated)"
 },
 "C52": {
  "note": "in full for no mapping, unsafe mapping, empty list; for authority the run succeeds if there is nothing to do (C52_violated)"
 },
 "C53": {
  "note": "without an explicit change list URI; with one nothing is checked (C53_violated)"
 },
 "C54": {
  "note": "all but resources whose first selected change is a creation and whose last is a deletion (C54_violated)"
 },
 "C55": {
  "note": "crash points and the next run's selection; four ways in which changes are passed over are shown (C55_violated); a stored time outside the years 1 to 9999 ends the run with an error after it has been stored"
 },
 "C56": {
  "note": "the time that the version uses is accepted; the other one alone is not (C56_violated); the start time is in the years 1 to 9999"
 },
 "C57": {
  "note": "the code does the opposite: proved for all inputs (C57_wrong_hashes_violated); and so a baseline sync or audit is the same run whatever digests are asked for (C57_no_effect_violated)"
 },
 "C58": {
  "note": "all servers, all numbers of tries; C58_baseline_requests and C58_incremental_requests are about whole runs (also those that end with an error)"
 },
 "C59": {
  "note": "when no body arrives; a broken transfer destroys the copy (C59_violated)"
 },
 "C60": {
  "note": "what can be stored is characterised; it may be the time of a file not listed (C60_violated)"
 },
 "C66": {
  "note": "stack discipline for every tour; also that b is accepted where it is not offered (C66_back), which the claim does not forbid"
 },
 "C69": {
  "note": "all links but up and index of lists and dumps (C69_violated)"
 },
 "C70": {
  "note": "local files; nothing is reported for URIs (C70_violated)"
 },
 "C71": {
  "note": "only an entry with a time outside the representable years ends it (C71_violated)"
 },
 "C72": {
  "note": "index refused; local index; for an index read from a server authority is not checked (C72_violated); what counts as a local file is said exactly (C72_local_file): in particular every https URI does"
 },
 "C73": {
  "note": "success and content, any limit on entries; names that XML cannot express excepted (C73_violated)"
 },
 "C74": {
  "note": "what readers get; no incremental sync accepts the list (C74_violated)"
 },
 "C75": {
  "note": "capability lists in full; source descriptions up to 50000 entries, more cannot be written (C75_violated)"
 },
 "C77": {
  "note": "first lines and the last line of a baseline sync with failures not ignored; incremental's lines, dry runs and ignored failures violate the claim"
 },
 "C79": {
  "note": "any number of sites apart from each other, a server that delivers within the number of tries (time-outs before that are allowed), and room for every file; a file in the way of a directory stops the sync for good (C79_violated); times are before the year 10000 (C79_late_time_violated)"
 },
 "C80": {
  "note": "--dryrun as C47 (directories and status file may change); --exclude has no effect in resync-sync, --checksum alone crashes, --tries 0 means 20 (..._violated)"
 },
 "C81": {
  "note": "change lists that fit into one document (see C83); --dryrun is ignored, --write-changedump writes a change list, and a line is printed after a change list on standard output (..._violated)"
 },
 "C82": {
  "note": "what the client does not complete is reported by status or by the message FatalError; after the latter the status is 0 (C82_violated)"
 },
 "C83": {
  "note": "change lists in one document; several documents cannot be read (C83_violated, for all of them)"
 },
 "C84": {
  "note": "one document: every class, both directions. Several documents: only for the classes kept in a dictionary by URI (resource lists, resource dumps and their manifests, change dumps), read by a remote reader; the other classes cannot read an index at all (C84_index_violated). Constructors of dumps and manifests drop allow_multifile (C84_allow_multifile_violated)."
 },
 "C86": {
  "note": "histories in which, by the time of each run, something has happened later than the creation of whatever is deleted after it (Settled); without this C86_violated"
 },
 "C87": {
  "note": "the first copy in full; the further runs under the condition of C86 and its analogue for the baseline sync (C87_violated)"
 },
 "C88": {
  "note": "an index of source descriptions is called unknown (a spelling slip, C88_unknown_violated) and following 'up' from a list announces the wrong kind (C88_up_violated); the account itself, the remarks and the expectations for entries are proved"
 },
 "C90": {
  "note": "the listing said to be sorted by URI is in document order (C90_order_violated); counts, kinds and the text of entries are proved, listing for times within the years 1 to 9999"
 },
 "C91": {
  "note": "holds by version 1.0 from a time before all the listed times; deletions are passed over after a later stored time (C91_deletion_violated), and version 1.1 does not apply published changes at all (C74_violated)"
 },
 "C92": {
  "note": "copies share the list of links of the original until `ln` is assigned (C92_violated); exactly that is shared and nothing else (C92_assign_partial, C92_sharing_begins, C92_sharing_ends), so the value model of resources used elsewhere is right for programs without link operations on copies"
 },
 "C93": {
  "note": "near the start of 1970 the number read may be a neighbour of the one written (C93_violated); everything else is proved for all doubles in the years 1 to 9999 (C93_round_trip_partial excludes fractional times with 1 <= |t| < 9000 and negative ones below 1)"
 },
 "C94": {
  "note": "writing again writes the same for all lists (C94_list_again) though an index link changes (C94_list_violated); a dump cannot in general be written again (C94_dump_violated, C94_dump_wrong_file_violated); C94_dump_after says exactly what is left, and without a common directory writing again is the same (C94_dump_again_partial)"
 },
 "C97": {
  "note": "After any number of interrupted baseline and incremental syncs (also in the middle of writing bytes) a baseline sync that succeeds has repaired everything, if lengths are listed; it succeeds when server and disk work (C97_finishes_partial). Fails without lengths (C97_violated)."
 },
 "C95": {
  "note": "The text that write makes is read back as the tree that was written, hence (with C34) as what a document records about the resources. Attribute names given by the user must be XML names."
 },
 "C98": {
  "note": "For files opened with a UTF-8 locale (open(file,'w') uses the locale's encoding, which is not modelled). Byte order marks and other encodings are not modelled."
 },
 "C99": {
  "note": "Holds at any moment as \"no wrong byte\" and for every file whose last opener finishes (in particular if all finish). Fails if the process that opened the file last is killed while another goes on (C99_violated). What the other processes do shows to a process only through its starting state and the failures of its system calls; file times are not modelled in the shared file system."
 },
 "C100": {
  "note": "Holds exactly for names without scheme, '#', leading '//', %-escape and trailing blank (C100_exact, an equivalence); other names open another file or none (C100_fragment, C100_violated)."
 },
 "C102": {
  "note": "C102_fixity is the claim, for every point of every first write. Writing over an older list breaks it for the old index (C102_rewrite_violated, for all lists). The checksum function is a parameter; the hypothesis is that Hashes gives the sum of what was just written to the file."
 },
 "C103": {
  "note": "C103_says for trees (success with the same result; which error is raised first may differ), C103_prefixes for texts that differ in prefixes, C103_spelling and C103_texts for texts by the grammar in Spec/Xml. White space around URIs and datetimes is not ignored (C103_space_violated)."
 },
 "C02": {
  "note": "Proved for bases without regular expression syntax other than dots. False for a directory name with a plus sign (C02_violated)."
 },
 "C78": {
  "note": "Names of files must be expressible in XML on one line; bases have no regular expression syntax other than dots (Spec Site, OneSite)."
 },
 "C106": {
  "note": "Two halves. It holds if the start time given lies before the times of last modification of what is new, changed and deleted (C106_follow_partial), and from the stored time if nothing is deleted and what is new or changed was modified after everything else (C106_stored_partial). In general it fails: a deleted file stays (C106_deleted_stays_violated, for every directory in which it was not the newest file; C106_violated). Changes in content which change neither the size nor the time by a second are not assumed to be seen (see C25, C91)."
 },
 "C107": {
  "note": "Each operation on a fresh list gives what the list of the same items gives (C107_as_xml, C107_part, C107_write, C107_number), and without a count that is needed there is an exception (C107_no_count). It fails for later calls on the same list: the generator is spent, and a document without entries (or with other entries) is given without an error (the _violated theorems, with a witness)."
 },
 "C108": {
  "note": "The client's system calls are done on a file system with symbolic links (Spec/Links.lean, after path_resolution(7)). With no links in the destinations (and none on the way to them, or any number that lead to the real destinations), nothing outside changes at any moment and the destinations hold what the model says. It fails when there is a link in a destination: the scan passes over it and open() writes through it (C108_violated)."
 },
 "C109": {
  "note": "Proved for every run with at least one try: the events are one for one, in order, about the completed downloads and the removals in the trace of the run (C109_baseline_partial, C109_incremental_partial); the kinds of events (C109_kinds_partial) and the accounts of runs that end normally (C109_baseline_accounts: one plain mapping; C109_sites_kinds_partial, C109_sites_accounts: any number of sites, each with a directory of its own; C109_incremental_accounts: any mapping). Violated: C109_hashes_violated proves that no complaint about a digest ever follows an event of a baseline sync, because prune_hashes removes exactly the types the source has (an incremental sync with hashes ends in an exception); C109_violated has instances, and --tries -1, with which events are logged and nothing is fetched."
 },
 "C110": {
  "note": "argparse (Python 3.11) is modelled for parsers of this shape, and compared with CPython's on random command lines (tools/libcheck/argv_gen.py). Proved for all lines of the proper form (C110_accepts, C110_sync_options, C110_build_options, C110_explore_options, C110_order) and, for the claims about safety, for all lists of words whatever (C110_one_mode, C110_word_counts, C110_meant, C110_only_looks, C110_dryrun, C110_delete, C110_refused, C110_unknown, C110_unknown_letter, C110_choices, C110_missing_value). It fails for options between the mapping arguments (C110_between_violated, for all of them) and for abbreviations of options with two spellings (C110_spellings_violated). resync-explorer takes options that have no effect (C110_explore_ignored_violated)."
 },
 "C111": {
  "note": "Proved: the law for every history of init_logging calls, every logger and record (C111_law), from which the programs' options follow for all proper command lines (C111_programs); other loggers keep what they had (C111_others); times (C111_time); log files can be read back as long as messages have no newlines (C111_lines_partial); what is shown of every sync (C111_quiet, C111_verbose). Violated: --eval and --logfile without --logger do nothing (C111_eval_violated); messages are repeated after a second call or with a nested logger (C111_twice_violated); mismatches of length or digest are not shown without --verbose, though said to be warnings (C111_silent_violated); a source can put lines of its own into the log (C111_forged_violated). Also: nothing is shown of messages before the call (C111_before); which capabilities are announced as unknown (C111_announced, C111_unannounced), none in documents written by this package (C111_own_documents); every message names the URI and file it is about (C111_names)."
 },
 "C112": {
  "note": "Proved: the text is one line and determines the object (C112_unambiguous, C112_line), what is logged is determined by the attributes (C112_event_object) and not the text of another message (C112_event); events can be read off the log file as long as no other message has a newline in it (C112_evaluation_partial). How numbers are written is assumed to be injective and of digits, point, exponent and signs; str.isprintable is arbitrary. Violated: every event shows attributes that are None (C112_none_violated), and a copy with the same attributes has another text (C112_copy_violated)."
 },
 "C113": {
  "note": "Chains of any length: exact for sources in whole seconds (C113_exact), the times settle at the first mirror (C113_settled), any source (C113_chain), what the next publisher needs (C113_publishable, for copies without empty directories), and that what the next one finds on the disk is such a copy (C113_found). Each hop is a successful baseline sync at a place without files from a server that delivers what is in the files. For copies made in whatever way (C78, C80, C106) the contents are carried along (C113_contents)."
 },
 "C114": {
  "note": "Publisher: the same eligible files give the same output (C114_list, C114_changes), in particular any reordering at any depth (C114_order). Destination: baseline syncs and audits with disks listed in any other order (C114_sync, for one or more mapped sites and supported hash types), incremental syncs with disks of equal contents (C114_incremental)."
 },
 "C115": {
  "note": "Reading (C115_read), discovery (C115_found) and whole runs (C115_sync, for one or more mapped sites and supported hash types). Document metadata and links keep their places before the entries, where the format has them. Change lists are not covered: their order is meant to be the order of the changes."
 },
 "C116": {
  "note": "Mappings of one-line strings with literal bases, where a dot may count for any character (C116_mapped); whole runs with the list named (C116_sync); C116_overlap shows that the hypothesis is needed. If the list is not named its place is taken from the first mapping, so there the order counts, as documented."
 },
 "C117": {
  "note": "C117_prune and C117_plan hold without conditions on the surroundings (the kind of error may differ when a list has several faults); C117_sync in the situation of C85, with a listed time after 1970 and lastmod not after the datetime of a change; C117_one_uri shows that the order per URI matters."
 },
 "C118": {
  "note": "C118_resumed_partial allows the broken-off syncs to have read earlier beginnings of the change list, under NothingPassing; C118_same_list has no such condition; C118_violated shows that it is needed. C118_again is about repeating a sync that was not broken off."
 },
 "C119": {
  "note": "C119_publishing is about exclude patterns within the syntax of the regex model (compile does not give `outside`), where the order does not matter even if some pattern is bad."
 },
 "C120": {
  "note": "The full statement fails for certain histories: C120_effect_violated (for every such list and collection) and C120_piecewise_violated say which; C120_effect_partial and C120_piecewise_partial cover all others."
 },
 "C121": {
  "note": "C121_sync (baseline sync and audit) and C121_incremental. Hypotheses: destinations as in C50/C51 for several sites, URIs of the lists below the mapped ones (those which are not are refused or go elsewhere, see C49)."
 },
 "C38": {
  "note": "The statement is proved for every list and limit, and carried over to what is written as ZIP packages (C38_written). Partial only in that no dump in the format WARC can be written (C38_warc_violated)."
 },
 "C124": {
  "note": "That the destinations exist is assumed: otherwise the first sync may make directories on the way to those of the second one. An incremental sync without a start time takes it from the state file, which the syncs share; it is not included."
 },
 "C122": {
  "note": "tries at least 1 (with none the real run downloads nothing); C122_audit also supposes a proper file system and lists keyed by URI."
 },
 "C123": {
  "note": "C123_adds holds of every run. C123_postponed is about destinations as in C50/C51, a list below the mapped URIs that is the same for both syncs, no failing removals, failures not ignored."
 },
 "C125": {
  "note": "C125_baseline and C125_incremental hold of every run with at least one try in which failures are not ignored; C125_no_tries and C125_ignored show that both conditions are needed."
 },
 "C126": {
  "note": "C126_baseline, C126_incremental, C126_same and C126_fatal_first hold of every run; C126_all_requested has the hypotheses about destinations of C50/C51; at least one try and no dry run for both _requested theorems."
 },
 "C127": {
  "note": "no hypotheses about the situation; that the checks themselves accept what they should is C09/C10."
 }
}