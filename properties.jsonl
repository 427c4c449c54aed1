{"id": "C01", "title": "Source URI to destination path mapping is prefix substitution, first match wins", "statement": "Mapper.src_to_dst(uri) returns dst_path + rest for the first mapping whose source base URI is followed in uri by either nothing (then rest is '/') or by '/' and more (rest is that remainder), and raises MapperError when no mapping matches. Symmetrically for dst_to_src.", "quantifier": "every list of mappings, every URI / path string", "why_tests_cant": "Tests try a dozen strings with one or two mappings; the claim is about every string and every ordered mapping list.", "anchors": ["resync/mapper.py: Mapper.src_to_dst, Mapper.dst_to_src, Map.src_to_dst, Map.dst_to_src"]}
{"id": "C02", "title": "Mapping a resource to disk and back returns the same URI", "statement": "For every URI below a mapped base, dst_to_src(src_to_dst(uri)) == uri, so a file written by a sync is recognised as the same resource by the next disk scan.", "quantifier": "every mapping list whose destination bases do not nest, every URI below a base", "why_tests_cant": "Round trip over all strings and all mapping lists.", "anchors": ["resync/mapper.py: Map.src_to_dst, Map.dst_to_src"]}
{"id": "C03", "title": "Mapping bases are treated as literal text", "statement": "A URI (path) is translated by a mapping only if it literally starts with that mapping's base URI (path).", "quantifier": "every mapping and every URI, including bases containing '.', '+', '?', '('", "why_tests_cant": "Tests only use URIs that do start with the base; the failing URIs are the ones nobody wrote down.", "anchors": ["resync/mapper.py: Map.src_to_dst (re.match on unescaped base), Map.dst_to_src"]}
{"id": "C04", "title": "Trailing slashes on mapping bases are irrelevant", "statement": "Map(src + slashes, dst + slashes) behaves as Map(src, dst) for any number of trailing slashes.", "quantifier": "every base string, every number of trailing slashes", "why_tests_cant": "Tests use at most one trailing slash.", "anchors": ["resync/mapper.py: Map.strip_trailing_slashes, Map.__init__"]}
{"id": "C05", "title": "Duplicate mappings are rejected", "statement": "If Mapper(mappings) succeeds for uri=path arguments then no two resulting mappings share a source base URI or a destination base path. Arguments are accepted exactly if they are uri=path arguments with one '=' each and no duplicates, or the two arguments uri and path without '=', or (where a default path is wanted) one uri without '='; the mappings are then those named, in the order given.", "quantifier": "every list of mapping arguments", "why_tests_cant": "Holds or fails depending on argument order and trailing slashes, over unboundedly many lists.", "anchors": ["resync/mapper.py: Mapper.parse"]}
{"id": "C06", "title": "Unsafe local mappings are detected", "statement": "If Mapper.unsafe() is False then for every mapping from a local source path, neither source directory nor destination directory is equal to or contained in the other.", "quantifier": "every pair of local paths", "why_tests_cant": "All path pairs, including '.', '..', '//' and sibling-prefix spellings.", "anchors": ["resync/mapper.py: Map.unsafe, Mapper.unsafe"]}
{"id": "C07", "title": "Sync never maps a resource outside the destination directory", "statement": "For every URI a mapping accepts, the destination path names a location inside dst_path.", "quantifier": "every mapping and URI, including URIs with '..' segments", "why_tests_cant": "The dangerous URIs come from a remote server and cannot be enumerated.", "anchors": ["resync/mapper.py: Map.src_to_dst", "resync/client.py: Client.update_resource, Client.delete_resource"]}
{"id": "C08", "title": "Default local path derived from a URI is a safe file name", "statement": "Mapper.path_from_uri(uri) for a URI with a network location contains only word characters, '-' and '.', does not begin or end with '.' or '_', and contains no path separator.", "quantifier": "every URI string", "why_tests_cant": "All URI strings.", "anchors": ["resync/mapper.py: Mapper.path_from_uri"]}
{"id": "C09", "title": "Default (lax) URL authority means same scheme and same host or a sub-domain", "statement": "UrlAuthority(master).has_authority_over(url) is True exactly when the schemes are equal and url's host equals the master's host or ends with '.' + host.", "quantifier": "every master URL and query URL", "why_tests_cant": "Security decision over all URL pairs.", "anchors": ["resync/url_authority.py: UrlAuthority.set_master, UrlAuthority.has_authority_over"]}
{"id": "C10", "title": "Strict URL authority covers only the same directory level or below", "statement": "In strict mode authority additionally requires the query path to be in the directory of the master or below it.", "quantifier": "every master URL and query URL", "why_tests_cant": "Sibling directories that share a textual prefix are never tested.", "anchors": ["resync/url_authority.py: UrlAuthority.has_authority_over"]}
{"id": "C11", "title": "Timestamps survive writing as W3C datetime and reading back", "statement": "str_to_datetime(datetime_to_str(t)) == t for every timestamp with microsecond resolution between years 1 and 9999, and datetime_to_str always yields the YYYY-MM-DDThh:mm:ss[.ffffff]Z form.", "quantifier": "every timestamp of microsecond resolution in the representable range", "why_tests_cant": "Billions of values, leap years, negative times and carry cases.", "anchors": ["resync/w3c_datetime.py: datetime_to_str, str_to_datetime"]}
{"id": "C12", "title": "Only W3C datetime forms are accepted", "statement": "str_to_datetime returns a value exactly for the documented W3C forms with in-range fields; YYYY and YYYY-MM and YYYY-MM-DD mean midnight UTC of the first instant; anything else raises ValueError.", "quantifier": "every (ASCII-digit) string", "why_tests_cant": "The rejected language is infinite.", "anchors": ["resync/w3c_datetime.py: str_to_datetime"]}
{"id": "C13", "title": "Time zone offsets denote the instant ISO 8601 says", "statement": "str_to_datetime('...+hh:mm') is the UTC instant of that local time, i.e. local time minus the offset.", "quantifier": "every datetime and every offset", "why_tests_cant": "The unit tests assert the opposite sign for a few values; the claim is about all of them.", "anchors": ["resync/w3c_datetime.py: str_to_datetime (offset_seconds)"]}
{"id": "C14", "title": "Written datetimes sort as strings in time order", "statement": "For whole-second timestamps a < b implies datetime_to_str(a) < datetime_to_str(b) as strings.", "quantifier": "every pair of whole-second timestamps in range", "why_tests_cant": "All pairs.", "anchors": ["resync/w3c_datetime.py: datetime_to_str"]}
{"id": "C15", "title": "Resource equality is 'no proof of inequality' and is reflexive and symmetric", "statement": "r1 == r2 exactly when URIs agree, timestamps are both absent or differ by less than 1s, and each of md5, sha1, sha256 and length agrees whenever both sides have it; == is reflexive and symmetric.", "quantifier": "every pair of resources", "why_tests_cant": "All combinations of present/absent metadata.", "anchors": ["resync/resource.py: Resource.__eq__, Resource.equal"]}
{"id": "C16", "title": "Resource.equal with its default delta treats a resource as equal to itself", "statement": "r.equal(r) is True for every resource r.", "quantifier": "every resource", "why_tests_cant": "Needs every combination of fields; tests pass an explicit delta.", "anchors": ["resync/resource.py: Resource.equal"]}
{"id": "C17", "title": "The hash string round-trips", "statement": "Setting r.hash to the value read from another resource's hash property reproduces that resource's md5, sha1 and sha256.", "quantifier": "every triple of optional digest strings without white space", "why_tests_cant": "All digest strings and all present/absent combinations.", "anchors": ["resync/resource.py: Resource.hash"]}
{"id": "C18", "title": "Setting the hash string never leaves stale digests", "statement": "After assigning r.hash, whether or not an error is reported, each digest is either None or a value given in the assigned string for that digest type (the first one given).", "quantifier": "every hash string and every previous state", "why_tests_cant": "All strings, including malformed ones.", "anchors": ["resync/resource.py: Resource.hash setter"]}
{"id": "C19", "title": "A resource never holds an invalid change type", "statement": "In every state reachable by constructing, copying and assigning attributes, a Resource's change is None or one of created/updated/deleted; assigning anything else raises ChangeTypeError and leaves the resource unchanged.", "quantifier": "every sequence of operations", "why_tests_cant": "All histories.", "anchors": ["resync/resource.py: Resource.__init__, Resource.__setattr__"]}
{"id": "C20", "title": "Links behave as a keyed store", "statement": "After link_set(rel, href), link_href(rel) is href and link_href of every other rel is unchanged; the number of links grows only when rel was absent (or duplicates were requested). link_href(rel) is the href of the first link with this rel, None if there is none, and a KeyError if that link has no href. The properties describedby, up, index and contents of a resource read and set the link with the rel of that name and leave the other links alone; setting contents also gives the link the type application/xml.", "quantifier": "every list of links, rel, href and extra attributes not overriding rel", "why_tests_cant": "All link lists and histories.", "anchors": ["resync/resource.py: Resource.link, link_href, link_set, link_add", "resync/resource_container.py: link, link_href, link_set"]}
{"id": "C21", "title": "A resource list is a map from URI to resource", "statement": "After any sequence of add(resource, replace) calls the list holds exactly one resource per URI, namely the first added or the last added with replace=True; an add of a present URI without replace raises and changes nothing.", "quantifier": "every sequence of adds", "why_tests_cant": "All histories.", "anchors": ["resync/resource_list.py: ResourceListDict.add, ResourceList.add", "resync/resource_set.py: ResourceSet.add"]}
{"id": "C22", "title": "Iterating a resource list is sorted by URI and complete", "statement": "Iteration yields every resource exactly once in strictly increasing URI order whatever the insertion order.", "quantifier": "every list and every insertion order", "why_tests_cant": "All permutations.", "anchors": ["resync/resource_list.py: SortedIterMixin.sorted_iter, ResourceListDict.__iter__"]}
{"id": "C23", "title": "Comparing two resource lists classifies every URI exactly once and correctly", "statement": "For two distinct list objects, dst.compare(src) puts a URI in same iff in both and equal, updated iff in both and different, deleted iff only in dst, created iff only in src; same/deleted carry dst's resource, updated/created carry src's.", "quantifier": "every pair of distinct resource lists", "why_tests_cant": "All pairs of lists.", "anchors": ["resync/resource_list.py: ResourceList.compare"]}
{"id": "C24", "title": "Comparing a resource list with itself reports everything the same", "statement": "rl.compare(rl) has all resources in same and nothing updated, deleted or created.", "quantifier": "every resource list", "why_tests_cant": "Depends on iterator state sharing, never tested.", "anchors": ["resync/resource_list.py: ResourceList.compare, SortedIterMixin.sorted_iter, _sorted_iter_next"]}
{"id": "C25", "title": "Pruning duplicate changes keeps the last change per URI", "statement": "After prune_dupes() the list contains, in original order, exactly the last entry of each URI except those URIs whose first entry is created and last entry is deleted; the returned number is the number of entries removed.", "quantifier": "every change list", "why_tests_cant": "All interleavings of changes of all URIs.", "anchors": ["resync/resource_container.py: ResourceContainer.prune_dupes"]}
{"id": "C26", "title": "Pruning old changes keeps exactly those at or after the cut-off", "statement": "prune_updates_before(t) keeps, in order, exactly the entries whose datetime (v1.1) or timestamp (v1.0) is >= t and returns how many were removed; if any entry lacks that time it raises and the list is unchanged.", "quantifier": "every change list, cut-off and spec version", "why_tests_cant": "All lists and boundary values.", "anchors": ["resync/change_list.py: ChangeList.prune_updates_before"]}
{"id": "C27", "title": "A generated change list takes the old state to the new state", "statement": "Applying the entries written by write_change_list for (old, new) to old gives, URI by URI, exactly the resources of new (up to resource equality).", "quantifier": "every pair of resource lists", "why_tests_cant": "All pairs.", "anchors": ["resync/client.py: Client.write_change_list", "resync/change_list.py: ChangeList.add_changed_resources", "resync/resource_list.py: ResourceList.compare"]}
{"id": "C28", "title": "Multi-file output loses and duplicates nothing and respects max_sitemap_entries", "statement": "When a list is written as several sitemaps, concatenating the components gives the list in iteration order, no component is empty, and no component has more than max_sitemap_entries entries.", "quantifier": "every list, every positive max_sitemap_entries", "why_tests_cant": "All sizes and limits.", "anchors": ["resync/list_base_with_index.py: ListBaseWithIndex.write, get_resources_chunk"]}
{"id": "C29", "title": "Component sitemaps requested one by one agree with the files written", "statement": "requires_multifile() equals the number of component files write() produces and as_xml_part(n) has the same entries as the n-th component file.", "quantifier": "every list, limit and part number", "why_tests_cant": "All sizes and limits.", "anchors": ["resync/list_base_with_index.py: requires_multifile, as_xml_part, as_xml_index, write"]}
{"id": "C30", "title": "Component sitemap names never collide", "statement": "part_name(basename, i) differs from part_name(basename, j) for i != j and from basename itself.", "quantifier": "every basename and all part numbers (no bound)", "why_tests_cant": "Unbounded part numbers, including those over 99999 where padding stops.", "anchors": ["resync/list_base_with_index.py: part_name"]}
{"id": "C31", "title": "A resource list written to disk and read back is the same list", "statement": "Writing a resource list (one file or index plus components) and reading the result gives the same URIs with the same stored metadata.", "quantifier": "every resource list, limit and suitable mapping", "why_tests_cant": "Composition of chunking, naming, mapping, serialisation and parsing over all lists.", "anchors": ["resync/list_base_with_index.py: write, read, read_component_sitemap", "resync/sitemap.py"]}
{"id": "C32", "title": "An index on disk never refers to a component that is not completely written", "statement": "At every crash point of write(), if the index file has been (re)written then all component files it lists have been completely written before.", "quantifier": "every crash point of every write", "why_tests_cant": "Every prefix of the effect trace.", "anchors": ["resync/list_base_with_index.py: write"]}
{"id": "C33", "title": "Resource metadata survives serialisation to sitemap XML", "statement": "Parsing the <url> element written for a resource gives back uri, timestamp, length, hashes, change, datetime, path, mime type, capability, links and the at/completed/from/until times.", "quantifier": "every resource", "why_tests_cant": "All field combinations and values.", "anchors": ["resync/sitemap.py: resource_etree_element, resource_from_etree, md_from_etree, ln_from_etree"]}
{"id": "C34", "title": "A whole document survives serialisation", "statement": "Parsing the document produced for a list gives the same entries in the same order with the same top-level metadata and links.", "quantifier": "every list", "why_tests_cant": "All lists.", "anchors": ["resync/sitemap.py: resources_as_xml, parse_xml"]}
{"id": "C35", "title": "Structurally bad documents are rejected", "statement": "parse_xml succeeds only if the root is the right element for the request, there is at most one top-level rs:md, no rs:md/rs:ln occurs after the first entry, every entry has exactly one non-empty loc, at most one lastmod and at most one rs:md, and all change/length/pri/href/rel attributes are well formed.", "quantifier": "every XML tree", "why_tests_cant": "All trees.", "anchors": ["resync/sitemap.py: parse_xml, resource_from_etree, md_from_etree, ln_from_etree"]}
{"id": "C36", "title": "Reading a document of the wrong capability fails", "statement": "If reading a document for capability c succeeds then the list's capability is c; a document without capability is accepted only as a resourcelist.", "quantifier": "every document and capability", "why_tests_cant": "All documents.", "anchors": ["resync/sitemap.py: parse_xml"]}
{"id": "C37", "title": "Parsing visits entries in document order and counts them", "statement": "The entries added to the container are, in document order, exactly one per url/sitemap element of the document; unknown elements never influence the result.", "quantifier": "every XML tree", "why_tests_cant": "All trees with arbitrary foreign elements interspersed.", "anchors": ["resync/sitemap.py: parse_xml"]}
{"id": "C38", "title": "A dump contains every resource exactly once", "statement": "The manifests produced for a dump, concatenated, are the resources in order; none is empty and none has more than max_files entries.", "quantifier": "every resource list and limit", "why_tests_cant": "All lists and limits.", "anchors": ["resync/dump.py: Dump.partition_dumps"]}
{"id": "C39", "title": "Dump packages respect the size limit", "statement": "No dump package contains more than max_size bytes of content.", "quantifier": "every resource list and limit", "why_tests_cant": "All size sequences.", "anchors": ["resync/dump.py: Dump.partition_dumps, check_files"]}
{"id": "C40", "title": "Paths inside a dump are distinct and stay inside the package", "statement": "Different files get different archive paths and no archive path contains a '..' component.", "quantifier": "every list of files", "why_tests_cant": "All path sets.", "anchors": ["resync/dump.py: Dump.archive_path, check_files, write_zip"]}
{"id": "C41", "title": "A dump is only written if recorded lengths agree with the files", "statement": "If check_files() succeeds then every resource has a path and its length equals the size on disk and is at most max_size; otherwise DumpError is raised (or the operating system's error if a file is missing) and write() writes nothing.", "quantifier": "every resource list and file system", "why_tests_cant": "All lists and file systems.", "anchors": ["resync/dump.py: Dump.check_files"]}
{"id": "C42", "title": "A disk scan lists exactly the eligible files", "statement": "from_disk gives one resource for each regular, non-symlink file below the mapped destination paths whose name and directories (below the start) match no exclude pattern, with its mapped URI, mtime and size, and nothing else.", "quantifier": "every directory tree and set of exclude patterns", "why_tests_cant": "All trees.", "anchors": ["resync/resource_list_builder.py: from_disk, from_disk_add_path, add_file, _exclude"]}
{"id": "C43", "title": "Stored sync state is read back, other sites untouched", "statement": "get_state(site) after set_state(site, t) is t; set_state for another site (with a different key) does not change it; set_state(site, None) removes it.", "quantifier": "every history of set_state calls", "why_tests_cant": "All histories and site names.", "anchors": ["resync/client_state.py: ClientState.set_state, get_state"]}
{"id": "C44", "title": "Different sites have separate state", "statement": "Setting the state of one site never changes the state read for a different site name.", "quantifier": "every pair of site names", "why_tests_cant": "All pairs of names.", "anchors": ["resync/client_state.py: config_site_to_name (and ConfigParser option name folding)"]}
{"id": "C45", "title": "Concurrent state updates are not lost and a crash does not lose the old state", "statement": "Two clients recording state for different sites both take effect in every interleaving, and at every crash point the state file holds either the old or the new state.", "quantifier": "every interleaving of two updates, every crash point", "why_tests_cant": "Schedules and crash points.", "anchors": ["resync/client_state.py: set_state (read-modify-write without lock, truncate then write)"]}
{"id": "C46", "title": "An audit changes nothing", "statement": "baseline_or_audit(audit_only=True) never creates, modifies or deletes a file, never requests a resource, and never changes stored state, whether it succeeds or fails.", "quantifier": "every configuration, file system, source and server behaviour", "why_tests_cant": "All environments.", "anchors": ["resync/client.py: Client.baseline_or_audit"]}
{"id": "C47", "title": "A dry run changes nothing", "statement": "With dryrun=True, baseline_or_audit and incremental leave files, directories and stored state unchanged.", "quantifier": "every configuration, file system, source and server behaviour", "why_tests_cant": "All environments.", "anchors": ["resync/client.py: update_resource, delete_resource, baseline_or_audit, incremental"]}
{"id": "C48", "title": "Nothing is deleted unless deletion is allowed, and then only what the source does not list", "statement": "Without allow_deletion no file disappears; with it, baseline only deletes files whose mapped URI is absent from the source list, and incremental only those whose last listed change is deleted.", "quantifier": "every run", "why_tests_cant": "All environments.", "anchors": ["resync/client.py: delete_resource, baseline_or_audit, incremental"]}
{"id": "C49", "title": "Sync touches only mapped files", "statement": "Every file created, overwritten or deleted by baseline or incremental sync is the mapped destination of a URI in the source list (or of a scanned local file); all other files are unchanged.", "quantifier": "every run, including failing ones", "why_tests_cant": "All environments and failure points.", "anchors": ["resync/client.py: baseline_or_audit, incremental, update_resource, delete_resource"]}
{"id": "C50", "title": "A successful baseline sync leaves the destination equal to the source", "statement": "If baseline completes without failures then every resource in the source list has the served content at its mapped path with the listed modification time, and (with deletion) no other scanned file remains.", "quantifier": "every source list, initial destination and server", "why_tests_cant": "All environments.", "anchors": ["resync/client.py: baseline_or_audit, update_resource, delete_resource"]}
{"id": "C51", "title": "After a successful baseline sync an audit reports IN SYNC", "statement": "If the source list describes the served content correctly, a second baseline/audit right after a successful one (with deletion) finds nothing to create, update or delete.", "quantifier": "every source list and initial destination", "why_tests_cant": "All environments; composition of mapping, comparison, download and scan.", "anchors": ["resync/client.py: baseline_or_audit", "resync/resource_list_builder.py", "resync/resource.py: equal"]}
{"id": "C52", "title": "An empty or unauthorised source, or an unsafe mapping, causes no change", "statement": "baseline aborts with ClientFatalError before any file or state change if the source list is empty, if there is no mapping, if a mapping is unsafe, or if (unless noauth) any listed resource is outside the sitemap's authority.", "quantifier": "every run", "why_tests_cant": "All environments.", "anchors": ["resync/client.py: baseline_or_audit steps 0-4"]}
{"id": "C53", "title": "Incremental sync never fetches resources outside the change list's authority", "statement": "Unless noauth is set, incremental aborts before fetching anything if a change list entry is outside the authority of the change list (and of the sitemap).", "quantifier": "every change list, explicit or default change list URI", "why_tests_cant": "All change lists.", "anchors": ["resync/client.py: incremental step 4"]}
{"id": "C54", "title": "Incremental sync applies the last change of every resource", "statement": "After a successful incremental sync each URI changed at or after the start time has the effect of its last change (content downloaded, or file removed when deletion is allowed), and files of other URIs are untouched.", "quantifier": "every change list, start time and destination", "why_tests_cant": "All histories of changes.", "anchors": ["resync/client.py: incremental", "resync/resource_container.py: prune_dupes", "resync/change_list.py: prune_updates_before"]}
{"id": "C55", "title": "No change is lost between incremental syncs", "statement": "Stored state advances only when every selected change has been applied; after a failure or crash the next incremental sync selects the same changes again, and a later run selects every change at or after the last one seen.", "quantifier": "every sequence of runs, failures and crash points", "why_tests_cant": "All histories and crash points.", "anchors": ["resync/client.py: incremental steps 3,5,6,8", "resync/client_state.py"]}
{"id": "C56", "title": "Incremental sync accepts change lists that give either datetime or lastmod", "statement": "Every change list whose entries all have a datetime or a lastmod is processed (comment: work with 1.0 or 1.1).", "quantifier": "every change list", "why_tests_cant": "All mixtures of entries.", "anchors": ["resync/client.py: incremental step 3 and 5", "resync/change_list.py: prune_updates_before"]}
{"id": "C57", "title": "Requested hash types are used exactly when the source provides them", "statement": "With hashes requested, the comparison uses exactly the requested hash types present in the source list (prune_hashes: 'Prune any hashes not in source').", "quantifier": "every requested set and source list", "why_tests_cant": "All combinations.", "anchors": ["resync/client.py: prune_hashes, baseline_or_audit, incremental"]}
{"id": "C58", "title": "Download attempts are bounded and only timeouts are retried", "statement": "update_resource makes at most `tries` requests, makes another only after a timeout, and after success the file holds exactly the bytes of the successful response. In a whole baseline or incremental run too no URI is requested more than `tries` times, and none that is not in the list read.", "quantifier": "every server behaviour, number of tries and run", "why_tests_cant": "All failure schedules.", "anchors": ["resync/client.py: update_resource"]}
{"id": "C59", "title": "A failed download does not destroy the existing copy", "statement": "If a resource cannot be downloaded the previously held local copy is still intact.", "quantifier": "every failure schedule", "why_tests_cant": "All failure points in the transfer.", "anchors": ["resync/client.py: update_resource (open 'wb' before copy)"]}
{"id": "C60", "title": "Baseline records a state from which incremental sync misses nothing", "statement": "The timestamp stored by baseline never exceeds the latest source timestamp seen.", "quantifier": "every source and destination", "why_tests_cant": "All environments.", "anchors": ["resync/client.py: baseline_or_audit step 6, delete_resource"]}
{"id": "C61", "title": "Resource list discovery tries the documented locations in order", "statement": "find_resource_list reads the explicit sitemap, else explicit capability list, else tries the documented well-known and default locations in order, stopping at the first success or fatal error.", "quantifier": "every configuration and every pattern of available documents", "why_tests_cant": "All availability patterns and base URIs.", "anchors": ["resync/client.py: find_resource_list, find_resource_list_from_source_description, find_resource_list_from_capability_list"]}
{"id": "C62", "title": "Web requests are spaced by the configured delay", "statement": "With a delay configured every web request except the very first request sleeps first; local file requests never sleep; with a token configured every request carries it.", "quantifier": "every sequence of requests and configuration changes", "why_tests_cant": "All histories.", "anchors": ["resync/url_or_file_open.py: url_or_file_open, set_url_or_file_open_config"]}
{"id": "C63", "title": "Capability lists iterate in canonical order", "statement": "Iterating a capability list gives every entry exactly once, known capabilities in the specified order and URI order within a capability, unknown ones after them in alphabetical order.", "quantifier": "every capability list", "why_tests_cant": "All sets and insertion orders.", "anchors": ["resync/capability_list.py: CapabilitySet.__iter__, CapabilityList.capability_info"]}
{"id": "C64", "title": "Command line link and capability options parse as documented", "statement": "parse_link('rel,href,k=v,...') gives exactly those attributes and rejects everything else with ClientFatalError; parse_capabilities likewise.", "quantifier": "every option string", "why_tests_cant": "All strings.", "anchors": ["resync/client_utils.py: parse_link, parse_links, parse_capabilities, parse_capability_lists"]}
{"id": "C65", "title": "Block-wise hashing equals hashing the whole file", "statement": "Hashes(...) for a file gives the digest of its complete content for any block size, and exactly the requested types. An object made without a file and used for file after file (readable or not) gives for each readable one exactly what an object made for that file alone gives.", "quantifier": "every file content, positive block size and hash set, and every history of files hashed with the same object", "why_tests_cant": "All contents and sizes.", "anchors": ["resync/hashes.py: Hashes.compute_for_file, set"]}
{"id": "C66", "title": "Explorer navigation is a history stack", "statement": "Following a link and then going back returns to the same document; back at the first document moves on to the next starting point; quitting ends the exploration.", "quantifier": "every sequence of user inputs and documents", "why_tests_cant": "All input sequences.", "anchors": ["resync/explorer.py: Explorer.explore, explore_uri, allowed_entries"]}
{"id": "C67", "title": "Overlapping iterations over one resource list are independent", "statement": "A loop over a ResourceList visits every resource exactly once in URI order, whatever other iterations over the same list object start, advance or finish while the loop is running (nested loops, comparing a list with itself, printing the list inside a loop).", "quantifier": "every list and every interleaving of the steps of several iterations over it", "why_tests_cant": "Ranges over all interleavings of iterator steps and all list contents.", "anchors": ["resync/resource_list.py: SortedIterMixin.__iter__, __next__", "resync/resource_list.py: ResourceList.compare"]}
{"id": "C68", "title": "The explorer offers exactly the links of the document and leads where they point", "statement": "For a document that can be shown, the options are: one number per listed resource (all of them, or the first 20 of more than 21), and d, u, i for a describedby, up or index link of the document; typing an option goes to the URI the document gives, resolved against the document's own URI, with back on offer. Any other line typed (apart from q and b) changes nothing.", "quantifier": "every document, every history and every line typed", "why_tests_cant": "All documents, link forms and inputs.", "anchors": ["resync/explorer.py: Explorer.explore_uri, explore_show_summary, expand_relative_uri"]}
{"id": "C69", "title": "Following a link from one ResourceSync document to another shows that document", "statement": "Following the up or index link of a document reads and summarises the document it points to, as does following an entry of a source description, capability list or index; only the resources in a resource list, change list or dump (and describedby) are checked with HEAD.", "quantifier": "every document and link", "why_tests_cant": "Ranges over all kinds of documents and capability values.", "anchors": ["resync/explorer.py: Explorer.explore_uri, explore_show_summary, allowed_entries"]}
{"id": "C70", "title": "The explorer's check of a resource against its list entry is right", "statement": "When the explorer examines a listed resource it reports for length and modification time 'matches expected value' exactly if the value found equals the one listed, the listed value otherwise, and nothing when none was listed.", "quantifier": "every resource and every listed metadata", "why_tests_cant": "All values.", "anchors": ["resync/explorer.py: Explorer.explore_show_head, head_on_file"]}
{"id": "C71", "title": "No document can end an exploration", "statement": "Whatever the documents contain, an exploration only ends because the user quits, goes back from every starting point, or closes the input.", "quantifier": "every collection of documents and every input", "why_tests_cant": "All documents.", "anchors": ["resync/explorer.py: Explorer.explore, explore_uri"]}
{"id": "C72", "title": "Reading a list refuses what its settings forbid", "statement": "A list object that does not allow several files never accepts a sitemapindex, whatever is in it, and reads nothing else; with the URL authority check on, reading a list through an index takes components only from local files the mappings lead to or from places the index has authority over; reading only the index returns no resources.", "quantifier": "every list setting, every index document and every content of all other documents", "why_tests_cant": "That a document is not read has to be shown for every document that could be there, and for every index.", "anchors": ["resync/list_base_with_index.py: ListBaseWithIndex.read, read_component_sitemap, is_file_uri", "resync/url_authority.py: UrlAuthority"]}
{"id": "C73", "title": "A published resource list says what is in the directory", "statement": "When the client writes a resource list for a directory and the written files are served at the directory's URI, then whoever reads the list there gets exactly one entry for every file of the directory that is not excluded, with the URI the mapping gives it, its size, its modification time and the digests asked for, and no entry for anything else; the list carries the capability and the start and end time of the scan.", "quantifier": "every directory tree, every mapping and exclusion patterns, every limit on entries per document (one document or an index with parts), every set of links, every previous content of the output files", "why_tests_cant": "Ranges over all trees, all file names and all ways the list is split into documents.", "anchors": ["resync/client.py: Client.write_resource_list, build_resource_list", "resync/resource_list_builder.py: ResourceListBuilder.from_disk", "resync/list_base_with_index.py: ListBaseWithIndex.write, read"]}
{"id": "C74", "title": "A published change list takes the old state to the new one", "statement": "When the client writes a change list from a reference resource list and a newer state, reading the document back gives at most one entry per URI, each entry says created, updated or deleted, applying the entries to the reference gives the newer state, and an incremental synchronization accepts the list.", "quantifier": "every pair of reference list and newer state, every set of links, every previous content of the output file", "why_tests_cant": "Ranges over all pairs of states.", "anchors": ["resync/client.py: Client.write_change_list, incremental", "resync/change_list.py: ChangeList.add_changed_resources", "resync/resource_list.py: ResourceList.compare"]}
{"id": "C75", "title": "Published capability lists and source descriptions announce what they were given", "statement": "When the client writes a capability list or a source description, reading the document back gives exactly the given names and URIs, each once, in the order of the specification (for a source description in the order of the URIs), with the given links; printing gives the same document as writing; giving one URI twice is refused before anything is written.", "quantifier": "every set of capabilities and URIs, every set of links, every previous content of the output file", "why_tests_cant": "Ranges over all sets of capabilities and URIs and all their orders.", "anchors": ["resync/client.py: Client.write_capability_list, write_source_description", "resync/capability_list.py: CapabilitySet.__iter__, CapabilityList.add_capability", "resync/source_description.py: SourceDescription.add_capability_list"]}
{"id": "C78", "title": "Publishing a directory and synchronizing from it makes a copy", "statement": "A directory is published with the client's resource list writer, its documents and files are served under its URI, and a baseline sync with another client is run into a destination that holds no files. If the sync succeeds, the destination holds exactly the files of the directory that were not excluded, with their contents and (to the resolution of the list) their modification times. A further sync then has nothing to do.", "quantifier": "every directory tree whose file names an XML document can carry (no line ends or control characters), published and mirrored under bases without regular expression syntax other than dots (C01, C02), every exclusion patterns, every limit on entries per document (one document or an index with parts), every set of links and hash types, every destination without files, every server that delivers the files as they are, possibly failing at times", "why_tests_cant": "Ranges over all directory trees, all ways of splitting the list and all server failures; ties together the writer, the reader, the comparison and the download.", "anchors": ["resync/client.py: Client.write_resource_list, baseline_or_audit, update_resource", "resync/resource_list_builder.py: ResourceListBuilder.from_disk", "resync/list_base_with_index.py: ListBaseWithIndex.write, read", "resync/mapper.py: Mapper"]}
{"id": "C79", "title": "A baseline sync for which nothing goes wrong succeeds", "statement": "If the source list is found and is not empty, the client may use it, the server delivers every listed file within the number of tries, and neither the network nor the disk fails, then a baseline sync runs to its end without an error: nothing in what is listed, in what is at the destination or in what was recorded by earlier syncs makes it stop, with or without deletion.", "quantifier": "every list of files below the mappings, every previous content of the destination, every history of earlier syncs recorded in the state file, both deletion settings", "why_tests_cant": "Ranges over all lists and all previous contents of the destination; a test shows success for one of them.", "anchors": ["resync/client.py: Client.baseline_or_audit, update_resource, delete_resource", "resync/client_state.py: ClientState.set_state", "resync/mapper.py: Mapper.src_to_dst"]}
{"id": "C77", "title": "The status lines tell the truth", "statement": "The first status line of an audit or baseline sync gives the numbers of resources that are the same, missing, different and no longer listed, and says IN SYNC exactly when there is no difference. The last line of a baseline sync says SYNCED only if everything listed has been fetched and everything no longer listed removed, with the numbers of resources actually created, updated and deleted, and PART SYNCED if files remain to be deleted. The lines of an incremental sync say NO CHANGES exactly if there are none to apply, and CHANGES APPLIED only after the changes have been applied.", "quantifier": "every list, every content of the destination, every change list, every behaviour of server and disk, all settings (deletion, dry run, ignored failures)", "why_tests_cant": "Ranges over all lists, destinations and failures; the lines are only text to a test.", "anchors": ["resync/client.py: Client.log_status, baseline_or_audit, incremental"]}
{"id": "C76", "title": "What is set on a list is what a reader of the list gets", "statement": "The top-level capability, from, until, at and completed attributes and the links (describedby, up, index and any other rel) of a list return the value last assigned to them, None for what was never assigned, and no assignment changes another; a number or 'now' given as a time becomes a W3C datetime for that time. When the list is written and read again the reader gets the same values; a list whose capability was never assigned gets its own.", "quantifier": "every history of assignments on every list, every entries, every assigned values that XML can express, sitemaps and sitemapindexes, both versions of the format", "why_tests_cant": "Ranges over all histories of assignments and all values; a test shows one value per accessor.", "anchors": ["resync/resource_container.py: ResourceContainer.capability, md_from, md_until, md_at, md_completed, link, link_href, link_set, describedby, up, index, default_capability, _str_datetime_now", "resync/list_base.py: ListBase.as_xml", "resync/sitemap.py: Sitemap.add_element_with_atts_to_etree, parse_xml"]}
{"id": "C80", "title": "resync-sync does what its options say", "statement": "resync-sync --audit and --parse never change anything. Files are removed only with --delete and never with --dryrun; with --dryrun no resource is fetched and no file changes. Mapping arguments or delays that make no sense are refused before anything is done. Every request carries the token of --access-token and waits for --delay, from the second request on and not for local files. A directory published with resync-build --write-resourcelist and served is copied exactly by resync-sync --baseline run on an empty place, and both programs then end with status 0. --exclude excludes resources, --checksum is --hash=md5, --tries sets the number of tries.", "quantifier": "every combination of options, every content of disk and server, every moment of the run, every directory tree and split into documents", "why_tests_cant": "Ranges over all combinations of options, all directories and all server behaviours; the programs have no tests of their own.", "anchors": ["resync-sync: main", "resync-build: main", "resync/client_utils.py: add_shared_misc_options, process_shared_misc_options", "resync/client.py: Client.set_mappings, baseline_or_audit, incremental, write_resource_list"]}
{"id": "C81", "title": "resync-build writes the document asked for, with the links asked for", "statement": "With --outfile, the document written is read back as the capability list, source description, change list or resource list that the options describe, with the describedby, up and other links given, in this order. Without --outfile no file is written and standard output is the document. A change list without --reference and --empty is refused with status 2. With --dryrun nothing is written. --write-changedump writes a dump.", "quantifier": "every combination of options, every capability names, URIs and links that XML can express, every directory tree", "why_tests_cant": "Ranges over all combinations of options, names and links.", "anchors": ["resync-build: main", "resync/client_utils.py: parse_links, parse_capabilities, parse_capability_lists", "resync/client.py: Client.write_capability_list, write_source_description, write_change_list, write_resource_list"]}
{"id": "C82", "title": "The exit status of the programs says whether they succeeded", "statement": "resync-sync, resync-build and resync-explorer end with status 0 if they have done what they were asked to do, and with another status otherwise.", "quantifier": "every combination of options, every behaviour of server and disk", "why_tests_cant": "Ranges over all failures at all points of a run.", "anchors": ["resync-sync: main", "resync-build: main", "resync-explorer: main", "resync/client.py: ClientFatalError"]}
{"id": "C83", "title": "Written change lists can be read", "statement": "A change list written by the library, in one document or in several, can be read again by an incremental sync, and the changes read take the old state to the new one.", "quantifier": "every old and new state, every limit of entries per document, every server that serves the documents written", "why_tests_cant": "Ranges over all states and all splits into documents.", "anchors": ["resync/client.py: Client.write_change_list, incremental", "resync/change_list.py: ChangeList", "resync/list_base_with_index.py: ListBaseWithIndex.write", "resync/list_base.py: ListBase.parse"]}
{"id": "C84", "title": "Classes of documents are kept apart, and each reads what it has written", "statement": "Every class of list (resource lists, dumps, manifests, change lists, capability lists, source descriptions, archives) can read the documents that an object of the same class has written, in one document or in several, and gets the same entries in the same order; every other class refuses them.", "quantifier": "every pair of the twelve classes, every set of entries and links the format can express, both versions of the format, every limit of entries per document", "why_tests_cant": "Ranges over all contents and all pairs of classes.", "anchors": ["resync/list_base.py: ListBase", "resync/list_base_with_index.py: ListBaseWithIndex", "resync/archives.py", "resync/resource_dump.py", "resync/resource_dump_manifest.py", "resync/change_dump.py", "resync/change_dump_manifest.py", "resync/source_description.py", "resync/capability_list.py", "resync/sitemap.py: Sitemap.parse_xml"]}
{"id": "C85", "title": "An incremental sync takes a copy of the old state to a copy of the new one", "statement": "If the destination holds a copy of what the source had, and the change list records from the stored time on how the source got to what it has now, then an incremental sync with deletion, for which nothing goes wrong, succeeds and leaves exactly a copy of what the source has now, with the listed times of modification, and stores the latest time listed.", "quantifier": "every pair of source states, every change list that records the way from one to the other, every number of sites (with bases without regular expression syntax other than dots, none inside another), every start time, every disk with room for the files, every server that delivers within the number of tries", "why_tests_cant": "Ranges over all states, histories and change lists, in all orders of entries.", "anchors": ["resync/client.py: Client.incremental, update_resource, delete_resource", "resync/resource_list.py: ResourceList", "resync/change_list.py: ChangeList.prune_before, prune_dupes", "resync/client_state.py: ClientState"]}
{"id": "C86", "title": "Repeated incremental syncs keep a copy of the source", "statement": "A source creates, updates and deletes resources and its change list reports what has happened so far. A client that has a copy of what there was at some moment and is then run at any later moments has, after every run, exactly a copy of what the source has at that moment.", "quantifier": "every history of a source, every sequence of moments at which the client is run", "why_tests_cant": "Ranges over all histories and all schedules of runs.", "anchors": ["resync/client.py: Client.incremental", "resync/change_list.py: ChangeList.prune_before, prune_dupes", "resync/client_state.py: ClientState.get_state, set_state"]}
{"id": "C87", "title": "Baseline sync followed by incremental syncs keeps a copy", "statement": "A baseline sync into empty destinations makes a copy of what the source has and stores a time; incremental syncs at any later moments continue from there, and after every one there is exactly a copy of what the source has at that moment.", "quantifier": "every history of a source, every moment of the baseline sync, every later moments of incremental syncs", "why_tests_cant": "Ranges over all histories and schedules.", "anchors": ["resync/client.py: Client.baseline_or_audit, incremental, update_resource", "resync/client_state.py: ClientState"]}
{"id": "C88", "title": "The explorer's account of a document", "statement": "Whatever document the explorer shows, its first line gives the kind and the number of entries; a warning about the kind is printed exactly if the document is of none of the kinds announced by the option followed (or expected at the starting point), and 'unknown' exactly if it is not a kind of the framework. Each option has its line, entries are numbered in the order of the document with their URIs as written and followed by the URI used if that differs and by a remark on their kind exactly if that is not one such a document may list; if not all are shown the number of the others is given.", "quantifier": "every document, every expectation, every walk through a source", "why_tests_cant": "Ranges over all documents, kinds and walks.", "anchors": ["resync/explorer.py: Explorer.explore_show_summary, allowed_entries, expand_relative_uri, explore_uri"]}
{"id": "C89", "title": "Where exploring starts", "statement": "With an explicit sitemap exploring starts there; with a local directory it starts from those of the four likely file names that exist, one after the other, and is refused if there is none; any other local path is the starting point itself; for a server it is the given path, if any, and then the well-known place where a capability list is expected. Without any source it is refused.", "quantifier": "every configuration and every local file system", "why_tests_cant": "Ranges over all configurations and directories.", "anchors": ["resync/explorer.py: Explorer.explore"]}
{"id": "C90", "title": "What --parse reports", "statement": "Parsing a document reports the capability it states and the number of its entries, for every document that can be parsed and in particular every one the library has written. With --verbose one line is shown for each entry, giving its URI, modification time, length, one of its hashes (md5 before sha-1 before sha-256), its change and its path, at most as many as asked for (100 by default), the first ones in the order of the URIs, and it is said when not all are shown.", "quantifier": "every document, every limit", "why_tests_cant": "Ranges over all documents and limits.", "anchors": ["resync/client.py: Client.parse_document", "resync/resource.py: Resource.__str__", "bin/resync-sync: main"]}
{"id": "C91", "title": "Published changes, applied by a client, keep its copy a copy", "statement": "If a source publishes the change list from what was listed to what it has now, and a client with a copy of the old state does an incremental sync with it, then the sync succeeds and the client has a copy of the new state: every resource that is there now with its content and time, and nothing that has been deleted.", "quantifier": "every old and new state of the source, every publisher and client configuration, every stored time the client may have from earlier syncs", "why_tests_cant": "Joins publishing, the document format, and synchronisation over all pairs of states; the failures depend on how the times in the published list relate to the time the client stored.", "anchors": ["resync/client.py: Client.write_change_list, Client.incremental", "resync/change_list.py: ChangeList.add_changed_resources, prune_updates_before"]}
{"id": "C92", "title": "Resources are separate objects", "statement": "Whatever a program does with resources (making them, copying them with Resource(resource=r), assigning attributes, setting links), each statement affects only the resource it is about; in particular a copy can be changed without changing the original.", "quantifier": "all programs: sequences of constructions, copies, attribute assignments and link operations on any number of resources", "why_tests_cant": "Aliasing shows only in particular sequences of operations over several objects; a test looks at one sequence.", "anchors": ["resync/resource.py: Resource.__init__, __setattr__, link_set, link_add"]}
{"id": "C93", "title": "Times held in double precision survive being written and read", "statement": "With timestamps as Python holds them, in double precision: a time given in microseconds is written as the text of exactly that time and read back as the same number; any other number in the years 1 to 9999 comes back within 1.5 microseconds and is from then on written as the same text; the order of times is kept; and whether two times differ by a second or more is decided as exact arithmetic would.", "quantifier": "every double in the years 1 to 9999; every number of microseconds; every string that is read", "why_tests_cant": "Rounding goes wrong for particular numbers only, in places that depend on the exponent; a test samples a few of about 2^63 doubles.", "anchors": ["resync/w3c_datetime.py: datetime_to_str, str_to_datetime", "resync/resource.py: Resource.equal"]}
{"id": "C94", "title": "Writing leaves a list or dump as it was", "statement": "Writing a list or a dump does not change it: afterwards the list, or the resources of the dump, are as before (lengths may have been filled in from the files), and writing again to the same place writes the same.", "quantifier": "every list (metadata, links, mapper, number of entries, limits) and base name; every collection of resources, file sizes, limits and current directory", "why_tests_cant": "Tests write an object once; what a second write does depends on what the first left in shared objects, for every shape of list and every layout of files.", "anchors": ["resync/list_base_with_index.py: ListBaseWithIndex.write", "resync/dump.py: Dump.write, write_zip, check_files"]}
{"id": "C95", "title": "The text of a document says what the document says", "statement": "The XML text written for a list - as a string or to a file - when parsed gives the same entries in the same order with the same metadata and links, with and without pretty printing and under every name of an encoding. Nothing that a URI, a path, a metadata or a link value contains (quotes, angle brackets, ampersands, line ends, tags) can change which elements the document has; if the values contain characters that XML does not allow the text cannot be parsed. The text of a list consists of a beginning, the entries as resource_as_xml gives them, and the end tag.", "quantifier": "every list of resources, metadata and links (with attribute names that are XML names), every setting of the writer and every name of an encoding", "why_tests_cant": "Escaping and parsing must agree for every string in every position of every tree; tests compare a few documents.", "anchors": ["resync/sitemap.py: Sitemap.resources_as_xml, resource_as_xml, parse_xml, add_element_with_atts_to_etree"]}
{"id": "C96", "title": "A document that was cut off is not taken for a shorter one", "statement": "No proper beginning of the text of a document can be parsed: a reader of a file that is still being written, of a file left by a crash, or of a transfer that was cut short gets an error and no entries, never a shorter list. At every point during the writing of a list, what a reader gets from each file is what was there before, an error, or a completely written document.", "quantifier": "every document the writer can make, every place where its text may end, every point during the writing of one or several files", "why_tests_cant": "There are as many cut-off texts as characters in all documents; tests try a few.", "anchors": ["resync/sitemap.py: Sitemap.resources_as_xml, parse_xml", "resync/list_base_with_index.py: ListBaseWithIndex.write", "resync/list_base.py: ListBase.write, parse"]}
{"id": "C97", "title": "An interrupted sync can simply be repeated", "statement": "Syncs may fail or be killed at any moment, also in the middle of writing a file, any number of times. As long as every resource has one content on the server, each file below the destinations always has a beginning of its resource's content, and when a baseline sync finally succeeds every listed resource's file has the whole content, whatever the earlier attempts have left. When the server delivers and the disk works, that sync does succeed.", "quantifier": "every number of attempts, each with any options, any list or change list found, any failures of server and disk, any moment at which the process ends and any part of the bytes being written; every list in the final sync", "why_tests_cant": "The moments of interruption, their combinations over several attempts and the failures in between cannot be enumerated.", "anchors": ["resync/client.py: Client.baseline_or_audit, incremental, update_resource, delete_resource", "resync/resource.py: Resource.equal", "resync/resource_list.py: ResourceList.compare"]}
{"id": "C98", "title": "Documents survive as bytes, and a partial transfer changes nothing", "statement": "The bytes that are written to a file for a document (in UTF-8) are read back as the document, whatever characters it has. Bytes that end before the end of the document, even in the middle of a character, are refused. Therefore a client whose resource list, one component of its resource list, or change list arrives incompletely (or not at all) reports an error and changes nothing: it never takes the part it has for the whole and deletes the rest. A directory that is published and served as bytes can be mirrored by a client that reads the bytes.", "quantifier": "every list, metadata and links the format can express, every point at which the bytes can be cut off, every state of the destination, all options of the client", "why_tests_cant": "Every byte position of every document is a possible cut, including positions inside characters; tests cut at one place.", "anchors": ["resync/list_base.py: ListBase.write, ListBase.read", "resync/list_base_with_index.py: ListBaseWithIndex.write, read", "resync/sitemap.py: Sitemap.resources_as_xml, parse_xml", "resync/client.py: Client.baseline_or_audit, incremental"]}
{"id": "C99", "title": "Syncs that overlap do not damage each other's files", "statement": "Several syncs of the same destinations (for instance started by a timer while an earlier one is still running) may run at the same time, in any interleaving of what they do, each writing files in pieces and each possibly ended at any moment. As long as every resource has one content on the server, no file ever has a wrong byte (only gaps of zeros or a missing end), and once the syncs have finished successfully every file that they wrote has the whole content of its resource.", "quantifier": "every number of processes, every interleaving, every division of the bytes into pieces, every moment at which each of them ends, any options and lists", "why_tests_cant": "The interleavings of system calls of concurrent processes cannot be enumerated or even reproduced by tests.", "anchors": ["resync/client.py: Client.baseline_or_audit, incremental, update_resource"]}
{"id": "C100", "title": "The name of a local file means that file", "statement": "A local name given where a URI is expected (the location of a list to read, the URI of a resource to copy) opens the file of exactly this name, so that lists written to a file are read back under the same name, and copying a directory by file:// URIs gives the contents of its files.", "quantifier": "every name, every directory, every list written (in one document or several)", "why_tests_cant": "Which of all possible file names survive the conversion to a URL and back is a statement about every string; tests use ordinary names.", "anchors": ["resync/url_or_file_open.py: url_or_file_open", "resync/list_base_with_index.py: read, write", "resync/client.py: Client.update_resource"]}
{"id": "C101", "title": "A new resource records exactly what it was given", "statement": "Resource(...) gives a resource whose every attribute is the argument given for it, otherwise the attribute of the resource to copy from, otherwise nothing, a time given as text counting before one given as a number. It raises ChangeTypeError exactly if a change type, given or copied, is not created, updated or deleted, and otherwise ValueError exactly if a text given for a time is not a W3C datetime or there is no URI.", "quantifier": "every combination of arguments and every resource to copy from", "why_tests_cant": "There are 23 optional arguments with three ways for most attributes to get a value; tests try a few combinations.", "anchors": ["resync/resource.py: Resource.__init__"]}
{"id": "C102", "title": "Checksums in an index are those of the component documents", "statement": "When a list is written as several component documents and an index, each entry of the index has the URI of one component and the MD5 sum of the bytes in that component's file. This holds whenever the index is complete: at the end of write() and at every point where a write may be interrupted, as long as the file is not written over an older list.", "quantifier": "every list, every limit on entries, every mapper, every file name, every point of interruption", "why_tests_cant": "That no later component, nor the index, is written over an earlier component, and that the sum in each entry is that of its own component, must hold for every number of components and every name; tests look at one small list.", "anchors": ["resync/list_base_with_index.py: write, part_name", "resync/hashes.py: Hashes"]}
{"id": "C103", "title": "What a document says counts, not how it is written", "statement": "Documents made by other software are read as what they say: the order of attributes, attributes and elements that ResourceSync does not define, the order of metadata and links before the entries, the order of the parts of an entry, texts where none are expected, the prefixes chosen for the namespaces (including none), the ways in which XML allows tags, quotes, characters, comments and ends of lines to be written, and white space around URIs and datetimes play no role.", "quantifier": "every document, every other document that says the same, every choice of prefixes, whatever is expected by the reader", "why_tests_cant": "The documents that say the same are infinitely many for each document; tests read a few samples written in one style.", "anchors": ["resync/sitemap.py: parse_xml, resource_from_etree, md_from_etree, ln_from_etree"]}
{"id": "C104", "title": "The basename of a resource", "statement": "resource.basename is the last part of the path of the URI: for scheme://host/dir/name it is name, whatever query or fragment follows.", "quantifier": "every scheme, host, directory, name, query and fragment", "why_tests_cant": "Slashes may occur in queries and fragments, and all names must work; tests have one example.", "anchors": ["resync/resource.py: Resource.basename"]}
{"id": "C105", "title": "The attributes of a resource are independent", "statement": "Assigning an attribute of a resource gives it that value and changes no other; times assigned as text (lastmod, datetime, md_at, md_completed, md_from, md_until) are kept as the time the text is read as, and read back as text within a microsecond of it; an assignment that is refused changes nothing. So after any history an attribute has the value last assigned to it.", "quantifier": "every resource, every attribute and value, every history of assignments, hash strings and link operations, those that raise exceptions included", "why_tests_cant": "There are sixteen attributes, six aliases and special setters behind one __setattr__; tests set one and look at one.", "anchors": ["resync/resource.py: Resource.__setattr__", "resync/resource.py: Resource._set_extra", "resync/resource.py: Resource.lastmod, datetime, md_at, md_completed, md_from, md_until, hash, link_set"]}
{"id": "C106", "title": "Following a published directory", "statement": "A directory is published with write_resource_list, and a client makes a copy of it with a baseline sync. Later the directory has changed; the publisher compares it with the published list and publishes the result with write_change_list. When the client then does an incremental sync with this change list, the destination is a copy of the directory as it is now: new and changed files are there with their contents and times, and files that are gone are gone.", "quantifier": "every directory before and after, every number of documents for the list, every client configuration with one mapping, every point in time from which changes are taken", "why_tests_cant": "Two programs, three documents and two states of a directory take part; which changes arrive depends on the modification times of all files, old and new, and tests run one program with one prepared document.", "anchors": ["resync/client.py: write_resource_list, write_change_list, baseline_or_audit, incremental", "resync/change_list.py: add_changed_resources", "resync/resource_list.py: compare", "resync/client_state.py"]}
{"id": "C107", "title": "Lists over generators", "statement": "A list can be made over a generator, with the number of items given as count: as_xml(), any one component from as_xml_part(), and the files written by write() are then those of the list of the same items. If the count is needed and not given, as_xml() and write() raise an exception instead of writing a part. The number of components announced by requires_multifile() is the count divided by the limit, rounded up.", "quantifier": "every sequence of items, limit, base name, mapper and header; every component number; every sequence of calls on one list", "why_tests_cant": "The generator is consumed by the calls; what a call gives depends on all calls before it, on how the limit divides the number of items, and on which of the items have already been taken.", "anchors": ["resync/list_base.py: ListBase.__len__, as_xml", "resync/list_base_with_index.py: requires_multifile, as_xml, as_xml_part, as_xml_index, write, get_resources_chunk", "examples/sitemapindex_and_generator.py"]}
{"id": "C108", "title": "Symbolic links", "statement": "A sync changes files only in the destination directories: whatever symbolic links there are on the disk, wherever they lead, nothing outside the (real) destination directories is written, deleted or given another time, at any moment of a baseline or incremental sync; and in the destinations there is what there would be without links. This holds also when a destination directory is itself reached through symbolic links.", "quantifier": "every file system with symbolic links (to files, to directories, absolute, relative, dangling, in circles), every mapping, source, change list, server behaviour and options; every moment at which the process may be ended", "why_tests_cant": "Which file a system call changes depends on all links met on the way to a name, and on what the earlier calls have done there; no set of example trees covers the ways links can lead in and out of a directory.", "anchors": ["resync/client.py: baseline_or_audit, incremental, update_resource, delete_resource", "resync/resource_list_builder.py: add_file (include_symlinks)"]}
{"id": "C109", "title": "The log tells what was done", "statement": "During a baseline or incremental sync there is an 'Event' in the log for each resource fetched completely and each file deleted, in the order in which this was done, with the right kind of change, and none for anything else; directly after the event for a download whose length or requested digest differs from the one stated in the source's list there is a message saying so, and no such message otherwise; and a sync that ends normally says of each resource to be created, updated or deleted how it went, exactly once.", "quantifier": "every source, change list, disk, mapping and options, every behaviour of the server, network and file system (failures, timeouts, broken transfers), every way the run ends", "why_tests_cant": "The log has to agree with what was done in every history of replies and failures; tests look at the messages of single calls.", "anchors": ["resync/client.py: log_event, update_resource, check_hashes, delete_resource, baseline_or_audit, incremental, prune_hashes"]}
{"id": "C110", "title": "Command lines mean what they say", "statement": "The options of resync-sync and resync-build can be given in any order and in any of the usual forms (-n, --dryrun, an unambiguous beginning of it, --opt value, --opt=value, -oVALUE, several letters after one dash), before or after the mapping arguments, with the same effect: each option sets what it names, the last value counts (all of them for repeatable options), exactly one mode is chosen, and an option is in effect only if a word of the line names it. In particular, whatever else is on the line, nothing changes with --audit or --parse, no file changes with --dryrun, no file is removed without --delete, and a line that is refused does nothing and ends with status 2.", "quantifier": "all command lines (lists of words), all behaviours of the world", "why_tests_cant": "The words can be combined in unboundedly many ways, with abbreviations, joined letters and values that look like options; the project's tests call the programs with a few lines.", "anchors": ["resync-sync: main", "resync-build: main", "resync-explorer: main", "resync/client_utils.py: add_shared_misc_options, process_shared_misc_options"]}
{"id": "C111", "title": "What is said reaches the console and the log file once, and as it was said", "statement": "Once logging has been set up by one of the programs, every message of resync's loggers is shown on the console exactly once if it is a warning, or with --verbose an information, and never otherwise; with --logger, each message makes exactly one line at the end of the log file (--logfile or the program's default), evaluation events only with --eval, from which time, logger, level and message can be told; loggers of other packages are left alone; and a sync without --verbose shows whatever went wrong with a resource, and only that.", "quantifier": "every history of calls of init_logging with any arguments, every logger name, level, message and time; every command line of the programs; every run of a sync", "why_tests_cant": "How often and where a message appears depends on the whole hierarchy of loggers and on all earlier calls; tests look at the level of a few loggers after one call.", "anchors": ["resync/client_utils.py: init_logging, UTCFormatter", "resync-sync, resync-build, resync-explorer: calls of init_logging", "resync/client.py: logger calls in update_resource, check_hashes, delete_resource", "resync/sitemap.py: md_from_etree"]}
{"id": "C112", "title": "The representation of a resource is unambiguous", "statement": "The text repr() gives of a resource is one line, whatever is in its attributes, and tells every attribute: resources with the same text are the same. So the record of a sync made of it with --eval can be analysed automatically: from the text of the log file the events, in order, with all attributes of the resources and the kinds of the changes, can be told, and no other message of a sync can be taken for one. Only attributes that have a value are shown.", "quantifier": "every resource object with any strings, times, links and extra attributes; every list of messages of a sync and every log file they are written to", "why_tests_cant": "Strings may contain quotes, commas, braces, newlines or whole representations of other resources; one test looks at one resource with two attributes.", "anchors": ["resync/resource.py: Resource.__repr__, Resource.__init__, Resource._set_extra", "resync/client.py: Client.log_event, update_resource, delete_resource"]}
{"id": "C113", "title": "A copy can be published and mirrored in turn without drifting", "statement": "If a directory is published and mirrored, the copy published and mirrored, and so on, then the last copy has exactly the files of the first directory that no publisher on the way excluded, each with the content it has there, however long the chain. Modification times are moved by the first mirror only, to whole seconds and by little more than a second; from then on content, size and time stay exactly the same. What a publisher needs of names, times and contents holds of every copy.", "quantifier": "every chain of mirrors of any length, every directory tree with any modification times in the years 1 to 9999, and any exclusion patterns, hash types, mappings and document sizes at each hop", "why_tests_cant": "A rounding error or a lost name that does not matter in one sync adds up along a chain; tests do one sync from one small source.", "anchors": ["resync/client.py: Client.write_resource_list, Client.baseline_or_audit, Client.update_resource", "resync/w3c_datetime.py: datetime_to_str, str_to_datetime", "resync/resource_list_builder.py: ResourceListBuilder.from_disk"]}
{"id": "C114", "title": "The order in which a file system lists its entries has no effect", "statement": "What a publisher writes, be it a resource list, an index with its parts, a dump or a change list against a reference, depends only on the files that are not excluded: it is the same whatever the order in which the file system lists the entries, and whatever excluded files, links and empty directories there are besides. A sync or audit makes the same requests and the same changes in the same order, with the same result, whatever the order in which the files at the destination are listed.", "quantifier": "every two listings of the same files in any order at any depth, every directory tree, every configuration of mappings, exclusions, hashes and document sizes, every list at the source, every behaviour of the server and the disk during the run, and every state file", "why_tests_cant": "Tests run on one file system which happens to give one order; two machines with the same files may list them in any of exponentially many orders.", "anchors": ["resync/resource_list_builder.py: ResourceListBuilder.from_disk, ResourceListBuilder.from_disk_add_path", "resync/resource_list.py: ResourceListDict.__iter__, ResourceList.compare", "resync/client.py: Client.write_resource_list, Client.write_change_list, Client.baseline_or_audit, Client.incremental"]}
{"id": "C115", "title": "The order of the entries in a source's documents has no effect on a baseline sync", "statement": "If two sources have the same documents (source description, capability lists, resource lists, indexes and their parts) except that each lists its entries in some other order, then a client tries the same documents in the same order, finds the same resource list with the same metadata and links or fails with the same exception, and its baseline syncs and audits make the same requests and the same changes in the same order with the same result.", "quantifier": "every set of documents, valid or not, every permutation of the entries of each, with or without discovery, every configuration, state of the destination and behaviour of the server and disk during the run", "why_tests_cant": "Sources may list n entries in n! orders, and a duplicate, an invalid entry or an entry with an unknown capability may stand anywhere among them.", "anchors": ["resync/sitemap.py: Sitemap.parse_xml", "resync/list_base_with_index.py: ListBaseWithIndex.read, ListBaseWithIndex.read_component_sitemap", "resync/capability_list.py: CapabilitySet.__iter__, CapabilityList.capability_info", "resync/client.py: Client.find_resource_list, Client.baseline_or_audit"]}
{"id": "C116", "title": "Mappings that do not overlap can be given in any order", "statement": "If of several mappings no source is at or below another one and no destination is at or below another one, the file of every URI and the URI of every file are the same in whatever order the mappings are given. A baseline sync or audit of several sites whose resource list is named makes the same requests and the same changes in the same order with the same result.", "quantifier": "every number of mappings and every permutation of them, every URI and path, every resource list, state of the destination and behaviour of the server and the disk", "why_tests_cant": "Tests give one or two mappings in one order; the claim is about all permutations of any number of mappings and about whole runs.", "anchors": ["resync/mapper.py: Mapper.src_to_dst, Mapper.dst_to_src, Mapper.unsafe", "resync/resource_list_builder.py: ResourceListBuilder.from_disk", "resync/client.py: Client.baseline_or_audit"]}
{"id": "C117", "title": "Entries about different resources can come in any order in a change list", "statement": "If two change lists say the same about each URI, in the same order for that URI, but entries about different URIs are in another order: pruning drops the same number of entries and keeps the same change of each URI; an incremental sync accepts both lists or neither and takes on the same change for each URI; and in surroundings where nothing goes wrong both syncs succeed, leave the same files with the same contents and times, and later syncs go on from the same time. The order of entries about one URI does matter.", "quantifier": "every pair of change lists with the same histories per URI (any interleaving), every client configuration and state; for the whole run every copy, source and mapping as in C85", "why_tests_cant": "The number of interleavings grows exponentially, and the claim is about every list, not about some.", "anchors": ["resync/client.py: Client.incremental", "resync/resource_container.py: ResourceContainer.prune_dupes", "resync/change_list.py: ChangeList.prune_updates_before"]}
{"id": "C118", "title": "An incremental sync completes what broken-off ones have begun", "statement": "If incremental syncs fail or are ended at any moment before they have recorded a time (with whatever the server answers and the disk does, also in the middle of writing a file), the next incremental sync that runs undisturbed with the change list as it is then succeeds and leaves a copy of the source, whatever the others have left behind. Applying the same changes again leaves the copy as it is.", "quantifier": "every number of broken-off syncs, every moment at which each is ended, every behaviour of server, disk and clock during them, every copy, source, mapping and change list as in C85", "why_tests_cant": "Crash points, partial writes, failing servers and the number of attempts combine without bound; a test picks one of them.", "anchors": ["resync/client.py: Client.incremental, Client.update_resource, Client.delete_resource", "resync/client_state.py: ClientState.set_state", "resync/resource_container.py: ResourceContainer.prune_dupes"]}
{"id": "C119", "title": "Digest types and exclude patterns can be given in any order", "statement": "Giving the types of digest or the exclude patterns in another order, or one of them several times, changes nothing: the same resource list, dump or change list is written or the same error raised; a sync or audit makes the same requests and the same changes with the same result.", "quantifier": "every pair of lists with the same values, every directory, mapping and other setting, every source and state of the client, every behaviour of server and disk", "why_tests_cant": "The claim is about all orders and repetitions of arbitrary patterns and about whole runs; the program iterates over a set whose order differs between runs of Python.", "anchors": ["resync/hashes.py: Hashes.__init__, Hashes.set", "resync/resource_list_builder.py: ResourceListBuilder.add_exclude_patterns, ResourceListBuilder.from_disk", "resync/client.py: Client.build_resource_list, Client.baseline_or_audit, Client.prune_hashes"]}
{"id": "C120", "title": "What pruning does to the effect of a change list", "statement": "Removing duplicates from a change list keeps its effect on every collection which does not yet have what the list first creates and in the end deletes; on others it loses that deletion. Pruning again removes nothing. A list may be pruned, extended and pruned again with the same result as pruning it once at the end, and two cut-off times have the effect of the later one.", "quantifier": "every change list, every collection it is applied to, every way to divide it in two, every pair of cut-off times", "why_tests_cant": "The claim is about all sequences of changes for all URIs and all points at which the list is pruned in between; the cases that fail are particular histories of one URI.", "anchors": ["resync/resource_container.py: ResourceContainer.prune_dupes", "resync/change_list.py: ChangeList.prune_updates_before", "resync/client.py: Client.incremental"]}
{"id": "C121", "title": "A sync depends on nothing on the disk but what is at its destinations", "statement": "Two disks that have the same at and below the destinations of the mapping, and on the way there, may differ everywhere else: baseline sync, audit and incremental sync make the same requests and the same changes in the same order on both, end with the same result, record the same in the state file and leave the same at the destinations.", "quantifier": "every configuration with one or more mapped sites, every server (with its failures), every pair of disks that agree at the destinations, every list of resources or changes below the mapped URIs", "why_tests_cant": "Ranges over everything that could be on the rest of the disk; a test has one disk and cannot see that a file elsewhere would have been read.", "anchors": ["resync/client.py: Client.baseline_or_audit, Client.incremental, Client.update_resource, Client.delete_resource", "resync/resource_list_builder.py: ResourceListBuilder.from_disk", "resync/mapper.py: Mapper.src_to_dst"]}
{"id": "C122", "title": "A dry run announces what a real run will do", "statement": "If a dry run of a baseline or incremental sync ends well, then a real run in the same situation does what the dry run has announced, in the same order, and nothing else: it requests each resource announced and writes only to the file announced for it (and makes directories on the way there), it removes each file announced or reports that this has failed, and at the end it may record the time for the next incremental sync. If the real run does not end well it has done this for the first of the announcements and perhaps a part of the next one. The numbers an audit prints are those of what a dry run announces.", "quantifier": "every configuration with at least one try, every server and disk (with failures at any point), every list of resources or changes, deletion allowed or not", "why_tests_cant": "The two runs go through different branches for every resource and meet failures at different points; the claim compares them for all lists and all failures.", "anchors": ["resync/client.py: Client.baseline_or_audit, Client.incremental, Client.update_resource, Client.delete_resource"]}
{"id": "C123", "title": "Allowing deletions adds removals and nothing else, so they can be left to a later sync", "statement": "A baseline sync that may delete makes the same requests and the same changes to the disk as one that may not, in the same order, ends with the same result and records the same time; in addition, after all downloads and before the time is recorded, it removes some files, all of which are still there after the other run. Hence, if the listed resources have times and right lengths, a successful sync without deletion followed by a successful one with deletion leaves the same files, contents and times as one with deletion in the first place.", "quantifier": "first part: every configuration, list, disk, server and failure; second part: every tidy disk and mapping to separate destinations, every list of resources with times and right lengths, every server behaviour in the later run", "why_tests_cant": "The claim compares two runs for all lists, disks and failures, including those that stop anywhere.", "anchors": ["resync/client.py: Client.baseline_or_audit, Client.delete_resource"]}
{"id": "C124", "title": "Syncs to separate destinations do not get in each other's way", "statement": "Two or more syncs, each a baseline sync or an incremental one from a given time on, whose destinations exist, none of them inside another one, can be done in any order: the disk is the same afterwards. At and below the destinations of each it has what that sync leaves when it is the only one, and everywhere else nothing has changed. A second one makes the same requests and changes as it would on its own. This holds whether they end well or not and whatever is in the state file.", "quantifier": "any number of clients with their options, mappings to separate existing destinations, lists of URIs below the mapped ones, servers and disks with any failures, deletion allowed or not, every content of the state file", "why_tests_cant": "It relates four runs for all lists, disks and failures.", "anchors": ["resync/client.py: Client.baseline_or_audit, Client.incremental, Client.update_resource, Client.delete_resource", "resync/resource_list_builder.py: ResourceListBuilder.from_disk"]}
{"id": "C125", "title": "More tries do no harm", "statement": "Raising the number of tries (from at least one) never changes a sync that ends well: it makes the same requests and changes in the same order and ends in the same way, without a request more. A sync that does not end well is, with more tries, either the same, or does all that the one with fewer tries does and goes on where that one has given up with a FatalError, beginning with another request for a resource already requested.", "quantifier": "every configuration in which failures are not ignored, every number of tries from one on and every larger one, baseline syncs, audits and incremental syncs, every server and disk with any failures", "why_tests_cant": "All servers, failures and numbers of tries.", "anchors": ["resync/client.py: Client.update_resource, Client.baseline_or_audit, Client.incremental"]}
{"id": "C126", "title": "Ignoring failures loses nothing", "statement": "With failures ignored, a sync that would also end well with failures not ignored is the same run. Where the strict sync does not end well, the lenient one is the same or does all that the strict one does and goes on where that one has ended with a FatalError after a request. A baseline sync that ends well, lenient or not, has requested every listed resource that was missing at its destination or there in another version, and an incremental one every resource whose last change since the start time is its creation or an update: a failure with one resource does not keep it from trying the others. And a sync that ignores failures ends with a FatalError only before it has requested or changed anything.", "quantifier": "every configuration (with at least one try and no dry run for what has been requested, and any number of separate sites for this with a baseline sync), baseline syncs, audits and incremental syncs, every server and disk with any failures", "why_tests_cant": "All servers and all patterns of failures.", "anchors": ["resync/client.py: Client.update_resource, Client.baseline_or_audit, Client.incremental"]}
{"id": "C127", "title": "Authority checks do nothing but refuse", "statement": "A sync with authority checks is the same run as the one with --noauth, or it is refused with an exception before anything has been requested from the source of the resources or changed. The same holds of strict and lax checks: what the strict check lets pass is the same run as with the lax one. So a sync that ends well with a check would have been the same without it.", "quantifier": "every configuration, baseline syncs, audits and incremental syncs (explicit or default change list), every list, server and disk", "why_tests_cant": "All lists and servers; pairs of runs.", "anchors": ["resync/client.py: Client.baseline_or_audit, Client.incremental", "resync/url_authority.py: UrlAuthority.has_authority_over"]}
