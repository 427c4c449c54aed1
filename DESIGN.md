# Formal model of resync/resync in Lean 4

## 1. What is here

| where | what |
|---|---|
| `properties.jsonl` | the properties, in English, C01.. |
| `lean/Verif/Py/*` | the parts of the Python language and standard library the code relies on: strings, `re`, `posixpath`, `urllib.parse`, dictionaries, `datetime` arithmetic, `configparser`, ElementTree |
| `lean/Verif/Model/*` | the code of /repo/resync, function by function, each definition citing file and lines |
| `lean/Verif/Spec/*` | small specifications, written without the model's helper functions |
| `lean/Verif/Proofs/*` | helper lemmas |
| `lean/Verif/Props/*` | the property theorems (one file per area), each with a concrete non-vacuity `example` beside it |
| `lean/Verif/Conform/*` | what the project's own tests expect, asserted of the model; these are tests of the model, not proofs of properties |
| `lean/Verif/Audit.lean` | generated; prints the axioms of every property theorem |
| `MANIFEST.json` | property → theorem names and status (generated by `tools/manifest.py` from the property files and `tools/status.json`) |
| `seeded/LOG.jsonl` | seeded wrong programs and which theorems rejected them (`tools/seed.py`) |
| `tools/libcheck/` | compares `Verif/Py` with CPython's library on generated inputs |
| `tools/coverage.py` | lists the functions of /repo/resync that no comment in `Model` cites |

Python exceptions are values (`Except Err`, or `none` where only one kind is possible). Loops over lists are structural
recursion or folds. Functions of the client that act on the outside are state transformers which record every effect in a
trace; the world after a crash is the initial one with some prefix of the trace applied. No bound on sizes, depths or steps
appears in any theorem.

How to read a property theorem: its statement uses functions of `Model` (the program), definitions of `Spec` (what is
meant) and, for setups that occur in several theorems, small predicates defined just above it. `Proofs` need not be read.

Naming: `Cxx_name` is proved as claimed. `Cxx_name_partial` is the part of the claim that holds; its comment says what is
missing. `Cxx_name_violated` proves, with a concrete run or for all inputs, that the code does not do what the claim says.
A property with a partial or violated theorem has the status "partial" in the manifest.

## 2. Trusted base

* Lean 4.33.0's kernel, and of its axioms only `propext`, `Classical.choice` and `Quot.sound`; every property theorem
  depends on a subset of these (`Audit.lean`). Nothing is assumed beyond that: no axiom is declared, no proof is left open,
  and evaluation is by the kernel (`decide`, `decide +kernel`, `rfl`), not by compiled code.
* The reading of the Python source into `Verif/Model`, by hand, function by function. Nothing was extracted
  automatically and the code was not run. As a check of this reading, the inputs and expected results of the tests in
  /repo/tests (read as text) are asserted of the model and evaluated by the kernel (`Verif/Conform`): w3c_datetime, mapper, resource,
  sitemap, the lists, dumps, client, client state, explorer, builder and hashes, and the documents of the examples of
  ResourceSync 1.0 and 1.1. Left out are tests of what is not modelled (logging, argument parsing, real servers).
* The hand-written models of CPython 3 library behaviour in `Verif/Py`. They have been compared with CPython's own results on some 80,000 generated
  cases for each of several seeds (`tools/libcheck`; these are tests, and no theorem depends on them):
  * `Str`: `str` methods (`split`, `strip`, `join`, `startswith`, ...), `%d`, `int()`;
  * `Regex`: a backtracking matcher for the constructs that the code's patterns use (literals, `.`, classes, groups,
    `?`, `+`, `*`, `$`), and `re.compile` for the patterns given by users; `\d`, `\w`, `\s` as far as ASCII is
    concerned, other word characters by a parameter (`uw`) where it matters;
  * `Posix`: `os.path` on POSIX; `Url`, `UrlJoin`: `urlparse`, `urlunparse`, `urljoin`; `Calendar`: the proleptic Gregorian
    calendar, `datetime.isoformat`, `utcfromtimestamp`, `calendar.timegm`;
  * `ConfigParser`: reading and writing of the state file's format, line by line;
  * `Xml`: what writing an ElementTree and parsing the text again does to the tree (`reparse`): illegal characters make
    the text unparsable, white space in attributes and line ends are normalised, names are resolved to `{namespace}local`;
  * `FileUrl`: the file that `urlopen` opens for a file: URL (`unwrap`, `_splittag`, `_splittype`, `_splithost`, `unquote`); of the names of this
    machine only localhost is known; decoding of escapes that are not UTF-8 is a parameter;
  * `Utf8`: encoding, and decoding as strictly as Python does it (no overlong forms, no surrogates, nothing above U+10FFFF).
  * `XmlText`: the writer of ElementTree and a parser (expat as ElementTree uses it) character by character: references, CDATA,
    comments, processing instructions, namespaces. For the trees that the code makes, reading the text written is `reparse`: proved
    (`Proofs/XmlRead`). The parser accepts exactly the texts of the grammar in `Spec/Xml`, with the trees it gives them: proved
    (`Proofs/XmlGrammar`). Left out, and counted as unreadable: document type declarations (defusedxml accepts those without
    entities), names that are not ASCII;
  * `Repr`: `repr` of strings, lists and dicts; which characters beyond ASCII are printable is a parameter (`tools/libcheck/repr_gen.py`);
  * `Num`: int() of a rational, rounding half to even, printing of integers;
  * `dateutil.parser.parse` is modelled for the strings that reach it, the ones the regular expressions of
    w3c_datetime.py have let through.
* Idealisations, stated again at the definitions:
  * strings are lists of Unicode scalar values (`List Char`); lone surrogates do not exist;
  * timestamps are exact rationals instead of IEEE doubles (also the division in `requires_multifile`), except in `Model/Doubles`,
    where C93 says what the difference is for writing, reading, ordering and comparing times;
  * digests are uninterpreted functions of the bytes fed to the hash objects, with hashlib's law that feeding in pieces
    is feeding the whole;
  * except in `Model/LocalFile` (C100), a file name that is opened for reading denotes the file's content directly. C100 says for
    which names this is right: those without scheme, `#`, leading `//`, %-escape and trailing blank;
  * the network is an oracle: what it answers may depend on everything done so far;
  * the client's file system is a map from locations to files and directories. Paths are resolved lexically; there are no
    links (C108 says when this is right on a disk that has symbolic links, and what happens when it is not). Failures of mkdir, open and unlink are chosen by the environment. The scan of a resource list (Builder) in its
    own right is modelled on trees with symbolic links and unreadable files;
  * processes that run at the same time (C99) share files with POSIX semantics (open with truncation, writes at each process's own position,
    unlinked files stay open); each decides by its own view, in which the others show as failures of its calls; mtimes are left out there;
  * the state file is kept apart from the rest of the file system, and within a client run it is written in one step
    (C45 looks at the steps in between);
  * the explorer's input is a finite list of lines; `fake_input` and verbose output are left out;
  * of log output only the status lines (C77), the messages about each resource of a sync (C109) and the warning about unknown capabilities (C111) are modelled; errors that formatting other messages could raise are left out;
  * lists passed to constructors are copied, not shared (`md`, `ln`, `resources` arguments are stored by reference in
    the code). Sharing is modelled where the code itself depends on it: iterators inside lists (C24, C67), the `ln` list shared by the parts
    of a multi-file list (C28, C31), the links of copies of resources (C92).

### What is modelled

| file | modelled | not modelled |
|---|---|---|
| mapper.py | all of Mapper and Map (`Model/Mapper`) | `__repr__`, `__len__` |
| url_authority.py | all (`Model/UrlAuthority`) | |
| w3c_datetime.py | all (`Model/W3CDatetime`) | |
| resource.py | attributes, hash, change, equality, links, in_set, basename (`Model/Resource`), `__str__` (`Model/Listing`) | `__repr__` |
| resource_list.py, resource_set.py, list_base.py | dictionary, iteration with its state, compare, hashes, update, add (`Model/ResourceList`, `ListIndex`, `ClientWrite`) | constructors' plumbing |
| resource_container.py | accessors, links, default_capability, uris, prune_dupes, prune_before (`Model/Container`, `ChangeList`, `ListIndex`) | |
| change_list.py | add_changed_resources, prune (`Model/ChangeList`) | |
| list_base_with_index.py | read, parse, write, as_xml, parts, index, naming (`Model/ListIndex`) | log messages |
| sitemap.py | writing and parsing of documents as trees (`Model/Sitemap`) and as texts, resource_as_xml (`Model/SitemapText`), and as bytes (`Model/SitemapBytes`) | encodings other than UTF-8, byte order marks |
| capability_list.py, source_description.py | iteration, capability_info, add_capability(_list) (`Model/CapabilityList`, `ClientWrite`) | |
| dump.py | partition, archive paths, checks, write with zip and WARC, manifests (`Model/Dump`) | the WARC library, times and checksums in WARC headers |
| hashes.py | all (`Model/Hashes`) | |
| resource_list_builder.py | all of from_disk (`Model/Builder`, `Disk`) | log messages |
| url_or_file_open.py | all (`Model/UrlOpen`) | the HTTP library |
| client.py | discovery, baseline, audit, incremental, update/delete_resource, write_*, parse_document, log_status, log_event, check_hashes (`Model/Discovery`, `Client`, `ClientWrite`, `ClientStatus`, `ClientLog`, `Listing`) | verbose listing of a reference list |
| client_state.py | all (`Model/ClientState`, `Py/ConfigParser`) | |
| client_utils.py | parse_links, parse_link, parse_capabilities, parse_capability_lists, count_true_args (`Model/ClientUtils`); the definitions of the shared options (`Model/CommandLine`); init_logging and UTCFormatter with the parts of Python's `logging` they rely on (`Model/Logging`) | |
| explorer.py | all of Explorer (`Model/Explorer`, `ExplorerText`) | wording of the printed lines; verbose |
| resync-sync, resync-build, resync-explorer | main of each, from the parsed options to the exit status (`Model/Scripts`); the definitions of the options and `parse_args` of argparse after Python 3.11 (`Model/CommandLine`: classification of the words, abbreviations, joined letters, the group of modes, `--`) | texts of usage and help, int() and float() of strings (parameters), Unicode digits in words like `-5`, logging options |
| archives.py, change_dump*.py, resource_dump*.py | constructors, add, iteration, reading and writing of every class (`Model/Kinds`) | arguments `uri`, `md`, `count`, `resources_class` |

## 3. Per-property plan

"negation" means: the code violates the English claim; there is a theorem `..._violated` proving that, and a
`_partial` theorem for the part which does hold. What is missing from partial theorems is in the manifest's notes.

| id | model | theorem / method |
|---|---|---|
| C01 | `Model/Mapper` on the regex engine `Py/Regex` | for metacharacter-free bases the regex match equals prefix-then-'/'-or-end; induction over the matcher; first match over mapping list; the same with dots in the bases when no base covers the string only with dots as wildcards |
| C02 | same | composition of the two translations |
| C03 | same | negation ('.' in host names matches any character) + partial for metacharacter-free bases |
| C04 | same | at most one slash: proved; negation for two |
| C05 | same | invariant over the parse loop for arguments without trailing slashes; negation with trailing slash; which arguments are accepted, against an inductive specification (`MappingArgs`) |
| C06 | `Py/Posix` normpath, commonprefix | absolute normalised paths: soundness by component reasoning; negation for relative/absolute mixtures |
| C07 | same | URI without '..' components stays inside; negation with '..' |
| C08 | same | character invariant of the four substitutions |
| C09, C10 | `Model/UrlAuthority` on `Py/Url` | unfolding to the documented condition; negation for sibling directories |
| C11–C14 | `Model/W3CDatetime`, `Py/Calendar` | days-from-civil bijection (arithmetic), digit printing/parsing lemmas; C13 negation + exact description of the actual shift |
| C15, C16 | `Model/Resource` | case analysis; C16 negation + exact characterisation |
| C17, C18 | hash property of `Model/Resource` | split/join lemmas, fold invariant |
| C19 | attribute operations | invariant by induction over operations |
| C20 | links | induction on the link list |
| C21, C22 | `Model/ResourceList` | refinement to a finite map, sortedness |
| C23, C24, C67 | same, with explicit iterator state | merge loop with measure; negations for shared iterators |
| C25, C26 | `Model/ChangeList` | refinement to a list specification |
| C27 | same | composition with C23 |
| C28, C29, C30 | `Model/ListIndex` | induction over the chunk loop; negation for limit 1 and for names |
| C31 | composition of C28 and C34 | local and remote readers; negation for https |
| C32 | effect trace of `write` | every prefix of the trace |
| C33, C34 | `Model/Sitemap`, `Py/Xml` | tree model, element by element; times of any resolution through rounding |
| C35–C37 | parsing loop | well-formedness specification on trees; iff |
| C38–C41 | `Model/Dump` | induction over the partition loop; C39/C40 negations; C38 negation for WARC packages |
| C42 | `Model/Builder`, `Disk` | recursion over directory trees; several mappings apart from each other (C42_mappings); any start paths, links included or not (C42_any_start, C42_no_clash); exclude patterns over any calls (`Model/Excludes`, C42_patterns, C42_bad_pattern) |
| C43–C45 | `Model/ClientState`, `Py/ConfigParser` | printed file parses to what was written; refinement to a map over histories; interleavings as schedules of two clients, and of any number of clients when writes are in one piece (invariant over all schedules, `Props/StateClients`); negations |
| C46–C49 | `Model/Client` with effect trace | invariant over every prefix of the trace |
| C50, C51 | same | loop invariants (Hoare style) over the fetch and delete loops, composed with the scan (C42) and the comparison (C23); for any number of sites (`Spec.Sites`), one site as a corollary |
| C52, C53 | same | case analysis of the checks before the first effect |
| C54–C56, C60 | same, `incremental` | loop invariant, state file laws of C43 |
| C57 | same | what the scan computes versus what the list has: negation for all inputs; and for separate sites the whole run is the same as without digests (C57_no_effect_violated) |
| C58, C59 | `updateResource` for all servers; for C58 also whole baseline and incremental runs: no URI is requested more often than there are tries, and none that is not in the list read | induction over the tries; over the work list, whose URIs are distinct |
| C61 | `Model/Discovery` | exact trace of documents read, by cases of availability |
| C62 | `Model/UrlOpen` | invariant over request histories |
| C63 | `Model/CapabilityList` | permutation/sortedness |
| C64 | `Model/ClientUtils` | exact accept conditions |
| C65 | `Model/Hashes`, `Model/HashReuse` | induction over blocks, and over the files hashed with one object |
| C66, C68–C71 | `Model/Explorer` | transition system over all input histories; stack invariant |
| C72 | reading in `Model/ListIndex` | what documents are looked at, induction over the components |
| C73 | `Model/ClientWrite` | C42 + C28 + C31 composed; negation for names XML cannot express |
| C74 | same | C27 + C34 composed; negation through `incremental` |
| C75 | same | C63 + C34 composed |
| C76 | `Model/Container` | last assignment per slot by induction over histories; C34 for the reader |
| C77 | `Model/ClientStatus` | refinement to the runs of `Model/Client`, counting lemmas; negations; for several sites `Spec/StatusSites.lean`, `Props/StatusSites.lean` |
| C78 | composition | C73 + C50 + C51 + C79 |
| C79 | `Model/Client` | progress: no branch with an error is taken, for any number of sites and a server that delivers within the tries (`Spec.Delivers`); negation for files in the way |
| C80, C81 | `Model/Scripts` | the programs reduced to one call of a client; C46–C48, C62, C73–C75, C78 composed; negations for options without effect |
| C82 | same | case analysis over exits; negation |
| C83 | `Model/ClientWrite`, reader in `Model/Scripts` | C74 read back; negation for every change list in several documents |
| C84 | `Model/Kinds` (twelve classes) | sorted containers are fixed points of writing, reading and sorting; C34 and C36 for each class; C31 for several documents; negation for the classes that cannot read an index |
| C85 | `Model/Client`, specification in `Spec/Copies` | C54 and C79 together: the last selected change decides each resource, the others have not changed |
| C86 | same | induction over the runs; `CaughtUp` (stored time and history fit) is kept by every run; negation when both entries of a resource are dropped |
| C87 | same, `baseline_or_audit` | C50, C79 for the first copy, then C86 |
| C88 | `Model/ExplorerText` (printed lines as values) | the two patterns of allowed_entries by the declarative meaning of the regex model; the lines are decomposed into head, links and entries; negation for the index of source descriptions and for up links |
| C89 | `Model/Explorer` | case analysis; the starting points are what a user sees who goes back from each |
| C90 | `Model/ClientWrite`, `Model/Listing` | counting invariant of the parse loop; C34 for written documents; induction over the listing; negation for the order |
| C91 | `Model/ClientWrite`, `Model/Client` | C74, C83 and C85 joined: the entries read back are the right ones (`RightEntry`), hence record the change of the source; negation for deletions |
| C92 | `Model/Sharing` (objects in a memory) | invariant: a link is in one place of one list; refinement of the memory to separate values; exact account of which resources share; negation for copies with links |
| C93 | `Model/Doubles` (IEEE 754 rounding as a function on rationals) | rounding is monotone and gives a closest double; error bounds; between 2.5 hours and 272 years from the epoch two doubles' midpoint cannot lie between a number of microseconds and the sum computed by reading; negation near the epoch |
| C94 | `Model/WrittenAgain` (the object after it has been written) | lists: setting the index link twice is setting it once; dumps: exact account of the resources afterwards; negations |
| C95 | `Model/SitemapText`, `Py/XmlText` (writer and parser on characters) | the parser inverts the writer: induction over trees, with arbitrary text following; escaping; names and namespaces; joined with C34 |
| C96 | same, `Model/ListIndex` (events of writing) | what the parser has read stays read when the text goes on (induction over the parser); the text of a document ends with its root; joined with C32 |
| C97 | `Model/Client` (effects with bytes in the middle) | an invariant of everything in the file system and of the state file, kept by every effect of a run and by part of the bytes of one (`Kept`); then induction over the attempts; joined with C50 and C79; negation without lengths |
| C98 | `Py/Utf8`, `Model/SitemapBytes` | UTF-8 decoding inverts encoding and decoding of a prefix is a prefix; then C95, C96; every document that `write` finishes is one these speak of; the client reads `docsOf bytesAt`; joined with C73, C78 |
| C99 | `Model/Client` on a file system shared by processes (`Spec/Overlap`) | what a run does is a sequence of attempts to write a file from its start (`Segs`); invariant over schedules: positions, and the bytes of the process that has opened a file last; a single process gives the same files as the model of a run (C99_alone); negation when that process is killed |
| C100 | `Model/LocalFile`, `Py/FileUrl` (urlopen of file: URLs, with unquoting) | lengths of the stages: each removes something unless the name is plain; composition with C98 (reading back) and C78 (`Honest`); negation with names that have a '#' |
| C101 | `Resource.new` | equivalence with a specification attribute by attribute (`Made`), case analysis of the refusals |
| C102 | `LBI.write` (`Model/ListIndex`), bytes of documents (`Model/SitemapBytes`) | the events of a write taken apart; component names are injective, so later events leave components alone; what the `hash` attribute of an entry is, computed; negation for writing over an older list |
| C103 | `parseXml` (`Model/Sitemap`), `Py/XmlText` | the loop over the document is equivalent to three loops over metadata, links and entries, each of which depends on what is said only; renaming of prefixes commutes with the resolution of namespaces (induction on trees); the parser agrees, in both directions, with a grammar of XML (`Spec/Xml`, `Proofs/XmlGrammar`), so that all ways of writing a tree are read alike; negation for white space |
| C104 | `Resource.basename`, `Py/Url`, `Py/Posix` | `urlparse` of a URL written out with a tail, by its parts |
| C105 | `Resource.step` (all setters), `dateAttr` | a table of what each operation concerns, by cases; histories by induction; the text of times from C11 |
| C106 | composition of `writeResourceList`, `writeChangeList`, `baselineOrAudit`, `incremental` | what the list says is within a microsecond of the directory (C73), the comparison shows what differs in size or by more than a second (C25), the change list read back (C74, C83) satisfies the conditions of C91; deletions by C49 |
| C107 | `GenList` (a list whose items are consumed by iteration) over `LBI` | with the right count each operation equals the one of the list of the same items, case by case; what is left afterwards by the model's state |
| C108 | `Spec/Links.lean`: a file system with symbolic links and how names lead to places in it (path_resolution(7)); the effects of `Model/Client` done on it | names without `.`, `..` and links lead to their own places (induction over the walk); every effect of a run is in its place and possible at its moment; the file system of the model is what the real one shows, kept step by step (refinement) |
| C109 | `Model/ClientLog`: the runs of `Model/Client` with the messages about resources, check_hashes and log_event; `Spec/ClientLog.lean`: completed downloads and removals read off the trace | the runs are the same (erasure); each step's log agrees with the effects of the step, and agreement composes (appending traces and logs); outcomes by induction over the loops; for several sites `Spec/StatusSites.lean`, `Props/StatusSites.lean` |
| C110 | `Model/CommandLine`; `Spec/CommandLine.lean`: how options are written, what values given mean | both loops of argparse: the second one is a list of actions in the order of the words (invariants over all lists of words: modes, what is set and what is mentioned); for lines of the proper form each group of words is followed through both loops; wiring of every option to the setting; composed with C80 |
| C111 | `Model/Logging`: loggers by dotted name, handlers by identity, the way of a record, formats; `Spec/Logging.lean`: which loggers are above which, what a call asks for | handlers and levels of every logger after any history of calls (induction over the calls; adding a handler twice changes nothing); a record meets them in the chain of names above, which has no repetitions; so lines are counted per call and chosen logger; lines are taken apart at the first blanks |
| C112 | `Py/Repr`: repr of strings, words, lists and dicts; `Model/Repr`: the object with its slots and `_extra`, `__repr__`, copies; `Spec/Repr.lean`: what is assumed of the text of numbers | a quoted string is read back one character at a time, so it ends where it ends; values are followed by a comma or bracket that no word contains; slots have different names, so the list of items determines which are there; events are told by level and read with C111_lines |
| C113 | no new model: `writeResourceList` and `baselineOrAudit` composed; `Spec/Chain.lean`: what is at a place on a disk as a directory tree | one hop from C50 and C78, with the entry of a file at a whole microsecond exact (`EntryFor.exact`); truncating a whole second changes nothing, so after one hop a hop is the identity on files; induction on the chain |
| C114 | no new model; `Spec/Order.lean`: a directory tree with its entries in another order | the dictionary that a scan builds is known by its lookups (C40, C42), and listings of dictionaries with equal lookups are equal since they are sorted; comparison the same way; for syncs a relation between two runs on disks with equal lookups, kept by every step |
| C115 | no new model; `Spec/DocOrder.lean`: the same documents with entries in another order | parsing is a fold of steps that commute up to equality of lookups, so it is invariant under permutation; components of an index are read in URI order; the capability looked up is the one with the least URI; then as for C114 |
| C116 | no new model | at most one of bases that are apart covers a string, so the first match does not depend on the order; scan and comparison as for C114, every step of the run asks the mapper about one URI only |
| C117 | no new model; `Spec/ChangeOrder` | pruning is described per URI by the first and the last entry about it; first and last changes, hence what the list records (C85), are the same for both lists; the run by C85's lemmas, the time by uniqueness of the largest |
| C118 | no new model; `Spec/Resume` | an incremental sync overwrites or deletes what the list is about, so only two things matter of what there is before it: files no change is about, and no file where something has come and gone; both, and room for the places, are invariants of every effect and of part of one; induction over the attempts; negation for lists that have grown |
| C119 | no new model; `Spec/OptionOrder` | the digests set and the names excluded depend on membership only (C65), so two builders give the same list; every step of a run commutes with replacing the types asked for |
| C120 | no new model; `Spec/PruneAgain` | by C25 the result is the last entry of each URI without those created first and deleted last; the last entry of a URI decides the effect; division into parts by `keepLast (a ++ b)` |
| C121 | no new model; `Spec/Locality` | two runs side by side as for C114, but the disks agree only at the places near the destinations: every step looks only there (`LooksIn`, `FileOn`), and scans of the destinations (C79) see the same |
| C122 | no new model (runs with their log, `Model/ClientLog`); `Spec/DryRun`: announcements, and what it is to carry them out | both runs share the plan; for each loop the announcements of the dry run are the list of deeds for its resources, and the effects of the real run are made up of one part for each deed (`DoesInTurn`), by induction over the loop |
| C123 | no new model; `Spec/Postpone`: a run that does the same as another one and removes some more files | the two runs share the plan and the downloads; the loop over the surplus files goes at the same pace in both (same times seen), one of them removing files (`deletions_apace`); second part: by C51's result for several sites the later run fetches nothing and removes the same files |
| C124 | no new model; `Spec/Separate`: jobs (client, settings, destinations), what they leave, separate ones | the state file has no influence on the disk (`withState_disk`, by induction over the loops); every effect of a sync is inside its destinations, or makes a directory that is there already (`leaves_outside`); then C121 for the second sync. That the destinations exist is assumed, as the first sync may otherwise make directories on the way to those of the second one |
| C125 | no new model; `Spec/Tries`: a run that is another one or goes on where that has given up; at least one try and failures not ignored, both needed (C125_no_tries, C125_ignored) | induction over the tries (`getLoop_more`), then along the loops of the run: what goes on does so through whatever comes next (`GoesOn.next`); C125_no_tries shows that at least one try is needed |
| C126 | no new model; `Spec/Lenient`: a run that is another one or goes past the failure that ended it | along the loops of the run as for C125; for what has been requested (C126_all_requested, C126_all_changes_requested) every element of a loop that ends well has been worked on (`forEach_each`), and the loops are over exactly what is missing or outdated (`compares_sets_at`, C77), or over the last changes (`last_selected`, C54); with failures ignored no round of a loop ends with a FatalError (C126_fatal_first) |
| C127 | no new model; `Spec/Refusal`: a run that is another one or has been refused before anything was done | what the strict check accepts the lax one accepts (`checkAuthority_lax`, `checkChangeAuthority_lax`), and apart from the check the settings are not looked at; C52 and C53 say what is refused |

Not expressible in this model (and not claimed): performance, the wording of log output other than status lines, the XML
library's checking and entity handling, TLS/HTTP semantics, floating point rounding other than in C93.

## 4. Disagreements between code and claim

Each is proved by the theorem named. Where there is no theorem the item was noticed while modelling, and is outside the model or of little consequence.

Mapping and authority
* Mapping bases are used as regular expressions without escaping (C03_violated), so files written below a directory with a plus sign in its name are not
  found again (C02_violated); `$` also matches before a final line feed, so a name that ends in one is taken for the base (C01_line_feed_violated); of several trailing slashes one is removed (C04), and one hides a duplicate (C05); mixed relative and absolute
  paths defeat the safety check (C06); `..` in URIs leads out of the destination (C07).
* Strict authority compares paths as text, so `/a` covers `/ab` (C10). Every https URI counts as a local file when an index is read (C31_https_violated).
  For an index read from a server the components' authority is not checked (C72_violated).

Times, resources and lists
* A newline after a datetime is accepted (C12); UTC offsets are added instead of subtracted (C13).
* `equal` with its default delta is not reflexive (C16). A list is its own iterator (C24, C67).
* Deletions are not followed (C106): the change list that the publisher makes gives a deleted file the time at which it was last modified, and a client that starts from its stored time – the latest of the times it has seen – leaves out everything older. Unless the newest file of all is deleted, the file stays at the destination (C106_deleted_stays_violated for every directory, C106_violated for one).
* Only the first call on a list over a generator gives the items (C107): a second as_xml() or write() gives a document without entries and no error, and of components asked for one after the other the second has lost the items that the first took. (examples/sitemapindex_and_generator.py makes a new list for each call, but asks for component 0 every time.)
* At, completed, from and until of entries are written and not read (C33_times_violated). A list used before accepts a document without capability (C36). White space around a URI in a document becomes part of the URI, and around a datetime it is a ValueError (C103_space_violated).
* Limit 1 puts two entries into a component (C28, C29); lists `x` and `x.xml` share component names (C30); rewriting in place mixes old and new (C32), so that the old index has wrong checksums (C102_rewrite_violated); the library never compares the checksums of components when it reads an index.
* `index_only` returns the sitemaps as resources, although the comment says none (C72_index_only_violated), and `read_reference_resource_list` uses it when several files are not allowed.
* The copy made by `Resource(resource=r)` shares the list of links with `r` (C92_violated; everything else is separate), and containers keep the md and ln they are given; changes to one are changes to the other.
* `r.hash = None` clears the digests. The comment in hashes.py says base64; hex digests are computed.
* An index of a ChangeList cannot be read, nor one of a SourceDescription; the latter cannot be written either (C75_violated).

Dumps and scans
* Packages may exceed max_size (C39); paths in a dump may start with `..`, and may collide with the manifest's name (C40). With WARC packages, writing always ends with an exception (`self.logging`; a DumpError without the library), after at most one package, whose records hold the paths of the files instead of their contents (C38_warc_violated).
* Special files and overlapping mappings break the scan (C42). For a start path that is a file the exclusion patterns are tried on the whole path; a name that cannot be mapped raises an error nothing catches. A bad exclude pattern stays in the builder: every later call of add_exclude_patterns fails, too, and patterns after the bad one have no effect (C42_bad_pattern).
* One file name that XML cannot express makes the published list unreadable (C73_violated). Published change lists have no datetime and are refused by every incremental sync (C74_violated).

State
* Sites whose names differ only in punctuation or case share their state (C44); the empty name destroys the file (C43); updates are neither locked nor atomic (C45).

Client
* A dry run creates directories and moves the state (C47). A failed transfer destroys the local copy (C59).
* A file with the listed time and length is never fetched, whatever its content (C50); the requested hash types are pruned the wrong way round, so digests never decide (C57), and incremental sync fails with them.
* Resources without lastmod are always fetched again (C51). URIs not in normal form are fetched and then deleted (C50_violated_uri).
* Unauthorised sources are accepted if there is nothing to do (C52). An explicit change list URI turns the check off (C53).
* Resources first created and last deleted among the selected changes are pruned although the local file exists (C54). As changes at exactly the stored time are selected again, a resource whose creation was the last thing
  an earlier sync has seen is never deleted (C86_violated, after a baseline sync C87_violated). Ignored failures, failed or disallowed deletions and lastmod after datetime make the state pass over changes (C55).
  Entries with lastmod only are refused (C56). The stored time may come from a file that is not in the list (C60).
* A symbolic link in a destination directory is passed over by the scan and followed by open(): the file it leads to, anywhere, is overwritten, and the sync is reported to have succeeded (C108_violated).
* Command lines (C110): options cannot stand between the mapping arguments, `resync-sync URI --baseline PATH` is refused for all of them (argparse fills `nargs='*'` with the first block); `--change` and `--capability` are refused as ambiguous although the strings they begin are two spellings of one option. resync-explorer takes nine or more options that have no effect on it, `--max-sitemap-entries` and `--changelist-uri` among them.
* Logging (C111): that a fetched file has not the length or digest stated is logged as information, although `check_hashes` is said to show a warning, so without `--verbose` the console of such a sync is that of a perfect one; `--eval` and `--logfile` without `--logger` do nothing; a second call of `init_logging`, or an extra logger below `resync`, shows messages twice; the value of a `capability` attribute is written to the log as it is, and with a newline in it a source can make up lines of the log.
* Representation (C112): `__repr__` is said to include only attributes with values that are not None, but copying a resource, as is done for every event of a sync, sets the five extra attributes to None, and they are shown; so a resource and its copy, equal in all attributes, have different representations.
* Digests of downloaded files are never compared: `check_hashes` looks at the types that are both in `self.hashes` and in the list, and `prune_hashes` has removed just these. A corrupted download of the right length is logged as a success, whatever `--hash` says (C109_hashes_violated, for all runs). With `--tries -1` nothing is fetched, and the log and the times of the files say it was (C109_violated).
* A status file below the destination is a stray file like any other, and is deleted by the next sync.
* Discovery strips characters, not a prefix, from file URIs (C61).
* The status lines of incremental syncs always end with NO CHANGES and begin with CHANGES APPLIED; SYNCED is printed after dry runs and ignored failures (C77).
* Files are created before others are deleted, so a file that has become a directory at the source stops every sync (C79_violated).
* The time stored at the end of a sync is then printed in a log message; for a time after the year 9999 this raises an error nothing catches, when all has been done (C79_late_time_violated). Times like this come from
  offsets that are added (C13) and from files on the disk. Hence the hypotheses on times in C55, C56, C78–C80 and C85–C87.
* A stray local file with a time in the future advances the stored time, also when it is not to be deleted (C60): changes before that time are passed over.
* A sync that fetches a new resource and is ended before it records its time leaves the file. If the resource is deleted before the next sync, that one drops both entries, and
  the file stays (C118_violated). While the change list stays as it is, the next sync repairs everything (C118_same_list).
* `prune_dupes` drops a URI that is first created and last deleted, also for a collection which already has the resource (C120_effect_violated). A list that is pruned, extended and pruned again may lose a deletion:
  deleted, created (pruned here), deleted leaves nothing (C120_piecewise_violated).
* After a file that cannot be opened a `Hashes` object that is used again holds the digests of no content, not those of the file before (C65_after_failure).
* Files are written in place. If a sync is ended while it writes a file and the list has no lengths, the beginning of a file is taken for the whole by all later syncs when the resource had just changed (C97_violated).
* Local names are made into URLs without quoting: a list written to `list#1.xml` is read back from `list`, a `%41` in a name is read as `A`, `a:b.xml` is not taken as a file, and copying a directory by `file://` URIs gives the file `a#b` the content of `a` (C100_violated).
* Two syncs at the same time, the one that has opened a file last is killed: the other goes on writing at its position, finishes with success, and leaves a file of the right length and time with zeros in it, which all later syncs take as in sync (C99_violated).
* The bearer token is sent to every host, and with requests for local files (C62_token states what is sent). `tries` = 0 raises an error nothing catches (C58 covers it as no update).
* Capabilities unknown to the specification are listed in insertion order (C63). In `--link`, a later `href=` replaces the given one (C64).

Explorer
* `b` is accepted where it is not offered (C66_back). Up and index links of lists are examined with HEAD instead of read (C69). For resources at URIs `response.code()` raises (C70). A time that cannot be written ends the exploration (C71).
* An index of source descriptions is called unknown, because of the misspelt 'descriptionoindex' (C88_unknown_violated). Following an up link warns about the document it rightly leads to (C88_up_violated).
* With an invalid `fake_input` (a test aid) the prompt repeats for ever.

Programs
* A published change list gives a deleted resource the time of its last modification before the deletion. A client that goes by version 1.0
  skips the entry if it has stored a later time, so the copy is never deleted (C91_deletion_violated); by version 1.1 it fails (C74_violated).
* A time within 2.5 hours of the start of 1970 may come back from its text as a neighbouring double: 1.753753 is written as it should be and read
  as 1.7537530000000001 (C93_violated: the seconds and the fraction are converted separately and added). Written again it gives the same text.
* `Dump.write` leaves the paths of the resources as paths in the archives. Writing the dump again fails, or packs files of the same names in the current
  directory (C94_dump_violated, C94_dump_wrong_file_violated). Writing a large list changes the address of an index link of it (C94_list_violated).
* `--parse --verbose` shows the entries in the order of the document and says that they are sorted by URI (C90_order_violated).
* `--exclude` has no effect in resync-sync; `--checksum` without `--hash` raises AttributeError; a negative `--delay` raises an error outside the argument parser; `--tries 0`, `--max-sitemap-entries 0` are ignored (C80).
* `--dryrun` has no effect in resync-build. `--write-changelist` always prints "OOPS - FIXME - Wrinting dump to False not yet implemented" after the document; `--write-changedump` writes a change list (C81).
* After a fatal error (also a failed download) the exit status is 0; resync-explorer takes no mapping, and without `--sitemap` it always ends this way (C82).
* A change list in several documents can be written and not read: entries of the index have no change type, which the reader refuses (C83_violated).
* Archives, change lists and their manifests, source descriptions and capability lists write indexes that they cannot read; constructors of dumps and manifests drop allow_multifile (C84).
