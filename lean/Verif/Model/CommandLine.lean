import Verif.Model.Scripts
/-
Model of the command lines of the three programs: the options that /repo/resync-sync 34-104, /repo/resync-build 34-120,
/repo/resync-explorer 36-65 and client_utils.py 166-206 `add_shared_misc_options` define, and `parse_args` of Python's argparse (version
3.11) for parsers of this shape: options without a value (store_true, help) or with one (store, append), at most one positional
argument, with nargs='*', and at most one group of options of which exactly one is to be given.

Simplifications: the texts of help and error messages are left out; int() and float() on strings are parameters.
-/

namespace Resync
open Py

/-- action, type and choices of an option -/
inductive OptKind
  | flag
  | store
  | int
  | float
  | choice (cs : List Str)
  | append
  | help
deriving DecidableEq

/-- `add_argument('--x', '-y', ...)` -/
structure OptDef where
  strings : List Str
  dest : Str
  kind : OptKind
deriving DecidableEq

/-- nargs: whether the option takes a value -/
def OptDef.takes (o : OptDef) : Bool :=
  match o.kind with
  | .flag => false
  | .help => false
  | _ => true

/-- An ArgumentParser: its options, whether it has the positional argument `map`, and the `dest`s of the mutually exclusive and
required group -/
structure ParserDef where
  opts : List OptDef
  positional : Bool
  modes : List Str

/-- a value in the namespace -/
inductive ArgVal
  | yes
  | str (s : Str)
  | int (n : Int)
  | float (d : Int)
  | list (l : List Str)
deriving DecidableEq

/-- how parse_args ends otherwise: self.error (a usage message and exit status 2), or the help action (exit status 0) -/
inductive ParseEnd
  | usage
  | help
deriving DecidableEq

/-- int() and float() of a string (the latter in the ticks of OpenConfig); `none`: ValueError -/
structure Convert where
  int : Str → Option Int
  float : Str → Option Int

/-- `_option_string_actions[s]` -/
def ParserDef.find (p : ParserDef) (s : Str) : Option OptDef := p.opts.find? (fun o => s ∈ o.strings)

/-- the arguments as `_parse_known_args` classifies them: A, the first "--", and O with the result of `_parse_optional`: the option (or
none), and the text after `=` or after the letter; `eq` is whether there was an `=` -/
inductive Tok
  | arg
  | dash
  | opt (o : Option OptDef) (optString : Str) (eq : Bool) (explicit : Option Str)
deriving DecidableEq

/-- `s.partition('=')`: `none` if there is no `=` -/
def partitionEq : Str → Str × Option Str
  | [] => ([], none)
  | c :: t =>
    if c = '=' then ([], some t)
    else
      let (a, b) := partitionEq t
      (c :: a, b)

/-- `_get_option_tuples` -/
def ParserDef.optionTuples (p : ParserDef) (s : Str) : List Tok :=
  match s with
  | '-' :: '-' :: _ =>
    let (pre, explicit) := partitionEq s
    p.opts.flatMap (fun o => (o.strings.filter (fun x => startsWith x pre)).map (fun x => .opt (some o) x explicit.isSome explicit))
  | '-' :: c :: t =>
    p.opts.flatMap (fun o => o.strings.filterMap (fun x =>
      if x = ['-', c] then some (.opt (some o) x false (some t))
      else if startsWith x s then some (.opt (some o) x false none) else none))
  | _ => []

/-- `_negative_number_matcher`: `^-\d+$|^-\d*\.\d+$`.  Simplified: \d stands for the ASCII digits, and a line feed at the end is not
accepted. -/
def negativeNumber (s : Str) : Bool :=
  match s with
  | '-' :: t =>
    let d := t.takeWhile isDigit
    let r := t.dropWhile isDigit
    (r.isEmpty && !d.isEmpty) || (match r with
      | '.' :: f => !f.isEmpty && f.all isDigit
      | _ => false)
  | _ => false

/-- `_parse_optional`, for what is no string of an option -/
def ParserDef.parseBegun (p : ParserDef) (s : Str) : Except ParseEnd Tok :=
  match p.optionTuples s with
  | _ :: _ :: _ => .error .usage
  | [t] => .ok t
  | [] => if negativeNumber s then .ok .arg else if ' ' ∈ s then .ok .arg else .ok (.opt none s false none)

/-- `_parse_optional` -/
def ParserDef.parseOptional (p : ParserDef) (s : Str) : Except ParseEnd Tok :=
  match s with
  | '-' :: rest =>
    match p.find s with
    | some o => .ok (.opt (some o) s false none)
    | none =>
      if rest = [] then .ok .arg
      else
        match partitionEq s with
        | (pre, some v) =>
          match p.find pre with
          | some o => .ok (.opt (some o) pre true (some v))
          | none => p.parseBegun s
        | _ => p.parseBegun s
  | _ => .ok .arg

/-- the first loop of `_parse_known_args`: classification -/
def ParserDef.classify (p : ParserDef) : List Str → Except ParseEnd (List (Str × Tok))
  | [] => .ok []
  | s :: rest =>
    if s = ['-', '-'] then .ok ((s, .dash) :: rest.map (fun x => (x, .arg)))
    else
      match p.parseOptional s with
      | .error e => .error e
      | .ok t =>
        match p.classify rest with
        | .error e => .error e
        | .ok ts => .ok ((s, t) :: ts)

/-- What an argument that is an option stands for: the options with their values, what is not recognised, and whether the next
argument is used -/
structure Taken where
  acts : List (OptDef × Option Str)
  extras : List Str := []
  next : Bool := false

/-- `consume_optional`: an option without a value of its own; `next` is the argument that follows, if it is one -/
def takeNext (o : OptDef) (next : Option Str) : Except ParseEnd Taken :=
  if o.takes then
    match next with
    | some v => .ok { acts := [(o, some v)], next := true }
    | none => .error .usage
  else .ok { acts := [(o, none)] }

/-- `consume_optional`: an option with a value after `=` -/
def takeEq (o : OptDef) (v : Str) : Except ParseEnd Taken :=
  if o.takes then .ok { acts := [(o, some v)] } else .error .usage

/-- `consume_optional`: a letter option with text behind it: a value, or more letters -/
def ParserDef.takeLetters (p : ParserDef) (next : Option Str) : OptDef → Str → Except ParseEnd Taken
  | o, [] => takeEq o []
  | o, c :: t =>
    if o.takes then .ok { acts := [(o, some (c :: t))] }
    else if c = '-' then .error .usage
    else
      match p.find ['-', c] with
      | none => .ok { acts := [(o, none)], extras := ['-' :: c :: t] }
      | some o' =>
        let r := match t with
          | [] => takeNext o' next
          | '=' :: v => takeEq o' v
          | _ => p.takeLetters next o' t
        match r with
        | .error e => .error e
        | .ok r => .ok { r with acts := (o, none) :: r.acts }

/-- `consume_optional` -/
def ParserDef.take (p : ParserDef) (next : Option Str) (o : OptDef) (optString : Str) (eq : Bool) (explicit : Option Str) :
    Except ParseEnd Taken :=
  match explicit with
  | none => takeNext o next
  | some v =>
    if eq ∨ startsWith optString ['-', '-'] then takeEq o v
    else p.takeLetters next o v

/-- the state of the second loop: the namespace, the modes seen, the positional arguments (`none`: not yet begun; the flag:
whether more can follow), and what is not recognised -/
structure ArgSt where
  ns : Dict ArgVal := []
  seen : List Str := []
  map : List Str := []
  /-- the arguments of `map` are complete -/
  closed : Bool := false
  extras : List Str := []

/-- `_get_values` and the action of an option -/
def OptDef.value (cv : Convert) (o : OptDef) (ns : Dict ArgVal) (v : Option Str) : Except ParseEnd ArgVal :=
  match o.kind with
  | .flag => .ok .yes
  | .help => .error .help
  | .store => .ok (.str (v.getD []))
  | .int => match cv.int (v.getD []) with
    | some n => .ok (.int n)
    | none => .error .usage
  | .float => match cv.float (v.getD []) with
    | some d => .ok (.float d)
    | none => .error .usage
  | .choice cs => if v.getD [] ∈ cs then .ok (.str (v.getD [])) else .error .usage
  | .append => match dget ns o.dest with
    | some (.list l) => .ok (.list (l ++ [v.getD []]))
    | _ => .ok (.list [v.getD []])

/-- `take_action` -/
def ParserDef.act (p : ParserDef) (cv : Convert) (s : ArgSt) (a : OptDef × Option Str) : Except ParseEnd ArgSt :=
  match a.1.value cv s.ns a.2 with
  | .error e => .error e
  | .ok v =>
    if a.1.dest ∈ p.modes ∧ ∃ m ∈ s.seen, m ≠ a.1.dest then .error .usage
    else .ok { s with ns := dset s.ns a.1.dest v, seen := if a.1.dest ∈ p.modes then a.1.dest :: s.seen else s.seen }

/-- the argument after an option, if it is not an option -/
def nextArg : List (Str × Tok) → Option Str
  | (v, .arg) :: _ => some v
  | _ => none

/-- the second loop of `_parse_known_args`.  `closed` is set by the first option after positional arguments. -/
def ParserDef.loop (p : ParserDef) (cv : Convert) : List (Str × Tok) → ArgSt → Except ParseEnd ArgSt
  | [], s => .ok s
  | (a, .arg) :: rest, s =>
    p.loop cv rest (if s.closed then { s with extras := s.extras ++ [a] } else { s with map := s.map ++ [a] })
  | (a, .dash) :: rest, s =>
    p.loop cv rest (if s.closed then { s with extras := s.extras ++ [a] } else s)
  | (a, .opt o str eq explicit) :: rest, s =>
    let s := if s.map = [] then s else { s with closed := true }
    match o with
    | none => p.loop cv rest { s with extras := s.extras ++ [a] }
    | some o =>
      match p.take (nextArg rest) o str eq explicit with
      | .error e => .error e
      | .ok t =>
        match t.acts.foldlM (p.act cv) { s with extras := s.extras ++ t.extras } with
        | .error e => .error e
        | .ok s =>
          match rest with
          | [] => .ok s
          | x :: rest' => if t.next then p.loop cv rest' s else p.loop cv (x :: rest') s

/-- `parse_args`: the namespace and the positional arguments -/
def ParserDef.parse (p : ParserDef) (cv : Convert) (argv : List Str) : Except ParseEnd (Dict ArgVal × List Str) :=
  match p.classify argv with
  | .error e => .error e
  | .ok toks =>
    match p.loop cv toks { closed := !p.positional } with
    | .error e => .error e
    | .ok s =>
      if p.modes ≠ [] ∧ s.seen = [] then .error .usage
      else if s.extras ≠ [] then .error .usage
      else .ok (s.ns, s.map)

/-! ### The definitions of the options -/

def opt (strings : List Str) (dest : Str) (kind : OptKind) : OptDef := ⟨strings, dest, kind⟩

/-- argparse's own option -/
def helpOption : OptDef := opt ["-h".toList, "--help".toList] "help".toList .help

/-- client_utils.py 166-206 `add_shared_misc_options` -/
def sharedOptions (include_remote : Bool) : List OptDef :=
  [opt ["--hash".toList] "hash".toList .append,
   opt ["--checksum".toList] "checksum".toList .flag,
   opt ["--from".toList] "from_datetime".toList .store,
   opt ["--exclude".toList] "exclude".toList .append,
   opt ["--multifile".toList, "-m".toList] "multifile".toList .flag] ++
  (if include_remote then
    [opt ["--noauth".toList] "noauth".toList .flag,
     opt ["--access-token".toList] "access_token".toList .store,
     opt ["--delay".toList] "delay".toList .float]
   else []) ++
  [opt ["--logger".toList, "-l".toList] "logger".toList .flag,
   opt ["--logfile".toList] "logfile".toList .store,
   opt ["--spec-version".toList] "spec_version".toList (.choice ["1.0".toList, "1.1".toList]),
   opt ["--verbose".toList, "-v".toList] "verbose".toList .flag]

/-- resync-sync 34-104 -/
def syncParser : ParserDef where
  opts :=
    [helpOption,
     opt ["--baseline".toList, "-b".toList] "baseline".toList .flag,
     opt ["--incremental".toList, "--inc".toList, "-i".toList] "incremental".toList .flag,
     opt ["--audit".toList, "-a".toList] "audit".toList .flag,
     opt ["--parse".toList, "-p".toList] "parse".toList .flag,
     opt ["--sitemap".toList] "sitemap".toList .store,
     opt ["--capabilitylist".toList, "--capability-list".toList] "capabilitylist".toList .store,
     opt ["--reference".toList] "reference".toList .store,
     opt ["--newreference".toList] "newreference".toList .store,
     opt ["--changelist-uri".toList, "--change-list-uri".toList] "changelist_uri".toList .store] ++
    sharedOptions true ++
    [opt ["--delete".toList] "delete".toList .flag,
     opt ["--empty".toList] "empty".toList .flag,
     opt ["--strictauth".toList] "strictauth".toList .flag,
     opt ["--dryrun".toList, "-n".toList] "dryrun".toList .flag,
     opt ["--ignore-failures".toList] "ignore_failures".toList .flag,
     opt ["--max-sitemap-entries".toList] "max_sitemap_entries".toList .int,
     opt ["--eval".toList, "-e".toList] "eval".toList .flag,
     opt ["--tries".toList, "-t".toList] "tries".toList .int,
     opt ["--timeout".toList, "-T".toList] "timeout".toList .int]
  positional := true
  modes := ["baseline".toList, "incremental".toList, "audit".toList, "parse".toList]

/-- resync-build 34-120 -/
def buildParser : ParserDef where
  opts :=
    [helpOption,
     opt ["--write-resourcelist".toList, "--write-resource-list".toList] "write_resourcelist".toList .flag,
     opt ["--write-changelist".toList, "--write-change-list".toList] "write_changelist".toList .flag,
     opt ["--write-capabilitylist".toList, "--write-capability-list".toList] "write_capabilitylist".toList .store,
     opt ["--write-sourcedescription".toList, "--write-source-description".toList] "write_sourcedescription".toList .store,
     opt ["--write-resourcedump".toList, "--write-resource-dump".toList, "-d".toList] "write_resourcedump".toList .flag,
     opt ["--write-changedump".toList, "--write-change-dump".toList] "write_changedump".toList .flag,
     opt ["--outfile".toList] "outfile".toList .store,
     opt ["--paths".toList] "paths".toList .store,
     opt ["--reference".toList] "reference".toList .store,
     opt ["--newreference".toList] "newreference".toList .store,
     opt ["--link".toList] "link".toList .append,
     opt ["--describedby-link".toList] "describedby_link".toList .store,
     opt ["--sourcedescription-link".toList, "--source-description-link".toList] "sourcedescription_link".toList .store,
     opt ["--capabilitylist-link".toList, "--capability-list-link".toList] "capabilitylist_link".toList .store] ++
    sharedOptions false ++
    [opt ["--empty".toList] "empty".toList .flag,
     opt ["--warc".toList] "warc".toList .flag,
     opt ["--dryrun".toList, "-n".toList] "dryrun".toList .flag,
     opt ["--max-sitemap-entries".toList] "max_sitemap_entries".toList .int,
     opt ["--eval".toList, "-e".toList] "eval".toList .flag]
  positional := true
  modes := ["write_resourcelist".toList, "write_changelist".toList, "write_capabilitylist".toList, "write_sourcedescription".toList,
    "write_resourcedump".toList, "write_changedump".toList]

/-- resync-explorer 36-65 -/
def exploreParser : ParserDef where
  opts :=
    [helpOption,
     opt ["--outfile".toList] "outfile".toList .store,
     opt ["--paths".toList] "paths".toList .store,
     opt ["--sitemap".toList] "sitemap".toList .store,
     opt ["--reference".toList] "reference".toList .store,
     opt ["--newreference".toList] "newreference".toList .store,
     opt ["--dump".toList] "dump".toList .store,
     opt ["--changelist-uri".toList, "--change-list-uri".toList] "changelist_uri".toList .store,
     opt ["--max-sitemap-entries".toList] "max_sitemap_entries".toList .int] ++
    sharedOptions true
  positional := false
  modes := []

/-! ### The namespace as the programs use it -/

/-- `args.x` of an option with store_true -/
def argFlag (ns : Dict ArgVal) (d : Str) : Bool :=
  match dget ns d with
  | some .yes => true
  | _ => false

/-- `args.x` of an option with a string -/
def argStr (ns : Dict ArgVal) (d : Str) : Option Str :=
  match dget ns d with
  | some (.str s) => some s
  | _ => none

def argInt (ns : Dict ArgVal) (d : Str) : Option Int :=
  match dget ns d with
  | some (.int n) => some n
  | _ => none

def argFloat (ns : Dict ArgVal) (d : Str) : Option Int :=
  match dget ns d with
  | some (.float n) => some n
  | _ => none

def argList (ns : Dict ArgVal) (d : Str) : Option (List Str) :=
  match dget ns d with
  | some (.list l) => some l
  | _ => none

/-- the shared options -/
def sharedArgs (ns : Dict ArgVal) : SharedArgs where
  hash := argList ns "hash".toList
  checksum := argFlag ns "checksum".toList
  from_datetime := argStr ns "from_datetime".toList
  exclude := argList ns "exclude".toList
  multifile := argFlag ns "multifile".toList
  noauth := argFlag ns "noauth".toList
  access_token := argStr ns "access_token".toList
  delay := argFloat ns "delay".toList
  spec_version := (argStr ns "spec_version".toList).getD "1.1".toList

/-- resync-sync 106: the options as main() uses them; a negative --max-sitemap-entries has no effect there -/
def syncArgs (ns : Dict ArgVal) (map : List Str) : SyncArgs where
  toSharedArgs := sharedArgs ns
  mode :=
    if argFlag ns "baseline".toList then .baseline
    else if argFlag ns "audit".toList then .audit
    else if argFlag ns "incremental".toList then .incremental
    else .parse
  map := map
  sitemap := argStr ns "sitemap".toList
  capabilitylist := argStr ns "capabilitylist".toList
  changelist_uri := argStr ns "changelist_uri".toList
  delete := argFlag ns "delete".toList
  strictauth := argFlag ns "strictauth".toList
  dryrun := argFlag ns "dryrun".toList
  ignore_failures := argFlag ns "ignore_failures".toList
  max_sitemap_entries := (argInt ns "max_sitemap_entries".toList).map Int.toNat
  tries := argInt ns "tries".toList

/-- resync-build 122: the options as main() uses them.  A negative --max-sitemap-entries is not modelled: it is taken for 0. -/
def buildArgs (ns : Dict ArgVal) (map : List Str) : BuildArgs where
  toSharedArgs := sharedArgs ns
  mode :=
    if argFlag ns "write_resourcelist".toList then .resourcelist
    else if argFlag ns "write_resourcedump".toList then .resourcedump
    else if argFlag ns "write_changelist".toList then .changelist
    else if argFlag ns "write_changedump".toList then .changedump
    else match argStr ns "write_capabilitylist".toList with
      | some t => .capabilitylist t
      | none => .sourcedescription ((argStr ns "write_sourcedescription".toList).getD [])
  map := map
  outfile := argStr ns "outfile".toList
  paths := argStr ns "paths".toList
  reference := argStr ns "reference".toList
  newreference := argStr ns "newreference".toList
  link := argList ns "link".toList
  describedby_link := argStr ns "describedby_link".toList
  sourcedescription_link := argStr ns "sourcedescription_link".toList
  capabilitylist_link := argStr ns "capabilitylist_link".toList
  empty := argFlag ns "empty".toList
  warc := argFlag ns "warc".toList
  dryrun := argFlag ns "dryrun".toList
  max_sitemap_entries := (argInt ns "max_sitemap_entries".toList).map Int.toNat

/-- `resync-sync argv` -/
def syncCommand (w : SyncWorld) (cv : Convert) (argv : List Str) (world : World) : SyncRun :=
  match syncParser.parse cv argv with
  | .error .usage => { st := { world := world }, exit := .usage }
  | .error .help => { st := { world := world }, exit := .done }
  | .ok (ns, map) => syncMain w (syncArgs ns map) world

/-- `resync-build argv` -/
def buildCommand (env : WriteEnv) (cv : Convert) (argv : List Str) : BuildRun :=
  match buildParser.parse cv argv with
  | .error .usage => { exit := .usage }
  | .error .help => { exit := .done }
  | .ok (ns, map) => buildMain env (buildArgs ns map)

/-- resync-explorer 67: the options as main() uses them -/
def exploreArgs (ns : Dict ArgVal) : ExploreArgs where
  toSharedArgs := sharedArgs ns
  sitemap := argStr ns "sitemap".toList

/-- `resync-explorer argv`, with what the user types; it takes no mapping arguments -/
def exploreCommand (w : ExpWorld) (cv : Convert) (argv : List Str) (inputs : List Str) : List Visit × Exit :=
  match exploreParser.parse cv argv with
  | .error .usage => ([], .usage)
  | .error .help => ([], .done)
  | .ok (ns, _) => exploreMain w (exploreArgs ns) inputs

end Resync
