import Verif.Model.Client
import Verif.Model.ClientWrite
import Verif.Model.ClientUtils
import Verif.Model.Explorer
/-
Model of the three programs /repo/resync-sync, /repo/resync-build and /repo/resync-explorer, of
client_utils.py 209-222 `process_shared_misc_options`, and of reading a change list (change_list.py 43-54 with
list_base_with_index.py 78-142).

The programs are modelled from the result of argparse's parse_args on (argparse itself is trusted: an option that is not
given is None or False, exactly one of the mode options is given).  Simplifications: logging is left out, and so are the
options that only affect it (--logger, --logfile, --eval, --verbose) and --timeout, which is handed on to urlopen;
numbers given for --max-sitemap-entries are not negative; the values of --spec-version are not restricted to those argparse
accepts.
-/

namespace Resync
open Py

/-- How a program ends -/
inductive Exit
  /-- main() returns -/
  | done
  /-- main() catches a ClientFatalError, prints `FatalError: ...` and returns -/
  | fatal
  /-- parser.error: usage message and sys.exit(2) -/
  | usage
  /-- any other exception: traceback -/
  | crash
deriving DecidableEq, Repr

/-- The exit status the shell sees; Python's rules for the end of the main module -/
def Exit.status : Exit → Nat
  | .done => 0
  | .fatal => 0
  | .usage => 2
  | .crash => 1

/-- the options of client_utils.py 166-206 `add_shared_misc_options` -/
structure SharedArgs where
  hash : Option (List Str) := none
  checksum : Bool := false
  from_datetime : Option Str := none
  exclude : Option (List Str) := none
  multifile : Bool := false
  noauth : Bool := false
  access_token : Option Str := none
  /-- in the ticks of OpenConfig -/
  delay : Option Int := none
  spec_version : Str := "1.1".toList
deriving DecidableEq, Repr

/-- An option's value, None if it is empty (Python's truth value of None and of strings) -/
def given : Option Str → Option Str
  | some [] => none
  | x => x

/-- client_utils.py 214-215: the value of args.hash afterwards.  `none`: AttributeError from `None.append`. -/
def hashOption (a : SharedArgs) : Option (Option (List Str)) :=
  if a.checksum then
    match a.hash with
    | none => none
    | some h => some (some (h ++ ["md5".toList]))
  else some a.hash

/-- client_utils.py 217-218 -/
def tokenSettings (token : Option Str) : List OpenOp :=
  match given token with
  | none => []
  | some t => [.setToken (some t)]

/-- client_utils.py 209-222 `process_shared_misc_options`: the value of args.hash afterwards and the settings made for
requests.  `none`: AttributeError or ArgumentTypeError, which nobody catches. -/
def processShared (a : SharedArgs) (include_remote : Bool) : Option (Option (List Str) × List OpenOp) :=
  match hashOption a with
  | none => none
  | some hash =>
    if include_remote then
      let tok := tokenSettings a.access_token
      match a.delay with
      | none => some (hash, tok)
      | some d =>
        if d = 0 then some (hash, tok)
        else if d < 0 then none
        else some (hash, tok ++ [.setDelay (some d.toNat)])
    else some (hash, [])

/-- `if (args.map): c.set_mappings(args.map)`; client.py 45-52 and 73-75 -/
def mappings (uw : Char → Bool) (map : List Str) : Except MapErr Mapper :=
  if map = [] then .ok [] else Mapper.parse uw map true

/-! ## resync-sync -/

inductive SyncMode
  | baseline
  | incremental
  | audit
  | parse
deriving DecidableEq, Repr

/-- the options of resync-sync 34-104 that have an effect there -/
structure SyncArgs extends SharedArgs where
  mode : SyncMode
  map : List Str := []
  sitemap : Option Str := none
  capabilitylist : Option Str := none
  changelist_uri : Option Str := none
  delete : Bool := false
  strictauth : Bool := false
  dryrun : Bool := false
  ignore_failures : Bool := false
  max_sitemap_entries : Option Nat := none
  tries : Option Int := none
deriving DecidableEq, Repr

/-- The surroundings of resync-sync: those of the client, except for what is read, which is given as documents -/
structure SyncWorld where
  env : Env
  docAt : Str → Option Elem
  uw : Char → Bool := fun _ => false

/-- `add` of ChangeList, change_list.py 36-54, for one resource -/
def clAdd (l : List Resource) (r : Resource) : Except SmErr (List Resource) :=
  if r.change.isSome then .ok (l ++ [r]) else .error .changeType

/-- list_base_with_index.py 78-142 `read` of a ChangeList.  An index cannot be read: its entries are kept in a list, which
has no method `uris` (AttributeError). -/
def readChangeList (docAt : Str → Option Elem) (uri : Str) : Option (List Resource) :=
  match docAt uri with
  | none => none
  | some root =>
    match parseXml {} clAdd { resources := [] } root (some "changelist".toList) none with
    | .ok (c, parsed_index, _) => if parsed_index then none else some c.resources
    | .error _ => none

/-- resync-sync 114-142: the Client with its settings -/
def SyncArgs.client (a : SyncArgs) (uw : Char → Bool) (mapper : Mapper) : ClientCfg where
  disc := { mapper := mapper, sitemap_name := given a.sitemap, capability_list_uri := given a.capabilitylist, uw := uw }
  spec_version := a.spec_version
  dryrun := a.dryrun
  noauth := a.noauth
  strictauth := a.strictauth
  ignore_failures := a.ignore_failures
  tries := match a.tries with
    | none => 20
    | some n => if n = 0 then 20 else n.toNat

/-- what the client finds when it reads lists, given `allow_multifile` and the mapper -/
def SyncWorld.envFor (w : SyncWorld) (mapper : Mapper) (allow_multifile : Bool) : Env :=
  { w.env with
    sources := Sources.ofDocs w.docAt mapper allow_multifile w.uw
    changeList := readChangeList w.docAt }

/-- What is left after a run of resync-sync -/
structure SyncRun where
  st : St
  exit : Exit
  /-- the settings made for requests -/
  settings : List OpenOp := []
  /-- what --parse reports: the capability and the number of entries -/
  parsed : Option (Str × Nat) := none

/-- the exceptions of the client, as main() ends with them -/
def Exit.ofClient : Except ClientErr Unit → Exit
  | .ok () => .done
  | .error .fatal => .fatal
  | .error .error => .crash
  | .error .uncaught => .crash

/-- resync-sync 29-159 `main` after parse_args (line 106), with the world as it is at the start -/
def syncMain (w : SyncWorld) (a : SyncArgs) (world : World) : SyncRun :=
  let s : St := { world := world }
  match processShared a.toSharedArgs true with
  | none => { st := s, exit := .crash }
  | some (hash, settings) =>
    match mappings w.uw a.map with
    | .error _ => { st := s, exit := .crash, settings := settings }
    | .ok mapper =>
      let s := { s with hashes := hash.getD [] }
      let c := a.client w.uw mapper
      let env := w.envFor mapper (!a.multifile)
      match a.mode with
      | .baseline =>
        let r := baselineOrAudit env c a.delete false s
        { st := r.1, exit := .ofClient r.2, settings := settings }
      | .audit =>
        let r := baselineOrAudit env c a.delete true s
        { st := r.1, exit := .ofClient r.2, settings := settings }
      | .incremental =>
        let r := incremental env c a.delete a.changelist_uri a.from_datetime s
        { st := r.1, exit := .ofClient r.2, settings := settings }
      | .parse =>
        match c.disc.sitemap with
        | .error _ => { st := s, exit := .crash, settings := settings }
        | .ok sitemap =>
          match parseDocument w.docAt sitemap with
          | .error .fatal => { st := s, exit := .fatal, settings := settings }
          | .error _ => { st := s, exit := .crash, settings := settings }
          | .ok r => { st := s, exit := .done, settings := settings, parsed := some r }

/-! ## resync-build -/

inductive BuildMode
  | resourcelist
  | resourcedump
  | changelist
  | changedump
  | capabilitylist (text : Str)
  | sourcedescription (text : Str)
deriving DecidableEq, Repr

/-- the options of resync-build 34-120 -/
structure BuildArgs extends SharedArgs where
  mode : BuildMode
  map : List Str := []
  outfile : Option Str := none
  paths : Option Str := none
  reference : Option Str := none
  newreference : Option Str := none
  link : Option (List Str) := none
  describedby_link : Option Str := none
  sourcedescription_link : Option Str := none
  capabilitylist_link : Option Str := none
  empty : Bool := false
  warc : Bool := false
  dryrun : Bool := false
  max_sitemap_entries : Option Nat := none
deriving DecidableEq, Repr

/-- what a program writes to standard output -/
inductive Printed
  | doc (t : Elem)
  | line (s : Str)

/-- What resync-build leaves behind -/
structure BuildRun where
  files : List FsEff := []
  dumps : List DumpEff := []
  stdout : List Printed := []
  exit : Exit

/-- resync-build 130-146: the settings of the client.  dryrun is not among those the functions below look at. -/
def BuildArgs.client (a : BuildArgs) (mapper : Mapper) (hash : Option (List Str)) : WriteCfg where
  mapper := mapper
  hashes := hash.getD []
  exclude_patterns := a.exclude.getD []
  allow_multifile := !a.multifile
  max_sitemap_entries := match a.max_sitemap_entries with
    | none => none
    | some n => if n = 0 then none else some n
  dump_format := if a.warc then some "warc".toList else none

/-- a link as the program inserts it -/
def linkTo (rel href : Str) : Link := [("rel".toList, rel), ("href".toList, href)]

/-- `links.insert(0, ...)` if the option is given -/
def insertLink (rel : Str) (href : Option Str) (links : List Link) : List Link :=
  match given href with
  | none => links
  | some h => linkTo rel h :: links

/-- resync-build 148-163: the links of the document -/
def BuildArgs.links (a : BuildArgs) (parsed : List Link) : List Link :=
  let is_cl := match a.mode with
    | .capabilitylist t => !t.isEmpty
    | _ => false
  let is_sd := match a.mode with
    | .sourcedescription t => !t.isEmpty
    | _ => false
  let l := if !is_cl && !is_sd then insertLink "up".toList a.capabilitylist_link parsed else parsed
  let l := if is_cl then insertLink "up".toList a.sourcedescription_link l else l
  insertLink "describedby".toList a.describedby_link l

def Exit.ofWrite : Except WriteErr Unit → Exit
  | .ok () => .done
  | .error .fatal => .fatal
  | .error _ => .crash

/-- the output of a client function as that of the program -/
def BuildRun.of (r : Output × Except WriteErr Unit) : BuildRun where
  files := r.1.files
  dumps := r.1.dumps
  stdout := match r.1.printed with
    | none => []
    | some t => [.doc t]
  exit := .ofWrite r.2

/-- client.py 750-755 `write_dump_if_requested`, for the truth value that resync-build gives it: not None, so the message
is printed -/
def dumpMessage (dump : Bool) : Str :=
  "OOPS - FIXME - Wrinting dump to ".toList ++ (if dump then "True".toList else "False".toList) ++
    " not yet implemented".toList

/-- resync-build 170-180 and client.py 687-722: --write-changelist and --write-changedump -/
def buildChangeList (a : BuildArgs) (env : WriteEnv) (c : WriteCfg) (links : List Link) (dump : Bool) : BuildRun :=
  if (given a.reference).isNone ∧ ¬ a.empty then { exit := .usage }
  else
    let r := BuildRun.of (writeChangeList c env a.paths a.outfile (a.reference.getD []) (given a.newreference) a.empty
      (some links) dump)
    if r.exit = .done then { r with stdout := r.stdout ++ [.line (dumpMessage dump)] } else r

/-- resync-build 29-197 `main` after parse_args (line 122) -/
def buildMain (env : WriteEnv) (a : BuildArgs) : BuildRun :=
  match processShared a.toSharedArgs false with
  | none => { exit := .crash }
  | some (hash, _) =>
    match mappings env.uw a.map with
    | .error _ => { exit := .crash }
    | .ok mapper =>
      let c := a.client mapper hash
      match parseLinks a.link with
      | .error _ => { exit := .fatal }
      | .ok parsed =>
        let links := a.links parsed
        match a.mode with
        | .resourcelist => .of (writeResourceList c env a.paths a.outfile (some links) false)
        | .resourcedump => .of (writeResourceList c env a.paths a.outfile (some links) true)
        | .changelist => buildChangeList a env c links false
        | .changedump => buildChangeList a env c links true
        | .capabilitylist t =>
          if t = [] then { exit := .usage }
          else
            match parseCapabilities t with
            | .error _ => { exit := .fatal }
            | .ok caps => .of (writeCapabilityList (some caps) a.outfile (some links))
        | .sourcedescription t =>
          if t = [] then { exit := .usage }
          else .of (writeSourceDescription env (some (parseCapabilityLists t)) a.outfile (some links))

/-! ## resync-explorer -/

/-- the options of resync-explorer 36-65 that have an effect there; there is no way to give a mapping -/
structure ExploreArgs extends SharedArgs where
  sitemap : Option Str := none
deriving DecidableEq, Repr

/-- resync-explorer 30-95 `main` after parse_args (line 67): the documents visited and the end -/
def exploreMain (w : ExpWorld) (a : ExploreArgs) (inputs : List Str) : List Visit × Exit :=
  match processShared a.toSharedArgs true with
  | none => ([], .crash)
  | some _ =>
    match explore w { mapper := [], sitemap_name := given a.sitemap, uw := w.uw } inputs with
    | .error .fatal => ([], .fatal)
    | .error _ => ([], .crash)
    | .ok (vs, .quit) => (vs, .done)
    | .ok (vs, .done) => (vs, .done)
    | .ok (vs, _) => (vs, .crash)

end Resync
