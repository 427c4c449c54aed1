import Verif.Model.Builder
import Verif.Model.ListIndex
import Verif.Model.ChangeList
import Verif.Model.CapabilityList
import Verif.Model.Dump
/-
Model of the functions of /repo/resync/client.py that write documents (lines 203-238 and 622-789), of
source_description.py, and of ListBase.write and as_xml of list_base.py.

Simplifications: log messages and the verbose listings are left out, as is pretty_xml (white space between elements);
what is printed is given as the document tree; the times of the scan are given by the environment.
-/

namespace Resync
open Py

/-- Exceptions of the functions below and of what they call -/
inductive WriteErr
  /-- ClientFatalError -/
  | fatal
  | build (e : BuildErr)
  | lb (e : LbErr)
  | list (e : ListErr)
  | dump (e : DumpErr)
deriving DecidableEq, Repr

/-- client.py 45-72: the settings that the functions writing documents use -/
structure WriteCfg where
  mapper : Mapper
  hashes : List Str := []
  exclude_patterns : List Str := []
  allow_multifile : Bool := true
  max_sitemap_entries : Option Nat := none
  dump_format : Option Str := none
  default_resource_dump : Str := "resourcedump.zip".toList

/-- The surroundings: the disk that is scanned, the times at which the scan starts and ends (as datetime_to_str
gives them), what is found out about files just written, and what opening and parsing documents gives. -/
structure WriteEnv where
  lib : HashLib
  disk : Disk
  scan_start : Str
  scan_end : Str
  stat : StatEnv
  docAt : Str → Option Elem
  uw : Char → Bool := fun _ => false
  cwd : Str := "/".toList
  getsize : Str → Option Int := fun _ => none

/-- What a function leaves behind: files, a document on standard output, dump files -/
structure Output where
  files : List FsEff := []
  printed : Option Elem := none
  dumps : List DumpEff := []

/-- a list object as a resource list: its dictionary, and the object as far as writing is concerned (`resources` there
is what iteration delivers) -/
structure ListObj where
  dict : Dict Resource
  obj : LBI

/-- resource_list_builder.py 119-128: md_at and md_completed of a list that had none -/
def scanTimes (env : WriteEnv) : Dict Str := [(kMdAt, env.scan_start), (kMdCompleted, env.scan_end)]

/-- client.py 203-238 `build_resource_list`; resource_list_builder.py 59-66 `add_exclude_patterns`.  ValueError becomes
ClientFatalError, anything else goes through. -/
def buildResourceList (c : WriteCfg) (env : WriteEnv) (paths : Option Str) (set_path : Bool) : Except WriteErr ListObj :=
  if c.mapper = [] then .error .fatal
  else
    match compileExcludes c.exclude_patterns with
    | .error .value => .error .fatal
    | .error e => .error (.build e)
    | .ok ex =>
      let b := { Builder.new c.mapper (some c.hashes) true false with set_path := set_path, excludes := ex }
      match b.fromDisk env.lib env.disk [] (paths.map (splitOn ',')) with
      | .error .value => .error .fatal
      | .error e => .error (.build e)
      | .ok d =>
        match iterAll d with
        | .error e => .error (.list e)
        | .ok rs =>
          .ok { dict := d
                obj := { resources := rs, md := scanTimes env, capability_name := some "resourcelist".toList,
                         allow_multifile := c.allow_multifile, mapper := some c.mapper,
                         max_sitemap_entries := some (c.max_sitemap_entries.getD 50000) } }

/-- client.py 757-789 `read_reference_resource_list` -/
def readReference (c : WriteCfg) (env : WriteEnv) (ref : Str) : Except WriteErr (Dict Resource) :=
  match readList { mapper := some c.mapper, uw := env.uw, docAt := env.docAt } { resources := [] } ref (!c.allow_multifile) with
  | .error e => .error (.lb e)
  | .ok l => .ok l.resources

/-- `print(x.as_xml())` -/
def LBI.print (l : LBI) : Output × Except WriteErr Unit :=
  match l.asXml false "/tmp/sitemap.xml".toList with
  | .error e => ({}, .error (.lb e))
  | .ok t => ({ printed := some t }, .ok ())

/-- `x.write(basename=outfile)` -/
def LBI.writeTo (l : LBI) (env : WriteEnv) (outfile : Str) : Output × Except WriteErr Unit :=
  match l.write env.stat outfile with
  | (effs, .error e) => ({ files := effs }, .error (.lb e))
  | (effs, .ok ()) => ({ files := effs }, .ok ())

/-- client.py 656-685 `write_resource_list` -/
def writeResourceList (c : WriteCfg) (env : WriteEnv) (paths outfile : Option Str) (links : Option (List Link))
    (dump : Bool) : Output × Except WriteErr Unit :=
  match buildResourceList c env paths dump with
  | .error e => ({}, .error e)
  | .ok rl =>
    let l := { rl.obj with ln := links.getD rl.obj.ln }
    if dump then
      match writeDump { format := c.dump_format.getD "zip".toList } env.cwd env.getsize l.resources
          (outfile.getD c.default_resource_dump) with
      | (effs, .error e) => ({ dumps := effs }, .error (.dump e))
      | (effs, .ok _) => ({ dumps := effs }, .ok ())
    else
      match outfile with
      | none =>
        match l.print with
        | (o, .error (.lb .index)) => (o, .error .fatal)
        | r => r
      | some f => l.writeTo env f

/-- client.py 696-712: the entries of the change list -/
def changeListEntries (c : WriteCfg) (env : WriteEnv) (paths : Option Str) (ref : Str) (newref : Option Str) (dump : Bool) :
    Except WriteErr (List Resource) :=
  match readReference c env ref with
  | .error e => .error e
  | .ok old =>
    match (match newref with
      | none => (buildResourceList c env paths dump).map ListObj.dict
      | some n => readReference c env n) with
    | .error e => .error e
    | .ok new =>
      match changeEntries (fun o => if o = 0 then { dict := old } else { dict := new }) 0 1 with
      | .error e => .error (.list e)
      | .ok cl => .ok cl

/-- client.py 687-722 `write_change_list`; write_dump_if_requested (750-755) only prints a message. -/
def writeChangeList (c : WriteCfg) (env : WriteEnv) (paths outfile : Option Str) (ref : Str) (newref : Option Str)
    (empty : Bool) (links : Option (List Link)) (dump : Bool) : Output × Except WriteErr Unit :=
  match (if empty then .ok [] else changeListEntries c env paths ref newref dump) with
  | .error e => ({}, .error e)
  | .ok cl =>
    let l : LBI := { resources := cl, ln := links.getD [], capability_name := some "changelist".toList,
                     mapper := some c.mapper, max_sitemap_entries := some (c.max_sitemap_entries.getD 50000) }
    match outfile with
    | none => l.print
    | some f => l.writeTo env f

/-- list_base.py 126-144 `as_xml` and `write` of a list without index -/
def writeSingle (cap : Str) (ln : List Link) (rs : List Resource) (outfile : Option Str) : Output × Except WriteErr Unit :=
  let doc := resourcesAsXml {} (defaultCapability [] (some cap)) ln rs false
  match outfile with
  | none =>
    match doc with
    | .error e => ({}, .error (.lb (.sm e)))
    | .ok t => ({ printed := some t }, .ok ())
  | some f =>
    match writeDoc f doc with
    | (effs, .error e) => ({ files := effs }, .error (.lb e))
    | (effs, .ok ()) => ({ files := effs }, .ok ())

/-- client.py 729-731: the loop over the capabilities (name to URI) -/
def addCapabilities : Dict Resource → Dict Str → Except ListErr (Dict Resource)
  | d, [] => .ok d
  | d, (name, uri) :: t =>
    match addCapability d uri (some name) with
    | .error e => .error e
    | .ok d' => addCapabilities d' t

/-- client.py 724-735 `write_capability_list` -/
def writeCapabilityList (capabilities : Option (Dict Str)) (outfile : Option Str) (links : Option (List Link)) :
    Output × Except WriteErr Unit :=
  match addCapabilities [] (capabilities.getD []) with
  | .error e => ({}, .error (.list e))
  | .ok d => writeSingle "capabilitylist".toList (links.getD []) (capIter d) outfile

/-- source_description.py 63-79 `add_capability_list` of a URI -/
def addCapabilityList (d : Dict Resource) (uri : Str) : Except ListErr (Dict Resource) :=
  dictAdd d { uri := uri, capability := some "capabilitylist".toList } false

/-- client.py 743-744 -/
def addCapabilityLists : Dict Resource → List Str → Except ListErr (Dict Resource)
  | d, [] => .ok d
  | d, uri :: t =>
    match addCapabilityList d uri with
    | .error e => .error e
    | .ok d' => addCapabilityLists d' t

/-- client.py 737-748 `write_source_description`; source_description.py 37-48: the entry `from` of md is None and is not
written. -/
def writeSourceDescription (env : WriteEnv) (capability_lists : Option (List Str)) (outfile : Option Str)
    (links : Option (List Link)) : Output × Except WriteErr Unit :=
  match addCapabilityLists [] (capability_lists.getD []) with
  | .error e => ({}, .error (.list e))
  | .ok d =>
    match iterAll d with
    | .error e => ({}, .error (.list e))
    | .ok rs =>
      let l : LBI := { resources := rs, ln := links.getD [], capability_name := some "description".toList }
      match outfile with
      | none => l.print
      | some f => l.writeTo env f

/-- client.py 622-638 `parse_document`: the capability and the number of entries reported -/
def parseDocument (docAt : Str → Option Elem) (sitemap : Str) : Except WriteErr (Str × Nat) :=
  match docAt sitemap with
  | none => .error .fatal
  | some root =>
    match parseXml {} listAdd { resources := [] } root none none with
    | .error e => .error (.lb (.sm e))
    | .ok (c, _, _) => .ok ((dget c.md kCapability).getD "(unknown capability)".toList, c.resources.length)

end Resync
