import Verif.Model.ResourceList
import Verif.Py.Posix
/-
Model of /repo/resync/dump.py.

Simplifications: the sequence that iterating over self.resources delivers is a list; of the WARC library (which is not
there by default) it is only assumed that it takes the records given to it; the manifest documents
are given by the entries they list; log messages are left out.
-/

namespace Resync
open Py

/-- Exceptions of dump.py and of what it calls. -/
inductive DumpErr
  /-- DumpError: no path for a resource -/
  | noPath
  /-- DumpError: the length of a resource is not the size of the file -/
  | size
  /-- DumpError: file larger than max_size -/
  | tooBig
  /-- DumpError: unknown format (or no WARC library) -/
  | format
  /-- OSError of getsize -/
  | os
  /-- ResourceListDupeError of the manifest's add() -/
  | dupe
  /-- TypeError: a length that is None -/
  | type
  /-- ValueError of relpath, KeyError -/
  | value
  /-- AttributeError: there is no `self.logging` -/
  | attr
deriving DecidableEq, Repr

/-- dump.py 24-33: the settings of a Dump object. -/
structure DumpCfg where
  format : Str := "zip".toList
  max_size : Int := 104857600
  max_files : Nat := 50000
  /-- not a setting: whether there is a library `warc` -/
  warc_library : Bool := false

/-- dump.py 137-156: one round of the loop of check_files: the resource afterwards and the size. -/
def checkFile (cfg : DumpCfg) (set_length check_length : Bool) (getsize : Str → Option Int) (r : Resource) :
    Resource × Except DumpErr (Str × Int) :=
  match r.path with
  | none => (r, .error .noPath)
  | some p =>
    match getsize p with
    | none => (r, .error .os)
    | some size =>
      match r.length with
      | some len =>
        if check_length ∧ len ≠ size then (r, .error .size)
        else if size > cfg.max_size then (r, .error .tooBig)
        else (r, .ok (p, size))
      | none =>
        let r' := if set_length then { r with length := some size } else r
        if size > cfg.max_size then (r', .error .tooBig) else (r', .ok (p, size))

/-- dump.py 143-147: the next path_prefix -/
def nextPrefix (path_prefix : Option Str) (p : Str) : Str :=
  match path_prefix with
  | none => dirname p
  | some pre => commonPrefix pre (dirname p)

/-- dump.py 119-162 `check_files`: the resources afterwards (lengths are filled in), and path_prefix
and total_size. -/
def checkFiles (cfg : DumpCfg) (set_length check_length : Bool) (getsize : Str → Option Int) :
    List Resource → Option Str → Int → List Resource × Except DumpErr (Option Str × Int)
  | [], path_prefix, total => ([], .ok (path_prefix, total))
  | r :: rs, path_prefix, total =>
    match checkFile cfg set_length check_length getsize r with
    | (r', .error e) => (r' :: rs, .error e)
    | (r', .ok (p, size)) =>
      match checkFiles cfg set_length check_length getsize rs (some (nextPrefix path_prefix p)) (total + size) with
      | (rs', res) => (r' :: rs', res)

/-- dump.py 164-185 `partition_dumps`: the manifests yielded, and how the generator ends. -/
def partLoop (cfg : DumpCfg) : List Resource → Dict Resource → Int → Nat → List (Dict Resource) × Except DumpErr Unit
  | [], manifest, _, files => (if files > 0 then [manifest] else [], .ok ())
  | r :: rs, manifest, size, files =>
    match dictAdd manifest r false with
    | .error _ => ([], .error .dupe)
    | .ok manifest' =>
      match r.length with
      | none => ([], .error .type)
      | some len =>
        if size + len ≥ cfg.max_size ∨ files + 1 ≥ cfg.max_files then
          match partLoop cfg rs [] 0 0 with
          | (ms, res) => (manifest' :: ms, res)
        else partLoop cfg rs manifest' (size + len) (files + 1)

def partitionDumps (cfg : DumpCfg) (rs : List Resource) : List (Dict Resource) × Except DumpErr Unit :=
  partLoop cfg rs [] 0 0

/-- dump.py 187-196 `archive_path` (`none`: ValueError for an empty path) -/
def archivePath (cwd : Str) (path_prefix : Option Str) (real_path : Str) : Option Str :=
  match path_prefix with
  | none => some real_path
  | some [] => some real_path
  | some pre => relpath cwd real_path pre

/-- A written package: file name, the entries of manifest.xml inside, and the archive members besides
manifest.xml: name in the archive and file copied. -/
structure Package where
  file : Str
  inner : List Resource
  members : List (Str × Str)
deriving DecidableEq, Repr

/-- dump.py 73-77: the first loop of write_zip: `real_path` and the resources with their new path. -/
def renameLoop (cwd : Str) (path_prefix : Option Str) :
    List Resource → Dict Str → Except DumpErr (Dict Str × List Resource)
  | [], real => .ok (real, [])
  | r :: rs, real =>
    match r.path with
    | none => .error .noPath
    | some p =>
      match archivePath cwd path_prefix p with
      | none => .error .value
      | some a => do
        let (real', rs') ← renameLoop cwd path_prefix rs (dset real a p)
        return (real', { r with path := some a } :: rs')

/-- dump.py 80-81: the second loop of write_zip -/
def memberLoop (real : Dict Str) : List Resource → Except DumpErr (List (Str × Str))
  | [] => .ok []
  | r :: rs =>
    match r.path with
    | none => .error .noPath
    | some a =>
      match dget real a with
      | none => .error .value
      | some p => do
        let ms ← memberLoop real rs
        return (a, p) :: ms

/-- dump.py 59-87 `write_zip` on the entries of a manifest in iteration order -/
def writeZip (cwd : Str) (path_prefix : Option Str) (file : Str) (rs : List Resource) : Except DumpErr Package := do
  let (real, rs') ← renameLoop cwd path_prefix rs []
  let ms ← memberLoop real rs'
  return ⟨file, rs', ms⟩

/-- A record of a WARC file: headers, and what is to be the content -/
structure WarcRecord where
  url : Str
  date : Option Rat
  location : Str
  payload : Str
deriving DecidableEq, Repr

/-- dump.py 104-113: the loop of write_warc; the content of a record is the path (not the file with this path) -/
def warcRecords (cwd : Str) (path_prefix : Option Str) : List Resource → List WarcRecord × Except DumpErr Unit
  | [] => ([], .ok ())
  | r :: rs =>
    match r.path with
    | none => ([], .error .noPath)
    | some p =>
      match archivePath cwd path_prefix p with
      | none => ([], .error .value)
      | some a =>
        match warcRecords cwd path_prefix rs with
        | (recs, res) => (⟨r.uri, r.timestamp, a, p⟩ :: recs, res)

/-- what Dump.write puts on disk -/
inductive DumpEff
  /-- a separate manifest document listing the resources -/
  | manifest (file : Str) (rs : List Resource)
  | package (p : Package)
  /-- a WARC file -/
  | warc (file : Str) (records : List WarcRecord)
deriving DecidableEq, Repr

/-- iterating over a manifest: sorted by URI, see resource_list.py 48-63 -/
def manifestEntries (m : Dict Resource) : List Resource := (sortStr (dkeys m)).filterMap (dget m)

/-- dump.py 89-117 `write_warc`: it ends with an exception in any case, as the last statement uses `self.logging`, which is not
there (`self.logger` is) -/
def writeWarc (cfg : DumpCfg) (cwd : Str) (path_prefix : Option Str) (file : Str) (rs : List Resource) : List DumpEff × DumpErr :=
  if ¬ cfg.warc_library then ([], .format)
  else
    match warcRecords cwd path_prefix rs with
    | (recs, .error e) => ([.warc file recs], e)
    | (recs, .ok ()) => ([.warc file recs], .attr)

/-- dump.py 41-55: the loop of write -/
def writePackages (cfg : DumpCfg) (cwd : Str) (path_prefix : Option Str) (basename : Str) (separate : Bool) :
    List (Dict Resource) → Nat → List DumpEff × Except DumpErr Nat
  | [], n => ([], .ok n)
  | m :: ms, n =>
    let dumpbase := basename ++ natPad 5 n
    let eff := if separate then [DumpEff.manifest (dumpbase ++ ".xml".toList) (manifestEntries m)] else []
    if cfg.format = "zip".toList then
      match writeZip cwd path_prefix (dumpbase ++ '.' :: cfg.format) (manifestEntries m) with
      | .error e => (eff, .error e)
      | .ok p =>
        match writePackages cfg cwd path_prefix basename separate ms (n + 1) with
        | (effs, res) => (eff ++ .package p :: effs, res)
    else if cfg.format = "warc".toList then
      match writeWarc cfg cwd path_prefix (dumpbase ++ '.' :: cfg.format) (manifestEntries m) with
      | (effs, e) => (eff ++ effs, .error e)
    else (eff, .error .format)

/-- dump.py 35-57 `write`.  A failure while partitioning surfaces after the packages before it have been
written. -/
def writeDump (cfg : DumpCfg) (cwd : Str) (getsize : Str → Option Int) (rs : List Resource) (basename : Str)
    (separate : Bool := true) : List DumpEff × Except DumpErr Nat :=
  match checkFiles cfg true true getsize rs none 0 with
  | (_, .error e) => ([], .error e)
  | (rs', .ok (path_prefix, _)) =>
    match partitionDumps cfg rs' with
    | (ms, res) =>
      match writePackages cfg cwd path_prefix basename separate ms 0 with
      | (effs, .error e) => (effs, .error e)
      | (effs, .ok n) => (effs, res.map (fun _ => n))

end Resync
