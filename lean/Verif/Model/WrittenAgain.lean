import Verif.Model.ListIndex
import Verif.Model.Dump
/-
What writing does to the object that is written: list_base_with_index.py and dump.py.  (Their models describe the files; here is
the list, or the resources, afterwards.)
-/

namespace Resync
open Py

/-- list_base_with_index.py 276-354 `write`: the list afterwards.  Chunks and index share the links with it (lines 312, 376), and
`chunk.index` (328) is set once the name of the first component has been mapped. -/
def LBI.afterWrite (l : LBI) (basename : Str) : LBI :=
  match getResourcesChunk l.max_sitemap_entries l.resources none with
  | .ok (_, some _, _) =>
    if l.allow_multifile then
      match mapFile l.mapper basename, mapFile l.mapper (partName basename 0) with
      | .ok index_uri, .ok _ => { l with ln := sharedIndexLink l.ln index_uri }
      | _, _ => l
    else l
  | _ => l

/-- dump.py 74-77: the path of a resource becomes the one in the archive -/
def archived (cwd : Str) (path_prefix : Option Str) (r : Resource) : Resource :=
  match r.path.bind (archivePath cwd path_prefix) with
  | some a => { r with path := some a }
  | none => r

/-- dump.py 35-57 `write`: the resources afterwards.  check_files fills in lengths; then the resources of the packages written
have their paths in the archive.  Simplification: an exception within write_zip (there is none for resources that passed
check_files, other than from the disk) is taken to come after the first loop of it. -/
def dumpAfter (cfg : DumpCfg) (cwd : Str) (getsize : Str → Option Int) (rs : List Resource) : List Resource :=
  match checkFiles cfg true true getsize rs none 0 with
  | (rs', .error _) => rs'
  | (rs', .ok (path_prefix, _)) =>
    if cfg.format = "zip".toList then
      let done := ((partitionDumps cfg rs').1.map (fun m => m.map Prod.snd)).flatten
      done.map (archived cwd path_prefix) ++ rs'.drop done.length
    else rs'

end Resync
