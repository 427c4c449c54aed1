import Verif.Model.Disk
import Verif.Model.Mapper
import Verif.Model.ResourceList
/-
Model of /repo/resync/resource_list_builder.py.

Simplifications: the times md_at and md_completed of the list and the log messages are left out; the disk
does not change during the scan.  os.walk runs with its defaults: topdown, links not followed, directories
that cannot be read are skipped.
-/

namespace Resync
open Py

inductive BuildErr
  /-- MapperError and what else the mapper raises -/
  | map (e : MapErr)
  /-- of Hashes(...) -/
  | hash (e : HashErr)
  /-- ResourceListDupeError -/
  | dupe
  /-- ValueError "Bad python regex in exclude pattern" -/
  | value
  /-- not a Python exception: the pattern uses `re` syntax which the regex model does not cover -/
  | outside
deriving DecidableEq, Repr

/-- resource_list_builder.py 48-57: the settings of a builder -/
structure Builder where
  mapper : Mapper
  set_hashes : Option (List Str) := none
  set_length : Bool := true
  set_path : Bool := false
  excludes : List Re := []
  include_symlinks : Bool := false

/-- resource_list_builder.py 32-57 `__init__`: no hashes for an empty set -/
def Builder.new (mapper : Mapper) (set_hashes : Option (List Str)) (set_length set_path : Bool) : Builder :=
  { mapper := mapper
    set_hashes := match set_hashes with
      | some (h :: t) => some (h :: t)
      | _ => none
    set_length := set_length
    set_path := set_path }

/-- resource_list_builder.py 68-76 `_compile_excludes` -/
def compileExcludes : List Str → Except BuildErr (List Re)
  | [] => .ok []
  | p :: ps =>
    match compile p with
    | .error .bad => .error .value
    | .error .outside => .error .outside
    | .ok r => do
      let rs ← compileExcludes ps
      return r :: rs

/-- resource_list_builder.py 78-83 `_exclude` -/
def Builder.exclude (b : Builder) (file : Str) : Bool := b.excludes.any (fun p => (p.matchStart file).isSome)

/-- resource_list_builder.py 176-187: the resource for a file -/
def Builder.fileResource (b : Builder) (lib : HashLib) (uri file : Str) (st : Stat) : Except BuildErr Resource :=
  let r : Resource := { uri := uri, timestamp := some st.mtime }
  let r := if b.set_path then { r with path := some file } else r
  let res : Except BuildErr Resource :=
    match b.set_hashes with
    | none => .ok r
    | some hs =>
      match HashObj.new hs (some st.content) with
      | .error e => .error (.hash e)
      | .ok o => .ok (o.setOn lib r)
  res.map (fun r => if b.set_length then { r with length := some st.size } else r)

/-- resource_list_builder.py 160-188 `add_file`; `islink` and `st` are what os.path.islink and os.stat say about
the file. -/
def Builder.addFile (b : Builder) (lib : HashLib) (rl : Dict Resource) (dir : Option Str) (file : Str)
    (islink : Bool) (st : Option Stat) : Except BuildErr (Dict Resource) :=
  if b.exclude file then .ok rl
  else
    let file := match dir with
      | some d => pathJoin d file
      | none => file
    if islink ∧ ¬ b.include_symlinks then .ok rl
    else
      match b.mapper.dstToSrc file with
      | .error e => .error (.map e)
      | .ok uri =>
        match st with
        | none => .ok rl
        | some st =>
          match b.fileResource lib uri file st with
          | .error e => .error e
          | .ok r =>
            match dictAdd rl r false with
            | .error _ => .error .dupe
            | .ok rl' => .ok rl'

/-- os.walk: the entries among `files` of a directory -/
def filesIn (dirpath : Str) (children : List FNode) : List (Str × FNode) :=
  (children.filter (fun n => !n.isDirEntry)).map (fun n => (dirpath, n))

mutual
/-- os.walk below an entry of `dirs`, with the pruning of resource_list_builder.py 148-155; the files met, with
their directory, in order -/
def FNode.walkSub (ex : Str → Bool) (path : Str) : FNode → List (Str × FNode)
  | .dir name readable cs =>
    if ex name then []
    else if readable then filesIn (pathJoin path name) cs ++ walkSubs ex (pathJoin path name) cs
    else []
  | _ => []

def walkSubs (ex : Str → Bool) (path : Str) : List FNode → List (Str × FNode)
  | [] => []
  | n :: t => n.walkSub ex path ++ walkSubs ex path t
end

/-- resource_list_builder.py 139-155: the files for which add_file is called, scanning directory `path` -/
def walk (ex : Str → Bool) (path : Str) (children : List FNode) : List (Str × FNode) :=
  filesIn path children ++ walkSubs ex path children

/-- resource_list_builder.py 139-147: add_file for each of them -/
def Builder.addAll (b : Builder) (lib : HashLib) (rl : Dict Resource) (fs : List (Str × FNode)) :
    Except BuildErr (Dict Resource) :=
  fs.foldlM (fun rl f => b.addFile lib rl (some f.1) f.2.name f.2.islink f.2.stat) rl

/-- resource_list_builder.py 131-158 `from_disk_add_path` -/
def Builder.addPath (b : Builder) (lib : HashLib) (disk : Disk) (rl : Dict Resource) (path : Str) :
    Except BuildErr (Dict Resource) :=
  match disk.resolve path with
  | some (.dir _ readable cs) => if readable then b.addAll lib rl (walk b.exclude path cs) else .ok rl
  | other => b.addFile lib rl none path (disk.islink path) (other.bind FNode.stat)

/-- resource_list_builder.py 85-129 `from_disk` -/
def Builder.fromDisk (b : Builder) (lib : HashLib) (disk : Disk) (rl : Dict Resource := []) (paths : Option (List Str) := none) :
    Except BuildErr (Dict Resource) :=
  let paths := match paths with
    | some ps => ps
    | none => b.mapper.map Map.dst_path
  paths.foldlM (b.addPath lib disk) rl

end Resync
