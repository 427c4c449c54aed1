import Verif.Model.Builder
/-
Which files a disk scan should find (C42).
-/

namespace Resync.Spec
open Py

/-- `Reach cs names n`: starting in a directory with entries `cs`, the names lead through real, readable
directories to entry `n`. -/
inductive Reach : List FNode → List Str → FNode → Prop
  | here {cs : List FNode} {n : FNode} : n ∈ cs → Reach cs [n.name] n
  | sub {cs ds : List FNode} {name : Str} {names : List Str} {n : FNode} :
      FNode.dir name true ds ∈ cs → Reach ds names n → Reach cs (name :: names) n

/-- a file below a directory with entries `cs`: not a directory and not a link, its stat is available, and
neither its name nor the name of a directory on the way is excluded -/
def Eligible (excluded : Str → Prop) (cs : List FNode) (names : List Str) (st : Stat) : Prop :=
  (∃ nm special, Reach cs names (.file nm special (some st))) ∧ ∀ c ∈ names, ¬ excluded c

/-- the path of an entry: os.path.join(start, name, ...) -/
def filePath (start : Str) (names : List Str) : Str := names.foldl pathJoin start

/-- names of a real directory: no name twice, no slash in a name, no empty name -/
inductive RealDir : List FNode → Prop
  | mk {cs : List FNode} : (cs.map FNode.name).Nodup → (∀ n ∈ cs, n.name ≠ [] ∧ '/' ∉ n.name) →
      (∀ name r ds, FNode.dir name r ds ∈ cs → RealDir ds) → RealDir cs

/-- the resource a scan should record for a file -/
def describes (b : Builder) (lib : HashLib) (uri path : Str) (st : Stat) : Resource :=
  let want (t : Str) : Bool := match b.set_hashes with
    | some hs => decide (t ∈ hs)
    | none => false
  { uri := uri
    timestamp := some st.mtime
    length := if b.set_length then some st.size else none
    path := if b.set_path then some path else none
    md5 := if want "md5".toList then st.content.map lib.md5 else none
    sha1 := if want "sha-1".toList then st.content.map lib.sha1 else none
    sha256 := if want "sha-256".toList then st.content.map lib.sha256 else none }

/-- where a scan starts: at the paths given, or else at the destination of each mapping -/
def startPaths (b : Builder) (paths : Option (List Str)) : List Str := paths.getD (b.mapper.map (·.dst_path))

/-- a name matched by one of the exclude patterns -/
def Excluded (b : Builder) (name : Str) : Prop := ∃ p ∈ b.excludes, ∃ m, p.matchStart name = some m

end Resync.Spec
