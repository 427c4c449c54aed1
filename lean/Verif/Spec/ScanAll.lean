import Verif.Spec.Disk
/-
Which files a scan should find from any start path, with or without links (C42).
-/

namespace Resync.Spec
open Py

/-- an entry of a directory that is a file with stat `st`; with `links`, a link to a file counts with the stat of
that file.  A link to a directory is not a file. -/
def FileEntry (links : Bool) : FNode → Stat → Prop
  | .file _ _ st', st => st' = some st
  | .link _ toDir st', st => links = true ∧ toDir = false ∧ st' = some st
  | .dir .., _ => False

/-- what is to be found from start path `p`: the files below it, through directories only, without an excluded name
on the way; or `p` itself if it is there and not a directory -/
inductive Found (b : Builder) (disk : Disk) (p : Str) : Str → Stat → Prop
  | below {nm : Str} {cs : List FNode} {names : List Str} {n : FNode} {st : Stat} :
      disk.resolve p = some (.dir nm true cs) → Reach cs names n → FileEntry b.include_symlinks n st →
      (∀ c ∈ names, ¬ Excluded b c) → Found b disk p (filePath p names) st
  | itself {n : FNode} {st : Stat} :
      disk.resolve p = some n → (∀ nm r cs, n ≠ .dir nm r cs) → n.stat = some st → ¬ Excluded b p →
      (disk.islink p = true → b.include_symlinks = true) → Found b disk p p st

end Resync.Spec
