import Verif.Model.Hashes
/-
Directory trees as os.walk and os.stat present them.
-/

namespace Resync
open Py

/-- what os.stat tells about a file, and its content (`none`: it cannot be opened) -/
structure Stat where
  mtime : Rat
  size : Int
  content : Option Bytes
deriving DecidableEq

/-- A directory entry.  `file`: a regular file, or (special) a socket, FIFO or device; `link`: a symbolic link,
with whether it leads to a directory and the stat of what it leads to.  A stat of `none` means os.stat fails. -/
inductive FNode
  | file (name : Str) (special : Bool) (st : Option Stat)
  | link (name : Str) (toDir : Bool) (st : Option Stat)
  | dir (name : Str) (readable : Bool) (children : List FNode)

def FNode.name : FNode → Str
  | .file n _ _ => n
  | .link n _ _ => n
  | .dir n _ _ => n

/-- os.path.islink -/
def FNode.islink : FNode → Bool
  | .link .. => true
  | _ => false

/-- entry.is_dir(), which follows links: whether os.walk puts the entry among `dirs` -/
def FNode.isDirEntry : FNode → Bool
  | .dir .. => true
  | .link _ toDir _ => toDir
  | .file .. => false

/-- os.stat (of the target for links); a directory's own stat is never used -/
def FNode.stat : FNode → Option Stat
  | .file _ _ st => st
  | .link _ _ st => st
  | .dir .. => none

/-- The disk: what is at a path after following links, and whether the path itself is a link. -/
structure Disk where
  resolve : Str → Option FNode
  islink : Str → Bool

end Resync
