import Verif.Model.Disk
import Verif.Spec.Path
/-
The file system the client works on.

Simplifications: no symbolic links, hard links or special files; a path denotes the location found by walking its
components lexically (`Spec.location`), so that `x/../y` is `y` even if `x` does not exist.  The root always exists.
Failures other than those that follow from what is at a location (permissions, full disk) are chosen by the
environment, see Client.lean.
-/

namespace Resync
open Py Resync.Spec

/-- Directory names from the root -/
abbrev Loc := List Str

inductive FsNode
  | file (content : Bytes) (mtime : Rat)
  | dir
deriving DecidableEq

/-- A finite map from locations to what is there -/
abbrev Fs := List (Loc × FsNode)

def Fs.get (fs : Fs) (l : Loc) : Option FsNode := if l = [] then some .dir else fs.lookup l

def Fs.set (fs : Fs) (l : Loc) (n : FsNode) : Fs := (l, n) :: fs.filter (fun p => p.1 ≠ l)

def Fs.del (fs : Fs) (l : Loc) : Fs := fs.filter (fun p => p.1 ≠ l)

/-- os.path.isdir -/
def Fs.isDir (fs : Fs) (l : Loc) : Bool := fs.get l == some .dir

/-- the greatest number of names in a location -/
def Fs.depth (fs : Fs) : Nat := fs.foldr (fun p a => max p.1.length a) 0

/-- the name of an entry directly below directory l -/
def childName (l k : Loc) : Option Str :=
  if k.length = l.length + 1 ∧ l.isPrefixOf k then k.getLast? else none

/-- os.stat of a file -/
def fileStat (content : Bytes) (mtime : Rat) : Stat := { mtime := mtime, size := content.length, content := some content }

/-- The directory at l as os.walk sees it, down to a number of levels -/
def Fs.tree (fs : Fs) : Nat → Loc → List FNode
  | 0, _ => []
  | n + 1, l => fs.filterMap (fun p =>
      match childName l p.1 with
      | none => none
      | some name =>
        match p.2 with
        | .file content mtime => some (.file name false (some (fileStat content mtime)))
        | .dir => some (.dir name true (Fs.tree fs n p.1)))

/-- The disk a process with current directory cwd sees -/
def Fs.disk (cwd : Loc) (fs : Fs) : Disk where
  resolve p :=
    let l := location cwd p
    match fs.get l with
    | none => none
    | some (.file content mtime) => some (.file (l.getLast?.getD []) false (some (fileStat content mtime)))
    | some .dir => some (.dir (l.getLast?.getD []) true (fs.tree (fs.depth + 1) l))
  islink _ := false

end Resync
