import Verif.Spec.ClientWrite
import Verif.Spec.Client
/-
What it means that a directory is the content of a place on a disk, for mirrors that are published in turn.
-/

namespace Resync.Spec
open Py

/-- the directory with entries `cs` has exactly the files that are at the place `root` on the disk `fs`, each with its time, size
and content -/
def FilesAt (cs : List FNode) (root : Loc) (fs : Fs) : Prop :=
  ∀ names st, (∃ nm special, Reach cs names (.file nm special (some st))) ↔
    ∃ b t, IsFile fs (root ++ names) b t ∧ st = { mtime := t, size := b.length, content := some b }

/-- the directory has the file `names`, described by `st` -/
def HasEntry (cs : List FNode) (names : List Str) (st : Stat) : Prop := ∃ nm special, Reach cs names (.file nm special (some st))

/-- the modification time is a whole number of seconds, and the size is the length of the content -/
def WholeStat (st : Stat) : Prop := (∃ n : Int, st.mtime = n) ∧ ∀ b, st.content = some b → st.size = (b.length : Int)

/-- one of the configurations excludes the name -/
def ExcludedByAny (cfgs : List WriteCfg) (x : Str) : Prop := ∃ c ∈ cfgs, ExcludedBy c x

end Resync.Spec
