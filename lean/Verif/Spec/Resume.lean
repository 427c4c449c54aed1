import Verif.Spec.Repeat
/-
Specification vocabulary for incremental syncs that do not come to their end (C118).
-/

namespace Resync.Spec
open Py

/-- What has come and gone by the time of the later change list, from `t0` on, was not there at the time of the earlier one: the
earlier one does not mention it (since `t0`), or its last entry says that it is deleted. -/
def NothingPassing (earlier later : List Resource) (v : Str) (t0 : Rat) : Prop :=
  ∀ x r, FirstChange later v t0 x → LastChange later v t0 r → x.uri = r.uri → x.change = some "created".toList →
    r.change = some "deleted".toList → ∀ y, LastChange earlier v t0 y → y.uri = r.uri → y.change = some "deleted".toList

/-- The same sites, and whatever change list is found, it is acceptable.  The server, the disk, the clock and the other options may be
any. -/
structure SameTask (ft : FloatText Rat) (cwd : Loc) (c : ClientCfg) (acceptable : List Resource → Prop) (env : Env) (c' : ClientCfg) :
    Prop where
  disc : c'.disc = c.disc
  version : c'.spec_version = c.spec_version
  cwd : env.cwd = cwd
  text : env.ft = ft
  list : ∀ u cl, env.changeList u = some cl → acceptable cl

/-- Any number of incremental syncs, one after the other, each of which has failed, or has been ended at any moment (perhaps in the
middle of writing a file), before it has recorded a time. -/
inductive BrokenOff (task : Env → ClientCfg → Prop) (from_datetime : Option Str) (w : World) : World → Prop
  | none : BrokenOff task from_datetime w w
  | more {w1 w2 : World} {env : Env} {c : ClientCfg} {allow_deletion : Bool} {uri : Option Str} {s : St} :
      BrokenOff task from_datetime w w1 → task env c → s.world = w1 →
      LeftBy s (incremental env c allow_deletion uri from_datetime s).1 w2 → w2.state = w1.state →
      BrokenOff task from_datetime w w2

end Resync.Spec
