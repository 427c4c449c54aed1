import Verif.Spec.ClientLog
/-
What a dry run announces, and what it is for a run to do just that (C122).
-/

namespace Resync.Spec
open Py

/-- something a sync is going to do about a resource -/
inductive Deed
  /-- to get this URI into this file -/
  | fetch (uri filename : Str)
  /-- to remove this file, for the resource of this URI -/
  | remove (uri filename : Str)
deriving DecidableEq

def isFetchDeed : Deed → Bool
  | .fetch .. => true
  | .remove .. => false

def isRemovalDeed : Deed → Bool
  | .fetch .. => false
  | .remove .. => true

/-- what the messages "dryrun: would …" announce, in order -/
def announcedIn (log : List LogMsg) : List Deed :=
  log.filterMap (fun m => match m with
    | .wouldGet u f => some (.fetch u f)
    | .wouldDelete u f => some (.remove u f)
    | _ => none)

/-- This effect is part of the deed: for a fetch the request, directories on the way to the file, and what is done with the file;
for a removal the removal of the file. -/
def PartOf (cwd : Loc) : Deed → Effect → Prop
  | .fetch u f, e => e = .get u ∨ (∃ d, e = .mkdir d ∧ d <+: location cwd (dirname f)) ∨ (∃ t, e = .trunc (location cwd f) t) ∨
      (∃ b, e = .append (location cwd f) b) ∨ ∃ t, e = .utime (location cwd f) t
  | .remove _ f, e => e = .unlink (location cwd f)

/-- The deed has been done by these effects: a request has been made for the resource to be fetched (and perhaps more than one, and
perhaps without success), with nothing done that is not part of it; the file has been removed, or the log says that this failed. -/
def DoneBy (cwd : Loc) (log : List LogMsg) : Deed → List Effect → Prop
  | .fetch u f, es => .get u ∈ es ∧ ∀ e ∈ es, PartOf cwd (.fetch u f) e
  | .remove u f, es => es = [.unlink (location cwd f)] ∨ (es = [] ∧ .failedDelete u f ∈ log)

/-- These effects, of a run with this log, are the deeds planned, one after the other; if the run does not end well it may have stopped in
the middle of one of them. -/
def DoesInTurn (cwd : Loc) (planned : List Deed) (ok : Prop) (log : List LogMsg) (es : List Effect) : Prop :=
  ∃ (deeds : List Deed) (parts : List (List Effect)) (rest : List Effect),
    es = parts.flatten ++ rest ∧ List.Forall₂ (DoneBy cwd log) deeds parts ∧
    ((deeds = planned ∧ rest = []) ∨ (¬ ok ∧ ∃ d, deeds ++ [d] <+: planned ∧ ∀ e ∈ rest, PartOf cwd d e))

/-- … and after them, if at all, the time for the next incremental sync has been recorded -/
def PerformsPlan (cwd : Loc) (planned : List Deed) (ok : Prop) (log : List LogMsg) (es : List Effect) : Prop :=
  ∃ es1 es2, es = es1 ++ es2 ∧ DoesInTurn cwd planned (ok ∨ es2 ≠ []) log es1 ∧ ∀ e ∈ es2, ∃ text, e = .setState text

end Resync.Spec
