import Verif.Model.Resource
/-
Specification vocabulary for lists of resources (C21–C27), independent of the list classes' model
(only the record type `Resource` is shared).
-/

namespace Resync.Spec
open Py

/-- What a map fed by `add(resource, replace)` calls holds for `u`: the last one added with
replace, otherwise the first one added. -/
def holder (ops : List (Resource × Bool)) (u : Str) : Option Resource :=
  match ops.filter (fun op => op.1.uri = u) with
  | [] => none
  | first :: rest =>
    match (rest.filter (fun op => op.2)).getLast? with
    | some op => some op.1
    | none => some first.1

/-- strictly increasing URIs -/
def SortedByUri (rs : List Resource) : Prop := rs.Pairwise (fun a b => a.uri < b.uri)

/-- keep only the entries with no later entry for the same URI -/
def keepLast : List Resource → List Resource
  | [] => []
  | r :: t => if t.any (fun x => x.uri = r.uri) then keepLast t else r :: keepLast t

/-- the last entry of each URI, in order, without the URIs that were created first and deleted last -/
def prunedSpec (l : List Resource) : List Resource :=
  (keepLast l).filter (fun r => ! (r.change = some "deleted".toList &&
    (l.find? (fun x => x.uri = r.uri)).map (·.change) = some (some "created".toList)))

/-- the effect of one change entry on a collection of resources -/
def applyChange (m : Str → Option Resource) (r : Resource) : Str → Option Resource := fun u =>
  if u = r.uri then
    (if r.change = some "deleted".toList then none
     else if r.change = some "created".toList ∨ r.change = some "updated".toList then some r
     else m u)
  else m u

/-- the effect of a change list, first entry first -/
def applyChanges (m : Str → Option Resource) (cl : List Resource) : Str → Option Resource :=
  cl.foldl applyChange m

/-- A right entry for the change from one collection of resources to another: what is new is created, what is there in both but not
equal is updated, what is no longer there is deleted; the entry carries the metadata of the new state (of the old one if deleted).  There
is none for what has not changed. -/
def RightEntry (old new : Str → Option Resource) (r : Resource) : Prop :=
  ∃ x, r = { x with change := r.change } ∧
    ((r.change = some "created".toList ∧ old r.uri = none ∧ new r.uri = some x) ∨
     (r.change = some "updated".toList ∧ new r.uri = some x ∧ ∃ y, old r.uri = some y ∧ y.eq (some x) = false) ∨
     (r.change = some "deleted".toList ∧ old r.uri = some x ∧ new r.uri = none))

end Resync.Spec
