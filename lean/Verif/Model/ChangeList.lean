import Verif.Model.ResourceList
/-
Model of /repo/resync/change_list.py and the pruning of resource_container.py: a change list keeps
its resources in a Python list.
-/

namespace Resync
open Py

/-- change_list.py 38-43 `add_if_changed` -/
def addIfChanged (cl : List Resource) (r : Resource) : Except ListErr (List Resource) :=
  match r.change with
  | some _ => .ok (cl ++ [r])
  | none => .error .changeType

/-- change_list.py 45-55 `add` of an iterable: list afterwards and exception. -/
def clAddAll (cl : List Resource) : List Resource → List Resource × Option ListErr
  | [] => (cl, none)
  | r :: t =>
    match addIfChanged cl r with
    | .error e => (cl, some e)
    | .ok cl' => clAddAll cl' t

/-- change_list.py 57-65 `add_changed_resources`: copies with the change attribute set. -/
def addChangedResources (cl : List Resource) (change : Option Str) :
    List Resource → List Resource × Option ListErr
  | [] => (cl, none)
  | r :: t =>
    match Resource.new { resource := some r, change := change } with
    | .error .changeType => (cl, some .changeType)
    | .error _ => (cl, some .value)
    | .ok rc =>
      match addIfChanged cl rc with
      | .error e => (cl, some e)
      | .ok cl' => addChangedResources cl' change t

/-- change_list.py 75-84: the loop of `prune_updates_before`. -/
def pruneUpdatesLoop (timestamp : Rat) (use_timestamp : Bool) :
    List Resource → Nat → List Resource → Except ListErr (List Resource × Nat)
  | [], n, pruned => .ok (pruned, n)
  | r :: t, n, pruned =>
    match (if use_timestamp then r.timestamp else r.ts_datetime) with
    | none => .error .noTime
    | some ts =>
      if timestamp ≤ ts then pruneUpdatesLoop timestamp use_timestamp t n (pruned ++ [r])
      else pruneUpdatesLoop timestamp use_timestamp t (n + 1) pruned

/-- change_list.py 67-86 `prune_updates_before`: the list afterwards and the number removed or the
exception (the list is only replaced at the end). -/
def pruneUpdatesBefore (cl : List Resource) (timestamp : Rat) (spec_version : Str) :
    List Resource × Except ListErr Nat :=
  match pruneUpdatesLoop timestamp (decide (spec_version = "1.0".toList)) cl 0 [] with
  | .error e => (cl, .error e)
  | .ok (pruned, n) => (pruned, .ok n)

/-- State of the first loop of `prune_dupes`. -/
structure PruneState where
  n : Nat := 0
  pruned1 : List Resource := []
  seen : List Str := []
  deletes : Dict (Option Str) := []

/-- resource_container.py 222-231: one round of the first loop. -/
def pruneStep (st : PruneState) (r : Resource) : PruneState :=
  if r.uri ∈ st.seen then
    { st with
      n := st.n + 1
      deletes := if (dget st.deletes r.uri).isSome then dset st.deletes r.uri r.change else st.deletes }
  else
    { st with
      pruned1 := st.pruned1 ++ [r]
      seen := r.uri :: st.seen
      deletes := if r.change = some sDeleted then dset st.deletes r.uri r.change else st.deletes }

/-- resource_container.py 234-238: the second loop. -/
def pruneStep2 (deletes : Dict (Option Str)) : List Resource → Nat → List Resource → List Resource × Nat
  | [], n, pruned2 => (pruned2, n)
  | r :: t, n, pruned2 =>
    if dget deletes r.uri = some (some sCreated) then pruneStep2 deletes t (n + 1) pruned2
    else pruneStep2 deletes t n (pruned2 ++ [r])

/-- resource_container.py 211-240 `prune_dupes`: list afterwards and number removed. -/
def pruneDupes (cl : List Resource) : List Resource × Nat :=
  let st := cl.reverse.foldl pruneStep {}
  pruneStep2 st.deletes st.pruned1.reverse st.n []

/-- client.py 696-712 (core of `write_change_list` when not `empty`): the entries for two resource
list objects. -/
def changeEntries (h : Heap) (old new : Nat) : Except ListErr (List Resource) := do
  let (_, c) ← compare h old new
  let updated ← iterAll c.updated
  let deleted ← iterAll c.deleted
  let created ← iterAll c.created
  match addChangedResources [] (some sUpdated) updated with
  | (_, some e) => throw e
  | (cl, none) =>
    match addChangedResources cl (some sDeleted) deleted with
    | (_, some e) => throw e
    | (cl, none) =>
      match addChangedResources cl (some sCreated) created with
      | (_, some e) => throw e
      | (cl, none) => return cl

end Resync
