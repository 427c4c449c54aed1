import Verif.Model.Client
/-
Model of the status lines of /repo/resync/client.py: log_status (801-832) and its calls in baseline_or_audit (276-278, 326-328) and
incremental (441-442, 473-474).  The runs are those of Model/Client.lean with the counters and the lines added; that they are the same
runs is proved in Proofs/ClientStatus.lean.
-/

namespace Resync
open Py Resync.Spec

/-- `"%15s" % s` -/
def padLeft (w : Nat) (s : Str) : Str := List.replicate (w - s.length) ' ' ++ s

/-- client.py 801-832 `log_status`: the message -/
def logStatus (in_sync incremental audit : Bool) (same : Option Nat) (created updated deleted to_delete : Nat) : Str :=
  let wCreated := if audit then "to create".toList else "created".toList
  let wUpdated := if audit then "to update".toList else "updated".toList
  let wDeleted := if audit then "to delete".toList else "deleted".toList
  let r : Str × Str × Nat :=
    if in_sync then ((if incremental then "NO CHANGES".toList else "IN SYNC".toList), wDeleted, deleted)
    else if audit then ("NOT IN SYNC".toList, wDeleted, deleted)
    else if to_delete > deleted then
      ((if incremental then "PART APPLIED".toList else "PART SYNCED".toList), "to delete (--delete)".toList, to_delete)
    else ((if incremental then "CHANGES APPLIED".toList else "SYNCED".toList), wDeleted, deleted)
  let same := match same with
    | none => []
    | some n => "same=".toList ++ natStr n ++ ", ".toList
  "Status: ".toList ++ padLeft 15 r.1 ++ " (".toList ++ same ++ wCreated ++ "=".toList ++ natStr created ++ ", ".toList ++
    wUpdated ++ "=".toList ++ natStr updated ++ ", ".toList ++ r.2.1 ++ "=".toList ++ natStr r.2.2 ++ ")".toList

/-- `for resource in ...:` with `num += ...` -/
def forCount (f : St → Resource → St × Except ClientErr Nat) : List Resource → St → Nat → St × Except ClientErr Nat
  | [], s, n => (s, .ok n)
  | r :: rs, s, n =>
    match f s r with
    | (s, .error e) => (s, .error e)
    | (s, .ok k) => forCount f rs s (n + k)

/-- client.py 299-308: one round, with what is added to the counter -/
def updateCount (env : Env) (c : ClientCfg) (s : St) (r : Resource) : St × Except ClientErr Nat :=
  match c.disc.mapper.srcToDst r.uri with
  | .error _ => (s, .error .uncaught)
  | .ok filename => updateResource env c s r filename

/-- client.py 309-313: one round, with what is added to the counter -/
def deleteCount (env : Env) (c : ClientCfg) (allow_deletion : Bool) (s : St) (r : Resource) : St × Except ClientErr Nat :=
  match c.disc.mapper.srcToDst r.uri with
  | .error _ => (s, .error .uncaught)
  | .ok filename =>
    let d := deleteResource env c allow_deletion s r filename
    (d.1, .ok d.2)

/-- client.py 284-329, with the last status line -/
def baselineSyncReport (env : Env) (c : ClientCfg) (allow_deletion : Bool) (src : Dict Resource) (cmp : Comparison) (s : St) :
    St × Except ClientErr Unit × List Str :=
  match baselineAuthority c src with
  | .error e => (s, .error e, [])
  | .ok () =>
    let s := { s with last_timestamp := 0 }
    match forCount (updateCount env c) (iterList cmp.created) s 0 with
    | (s, .error e) => (s, .error e, [])
    | (s, .ok num_created) =>
      match forCount (updateCount env c) (iterList cmp.updated) s 0 with
      | (s, .error e) => (s, .error e, [])
      | (s, .ok num_updated) =>
        match forCount (deleteCount env c allow_deletion) (iterList cmp.deleted) s 0 with
        | (s, .error e) => (s, .error e, [])
        | (s, .ok num_deleted) =>
          match (if s.last_timestamp > 0 then storeState env c s else (s, .ok ())) with
          | (s, .error e) => (s, .error e, [])
          | (s, .ok ()) => (s, .ok (), [logStatus (cmp.updated.length + cmp.deleted.length + cmp.created.length == 0) false false
              (some cmp.same.length) num_created num_updated num_deleted cmp.deleted.length])

/-- client.py 244-329 `baseline_or_audit`, with the status lines in the order they are printed -/
def baselineReport (env : Env) (c : ClientCfg) (allow_deletion audit_only : Bool) (s : St) : St × Except ClientErr Unit × List Str :=
  match baselinePlan env c audit_only s with
  | (s, .error e) => (s, .error e, [])
  | (s, .ok (src, cmp)) =>
    let first := logStatus (cmp.updated.length + cmp.deleted.length + cmp.created.length == 0) false true (some cmp.same.length)
      cmp.created.length cmp.updated.length cmp.deleted.length 0
    if audit_only ∨ cmp.created.length + cmp.updated.length + cmp.deleted.length = 0 then (s, .ok (), [first])
    else
      let r := baselineSyncReport env c allow_deletion src cmp s
      (r.1, r.2.1, first :: r.2.2)

/-- Three counters -/
structure Counts where
  created : Nat := 0
  updated : Nat := 0
  deleted : Nat := 0
deriving DecidableEq

/-- client.py 420-433: the changes to apply, by type -/
def toDo (cl : List Resource) : Counts where
  created := cl.countP (fun r => r.change = some sCreated)
  updated := cl.countP (fun r => r.change = some sUpdated)
  deleted := cl.countP (fun r => r.change = some sDeleted)

/-- client.py 452-471: one round of the loop with the counters.  What update_resource returns is not looked at. -/
def applyCount (env : Env) (c : ClientCfg) (allow_deletion : Bool) (s : St) (n : Counts) (r : Resource) :
    St × Except ClientErr Counts :=
  match c.disc.mapper.srcToDst r.uri with
  | .error _ => (s, .error .uncaught)
  | .ok filename =>
    if r.change = some sUpdated then
      match updateResource env c s r filename with
      | (s, .error e) => (s, .error e)
      | (s, .ok _) => (s, .ok { n with updated := n.updated + 1 })
    else if r.change = some sCreated then
      match updateResource env c s r filename with
      | (s, .error e) => (s, .error e)
      | (s, .ok _) => (s, .ok { n with created := n.created + 1 })
    else if r.change = some sDeleted then
      let d := deleteResource env c allow_deletion s r filename
      (d.1, .ok { n with deleted := n.deleted + d.2 })
    else (s, .error .error)

/-- client.py 452-471: the loop -/
def applyAll (env : Env) (c : ClientCfg) (allow_deletion : Bool) : List Resource → St → Counts → St × Except ClientErr Counts
  | [], s, n => (s, .ok n)
  | r :: rs, s, n =>
    match applyCount env c allow_deletion s n r with
    | (s, .error e) => (s, .error e)
    | (s, .ok n) => applyAll env c allow_deletion rs s n

/-- client.py 331-479 `incremental`, with the status lines in the order they are printed.  The second call of log_status leaves
`in_sync` at its default True. -/
def incrementalReport (env : Env) (c : ClientCfg) (allow_deletion : Bool) (change_list_uri from_datetime : Option Str) (s : St) :
    St × Except ClientErr Unit × List Str :=
  match incrementalPlan env c change_list_uri from_datetime s with
  | (s, .error e) => (s, .error e, [])
  | (s, .ok cl) =>
    let t := toDo cl
    let in_sync : Bool := t.updated + t.deleted + t.created == 0
    let first := logStatus in_sync true false none t.created t.updated t.deleted 0
    if in_sync ∨ (t.updated + t.created = 0 ∧ ¬ allow_deletion) then (s, .ok (), [first])
    else
      match applyAll env c allow_deletion cl s {} with
      | (s, .error e) => (s, .error e, [first])
      | (s, .ok n) =>
        let last := logStatus true true false none n.created n.updated n.deleted t.deleted
        match (if s.last_timestamp > 0 then storeState env c s else (s, .ok ())) with
        | (s, .error e) => (s, .error e, [first, last])
        | (s, .ok ()) => (s, .ok (), [first, last])

end Resync
