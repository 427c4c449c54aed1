import Verif.Model.Client
/-
Model of the messages /repo/resync/client.py logs about each resource of a baseline or incremental synchronisation: log_event
(240-242), the lines of baseline_or_audit (299-316) and incremental (452-468), update_resource (481-548), check_hashes (550-578) and
delete_resource (580-619).  The runs are those of Model/Client.lean with the messages added; that they are the same runs is proved in
Proofs/ClientLog.lean.

Simplifications: a message is kept as what it is about, not as text; the texts of the exceptions in warnings are left out, and so are
the messages before and after the loops (Model/ClientStatus.lean has the status lines); with no tries at all (`--tries -1`) and a
directory in the place of the file, the sanity checks are left out.
-/

namespace Resync
open Py Resync.Spec

/-- What is logged about a resource -/
inductive LogMsg
  /-- client.py 304-311, 456-460 "created: uri -> filename", "updated: uri -> filename", before anything is done -/
  | start (change uri filename : Str)
  /-- 501-503 "dryrun: would GET" -/
  | wouldGet (uri filename : Str)
  /-- 516 "Download timed out, retrying..." -/
  | retrying
  /-- 521 the warning "Failed to GET uri after n tries" -/
  | failedTries (uri : Str) (tries : Nat)
  /-- 528 the warning "Failed to GET uri" -/
  | failedGet (uri : Str)
  /-- 240-242 "Event: " and the resource -/
  | event (r : Resource)
  /-- 543 "Downloaded size for uri of n bytes does not match expected m bytes" -/
  | size (uri : Str) (got : Nat) (expected : Int)
  /-- 567-578 "MD5 mismatch for uri, got x but expected y" -/
  | hash (type uri got expected : Str)
  /-- 597 "dryrun: would delete" -/
  | wouldDelete (uri filename : Str)
  /-- 604 "deleted: uri -> filename" -/
  | deleted (uri filename : Str)
  /-- 610 the warning "Failed to DELETE" -/
  | failedDelete (uri filename : Str)
  /-- 617 "nodelete: would delete uri (--delete to enable)" -/
  | noDelete (uri : Str)
deriving DecidableEq

/-- client.py 504-532: the loop over the tries as `getLoop`, with the messages; `tries` is the setting, the number counts down -/
def getLoopLog (env : Env) (ignore_failures : Bool) (tries : Nat) (uri : Str) (l : Loc) : Nat → St → St × Got × List LogMsg
  | 0, s => (s, .skipped, [])
  | n + 1, s =>
    let r := tryGet env s uri l
    let fail (m : LogMsg) : Got × List LogMsg := if ignore_failures then (.gaveUp, [m]) else (.raised .fatal, [])
    match r.2 with
    | none => (r.1, .updated, [])
    | some .timeout =>
      if n = 0 then (r.1, fail (.failedTries uri tries))
      else
        let t := getLoopLog env ignore_failures tries uri l n r.1
        (t.1, t.2.1, .retrying :: t.2.2)
    | some .io => (r.1, fail (.failedGet uri))
    | some .other => (r.1, .raised .uncaught, [])

/-- client.py 567-578: the message about one type of hash; `hashes` are those calculated -/
def hashMessage (hashes : List Str) (type uri : Str) (expected got : Option Str) : List LogMsg :=
  if type ∈ hashes ∧ expected ≠ got then [.hash type uri (got.getD []) (expected.getD [])] else []

/-- client.py 550-578 `check_hashes` -/
def checkHashes (lib : HashLib) (hashes : List Str) (content : Bytes) (r : Resource) : List LogMsg :=
  let hs := (if sMd5 ∈ hashes ∧ r.md5 ≠ none then [sMd5] else []) ++
    (if sSha1 ∈ hashes ∧ r.sha1 ≠ none then [sSha1] else []) ++
    (if sSha256 ∈ hashes ∧ r.sha256 ≠ none then [sSha256] else [])
  match HashObj.new hs (some (some content)) with
  | .error _ => []   -- never: the types are known and the file is there
  | .ok o =>
    hashMessage hs sMd5 r.uri r.md5 (o.md5 lib) ++ hashMessage hs sSha1 r.uri r.sha1 (o.sha1 lib) ++
      hashMessage hs sSha256 r.uri r.sha256 (o.sha256 lib)

/-- client.py 541-547: the sanity checks of the file now at `l` -/
def sanityLog (env : Env) (s : St) (l : Loc) (r : Resource) : List LogMsg :=
  match s.world.fs.get l with
  | some (.file content _) =>
    (match r.length with
      | some n => if n ≠ content.length then [.size r.uri content.length n] else []
      | none => []) ++
    (if s.hashes.length > 0 then checkHashes env.lib s.hashes content r else [])
  | _ => []

/-- client.py 533-547: after the loop over the tries -/
def finishLog (env : Env) (s : St) (l : Loc) (r : Resource) (change : Str) (num : Nat) : St × Except ClientErr Nat × List LogMsg :=
  match setTime s l r.timestamp with
  | (s, .error e) => (s, .error e, [])
  | (s, .ok ()) => (s, .ok num, .event { r with change := some change } :: sanityLog env s l r)

/-- client.py 481-548 `update_resource`, with the messages -/
def updateResourceLog (env : Env) (c : ClientCfg) (s : St) (r : Resource) (filename change : Str) :
    St × Except ClientErr Nat × List LogMsg :=
  match mkpath env [] (location env.cwd (dirname filename)) s with
  | (s, false) => (s, .error .uncaught, [])
  | (s, true) =>
    if c.dryrun then (s, .ok 0, [.wouldGet r.uri filename])
    else
      let l := location env.cwd filename
      match getLoopLog env c.ignore_failures c.tries r.uri l c.tries s with
      | (s, .raised e, log) => (s, .error e, log)
      | (s, .gaveUp, log) => (s, .ok 0, log)
      | (s, .updated, log) =>
        let f := finishLog env s l r change 1
        (f.1, f.2.1, log ++ f.2.2)
      | (s, .skipped, log) =>
        let f := finishLog env s l r change 0
        (f.1, f.2.1, log ++ f.2.2)

/-- client.py 580-620 `delete_resource`, with the messages -/
def deleteResourceLog (env : Env) (c : ClientCfg) (allow_deletion : Bool) (s : St) (r : Resource) (filename : Str) :
    St × Nat × List LogMsg :=
  let s := s.seen r.timestamp
  if ¬ allow_deletion then (s, 0, [.noDelete r.uri])
  else if c.dryrun then (s, 0, [.wouldDelete r.uri filename])
  else
    let l := location env.cwd filename
    match s.world.fs.get l with
    | some (.file ..) =>
      if env.unlinkFails s.trace l then (s, 0, [.failedDelete r.uri filename])
      else (s.emit (.unlink l), 1, [.deleted r.uri filename, .event { r with change := some sDeleted }])
    | _ => (s, 0, [.failedDelete r.uri filename])

/-- client.py 302-307 (`change` = 'created') and 308-312 ('updated'): one round of the loop, with the messages -/
def updateOneLog (env : Env) (c : ClientCfg) (change : Str) (s : St) (r : Resource) : St × Except ClientErr Unit × List LogMsg :=
  match c.disc.mapper.srcToDst r.uri with
  | .error _ => (s, .error .uncaught, [])
  | .ok filename =>
    match updateResourceLog env c s r filename change with
    | (s, .error e, log) => (s, .error e, .start change r.uri filename :: log)
    | (s, .ok _, log) => (s, .ok (), .start change r.uri filename :: log)

/-- client.py 313-317: one round of the loop over deleted, with the messages -/
def deleteOneLog (env : Env) (c : ClientCfg) (allow_deletion : Bool) (s : St) (r : Resource) :
    St × Except ClientErr Unit × List LogMsg :=
  match c.disc.mapper.srcToDst r.uri with
  | .error _ => (s, .error .uncaught, [])
  | .ok filename =>
    let d := deleteResourceLog env c allow_deletion s r filename
    (d.1, .ok (), d.2.2)

/-- `for resource in ...:` with an exception ending the loop, with the messages -/
def forLog (f : St → Resource → St × Except ClientErr Unit × List LogMsg) :
    List Resource → St → St × Except ClientErr Unit × List LogMsg
  | [], s => (s, .ok (), [])
  | r :: rs, s =>
    match f s r with
    | (s, .error e, log) => (s, .error e, log)
    | (s, .ok (), log) =>
      let t := forLog f rs s
      (t.1, t.2.1, log ++ t.2.2)

/-- client.py 284-325: from the authority check on, with the messages about resources -/
def baselineSyncLog (env : Env) (c : ClientCfg) (allow_deletion : Bool) (src : Dict Resource) (cmp : Comparison) (s : St) :
    St × Except ClientErr Unit × List LogMsg :=
  match baselineAuthority c src with
  | .error e => (s, .error e, [])
  | .ok () =>
    let s := { s with last_timestamp := 0 }
    match forLog (updateOneLog env c sCreated) (iterList cmp.created) s with
    | (s, .error e, log) => (s, .error e, log)
    | (s, .ok (), log1) =>
      match forLog (updateOneLog env c sUpdated) (iterList cmp.updated) s with
      | (s, .error e, log) => (s, .error e, log1 ++ log)
      | (s, .ok (), log2) =>
        match forLog (deleteOneLog env c allow_deletion) (iterList cmp.deleted) s with
        | (s, .error e, log) => (s, .error e, log1 ++ (log2 ++ log))
        | (s, .ok (), log3) =>
          let t := if s.last_timestamp > 0 then storeState env c s else (s, .ok ())
          (t.1, t.2, log1 ++ (log2 ++ log3))

/-- client.py 244-329 `baseline_or_audit`, with the messages about resources -/
def baselineLog (env : Env) (c : ClientCfg) (allow_deletion audit_only : Bool) (s : St) : St × Except ClientErr Unit × List LogMsg :=
  match baselinePlan env c audit_only s with
  | (s, .error e) => (s, .error e, [])
  | (s, .ok (src, cmp)) =>
    if audit_only ∨ cmp.created.length + cmp.updated.length + cmp.deleted.length = 0 then (s, .ok (), [])
    else baselineSyncLog env c allow_deletion src cmp s

/-- client.py 452-468: one round of the loop applying changes, with the messages -/
def applyOneLog (env : Env) (c : ClientCfg) (allow_deletion : Bool) (s : St) (r : Resource) :
    St × Except ClientErr Unit × List LogMsg :=
  match c.disc.mapper.srcToDst r.uri with
  | .error _ => (s, .error .uncaught, [])
  | .ok filename =>
    if r.change = some sUpdated then
      match updateResourceLog env c s r filename sUpdated with
      | (s, .error e, log) => (s, .error e, .start sUpdated r.uri filename :: log)
      | (s, .ok _, log) => (s, .ok (), .start sUpdated r.uri filename :: log)
    else if r.change = some sCreated then
      match updateResourceLog env c s r filename sCreated with
      | (s, .error e, log) => (s, .error e, .start sCreated r.uri filename :: log)
      | (s, .ok _, log) => (s, .ok (), .start sCreated r.uri filename :: log)
    else if r.change = some sDeleted then
      let d := deleteResourceLog env c allow_deletion s r filename
      (d.1, .ok (), d.2.2)
    else (s, .error .error, [])

/-- client.py 331-479 `incremental`, with the messages about resources -/
def incrementalLog (env : Env) (c : ClientCfg) (allow_deletion : Bool) (change_list_uri from_datetime : Option Str) (s : St) :
    St × Except ClientErr Unit × List LogMsg :=
  match incrementalPlan env c change_list_uri from_datetime s with
  | (s, .error e) => (s, .error e, [])
  | (s, .ok cl) =>
    if cl = [] ∨ (cl.all (fun r => r.change = some sDeleted) ∧ ¬ allow_deletion) then (s, .ok (), [])
    else
      match forLog (applyOneLog env c allow_deletion) cl s with
      | (s, .error e, log) => (s, .error e, log)
      | (s, .ok (), log) =>
        let t := if s.last_timestamp > 0 then storeState env c s else (s, .ok ())
        (t.1, t.2, log)

end Resync
