import Verif.Model.ClientLog
import Verif.Spec.ClientStatus
/-
What the log of a run ought to say about each resource (C109).
-/

namespace Resync.Spec
open Py

/-- The files removed, in order -/
def unlinkedOf (es : List Effect) : List Loc :=
  es.filterMap (fun e => match e with
    | .unlink l => some l
    | _ => none)

/-- A download is complete when the bytes just written are the whole body of the reply to the request made just before the file was
opened: the URI, the file and the bytes.  `before` is everything done before. -/
def completes (env : Env) (before : List Effect) : Effect → Option (Str × Loc × Bytes)
  | .append l b =>
    match before.reverse with
    | .trunc _ _ :: .get u :: earlier => if env.serve earlier.reverse u = .body b none then some (u, l, b) else none
    | _ => none
  | _ => none

/-- The downloads completed, in order -/
def completedFrom (env : Env) : List Effect → List Effect → List (Str × Loc × Bytes)
  | _, [] => []
  | before, e :: es => (completes env before e).toList ++ completedFrom env (before ++ [e]) es

/-- a message about a file that is not what was expected -/
def isComplaint : LogMsg → Bool
  | .size .. => true
  | .hash .. => true
  | _ => false

/-- The events of the log about resources fetched, in order, each with the complaints that follow it -/
def reportsOf : List LogMsg → List (Resource × List LogMsg)
  | [] => []
  | .event r :: t => if r.change = some "deleted".toList then reportsOf t else (r, t.takeWhile isComplaint) :: reportsOf t
  | _ :: t => reportsOf t

/-- The events of the log about deletions, in order -/
def deletionsOf : List LogMsg → List Resource
  | [] => []
  | .event r :: t => if r.change = some "deleted".toList then r :: deletionsOf t else deletionsOf t
  | _ :: t => deletionsOf t

/-- The place for the resource of this URI -/
def FilePlace (env : Env) (c : ClientCfg) (u : Str) (l : Loc) : Prop :=
  ∃ filename, c.disc.mapper.srcToDst u = .ok filename ∧ l = location env.cwd filename

/-- The complaints there are to be about a resource when these bytes have been fetched for it: the length differs from the one stated,
or a digest of one of these types does -/
structure Complains (lib : HashLib) (types : List Str) (r : Resource) (b : Bytes) (ms : List LogMsg) : Prop where
  size : ∀ got expected, .size r.uri got expected ∈ ms ↔ r.length = some expected ∧ got = b.length ∧ expected ≠ b.length
  md5 : ∀ got expected, .hash "md5".toList r.uri got expected ∈ ms ↔
    "md5".toList ∈ types ∧ r.md5 = some expected ∧ got = lib.md5 b ∧ expected ≠ got
  sha1 : ∀ got expected, .hash "sha-1".toList r.uri got expected ∈ ms ↔
    "sha-1".toList ∈ types ∧ r.sha1 = some expected ∧ got = lib.sha1 b ∧ expected ≠ got
  sha256 : ∀ got expected, .hash "sha-256".toList r.uri got expected ∈ ms ↔
    "sha-256".toList ∈ types ∧ r.sha256 = some expected ∧ got = lib.sha256 b ∧ expected ≠ got
  nothing_else : ∀ m ∈ ms, (∃ got expected, m = .size r.uri got expected) ∨
    ∃ type ∈ ["md5".toList, "sha-1".toList, "sha-256".toList], ∃ got expected, m = .hash type r.uri got expected
  once : ms.Nodup

/-- A log tells what has been done: its events are, one for one and in order, about the downloads completed and the files removed, and
after each event about a download come the complaints there are to be -/
structure Tells (env : Env) (c : ClientCfg) (types : List Str) (before done : List Effect) (log : List LogMsg) : Prop where
  fetched : List.Forall₂ (fun (d : Str × Loc × Bytes) (e : Resource × List LogMsg) =>
      d.1 = e.1.uri ∧ FilePlace env c e.1.uri d.2.1 ∧ Complains env.lib types e.1 d.2.2 e.2)
    (completedFrom env before done) (reportsOf log)
  removed : List.Forall₂ (fun l (r : Resource) => FilePlace env c r.uri l) (unlinkedOf done) (deletionsOf log)

/-- The message that says how it went with a resource: its URI -/
def outcome : LogMsg → Option Str
  | .event r => some r.uri
  | .wouldGet u _ => some u
  | .failedTries u _ => some u
  | .failedGet u => some u
  | .wouldDelete u _ => some u
  | .failedDelete u _ => some u
  | .noDelete u => some u
  | _ => none

/-- The resources about which the log says how it went, in order -/
def outcomes (log : List LogMsg) : List Str := log.filterMap outcome

/-- There is no file for this resource of the source's list -/
def Missing (m : Map) (root : Loc) (src : Dict Resource) (fs : Fs) (u : Str) : Prop :=
  (∃ r, (u, r) ∈ src) ∧ ∀ b t, ¬ LocalFile m root fs u b t

/-- The file for this resource of the source's list is another one -/
def Outdated (m : Map) (root : Loc) (src : Dict Resource) (fs : Fs) (u : Str) : Prop :=
  ∃ r, (u, r) ∈ src ∧ ∃ b t, LocalFile m root fs u b t ∧ ¬ Agrees r b t

/-- There is a file which is not in the source's list -/
def Surplus (m : Map) (root : Loc) (src : Dict Resource) (fs : Fs) (u : Str) : Prop :=
  (∀ r, (u, r) ∉ src) ∧ ∃ b t, LocalFile m root fs u b t

end Resync.Spec
