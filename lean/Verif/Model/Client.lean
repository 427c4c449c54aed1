import Verif.Model.Discovery
import Verif.Model.Builder
import Verif.Model.Fs
import Verif.Model.ChangeList
import Verif.Model.ClientState
import Verif.Model.UrlAuthority
import Verif.Model.W3CDatetime
/-
Model of the synchronisation functions of /repo/resync/client.py (lines 244-620 and 791-799).

Everything a run does to the outside is recorded as a list of effects; the state of the disk and of the state file at
any moment is the initial one with the effects so far applied, so that a crash leaves the state after some prefix.

Simplifications: log messages, the counters only used in them, log_event and the sanity checks of update_resource (which
only write log messages, client.py 534-547) are left out; the file system is that of Fs.lean; the status file is
kept apart from it; distutils.dir_util.mkpath's cache of created directories is left out, since the client
itself removes no directories; setting the modification time always succeeds on an existing file; source documents do not
change while they are being read.
-/

namespace Resync
open Py Resync.Spec

/-- What a run does to the outside -/
inductive Effect
  /-- os.mkdir -/
  | mkdir (l : Loc)
  /-- a request for a resource -/
  | get (uri : Str)
  /-- open(filename, 'wb'), at this time -/
  | trunc (l : Loc) (now : Rat)
  /-- bytes written to the open file -/
  | append (l : Loc) (b : Bytes)
  /-- os.utime -/
  | utime (l : Loc) (t : Int)
  /-- os.unlink -/
  | unlink (l : Loc)
  /-- the status file is written -/
  | setState (text : Str)
deriving DecidableEq

structure World where
  fs : Fs
  /-- the text of the status file -/
  state : Option Str := none
deriving DecidableEq

def Effect.onFs (fs : Fs) : Effect → Fs
  | .mkdir l => match fs.get l with
    | none => fs.set l .dir
    | some _ => fs
  | .get _ => fs
  | .trunc l now => fs.set l (.file [] now)
  | .append l b => match fs.get l with
    | some (.file c m) => fs.set l (.file (c ++ b) m)
    | _ => fs
  | .utime l t => match fs.get l with
    | some (.file c _) => fs.set l (.file c t)
    | _ => fs
  | .unlink l => fs.del l
  | .setState _ => fs

def World.apply (w : World) (e : Effect) : World where
  fs := e.onFs w.fs
  state := match e with
    | .setState text => some text
    | _ => w.state

inductive Failure
  /-- socket.timeout -/
  | timeout
  /-- any other IOError (URLError, HTTPError, ...) -/
  | io
  /-- an exception that is not an IOError (http.client.HTTPException, ValueError, ...) -/
  | other
deriving DecidableEq

/-- What the server does with a request: no response, or a body, possibly broken off.  A failure to write the local file
is an `io` failure after the bytes that could be written. -/
inductive Reply
  | fail (e : Failure)
  | body (b : Bytes) (broken : Option Failure)
deriving DecidableEq

/-- The surroundings of a run.  What they do may depend on everything that has been done so far. -/
structure Env where
  sources : Sources
  /-- reading a change list; `none`: some exception -/
  changeList : Str → Option (List Resource)
  serve : List Effect → Str → Reply
  now : List Effect → Rat
  mkdirFails : List Effect → Loc → Bool
  openFails : List Effect → Loc → Bool
  unlinkFails : List Effect → Loc → Bool
  lib : HashLib
  ft : FloatText Rat
  cwd : Loc

/-- client.py 46-72: the settings of a Client -/
structure ClientCfg where
  disc : DiscCfg
  change_list_name : Str := "changelist.xml".toList
  spec_version : Str := "1.1".toList
  dryrun : Bool := false
  noauth : Bool := false
  strictauth : Bool := false
  ignore_failures : Bool := false
  tries : Nat := 20

/-- What changes during a run: the world, what has been done, and the attributes `hashes` and `last_timestamp` -/
structure St where
  world : World
  trace : List Effect := []
  hashes : List Str := []
  last_timestamp : Rat := 0

def St.emit (s : St) (e : Effect) : St := { s with world := s.world.apply e, trace := s.trace ++ [e] }

/-- distutils.dir_util.mkpath: creates the missing directories on the way; DistutilsFileError if there is a file, or if
mkdir fails.  `pre` is the part already there, `rest` the names still to go. -/
def mkpath (env : Env) : Loc → List Str → St → St × Bool
  | _, [], s => (s, true)
  | pre, n :: rest, s =>
    match s.world.fs.get (pre ++ [n]) with
    | some .dir => mkpath env (pre ++ [n]) rest s
    | some (.file ..) => (s, false)
    | none =>
      if env.mkdirFails s.trace (pre ++ [n]) then (s, false)
      else mkpath env (pre ++ [n]) rest (s.emit (.mkdir (pre ++ [n])))

/-- open(filename, 'wb'): IOError on a directory, without a directory to put the file in, and when the environment
wants it -/
def openW (env : Env) (s : St) (l : Loc) : Option St :=
  if l = [] ∨ s.world.fs.get l = some .dir ∨ ¬ s.world.fs.isDir l.dropLast ∨ env.openFails s.trace l then none
  else some (s.emit (.trunc l (env.now s.trace)))

/-- client.py 506-510: one try; the exception, if any -/
def tryGet (env : Env) (s : St) (uri : Str) (l : Loc) : St × Option Failure :=
  let reply := env.serve s.trace uri
  let s := s.emit (.get uri)
  match reply with
  | .fail e => (s, some e)
  | .body b broken =>
    match openW env s l with
    | none => (s, some .io)
    | some s => (s.emit (.append l b), broken)

/-- How the loop over the tries ends -/
inductive Got
  /-- num_updated = 1 -/
  | updated
  /-- the loop was not entered (tries = 0) -/
  | skipped
  /-- returned with num_updated = 0 (ignore_failures) -/
  | gaveUp
  | raised (e : ClientErr)
deriving DecidableEq

/-- client.py 504-532: the loop over the tries, with so many left -/
def getLoop (env : Env) (ignore_failures : Bool) (uri : Str) (l : Loc) : Nat → St → St × Got
  | 0, s => (s, .skipped)
  | n + 1, s =>
    let r := tryGet env s uri l
    let fail := if ignore_failures then Got.gaveUp else Got.raised .fatal
    match r.2 with
    | none => (r.1, .updated)
    | some .timeout => if n = 0 then (r.1, fail) else getLoop env ignore_failures uri l n r.1
    | some .io => (r.1, fail)
    | some .other => (r.1, .raised .uncaught)

/-- int(x): towards zero -/
def truncRat (q : Rat) : Int := q.num.tdiv q.den

/-- `if t > self.last_timestamp: self.last_timestamp = t` -/
def St.seen (s : St) (t : Option Rat) : St :=
  match t with
  | some t => if t > s.last_timestamp then { s with last_timestamp := t } else s
  | none => s

/-- client.py 533-538: the timestamp is set; an exception if there is no file -/
def setTime (s : St) (l : Loc) (t : Option Rat) : St × Except ClientErr Unit :=
  match s.world.fs.get l with
  | none => (s, .error .uncaught)   -- os.utime, or os.stat if there is no timestamp
  | some _ =>
    match t with
    | none => (s, .ok ())
    | some t => ((s.emit (.utime l (truncRat t))).seen (some t), .ok ())

/-- client.py 481-548 `update_resource` -/
def updateResource (env : Env) (c : ClientCfg) (s : St) (r : Resource) (filename : Str) : St × Except ClientErr Nat :=
  match mkpath env [] (location env.cwd (dirname filename)) s with
  | (s, false) => (s, .error .uncaught)
  | (s, true) =>
    if c.dryrun then (s, .ok 0)
    else
      let l := location env.cwd filename
      match getLoop env c.ignore_failures r.uri l c.tries s with
      | (s, .raised e) => (s, .error e)
      | (s, .gaveUp) => (s, .ok 0)
      | (s, .updated) =>
        match setTime s l r.timestamp with
        | (s, .error e) => (s, .error e)
        | (s, .ok ()) => (s, .ok 1)
      | (s, .skipped) =>
        match setTime s l r.timestamp with
        | (s, .error e) => (s, .error e)
        | (s, .ok ()) => (s, .ok 0)

/-- client.py 580-620 `delete_resource` -/
def deleteResource (env : Env) (c : ClientCfg) (allow_deletion : Bool) (s : St) (r : Resource) (filename : Str) : St × Nat :=
  let s := s.seen r.timestamp
  if ¬ allow_deletion then (s, 0)
  else if c.dryrun then (s, 0)
  else
    let l := location env.cwd filename
    match s.world.fs.get l with
    | some (.file ..) => if env.unlinkFails s.trace l then (s, 0) else (s.emit (.unlink l), 1)
    | _ => (s, 0)

/-- client.py 299-303 and 304-308: one round of the loops over created and updated -/
def updateOne (env : Env) (c : ClientCfg) (s : St) (r : Resource) : St × Except ClientErr Unit :=
  match c.disc.mapper.srcToDst r.uri with
  | .error _ => (s, .error .uncaught)
  | .ok filename =>
    match updateResource env c s r filename with
    | (s, .error e) => (s, .error e)
    | (s, .ok _) => (s, .ok ())

/-- client.py 309-313: one round of the loop over deleted -/
def deleteOne (env : Env) (c : ClientCfg) (allow_deletion : Bool) (s : St) (r : Resource) : St × Except ClientErr Unit :=
  match c.disc.mapper.srcToDst r.uri with
  | .error _ => (s, .error .uncaught)
  | .ok filename => ((deleteResource env c allow_deletion s r filename).1, .ok ())

/-- `for resource in ...:` with an exception ending the loop -/
def forEach (f : St → Resource → St × Except ClientErr Unit) : List Resource → St → St × Except ClientErr Unit
  | [], s => (s, .ok ())
  | r :: rs, s =>
    match f s r with
    | (s, .error e) => (s, .error e)
    | (s, .ok ()) => forEach f rs s

/-- iteration over a ResourceList -/
def iterList (d : Dict Resource) : List Resource :=
  match iterAll d with
  | .ok l => l
  | .error _ => []   -- never (Proofs/ResourceList.lean, iterAll_listing)

/-- client.py 791-799 `prune_hashes`: `found` are the hash types in the source -/
def pruneHashes (hashes found : List Str) : List Str := hashes.filter (fun h => h ∉ found)

/-- client.py 286-291: the check of each resource -/
def checkAuthority (sitemap : Str) (strict : Bool) (rs : List Resource) : Except ClientErr Unit :=
  match UrlAuthority.new (some sitemap) strict with
  | none => .error .uncaught
  | some a => go a rs
where
  go (a : UrlAuthority) : List Resource → Except ClientErr Unit
    | [] => .ok ()
    | r :: rs =>
      match a.hasAuthorityOver r.uri with
      | none => .error .uncaught
      | some false => .error .fatal
      | some true => go a rs

/-- `datetime_to_str(t)` in a log message: the exception for years outside 1..9999 -/
def logTime (t : Rat) : Except ClientErr Unit :=
  match datetimeToStr t false with
  | some _ => .ok ()
  | none => .error .uncaught

/-- client.py 319-324, 470-476: `ClientState().set_state(self.sitemap, self.last_timestamp)` and the log message with the time -/
def storeState (env : Env) (c : ClientCfg) (s : St) : St × Except ClientErr Unit :=
  match c.disc.sitemap with
  | .error e => (s, .error e)
  | .ok site =>
    match setState env.ft s.world.state site (some s.last_timestamp) with
    | .error _ => (s, .error .uncaught)
    | .ok none => (s, .ok ())   -- never
    | .ok (some text) => (s.emit (.setState text), logTime s.last_timestamp)

/-- two list objects -/
def pairHeap (dst src : Dict Resource) : Heap := fun o => if o = 0 then { dict := dst } else { dict := src }

/-- client.py 284-291: the authority check -/
def baselineAuthority (c : ClientCfg) (src : Dict Resource) : Except ClientErr Unit :=
  if c.noauth then .ok ()
  else
    match c.disc.sitemap with
    | .error e => .error e
    | .ok sitemap => checkAuthority sitemap c.strictauth (iterList src)

/-- client.py 284-321: from the authority check on, when there is something to do and it is not an audit -/
def baselineSync (env : Env) (c : ClientCfg) (allow_deletion : Bool) (src : Dict Resource) (cmp : Comparison) (s : St) :
    St × Except ClientErr Unit :=
  match baselineAuthority c src with
  | .error e => (s, .error e)
  | .ok () =>
    let s := { s with last_timestamp := 0 }
    match forEach (updateOne env c) (iterList cmp.created) s with
    | (s, .error e) => (s, .error e)
    | (s, .ok ()) =>
      match forEach (updateOne env c) (iterList cmp.updated) s with
      | (s, .error e) => (s, .error e)
      | (s, .ok ()) =>
        match forEach (deleteOne env c allow_deletion) (iterList cmp.deleted) s with
        | (s, .error e) => (s, .error e)
        | (s, .ok ()) => if s.last_timestamp > 0 then storeState env c s else (s, .ok ())

/-- client.py 262-283: what baseline_or_audit works out before it does anything.  The list found, the attribute
`hashes` afterwards, and the comparison. -/
def baselinePlan (env : Env) (c : ClientCfg) (audit_only : Bool) (s : St) :
    St × Except ClientErr (Dict Resource × Comparison) :=
  if c.disc.mapper = [] then (s, .error .fatal)
  else
    match (if audit_only then .ok false else c.disc.mapper.isUnsafe) with
    | .error _ => (s, .error .uncaught)
    | .ok true => (s, .error .fatal)
    | .ok false =>
      match (findResourceList env.sources c.disc).2 with
      | .error e => (s, .error e)
      | .ok src =>
        if src = [] then (s, .error .fatal)
        else
          let s := if s.hashes ≠ [] then { s with hashes := pruneHashes s.hashes (listHashes (iterList src)) } else s
          match (Builder.new c.disc.mapper (some s.hashes) true false).fromDisk env.lib (s.world.fs.disk env.cwd) with
          | .error _ => (s, .error .uncaught)
          | .ok dst =>
            match compare (pairHeap dst src) 0 1 with
            | .error _ => (s, .error .uncaught)
            | .ok (_, cmp) => (s, .ok (src, cmp))

/-- client.py 244-329 `baseline_or_audit` -/
def baselineOrAudit (env : Env) (c : ClientCfg) (allow_deletion audit_only : Bool) (s : St) : St × Except ClientErr Unit :=
  match baselinePlan env c audit_only s with
  | (s, .error e) => (s, .error e)
  | (s, .ok (src, cmp)) =>
    if audit_only ∨ cmp.created.length + cmp.updated.length + cmp.deleted.length = 0 then (s, .ok ())
    else baselineSync env c allow_deletion src cmp s

/-- client.py 380-390: every change has a time; the latest is recorded -/
def checkTimes : List Resource → Rat → Except ClientErr Rat
  | [], last => .ok last
  | r :: rs, last =>
    match r.ts_datetime, r.timestamp with
    | none, none => .error .fatal
    | some t, _ => checkTimes rs (if t > last then t else last)
    | none, some t => checkTimes rs (if t > last then t else last)

/-- client.py 397-403: `cs.has_authority_over(uri) or sm.has_authority_over(uri)` for each entry -/
def checkChangeAuthority (cs sm : UrlAuthority) : List Resource → Except ClientErr Unit
  | [] => .ok ()
  | r :: rs =>
    match cs.hasAuthorityOver r.uri with
    | none => .error .uncaught
    | some true => checkChangeAuthority cs sm rs
    | some false =>
      match sm.hasAuthorityOver r.uri with
      | none => .error .uncaught
      | some true => checkChangeAuthority cs sm rs
      | some false => .error .fatal

/-- client.py 391-403: the authority check.  With an explicit change list URI nothing is checked (but the
UrlAuthority object is made). -/
def incrementalAuthority (c : ClientCfg) (change_list : Str) (is_explicit : Bool) (cl : List Resource) : Except ClientErr Unit :=
  if c.noauth then .ok ()
  else
    match UrlAuthority.new (some change_list) c.strictauth with
    | none => .error .uncaught
    | some cs =>
      if is_explicit then .ok ()
      else
        match c.disc.sitemap with
        | .error e => .error e
        | .ok sitemap =>
          match UrlAuthority.new (some sitemap) false with
          | none => .error .uncaught
          | some sm => checkChangeAuthority cs sm cl

/-- client.py 452-470: one round of the loop applying changes -/
def applyOne (env : Env) (c : ClientCfg) (allow_deletion : Bool) (s : St) (r : Resource) : St × Except ClientErr Unit :=
  match c.disc.mapper.srcToDst r.uri with
  | .error _ => (s, .error .uncaught)
  | .ok filename =>
    if r.change = some sUpdated ∨ r.change = some sCreated then
      match updateResource env c s r filename with
      | (s, .error e) => (s, .error e)
      | (s, .ok _) => (s, .ok ())
    else if r.change = some sDeleted then ((deleteResource env c allow_deletion s r filename).1, .ok ())
    else (s, .error .error)

/-- client.py 338-362: the time from which changes are wanted -/
def startTime (env : Env) (c : ClientCfg) (from_datetime : Option Str) (s : St) : Except ClientErr Rat :=
  match from_datetime with
  | some d =>
    match strToDatetime d with
    | none => .error .fatal
    | some t => .ok t
  | none =>
    match c.disc.sitemap with
    | .error e => .error e
    | .ok site =>
      match getState env.ft s.world.state site with
      | .error _ => .error .uncaught
      | .ok none => .error .fatal
      | .ok (some t) => .ok t

/-- client.py 364: whether a change list URI has been given (the empty string counts as not given) -/
def givenUri : Option Str → Bool
  | some (_ :: _) => true
  | _ => false

/-- client.py 364-369: the URI given, or the default name -/
def ClientCfg.changeListName (c : ClientCfg) : Option Str → Str
  | some (x :: t) => x :: t
  | _ => c.change_list_name

/-- client.py 338-441: what incremental works out before it does anything: the changes to apply -/
def incrementalPlan (env : Env) (c : ClientCfg) (change_list_uri from_datetime : Option Str) (s : St) :
    St × Except ClientErr (List Resource) :=
  if c.disc.mapper = [] then (s, .error .fatal)
  else
    match c.disc.mapper.isUnsafe with
    | .error _ => (s, .error .uncaught)
    | .ok true => (s, .error .fatal)
    | .ok false =>
      match startTime env c from_datetime s with
      | .error e => (s, .error e)
      | .ok from_timestamp =>
        match c.disc.sitemapUri (c.changeListName change_list_uri) with
        | .error e => (s, .error e)
        | .ok change_list =>
          match env.changeList change_list with
          | none => (s, .error .fatal)
          | some cl =>
            if s.hashes ≠ [] then (s, .error .uncaught)   -- ChangeList has no method hashes
            else
              match checkTimes cl 0 with
              | .error e => (s, .error e)
              | .ok last =>
                let s := { s with last_timestamp := last }
                match incrementalAuthority c change_list (givenUri change_list_uri) cl with
                | .error e => (s, .error e)
                | .ok () =>
                  match pruneUpdatesBefore cl from_timestamp c.spec_version with
                  | (_, .error _) => (s, .error .uncaught)
                  | (cl, .ok num_skipped) =>
                    match (if num_skipped > 0 then logTime from_timestamp else .ok ()) with
                    | .error e => (s, .error e)
                    | .ok () =>
                      let cl := (pruneDupes cl).1
                      if cl.any (fun r => ¬ (r.change = some sUpdated ∨ r.change = some sCreated ∨ r.change = some sDeleted))
                      then (s, .error .error)
                      else (s, .ok cl)

/-- client.py 331-479 `incremental` -/
def incremental (env : Env) (c : ClientCfg) (allow_deletion : Bool) (change_list_uri from_datetime : Option Str) (s : St) :
    St × Except ClientErr Unit :=
  match incrementalPlan env c change_list_uri from_datetime s with
  | (s, .error e) => (s, .error e)
  | (s, .ok cl) =>
    if cl = [] ∨ (cl.all (fun r => r.change = some sDeleted) ∧ ¬ allow_deletion) then (s, .ok ())
    else
      match forEach (applyOne env c allow_deletion) cl s with
      | (s, .error e) => (s, .error e)
      | (s, .ok ()) => if s.last_timestamp > 0 then storeState env c s else (s, .ok ())

end Resync
