import Verif.Spec.Locality
import Verif.Spec.Copies
import Verif.Spec.ClientStatus
/-
Syncs done with the same disk, one after the other (C124).
-/

namespace Resync.Spec
open Py

/-- what is to be done: a baseline sync, or an incremental one from a given time on -/
inductive Work
  | baseline
  | incremental (change_list_uri : Option Str) (from_datetime : Str)

/-- a sync to be done: what the client will meet, its settings, whether it may delete, the hash types to be
checked, and the destinations of its mapping -/
structure Job where
  work : Work
  env : Env
  cfg : ClientCfg
  allow_deletion : Bool
  hashes : List Str
  sites : List (Map × Loc)

/-- the sync is done -/
def Job.run (j : Job) (s : St) : St × Except ClientErr Unit :=
  match j.work with
  | .baseline => baselineOrAudit j.env j.cfg j.allow_deletion false s
  | .incremental uri d => incremental j.env j.cfg j.allow_deletion uri (some d) s

/-- a client that has not done anything yet -/
def Job.start (j : Job) (fs : Fs) (state : Option Str) : St := { world := { fs := fs, state := state }, hashes := j.hashes }

/-- On a disk with the contents `fs` it leaves `fs'`, whatever was in the state file; it need not end well. -/
def Job.Leaves (j : Job) (fs fs' : Fs) : Prop := ∃ state, fs' = (j.run (j.start fs state)).1.world.fs

/-- The list of resources, or of changes, has nothing but URIs below the mapped ones, and the destinations exist. -/
structure Job.Fits (j : Job) (fs : Fs) : Prop where
  sites : Sites j.cfg j.env.cwd j.sites fs
  hashes : ∀ t ∈ j.hashes, HashType t
  keyed : ListsKeyed j.env.sources
  below : match j.work with
    | .baseline => ∀ src, (findResourceList j.env.sources j.cfg.disc).2 = .ok src → ListBelow j.sites src
    | .incremental uri _ => ∀ changes, ChangesRead j.env j.cfg uri changes → ∀ r ∈ changes, BelowSites j.sites r.uri
  there : ∀ p ∈ j.sites, fs.get p.2 = some .dir

/-- no destination of one of them is inside a destination of the other one -/
def Job.Separate (j k : Job) : Prop := ∀ p ∈ j.sites, ∀ q ∈ k.sites, ¬ p.2 <+: q.2 ∧ ¬ q.2 <+: p.2

/-- the place is at or below one of the destinations -/
def Job.Owns (j : Job) (l : Loc) : Prop := ∃ p ∈ j.sites, p.2 <+: l

/-- the jobs are done one after the other -/
inductive DoneInTurn : List Job → Fs → Fs → Prop
  | none (fs : Fs) : DoneInTurn [] fs fs
  | next {j : Job} {js : List Job} {fs x out : Fs} : j.Leaves fs x → DoneInTurn js x out → DoneInTurn (j :: js) fs out

end Resync.Spec
