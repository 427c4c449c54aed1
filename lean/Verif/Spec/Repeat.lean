import Verif.Spec.Copies
/-
Specification vocabulary for syncs that are interrupted and repeated (C97).
-/

namespace Resync.Spec
open Py

/-- What a run from `s` to `s'` leaves behind when it is interrupted at some moment: the world after some of the things it does,
or after some of them and a part of the bytes that it writes next. -/
def LeftBy (s s' : St) (w : World) : Prop :=
  AtSomeMoment s s' w ∨
  ∃ k l b b', (doneBetween s s')[k]? = some (.append l b) ∧ b' <+: b ∧
    w = (((doneBetween s s').take k).foldl World.apply s.world).apply (.append l b')

/-- A server on which every resource has one content: a complete answer has all of it, an answer that is broken off the first part.
When and how often it breaks off or does not answer at all is left open. -/
structure OneContent (env : Env) (content : Str → Bytes) : Prop where
  whole : ∀ tr u b, env.serve tr u = .body b none → b = content u
  part : ∀ tr u b e, env.serve tr u = .body b (some e) → b <+: content u

/-- this is the URI of a file there could be below one of the destinations -/
def Placed (sites : List (Map × Loc)) (u : Str) : Prop :=
  ∃ p ∈ sites, ∃ names, names ≠ [] ∧ (∀ n ∈ names, PlainName n) ∧ u = uriBelow p.1 names

/-- A run for these sites, against a server that always delivers these contents if anything.  Whatever it publishes (other lists and
change lists each time, if it likes) is about files that have their places below the destinations. -/
structure FaithfulRun (cwd : Loc) (sites : List (Map × Loc)) (content : Str → Bytes) (env : Env) (c : ClientCfg) : Prop where
  cwd : env.cwd = cwd
  mapper : c.disc.mapper = sites.map Prod.fst
  serves : OneContent env content
  keyed : ListsKeyed env.sources
  listed : ∀ src, (findResourceList env.sources c.disc).2 = .ok src → ∀ u r, (u, r) ∈ src → Placed sites u
  changed : ∀ uri cl, env.changeList uri = some cl → ∀ r ∈ cl, Placed sites r.uri

/-- One attempt to synchronize takes the world from `w` to `w'`: a baseline or incremental sync or an audit, with any options, by a
process that is ended at any moment or not at all. -/
def Attempt (runs : Env → ClientCfg → Prop) (w w' : World) : Prop :=
  ∃ (env : Env) (c : ClientCfg) (s : St), runs env c ∧ s.world = w ∧
    ((∃ allow_deletion audit, LeftBy s (baselineOrAudit env c allow_deletion audit s).1 w') ∨
     ∃ allow_deletion uri from_datetime, LeftBy s (incremental env c allow_deletion uri from_datetime s).1 w')

/-- any number of attempts, one after the other -/
inductive Attempts (runs : Env → ClientCfg → Prop) (w : World) : World → Prop
  | none : Attempts runs w w
  | more {w1 w2 : World} : Attempts runs w w1 → Attempt runs w1 w2 → Attempts runs w w2

/-- Files below the destinations have the contents of their resources, or beginnings of them -/
def Beginnings (sites : List (Map × Loc)) (content : Str → Bytes) (fs : Fs) : Prop :=
  ∀ p ∈ sites, ∀ names b t, IsFile fs (p.2 ++ names) b t → b <+: content (uriBelow p.1 names)

/-- A run during which nothing unusual turns up: the files that are published have their places among these, all times, and that of
the clock, are before the year 10000, and the state is recorded under a proper URI. -/
structure OrderlyRun (cwd : Loc) (sites : List (Map × Loc)) (content : Str → Bytes) (ft : FloatText Rat) (places : Loc → Prop)
    (env : Env) (c : ClientCfg) : Prop extends FaithfulRun cwd sites content env c where
  text : env.ft = ft
  named : ∀ site, c.disc.sitemap = .ok site → site ≠ []
  clock : ∀ tr, Before10000 (env.now tr)
  listedIn : ∀ src, (findResourceList env.sources c.disc).2 = .ok src → ∀ l, PlaceListed sites src l → places l
  listedTimes : ∀ src, (findResourceList env.sources c.disc).2 = .ok src → ∀ u r t, (u, r) ∈ src → r.timestamp = some t → Before10000 t
  changedIn : ∀ uri cl, env.changeList uri = some cl → ∀ r ∈ cl, ∀ p ∈ sites, ∀ names, r.uri = uriBelow p.1 names → places (p.2 ++ names)
  changedTimes : ∀ uri cl, env.changeList uri = some cl → ∀ r ∈ cl, ∀ t, r.timestamp = some t → Before10000 t

end Resync.Spec
