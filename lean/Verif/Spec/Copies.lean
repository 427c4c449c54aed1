import Verif.Spec.Client
import Verif.Spec.ClientState
import Verif.Spec.Times
/-
What a source has, what its change lists say about it, and copies of it.
-/

namespace Resync.Spec
open Py

/-- What a source has at some moment: for each of its URIs the content and the time of last modification -/
abbrev Snapshot := Str → Option (Bytes × Rat)

/-- this is the place of one of the resources in the snapshot -/
def PlaceOf (sites : List (Map × Loc)) (S : Snapshot) (l : Loc) : Prop :=
  ∃ p ∈ sites, ∃ names, names ≠ [] ∧ (∀ n ∈ names, PlainName n) ∧ l = p.2 ++ names ∧ S (uriBelow p.1 names) ≠ none

/-- The files below the destinations are a copy of the snapshot, with the times in whole seconds: there is a file exactly where the
snapshot has a resource. -/
def IsCopy (sites : List (Map × Loc)) (fs : Fs) (S : Snapshot) : Prop :=
  ∀ p ∈ sites, ∀ names, names ≠ [] → (∀ n ∈ names, PlainName n) → ∀ content mtime,
    IsFile fs (p.2 ++ names) content mtime ↔ ∃ t, S (uriBelow p.1 names) = some (content, t) ∧ mtime = truncRat t

/-- The URI is that of a file there could be below one of the destinations -/
def BelowSites (sites : List (Map × Loc)) (u : Str) : Prop :=
  ∃ p ∈ sites, ∃ names, names ≠ [] ∧ (∀ n ∈ names, PlainName n) ∧ u = uriBelow p.1 names

/-- The entries from `t0` on record how the source got from one state to another: for a URI without entries nothing has changed; the last
entry for a URI says what there is now, with its time; and a URI which first was created and in the end deleted had not been there. -/
structure Records (old new : Snapshot) (changes : List Resource) (v : Str) (t0 : Rat) : Prop where
  unchanged : ∀ u, (∀ r ∈ changes, r.uri = u → ¬ AtOrAfter v t0 r) → new u = old u
  last : ∀ r, LastChange changes v t0 r →
    ((r.change = some "created".toList ∨ r.change = some "updated".toList) ∧
      ∃ content t, new r.uri = some (content, t) ∧ r.timestamp = some t) ∨
    (r.change = some "deleted".toList ∧ new r.uri = none)
  fresh : ∀ r r', FirstChange changes v t0 r → LastChange changes v t0 r' → r.uri = r'.uri →
    r.change = some "created".toList → r'.change = some "deleted".toList → old r.uri = none

/-- The server has what is in the snapshot, and delivers it within so many tries. -/
def Offers (env : Env) (tries : Nat) (S : Snapshot) : Prop :=
  ∀ u content t, S u = some (content, t) → Delivers env tries u ∧ ∀ tr b, env.serve tr u = .body b none → b = content

/-- The disk does what it is asked to -/
structure DiskWorks (env : Env) : Prop where
  mkdir : ∀ tr l, env.mkdirFails tr l = false
  openW : ∀ tr l, env.openFails tr l = false
  unlink : ∀ tr l, env.unlinkFails tr l = false

/-- The client may use the change list at this URI: authority is not asked for, or the change list has authority over each of its
entries (and the site's URI makes sense) -/
def MayUse (c : ClientCfg) (site clUri : Str) (changes : List Resource) : Prop :=
  c.noauth = true ∨ ((∃ a, UrlAuthority.new (some site) false = some a) ∧ (∃ a, UrlAuthority.new (some clUri) c.strictauth = some a) ∧
    ∀ r ∈ changes, Authorised c.strictauth clUri r.uri)

/-- The state file is there as the client has left it: not at all, or written by recording times for sites -/
def OwnState (ft : FloatText Rat) (file : Option Str) : Prop :=
  ∃ ops : List (Str × Option Rat), (∀ op ∈ ops, op.1 ≠ []) ∧ setAll ft none ops = .ok file

/-- What a run finds around it: the change list can be had and used, the server has what is in the snapshot, and the disk works -/
structure Surroundings (env : Env) (c : ClientCfg) (uri : Option Str) (site : Str) (changes : List Resource) (S : Snapshot) : Prop where
  list : ∃ clUri, c.disc.sitemapUri (c.changeListName uri) = .ok clUri ∧ env.changeList clUri = some changes ∧ MayUse c site clUri changes
  server : Offers env c.tries S
  disk : DiskWorks env

/-- How the client stands: its destinations hold a copy of the snapshot, there is room for all the places, and the state file is its
own -/
structure Stands (ft : FloatText Rat) (cwd : Loc) (c : ClientCfg) (sites : List (Map × Loc)) (places : Loc → Prop) (w : World) (S : Snapshot) :
    Prop where
  mapped : Sites c cwd sites w.fs
  room : FreeFor places w.fs
  copy : IsCopy sites w.fs S
  state : OwnState ft w.state

/-- The client is set up to do its work: it is no dry run, failures count, and it may delete files from where they are mapped to -/
structure SetUp (c : ClientCfg) (site : Str) : Prop where
  safe : c.disc.mapper.isUnsafe = .ok false
  source : c.disc.sitemap = .ok site
  named : site ≠ []
  real : c.dryrun = false
  strict : c.ignore_failures = false
  tries : 0 < c.tries

/-- Something that happens to a resource of the source: what the change list says about it, and what the resource is from then on
(unless it is deleted) -/
structure Happening where
  entry : Resource
  content : Bytes

/-- what the source has after it has happened -/
def Happening.after (S : Snapshot) (e : Happening) : Snapshot := fun u =>
  if u = e.entry.uri then
    if e.entry.change = some "deleted".toList then none else e.entry.timestamp.map (fun t => (e.content, t))
  else S u

/-- what the source has after all of this has happened -/
def sourceAfter (S : Snapshot) (es : List Happening) : Snapshot := es.foldl Happening.after S

/-- the change list about all this -/
def changeListOf (es : List Happening) : List Resource := es.map Happening.entry

/-- the times of these entries are before the year 10000 -/
def TimesBefore10000 (rs : List Resource) : Prop :=
  ∀ r ∈ rs, ∀ t, r.timestamp = some t ∨ r.ts_datetime = some t → Before10000 t

/-- What happens to a source in the course of time, as change lists report it: creations, updates and deletions, in the order of their
times, which are before the year 10000; what is created has not been there; lastmod is not after the time of the change. -/
structure Chronicle (S : Snapshot) (v : Str) (es : List Happening) : Prop where
  kind : ∀ e ∈ es, ((e.entry.change = some "created".toList ∨ e.entry.change = some "updated".toList) ∧ e.entry.timestamp ≠ none) ∨
    e.entry.change = some "deleted".toList
  timed : ∀ e ∈ es, ∃ d, 0 < d ∧ changeTime v e.entry = some d ∧ (e.entry.ts_datetime = some d ∨ e.entry.ts_datetime = none ∧ e.entry.timestamp = some d)
  modified : ∀ e ∈ es, ∀ t d, e.entry.timestamp = some t → e.entry.ts_datetime = some d → t ≤ d
  years : TimesBefore10000 (changeListOf es)
  order : es.Pairwise (fun e f => ∀ d d', changeTime v e.entry = some d → changeTime v f.entry = some d' → d ≤ d')
  new : ∀ before e rest, es = before ++ e :: rest → e.entry.change = some "created".toList → sourceAfter S before e.entry.uri = none

/-- The client is run when so many things have happened -/
structure SyncRun where
  moment : Nat
  env : Env

/-- a new process -/
def freshSt (w : World) : St := { world := w, trace := [], hashes := [], last_timestamp := 0 }

/-- the client is run: an incremental sync with deletion, from the stored time on -/
def SyncRun.run (v : SyncRun) (c : ClientCfg) (uri : Option Str) (w : World) : St × Except ClientErr Unit :=
  incremental v.env c true uri none (freshSt w)

/-- what has become of the client's world after these visits -/
def worldAfter (c : ClientCfg) (uri : Option Str) (w : World) (vs : List SyncRun) : World :=
  vs.foldl (fun w v => (v.run c uri w).1.world) w

/-- The stored time `t` fits what the client has seen, the first `n` things that happened: the others happened at or after that time; and
what the client saw created at or after it, and which is deleted later, is not there now. -/
structure CaughtUp (S : Snapshot) (v : Str) (es : List Happening) (n : Nat) (t : Rat) : Prop where
  later : ∀ f ∈ es.drop n, AtOrAfter v t f.entry
  created : ∀ e ∈ es.take n, ∀ f ∈ es.drop n, e.entry.uri = f.entry.uri → e.entry.change = some "created".toList →
    f.entry.change = some "deleted".toList → AtOrAfter v t e.entry → sourceAfter S (es.take n) e.entry.uri = none

/-- By the time the first `k` things have happened, something has happened at a later time than the creation of whatever is going to be
deleted. -/
def Settled (v : Str) (es : List Happening) (k : Nat) : Prop :=
  ∀ e ∈ es.take k, ∀ f ∈ es.drop k, e.entry.uri = f.entry.uri → e.entry.change = some "created".toList →
    f.entry.change = some "deleted".toList → ∃ g ∈ es.take k, ∀ d d', changeTime v e.entry = some d → changeTime v g.entry = some d' → d < d'

/-- The list says what there is in the snapshot -/
structure Lists (src : Dict Resource) (S : Snapshot) : Prop where
  listed : ∀ u r, (u, r) ∈ src → ∃ content t, S u = some (content, t) ∧ r.timestamp = some t
  all : ∀ u, S u ≠ none → ∃ r, (u, r) ∈ src

end Resync.Spec
