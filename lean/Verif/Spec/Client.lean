import Verif.Model.Client
import Verif.Spec.Mapper
/-
What a run of the client can be observed to do.
-/

namespace Resync.Spec
open Py

/-- What was done between two states -/
def doneBetween (s s' : St) : List Effect := s'.trace.drop s.trace.length

/-- The world at some moment of the run from `s` to `s'`: the first so many things have been done.  A crash at that
moment leaves this world. -/
def AtSomeMoment (s s' : St) (w : World) : Prop :=
  ∃ k, w = ((doneBetween s s').take k).foldl World.apply s.world

/-- A regular file with this content and time -/
def IsFile (fs : Fs) (l : Loc) (content : Bytes) (mtime : Rat) : Prop := fs.get l = some (.file content mtime)

/-- There is a regular file -/
def HasFile (fs : Fs) (l : Loc) : Prop := ∃ c m, IsFile fs l c m

/-- the location a URI is mapped to -/
def MapsTo (c : ClientCfg) (cwd : Loc) (uri : Str) (l : Loc) : Prop :=
  ∃ filename, c.disc.mapper.srcToDst uri = .ok filename ∧ l = location cwd filename

end Resync.Spec

namespace Resync.Spec
open Py

/-- A proper file name -/
def ProperName (n : Str) : Prop := n ≠ [] ∧ n ≠ ".".toList ∧ n ≠ "..".toList ∧ '/' ∉ n

/-- A file system as there can be: one thing at each location, proper names, everything in a directory -/
structure ProperFs (fs : Fs) : Prop where
  once : (fs.map Prod.fst).Nodup
  names : ∀ p ∈ fs, ∀ n ∈ p.1, ProperName n
  nonroot : ∀ p ∈ fs, p.1 ≠ []
  parents : ∀ p ∈ fs, fs.get p.1.dropLast = some .dir

end Resync.Spec

namespace Resync.Spec
open Py

/-- `uri` is what the mapper makes of the path of some local file -/
def LocalUri (c : ClientCfg) (cwd : Loc) (fs : Fs) (uri : Str) : Prop :=
  ∃ path content mtime, c.disc.mapper.dstToSrc path = .ok uri ∧ IsFile fs (location cwd path) content mtime

/-- the source list found has an entry for `uri` -/
def SourceUri (env : Env) (c : ClientCfg) (uri : Str) : Prop :=
  ∃ src r, (findResourceList env.sources c.disc).2 = .ok src ∧ (uri, r) ∈ src

/-- the time of a change: lastmod in version 1.0 of the framework, the datetime of the change later on -/
def changeTime (spec_version : Str) (r : Resource) : Option Rat :=
  if spec_version = "1.0".toList then r.timestamp else r.ts_datetime

/-- the change took place at or after `t0` -/
def AtOrAfter (spec_version : Str) (t0 : Rat) (r : Resource) : Prop := ∃ t, changeTime spec_version r = some t ∧ t0 ≤ t

/-- `r` is the last change listed for its URI, of those at or after `t0` -/
def LastChange (changes : List Resource) (spec_version : Str) (t0 : Rat) (r : Resource) : Prop :=
  ∃ before after, changes = before ++ r :: after ∧ AtOrAfter spec_version t0 r ∧
    ∀ x ∈ after, x.uri = r.uri → ¬ AtOrAfter spec_version t0 x

/-- `r` is the first change listed for its URI, of those at or after `t0` -/
def FirstChange (changes : List Resource) (spec_version : Str) (t0 : Rat) (r : Resource) : Prop :=
  ∃ before after, changes = before ++ r :: after ∧ AtOrAfter spec_version t0 r ∧
    ∀ x ∈ before, x.uri = r.uri → ¬ AtOrAfter spec_version t0 x

/-- the change list incremental sync reads -/
def ChangesRead (env : Env) (c : ClientCfg) (change_list_uri : Option Str) (changes : List Resource) : Prop :=
  ∃ uri, c.disc.sitemapUri (c.changeListName change_list_uri) = .ok uri ∧ env.changeList uri = some changes

/-- lists are kept by URI, as the containers' add() ensures -/
def ListsKeyed (s : Sources) : Prop :=
  ∀ u d, s.resourceList u = some d → (d.map Prod.fst).Nodup ∧ ∀ k r, (k, r) ∈ d → r.uri = k

end Resync.Spec

namespace Resync.Spec
open Py

/-- the document at `master` has authority over `uri` (C09 and C10 say what that means) -/
def Authorised (strict : Bool) (master uri : Str) : Prop :=
  ∃ a, UrlAuthority.new (some master) strict = some a ∧ a.hasAuthorityOver uri = some true

/-- some resource of the list has a digest of this type -/
def ListHas (src : Dict Resource) (t : Str) : Prop :=
  ∃ u r, (u, r) ∈ src ∧
    (t = "md5".toList ∧ r.md5 ≠ none ∨ t = "sha-1".toList ∧ r.sha1 ≠ none ∨ t = "sha-256".toList ∧ r.sha256 ≠ none)

end Resync.Spec

namespace Resync.Spec
open Py

/-- during the run a request for `uri` was answered by exactly these bytes -/
def ServedDuring (env : Env) (s s' : St) (uri : Str) (b : Bytes) : Prop :=
  ∃ pre, pre <+: doneBetween s s' ∧ env.serve (s.trace ++ pre) uri = .body b none

/-- the resource has been fetched during the run: at `l` there are bytes served for it, with its time if it has one (in
whole seconds) -/
def Fetched (env : Env) (s s' : St) (r : Resource) (l : Loc) : Prop :=
  ∃ b m, ServedDuring env s s' r.uri b ∧ IsFile s'.world.fs l b m ∧ ∀ t, r.timestamp = some t → m = truncRat t

end Resync.Spec

namespace Resync.Spec
open Py

/-- A proper name without line breaks -/
def PlainName (n : Str) : Prop := ProperName n ∧ OneLine n

/-- the URI of the file with these names below the destination of a mapping -/
def uriBelow (m : Map) (names : List Str) : Str := m.src_uri ++ '/' :: join ['/'] names

/-- The usual setup: one site mapped to one directory, no special characters in the two bases, plain names for all files and
directories, and the destination is not a file.  `root` is the place of the destination. -/
structure OneSite (c : ClientCfg) (cwd : Loc) (m : Map) (root : Loc) (fs : Fs) : Prop where
  mapper : c.disc.mapper = [m]
  src : LiteralOrDot m.src_uri ∧ OneLine m.src_uri
  dst : LiteralOrDot m.dst_path ∧ OneLine m.dst_path ∧ m.dst_path ≠ [] ∧ m.dst_path.getLast? ≠ some '/'
  place : root = location cwd m.dst_path
  proper : ProperFs fs
  names : ∀ p ∈ fs, ∀ n ∈ p.1, OneLine n
  cwdNames : ∀ n ∈ cwd, PlainName n
  notFile : ¬ HasFile fs root

/-- every URI in the list is that of a file there could be below the destination, so that different URIs are different files -/
def ListRegular (m : Map) (src : Dict Resource) : Prop :=
  ∀ u r, (u, r) ∈ src → ∃ names, names ≠ [] ∧ (∀ n ∈ names, PlainName n) ∧ u = uriBelow m names

/-- a supported type of digest -/
def HashType (t : Str) : Prop := t = "md5".toList ∨ t = "sha-1".toList ∨ t = "sha-256".toList

/-- what the list says about time and length is true of a file, up to less than a second -/
def Agrees (r : Resource) (content : Bytes) (mtime : Rat) : Prop :=
  (∃ t, r.timestamp = some t ∧ mtime - t < 1 ∧ t - mtime < 1) ∧ ∀ n, r.length = some n → n = (content.length : Int)

/-- The same with several sites, each mapped to a directory of its own: no special characters in the bases, neither the source URIs nor
the destination directories inside each other, plain names for all files and directories, and no destination is a file.
Each mapping comes with the place of its destination. -/
structure Sites (c : ClientCfg) (cwd : Loc) (sites : List (Map × Loc)) (fs : Fs) : Prop where
  mapper : c.disc.mapper = sites.map Prod.fst
  nonempty : sites ≠ []
  src : ∀ p ∈ sites, LiteralOrDot p.1.src_uri ∧ OneLine p.1.src_uri
  dst : ∀ p ∈ sites, LiteralOrDot p.1.dst_path ∧ OneLine p.1.dst_path ∧ p.1.dst_path ≠ [] ∧ p.1.dst_path.getLast? ≠ some '/'
  place : ∀ p ∈ sites, p.2 = location cwd p.1.dst_path
  apart : sites.Pairwise (fun p q => Apart p.1.src_uri q.1.src_uri ∧ Apart p.1.dst_path q.1.dst_path ∧
    ¬ p.2 <+: q.2 ∧ ¬ q.2 <+: p.2)
  proper : ProperFs fs
  names : ∀ p ∈ fs, ∀ n ∈ p.1, OneLine n
  cwdNames : ∀ n ∈ cwd, PlainName n
  notFile : ∀ p ∈ sites, ¬ HasFile fs p.2

/-- every URI in the list is that of a file there could be below one of the destinations -/
def ListBelow (sites : List (Map × Loc)) (src : Dict Resource) : Prop :=
  ∀ u r, (u, r) ∈ src → ∃ p ∈ sites, ∃ names, names ≠ [] ∧ (∀ n ∈ names, PlainName n) ∧ u = uriBelow p.1 names

/-- This is the place of a listed file -/
def PlaceListed (sites : List (Map × Loc)) (src : Dict Resource) (l : Loc) : Prop :=
  ∃ p ∈ sites, ∃ names, names ≠ [] ∧ (∀ n ∈ names, PlainName n) ∧ l = p.2 ++ names ∧ ∃ r, (uriBelow p.1 names, r) ∈ src

/-- At all these places there can be files: none is below another, there is no directory at any of them, and no file where
there must be a directory for one. -/
structure FreeFor (places : Loc → Prop) (fs : Fs) : Prop where
  apart : ∀ a b, places a → places b → a <+: b → a = b
  noDir : ∀ l, places l → fs.get l ≠ some .dir
  noFile : ∀ l, places l → ∀ p, p <+: l → p ≠ l → ¬ HasFile fs p

/-- What has been done by the time of a request for the URI, and by the time of the next one if that is one for the same URI -/
def NextTry (uri : Str) (tr tr' : List Effect) : Prop := ∃ rest, tr' = tr ++ .get uri :: rest ∧ ∀ u, .get u ∉ rest

/-- Requests for the URI are answered in full or time out, and of any so many requests in a row one is answered in full. -/
def Delivers (env : Env) (tries : Nat) (uri : Str) : Prop :=
  (∀ tr, (∃ b, env.serve tr uri = .body b none) ∨ env.serve tr uri = .fail .timeout ∨ ∃ b, env.serve tr uri = .body b (some .timeout)) ∧
  ∀ trs : List (List Effect), trs.length = tries → trs.IsChain (NextTry uri) → ∃ tr ∈ trs, ∃ b, env.serve tr uri = .body b none

end Resync.Spec
