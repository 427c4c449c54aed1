import Verif.Spec.Url
import Verif.Model.Resource
import Verif.Py.Dict
/-
What discovery of a source should do, apart from the code.
-/

namespace Resync.Spec
open Py

/-- The world's documents: what reading one as a resource list, source description or capability list gives -/
structure Docs where
  resourceList : Str → Option (Dict Resource)
  sourceDescription : Str → Option (Dict Resource)
  capabilityList : Str → Option (Dict Resource)

/-- The outcome of looking in one place: a list; nothing usable, look elsewhere; a document is there but unusable, stop -/
inductive Outcome
  | found (d : Dict Resource)
  | missing
  | stop
deriving DecidableEq

/-- the places looked at: a resource list, a capability list, a source description -/
inductive Place
  | list (uri : Str)
  | capabilities (uri : Str)
  | description (uri : Str)
deriving DecidableEq

/-- e is the only entry of d -/
def OnlyEntry (d : Dict Resource) (e : Resource) : Prop := d.map Prod.snd = [e]

/-- r is the entry for a resource list, the one with the least URI if there are several -/
def ResourceListEntry (d : Dict Resource) (r : Resource) : Prop :=
  (∃ k, dget d k = some r) ∧ r.capability = some "resourcelist".toList ∧
    ∀ k r', dget d k = some r' → r'.capability = some "resourcelist".toList → r.uri ≤ r'.uri

/-- What looking in a place gives, and the documents read for it.  `resolve base ref` is the URI a reference in the
document at base stands for (none: not a URI reference). -/
inductive Gives (w : Docs) (resolve : Str → Str → Option Str) : Place → List Place → Outcome → Prop
  | list {u d} : w.resourceList u = some d → Gives w resolve (.list u) [.list u] (.found d)
  | noList {u} : w.resourceList u = none → Gives w resolve (.list u) [.list u] .missing
  | noCapabilityList {u} : w.capabilityList u = none → Gives w resolve (.capabilities u) [.capabilities u] .missing
  | notOffered {u cl} : w.capabilityList u = some cl → (∀ r, ¬ ResourceListEntry cl r) →
      Gives w resolve (.capabilities u) [.capabilities u] .stop
  | badListReference {u cl r} : w.capabilityList u = some cl → ResourceListEntry cl r → resolve u r.uri = none →
      Gives w resolve (.capabilities u) [.capabilities u] .stop
  | viaCapabilities {u cl r l reads o} : w.capabilityList u = some cl → ResourceListEntry cl r →
      resolve u r.uri = some l → Gives w resolve (.list l) reads o →
      Gives w resolve (.capabilities u) (.capabilities u :: reads) o
  | noDescription {u} : w.sourceDescription u = none → Gives w resolve (.description u) [.description u] .missing
  | notOneSource {u sd} : w.sourceDescription u = some sd → (∀ e, ¬ OnlyEntry sd e) →
      Gives w resolve (.description u) [.description u] .stop
  | badReference {u sd e} : w.sourceDescription u = some sd → OnlyEntry sd e → resolve u e.uri = none →
      Gives w resolve (.description u) [.description u] .stop
  | viaDescription {u sd e c reads o} : w.sourceDescription u = some sd → OnlyEntry sd e →
      resolve u e.uri = some c → Gives w resolve (.capabilities c) reads o →
      Gives w resolve (.description u) (.description u :: reads) o

/-- Looking in one place after another, up to the first where something decisive is found, with the documents read -/
inductive Search (w : Docs) (resolve : Str → Str → Option Str) : List Place → List Place → Outcome → Prop
  | nowhere : Search w resolve [] [] .missing
  | decisive {p ps reads o} : Gives w resolve p reads o → o ≠ .missing → Search w resolve (p :: ps) reads o
  | next {p ps reads reads' o} : Gives w resolve p reads .missing → Search w resolve ps reads' o →
      Search w resolve (p :: ps) (reads ++ reads') o

/-- the documented places for a source whose base URI and host are given -/
def places (base host : Str) : List Place :=
  [.description (base ++ "/.well-known/resourcesync".toList), .description (host ++ "/.well-known/resourcesync".toList),
   .list (base ++ "/resourcelist.xml".toList), .list (base ++ "/sitemap.xml".toList), .list (host ++ "/sitemap.xml".toList)]

/-- a segment of a URL path that stands for itself -/
def Segment (s : Str) : Prop := s ≠ [] ∧ s ≠ ".".toList ∧ s ≠ "..".toList ∧ noneOf "/?#;\t\r\n".toList s

/-- http(s)://host and further segments -/
def httpBase (scheme host : Str) (segs : List Str) : Str :=
  scheme ++ "://".toList ++ host ++ (segs.map (fun s => '/' :: s)).flatten

end Resync.Spec
