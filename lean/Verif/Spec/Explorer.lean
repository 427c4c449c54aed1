import Verif.Model.Explorer
/-
Vocabulary for the properties of the explorer: C66, C68-C71.
-/

namespace Resync.Spec
open Py

/-- Does the answer given at this visit go one document deeper (+1), one back (-1), or neither? -/
def weight (v : Visit) : Int :=
  match v.answer with
  | some (.follow _ _) => 1
  | some .back => -1
  | _ => 0

/-- Links followed minus steps back -/
def net (vs : List Visit) : Int := (vs.map weight).sum

/-- A tour: starts by following a link, and the last step is the one going back over that link; before it there were at every moment
more links followed than steps back. -/
def Tour (vs : List Visit) : Prop :=
  net vs = 0 ∧ ∀ p, p <+: vs → p ≠ [] → p ≠ vs → 0 < net p

/-- The user went back at a document where back is not offered: the first one of a starting point -/
def leftStart (v : Visit) : Bool := !v.show_back && v.answer == some .back

/-- The options for the document's own links and the link relations they stand for -/
def linkKeys : List (Str × Str) :=
  [("d".toList, "describedby".toList), ("u".toList, "up".toList), ("i".toList, "index".toList)]

/-- The first link with that relation has that target -/
def LinksTo (ln : List Link) (rel href : Str) : Prop :=
  ∃ l, ln.find? (fun l => dget l "rel".toList = some rel) = some l ∧ dget l "href".toList = some href

/-- Is the k-th listed resource (from 0) shown? -/
def Listed (resources : List Resource) (k : Nat) (e : Resource) : Prop :=
  resources[k]? = some e ∧ (resources.length ≤ 21 ∨ k < 20)

/-- The document found at `uri` at the n-th visit -/
def DocumentAt (w : ExpWorld) (n : Nat) (uri : Str) (c : Cont (List Resource)) (index : Bool) : Prop :=
  ∃ root created, w.docAt n uri = some root ∧
    parseXml {} listAdd ({ resources := [] } : Cont (List Resource)) root none none = .ok (c, index, created)

end Resync.Spec
