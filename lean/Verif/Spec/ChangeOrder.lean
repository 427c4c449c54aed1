import Verif.Spec.Copies
/-
The order of the entries in a change list.
-/

namespace Resync.Spec
open Py

/-- What the two change lists say about any one URI is the same, in the same order; entries about different URIs may come in another
order. -/
def SameHistories (cl cl' : List Resource) : Prop :=
  ∀ u, cl'.filter (fun r => r.uri = u) = cl.filter (fun r => r.uri = u)

/-- Where the one source has a change list, the other has one with the same histories; where it has none, neither has the other. -/
def ChangeListsReordered (at_ at_' : Str → Option (List Resource)) : Prop :=
  ∀ u, (at_' u = none ↔ at_ u = none) ∧ ∀ cl cl', at_ u = some cl → at_' u = some cl' → SameHistories cl cl'

end Resync.Spec
