import Verif.Spec.Lists
/-
The history of one URI in a change list.
-/

namespace Resync.Spec
open Py

/-- the first entry for the URI says this kind of change -/
def FirstIs (l : List Resource) (u kind : Str) : Prop :=
  ∃ before r after, l = before ++ r :: after ∧ r.uri = u ∧ r.change = some kind ∧ ∀ x ∈ before, x.uri ≠ u

/-- the last entry for the URI says this kind of change -/
def LastIs (l : List Resource) (u kind : Str) : Prop :=
  ∃ before r after, l = before ++ r :: after ∧ r.uri = u ∧ r.change = some kind ∧ ∀ x ∈ after, x.uri ≠ u

/-- every entry says one of the kinds of change -/
def AllKinds (l : List Resource) : Prop :=
  ∀ r ∈ l, r.change = some "created".toList ∨ r.change = some "updated".toList ∨ r.change = some "deleted".toList

end Resync.Spec
