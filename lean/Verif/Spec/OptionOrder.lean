import Verif.Spec.Client
/-
Specification vocabulary for options that are given several times (C119).
-/

namespace Resync.Spec
open Py

/-- the same values, in whatever order and however often each -/
def SameValues (as bs : List Str) : Prop := ∀ x, x ∈ as ↔ x ∈ bs

/-- the same but for the order (and number) of the types of digest still asked for -/
def SameButHashes {α : Type} (x y : St × α) : Prop :=
  x.1.world = y.1.world ∧ x.1.trace = y.1.trace ∧ x.1.last_timestamp = y.1.last_timestamp ∧ SameValues x.1.hashes y.1.hashes ∧ x.2 = y.2

end Resync.Spec
