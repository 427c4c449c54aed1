import Verif.Spec.Client
/-
What ignoring failures may change about a run (C126).
-/

namespace Resync.Spec
open Py

/-- The second of two runs from a state is the first one; or the first one has ended with a FatalError after a request, and the second one has
done the same up to there and gone on with other things. -/
def GoesPast {α : Type} (s : St) (p p' : St × Except ClientErr α) : Prop :=
  p' = p ∨ (p.2 = .error .fatal ∧ (∃ uri, Effect.get uri ∈ doneBetween s p.1) ∧ ∃ rest, p'.1.trace = p.1.trace ++ rest ∧
    p'.1.world = rest.foldl World.apply p.1.world)

end Resync.Spec
