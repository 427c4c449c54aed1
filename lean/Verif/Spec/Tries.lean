import Verif.Spec.Client
/-
What more tries may change about a run (C125).
-/

namespace Resync.Spec
open Py

/-- The second of two runs from a state is the first one; or the first one has ended with a FatalError, and the second one goes on where that
has given up, requesting a resource once more. -/
def GoesOn {α : Type} (s : St) (p p' : St × Except ClientErr α) : Prop :=
  p' = p ∨ (p.2 = .error .fatal ∧ ∃ uri rest, Effect.get uri ∈ doneBetween s p.1 ∧ p'.1.trace = p.1.trace ++ Effect.get uri :: rest ∧
    p'.1.world = (Effect.get uri :: rest).foldl World.apply p.1.world)

end Resync.Spec
