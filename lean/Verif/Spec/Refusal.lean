import Verif.Model.Client
/-
Specification for C127: a run (checked) that is another one (unchecked), or has been refused before anything was done.
-/

namespace Resync.Spec
open Py

/-- The first run, from the given state, is the second one, or it has ended with an exception without having requested or changed anything -/
def OnlyRefuses (s : St) (p p' : St × Except ClientErr Unit) : Prop :=
  p = p' ∨ ((∃ e, p.2 = .error e) ∧ p.1.trace = s.trace ∧ p.1.world = s.world)

end Resync.Spec
