import Verif.Model.Repr
/-
What is asked of the text of a number, and the events of a log (C112).
-/

namespace Resync.Spec
open Py

/-- How times are written: differently for different ones, as Python's floats and ints are, with digits, point, exponent and signs -/
structure NumberText (num : Rat → Str) : Prop where
  distinct : ∀ t u, num t = num u → t = u
  nonempty : ∀ t, num t ≠ []
  chars : ∀ t, ∀ c ∈ num t, isDigit c = true ∨ c = '.' ∨ c = 'e' ∨ c = '+' ∨ c = '-'

/-- the resources of the events among the messages -/
def eventsOf (log : List LogMsg) : List Resource :=
  log.filterMap (fun m => match m with | .event r => some r | _ => none)

end Resync.Spec
