import Verif.Model.Excludes
/-
What exclude patterns are for (C42).
-/

namespace Resync.Spec
open Py

/-- a pattern that is a regular expression -/
def Compiles (p : Str) : Prop := ∃ re, compile p = .ok re

/-- the pattern matches at the beginning of the name -/
def MatchesAtStart (p name : Str) : Prop := ∃ re, compile p = .ok re ∧ ∃ m, re.matchStart name = some m

end Resync.Spec
