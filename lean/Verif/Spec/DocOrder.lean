import Verif.Model.Discovery
/-
Documents with the same entries in another order.
-/

namespace Resync.Spec
open Py

/-- The same document but for the order of what comes after some point, metadata and links of the list excepted -/
def EntriesReordered (root root' : Elem) : Prop :=
  root'.tag = root.tag ∧ ∃ start entries entries', root.children = start ++ entries ∧ root'.children = start ++ entries' ∧
    entries.Perm entries' ∧ ∀ e ∈ entries, e.tag ≠ rsTag "md" ∧ e.tag ≠ rsTag "ln"

/-- The same documents at the same places, the entries of each in some order -/
def SiteReordered (docAt docAt' : Str → Option Elem) : Prop :=
  ∀ uri, (docAt uri = none ∧ docAt' uri = none) ∨ ∃ root root', docAt uri = some root ∧ docAt' uri = some root' ∧ EntriesReordered root root'

end Resync.Spec
