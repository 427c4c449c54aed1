import Verif.Spec.Client
/-
What a client may look at on the disk.
-/

namespace Resync.Spec
open Py

/-- the place is a destination, or below one, or on the way to one -/
def NearSites (sites : List (Map × Loc)) (l : Loc) : Prop := ∃ p ∈ sites, p.2 <+: l ∨ l <+: p.2

/-- the two disks have the same at and below the destinations, and on the way there; elsewhere they may have anything -/
def SameAtSites (sites : List (Map × Loc)) (fs fs' : Fs) : Prop := ∀ l, NearSites sites l → fs'.get l = fs.get l

end Resync.Spec
