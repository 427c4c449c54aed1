import Verif.Spec.ClientLog
/-
What the status lines and the log ought to say when several sites are mapped, each to a directory of its own (C77, C109).
-/

namespace Resync.Spec
open Py

/-- the file for this URI below one of the destinations -/
def SiteFile (sites : List (Map × Loc)) (fs : Fs) (u : Str) (content : Bytes) (mtime : Rat) : Prop :=
  ∃ p ∈ sites, LocalFile p.1 p.2 fs u content mtime

/-- There is no file for this resource of the source's list -/
def MissingAt (sites : List (Map × Loc)) (src : Dict Resource) (fs : Fs) (u : Str) : Prop :=
  (∃ r, (u, r) ∈ src) ∧ ∀ b t, ¬ SiteFile sites fs u b t

/-- The file for this resource of the source's list is another one -/
def OutdatedAt (sites : List (Map × Loc)) (src : Dict Resource) (fs : Fs) (u : Str) : Prop :=
  ∃ r, (u, r) ∈ src ∧ ∃ b t, SiteFile sites fs u b t ∧ ¬ Agrees r b t

/-- The file for this resource of the source's list agrees with the list in time and length -/
def CurrentAt (sites : List (Map × Loc)) (src : Dict Resource) (fs : Fs) (u : Str) : Prop :=
  ∃ r, (u, r) ∈ src ∧ ∃ b t, SiteFile sites fs u b t ∧ Agrees r b t

/-- There is a file below one of the destinations which is not in the source's list -/
def SurplusAt (sites : List (Map × Loc)) (src : Dict Resource) (fs : Fs) (u : Str) : Prop :=
  (∀ r, (u, r) ∉ src) ∧ ∃ b t, SiteFile sites fs u b t

/-- How a source list and the destinations compare: so many resources of each sort -/
structure ComparesAt (sites : List (Map × Loc)) (src : Dict Resource) (fs : Fs) (same created updated deleted : Nat) : Prop where
  same : Count (CurrentAt sites src fs) same
  created : Count (MissingAt sites src fs) created
  updated : Count (OutdatedAt sites src fs) updated
  deleted : Count (SurplusAt sites src fs) deleted

end Resync.Spec
