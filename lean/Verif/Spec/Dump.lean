import Verif.Model.Resource
import Verif.Spec.Path
/-
Specification vocabulary for dumps (C38–C41).
-/

namespace Resync.Spec
open Py

/-- the resource names a file of at most `max` bytes, and states its size if it states a length -/
structure FileAgrees (max : Int) (getsize : Str → Option Int) (r : Resource) : Prop where
  ok : ∃ p n, r.path = some p ∧ getsize p = some n ∧ n ≤ max ∧ (r.length = none ∨ r.length = some n)

/-- total of the recorded lengths -/
def totalLength : List Resource → Int
  | [] => 0
  | r :: t => r.length.getD 0 + totalLength t

/-- no component of the path is '..' -/
def NoDotDot (p : Str) : Prop := ['.', '.'] ∉ splitOn '/' p

/-- different paths denote different files (for a process with current directory `cwd`) -/
def DistinctFiles (cwd : List Str) (ps : List Str) : Prop :=
  ∀ p ∈ ps, ∀ q ∈ ps, location cwd p = location cwd q → p = q

end Resync.Spec
