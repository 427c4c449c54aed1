import Verif.Py.Str
import Mathlib.Algebra.Order.Field.Rat
/-
Specification vocabulary for resources (C15–C20). Written without the model.
-/

namespace Resync.Spec
open Py

/-- Two optional values do not contradict each other: whenever both are given they agree. -/
def NoConflict {α : Type} (a b : Option α) : Prop := ∀ x y, a = some x → b = some y → x = y

/-- Both times absent, or both present and less than `δ` apart. -/
def SameTime (δ : Rat) (a b : Option Rat) : Prop :=
  (a = none ∧ b = none) ∨ ∃ x y, a = some x ∧ b = some y ∧ x - y < δ ∧ y - x < δ

/-- `kind:v` occurs among the words and no earlier word is of that kind. -/
def FirstGiven (words : List Str) (kind v : Str) : Prop :=
  ∃ pre post, words = pre ++ (kind ++ ':' :: v) :: post ∧ ∀ w ∈ pre, ¬ (kind ++ [':']) <+: w

/-- a string without white space -/
def NoSpace (s : Str) : Prop := ∀ c ∈ s, isSpace c = false

/-- the three change types of the ResourceSync specification (or none given) -/
def ValidChange (c : Option Str) : Prop :=
  c = none ∨ c = some "created".toList ∨ c = some "updated".toList ∨ c = some "deleted".toList

end Resync.Spec
