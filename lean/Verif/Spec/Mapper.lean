import Verif.Py.Str
/-
Specification vocabulary for the URI/path mapping properties.  Nothing here refers to the model.
-/

namespace Resync.Spec

/-- Characters with a special meaning in a Python regular expression, except '.'. -/
def metaChars : List Char := ['(', ')', '|', '*', '+', '?', '^', '$', '[', '\\', '{']

/-- The base uses no regular expression syntax at all. -/
def Literal (base : Str) : Prop := ∀ c ∈ base, c ∉ metaChars ∧ c ≠ '.'

/-- The base uses no regular expression syntax except '.', as every real host name does. -/
def LiteralOrDot (base : Str) : Prop := ∀ c ∈ base, c ∉ metaChars

/-- No line feed in the string. -/
def OneLine (s : Str) : Prop := '\n' ∉ s

/-- The documented translation of `s` by a mapping with the given base and replacement:
the base followed by nothing or by '/' and more. -/
def Translates (base repl s out : Str) : Prop :=
  (s = base ∧ out = repl ++ ['/']) ∨
  (∃ t, s = base ++ '/' :: t ∧ out = repl ++ '/' :: t)

/-- `s` agrees with `base` except that a '.' in `base` may stand for any character
but a line feed. -/
inductive DotEq : Str → Str → Prop where
  | nil : DotEq [] []
  | same (c : Char) {b s : Str} : DotEq b s → DotEq (c :: b) (c :: s)
  | dot (c : Char) {b s : Str} : c ≠ '\n' → DotEq b s → DotEq ('.' :: b) (c :: s)

/-- `s` is covered by the base, reading '.' in the base as a wildcard. -/
def DotCovers (base s : Str) : Prop :=
  ∃ p rest, s = p ++ rest ∧ DotEq base p ∧ (rest = [] ∨ ∃ t, rest = '/' :: t)

/-- The two bases, each followed by a slash, differ in a character, and neither of the two characters is a dot.  So neither is at,
above or below the other, also if the dots are wildcards. -/
def Apart (a b : Str) : Prop :=
  ∃ (i : Nat) (x y : Char), (a ++ ['/'])[i]? = some x ∧ (b ++ ['/'])[i]? = some y ∧ x ≠ y ∧ x ≠ '.' ∧ y ≠ '.'

end Resync.Spec
