import Verif.Py.Str
import Mathlib.Data.List.Lex
import Mathlib.Data.Char
import Mathlib.Data.List.Sort
/-
Python dictionaries with string keys (insertion ordered, as in CPython ≥ 3.7) and `sorted` on
strings.  Models CPython behaviour (trusted), not /repo code.
-/

namespace Py

/-- A `dict` with `str` keys: association list in insertion order. -/
abbrev Dict (α : Type) := List (Str × α)

/-- `d.get(k)` -/
def dget {α : Type} : Dict α → Str → Option α
  | [], _ => none
  | (k', v) :: t, k => if k' = k then some v else dget t k

/-- `d[k] = v`: keeps the position of an existing key, otherwise appends. -/
def dset {α : Type} : Dict α → Str → α → Dict α
  | [], k, v => [(k, v)]
  | (k', v') :: t, k, v => if k' = k then (k', v) :: t else (k', v') :: dset t k v

/-- `d.keys()` -/
def dkeys {α : Type} (d : Dict α) : List Str := d.map Prod.fst

/-- `d.values()` -/
def dvalues {α : Type} (d : Dict α) : List α := d.map Prod.snd

/-- `del d[k]` / `d.pop(k, None)` -/
def ddel {α : Type} (d : Dict α) (k : Str) : Dict α := d.filter (fun p => p.1 ≠ k)

/-- `sorted(l)` on strings: code point order (which is `<` on `List Char`). -/
def sortStr (l : List Str) : List Str := l.insertionSort (· ≤ ·)

end Py
