import Verif.Py.Dict
import Verif.Py.Num
/-
`repr` of the values kept in attributes: strings, numbers, None, lists and dicts of them.
-/

namespace Py

/-- a hexadecimal digit as Python writes it -/
def hexChar (n : Nat) : Char := if n < 10 then Char.ofNat (48 + n) else Char.ofNat (87 + n)

/-- the lowest `w` hexadecimal digits of a number -/
def hexPad : Nat → Nat → Str
  | 0, _ => []
  | w + 1, n => hexPad w (n / 16) ++ [hexChar (n % 16)]

/-- What `repr` makes of one character of a string written between quotes `q` (CPython unicodeobject.c, `unicode_repr`).
`printable` is `str.isprintable` beyond ASCII, whose tables are not modelled.  Lone surrogates are no characters here. -/
def reprChar (printable : Char → Bool) (q c : Char) : Str :=
  if c = q ∨ c = '\\' then ['\\', c]
  else if c = '\t' then ['\\', 't']
  else if c = '\n' then ['\\', 'n']
  else if c = '\r' then ['\\', 'r']
  else if c.toNat < 32 ∨ c.toNat = 127 then '\\' :: 'x' :: hexPad 2 c.toNat
  else if c.toNat < 127 ∨ printable c = true then [c]
  else if c.toNat < 256 then '\\' :: 'x' :: hexPad 2 c.toNat
  else if c.toNat < 65536 then '\\' :: 'u' :: hexPad 4 c.toNat
  else '\\' :: 'U' :: hexPad 8 c.toNat

/-- the quotes `repr` chooses: double ones only for a string with a single but no double quote -/
def reprQuote (s : Str) : Char := if '\'' ∈ s ∧ '"' ∉ s then '"' else '\''

/-- `repr(s)` of a string -/
def strRepr (printable : Char → Bool) (s : Str) : Str :=
  reprQuote s :: (s.flatMap (reprChar printable (reprQuote s)) ++ [reprQuote s])

/-- A value that is no list or dict: a string, or something that `repr` writes as a bare word, a number or None -/
inductive Scalar
  | str (s : Str)
  | word (w : Str)
deriving DecidableEq, Repr

/-- Values of the attributes of a resource -/
inductive Val
  | scalar (v : Scalar)
  | dict (d : Dict Scalar)
  | list (l : List (Dict Scalar))
deriving DecidableEq, Repr

/-- `repr` of a scalar -/
def Scalar.repr (printable : Char → Bool) : Scalar → Str
  | .str s => strRepr printable s
  | .word w => w

/-- one item of a dict -/
def reprItem {α : Type} (printable : Char → Bool) (f : α → Str) (p : Str × α) : Str :=
  strRepr printable p.1 ++ ": ".toList ++ f p.2

/-- `repr(d)` of a dict -/
def reprDict {α : Type} (printable : Char → Bool) (f : α → Str) (d : Dict α) : Str :=
  '{' :: (join ", ".toList (d.map (reprItem printable f)) ++ ['}'])

/-- `repr(l)` of a list -/
def reprList {α : Type} (f : α → Str) (l : List α) : Str :=
  '[' :: (join ", ".toList (l.map f) ++ [']'])

/-- `repr(v)` -/
def Val.repr (printable : Char → Bool) : Val → Str
  | .scalar v => v.repr printable
  | .dict d => reprDict printable (Scalar.repr printable) d
  | .list l => reprList (reprDict printable (Scalar.repr printable)) l

end Py
