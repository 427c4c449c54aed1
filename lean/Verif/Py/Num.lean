import Verif.Py.Str
/-
`int(s)` and `str(n)`.  Models CPython behaviour (trusted), not /repo code.  Non-ASCII decimal
digits, which `int` also accepts, are not modelled (rejected).
-/

namespace Py

/-- white space stripped by `int(s)` -/
def isIntSpace (c : Char) : Bool :=
  if c.toNat < 128 then (9 ≤ c.toNat && c.toNat ≤ 13) || c.toNat == 32 else isSpace c

/-- digits with single underscores between them; `prev` says whether the last character was a digit -/
def intDigits : Bool → Nat → Str → Option Nat
  | prev, acc, [] => if prev then some acc else none
  | prev, acc, c :: t =>
    if isDigit c then intDigits true (10 * acc + digitVal c) t
    else if c = '_' ∧ prev then intDigits false acc t
    else none

/-- `s.strip()` for the white space of `int` -/
def intStrip (s : Str) : Str := ((s.dropWhile isIntSpace).reverse.dropWhile isIntSpace).reverse

/-- `int(s)`, base 10; `none` is ValueError -/
def pyInt (s : Str) : Option Int :=
  match intStrip s with
  | '-' :: t => (intDigits false 0 t).map (fun n : Nat => -(n : Int))
  | '+' :: t => (intDigits false 0 t).map (fun n : Nat => (n : Int))
  | t => (intDigits false 0 t).map (fun n : Nat => (n : Int))

/-- `str(n)` -/
def intStr (n : Int) : Str := if n < 0 then '-' :: natStr n.natAbs else natStr n.natAbs

end Py
