import Mathlib.Data.Int.Log
import Mathlib.Data.Rat.Floor
import Verif.Model.W3CDatetime
import Verif.Model.Resource
/-
w3c_datetime.py with timestamps as what they are in Python: IEEE 754 double precision numbers.  (Everywhere else in the model
they are exact rationals; Props/Doubles.lean says what the difference is.)

A finite double is given by its value.  Arithmetic is exact arithmetic followed by rounding to nearest, ties to even.
Simplifications: no infinities and no nan (timestamps are far from the ends of the range of doubles), and no signed zero.
-/

namespace Resync
open Py

/-- the distance between doubles around `q`: 53 bits, and not below 2^-1074 -/
def ulp (q : Rat) : Rat := (2 : Rat) ^ max (Int.log 2 |q| - 52) (-1074)

/-- IEEE 754 rounding to double precision -/
def fl (q : Rat) : Rat := roundHalfEven (q / ulp q) * ulp q

/-- CPython `_PyTime_DoubleToDenominator`: modf, multiplication, rounding half to even; the number of microseconds (the carry to
the seconds does not change it) -/
def timestampMicros (u : Rat) : Int :=
  truncZero u * 1000000 + roundHalfEven (fl ((u - truncZero u) * 1000000))

/-- w3c_datetime.py 17-38 `datetime_to_str` for a double -/
def datetimeToStrD (dt : Rat) (no_fractions : Bool) : Option Str :=
  if no_fractions then (utcFromMicros (truncZero dt * 1000000)).map (fun d => d.isoformat ++ ['Z'])
  else (utcFromMicros (timestampMicros (fl (dt + fl (1 / 10000000))))).map (fun d => d.isoformat ++ ['Z'])

/-- w3c_datetime.py 41-121 `str_to_datetime`: `float(".ddd")`, then the sum of an integer and that double -/
def strToDatetimeD (s : Str) : Option Rat :=
  if s = [] then none
  else
    let sf := chopFraction (expandDate s)
    (parseFull sf.1 0).map (fun k => fl (k + fl sf.2))

/-- resource.py 457-462: the timestamps give proof of inequality -/
def timesDifferD (a b : Option Rat) (delta : Rat) : Bool :=
  match a, b with
  | none, none => false
  | some x, some y => decide (delta ≤ pyAbs (fl (x - y)))
  | _, _ => true

end Resync
