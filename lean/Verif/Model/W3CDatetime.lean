import Verif.Py.Regex
import Verif.Py.Calendar
/-
Model of /repo/resync/w3c_datetime.py.

Simplifications: timestamps are exact rationals instead of IEEE doubles; `\d` is the ASCII digits
only; `dateutil.parser.parse` on strings of the form YYYY-MM-DDThh:mm[:ss]Z is that date and time,
or `ValueError` if no such date and time exists (years 1 to 9999).
-/

namespace Resync
open Py

/-- `_PyTime_ROUND_HALF_EVEN`, used by `datetime.utcfromtimestamp` -/
def roundHalfEven (q : Rat) : Int :=
  let f := q.floor
  let r := q - f
  if r < 1 / 2 then f
  else if r > 1 / 2 then f + 1
  else if f % 2 = 0 then f else f + 1

/-- Python `int(q)`: truncation towards zero -/
def truncZero (q : Rat) : Int := if q < 0 then -((-q).floor) else q.floor

/-- `datetime.utcfromtimestamp(t)`; `none` is the exception for years outside 1..9999 -/
def utcFromTimestamp (t : Rat) : Option DT := utcFromMicros (roundHalfEven (t * 1000000))

/-- w3c_datetime.py 17-38 `datetime_to_str` for a number; `none` is the exception of
`utcfromtimestamp`.  (`None` gives `None` and 'now' uses `time.time()`: see
`datetimeToStr?`.) -/
def datetimeToStr (dt : Rat) (no_fractions : Bool) : Option Str :=
  let dt := if no_fractions then (truncZero dt : Rat) else dt + 1 / 10000000
  (utcFromTimestamp dt).map (fun d => d.isoformat ++ ['Z'])

/-- w3c_datetime.py 17-38, the argument `None` -/
def datetimeToStr? (dt : Option Rat) (no_fractions : Bool) : Option (Option Str) :=
  match dt with
  | none => some none
  | some t => (datetimeToStr t no_fractions).map some

def reD : Re := .chr isDigit

/-- `\d\d\d\d(\-\d\d(\-\d\d)?)?$` (w3c_datetime.py 81) -/
def dateRe : Re := .seq [reD, reD, reD, reD,
  .opt (.grp 1 (.seq [.lit '-', reD, reD, .opt (.grp 2 (.seq [.lit '-', reD, reD]))])), .eos]

/-- `(.*\d{2}:\d{2}:\d{2})(\.\d+)([^\d].*)?$` (w3c_datetime.py 89) -/
def fracRe : Re := .seq [
  .grp 1 (.cat (.star .dot) (.seq [reD, reD, .lit ':', reD, reD, .lit ':', reD, reD])),
  .grp 2 (.cat (.lit '.') (.plus reD)),
  .opt (.grp 3 (.cat (.chr (fun c => !isDigit c)) (.star .dot))), .eos]

/-- `(\d\d\d\d\-\d\d\-\d\dT\d\d:\d\d(:\d\d)?)(Z|([+-])(\d\d):(\d\d))$` (w3c_datetime.py 104-105) -/
def fullRe : Re := .seq [
  .grp 1 (.cat (.seq [reD, reD, reD, reD, .lit '-', reD, reD, .lit '-', reD, reD, .lit 'T',
      reD, reD, .lit ':', reD, reD]) (.opt (.grp 2 (.seq [.lit ':', reD, reD])))),
  .grp 3 (.alt (.lit 'Z') (.seq [.grp 4 (.chr (fun c => c == '+' || c == '-')),
      .grp 5 (.seq [reD, reD]), .lit ':', .grp 6 (.seq [reD, reD])])), .eos]

/-- `float(".ddd")` -/
def fracValue (s : Str) : Rat := (digitsVal (s.drop 1) : Rat) / (10 : Rat) ^ (s.length - 1)

/-- `dateutil_parser.parse(g + 'Z')` for `g` of the form YYYY-MM-DDThh:mm[:ss] -/
def parseCivil (g : Str) : Option DT :=
  let t : DT :=
    { year := digitsVal (g.take 4), month := digitsVal ((g.drop 5).take 2)
      day := digitsVal ((g.drop 8).take 2), hour := digitsVal ((g.drop 11).take 2)
      minute := digitsVal ((g.drop 14).take 2), second := digitsVal ((g.drop 17).take 2)
      micro := 0 }
  if t.valid then some t else none

/-- w3c_datetime.py 80-87: make a date into a full datetime -/
def expandDate (s : Str) : Str :=
  match dateRe.matchStart s with
  | none => s
  | some m =>
    s ++ (match m.group 1 with
          | none => "-01-01".toList
          | some _ => match m.group 2 with
            | none => "-01".toList
            | some _ => []) ++ "T00:00:00Z".toList

/-- w3c_datetime.py 88-96: chop out fractional seconds if present -/
def chopFraction (s : Str) : Str × Rat :=
  match fracRe.matchStart s with
  | none => (s, 0)
  | some m => ((m.group 1).getD [] ++ (m.group 3).getD [], fracValue ((m.group 2).getD []))

/-- w3c_datetime.py 97-121: check the format, apply the offset and the fraction -/
def parseFull (s : Str) (fractional_seconds : Rat) : Option Rat :=
  match fullRe.matchStart s with
  | none => none
  | some m =>
    match parseCivil ((m.group 1).getD []) with
    | none => none
    | some dt =>
      if (m.group 3).getD [] = ['Z'] then some ((dt.timegm : Rat) + (0 : Int) + fractional_seconds)
      else
        let hh := digitsVal ((m.group 5).getD [])
        let mm := digitsVal ((m.group 6).getD [])
        if hh > 23 ∨ mm > 59 then none
        else
          let off : Int := hh * 3600 + mm * 60
          let off : Int := if (m.group 4).getD [] = ['-'] then -off else off
          some ((dt.timegm : Rat) + (off : Rat) + fractional_seconds)

/-- w3c_datetime.py 41-121 `str_to_datetime` for a string; `none` is `ValueError`. -/
def strToDatetime (s : Str) : Option Rat :=
  if s = [] then none
  else
    let sf := chopFraction (expandDate s)
    parseFull sf.1 sf.2

end Resync
