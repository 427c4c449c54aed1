import Verif.Py.Str
/-
Proleptic Gregorian calendar arithmetic as in CPython 3.11 `datetime` (`Lib/_pydatetime`/`datetime.py`
`_is_leap`, `_days_before_year`, `_days_in_month`, `_days_before_month`, `_ymd2ord`, `_ord2ymd`,
`isoformat`) and `calendar.timegm`.  Trusted library model.
-/

namespace Py

/-- `_is_leap` -/
def isLeap (y : Nat) : Bool := y % 4 == 0 && (y % 100 != 0 || y % 400 == 0)

/-- `_days_in_month` -/
def daysInMonth (y m : Nat) : Nat :=
  match m with
  | 1 => 31 | 2 => if isLeap y then 29 else 28 | 3 => 31 | 4 => 30 | 5 => 31 | 6 => 30
  | 7 => 31 | 8 => 31 | 9 => 30 | 10 => 31 | 11 => 30 | 12 => 31
  | _ => 0

/-- `_DAYS_BEFORE_MONTH` for a common year -/
def daysBeforeMonth0 (m : Nat) : Nat :=
  match m with
  | 1 => 0 | 2 => 31 | 3 => 59 | 4 => 90 | 5 => 120 | 6 => 151
  | 7 => 181 | 8 => 212 | 9 => 243 | 10 => 273 | 11 => 304 | 12 => 334
  | _ => 0

/-- `_days_before_month` -/
def daysBeforeMonth (leap : Bool) (m : Nat) : Nat :=
  daysBeforeMonth0 m + (if m > 2 ∧ leap then 1 else 0)

/-- `_days_before_year` (for `y ≥ 1`) -/
def daysBeforeYear (y : Nat) : Nat := (y - 1) * 365 + (y - 1) / 4 - (y - 1) / 100 + (y - 1) / 400

/-- `_ymd2ord`: 1 January of year 1 is day 1 -/
def ymd2ord (y m d : Nat) : Nat := daysBeforeYear y + daysBeforeMonth (isLeap y) m + d

/-- the month/day part of `_ord2ymd`: `n` days (from 0) into a year -/
def dayInYear (leap : Bool) (n : Nat) : Nat × Nat :=
  let month := (n + 50) / 32
  let preceding := daysBeforeMonth leap month
  if preceding > n then
    let month := month - 1
    (month, n - daysBeforeMonth leap month + 1)
  else (month, n - preceding + 1)

/-- `_ord2ymd` -/
def ord2ymd (ord : Nat) : Nat × Nat × Nat :=
  let n := ord - 1
  let n400 := n / 146097
  let n := n % 146097
  let n100 := n / 36524
  let n := n % 36524
  let n4 := n / 1461
  let n := n % 1461
  let n1 := n / 365
  let n := n % 365
  let year := n400 * 400 + 1 + n100 * 100 + n4 * 4 + n1
  if n1 = 4 ∨ n100 = 4 then (year - 1, 12, 31)
  else
    let leap := n1 == 3 && (n4 != 24 || n100 == 3)
    let md := dayInYear leap n
    (year, md.1, md.2)

/-- A naive `datetime` (UTC). -/
structure DT where
  year : Nat
  month : Nat
  day : Nat
  hour : Nat
  minute : Nat
  second : Nat
  micro : Nat
deriving DecidableEq, Repr

/-- the constructor's range checks -/
def DT.valid (t : DT) : Bool :=
  decide (1 ≤ t.year) && decide (t.year ≤ 9999) && decide (1 ≤ t.month) && decide (t.month ≤ 12) &&
  decide (1 ≤ t.day) && decide (t.day ≤ daysInMonth t.year t.month) && decide (t.hour ≤ 23) &&
  decide (t.minute ≤ 59) && decide (t.second ≤ 59) && decide (t.micro ≤ 999999)

/-- `_EPOCH_ORD`, the ordinal of 1970-01-01 -/
def epochOrd : Nat := 719163

/-- ordinal of 9999-12-31 -/
def maxOrd : Nat := 3652059

/-- `calendar.timegm(dt.timetuple())` (microseconds are not part of a time tuple) -/
def DT.timegm (t : DT) : Int :=
  (((((ymd2ord t.year t.month t.day : Int) - epochOrd) * 24 + t.hour) * 60 + t.minute) * 60) + t.second

/-- `datetime.utcfromtimestamp` for a whole number of microseconds since the epoch; `none` is the
exception for years outside 1..9999. -/
def utcFromMicros (n : Int) : Option DT :=
  let us := n % 1000000
  let secs := n / 1000000
  let sod := secs % 86400
  let ord := secs / 86400 + epochOrd
  if 1 ≤ ord ∧ ord ≤ maxOrd then
    let d := ord2ymd ord.toNat
    some { year := d.1, month := d.2.1, day := d.2.2
           hour := (sod / 3600).toNat, minute := (sod % 3600 / 60).toNat, second := (sod % 60).toNat
           micro := us.toNat }
  else none

/-- `dt.isoformat()` -/
def DT.isoformat (t : DT) : Str :=
  fixedDigits 4 t.year ++ '-' :: fixedDigits 2 t.month ++ '-' :: fixedDigits 2 t.day ++ 'T' ::
  fixedDigits 2 t.hour ++ ':' :: fixedDigits 2 t.minute ++ ':' :: fixedDigits 2 t.second ++
  (if t.micro = 0 then [] else '.' :: fixedDigits 6 t.micro)

end Py
