import Verif.Py.Str
/-
The W3C datetime profile (http://www.w3.org/TR/NOTE-datetime) and UTC instants, independent of
the model.
-/

namespace Resync.Spec
open Py (isDigit digitVal)

/-- two decimal digits with value `v` -/
def TwoDigits (s : Str) (v : Nat) : Prop :=
  ∃ a b, s = [a, b] ∧ isDigit a ∧ isDigit b ∧ v = 10 * digitVal a + digitVal b

/-- four decimal digits with value `v` -/
def FourDigits (s : Str) (v : Nat) : Prop :=
  ∃ a b c d, s = [a, b, c, d] ∧ isDigit a ∧ isDigit b ∧ isDigit c ∧ isDigit d ∧
    v = 1000 * digitVal a + 100 * digitVal b + 10 * digitVal c + digitVal d

/-- calendar date and time of day -/
structure Civil where
  y : Nat
  m : Nat
  d : Nat
  h : Nat
  mi : Nat
  s : Nat

def leapYear (y : Nat) : Prop := (4 ∣ y ∧ ¬ 100 ∣ y) ∨ 400 ∣ y

instance (y : Nat) : Decidable (leapYear y) := inferInstanceAs (Decidable (_ ∨ _))

def monthLength (y m : Nat) : Nat :=
  if m = 2 then (if leapYear y then 29 else 28)
  else if m = 4 ∨ m = 6 ∨ m = 9 ∨ m = 11 then 30 else 31

/-- the fields denote an existing date and time, years 1 to 9999 -/
def Civil.Valid (c : Civil) : Prop :=
  1 ≤ c.y ∧ c.y ≤ 9999 ∧ 1 ≤ c.m ∧ c.m ≤ 12 ∧ 1 ≤ c.d ∧ c.d ≤ monthLength c.y c.m ∧
  c.h ≤ 23 ∧ c.mi ≤ 59 ∧ c.s ≤ 59

/-- days in the first `n` years (years 1 to `n`) -/
def daysInYears : Nat → Nat
  | 0 => 0
  | n + 1 => daysInYears n + (if leapYear (n + 1) then 366 else 365)

/-- days in the first `n` months of year `y` -/
def daysInMonths (y : Nat) : Nat → Nat
  | 0 => 0
  | n + 1 => daysInMonths y n + monthLength y (n + 1)

/-- number of days before the given date, counted from 1 January of year 1 -/
def dayNumber (y m d : Nat) : Nat := daysInYears (y - 1) + daysInMonths y (m - 1) + (d - 1)

/-- seconds from 1970-01-01T00:00:00 to the given UTC date and time -/
def utcSeconds (c : Civil) : Int :=
  ((dayNumber c.y c.m c.d : Int) - dayNumber 1970 1 1) * 86400 + c.h * 3600 + c.mi * 60 + c.s

/-- `YYYY`, `YYYY-MM` and `YYYY-MM-DD` -/
inductive DateForm : Str → Nat → Nat → Nat → Prop
  | year {Y : Str} {y : Nat} : FourDigits Y y → DateForm Y y 1 1
  | month {Y M : Str} {y m : Nat} : FourDigits Y y → TwoDigits M m → DateForm (Y ++ '-' :: M) y m 1
  | day {Y M D : Str} {y m d : Nat} : FourDigits Y y → TwoDigits M m → TwoDigits D d →
      DateForm (Y ++ '-' :: (M ++ '-' :: D)) y m d

/-- `Z`, `+hh:mm`, `-hh:mm`; the second argument is the offset from UTC in seconds
(positive: local time is ahead of UTC) -/
inductive ZoneForm : Str → Int → Prop
  | z : ZoneForm ['Z'] 0
  | plus {H M : Str} {h m : Nat} : TwoDigits H h → TwoDigits M m → h ≤ 23 → m ≤ 59 →
      ZoneForm ('+' :: (H ++ ':' :: M)) (h * 3600 + m * 60)
  | minus {H M : Str} {h m : Nat} : TwoDigits H h → TwoDigits M m → h ≤ 23 → m ≤ 59 →
      ZoneForm ('-' :: (H ++ ':' :: M)) (-(h * 3600 + m * 60))

/-- value of the digits after the decimal point -/
def fractionVal : Str → Rat
  | [] => 0
  | c :: cs => ((digitVal c : Rat) + fractionVal cs) / 10

/-- nothing, `:ss` or `:ss.f...` -/
inductive SecForm : Str → Nat → Rat → Prop
  | absent : SecForm [] 0 0
  | secs {S : Str} {s : Nat} : TwoDigits S s → SecForm (':' :: S) s 0
  | frac {S F : Str} {s : Nat} : TwoDigits S s → F ≠ [] → (∀ c ∈ F, isDigit c = true) →
      SecForm (':' :: (S ++ '.' :: F)) s (fractionVal F)

/-- complete date plus time plus zone -/
inductive DateTimeForm : Str → Civil → Rat → Int → Prop
  | mk {Y M D H Mi S Z : Str} {y m d h mi s : Nat} {f : Rat} {off : Int} :
      FourDigits Y y → TwoDigits M m → TwoDigits D d → TwoDigits H h → TwoDigits Mi mi →
      SecForm S s f → ZoneForm Z off →
      DateTimeForm (Y ++ '-' :: (M ++ '-' :: (D ++ 'T' :: (H ++ ':' :: (Mi ++ (S ++ Z))))))
        ⟨y, m, d, h, mi, s⟩ f off

end Resync.Spec

namespace Resync.Spec

/-- a W3C datetime naming an existing date and time -/
def W3CForm (s : Str) : Prop :=
  (∃ y m d, DateForm s y m d ∧ Civil.Valid ⟨y, m, d, 0, 0, 0⟩) ∨
  (∃ c f off, DateTimeForm s c f off ∧ c.Valid)

/-- `Denotes s q`: `s` is a W3C datetime and `q` is the number of seconds from the epoch to the
instant it names (a local time with UTC offset `off` is `off` seconds ahead of UTC) -/
def Denotes (s : Str) (q : Rat) : Prop :=
  (∃ y m d, DateForm s y m d ∧ Civil.Valid ⟨y, m, d, 0, 0, 0⟩ ∧
    q = (utcSeconds ⟨y, m, d, 0, 0, 0⟩ : Int)) ∨
  (∃ c f off, DateTimeForm s c f off ∧ c.Valid ∧ q = (utcSeconds c : Rat) - (off : Rat) + f)

end Resync.Spec
