import Verif.Spec.ListIndex
/-
Resources with times of any resolution (file systems have nanoseconds, documents microseconds).
-/

namespace Resync.Spec
open Py

/-- a time in the years 1 to 9999 (up to the last microsecond) -/
def InYears (q : Rat) : Prop := -62135596800 ≤ q ∧ q < 253402300800 - 1 / 1000000

/-- a time before the year 10000 (up to the last microsecond) -/
def Before10000 (q : Rat) : Prop := q < 253402300800 - 1 / 1000000

instance (q : Rat) : Decidable (Before10000 q) := inferInstanceAs (Decidable (q < 253402300800 - 1 / 1000000))

/-- less than a microsecond apart -/
def NearTime : Option Rat → Option Rat → Prop
  | none, none => True
  | some a, some b => a - 1 / 1000000 < b ∧ b < a + 1 / 1000000
  | _, _ => False

/-- everything but the times -/
def timeless (r : Resource) : Resource :=
  { r with timestamp := none, ts_datetime := none, ts_at := none, ts_completed := none, ts_from := none, ts_until := none }

/-- a resource the format can express, its times being of any resolution -/
structure Expressible (r : Resource) : Prop where
  rest : ResOk (timeless r)
  times : ∀ t, r.timestamp = some t ∨ r.ts_datetime = some t ∨ r.ts_at = some t ∨ r.ts_completed = some t ∨
    r.ts_from = some t ∨ r.ts_until = some t → InYears t

/-- the same resource with times moved by less than a microsecond -/
structure NearCopy (a b : Resource) : Prop where
  rest : timeless b = timeless a
  timestamp : NearTime a.timestamp b.timestamp
  ts_datetime : NearTime a.ts_datetime b.ts_datetime
  ts_at : NearTime a.ts_at b.ts_at
  ts_completed : NearTime a.ts_completed b.ts_completed
  ts_from : NearTime a.ts_from b.ts_from
  ts_until : NearTime a.ts_until b.ts_until
  /-- a last modification at a whole microsecond is not moved at all -/
  exact : ∀ t, MicroTime t → a.timestamp = some t → b.timestamp = some t

/-- `b` carries what a document records about `a`, times to the microsecond -/
def RecordedNear (v10 addLastmod : Bool) (a b : Resource) : Prop := ∃ a', NearCopy a a' ∧ Recorded v10 addLastmod a' b

/-- the same URIs, each with what a document records about it, times to the microsecond -/
def SameListNear (v10 addLastmod : Bool) (a b : Dict Resource) : Prop :=
  ∀ u, match dget a u, dget b u with
    | none, none => True
    | some x, some y => RecordedNear v10 addLastmod x y
    | _, _ => False

end Resync.Spec
