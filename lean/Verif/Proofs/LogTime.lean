import Verif.Proofs.Client
import Verif.Proofs.RoundTimes
import Verif.Spec.Times
import Verif.Proofs.ClientTime
/-
Times in log messages.
-/

namespace Resync
open Py Resync.Spec

/-- a time in the years 1 to 9999 can be logged -/
theorem logTime_of_years {t : Rat} (h : InYears t) : logTime t = .ok () := by
  rw [logTime_ok, ← datetimeToStr_rnd]
  obtain ⟨n, h1, h2, h3⟩ := rndT_micro h.1 h.2
  rw [h3]
  have hr : roundHalfEven (((n : Rat) / 1000000 + 1 / 10000000) * 1000000) = n := by
    apply roundHalfEven_unique <;> linarith
  obtain ⟨d, hd, _⟩ := utcFromMicros_spec h1 h2
  simp only [datetimeToStr, utcFromTimestamp, Bool.false_eq_true, if_false, hr, hd, Option.map_some, Option.isSome_some]

theorem logTime_positive {t : Rat} (h0 : 0 < t) (h : Before10000 t) : logTime t = .ok () :=
  logTime_of_years ⟨by linarith, h⟩

/-- otherwise the message is an exception -/
theorem logTime_cases (t : Rat) : logTime t = .ok () ∨ (logTime t = .error .uncaught ∧ ¬ InYears t) := by
  by_cases h : InYears t
  · exact .inl (logTime_of_years h)
  · unfold logTime
    cases datetimeToStr t false with
    | none => exact .inr ⟨rfl, h⟩
    | some _ => exact .inl rfl

theorem LastIn.before {P : Rat → Prop} {s s' : St} (h : LastIn P s s') (hP : ∀ t, P t → Before10000 t)
    (hs : Before10000 s.last_timestamp) : Before10000 s'.last_timestamp := by
  rcases h.1 with e | e
  · rw [e]; exact hs
  · exact hP _ e

end Resync
