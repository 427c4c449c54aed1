import Verif.Proofs.DoubleTimes
import Verif.Props.W3CDatetime
/-
C93: datetimes with timestamps as Python has them, in double precision.  Elsewhere timestamps are exact numbers; these theorems
say what the difference is.
-/

namespace Resync
open Py Resync.Spec

/-- The rounding of the model is the one of IEEE 754: a closest double, and nothing is changed about a double. -/
theorem C93_rounding (q : Rat) : Nearest (fl q) q ∧ (IsDouble q → fl q = q) :=
  ⟨⟨isDouble_fl q, fl_nearest q⟩, fl_of_double⟩

theorem microsText (n : Int) (h1 : -62135596800000000 ≤ n) (h2 : n < 253402300800000000) :
    ∃ s, (utcFromMicros n).map (fun d => d.isoformat ++ ['Z']) = some s ∧ strToDatetime s = some ((n : Rat) / 1000000) := by
  have hr : roundHalfEven (((n : Rat) / 1000000 + 1 / 10000000) * 1000000) = n := by
    apply roundHalfEven_unique <;> linarith
  have := C11_round_trip n h1 h2
  simp only [datetimeToStr, utcFromTimestamp, Bool.false_eq_true, if_false, hr] at this
  exact this

theorem datetimeToStrD_frac (t : Rat) : datetimeToStrD t false =
    (utcFromMicros (timestampMicros (fl (t + tick)))).map (fun d => d.isoformat ++ ['Z']) := by
  simp [datetimeToStrD, tick]

/-- C93.  A time in microseconds, held as the closest double, is written as the exact time would be (C11), up to the year
2242. -/
theorem C93_same_text (n : Int) (h : |fl ((n : Rat) / 1000000)| < 2 ^ 33) :
    datetimeToStrD (fl ((n : Rat) / 1000000)) false = datetimeToStr ((n : Rat) / 1000000) false := by
  have hr : roundHalfEven (((n : Rat) / 1000000 + 1 / 10000000) * 1000000) = n := by
    apply roundHalfEven_unique <;> linarith
  rw [datetimeToStrD_frac, micros_of_nearest n h]
  simp only [datetimeToStr, utcFromTimestamp, Bool.false_eq_true, if_false, hr]

/-- C93.  Reading is reading the exact time (C12, C13), with two roundings: the same strings are accepted. -/
theorem C93_same_reading (s : Str) : strToDatetimeD s = (strToDatetime s).map (fun q => fl (⌊q⌋ + fl (q - ⌊q⌋))) :=
  strToDatetimeD_eq s

/-- C93, with the exception of times within two and a half hours of the start of 1970.  A time in microseconds, held as the
closest double, comes back as the same double. -/
theorem C93_round_trip_partial (n : Int) (t : Rat) (ht : t = fl ((n : Rat) / 1000000)) (h1 : -62135596800 ≤ t)
    (h2 : t < 253402300800) (h : 9000 ≤ |t| ∨ (0 ≤ t ∧ t < 1) ∨ ∃ k : Int, t = k) :
    ∃ s, datetimeToStrD t false = some s ∧ strToDatetimeD s = some t := by
  have hd : IsDouble t := by rw [ht]; exact isDouble_fl _
  obtain ⟨r1, r2⟩ := micros_range hd h1 h2
  obtain ⟨s, hs, hr⟩ := microsText _ r1 r2
  refine ⟨s, by rw [datetimeToStrD_frac, hs], ?_⟩
  rw [strToDatetimeD_eq, hr, Option.map_some, Option.some_inj]
  by_cases h33 : 2 ^ 33 ≤ |t|
  · have hl : fl (t + tick) = t := add_tick_large hd (by norm_num at h33 ⊢; linarith)
    rw [hl]
    exact read_large hd h33 (by rw [abs_le]; constructor <;> norm_num <;> linarith)
  · push Not at h33
    rcases h with h | h | ⟨k, hk⟩
    · rw [ht, micros_of_nearest n (by rw [← ht]; exact h33)]
      exact read_nearest n (by rw [← ht]; exact h)
    · rw [ht, micros_of_nearest n (by rw [← ht]; exact h33)]
      exact read_first_second n (by rw [← ht]; exact h.1) (by rw [← ht]; exact h.2)
    · have hm := micros_of_nearest (k * 1000000)
      have e : (((k * 1000000 : Int) : Rat) / 1000000) = k := by push_cast; ring
      rw [e, ← hk, fl_of_double hd] at hm
      rw [hm h33, e, hk]
      apply read_int
      rw [hk] at h33
      have : ((|k| : Int) : Rat) < ((8589934592 : Int) : Rat) := by push_cast; norm_num at h33; exact h33
      have : |k| < 8589934592 := by exact_mod_cast this
      omega

/-- C93.  From 2242 on (and before 1698), where doubles are further apart than microseconds, every double comes back. -/
theorem C93_far_round_trip (t : Rat) (hd : IsDouble t) (h1 : -62135596800 ≤ t) (h2 : t < 253402300800)
    (h : 2 ^ 33 ≤ |t|) : ∃ s, datetimeToStrD t false = some s ∧ strToDatetimeD s = some t := by
  obtain ⟨r1, r2⟩ := micros_range hd h1 h2
  obtain ⟨s, hs, hr⟩ := microsText _ r1 r2
  refine ⟨s, by rw [datetimeToStrD_frac, hs], ?_⟩
  rw [strToDatetimeD_eq, hr, Option.map_some, Option.some_inj]
  have hl : fl (t + tick) = t := add_tick_large hd (by norm_num at h ⊢; linarith)
  rw [hl]
  exact read_large hd h (by rw [abs_le]; constructor <;> norm_num <;> linarith)

/-- C93 is violated near the start of 1970: 1.753753 comes back as a different number, 1.7537530000000001. -/
theorem C93_violated : ∃ t t' s, t = fl (1753753 / 1000000) ∧ datetimeToStrD t false = some s ∧
    strToDatetimeD s = some t' ∧ t' ≠ t :=
  ⟨fl (1753753 / 1000000), fl (1 + fl (753753 / 1000000)), "1970-01-01T00:00:01.753753Z".toList, rfl, by decide +kernel,
    by decide +kernel, by decide +kernel⟩

/-- C93.  Every double in the years 1 to 9999, whether a number of microseconds or not, comes back with a difference of less than
1.5 microseconds; and what comes back is written again as the same text, so nothing drifts. -/
theorem C93_close_and_stable (t : Rat) (hd : IsDouble t) (h1 : -62135596800 ≤ t) (h2 : t < 253402300800) :
    ∃ s t', datetimeToStrD t false = some s ∧ strToDatetimeD s = some t' ∧ |t' - t| < 3 / 2000000 ∧
      datetimeToStrD t' false = some s := by
  obtain ⟨r1, r2⟩ := micros_range hd h1 h2
  obtain ⟨s, hs, hr⟩ := microsText _ r1 r2
  refine ⟨s, _, by rw [datetimeToStrD_frac, hs], by rw [strToDatetimeD_eq, hr, Option.map_some], ?_, ?_⟩
  · have hc := reread_close hd rfl
    unfold readDouble
    generalize (⌊(timestampMicros (fl (t + tick)) : Rat) / 1000000⌋ : Rat) + _ = p at hc ⊢
    have hn := fl_nearest p t hd
    rw [abs_sub_comm t p] at hn
    have a := abs_le.mp (hn.trans hc.le)
    have b := abs_lt.mp hc
    rw [abs_lt]; constructor <;> linarith
  · rw [datetimeToStrD_frac, micros_stable hd (by rw [abs_le]; constructor <;> norm_num <;> linarith), hs]

/-- C93.  The order of times is kept. -/
theorem C93_order (a b : Rat) (ha : IsDouble a) (hb : IsDouble b) (h1 : -62135596800 ≤ a) (h : a ≤ b)
    (h2 : b < 253402300800) : ∃ s s' a' b', datetimeToStrD a false = some s ∧ datetimeToStrD b false = some s' ∧
      strToDatetimeD s = some a' ∧ strToDatetimeD s' = some b' ∧ a' ≤ b' := by
  obtain ⟨r1, r2⟩ := micros_range ha h1 (h.trans_lt h2)
  obtain ⟨r1', r2'⟩ := micros_range hb (h1.trans h) h2
  obtain ⟨s, hs, hr⟩ := microsText _ r1 r2
  obtain ⟨s', hs', hr'⟩ := microsText _ r1' r2'
  refine ⟨s, s', _, _, by rw [datetimeToStrD_frac, hs], by rw [datetimeToStrD_frac, hs'],
    by rw [strToDatetimeD_eq, hr, Option.map_some], by rw [strToDatetimeD_eq, hr', Option.map_some], ?_⟩
  apply readDouble_mono
  have := timestampMicros_mono (fl_mono (show a + tick ≤ b + tick by linarith))
  have : (timestampMicros (fl (a + tick)) : Rat) ≤ timestampMicros (fl (b + tick)) := Int.cast_le.mpr this
  linarith

/-- C93.  Without fractions, the whole seconds come back. -/
theorem C93_no_fractions (t : Rat) (h1 : -62135596800 ≤ t) (h2 : t < 253402300800) :
    datetimeToStrD t true = datetimeToStr t true ∧
      ∃ s, datetimeToStrD t true = some s ∧ strToDatetimeD s = some (truncZero t : Rat) := by
  have hz := abs_lt.mp (truncZero_near t)
  have k1 : -62135596800 ≤ truncZero t := by
    have := truncZero_mono h1
    have e : truncZero (-62135596800) = -62135596800 := by decide +kernel
    rwa [e] at this
  have k2 : truncZero t < 253402300800 := by
    rcases lt_or_ge t 0 with h | h
    · have := truncZero_mono h.le
      have e : truncZero 0 = 0 := by decide +kernel
      omega
    · have : ((truncZero t : Int) : Rat) ≤ t := by
        unfold truncZero; rw [if_neg (by linarith)]; exact Int.floor_le t
      have : ((truncZero t : Int) : Rat) < ((253402300800 : Int) : Rat) := by push_cast; linarith
      exact_mod_cast this
  obtain ⟨s, hs, hr⟩ := microsText (truncZero t * 1000000) (by omega) (by omega)
  have hr0 : roundHalfEven ((truncZero t : Rat) * 1000000) = truncZero t * 1000000 := by
    apply roundHalfEven_unique <;> push_cast <;> linarith
  refine ⟨by simp [datetimeToStrD, datetimeToStr, utcFromTimestamp, hr0], s, by simp [datetimeToStrD, hs], ?_⟩
  rw [strToDatetimeD_eq, hr, Option.map_some, Option.some_inj]
  have e : (((truncZero t * 1000000 : Int) : Rat) / 1000000) = truncZero t := by push_cast; ring
  rw [e]
  apply read_int
  rw [abs_le]; omega

/-- C93.  Comparison of times (C17): for doubles not within a second of the start of 1970, `==` of resources, which asks whether
the times differ by a second or more, decides as exact arithmetic does. -/
theorem C93_compare (a b : Option Rat) (ha : ∀ t, a = some t → IsDouble t ∧ 1 ≤ |t|)
    (hb : ∀ t, b = some t → IsDouble t ∧ 1 ≤ |t|) : timesDifferD a b 1 = timesDiffer a b 1 := by
  have hp : ∀ x, pyAbs x = |x| := fun x => by
    unfold pyAbs
    split
    · rename_i h; exact (abs_of_neg h).symm
    · rename_i h; exact (abs_of_nonneg (by linarith)).symm
  cases a <;> cases b <;> simp only [timesDifferD, timesDiffer, hp]
  rename_i x y
  exact decide_eq_decide.mpr (fl_sub_ge_one (ha x rfl).1 (hb y rfl).1 (ha x rfl).2 (hb y rfl).2)

/-- C93.  Comparing with delta 0 (`equal` without delta) never says that two times are the same. -/
theorem C93_compare_zero (x y : Rat) : timesDifferD (some x) (some y) 0 = true := by
  have : (0 : Rat) ≤ pyAbs (fl (x - y)) := by
    unfold pyAbs; split <;> linarith
  simp [timesDifferD, this]

example : fl (1234567890123456 / 1000000) = 1294538259954093 / 1048576 := by decide +kernel
example : IsDouble (1294538259954093 / 1048576) := ⟨1294538259954093, -20, by norm_num, by norm_num, by norm_num⟩
example : datetimeToStrD (1294538259954093 / 1048576) false = some "2009-02-13T23:31:30.123456Z".toList := by decide +kernel
example : strToDatetimeD "2009-02-13T23:31:30.123456Z".toList = some (1294538259954093 / 1048576) := by decide +kernel
/-- not a whole number of microseconds: comes back changed -/
example : datetimeToStrD (1234567890 + 1 / 4194304) false = some "2009-02-13T23:31:30Z".toList := by decide +kernel
example : datetimeToStrD 253402300799 false = some "9999-12-31T23:59:59Z".toList := by decide +kernel
example : datetimeToStrD 253402300800 false = none := by decide +kernel
example : timesDifferD (some 1234567890) (some (1234567891 - 1 / 2097152)) 1 = false := by decide +kernel
example : timesDifferD (some 1234567890) (some 1234567891) 1 = true := by decide +kernel
/-- without the condition: the computed difference of 1 and a tiny number is 1 -/
example : timesDifferD (some 1) (some (1 / 2 ^ 60)) 1 = true ∧ timesDiffer (some 1) (some (1 / 2 ^ 60)) 1 = false := by
  decide +kernel

end Resync
