import Verif.Proofs.W3CWrite
/-
C11-C14: properties of /repo/resync/w3c_datetime.py.
-/

namespace Resync
open Py Resync.Spec

/-! ### C11: timestamps survive writing and reading back -/

/-- C11.  Every timestamp that is a whole number of microseconds in the years 1 to 9999 is written,
and reading the text back gives the same timestamp. -/
theorem C11_round_trip (n : Int) (h1 : -62135596800000000 ≤ n) (h2 : n < 253402300800000000) :
    ∃ s, datetimeToStr ((n : Rat) / 1000000) false = some s ∧
      strToDatetime s = some ((n : Rat) / 1000000) := by
  obtain ⟨t, ht, hv, hm, hd, hn⟩ := utcFromMicros_spec h1 h2
  have hr : roundHalfEven (((n : Rat) / 1000000 + 1 / 10000000) * 1000000) = n := by
    apply roundHalfEven_unique <;> linarith
  refine ⟨t.isoformat ++ ['Z'], ?_, ?_⟩
  · simp only [datetimeToStr, utcFromTimestamp, Bool.false_eq_true, if_false, hr, ht, Option.map_some]
  · apply (strToDatetime_iff _ _).mpr
    right
    refine ⟨_, [], _, _, _, by simp, .inl rfl, isoformat_form hv hm, hv, ?_⟩
    rw [← timegm_eq t hv.1 hv.2.2.1 hv.2.2.2.1 hv.2.2.2.2.1]
    have : (n : Rat) = t.timegm * 1000000 + t.micro := by rw [← hn]; push_cast; rfl
    rw [this]; push_cast; ring

/-- C11.  What is written is always a W3C datetime in UTC that denotes the timestamp rounded to
microseconds: for every timestamp, of any resolution, the difference is below a microsecond. -/
theorem C11_written_denotes (q : Rat) (s : Str) (h : datetimeToStr q false = some s) :
    ∃ v, Denotes s v ∧ strToDatetime s = some v ∧ q - 1 / 1000000 < v ∧ v < q + 1 / 1000000 := by
  simp only [datetimeToStr, utcFromTimestamp, Bool.false_eq_true, if_false, Option.map_eq_some_iff] at h
  obtain ⟨t, ht, rfl⟩ := h
  generalize hn : roundHalfEven ((q + 1 / 10000000) * 1000000) = n at ht
  obtain ⟨hn1, hn2⟩ := roundHalfEven_near ((q + 1 / 10000000) * 1000000)
  rw [hn] at hn1 hn2
  have hb : -62135596800000000 ≤ n ∧ n < 253402300800000000 := by
    simp only [utcFromMicros] at ht
    split at ht
    · rename_i hb
      simp only [epochOrd, maxOrd] at hb
      omega
    · simp at ht
  obtain ⟨t', ht', hv, hm, hd, hnn⟩ := utcFromMicros_spec hb.1 hb.2
  rw [ht] at ht'
  cases ht'
  have hq : (n : Rat) = t.timegm * 1000000 + t.micro := by rw [← hnn]; push_cast; rfl
  have htg := timegm_eq t hv.1 hv.2.2.1 hv.2.2.2.1 hv.2.2.2.2.1
  refine ⟨(n : Rat) / 1000000, .inr ⟨_, _, _, isoformat_form hv hm, hv, ?_⟩,
    (strToDatetime_iff _ _).mpr (.inr ⟨_, [], _, _, _, by simp, .inl rfl, isoformat_form hv hm, hv, ?_⟩), ?_, ?_⟩
  · rw [← htg, hq]; push_cast; ring
  · rw [← htg, hq]; push_cast; ring
  · linarith
  · linarith

/-- C11.  The form written: `YYYY-MM-DDThh:mm:ss` (19 characters), then either nothing or a point and
six digits, then `Z`. -/
theorem C11_form (q : Rat) (nf : Bool) (s : Str) (h : datetimeToStr q nf = some s) :
    ∃ y m d hh mm ss : Nat, ∃ frac : Str,
      (frac = [] ∨ ∃ F, F.length = 6 ∧ (∀ c ∈ F, isDigit c = true) ∧ frac = '.' :: F) ∧
      s = fixedDigits 4 y ++ '-' :: (fixedDigits 2 m ++ '-' :: (fixedDigits 2 d ++ 'T' ::
        (fixedDigits 2 hh ++ ':' :: (fixedDigits 2 mm ++ ':' :: (fixedDigits 2 ss ++ (frac ++ ['Z'])))))) ∧
      Civil.Valid ⟨y, m, d, hh, mm, ss⟩ := by
  simp only [datetimeToStr, Option.map_eq_some_iff] at h
  obtain ⟨t, ht, rfl⟩ := h
  have hb := ht
  simp only [utcFromTimestamp] at hb ht
  have hb' : ∀ n, utcFromMicros n = some t → -62135596800000000 ≤ n ∧ n < 253402300800000000 := by
    intro n hn
    simp only [utcFromMicros] at hn
    split at hn
    · rename_i hb
      simp only [epochOrd, maxOrd] at hb
      omega
    · simp at hn
  obtain ⟨l, u⟩ := hb' _ hb
  obtain ⟨t', ht', hv, hm, hd, hnn⟩ := utcFromMicros_spec l u
  rw [ht] at ht'
  cases ht'
  refine ⟨t.year, t.month, t.day, t.hour, t.minute, t.second,
    if t.micro = 0 then [] else '.' :: fixedDigits 6 t.micro, ?_, ?_, hv⟩
  · by_cases hz : t.micro = 0
    · exact .inl (by simp [hz])
    · exact .inr ⟨fixedDigits 6 t.micro, fixedDigits_length _ _, fixedDigits_digits _ _, by simp [hz]⟩
  · simp [DT.isoformat]

example : datetimeToStr (1234567890123456 / 1000000) false = some "2009-02-13T23:31:30.123456Z".toList := by
  decide +kernel
example : datetimeToStr (3 / 2) true = some "1970-01-01T00:00:01Z".toList := by decide +kernel
example : datetimeToStr 253402300800 false = none := by decide +kernel
example : strToDatetime "2009-02-13T23:31:30.123456Z".toList = some (1234567890123456 / 1000000) := by
  decide +kernel

/-! ### C12: only W3C forms are accepted -/

/-- no W3C datetime contains a newline -/
theorem w3cForm_noNewline {s : Str} (h : W3CForm s) : '\n' ∉ s := by
  have hnd : isDigit '\n' = false := by decide
  have k : ∀ {c}, isDigit c = true → '\n' ≠ c := fun h => (digit_not h hnd).symm
  rcases h with ⟨y, m, d, hf, -⟩ | ⟨c, f, off, hf, -⟩
  · obtain ⟨ext, ht⟩ := dateForm_txt hf
    exact (dateTxt_noDot ht).2
  · obtain ⟨A, S, Z, hA, hZ, hS, -, h⟩ := dateTimeForm_split hf
    obtain ⟨y1, y2, y3, y4, m1, m2, d1, d2, h1, h2, i1, i2, rfl, a1, a2, a3, a4, a5, a6, a7, a8, a9, a10,
      a11, a12⟩ := pA_iff.mp hA
    have hAn : '\n' ∉ [y1, y2, y3, y4, '-', m1, m2, '-', d1, d2, 'T', h1, h2, ':', i1, i2] := by
      simp [k a1, k a2, k a3, k a4, k a5, k a6, k a7, k a8, k a9, k a10, k a11, k a12]
    have hSn : '\n' ∉ S := by
      rcases hS.cases with rfl | ⟨a, b, rfl, ha, hb⟩
      · simp
      · simp [k ha, k hb]
    have hZn : '\n' ∉ Z := by
      rcases zoneForm_explicit hZ with rfl | ⟨sg, z1, z2, z3, z4, hsg, hz1, hz2, hz3, hz4, rfl⟩
      · simp
      · rcases hsg with rfl | rfl <;> simp [k hz1, k hz2, k hz3, k hz4]
    rcases h with ⟨rfl, -⟩ | ⟨-, F, -, hF, rfl, -⟩
    · simp only [List.mem_append, not_or]; exact ⟨⟨hAn, hSn⟩, hZn⟩
    · have hFn : '\n' ∉ F := fun h => by have := hF _ h; simp [hnd] at this
      have hFn' : '\n' ∉ '.' :: F := by simp [hFn]
      simp only [List.mem_append, not_or]
      exact ⟨⟨⟨hAn, hSn⟩, hFn'⟩, hZn⟩

/-- C12 (partial: strings without newlines).  A string is accepted exactly when it is a W3C datetime
naming an existing date and time. -/
theorem C12_accepted_iff_w3c_partial (s : Str) (hs : '\n' ∉ s) :
    (∃ q, strToDatetime s = some q) ↔ W3CForm s := by
  constructor
  · rintro ⟨q, hq⟩
    rcases (strToDatetime_iff s q).mp hq with ⟨y, m, d, h1, h2, -⟩ | ⟨s', nl, c, f, off, rfl, hn, h1, h2, -⟩
    · exact .inl ⟨y, m, d, h1, h2⟩
    · rcases hn with rfl | rfl
      · exact .inr ⟨c, f, off, by simpa using h1, h2⟩
      · simp at hs
  · rintro (⟨y, m, d, h1, h2⟩ | ⟨c, f, off, h1, h2⟩)
    · exact ⟨_, (strToDatetime_iff s _).mpr (.inl ⟨y, m, d, h1, h2, rfl⟩)⟩
    · exact ⟨_, (strToDatetime_iff s _).mpr (.inr ⟨s, [], c, f, off, by simp, .inl rfl, h1, h2, rfl⟩)⟩

/-- C12.  Without any restriction: accepted are the W3C datetimes, and those with a time also with
one final newline. -/
theorem C12_accepted_exactly (s : Str) : (∃ q, strToDatetime s = some q) ↔
    (W3CForm s ∨ ∃ s', s = s' ++ ['\n'] ∧ ∃ c f off, DateTimeForm s' c f off ∧ c.Valid) := by
  constructor
  · rintro ⟨q, hq⟩
    rcases (strToDatetime_iff s q).mp hq with ⟨y, m, d, h1, h2, -⟩ | ⟨s', nl, c, f, off, rfl, hn, h1, h2, -⟩
    · exact .inl (.inl ⟨y, m, d, h1, h2⟩)
    · rcases hn with rfl | rfl
      · exact .inl (.inr ⟨c, f, off, by simpa using h1, h2⟩)
      · exact .inr ⟨s', rfl, c, f, off, h1, h2⟩
  · rintro ((⟨y, m, d, h1, h2⟩ | ⟨c, f, off, h1, h2⟩) | ⟨s', rfl, c, f, off, h1, h2⟩)
    · exact ⟨_, (strToDatetime_iff s _).mpr (.inl ⟨y, m, d, h1, h2, rfl⟩)⟩
    · exact ⟨_, (strToDatetime_iff s _).mpr (.inr ⟨s, [], c, f, off, by simp, .inl rfl, h1, h2, rfl⟩)⟩
    · exact ⟨_, (strToDatetime_iff _ _).mpr (.inr ⟨s', _, c, f, off, rfl, .inr rfl, h1, h2, rfl⟩)⟩

/-- C12.  Dates without a time mean midnight UTC at the start of the year, month or day. -/
theorem C12_dates_are_midnight (s : Str) (y m d : Nat) (h : DateForm s y m d)
    (hv : Civil.Valid ⟨y, m, d, 0, 0, 0⟩) :
    strToDatetime s = some (utcSeconds ⟨y, m, d, 0, 0, 0⟩ : Int) :=
  (strToDatetime_iff s _).mpr (.inl ⟨y, m, d, h, hv, rfl⟩)

/-- C12 is violated in full generality: a final newline is accepted. -/
theorem C12_violated : ∃ s q, strToDatetime s = some q ∧ ¬ W3CForm s :=
  ⟨"1970-01-01T00:00:01Z\n".toList, 1, by decide +kernel, fun h => w3cForm_noNewline h (by decide)⟩

example : DateForm "1997-07".toList 1997 7 1 :=
  .month (Y := "1997".toList) (M := "07".toList)
    ⟨'1', '9', '9', '7', rfl, by decide, by decide, by decide, by decide, by decide⟩
    ⟨'0', '7', rfl, by decide, by decide, by decide⟩
example : Civil.Valid ⟨1997, 7, 1, 0, 0, 0⟩ := by
  simp [Civil.Valid, monthLength]
example : strToDatetime "1997-07".toList = some 867715200 := by decide +kernel
example : strToDatetime "1997-02-29".toList = none := by decide +kernel
example : strToDatetime "1997-07-16 19:20:30Z".toList = none := by decide +kernel

/-! ### C13: time zone offsets -/

/-- C13 is violated: `1970-01-01T01:00+01:00` is the epoch, but the offset is added, not subtracted. -/
theorem C13_violated : ∃ s q v, strToDatetime s = some q ∧ Denotes s v ∧ q ≠ v := by
  refine ⟨"1970-01-01T01:00+01:00".toList, 7200, 0, by decide +kernel, ?_, by decide +kernel⟩
  right
  refine ⟨⟨1970, 1, 1, 1, 0, 0⟩, 0, 3600, ?_, ?_, ?_⟩
  · exact .mk (Y := "1970".toList) (M := "01".toList) (D := "01".toList) (H := "01".toList) (Mi := "00".toList)
      (S := []) (Z := "+01:00".toList)
      ⟨'1', '9', '7', '0', rfl, by decide, by decide, by decide, by decide, by decide⟩
      ⟨'0', '1', rfl, by decide, by decide, by decide⟩ ⟨'0', '1', rfl, by decide, by decide, by decide⟩
      ⟨'0', '1', rfl, by decide, by decide, by decide⟩ ⟨'0', '0', rfl, by decide, by decide, by decide⟩
      .absent
      (.plus (H := "01".toList) (M := "00".toList) (h := 1) (m := 0) ⟨'0', '1', rfl, by decide, by decide, by decide⟩
        ⟨'0', '0', rfl, by decide, by decide, by decide⟩ (by decide) (by decide))
  · simp [Civil.Valid, monthLength]
  · have : utcSeconds ⟨1970, 1, 1, 1, 0, 0⟩ = 3600 := by simp [utcSeconds]
    rw [this]; norm_num

/-- C13 (partial: zero offsets, that is `Z`, `+00:00`, `-00:00`, and dates).  The value is the instant
denoted. -/
theorem C13_utc_instant_partial (s : Str) (q : Rat) (h : strToDatetime s = some q) (hs : '\n' ∉ s)
    (hz : ∀ c f off, DateTimeForm s c f off → off = 0) : Denotes s q := by
  rcases (strToDatetime_iff s q).mp h with h | ⟨s', nl, c, f, off, rfl, hn, h1, h2, rfl⟩
  · exact .inl h
  · rcases hn with rfl | rfl
    · have := hz c f off (by simpa using h1)
      subst this
      exact .inr ⟨c, f, 0, by simpa using h1, h2, by simp⟩
    · simp at hs

/-- C13.  What the code computes for every offset: the value is off by exactly twice the offset. -/
theorem C13_actual_shift (s : Str) (c : Civil) (f : Rat) (off : Int) (h : DateTimeForm s c f off)
    (hv : c.Valid) : ∃ v, Denotes s v ∧ strToDatetime s = some (v + 2 * off) :=
  ⟨_, .inr ⟨c, f, off, h, hv, rfl⟩,
    (strToDatetime_iff s _).mpr (.inr ⟨s, [], c, f, off, by simp, .inl rfl, h, hv, by ring⟩)⟩

/-! ### C14: string order -/

/-- C14.  For two timestamps of microsecond resolution that are both whole seconds, or both not,
the texts written compare as the timestamps do. -/
theorem C14_string_order (a b : Int) (ha : -62135596800000000 ≤ a) (hb : b < 253402300800000000)
    (hab : a < b) (hw : 1000000 ∣ a ↔ 1000000 ∣ b) :
    ∃ s t, datetimeToStr ((a : Rat) / 1000000) false = some s ∧
      datetimeToStr ((b : Rat) / 1000000) false = some t ∧ s < t := by
  obtain ⟨t, ht, hv, hm, hd, hn⟩ := utcFromMicros_spec ha (by omega)
  obtain ⟨t', ht', hv', hm', hd', hn'⟩ := utcFromMicros_spec (n := b) (by omega) hb
  have hr : ∀ n : Int, roundHalfEven (((n : Rat) / 1000000 + 1 / 10000000) * 1000000) = n := by
    intro n
    apply roundHalfEven_unique <;> linarith
  refine ⟨t.isoformat ++ ['Z'], t'.isoformat ++ ['Z'], ?_, ?_, ?_⟩
  · simp only [datetimeToStr, utcFromTimestamp, Bool.false_eq_true, if_false, hr, ht, Option.map_some]
  · simp only [datetimeToStr, utcFromTimestamp, Bool.false_eq_true, if_false, hr, ht', Option.map_some]
  rw [isoformat_text19, isoformat_text19]
  have hz : t.micro = 0 ↔ t'.micro = 0 := by omega
  rcases lt_or_ge t.timegm t'.timegm with hlt | hge
  · exact append_lt_append (by simp [text19_length]) (text19_lt hv hv' hd hd' hlt)
  · have he : t.timegm = t'.timegm := by omega
    have hmlt : t.micro < t'.micro := by omega
    have ht0 : t.micro ≠ 0 := by omega
    have ht0' : t'.micro ≠ 0 := by omega
    have hte : DT.text19 t = DT.text19 t' := by
      have hy : t.year = t'.year ∧ t.month = t'.month ∧ t.day = t'.day ∧ t.hour = t'.hour ∧
          t.minute = t'.minute ∧ t.second = t'.second := by
        obtain ⟨-, -, -, -, -, -, a7, a8, a9⟩ := hv
        obtain ⟨-, -, -, -, -, -, b7, b8, b9⟩ := hv'
        simp only [DT.timegm] at he a7 a8 a9 b7 b8 b9
        have hord : ymd2ord t.year t.month t.day = ymd2ord t'.year t'.month t'.day := by omega
        obtain ⟨e1, e2, e3⟩ := ymd2ord_inj hd hd' hord
        refine ⟨e1, e2, e3, by omega, by omega, by omega⟩
      obtain ⟨e1, e2, e3, e4, e5, e6⟩ := hy
      simp only [DT.text19, e1, e2, e3, e4, e5, e6]
    rw [hte, if_neg ht0, if_neg ht0']
    apply append_lt_right
    exact List.cons_lt_cons_iff.mpr (.inr ⟨rfl, append_lt_append (by simp [fixedDigits_length])
      (fixedDigits_lt hmlt (by omega))⟩)

/-- C14 as stated: whole seconds. -/
theorem C14_whole_seconds (a b : Int) (ha : -62135596800 ≤ a) (hb : b < 253402300800) (hab : a < b) :
    ∃ s t, datetimeToStr a false = some s ∧ datetimeToStr b false = some t ∧ s < t := by
  have := C14_string_order (a * 1000000) (b * 1000000) (by omega) (by omega) (by omega) (by omega)
  simpa using this

/-- The restriction in `C14_string_order` is needed: a whole second sorts after its fractions. -/
theorem C14_mixed_not_ordered : ∃ a b : Rat, a < b ∧ ∃ s t, datetimeToStr a false = some s ∧
    datetimeToStr b false = some t ∧ t < s :=
  ⟨0, 1 / 2, by decide +kernel, "1970-01-01T00:00:00Z".toList, "1970-01-01T00:00:00.500000Z".toList,
    by decide +kernel, by decide +kernel, by decide⟩

example : "1969-12-31T23:59:59Z".toList < "1970-01-01T00:00:00Z".toList := by decide
example : datetimeToStr (-1) false = some "1969-12-31T23:59:59Z".toList := by decide +kernel

end Resync
