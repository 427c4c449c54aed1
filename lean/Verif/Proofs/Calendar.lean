import Verif.Py.Calendar
/- Calendar arithmetic lemmas. -/

namespace Py

/-- month length in terms of the leap flag -/
def dim (leap : Bool) (m : Nat) : Nat :=
  match m with
  | 1 => 31 | 2 => if leap then 29 else 28 | 3 => 31 | 4 => 30 | 5 => 31 | 6 => 30
  | 7 => 31 | 8 => 31 | 9 => 30 | 10 => 31 | 11 => 30 | 12 => 31
  | _ => 0

theorem daysInMonth_eq (y m : Nat) : daysInMonth y m = dim (isLeap y) m := rfl

set_option maxRecDepth 20000 in
theorem dayInYear_fin : ∀ leap : Bool, ∀ n : Fin 366, (n.val < 365 ∨ leap = true) →
    1 ≤ (dayInYear leap n.val).1 ∧ (dayInYear leap n.val).1 ≤ 12 ∧ 1 ≤ (dayInYear leap n.val).2 ∧
    (dayInYear leap n.val).2 ≤ dim leap (dayInYear leap n.val).1 ∧
    daysBeforeMonth leap (dayInYear leap n.val).1 + (dayInYear leap n.val).2 = n.val + 1 := by
  decide

theorem dayInYear_spec (leap : Bool) (n : Nat) (h : n < 365 ∨ (leap = true ∧ n < 366)) :
    1 ≤ (dayInYear leap n).1 ∧ (dayInYear leap n).1 ≤ 12 ∧ 1 ≤ (dayInYear leap n).2 ∧
    (dayInYear leap n).2 ≤ dim leap (dayInYear leap n).1 ∧
    daysBeforeMonth leap (dayInYear leap n).1 + (dayInYear leap n).2 = n + 1 := by
  have hn : n < 366 := by rcases h with h | h <;> omega
  exact dayInYear_fin leap ⟨n, hn⟩ (by rcases h with h | h; · exact .inl h
                                       · exact .inr h.1)

theorem dayInYear_366 : dayInYear true 365 = (12, 31) := by decide

theorem yearQuot (a b c d : Nat) (hb : b ≤ 3) (hc : c ≤ 24) (hd : d ≤ 3) :
    (400 * a + 100 * b + 4 * c + d) * 365 + (400 * a + 100 * b + 4 * c + d) / 4 -
      (400 * a + 100 * b + 4 * c + d) / 100 + (400 * a + 100 * b + 4 * c + d) / 400 =
    146097 * a + 36524 * b + 1461 * c + 365 * d := by
  have h1 : (400 * a + 100 * b + 4 * c + d) / 4 = 100 * a + 25 * b + c := by omega
  have h2 : (400 * a + 100 * b + 4 * c + d) / 100 = 4 * a + b := by omega
  have h3 : (400 * a + 100 * b + 4 * c + d) / 400 = a := by omega
  rw [h1, h2, h3]
  omega

/-- `ord2ymd` gives a valid date with the given ordinal. -/
theorem ord2ymd_spec (ord : Nat) (h : 1 ≤ ord) :
    1 ≤ (ord2ymd ord).1 ∧ 1 ≤ (ord2ymd ord).2.1 ∧ (ord2ymd ord).2.1 ≤ 12 ∧
    1 ≤ (ord2ymd ord).2.2 ∧ (ord2ymd ord).2.2 ≤ daysInMonth (ord2ymd ord).1 (ord2ymd ord).2.1 ∧
    ymd2ord (ord2ymd ord).1 (ord2ymd ord).2.1 (ord2ymd ord).2.2 = ord := by
  obtain ⟨n, rfl⟩ : ∃ n, ord = n + 1 := ⟨ord - 1, by omega⟩
  unfold ord2ymd
  simp only [Nat.add_sub_cancel]
  generalize h400 : n / 146097 = a
  generalize hr400 : n % 146097 = r1
  generalize h100 : r1 / 36524 = b
  generalize hr100 : r1 % 36524 = r2
  generalize h4 : r2 / 1461 = c
  generalize hr4 : r2 % 1461 = r3
  generalize h1 : r3 / 365 = d
  generalize hr1 : r3 % 365 = r4
  have hn : n = 146097 * a + r1 := by omega
  have hr1b : r1 < 146097 := by omega
  have hr1e : r1 = 36524 * b + r2 := by omega
  have hr2b : r2 < 36524 := by omega
  have hr2e : r2 = 1461 * c + r3 := by omega
  have hr3b : r3 < 1461 := by omega
  have hr3e : r3 = 365 * d + r4 := by omega
  have hr4b : r4 < 365 := by omega
  have hb : b ≤ 4 := by omega
  have hc : c ≤ 24 := by omega
  have hd : d ≤ 4 := by omega
  clear h400 hr400 h100 hr100 h4 hr4 h1 hr1
  by_cases hlast : d = 4 ∨ b = 4
  · rw [if_pos hlast]
    -- last day of a leap year
    simp only
    have hy : isLeap (a * 400 + 1 + b * 100 + c * 4 + d - 1) = true := by
      simp only [isLeap, Bool.and_eq_true, Bool.or_eq_true, beq_iff_eq, bne_iff_ne]
      rcases hlast with rfl | rfl
      · have : b ≤ 3 := by omega
        omega
      · have : c = 0 := by omega
        have : d = 0 := by omega
        omega
    refine ⟨by omega, by decide, by decide, by decide, by rw [daysInMonth_eq, hy]; decide, ?_⟩
    simp only [ymd2ord, hy, daysBeforeYear]
    have : daysBeforeMonth true 12 = 335 := by decide
    rw [this]
    rcases hlast with rfl | rfl
    · have h0 : r4 = 0 := by omega
      have hc' : c ≤ 23 := by omega
      have hb' : b ≤ 3 := by omega
      have e : a * 400 + 1 + b * 100 + c * 4 + 4 - 1 - 1 = 400 * a + 100 * b + 4 * c + 3 := by omega
      rw [e, yearQuot a b c 3 hb' (by omega) (by omega)]
      omega
    · have h0 : c = 0 := by omega
      have h1 : d = 0 := by omega
      have h2 : r4 = 0 := by omega
      have e : a * 400 + 1 + 4 * 100 + c * 4 + d - 1 - 1 = 400 * a + 100 * 3 + 4 * 24 + 3 := by omega
      rw [e, yearQuot a 3 24 3 (by omega) (by omega) (by omega)]
      omega
  · rw [if_neg hlast]
    have hd' : d ≤ 3 := by omega
    have hb' : b ≤ 3 := by omega
    have hy : isLeap (a * 400 + 1 + b * 100 + c * 4 + d) = (d == 3 && (c != 24 || b == 3)) := by
      rw [Bool.eq_iff_iff]
      simp only [isLeap, Bool.and_eq_true, Bool.or_eq_true, beq_iff_eq, bne_iff_ne]
      omega
    have hs := dayInYear_spec (d == 3 && (c != 24 || b == 3)) r4 (.inl hr4b)
    simp only [ymd2ord, daysInMonth_eq, hy]
    refine ⟨by omega, hs.1, hs.2.1, hs.2.2.1, hs.2.2.2.1, ?_⟩
    rw [Nat.add_assoc, hs.2.2.2.2]
    simp only [daysBeforeYear]
    have e : a * 400 + 1 + b * 100 + c * 4 + d - 1 = 400 * a + 100 * b + 4 * c + d := by omega
    rw [e, yearQuot a b c d hb' hc hd']
    omega

theorem daysBeforeMonth_lt (leap : Bool) {m m' : Nat} (h1 : 1 ≤ m) (h : m < m') (h2 : m' ≤ 12) :
    daysBeforeMonth leap m + dim leap m ≤ daysBeforeMonth leap m' := by
  have : ∀ leap : Bool, ∀ m m' : Fin 13, 1 ≤ m.val → m.val < m'.val →
      daysBeforeMonth leap m.val + dim leap m.val ≤ daysBeforeMonth leap m'.val := by decide
  exact this leap ⟨m, by omega⟩ ⟨m', by omega⟩ h1 h

theorem daysBeforeMonth_year (leap : Bool) {m : Nat} (h1 : 1 ≤ m) (h2 : m ≤ 12) :
    daysBeforeMonth leap m + dim leap m ≤ 365 + (if leap then 1 else 0) := by
  have : ∀ leap : Bool, ∀ m : Fin 13, 1 ≤ m.val →
      daysBeforeMonth leap m.val + dim leap m.val ≤ 365 + (if leap then 1 else 0) := by decide
  exact this leap ⟨m, by omega⟩ h1

theorem daysBeforeYear_succ (y : Nat) (h : 1 ≤ y) :
    daysBeforeYear (y + 1) = daysBeforeYear y + 365 + (if isLeap y then 1 else 0) := by
  obtain ⟨z, rfl⟩ : ∃ z, y = z + 1 := ⟨y - 1, by omega⟩
  simp only [daysBeforeYear, Nat.add_sub_cancel]
  have h4 : (z + 1) / 4 = z / 4 + (if (z + 1) % 4 = 0 then 1 else 0) := by split <;> omega
  have h100 : (z + 1) / 100 = z / 100 + (if (z + 1) % 100 = 0 then 1 else 0) := by split <;> omega
  have h400 : (z + 1) / 400 = z / 400 + (if (z + 1) % 400 = 0 then 1 else 0) := by split <;> omega
  have hge : z / 100 ≤ z / 4 := by omega
  have hi1 : (z + 1) % 400 = 0 → (z + 1) % 100 = 0 := by omega
  have hi2 : (z + 1) % 100 = 0 → (z + 1) % 4 = 0 := by omega
  rw [h4, h100, h400]
  by_cases a4 : (z + 1) % 4 = 0
  · by_cases a100 : (z + 1) % 100 = 0
    · by_cases a400 : (z + 1) % 400 = 0
      · simp [isLeap, a4, a100, a400]; omega
      · simp [isLeap, a4, a100, a400]; omega
    · have a400 : ¬ (z + 1) % 400 = 0 := fun h => a100 (hi1 h)
      simp [isLeap, a4, a100, a400]; omega
  · have a100 : ¬ (z + 1) % 100 = 0 := fun h => a4 (hi2 h)
    have a400 : ¬ (z + 1) % 400 = 0 := fun h => a100 (hi1 h)
    simp [isLeap, a4, a100, a400]; omega

theorem daysBeforeYear_mono {y y' : Nat} (h : 1 ≤ y) (hlt : y < y') :
    daysBeforeYear y + 365 + (if isLeap y then 1 else 0) ≤ daysBeforeYear y' := by
  induction y' with
  | zero => omega
  | succ z ih =>
    by_cases hz : y = z
    · subst hz; rw [daysBeforeYear_succ y h]; omega
    · have := ih (by omega)
      rw [daysBeforeYear_succ z (by omega)]
      omega

/-- valid calendar date -/
def validDate (y m d : Nat) : Prop := 1 ≤ y ∧ 1 ≤ m ∧ m ≤ 12 ∧ 1 ≤ d ∧ d ≤ daysInMonth y m

/-- lexicographic order of dates -/
def dateLt (y m d y' m' d' : Nat) : Prop := y < y' ∨ (y = y' ∧ (m < m' ∨ (m = m' ∧ d < d')))

theorem ymd2ord_lt {y m d y' m' d' : Nat} (h : validDate y m d) (h' : validDate y' m' d')
    (hlt : dateLt y m d y' m' d') : ymd2ord y m d < ymd2ord y' m' d' := by
  obtain ⟨hy, hm1, hm2, hd1, hd2⟩ := h
  obtain ⟨hy', hm1', hm2', hd1', hd2'⟩ := h'
  rw [daysInMonth_eq] at hd2 hd2'
  simp only [ymd2ord]
  rcases hlt with hlt | ⟨rfl, hlt | ⟨rfl, hlt⟩⟩
  · have h1 := daysBeforeYear_mono hy hlt
    have h2 := daysBeforeMonth_year (isLeap y) hm1 hm2
    omega
  · have := daysBeforeMonth_lt (isLeap y) hm1 hlt hm2'
    omega
  · omega

theorem dateLt_trichotomy (y m d y' m' d' : Nat) :
    dateLt y m d y' m' d' ∨ (y = y' ∧ m = m' ∧ d = d') ∨ dateLt y' m' d' y m d := by
  unfold dateLt; omega

theorem ymd2ord_inj {y m d y' m' d' : Nat} (h : validDate y m d) (h' : validDate y' m' d')
    (he : ymd2ord y m d = ymd2ord y' m' d') : y = y' ∧ m = m' ∧ d = d' := by
  rcases dateLt_trichotomy y m d y' m' d' with hl | he' | hl
  · have := ymd2ord_lt h h' hl; omega
  · exact he'
  · have := ymd2ord_lt h' h hl; omega

theorem ymd2ord_pos {y m d : Nat} (h : validDate y m d) : 1 ≤ ymd2ord y m d := by
  simp only [ymd2ord]; have := h.2.2.2.1; omega

theorem ord2ymd_ymd2ord {y m d : Nat} (h : validDate y m d) : ord2ymd (ymd2ord y m d) = (y, m, d) := by
  obtain ⟨h1, h2, h3, h4, h5, h6⟩ := ord2ymd_spec (ymd2ord y m d) (ymd2ord_pos h)
  have := ymd2ord_inj ⟨h1, h2, h3, h4, h5⟩ h h6
  ext <;> simp [this]

theorem ord_le_max {y m d : Nat} (h : validDate y m d) (hy : y ≤ 9999) : ymd2ord y m d ≤ maxOrd := by
  have e : ymd2ord 9999 12 31 = maxOrd := by decide
  have hv : validDate 9999 12 31 := by
    refine ⟨by decide, by decide, by decide, by decide, by decide⟩
  rcases dateLt_trichotomy y m d 9999 12 31 with hl | ⟨rfl, rfl, rfl⟩ | hl
  · have := ymd2ord_lt h hv hl; omega
  · omega
  · exfalso
    obtain ⟨h1, h2, h3, h4, h5⟩ := h
    rcases hl with hl | ⟨rfl, hl | ⟨rfl, hl⟩⟩
    · omega
    · omega
    · have : daysInMonth 9999 12 = 31 := by decide
      omega

theorem year_le_of_ord {ord : Nat} (h : 1 ≤ ord) (hm : ord ≤ maxOrd) : (ord2ymd ord).1 ≤ 9999 := by
  obtain ⟨h1, h2, h3, h4, h5, h6⟩ := ord2ymd_spec ord h
  by_cases hy : (ord2ymd ord).1 ≤ 9999
  · exact hy
  · exfalso
    have e : ymd2ord 9999 12 31 = maxOrd := by decide
    have hv : validDate 9999 12 31 := by
      refine ⟨by decide, by decide, by decide, by decide, by decide⟩
    have := ymd2ord_lt hv ⟨h1, h2, h3, h4, h5⟩ (.inl (by omega))
    omega

end Py
