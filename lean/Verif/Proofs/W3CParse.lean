import Verif.Proofs.W3C
import Mathlib.Algebra.Order.Field.Rat
import Mathlib.Tactic.FieldSimp
import Mathlib.Tactic.Ring
/- The datetime parser accepts exactly the W3C forms (and a final newline after a full form). -/

namespace Resync
open Py Resync.Spec

theorem digitsVal_cons_acc (F : Str) (a : Nat) :
    F.foldl (fun a c => 10 * a + digitVal c) a = a * 10 ^ F.length + digitsVal F := by
  induction F generalizing a with
  | nil => simp [digitsVal]
  | cons c F ih =>
    have h2 : digitsVal (c :: F) = (10 * 0 + digitVal c) * 10 ^ F.length + digitsVal F := by
      rw [← ih]; rfl
    rw [List.foldl_cons, ih, h2]
    simp [Nat.pow_succ]; ring

theorem fractionVal_eq (F : Str) : fractionVal F = (digitsVal F : Rat) / 10 ^ F.length := by
  induction F with
  | nil => simp [fractionVal, digitsVal]
  | cons c F ih =>
    have : digitsVal (c :: F) = digitVal c * 10 ^ F.length + digitsVal F := by
      rw [digitsVal, List.foldl_cons, digitsVal_cons_acc]; simp
    rw [fractionVal, ih, this]
    have h10 : (10 : Rat) ^ F.length ≠ 0 := by positivity
    push_cast
    field_simp
    simp [pow_succ]; ring

theorem fracValue_eq (F : Str) : fracValue ('.' :: F) = fractionVal F := by
  simp [fracValue, fractionVal_eq]

theorem digit_not {a c : Char} (h : isDigit a = true) (hc : isDigit c = false) : a ≠ c := by
  rintro rfl; simp [h] at hc

/-- no '.' in the characters of a fraction-free form -/
theorem plain_noDot {A S Z nl : Str} {off : Int} (hA : Fits pA A) (hS : SecTxt S)
    (hZ : ZoneForm Z off) (hn : NL nl) : '.' ∉ A ++ S ++ Z ++ nl := by
  have hd : isDigit '.' = false := by decide
  obtain ⟨y1, y2, y3, y4, m1, m2, d1, d2, h1, h2, i1, i2, rfl, a1, a2, a3, a4, a5, a6, a7, a8, a9, a10,
    a11, a12⟩ := pA_iff.mp hA
  have n : ∀ {c}, isDigit c = true → '.' ≠ c := fun h => (digit_not h hd).symm
  have hAn : '.' ∉ [y1, y2, y3, y4, '-', m1, m2, '-', d1, d2, 'T', h1, h2, ':', i1, i2] := by
    simp [n a1, n a2, n a3, n a4, n a5, n a6, n a7, n a8, n a9, n a10, n a11, n a12]
  have hSn : '.' ∉ S := by
    rcases hS.cases with rfl | ⟨a, b, rfl, ha, hb⟩
    · simp
    · simp [n ha, n hb]
  have hZn : '.' ∉ Z := by
    rcases zoneForm_explicit hZ with rfl | ⟨sg, z1, z2, z3, z4, hsg, hz1, hz2, hz3, hz4, rfl⟩
    · simp
    · rcases hsg with rfl | rfl <;> simp [n hz1, n hz2, n hz3, n hz4]
  have hnn : '.' ∉ nl := by rcases hn with rfl | rfl <;> simp
  simp only [List.mem_append, not_or]
  exact ⟨⟨⟨hAn, hSn⟩, hZn⟩, hnn⟩

/-- characters of the date-only texts -/
theorem dateTxt_noDot {u ext : Str} (h : DateTxt u ext) : '.' ∉ u ∧ '\n' ∉ u := by
  have hd : isDigit '.' = false := by decide
  have hn : isDigit '\n' = false := by decide
  obtain ⟨y1, y2, y3, y4, h1, h2, h3, h4, h⟩ := h.explicit
  have n : ∀ {c}, isDigit c = true → '.' ≠ c := fun h => (digit_not h hd).symm
  have m : ∀ {c}, isDigit c = true → '\n' ≠ c := fun h => (digit_not h hn).symm
  rcases h with ⟨rfl, rfl⟩ | ⟨a, b, ha, hb, rfl, rfl⟩ | ⟨a, b, c, d, ha, hb, hc, hd, rfl, rfl⟩
  · simp [n h1, n h2, n h3, n h4, m h1, m h2, m h3, m h4]
  · simp [n h1, n h2, n h3, n h4, m h1, m h2, m h3, m h4, n ha, n hb, m ha, m hb]
  · simp [n h1, n h2, n h3, n h4, m h1, m h2, m h3, m h4, n ha, n hb, m ha, m hb, n hc, n hd, m hc, m hd]

/-- a date-only text, extended, is a datetime at midnight -/
theorem dateTxt_expand {u ext : Str} (h : DateTxt u ext) :
    ∃ y m d, DateForm u y m d ∧ ∃ A, Fits pA A ∧ u ++ ext ++ "T00:00:00Z".toList = A ++ ":00".toList ++ ['Z'] ∧
      civilOf (A ++ ":00".toList) = ⟨y, m, d, 0, 0, 0⟩ := by
  have h0 : isDigit '0' = true := by decide
  have h1' : isDigit '1' = true := by decide
  obtain ⟨y1, y2, y3, y4, h1, h2, h3, h4, h⟩ := h.explicit
  have hY : Fits pY [y1, y2, y3, y4] := fitsY_iff.mpr ⟨y1, y2, y3, y4, rfl, h1, h2, h3, h4⟩
  rcases h with ⟨rfl, rfl⟩ | ⟨a, b, ha, hb, rfl, rfl⟩ | ⟨a, b, c, d, ha, hb, hc, hd, rfl, rfl⟩
  · refine ⟨_, 1, 1, .year (fourDigits_of_fits hY), [y1, y2, y3, y4, '-', '0', '1', '-', '0', '1', 'T', '0', '0', ':', '0', '0'],
      pA_iff.mpr ⟨y1, y2, y3, y4, _, _, _, _, _, _, _, _, rfl, h1, h2, h3, h4, h0, h1', h0, h1', h0, h0, h0, h0⟩, rfl, ?_⟩
    simp [civilOf, digitsVal, digitVal]
  · have hM : Fits pDD [a, b] := dd_iff.mpr ⟨a, b, rfl, ha, hb⟩
    refine ⟨_, _, 1, .month (fourDigits_of_fits hY) (twoDigits_of_fits hM), [y1, y2, y3, y4, '-', a, b, '-', '0', '1', 'T', '0', '0', ':', '0', '0'],
      pA_iff.mpr ⟨y1, y2, y3, y4, _, _, _, _, _, _, _, _, rfl, h1, h2, h3, h4, ha, hb, h0, h1', h0, h0, h0, h0⟩, rfl, ?_⟩
    simp [civilOf, digitsVal, digitVal]
  · have hM : Fits pDD [a, b] := dd_iff.mpr ⟨a, b, rfl, ha, hb⟩
    have hD : Fits pDD [c, d] := dd_iff.mpr ⟨c, d, rfl, hc, hd⟩
    refine ⟨_, _, _, .day (fourDigits_of_fits hY) (twoDigits_of_fits hM) (twoDigits_of_fits hD),
      [y1, y2, y3, y4, '-', a, b, '-', c, d, 'T', '0', '0', ':', '0', '0'],
      pA_iff.mpr ⟨y1, y2, y3, y4, _, _, _, _, _, _, _, _, rfl, h1, h2, h3, h4, ha, hb, hc, hd, h0, h0, h0, h0⟩, rfl, ?_⟩
    simp [civilOf, digitsVal, digitVal]

theorem dateForm_txt {s : Str} {y m d : Nat} (h : DateForm s y m d) : ∃ ext, DateTxt s ext := by
  cases h with
  | year hY => exact ⟨_, s, (fourDigits_fits hY).1, .inl ⟨rfl, rfl⟩⟩
  | month hY hM => exact ⟨_, _, (fourDigits_fits hY).1, .inr (.inl ⟨_, (twoDigits_fits hM).1, rfl, rfl⟩)⟩
  | day hY hM hD =>
    exact ⟨_, _, (fourDigits_fits hY).1, .inr (.inr ⟨_, _, (twoDigits_fits hM).1, (twoDigits_fits hD).1, rfl, rfl⟩)⟩

theorem dateForm_unique {s : Str} {y m d y' m' d' : Nat} (h : DateForm s y m d) (h' : DateForm s y' m' d') :
    y = y' ∧ m = m' ∧ d = d' := by
  have aux : ∀ {s y m d}, DateForm s y m d →
      y = digitsVal (s.take 4) ∧ m = (if s.length = 4 then 1 else digitsVal ((s.drop 5).take 2)) ∧
      d = (if s.length = 10 then digitsVal ((s.drop 8).take 2) else 1) := by
    intro s y m d h
    cases h with
    | year hY =>
      obtain ⟨hY', rfl⟩ := fourDigits_fits hY
      obtain ⟨a, b, c, d, rfl, _⟩ := fitsY_iff.mp hY'
      simp
    | month hY hM =>
      obtain ⟨hY', rfl⟩ := fourDigits_fits hY
      obtain ⟨a, b, c, d, rfl, _⟩ := fitsY_iff.mp hY'
      obtain ⟨hM', rfl⟩ := twoDigits_fits hM
      obtain ⟨e, f, rfl, _⟩ := dd_iff.mp hM'
      simp
    | day hY hM hD =>
      obtain ⟨hY', rfl⟩ := fourDigits_fits hY
      obtain ⟨a, b, c, d, rfl, _⟩ := fitsY_iff.mp hY'
      obtain ⟨hM', rfl⟩ := twoDigits_fits hM
      obtain ⟨e, f, rfl, _⟩ := dd_iff.mp hM'
      obtain ⟨hD', rfl⟩ := twoDigits_fits hD
      obtain ⟨g, i, rfl, _⟩ := dd_iff.mp hD'
      simp
  obtain ⟨h1, h2, h3⟩ := aux h
  obtain ⟨h4, h5, h6⟩ := aux h'
  exact ⟨h1.trans h4.symm, h2.trans h5.symm, h3.trans h6.symm⟩

/-- result on a date-only string -/
theorem strToDatetime_date {u ext : Str} {y m d : Nat} (h : DateTxt u ext) (hf : DateForm u y m d) (q : Rat) :
    strToDatetime u = some q ↔
      (Civil.Valid ⟨y, m, d, 0, 0, 0⟩ ∧ q = (utcSeconds ⟨y, m, d, 0, 0, 0⟩ : Int)) := by
  have hne : u ≠ [] := by
    obtain ⟨y1, y2, y3, y4, h1, h2, h3, h4, h⟩ := h.explicit
    rcases h with ⟨rfl, rfl⟩ | ⟨a, b, ha, hb, rfl, rfl⟩ | ⟨a, b, c, d, ha, hb, hc, hd, rfl, rfl⟩ <;> simp
  have hex : ∃ ext', DateTxt u ext' ∧ expandDate u = u ++ ext' ++ "T00:00:00Z".toList := by
    rcases expandDate_cases u with ⟨u', ext', nl, hd, hn, hu, he⟩ | ⟨hno, -⟩
    · have hnl := (dateTxt_noDot h).2
      rcases hn with rfl | rfl
      · simp at hu; subst hu; exact ⟨ext', hd, he⟩
      · exfalso; apply hnl; rw [hu]; simp
    · exact absurd ⟨u, ext, [], h, .inl rfl, by simp⟩ hno
  obtain ⟨ext', hd, he⟩ := hex
  obtain ⟨y', m', d', hf', A, hA, hAe, hcv⟩ := dateTxt_expand hd
  obtain ⟨rfl, rfl, rfl⟩ := dateForm_unique hf hf'
  have hS : SecTxt ":00".toList := .inr (sec_iff.mpr ⟨'0', '0', rfl, by decide, by decide⟩)
  have hdot := plain_noDot hA hS .z (.inl rfl)
  simp only [strToDatetime, if_neg hne]
  rw [he, hAe, chopFraction_noDot (by simpa using hdot)]
  have := parseFull_Z hA hS (.inl rfl) 0
  simp only [List.append_nil] at this
  rw [this, Option.map_eq_bind]
  simp only [Function.comp_def]
  rw [parseCivil_map _ (fun t => some ((t : Rat) + (0 : Int) + 0)), hcv]
  split
  · rename_i hv
    simp [hv]; exact eq_comm
  · rename_i hv
    simp [hv]

theorem dateTxt_length {u ext : Str} (h : DateTxt u ext) :
    u.length ≤ 10 ∧ (u.length = 4 ∨ u.length = 7 ∨ u.length = 10) := by
  obtain ⟨y1, y2, y3, y4, h1, h2, h3, h4, h⟩ := h.explicit
  rcases h with ⟨rfl, rfl⟩ | ⟨a, b, ha, hb, rfl, rfl⟩ | ⟨a, b, c, d, ha, hb, hc, hd, rfl, rfl⟩ <;> simp

/-- secs text of a form without fraction -/
theorem secForm_of_txt {A S : Str} (hA : Fits pA A) (hS : SecTxt S) : SecForm S (civilOf (A ++ S)).s 0 := by
  obtain ⟨y1, y2, y3, y4, m1, m2, d1, d2, h1, h2, i1, i2, rfl, a1, a2, a3, a4, a5, a6, a7, a8, a9, a10,
    a11, a12⟩ := pA_iff.mp hA
  rcases hS.cases with rfl | ⟨a, b, rfl, ha, hb⟩
  · simpa [civilOf, digitsVal] using SecForm.absent
  · have := SecForm.secs (twoDigits_of_fits (dd_iff.mpr ⟨a, b, rfl, ha, hb⟩))
    simpa [civilOf] using this

theorem dateTimeForm_of {A S S' Z : Str} {off : Int} {f : Rat} (hA : Fits pA A)
    (hS : SecForm S' (civilOf (A ++ S)).s f) (hZ : ZoneForm Z off) :
    DateTimeForm (A ++ S' ++ Z) (civilOf (A ++ S)) f off := by
  obtain ⟨y1, y2, y3, y4, m1, m2, d1, d2, h1, h2, i1, i2, rfl, a1, a2, a3, a4, a5, a6, a7, a8, a9, a10,
    a11, a12⟩ := pA_iff.mp hA
  have := DateTimeForm.mk (fourDigits_of_fits (fitsY_iff.mpr ⟨y1, y2, y3, y4, rfl, a1, a2, a3, a4⟩))
    (twoDigits_of_fits (dd_iff.mpr ⟨m1, m2, rfl, a5, a6⟩)) (twoDigits_of_fits (dd_iff.mpr ⟨d1, d2, rfl, a7, a8⟩))
    (twoDigits_of_fits (dd_iff.mpr ⟨h1, h2, rfl, a9, a10⟩)) (twoDigits_of_fits (dd_iff.mpr ⟨i1, i2, rfl, a11, a12⟩))
    hS hZ
  simpa [civilOf] using this

/-- the pieces of a datetime form -/
theorem dateTimeForm_split {s : Str} {c : Civil} {f : Rat} {off : Int} (h : DateTimeForm s c f off) :
    ∃ A S Z, Fits pA A ∧ ZoneForm Z off ∧ SecTxt S ∧ c = civilOf (A ++ S) ∧
      ((s = A ++ S ++ Z ∧ f = 0) ∨
       (S ≠ [] ∧ ∃ F, F ≠ [] ∧ (∀ x ∈ F, isDigit x = true) ∧ s = A ++ S ++ '.' :: F ++ Z ∧ f = fractionVal F)) := by
  cases h with
  | mk hY hM hD hH hMi hS hZ =>
    obtain ⟨hY', rfl⟩ := fourDigits_fits hY
    obtain ⟨y1, y2, y3, y4, rfl, a1, a2, a3, a4⟩ := fitsY_iff.mp hY'
    obtain ⟨hM', rfl⟩ := twoDigits_fits hM
    obtain ⟨m1, m2, rfl, a5, a6⟩ := dd_iff.mp hM'
    obtain ⟨hD', rfl⟩ := twoDigits_fits hD
    obtain ⟨d1, d2, rfl, a7, a8⟩ := dd_iff.mp hD'
    obtain ⟨hH', rfl⟩ := twoDigits_fits hH
    obtain ⟨h1, h2, rfl, a9, a10⟩ := dd_iff.mp hH'
    obtain ⟨hMi', rfl⟩ := twoDigits_fits hMi
    obtain ⟨i1, i2, rfl, a11, a12⟩ := dd_iff.mp hMi'
    have hA := pA_iff.mpr ⟨y1, y2, y3, y4, m1, m2, d1, d2, h1, h2, i1, i2, rfl, a1, a2, a3, a4, a5, a6, a7,
      a8, a9, a10, a11, a12⟩
    cases hS with
    | absent =>
      exact ⟨_, [], _, hA, hZ, .inl rfl, by simp [civilOf, digitsVal], .inl ⟨by simp, rfl⟩⟩
    | secs hs =>
      obtain ⟨hs', rfl⟩ := twoDigits_fits hs
      obtain ⟨s1, s2, rfl, b1, b2⟩ := dd_iff.mp hs'
      exact ⟨_, [':', s1, s2], _, hA, hZ, .inr (sec_iff.mpr ⟨s1, s2, rfl, b1, b2⟩), by simp [civilOf],
        .inl ⟨by simp, rfl⟩⟩
    | frac hs hne hF =>
      obtain ⟨hs', rfl⟩ := twoDigits_fits hs
      obtain ⟨s1, s2, rfl, b1, b2⟩ := dd_iff.mp hs'
      exact ⟨_, [':', s1, s2], _, hA, hZ, .inr (sec_iff.mpr ⟨s1, s2, rfl, b1, b2⟩), by simp [civilOf],
        .inr ⟨by simp, _, hne, hF, by simp, rfl⟩⟩

/-- Exactly what `str_to_datetime` accepts, and the value it returns. -/
theorem strToDatetime_iff (s : Str) (q : Rat) : strToDatetime s = some q ↔
    (∃ y m d, DateForm s y m d ∧ Civil.Valid ⟨y, m, d, 0, 0, 0⟩ ∧ q = (utcSeconds ⟨y, m, d, 0, 0, 0⟩ : Int)) ∨
    (∃ s' nl c f off, s = s' ++ nl ∧ NL nl ∧ DateTimeForm s' c f off ∧ c.Valid ∧
      q = (utcSeconds c : Rat) + (off : Rat) + f) := by
  constructor
  · intro h
    have hne : s ≠ [] := by rintro rfl; simp [strToDatetime] at h
    rcases expandDate_cases s with ⟨u, ext, nl, hd, hn, rfl, he⟩ | ⟨hno, he⟩
    · rcases hn with rfl | rfl
      · left
        simp only [List.append_nil] at h ⊢
        obtain ⟨y, m, d, hf, -⟩ := dateTxt_expand hd
        obtain ⟨h1, h2⟩ := (strToDatetime_date hd hf q).mp h
        exact ⟨y, m, d, hf, h1, h2⟩
      · exfalso
        simp only [strToDatetime, if_neg hne] at h
        have hdot : '.' ∉ u ++ ['\n'] ++ ext ++ "T00:00:00Z".toList := by
          have := (dateTxt_noDot hd).1
          obtain ⟨y1, y2, y3, y4, h1, h2, h3, h4, hx⟩ := hd.explicit
          have : '.' ∉ ext := by
            rcases hx with ⟨-, rfl⟩ | ⟨a, b, -, -, -, rfl⟩ | ⟨a, b, c, d, -, -, -, -, -, rfl⟩ <;> decide
          simp_all
        rw [he, chopFraction_noDot hdot] at h
        obtain ⟨A, S, nl', hA, hS, hn', hw⟩ := parseFull_shape h
        obtain ⟨y1, y2, y3, y4, m1, m2, d1, d2, h1, h2, i1, i2, rfl, a1, a2, a3, a4, a5, a6, a7, a8, a9, a10,
          a11, a12⟩ := pA_iff.mp hA
        have hw' : ∃ R, u ++ ['\n'] ++ ext ++ "T00:00:00Z".toList =
            [y1, y2, y3, y4, '-', m1, m2, '-', d1, d2, 'T', h1, h2, ':', i1, i2] ++ R := by
          rcases hw with hw | ⟨sg, H, M, -, -, -, hw⟩
          · exact ⟨S ++ ['Z'] ++ nl', by simp only [] at hw; rw [hw]; simp⟩
          · exact ⟨S ++ sg :: (H ++ ':' :: M) ++ nl', by simp only [] at hw; rw [hw]; simp⟩
        obtain ⟨R, hw'⟩ := hw'
        obtain ⟨y1, y2, y3, y4, h1, h2, h3, h4, hx⟩ := hd.explicit
        rcases hx with ⟨rfl, rfl⟩ | ⟨a, b, -, -, rfl, rfl⟩ | ⟨a, b, c, d, -, -, -, -, rfl, rfl⟩ <;>
          simp at hw'
    · right
      simp only [strToDatetime, if_neg hne, he] at h
      unfold chopFraction at h
      split at h
      · obtain ⟨A, S, Z, nl, off, hA, hS, hZ, hn, rfl, hv, hq⟩ := (parseFull_iff _ _ _).mp h
        exact ⟨_, nl, _, 0, off, rfl, hn, dateTimeForm_of hA (secForm_of_txt hA hS) hZ, hv, hq⟩
      · rename_i m hm
        obtain ⟨u, hu, -, hrel⟩ := matchStart_sound hm
        obtain ⟨hr, X, T, F, hX, hT, hneF, hF, h1⟩ := fracRe_rel.mp hrel
        obtain ⟨A, S, Z, nl, off, hA, hS, hZ, hn, hw, hv, hq⟩ := (parseFull_iff _ _ _).mp h
        have hZne : Z ≠ [] := by
          rcases zoneForm_explicit hZ with rfl | ⟨sg, z1, z2, z3, z4, hsg, hz1, hz2, hz3, hz4, rfl⟩ <;> simp
        rcases h1 with ⟨rfl, hc⟩ | ⟨x, W, hx, hW, rfl, hc⟩
        · exfalso
          simp only [MSt.group, hc] at hw
          simp [List.lookup] at hw
          obtain ⟨-, -, h2⟩ := time_position (R := []) hT hA hS hZ hn (by simpa using hw)
          have h3 := congrArg List.length h2
          simp at h3
          exact hZne (List.length_eq_zero_iff.mp (by omega))
        · simp only [MSt.group, hc] at hw hq
          simp [List.lookup] at hw hq
          obtain ⟨hSne, h2, h3⟩ := time_position (R := x :: W) hT hA hS hZ hn (by simpa using hw)
          have hnl : nl = [] := by
            rcases hn with h | rfl
            · exact h
            · exfalso
              cases Z with
              | nil => exact hZne rfl
              | cons z Z' =>
                simp at h3
                apply hW; rw [h3.2]; simp
          subst hnl
          simp at h3
          subst h3
          refine ⟨A ++ (S ++ '.' :: F) ++ x :: W, m.rest, civilOf (A ++ S), fractionVal F, off, ?_, hr, ?_, hv, ?_⟩
          · rw [hu, h2]; simp
          · refine dateTimeForm_of hA ?_ hZ
            rcases hS.cases with rfl | ⟨a, b, rfl, ha, hb⟩
            · exact absurd rfl hSne
            · obtain ⟨y1, y2, y3, y4, m1, m2, d1, d2, h1, h2, i1, i2, rfl, _⟩ := pA_iff.mp hA
              have := SecForm.frac (twoDigits_of_fits (dd_iff.mpr ⟨a, b, rfl, ha, hb⟩)) hneF hF
              simpa [civilOf] using this
          · rw [hq, fracValue_eq]
  · rintro (⟨y, m, d, hf, hv, rfl⟩ | ⟨s', nl, c, f, off, rfl, hn, hf, hv, rfl⟩)
    · obtain ⟨ext, hd⟩ := dateForm_txt hf
      exact (strToDatetime_date hd hf _).mpr ⟨hv, rfl⟩
    · obtain ⟨A, S, Z, hA, hZ, hS, rfl, h⟩ := dateTimeForm_split hf
      have hAl : A.length = 16 := by rw [← hA.length_eq]; rfl
      have hpre : ∃ R, s' = A ++ R := by
        rcases h with ⟨rfl, -⟩ | ⟨-, F, -, -, rfl, -⟩
        · exact ⟨S ++ Z, by simp⟩
        · exact ⟨S ++ '.' :: F ++ Z, by simp⟩
      obtain ⟨R, hR⟩ := hpre
      have hne : s' ++ nl ≠ [] := by
        intro h0
        have := congrArg List.length h0
        simp [hR, hAl] at this
      have he : expandDate (s' ++ nl) = s' ++ nl := by
        rcases expandDate_cases (s' ++ nl) with ⟨u, ext, nl', hd, hn', hu, -⟩ | ⟨-, h⟩
        · exfalso
          have h1 := (dateTxt_length hd).1
          have h2 := congrArg List.length hu
          have h3 : nl'.length ≤ 1 := by rcases hn' with rfl | rfl <;> simp
          simp [hR, hAl] at h2
          omega
        · exact h
      simp only [strToDatetime, if_neg hne, he]
      rcases h with ⟨rfl, rfl⟩ | ⟨hSne, F, hneF, hF, rfl, rfl⟩
      · rw [chopFraction_noDot (plain_noDot hA hS hZ hn)]
        exact (parseFull_iff _ _ _).mpr ⟨A, S, Z, nl, off, hA, hS, hZ, hn, rfl, hv, rfl⟩
      · have hcf : chopFraction (A ++ S ++ '.' :: F ++ Z ++ nl) = (A ++ S ++ Z, fracValue ('.' :: F)) := by
          obtain ⟨y1, y2, y3, y4, m1, m2, d1, d2, h1, h2, i1, i2, rfl, a1, a2, a3, a4, a5, a6, a7, a8, a9, a10,
            a11, a12⟩ := pA_iff.mp hA
          rcases hS.cases with rfl | ⟨a, b, rfl, ha, hb⟩
          · exact absurd rfl hSne
          · have hd : isDigit '.' = false := by decide
            have hnl : isDigit '\n' = false := by decide
            have n : ∀ {c}, isDigit c = true → '.' ≠ c := fun h => (digit_not h hd).symm
            have k : ∀ {c}, isDigit c = true → '\n' ≠ c := fun h => (digit_not h hnl).symm
            have hT : Fits pT [h1, h2, ':', i1, i2, ':', a, b] :=
              pT_iff.mpr ⟨h1, h2, i1, i2, a, b, rfl, a9, a10, a11, a12, ha, hb⟩
            have hXn : '\n' ∉ [y1, y2, y3, y4, '-', m1, m2, '-', d1, d2, 'T'] := by
              simp [k a1, k a2, k a3, k a4, k a5, k a6, k a7, k a8]
            have hXd : '.' ∉ [y1, y2, y3, y4, '-', m1, m2, '-', d1, d2, 'T'] := by
              simp [n a1, n a2, n a3, n a4, n a5, n a6, n a7, n a8]
            rcases zoneForm_explicit hZ with rfl | ⟨sg, z1, z2, z3, z4, hsg, hz1, hz2, hz3, hz4, rfl⟩
            · have := chopFraction_frac hXn hXd hT hneF hF (x := 'Z') (Z := []) (by decide) (by decide) (by decide)
                (by simp) (by simp) hn
              simpa using this
            · have hs1 : isDigit sg = false := by rcases hsg with rfl | rfl <;> decide
              have hs2 : sg ≠ '.' := by rcases hsg with rfl | rfl <;> decide
              have hs3 : sg ≠ '\n' := by rcases hsg with rfl | rfl <;> decide
              have := chopFraction_frac hXn hXd hT hneF hF (x := sg) (Z := [z1, z2, ':', z3, z4]) hs1 hs2 hs3
                (by simp [k hz1, k hz2, k hz3, k hz4]) (by simp [n hz1, n hz2, n hz3, n hz4]) hn
              simpa using this
        rw [hcf, fracValue_eq]
        exact (parseFull_iff _ _ _).mpr ⟨A, S, Z, [], off, hA, hS, hZ, .inl rfl, by simp, hv, rfl⟩

end Resync
