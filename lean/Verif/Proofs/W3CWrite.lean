import Verif.Proofs.W3CParse
import Mathlib.Tactic.Linarith
import Mathlib.Tactic.NormNum
/- Writing datetimes: round trip and order. -/

namespace Resync
open Py Resync.Spec

theorem digitChar_cases (n : Nat) : isDigit (digitChar n) = true ∧ digitVal (digitChar n) = n % 10 := by
  have h : n % 10 < 10 := Nat.mod_lt _ (by decide)
  have hk : ∀ k : Fin 10, isDigit (Char.ofNat (48 + k.val)) = true ∧
      digitVal (Char.ofNat (48 + k.val)) = k.val := by decide
  exact hk ⟨n % 10, h⟩

theorem digitChar_lt {a b : Nat} (h : a % 10 < b % 10) : digitChar a < digitChar b := by
  have hk : ∀ i j : Fin 10, i.val < j.val → Char.ofNat (48 + i.val) < Char.ofNat (48 + j.val) := by decide
  exact hk ⟨a % 10, Nat.mod_lt _ (by decide)⟩ ⟨b % 10, Nat.mod_lt _ (by decide)⟩ h

theorem digitChar_eq {a b : Nat} (h : a % 10 = b % 10) : digitChar a = digitChar b := by
  simp [digitChar, h]

theorem twoDigits_fixed {n : Nat} (h : n < 100) : TwoDigits (fixedDigits 2 n) n := by
  refine ⟨digitChar (n / 10), digitChar n, rfl, (digitChar_cases _).1, (digitChar_cases _).1, ?_⟩
  rw [(digitChar_cases _).2, (digitChar_cases _).2]; omega

theorem fourDigits_fixed {n : Nat} (h : n < 10000) : FourDigits (fixedDigits 4 n) n := by
  refine ⟨digitChar (n / 10 / 10 / 10), digitChar (n / 10 / 10), digitChar (n / 10), digitChar n, rfl,
    (digitChar_cases _).1, (digitChar_cases _).1, (digitChar_cases _).1, (digitChar_cases _).1, ?_⟩
  simp only [(digitChar_cases _).2]; omega

theorem fixedDigits_length (w n : Nat) : (fixedDigits w n).length = w := by
  induction w generalizing n with
  | zero => rfl
  | succ w ih => simp [fixedDigits, ih]

theorem fixedDigits_digits (w n : Nat) : ∀ c ∈ fixedDigits w n, isDigit c = true := by
  induction w generalizing n with
  | zero => simp [fixedDigits]
  | succ w ih =>
    intro c hc
    simp only [fixedDigits, List.mem_append, List.mem_singleton] at hc
    rcases hc with hc | rfl
    · exact ih _ _ hc
    · exact (digitChar_cases _).1

theorem fixedDigits_val (w n : Nat) : digitsVal (fixedDigits w n) = n % 10 ^ w := by
  induction w generalizing n with
  | zero => simp [fixedDigits, digitsVal, Nat.mod_one]
  | succ w ih =>
    have : digitsVal (fixedDigits w (n / 10) ++ [digitChar n]) =
        10 * digitsVal (fixedDigits w (n / 10)) + digitVal (digitChar n) := by
      simp [digitsVal]
    rw [fixedDigits, this, ih, (digitChar_cases _).2, Nat.pow_succ, Nat.mul_comm (10 ^ w) 10,
      Nat.mod_mul]
    omega

/-- what `utcfromtimestamp` returns for a whole number of microseconds in range -/
theorem utcFromMicros_spec {n : Int} (h1 : -62135596800000000 ≤ n) (h2 : n < 253402300800000000) :
    ∃ t : DT, utcFromMicros n = some t ∧
      Civil.Valid ⟨t.year, t.month, t.day, t.hour, t.minute, t.second⟩ ∧ t.micro < 1000000 ∧
      validDate t.year t.month t.day ∧ t.timegm * 1000000 + t.micro = n := by
  have hr : 1 ≤ n / 1000000 / 86400 + epochOrd ∧ n / 1000000 / 86400 + epochOrd ≤ maxOrd := by
    simp only [epochOrd, maxOrd]; omega
  refine ⟨_, by simp only [utcFromMicros]; rw [if_pos hr], ?_⟩
  generalize hord : n / 1000000 / 86400 + (epochOrd : Int) = ord at hr ⊢
  obtain ⟨o, rfl⟩ : ∃ o : Nat, ord = o := ⟨ord.toNat, by omega⟩
  simp only [Int.toNat_natCast]
  have ho1 : 1 ≤ o := by omega
  have ho2 : o ≤ maxOrd := by omega
  obtain ⟨s1, s2, s3, s4, s5, s6⟩ := ord2ymd_spec o ho1
  have hy := year_le_of_ord ho1 ho2
  have hml := monthLength_eq (y := (ord2ymd o).1) s2 s3
  refine ⟨⟨s1, hy, s2, s3, s4, by simp only []; omega, by simp only []; omega, by simp only []; omega,
    by simp only []; omega⟩, by omega, ⟨s1, s2, s3, s4, s5⟩, ?_⟩
  simp only [DT.timegm, s6]
  have hs : 0 ≤ n / 1000000 % 86400 := Int.emod_nonneg _ (by decide)
  have h3 : ((n / 1000000 % 86400 / 3600).toNat : Int) = n / 1000000 % 86400 / 3600 := by omega
  have h4 : ((n / 1000000 % 86400 % 3600 / 60).toNat : Int) = n / 1000000 % 86400 % 3600 / 60 := by omega
  have h5 : ((n / 1000000 % 86400 % 60).toNat : Int) = n / 1000000 % 86400 % 60 := by omega
  have h6 : ((n % 1000000).toNat : Int) = n % 1000000 := by omega
  rw [h3, h4, h5, h6]
  omega

/-- the written text is a W3C datetime in UTC -/
theorem isoformat_form {t : DT} (hv : Civil.Valid ⟨t.year, t.month, t.day, t.hour, t.minute, t.second⟩)
    (hm : t.micro < 1000000) :
    DateTimeForm (t.isoformat ++ ['Z']) ⟨t.year, t.month, t.day, t.hour, t.minute, t.second⟩
      ((t.micro : Rat) / 1000000) 0 := by
  obtain ⟨h1, h2, h3, h4, h5, h6, h7, h8, h9⟩ := hv
  simp only at h1 h2 h3 h4 h5 h6 h7 h8 h9
  have hd : t.day < 100 := by
    have : monthLength t.year t.month ≤ 31 := by unfold monthLength; split <;> (try split) <;> omega
    omega
  have hsec : SecForm (':' :: (fixedDigits 2 t.second ++ (if t.micro = 0 then [] else '.' :: fixedDigits 6 t.micro)))
      t.second ((t.micro : Rat) / 1000000) := by
    by_cases hz : t.micro = 0
    · simp only [hz, if_true, List.append_nil]
      have := SecForm.secs (twoDigits_fixed (n := t.second) (by omega))
      simpa using this
    · rw [if_neg hz]
      have := SecForm.frac (F := fixedDigits 6 t.micro) (twoDigits_fixed (n := t.second) (by omega))
        (by simp [fixedDigits]) (fixedDigits_digits 6 t.micro)
      rw [fractionVal_eq, fixedDigits_val, fixedDigits_length, Nat.mod_eq_of_lt (by simpa using hm)] at this
      norm_num at this ⊢
      exact this
  have := DateTimeForm.mk (fourDigits_fixed (n := t.year) (by omega)) (twoDigits_fixed (n := t.month) (by omega))
    (twoDigits_fixed (n := t.day) hd) (twoDigits_fixed (n := t.hour) (by omega))
    (twoDigits_fixed (n := t.minute) (by omega)) hsec .z
  have e : t.isoformat ++ ['Z'] = fixedDigits 4 t.year ++ '-' :: (fixedDigits 2 t.month ++ '-' ::
      (fixedDigits 2 t.day ++ 'T' :: (fixedDigits 2 t.hour ++ ':' :: (fixedDigits 2 t.minute ++
      (':' :: (fixedDigits 2 t.second ++ (if t.micro = 0 then [] else '.' :: fixedDigits 6 t.micro)) ++ ['Z']))))) := by
    simp [DT.isoformat]
  rw [e]
  exact this

/-- rounding is to a nearest integer -/
theorem roundHalfEven_near (q : Rat) : q - 1 / 2 ≤ roundHalfEven q ∧ (roundHalfEven q : Rat) ≤ q + 1 / 2 := by
  have h1 : (q.floor : Rat) ≤ q := Rat.floor_le q
  have h2 : q < q.floor + 1 := by simpa using Rat.lt_floor_add_one q
  simp only [roundHalfEven]
  split
  · constructor <;> linarith
  · split
    · push_cast; constructor <;> linarith
    · split
      · constructor <;> linarith
      · push_cast; constructor <;> linarith

theorem roundHalfEven_unique {q : Rat} {n : Int} (h1 : (n : Rat) - 1 / 2 < q) (h2 : q < n + 1 / 2) :
    roundHalfEven q = n := by
  obtain ⟨h3, h4⟩ := roundHalfEven_near q
  have a : (roundHalfEven q : Rat) < (n + 1 : Int) := by push_cast; linarith
  have b : ((n - 1 : Int) : Rat) < roundHalfEven q := by push_cast; linarith
  have a' := Int.cast_lt.mp a
  have b' := Int.cast_lt.mp b
  omega

/-! ### String order -/

theorem append_lt_append {u v s t : Str} (hl : u.length = v.length) (h : u < v) : u ++ s < v ++ t := by
  induction u generalizing v with
  | nil =>
    cases v with
    | nil => exact absurd h (by simp)
    | cons b v => simp at hl
  | cons a u ih =>
    cases v with
    | nil => simp at hl
    | cons b v =>
      rcases List.cons_lt_cons_iff.mp h with h' | ⟨rfl, h'⟩
      · exact List.cons_lt_cons_iff.mpr (.inl h')
      · exact List.cons_lt_cons_iff.mpr (.inr ⟨rfl, ih (by simpa using hl) h'⟩)

theorem append_lt_right {u s t : Str} (h : s < t) : u ++ s < u ++ t := by
  induction u with
  | nil => simpa using h
  | cons a u ih => exact List.cons_lt_cons_iff.mpr (.inr ⟨rfl, ih⟩)

theorem fixedDigits_lt {w m n : Nat} (h : m < n) (hn : n < 10 ^ w) : fixedDigits w m < fixedDigits w n := by
  induction w generalizing m n with
  | zero => simp at hn; omega
  | succ w ih =>
    rw [Nat.pow_succ] at hn
    simp only [fixedDigits]
    by_cases hd : m / 10 < n / 10
    · exact append_lt_append (by simp [fixedDigits_length]) (ih hd (by omega))
    · have he : m / 10 = n / 10 := by omega
      rw [he]
      apply append_lt_right
      exact List.cons_lt_cons_iff.mpr (.inl (digitChar_lt (by omega)))

/-- the first 19 characters -/
def DT.text19 (t : DT) : Str :=
  fixedDigits 4 t.year ++ '-' :: (fixedDigits 2 t.month ++ '-' :: (fixedDigits 2 t.day ++ 'T' ::
    (fixedDigits 2 t.hour ++ ':' :: (fixedDigits 2 t.minute ++ ':' :: fixedDigits 2 t.second))))

theorem text19_length (t : DT) : (DT.text19 t).length = 19 := by
  simp [DT.text19, fixedDigits_length]

theorem field_lt {w m n : Nat} {c : Char} {s t : Str} (hn : n < 10 ^ w)
    (h : m < n ∨ (m = n ∧ s < t)) : fixedDigits w m ++ c :: s < fixedDigits w n ++ c :: t := by
  rcases h with h | ⟨rfl, h⟩
  · exact append_lt_append (by simp [fixedDigits_length]) (fixedDigits_lt h hn)
  · exact append_lt_right (List.cons_lt_cons_iff.mpr (.inr ⟨rfl, h⟩))

theorem text19_lt {t t' : DT} (hv : Civil.Valid ⟨t.year, t.month, t.day, t.hour, t.minute, t.second⟩)
    (hv' : Civil.Valid ⟨t'.year, t'.month, t'.day, t'.hour, t'.minute, t'.second⟩)
    (hd : validDate t.year t.month t.day) (hd' : validDate t'.year t'.month t'.day)
    (h : t.timegm < t'.timegm) : DT.text19 t < DT.text19 t' := by
  have hlt : dateLt t.year t.month t.day t'.year t'.month t'.day ∨
      ((t.year = t'.year ∧ t.month = t'.month ∧ t.day = t'.day) ∧
        (t.hour < t'.hour ∨ (t.hour = t'.hour ∧ (t.minute < t'.minute ∨ (t.minute = t'.minute ∧
          t.second < t'.second))))) := by
    obtain ⟨-, -, -, -, -, -, a7, a8, a9⟩ := hv
    obtain ⟨-, -, -, -, -, -, b7, b8, b9⟩ := hv'
    simp only [DT.timegm] at h a7 a8 a9 b7 b8 b9
    rcases dateLt_trichotomy t.year t.month t.day t'.year t'.month t'.day with hl | he | hl
    · exact .inl hl
    · right
      refine ⟨he, ?_⟩
      rw [he.1, he.2.1, he.2.2] at h
      omega
    · exfalso
      have := ymd2ord_lt hd' hd hl
      omega
  have hml : ∀ y m, monthLength y m ≤ 31 := by
    intro y m; unfold monthLength; split <;> (try split) <;> omega
  have m1 := hml t.year t.month
  have m2 := hml t'.year t'.month
  obtain ⟨a1, a2, a3, a4, a5, a6, a7, a8, a9⟩ := hv
  obtain ⟨b1, b2, b3, b4, b5, b6, b7, b8, b9⟩ := hv'
  simp only at a1 a2 a3 a4 a5 a6 a7 a8 a9 b1 b2 b3 b4 b5 b6 b7 b8 b9
  have key : t.year < t'.year ∨ (t.year = t'.year ∧ (t.month < t'.month ∨ (t.month = t'.month ∧
      (t.day < t'.day ∨ (t.day = t'.day ∧ (t.hour < t'.hour ∨ (t.hour = t'.hour ∧
        (t.minute < t'.minute ∨ (t.minute = t'.minute ∧ t.second < t'.second))))))))) := by
    unfold dateLt at hlt; omega
  unfold DT.text19
  apply field_lt (by omega)
  rcases key with h | ⟨e, key⟩
  · exact .inl h
  refine .inr ⟨e, field_lt (by omega) ?_⟩
  rcases key with h | ⟨e, key⟩
  · exact .inl h
  refine .inr ⟨e, field_lt (by omega) ?_⟩
  rcases key with h | ⟨e, key⟩
  · exact .inl h
  refine .inr ⟨e, field_lt (by omega) ?_⟩
  rcases key with h | ⟨e, key⟩
  · exact .inl h
  refine .inr ⟨e, field_lt (by omega) ?_⟩
  rcases key with h | ⟨e, key⟩
  · exact .inl h
  exact .inr ⟨e, fixedDigits_lt key (by omega)⟩

theorem isoformat_text19 (t : DT) : t.isoformat ++ ['Z'] =
    DT.text19 t ++ ((if t.micro = 0 then [] else '.' :: fixedDigits 6 t.micro) ++ ['Z']) := by
  simp [DT.isoformat, DT.text19]

end Resync
