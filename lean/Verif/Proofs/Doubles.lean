import Verif.Model.Doubles
import Verif.Spec.Double
import Verif.Proofs.W3CWrite
import Mathlib.Tactic.Linarith
import Mathlib.Tactic.FieldSimp
import Mathlib.Tactic.Positivity
import Mathlib.Tactic.NormNum
/-
IEEE 754 rounding: `fl` gives a nearest double, is monotone and leaves doubles as they are.
-/

namespace Resync
open Py Resync.Spec

theorem two_zpow_pos (e : Int) : (0 : Rat) < (2 : Rat) ^ e := zpow_pos (by norm_num) e

theorem ulp_pos (q : Rat) : 0 < ulp q := two_zpow_pos _

theorem round_nearest (x : Rat) (m : Int) : |(roundHalfEven x : Rat) - x| ≤ |(m : Rat) - x| := by
  obtain ⟨h1, h2⟩ := roundHalfEven_near x
  by_cases e : m = roundHalfEven x
  · rw [e]
  · have hh : |(roundHalfEven x : Rat) - x| ≤ 1 / 2 := abs_le.mpr ⟨by linarith, by linarith⟩
    refine hh.trans ?_
    rcases lt_or_gt_of_ne e with h | h
    · have : (m : Rat) + 1 ≤ roundHalfEven x := by exact_mod_cast h
      rw [le_abs]; right; linarith
    · have : (roundHalfEven x : Rat) + 1 ≤ m := by exact_mod_cast h
      rw [le_abs]; left; linarith

theorem fl_near (q : Rat) : |fl q - q| ≤ ulp q / 2 := by
  have hu := ulp_pos q
  obtain ⟨h1, h2⟩ := roundHalfEven_near (q / ulp q)
  have e : q = q / ulp q * ulp q := by field_simp
  have : fl q - q = ((roundHalfEven (q / ulp q) : Rat) - q / ulp q) * ulp q := by
    unfold fl; rw [sub_mul, ← e]
  rw [this, abs_mul, abs_of_pos hu]
  have hh : |(roundHalfEven (q / ulp q) : Rat) - q / ulp q| ≤ 1 / 2 := abs_le.mpr ⟨by linarith, by linarith⟩
  nlinarith

/-- nearest among the multiples of the distance -/
theorem fl_nearest_mult (q : Rat) (m : Int) : |fl q - q| ≤ |m * ulp q - q| := by
  have hu := ulp_pos q
  have e : q = q / ulp q * ulp q := by field_simp
  have h1 : fl q - q = ((roundHalfEven (q / ulp q) : Rat) - q / ulp q) * ulp q := by
    unfold fl; rw [sub_mul, ← e]
  have h2 : m * ulp q - q = ((m : Rat) - q / ulp q) * ulp q := by rw [sub_mul, ← e]
  rw [h1, h2, abs_mul, abs_mul]
  exact mul_le_mul_of_nonneg_right (round_nearest _ m) (abs_nonneg _)

theorem zpow_split {a b : Int} (h : a ≤ b) : (2 : Rat) ^ b = (2 : Rat) ^ (b - a).toNat * (2 : Rat) ^ a := by
  rw [← zpow_natCast, ← zpow_add₀ (by norm_num)]
  congr 1; omega

theorem abs_lt_ulp (q : Rat) : |q| < 2 ^ 53 * ulp q := by
  have h : |q| < (2 : Rat) ^ (Int.log 2 |q| + 1) := by
    have := Int.lt_zpow_succ_log_self (b := 2) (by norm_num) |q|
    simpa using this
  refine h.trans_le ?_
  unfold ulp
  rw [show ((2 : Rat) ^ 53) = (2 : Rat) ^ (53 : Int) by norm_cast, ← zpow_add₀ (by norm_num)]
  apply zpow_le_zpow_right₀ (by norm_num)
  omega

/-- a multiple of the distance within 53 bits, or the next power of two -/
theorem isDouble_mul {m e : Int} (h : |m| ≤ 2 ^ 53) (he : -1074 ≤ e) : IsDouble (m * (2 : Rat) ^ e) := by
  by_cases hm : |m| < 2 ^ 53
  · exact ⟨m, e, hm, he, rfl⟩
  · have : m = 2 ^ 53 ∨ m = -2 ^ 53 := by
      rcases abs_choice m with h' | h' <;> rw [h'] at h hm <;> omega
    rcases this with rfl | rfl
    · refine ⟨2 ^ 52, e + 1, by norm_num, by omega, ?_⟩
      rw [zpow_add₀ (by norm_num)]; push_cast; ring
    · refine ⟨-2 ^ 52, e + 1, by norm_num, by omega, ?_⟩
      rw [zpow_add₀ (by norm_num)]; push_cast; ring

theorem isDouble_fl (q : Rat) : IsDouble (fl q) := by
  have hu := ulp_pos q
  have h := abs_lt_ulp q
  apply isDouble_mul
  · have hx : |q / ulp q| < 2 ^ 53 := by rw [abs_div, abs_of_pos hu, div_lt_iff₀ hu]; exact h
    obtain ⟨a, b⟩ := abs_lt.mp hx
    obtain ⟨h1, h2⟩ := roundHalfEven_near (q / ulp q)
    have c1 : (roundHalfEven (q / ulp q) : Rat) < (2 ^ 53 + 1 : Int) := by push_cast; linarith
    have c2 : ((-2 ^ 53 - 1 : Int) : Rat) < roundHalfEven (q / ulp q) := by push_cast; linarith
    have d1 : roundHalfEven (q / ulp q) < 2 ^ 53 + 1 := by exact_mod_cast c1
    have d2 : -2 ^ 53 - 1 < roundHalfEven (q / ulp q) := by exact_mod_cast c2
    rw [abs_le]; omega
  · omega

theorem fl_zero : fl 0 = 0 := by decide +kernel

theorem fl_nearest (q d : Rat) (hd : IsDouble d) : |fl q - q| ≤ |d - q| := by
  by_cases hq : q = 0
  · subst hq
    rw [fl_zero, sub_zero, abs_zero]; exact abs_nonneg _
  obtain ⟨m, e, hm, he, rfl⟩ := hd
  by_cases hE : max (Int.log 2 |q| - 52) (-1074) ≤ e
  · have := fl_nearest_mult q (m * 2 ^ (e - max (Int.log 2 |q| - 52) (-1074)).toNat)
    rw [zpow_split hE]
    push_cast at this
    unfold ulp at this
    rwa [← mul_assoc]
  · -- `d` is closer to zero than the power of two just below `q`
    have hlog : e + 52 < Int.log 2 |q| := by omega
    have hp := Int.zpow_log_le_self (b := 2) (by norm_num) (abs_pos.mpr hq)
    set L := Int.log 2 |q| with hL
    have hd : |(m : Rat) * (2 : Rat) ^ e| < (2 : Rat) ^ L := by
      rw [abs_mul, abs_of_pos (two_zpow_pos e)]
      have h1 : |(m : Rat)| < 2 ^ 53 := by
        have : ((|m| : Int) : Rat) < ((2 ^ 53 : Int) : Rat) := by exact_mod_cast hm
        push_cast at this; exact this
      have h2 : |(m : Rat)| * (2 : Rat) ^ e < 2 ^ 53 * (2 : Rat) ^ e := by
        exact mul_lt_mul_of_pos_right h1 (two_zpow_pos e)
      refine h2.trans_le ?_
      rw [show ((2 : Rat) ^ 53) = (2 : Rat) ^ (53 : Int) by norm_cast, ← zpow_add₀ (by norm_num)]
      apply zpow_le_zpow_right₀ (by norm_num); omega
    have hu : ulp q = (2 : Rat) ^ (L - 52) := by unfold ulp; rw [← hL, max_eq_left (by omega)]
    have hpow : (2 : Rat) ^ L = ((2 ^ 52 : Int) : Rat) * ulp q := by
      rw [hu, show (((2 ^ 52 : Int) : Rat)) = (2 : Rat) ^ (52 : Int) by norm_cast, ← zpow_add₀ (by norm_num)]
      congr 1; omega
    have hp' : (2 : Rat) ^ L ≤ |q| := by simpa using hp
    obtain ⟨d1, d2⟩ := abs_lt.mp hd
    rcases lt_or_gt_of_ne hq with hneg | hpos
    · have := fl_nearest_mult q (-2 ^ 52)
      refine this.trans ?_
      rw [abs_of_neg hneg] at hp'
      have e1 : (((-2 ^ 52 : Int) : Rat)) * ulp q = -(2 : Rat) ^ L := by rw [hpow]; push_cast; ring
      rw [e1, abs_of_nonneg (by linarith), abs_of_nonneg (by linarith)]
      linarith
    · have := fl_nearest_mult q (2 ^ 52)
      refine this.trans ?_
      rw [abs_of_pos hpos] at hp'
      rw [← hpow, abs_of_nonpos (by linarith), abs_of_nonpos (by linarith)]
      linarith

theorem fl_of_double {d : Rat} (hd : IsDouble d) : fl d = d := by
  have := fl_nearest d d hd
  simp only [sub_self, abs_zero] at this
  have := abs_eq_zero.mp (le_antisymm this (abs_nonneg _))
  linarith

theorem fl_mono {p q : Rat} (h : p ≤ q) : fl p ≤ fl q := by
  by_contra hc
  push Not at hc
  have h1 := fl_nearest p (fl q) (isDouble_fl q)
  have h2 := fl_nearest q (fl p) (isDouble_fl p)
  rcases eq_or_lt_of_le h with rfl | hlt
  · exact lt_irrefl _ hc
  · have a : fl q + fl p ≤ 2 * p := by
      by_contra hn
      push Not at hn
      have : |fl q - p| < |fl p - p| := by
        rw [abs_of_pos (a := fl p - p) (by linarith)]
        rw [abs_lt]; constructor <;> linarith
      linarith
    have b : 2 * q ≤ fl q + fl p := by
      by_contra hn
      push Not at hn
      have : |fl p - q| < |fl q - q| := by
        rw [abs_of_neg (a := fl q - q) (by linarith)]
        rw [abs_lt]; constructor <;> linarith
      linarith
    linarith

theorem isDouble_int {k : Int} (h : |k| ≤ 2 ^ 53) : IsDouble (k : Rat) := by
  have := isDouble_mul (m := k) (e := 0) h (by norm_num)
  simpa using this

theorem isDouble_neg {d : Rat} (h : IsDouble d) : IsDouble (-d) := by
  obtain ⟨m, e, hm, he, rfl⟩ := h
  exact ⟨-m, e, by simpa using hm, he, by push_cast; ring⟩

/-- doubles of a certain size are multiples of a certain distance -/
theorem double_mult {d : Rat} (h : IsDouble d) {E : Int} (hE : (2 : Rat) ^ E ≤ |d|) :
    ∃ m : Int, d = m * (2 : Rat) ^ (E - 52) := by
  obtain ⟨m, e, hm, he, rfl⟩ := h
  have h1 : |(m : Rat)| < 2 ^ 53 := by
    have : ((|m| : Int) : Rat) < ((2 ^ 53 : Int) : Rat) := by exact_mod_cast hm
    push_cast at this; exact this
  have h2 : (2 : Rat) ^ E < (2 : Rat) ^ (53 + e) := by
    refine hE.trans_lt ?_
    rw [abs_mul, abs_of_pos (two_zpow_pos e), zpow_add₀ (by norm_num)]
    rw [show ((2 : Rat) ^ (53 : Int)) = (2 : Rat) ^ 53 by norm_cast]
    exact mul_lt_mul_of_pos_right h1 (two_zpow_pos e)
  have h3 : E < 53 + e := (zpow_lt_zpow_iff_right₀ (by norm_num : (1 : Rat) < 2)).mp h2
  refine ⟨m * 2 ^ (e - (E - 52)).toNat, ?_⟩
  rw [zpow_split (show E - 52 ≤ e by omega)]
  push_cast; ring

/-- two doubles that large and not that far from one another are the same -/
theorem double_eq {a b : Rat} (ha : IsDouble a) (hb : IsDouble b) {E : Int} (h1 : (2 : Rat) ^ E ≤ |a|) (h2 : (2 : Rat) ^ E ≤ |b|)
    (h : |a - b| < (2 : Rat) ^ (E - 52)) : a = b := by
  obtain ⟨m, rfl⟩ := double_mult ha h1
  obtain ⟨n, rfl⟩ := double_mult hb h2
  have hp := two_zpow_pos (E - 52)
  rw [← sub_mul, abs_mul, abs_of_pos hp] at h
  have h3 : |(m : Rat) - n| < 1 := by
    by_contra hc
    push Not at hc
    nlinarith
  have h4 : |m - n| < 1 := by
    have : ((|m - n| : Int) : Rat) < ((1 : Int) : Rat) := by push_cast; exact h3
    exact_mod_cast this
  have : m = n := by have := abs_lt.mp h4; omega
  rw [this]

theorem fl_close {q : Rat} {E : Int} (h : |q| < (2 : Rat) ^ E) (hE : -1021 ≤ E) : |fl q - q| ≤ (2 : Rat) ^ (E - 54) := by
  by_cases hq : q = 0
  · subst hq
    rw [fl_zero, sub_zero, abs_zero]; exact (two_zpow_pos _).le
  · have hl := (Int.lt_zpow_iff_log_lt (b := 2) (by norm_num) (abs_pos.mpr hq)).mp (by simpa using h)
    have hu : ulp q ≤ (2 : Rat) ^ (E - 53) := by
      unfold ulp
      apply zpow_le_zpow_right₀ (by norm_num)
      omega
    have e : (2 : Rat) ^ (E - 53) = 2 * (2 : Rat) ^ (E - 54) := by
      rw [show E - 53 = 1 + (E - 54) by omega, zpow_add₀ (by norm_num)]; norm_num
    have := fl_near q
    linarith

end Resync
