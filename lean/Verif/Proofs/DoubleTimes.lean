import Verif.Proofs.Doubles
import Verif.Proofs.W3CParse
import Verif.Proofs.Num
import Mathlib.Tactic.Ring
import Mathlib.Data.List.Induction
/-
Datetimes written and read with double precision arithmetic.
-/

namespace Resync
open Py Resync.Spec

theorem digitsVal_bound (F : Str) (h : ∀ x ∈ F, isDigit x = true) : digitsVal F < 10 ^ F.length := by
  induction F using List.reverseRecOn with
  | nil => simp [digitsVal]
  | append_singleton F c ih =>
    have h1 := ih (fun x hx => h x (by simp [hx]))
    have h2 : digitVal c < 10 := by
      have hc := h c (by simp)
      simp only [isDigit, Bool.and_eq_true, decide_eq_true_eq, digitVal] at hc ⊢
      have h9 : c.toNat ≤ 57 := hc.2
      omega
    rw [digitsVal_concat, List.length_append, List.length_singleton, pow_succ]
    omega

theorem chopFraction_range (s : Str) : 0 ≤ (chopFraction s).2 ∧ (chopFraction s).2 < 1 := by
  unfold chopFraction
  split
  · simp
  · rename_i m hm
    obtain ⟨u, hu, -, hrel⟩ := matchStart_sound hm
    obtain ⟨hr, X, T, F, hX, hT, hneF, hF, h1⟩ := fracRe_rel.mp hrel
    have hg : (m.group 2).getD [] = '.' :: F := by
      rcases h1 with ⟨rfl, hc⟩ | ⟨x, W, hx, hW, rfl, hc⟩ <;> simp [MSt.group, hc, List.lookup]
    rw [hg, fracValue_eq, fractionVal_eq]
    have hb := digitsVal_bound F hF
    have hp : (0 : Rat) < 10 ^ F.length := by
      apply pow_pos; norm_num
    constructor
    · exact div_nonneg (by exact_mod_cast Nat.zero_le _) hp.le
    · rw [div_lt_one hp]; exact_mod_cast hb

theorem parseFull_int (w : Str) (fs q : Rat) : parseFull w fs = some q ↔ ∃ k : Int, parseFull w 0 = some (k : Rat) ∧ q = k + fs := by
  constructor
  · intro h
    obtain ⟨A, S, Z, nl, off, hA, hS, hZ, hn, rfl, hv, rfl⟩ := (parseFull_iff _ _ _).mp h
    exact ⟨utcSeconds (civilOf (A ++ S)) + off, (parseFull_iff _ _ _).mpr ⟨A, S, Z, nl, off, hA, hS, hZ, hn, rfl, hv, by push_cast; ring⟩,
      by push_cast; ring⟩
  · rintro ⟨k, h, rfl⟩
    obtain ⟨A, S, Z, nl, off, hA, hS, hZ, hn, rfl, hv, hk⟩ := (parseFull_iff _ _ _).mp h
    exact (parseFull_iff _ _ _).mpr ⟨A, S, Z, nl, off, hA, hS, hZ, hn, rfl, hv, by rw [hk]; ring⟩

/-- What reading gives in double precision, from what it gives in exact arithmetic -/
def readDouble (q : Rat) : Rat := fl (⌊q⌋ + fl (q - ⌊q⌋))

theorem strToDatetimeD_eq (s : Str) : strToDatetimeD s = (strToDatetime s).map readDouble := by
  unfold strToDatetimeD strToDatetime
  by_cases hs : s = []
  · simp [hs]
  simp only [if_neg hs]
  obtain ⟨f0, f1⟩ := chopFraction_range (expandDate s)
  generalize chopFraction (expandDate s) = sf at *
  cases h : parseFull sf.1 sf.2 with
  | none =>
    cases h0 : parseFull sf.1 0 with
    | none => rfl
    | some k =>
      obtain ⟨k', hk, -⟩ := (parseFull_int _ _ _).mp h0
      rw [(parseFull_int sf.1 sf.2 _).mpr ⟨k', hk, rfl⟩] at h
      cases h
  | some q =>
    obtain ⟨k, hk, rfl⟩ := (parseFull_int _ _ _).mp h
    have hfl : ⌊(k : Rat) + sf.2⌋ = k := by
      rw [Int.floor_eq_iff]; constructor <;> linarith
    simp [hk, readDouble, hfl]

/-! ### Writing -/

theorem truncZero_near (u : Rat) : |u - truncZero u| < 1 := by
  unfold truncZero
  split
  · push_cast
    have h1 : (((-u).floor : Int) : Rat) ≤ -u := Int.floor_le (-u)
    have h2 : -u < (((-u).floor : Int) : Rat) + 1 := Int.lt_floor_add_one (-u)
    rw [abs_lt]; constructor <;> linarith
  · have h1 : ((u.floor : Int) : Rat) ≤ u := Int.floor_le u
    have h2 : u < ((u.floor : Int) : Rat) + 1 := Int.lt_floor_add_one u
    rw [abs_lt]; constructor <;> linarith

theorem microFrac_close (u : Rat) : |fl ((u - truncZero u) * 1000000) - (u - truncZero u) * 1000000| ≤ 1 / 2 ^ 34 := by
  have h : |(u - truncZero u) * 1000000| < (2 : Rat) ^ (20 : Int) := by
    rw [abs_mul, abs_of_pos (show (0 : Rat) < 1000000 by norm_num)]
    have := truncZero_near u
    have : (2 : Rat) ^ (20 : Int) = 1048576 := by norm_num
    rw [this]; nlinarith
  have := fl_close h (by norm_num)
  refine this.trans (le_of_eq ?_)
  norm_num

theorem timestampMicros_near (u : Rat) : |(timestampMicros u : Rat) - u * 1000000| ≤ 1 / 2 + 1 / 2 ^ 34 := by
  have h := microFrac_close u
  obtain ⟨h1, h2⟩ := roundHalfEven_near (fl ((u - truncZero u) * 1000000))
  obtain ⟨h3, h4⟩ := abs_le.mp h
  unfold timestampMicros
  push_cast
  rw [abs_le]; constructor <;> linarith

theorem timestampMicros_unique {u : Rat} {n : Int} (h : |u * 1000000 - n| < 12 / 25) : timestampMicros u = n := by
  have h0 := microFrac_close u
  obtain ⟨h3, h4⟩ := abs_le.mp h0
  obtain ⟨h5, h6⟩ := abs_lt.mp h
  have hp : (1 : Rat) / 2 ^ 34 < 1 / 50 := by norm_num
  have : roundHalfEven (fl ((u - truncZero u) * 1000000)) = n - truncZero u * 1000000 := by
    apply roundHalfEven_unique <;> push_cast <;> linarith
  unfold timestampMicros
  rw [this]; ring

/-- the double added before writing -/
def tick : Rat := fl (1 / 10000000)

theorem tick_range : 0 < tick ∧ tick < 1001 / 10000000000 := by
  unfold tick; decide +kernel

theorem add_tick {t : Rat} (ht : IsDouble t) : t ≤ fl (t + tick) ∧ fl (t + tick) ≤ t + 2 * tick := by
  obtain ⟨h1, -⟩ := tick_range
  have h := fl_nearest (t + tick) t ht
  rw [show t - (t + tick) = -tick by ring, abs_neg, abs_of_pos h1] at h
  obtain ⟨h2, h3⟩ := abs_le.mp h
  exact ⟨by linarith, by linarith⟩

theorem add_tick_large {t : Rat} (ht : IsDouble t) (h : 2 ^ 32 ≤ |t|) : fl (t + tick) = t := by
  obtain ⟨h1, h2⟩ := tick_range
  obtain ⟨h3, h4⟩ := add_tick ht
  have hp : (2 : Rat) ^ (31 : Int) = 2147483648 := by norm_num
  have hq : (2 : Rat) ^ ((31 : Int) - 52) = 1 / 2097152 := by norm_num
  apply double_eq (isDouble_fl _) ht (E := 31)
  · rw [hp]
    norm_num at h
    rcases le_abs.mp h with h | h
    · rw [le_abs]; left; linarith
    · rw [le_abs]; right; linarith
  · rw [hp]; norm_num at h; linarith
  · rw [hq, abs_of_nonneg (by linarith)]
    linarith

theorem fl_lt_of {q : Rat} {K : Int} (hK : |K| ≤ 2 ^ 53) (h : fl q < K) : q < K := by
  by_contra hc
  push Not at hc
  have := fl_mono hc
  rw [fl_of_double (isDouble_int hK)] at this
  linarith

theorem lt_fl_of {q : Rat} {K : Int} (hK : |K| ≤ 2 ^ 53) (h : K < fl q) : K < q := by
  by_contra hc
  push Not at hc
  have := fl_mono hc
  rw [fl_of_double (isDouble_int hK)] at this
  linarith

theorem abs_lt_of_fl {q : Rat} {K : Int} (hK : |K| ≤ 2 ^ 53) (h : |fl q| < K) : |q| < K := by
  obtain ⟨h1, h2⟩ := abs_lt.mp h
  refine abs_lt.mpr ⟨?_, fl_lt_of hK h2⟩
  have := lt_fl_of (K := -K) (by simpa using hK) (by push_cast; exact h1)
  push_cast at this; exact this

theorem le_abs_fl {q : Rat} {K : Int} (hK : |K| ≤ 2 ^ 53) (h : K ≤ |q|) : K ≤ |fl q| := by
  by_contra hc
  push Not at hc
  have := abs_lt_of_fl hK hc
  linarith

/-- The text of the double closest to something next to a number of microseconds shows that number, up to the year 2242. -/
theorem micros_of_close {n : Int} {p : Rat} (hp : |p - (n : Rat) / 1000000| ≤ 1 / 2 ^ 54) (h : |p| < 2 ^ 33) :
    timestampMicros (fl (fl p + tick)) = n := by
  have hp' := abs_le.mp hp
  have hd := isDouble_fl p
  have e54 : (1 : Rat) / 2 ^ 54 < 1 / 1000000000000 := by norm_num
  have hx33 : |p| < (2 : Rat) ^ (33 : Int) := by exact_mod_cast h
  have c33 := abs_le.mp (fl_close hx33 (by norm_num))
  have e33 : (2 : Rat) ^ ((33 : Int) - 54) = 1 / 2097152 := by norm_num
  rw [e33] at c33
  by_cases h32 : 2 ^ 32 ≤ |fl p|
  · rw [add_tick_large hd h32]
    apply timestampMicros_unique
    rw [abs_lt]; constructor <;> linarith
  · push Not at h32
    have hx32 : |p| < (2 : Rat) ^ (32 : Int) := by
      have := abs_lt_of_fl (q := p) (K := 2 ^ 32) (by norm_num) (by push_cast; exact h32)
      push_cast at this
      exact_mod_cast this
    have c32 := abs_le.mp (fl_close hx32 (by norm_num))
    have e32 : (2 : Rat) ^ ((32 : Int) - 54) = 1 / 4194304 := by norm_num
    rw [e32] at c32
    obtain ⟨t1, t2⟩ := tick_range
    obtain ⟨a1, a2⟩ := add_tick hd
    apply timestampMicros_unique
    rw [abs_lt]; constructor <;> linarith

theorem micros_of_nearest (n : Int) (h : |fl ((n : Rat) / 1000000)| < 2 ^ 33) :
    timestampMicros (fl (fl ((n : Rat) / 1000000) + tick)) = n := by
  apply micros_of_close
  · rw [sub_self, abs_zero]; norm_num
  · have := abs_lt_of_fl (q := (n : Rat) / 1000000) (K := 2 ^ 33) (by norm_num) (by push_cast; exact h)
    push_cast at this
    exact this

/-- the sum that is rounded last when reading -/
theorem readSum_close (x : Rat) : |(⌊x⌋ : Rat) + fl (x - ⌊x⌋) - x| ≤ 1 / 2 ^ 54 := by
  have h1 := Int.floor_le x
  have h2 := Int.lt_floor_add_one x
  have h : |x - ⌊x⌋| < (2 : Rat) ^ (0 : Int) := by
    rw [zpow_zero, abs_of_nonneg (by linarith)]; linarith
  have := fl_close h (by norm_num)
  have e : (2 : Rat) ^ ((0 : Int) - 54) = 1 / 2 ^ 54 := by norm_num
  rw [e] at this
  rwa [show (⌊x⌋ : Rat) + fl (x - ⌊x⌋) - x = fl (x - ⌊x⌋) - (x - ⌊x⌋) by ring]

theorem read_int (k : Int) (h : |k| ≤ 2 ^ 53) : readDouble k = k := by
  unfold readDouble
  rw [Int.floor_intCast, sub_self, fl_zero, add_zero, fl_of_double (isDouble_int h)]

theorem midpoint_close {x p f g e : Rat} (hne : ¬ g = f) (n1 : |f - x| ≤ |g - x|) (n2 : |g - p| ≤ |f - p|)
    (hs : |p - x| ≤ e) : |x - (f + g) / 2| ≤ e := by
  obtain ⟨s1, s2⟩ := abs_le.mp hs
  rcases lt_or_gt_of_ne hne with hlt | hlt
  · have q1 : (f + g) / 2 ≤ x := by
      by_contra hc
      push Not at hc
      have : |g - x| < |f - x| := by
        rw [abs_of_pos (a := f - x) (by linarith), abs_lt]; constructor <;> linarith
      linarith
    have q2 : p ≤ (f + g) / 2 := by
      by_contra hc
      push Not at hc
      have : |f - p| < |g - p| := by
        rw [abs_of_neg (a := g - p) (by linarith), abs_lt]; constructor <;> linarith
      linarith
    rw [abs_le]; constructor <;> linarith
  · have q1 : x ≤ (f + g) / 2 := by
      by_contra hc
      push Not at hc
      have : |g - x| < |f - x| := by
        rw [abs_of_neg (a := f - x) (by linarith), abs_lt]; constructor <;> linarith
      linarith
    have q2 : (f + g) / 2 ≤ p := by
      by_contra hc
      push Not at hc
      have : |f - p| < |g - p| := by
        rw [abs_of_pos (a := g - p) (by linarith), abs_lt]; constructor <;> linarith
      linarith
    rw [abs_le]; constructor <;> linarith

theorem dvd_of_balance {n j : Int} (h : n * 17179869184 - j * 15625 = 0) : (15625 : Int) ∣ n := by omega

theorem balance_zero {x f g : Rat} {n a b : Int} (hx : x = (n : Rat) / 1000000) (ha : f = a * (1 / 549755813888))
    (hb : g = b * (1 / 549755813888)) (hm : |x - (f + g) / 2| ≤ 1 / 2 ^ 54) :
    n * 17179869184 - (a + b) * 15625 = 0 := by
  have hD : x - (f + g) / 2 = ((n * 17179869184 - (a + b) * 15625 : Int) : Rat) / 17179869184000000 := by
    rw [ha, hb, hx]; push_cast; ring
  generalize n * 17179869184 - (a + b) * 15625 = D at hD ⊢
  rw [hD, abs_div, abs_of_pos (show (0 : Rat) < 17179869184000000 by norm_num), div_le_iff₀ (by norm_num)] at hm
  have hm' : |(D : Rat)| < 1 := by
    refine hm.trans_lt ?_; norm_num
  have : ((|D| : Int) : Rat) < ((1 : Int) : Rat) := by push_cast; exact hm'
  have : |D| < 1 := by exact_mod_cast this
  have := abs_lt.mp this
  omega

theorem read_nearest (n : Int) (h : 9000 ≤ |fl ((n : Rat) / 1000000)|) :
    readDouble ((n : Rat) / 1000000) = fl ((n : Rat) / 1000000) := by
  set x : Rat := (n : Rat) / 1000000 with hx
  have hs := readSum_close x
  unfold readDouble
  set p : Rat := (⌊x⌋ : Rat) + fl (x - ⌊x⌋) with hp
  by_contra hne
  have hsz : 8999 ≤ |x| := by
    by_contra hc
    push Not at hc
    have : |fl x| ≤ 8999 := by
      obtain ⟨a, b⟩ := abs_lt.mp hc
      have h1 := fl_mono b.le
      have h2 := fl_mono a.le
      rw [show (8999 : Rat) = ((8999 : Int) : Rat) by norm_num] at h1
      rw [show (-8999 : Rat) = ((-8999 : Int) : Rat) by norm_num] at h2
      rw [fl_of_double (isDouble_int (by norm_num))] at h1 h2
      rw [abs_le]; push_cast at h1 h2; exact ⟨h2, h1⟩
    linarith
  obtain ⟨s1, s2⟩ := abs_le.mp hs
  have e54 : (1 : Rat) / 2 ^ 54 < 1 := by norm_num
  have hpz : ((8192 : Int) : Rat) ≤ |p| := by
    rcases le_abs.mp hsz with h | h
    · rw [le_abs]; left; push_cast; linarith
    · rw [le_abs]; right; push_cast; linarith
  have ht' := le_abs_fl (by norm_num) hpz
  have e13 : (2 : Rat) ^ (13 : Int) = 8192 := by norm_num
  obtain ⟨a, ha⟩ := double_mult (isDouble_fl x) (E := 13) (by rw [e13]; linarith)
  obtain ⟨b, hb⟩ := double_mult (isDouble_fl p) (E := 13) (by rw [e13]; push_cast at ht'; linarith)
  have n1 := fl_nearest x (fl p) (isDouble_fl p)
  have n2 := fl_nearest p (fl x) (isDouble_fl x)
  have hm := midpoint_close hne n1 n2 hs
  have e39 : (2 : Rat) ^ ((13 : Int) - 52) = 1 / 549755813888 := by norm_num
  rw [e39] at ha hb
  have hdvd := dvd_of_balance (balance_zero hx ha hb hm)
  obtain ⟨n', rfl⟩ := hdvd
  have hz' : x - ⌊x⌋ = ((n' - 64 * ⌊x⌋ : Int) : Rat) * (2 : Rat) ^ (-6 : Int) := by
    have e6 : (2 : Rat) ^ (-6 : Int) = 1 / 64 := by norm_num
    rw [e6]
    have : x = n' / 64 := by rw [hx]; push_cast; ring
    push_cast
    rw [show ((n' : Rat) - 64 * ⌊x⌋) * (1 / 64) = n' / 64 - ⌊x⌋ by ring, ← this]
  have hzd : IsDouble (x - ⌊x⌋) := by
    rw [hz']
    apply isDouble_mul _ (by norm_num)
    have h1 := Int.floor_le x
    have h2 := Int.lt_floor_add_one x
    have : x = n' / 64 := by rw [hx]; push_cast; ring
    have k1 : (64 * ⌊x⌋ : Int) ≤ n' := by
      have : ((64 * ⌊x⌋ : Int) : Rat) ≤ (n' : Rat) := by push_cast; linarith
      exact_mod_cast this
    have k2 : n' < 64 * ⌊x⌋ + 64 := by
      have : (n' : Rat) < ((64 * ⌊x⌋ + 64 : Int) : Rat) := by push_cast; linarith
      exact_mod_cast this
    rw [abs_le]; omega
  have : p = x := by rw [hp, fl_of_double hzd]; ring
  exact hne (by rw [this])

theorem read_first_second (n : Int) (h0 : 0 ≤ fl ((n : Rat) / 1000000)) (h1 : fl ((n : Rat) / 1000000) < 1) :
    readDouble ((n : Rat) / 1000000) = fl ((n : Rat) / 1000000) := by
  have hlt : (n : Rat) / 1000000 < 1 := by
    have := fl_lt_of (K := 1) (by norm_num) (by push_cast; exact h1)
    push_cast at this; exact this
  have hge : 0 ≤ (n : Rat) / 1000000 := by
    by_contra hc
    push Not at hc
    have hn : n < 0 := by
      have : (n : Rat) < 0 := by linarith
      exact_mod_cast this
    have : (n : Rat) ≤ -1 := by exact_mod_cast (show n ≤ -1 by omega)
    have := fl_mono (show (n : Rat) / 1000000 ≤ -1 / 1000000 by linarith)
    have h3 : fl (-1 / 1000000) < 0 := by decide +kernel
    linarith
  unfold readDouble
  have : ⌊(n : Rat) / 1000000⌋ = 0 := by rw [Int.floor_eq_iff]; constructor <;> push_cast <;> linarith
  rw [this]
  simp only [Int.cast_zero, sub_zero, zero_add]
  exact fl_of_double (isDouble_fl _)

/-- beyond the year 2242 every double is read back -/
theorem read_large {t : Rat} (ht : IsDouble t) (h : 2 ^ 33 ≤ |t|) (h' : |t| ≤ 2 ^ 53) :
    readDouble ((timestampMicros t : Rat) / 1000000) = t := by
  by_cases hi : ∃ k : Int, t = k
  · obtain ⟨k, rfl⟩ := hi
    have hm : timestampMicros k = k * 1000000 := by
      apply timestampMicros_unique; push_cast; simp
    rw [hm]
    push_cast
    rw [mul_div_cancel_right₀ _ (by norm_num)]
    apply read_int
    exact_mod_cast h'
  · have e33 : (2 : Rat) ^ (33 : Int) = 8589934592 := by norm_num
    have e19 : (2 : Rat) ^ ((33 : Int) - 52) = 1 / 524288 := by norm_num
    norm_num at h
    obtain ⟨a, ha⟩ := double_mult ht (E := 33) (by rw [e33]; exact h)
    rw [e19] at ha
    have hbig : 8589934592 + 1 / 524288 ≤ |t| := by
      have h1 : |t| = ((|a| : Int) : Rat) / 524288 := by
        rw [ha, abs_mul]; push_cast
        rw [abs_of_pos (show (0 : Rat) < 1 / 524288 by norm_num)]; ring
      have h2 : (4503599627370496 : Int) ≤ |a| := by
        have : ((4503599627370496 : Int) : Rat) ≤ ((|a| : Int) : Rat) := by
          rw [h1] at h; push_cast; push_cast at h; linarith
        exact_mod_cast this
      have h3 : |a| ≠ 4503599627370496 := by
        intro hc
        apply hi
        rcases abs_choice a with hh | hh <;> rw [hh] at hc
        · exact ⟨8589934592, by rw [ha, hc]; norm_num⟩
        · exact ⟨-8589934592, by rw [ha, show a = -4503599627370496 by omega]; norm_num⟩
      have h4 : (4503599627370497 : Int) ≤ |a| := by omega
      have h5 : ((4503599627370497 : Int) : Rat) ≤ ((|a| : Int) : Rat) := by exact_mod_cast h4
      rw [h1]; push_cast at h5 ⊢; linarith
    have hn := abs_le.mp (timestampMicros_near t)
    set x : Rat := (timestampMicros t : Rat) / 1000000 with hx
    have hxx : (timestampMicros t : Rat) = x * 1000000 := by rw [hx]; ring
    rw [hxx] at hn
    have hs := abs_le.mp (readSum_close x)
    unfold readDouble
    set p : Rat := (⌊x⌋ : Rat) + fl (x - ⌊x⌋) with hp
    have e34 : (1 : Rat) / 2 ^ 34 < 1 / 1000 := by norm_num
    have e54 : (1 : Rat) / 2 ^ 54 < 1 / 1000000000 := by norm_num
    have hpt : |p - t| < 6 / 10000000 := by rw [abs_lt]; constructor <;> linarith
    have hpt' := abs_lt.mp hpt
    have hpz : ((8589934592 : Int) : Rat) ≤ |p| := by
      rcases le_abs.mp hbig with h | h
      · rw [le_abs]; left; push_cast; linarith
      · rw [le_abs]; right; push_cast; linarith
    have ht' := le_abs_fl (by norm_num) hpz
    apply double_eq (isDouble_fl _) ht (E := 33)
    · rw [e33]; push_cast at ht'; exact ht'
    · rw [e33]; exact h
    · rw [e19]
      have := fl_nearest p t ht
      rw [abs_sub_comm t p] at this
      have h1 := abs_le.mp (this.trans hpt.le)
      rw [abs_lt]; constructor <;> linarith

theorem round_mono {x y : Rat} (h : x ≤ y) : roundHalfEven x ≤ roundHalfEven y := by
  by_contra hc
  push Not at hc
  have h1 : (roundHalfEven y : Rat) + 1 ≤ roundHalfEven x := by exact_mod_cast hc
  obtain ⟨a1, a2⟩ := roundHalfEven_near x
  obtain ⟨b1, b2⟩ := roundHalfEven_near y
  have : x = y := by linarith
  rw [this] at hc
  omega

theorem timestampMicros_bounds (u : Rat) :
    (0 ≤ u → truncZero u * 1000000 ≤ timestampMicros u ∧ timestampMicros u ≤ (truncZero u + 1) * 1000000) ∧
    (u < 0 → timestampMicros u ≤ truncZero u * 1000000 ∧ (truncZero u - 1) * 1000000 ≤ timestampMicros u) := by
  have r0 : roundHalfEven 0 = 0 := by decide +kernel
  have r6 : ∀ k : Int, roundHalfEven (k : Rat) = k := by
    intro k; apply roundHalfEven_unique <;> linarith
  have d6 : fl ((1000000 : Int) : Rat) = ((1000000 : Int) : Rat) := fl_of_double (isDouble_int (by norm_num))
  have d6' : fl ((-1000000 : Int) : Rat) = ((-1000000 : Int) : Rat) := fl_of_double (isDouble_int (by norm_num))
  constructor
  · intro h
    have h1 : ((truncZero u : Int) : Rat) ≤ u := by
      unfold truncZero; rw [if_neg (by linarith)]; exact Int.floor_le u
    have h2 : u < (truncZero u : Rat) + 1 := by
      unfold truncZero; rw [if_neg (by linarith)]; exact Int.lt_floor_add_one u
    have a := round_mono (fl_mono (show (0 : Rat) ≤ (u - truncZero u) * 1000000 by nlinarith))
    have b := round_mono (fl_mono (show (u - truncZero u) * 1000000 ≤ ((1000000 : Int) : Rat) by push_cast; nlinarith))
    rw [fl_zero, r0] at a
    rw [d6, r6] at b
    unfold timestampMicros
    constructor <;> linarith
  · intro h
    have h1 : u ≤ (truncZero u : Rat) := by
      unfold truncZero; rw [if_pos h]
      have : (((-u).floor : Int) : Rat) ≤ -u := Int.floor_le (-u)
      push_cast; linarith
    have h2 : (truncZero u : Rat) - 1 < u := by
      unfold truncZero; rw [if_pos h]
      have : -u < (((-u).floor : Int) : Rat) + 1 := Int.lt_floor_add_one (-u)
      push_cast; linarith
    have a := round_mono (fl_mono (show (u - truncZero u) * 1000000 ≤ (0 : Rat) by nlinarith))
    have b := round_mono (fl_mono (show ((-1000000 : Int) : Rat) ≤ (u - truncZero u) * 1000000 by push_cast; nlinarith))
    rw [fl_zero, r0] at a
    rw [d6', r6] at b
    unfold timestampMicros
    constructor <;> linarith

theorem truncZero_mono {u v : Rat} (h : u ≤ v) : truncZero u ≤ truncZero v := by
  have fl1 : ∀ {a b : Rat}, a ≤ b → a.floor ≤ b.floor := fun {a b} h => Int.floor_le_floor h
  unfold truncZero
  split <;> split
  · have := fl1 (neg_le_neg h); omega
  · have h1 : (0 : Int) ≤ (-u).floor := Rat.le_floor_iff.mpr (by push_cast; linarith)
    have h2 : (0 : Int) ≤ v.floor := Rat.le_floor_iff.mpr (by push_cast; linarith)
    omega
  · exfalso; linarith
  · exact fl1 h

theorem timestampMicros_mono {u v : Rat} (h : u ≤ v) : timestampMicros u ≤ timestampMicros v := by
  have ht := truncZero_mono h
  rcases eq_or_lt_of_le ht with he | hlt
  · unfold timestampMicros
    rw [he]
    have := round_mono (fl_mono (show (u - truncZero v) * 1000000 ≤ (v - truncZero v) * 1000000 by nlinarith))
    linarith
  · obtain ⟨u1, u2⟩ := timestampMicros_bounds u
    obtain ⟨v1, v2⟩ := timestampMicros_bounds v
    rcases lt_or_ge u 0 with hu | hu <;> rcases lt_or_ge v 0 with hv | hv
    · have := u2 hu; have := v2 hv; omega
    · have := u2 hu; have := v1 hv; omega
    · exfalso; linarith
    · have := u1 hu; have := v1 hv; omega

/-- the microseconds written for a double in the years 1 to 9999 -/
theorem micros_range {t : Rat} (ht : IsDouble t) (h1 : -62135596800 ≤ t) (h2 : t < 253402300800) :
    -62135596800000000 ≤ timestampMicros (fl (t + tick)) ∧ timestampMicros (fl (t + tick)) < 253402300800000000 := by
  obtain ⟨t1, t2⟩ := tick_range
  obtain ⟨a1, a2⟩ := add_tick ht
  constructor
  · have hm : timestampMicros ((-62135596800 : Int) : Rat) = -62135596800 * 1000000 := by
      apply timestampMicros_unique; push_cast; norm_num
    have := timestampMicros_mono (show ((-62135596800 : Int) : Rat) ≤ fl (t + tick) by push_cast; linarith)
    rw [hm] at this; linarith
  · have hlt : ((timestampMicros (fl (t + tick)) : Int) : Rat) < ((253402300800000000 : Int) : Rat) := by
      have hn := abs_le.mp (timestampMicros_near (fl (t + tick)))
      have e34 : (1 : Rat) / 2 ^ 34 < 1 / 1000 := by norm_num
      push_cast
      by_cases h37 : (2 : Rat) ^ (37 : Int) ≤ t
      · have e37 : (2 : Rat) ^ (37 : Int) = 137438953472 := by norm_num
        have e15 : (2 : Rat) ^ ((37 : Int) - 52) = 1 / 32768 := by norm_num
        obtain ⟨a, ha⟩ := double_mult ht (E := 37) (h37.trans (le_abs_self _))
        rw [e15] at ha
        rw [e37] at h37
        have hl : fl (t + tick) = t := add_tick_large ht (by rw [abs_of_nonneg (by linarith)]; norm_num; linarith)
        have : a < 253402300800 * 32768 := by
          have : (a : Rat) < ((253402300800 * 32768 : Int) : Rat) := by push_cast; linarith
          exact_mod_cast this
        have h8 : a ≤ 253402300800 * 32768 - 1 := by omega
        have : (a : Rat) ≤ ((253402300800 * 32768 - 1 : Int) : Rat) := Int.cast_le.mpr h8
        push_cast at this
        rw [hl] at hn ⊢
        linarith
      · push Not at h37
        norm_num at h37
        linarith
    exact_mod_cast hlt

/-- What is summed when the text of a double is read is close to that double -/
theorem reread_close {t : Rat} (ht : IsDouble t) {x : Rat}
    (hx : x = (timestampMicros (fl (t + tick)) : Rat) / 1000000) :
    |(⌊x⌋ : Rat) + fl (x - ⌊x⌋) - t| < 71 / 100000000 := by
  obtain ⟨t1, t2⟩ := tick_range
  obtain ⟨a1, a2⟩ := add_tick ht
  have hn := abs_le.mp (timestampMicros_near (fl (t + tick)))
  have hxx : (timestampMicros (fl (t + tick)) : Rat) = x * 1000000 := by rw [hx]; ring
  rw [hxx] at hn
  have hs := abs_le.mp (readSum_close x)
  have e34 : (1 : Rat) / 2 ^ 34 < 1 / 1000 := by norm_num
  have e54 : (1 : Rat) / 2 ^ 54 < 1 / 1000000000 := by norm_num
  rw [abs_lt]; constructor <;> linarith

theorem double_below {t : Rat} (ht : IsDouble t) (h : |t| < 2 ^ 33) : |t| ≤ 8589934592 - 1 / 1048576 := by
  norm_num at h
  by_cases h32 : (2 : Rat) ^ (32 : Int) ≤ |t|
  · obtain ⟨a, ha⟩ := double_mult ht h32
    have e20 : (2 : Rat) ^ ((32 : Int) - 52) = 1 / 1048576 := by norm_num
    rw [e20] at ha
    have h1 : |t| = ((|a| : Int) : Rat) / 1048576 := by
      rw [ha, abs_mul]; push_cast
      rw [abs_of_pos (show (0 : Rat) < 1 / 1048576 by norm_num)]; ring
    have h2 : |a| < 9007199254740992 := by
      have : ((|a| : Int) : Rat) < ((9007199254740992 : Int) : Rat) := by
        rw [h1] at h; push_cast; push_cast at h; linarith
      exact_mod_cast this
    have h4 : |a| ≤ 9007199254740991 := by omega
    have h5 : ((|a| : Int) : Rat) ≤ ((9007199254740991 : Int) : Rat) := by exact_mod_cast h4
    rw [h1]; push_cast at h5 ⊢; linarith
  · push Not at h32
    norm_num at h32
    linarith

/-- Writing, reading and writing again shows the same microseconds -/
theorem micros_stable {t : Rat} (ht : IsDouble t) (h' : |t| ≤ 2 ^ 53) :
    timestampMicros (fl (readDouble ((timestampMicros (fl (t + tick)) : Rat) / 1000000) + tick)) =
      timestampMicros (fl (t + tick)) := by
  by_cases h33 : 2 ^ 33 ≤ |t|
  · have hl : fl (t + tick) = t := add_tick_large ht (by norm_num at h33 ⊢; linarith)
    rw [hl, read_large ht h33 h', hl]
  · push Not at h33
    have hb := double_below ht h33
    have hc := reread_close ht rfl
    have hs := readSum_close ((timestampMicros (fl (t + tick)) : Rat) / 1000000)
    unfold readDouble
    refine micros_of_close hs ?_
    have := abs_lt.mp hc
    obtain ⟨b1, b2⟩ := abs_le.mp hb
    rw [show (2 : Rat) ^ 33 = 8589934592 by norm_num, abs_lt]
    constructor <;> linarith

theorem readDouble_mono {x y : Rat} (h : x ≤ y) : readDouble x ≤ readDouble y := by
  unfold readDouble
  apply fl_mono
  have hf : ⌊x⌋ ≤ ⌊y⌋ := Int.floor_le_floor h
  rcases eq_or_lt_of_le hf with he | hlt
  · rw [he]
    have := fl_mono (show x - ⌊y⌋ ≤ y - ⌊y⌋ by linarith)
    linarith
  · have h1 := Int.lt_floor_add_one x
    have h2 := Int.floor_le y
    have a := fl_mono (show x - ⌊x⌋ ≤ ((1 : Int) : Rat) by push_cast; linarith)
    rw [fl_of_double (isDouble_int (by norm_num))] at a
    have b := fl_mono (show 0 ≤ y - ⌊y⌋ by linarith)
    rw [fl_zero] at b
    have : ((⌊x⌋ + 1 : Int) : Rat) ≤ ⌊y⌋ := Int.cast_le.mpr hlt
    push_cast at a this
    linarith

/-- Whether two times differ by a second or more -/
theorem fl_sub_ge_one {a b : Rat} (ha : IsDouble a) (hb : IsDouble b) (h1 : 1 ≤ |a|) (h2 : 1 ≤ |b|) :
    1 ≤ |fl (a - b)| ↔ 1 ≤ |a - b| := by
  constructor
  · intro h
    by_contra hc
    push Not at hc
    obtain ⟨m, hm⟩ := double_mult ha (E := 0) (by rw [zpow_zero]; exact h1)
    obtain ⟨k, hk⟩ := double_mult hb (E := 0) (by rw [zpow_zero]; exact h2)
    have hd : IsDouble (a - b) := by
      have e : a - b = ((m - k : Int) : Rat) * (2 : Rat) ^ ((0 : Int) - 52) := by rw [hm, hk]; push_cast; ring
      rw [e]
      apply isDouble_mul _ (by norm_num)
      rw [e, abs_mul, abs_of_pos (two_zpow_pos _)] at hc
      have e52 : (2 : Rat) ^ ((0 : Int) - 52) = 1 / 4503599627370496 := by norm_num
      rw [e52] at hc
      have : ((|m - k| : Int) : Rat) < ((4503599627370496 : Int) : Rat) := by push_cast; push_cast at hc; linarith
      have : |m - k| < 4503599627370496 := by exact_mod_cast this
      omega
    rw [fl_of_double hd] at h
    linarith
  · intro h
    have := le_abs_fl (q := a - b) (K := 1) (by norm_num) (by push_cast; exact h)
    push_cast at this; exact this

end Resync
