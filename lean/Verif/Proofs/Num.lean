import Verif.Py.Num
import Verif.Proofs.W3CWrite
/-
Decimal numbers: reading back what was printed.
-/

namespace Resync
open Py

theorem digitsRev_digits (f n : Nat) : ∀ c ∈ digitsRev f n, isDigit c = true := by
  induction f generalizing n with
  | zero => intro c hc; simp [digitsRev] at hc; subst hc; exact (digitChar_cases n).1
  | succ f ih =>
    intro c hc
    unfold digitsRev at hc
    split at hc
    · simp at hc; subst hc; exact (digitChar_cases n).1
    · rcases List.mem_cons.mp hc with rfl | hc
      · exact (digitChar_cases n).1
      · exact ih _ c hc

theorem digitsRev_ne (f n : Nat) : digitsRev f n ≠ [] := by
  cases f with
  | zero => simp [digitsRev]
  | succ f => unfold digitsRev; split <;> simp

theorem digitsVal_concat (s : Str) (c : Char) : digitsVal (s ++ [c]) = 10 * digitsVal s + digitVal c := by
  simp [digitsVal]

theorem digitsRev_val (f n : Nat) (h : n ≤ f) : digitsVal (digitsRev f n).reverse = n := by
  induction f generalizing n with
  | zero =>
    have : n = 0 := by omega
    subst this; decide
  | succ f ih =>
    unfold digitsRev
    split
    · have := (digitChar_cases n).2
      simp [digitsVal, this]; omega
    · rw [List.reverse_cons, digitsVal_concat, ih _ (by omega), (digitChar_cases n).2]
      omega

theorem natStr_val (n : Nat) : digitsVal (natStr n) = n := digitsRev_val n n (le_refl _)

theorem natStr_digits (n : Nat) : ∀ c ∈ natStr n, isDigit c = true := by
  intro c hc
  exact digitsRev_digits n n c (List.mem_reverse.mp hc)

theorem natStr_ne (n : Nat) : natStr n ≠ [] := by
  simp [natStr, digitsRev_ne]

theorem digitsVal_zeros (k : Nat) (s : Str) : digitsVal (List.replicate k '0' ++ s) = digitsVal s := by
  induction k with
  | zero => rfl
  | succ k ih =>
    rw [List.replicate_succ, List.cons_append]
    simp only [digitsVal, List.foldl_cons] at *
    exact ih

theorem natPad_val (w n : Nat) : digitsVal (natPad w n) = n := by
  unfold natPad
  rw [digitsVal_zeros, natStr_val]

theorem natPad_digits (w n : Nat) : ∀ c ∈ natPad w n, isDigit c = true := by
  intro c hc
  unfold natPad at hc
  rcases List.mem_append.mp hc with hc | hc
  · rw [List.eq_of_mem_replicate hc]; decide
  · exact natStr_digits n c hc

theorem natPad_injective (w : Nat) {i j : Nat} (h : natPad w i = natPad w j) : i = j := by
  rw [← natPad_val w i, h, natPad_val]

theorem intDigits_digits (s : Str) (h : ∀ c ∈ s, isDigit c = true) (acc : Nat) (b : Bool)
    (hb : b = true ∨ s ≠ []) :
    intDigits b acc s = some (s.foldl (fun a c => 10 * a + digitVal c) acc) := by
  induction s generalizing acc b with
  | nil =>
    rcases hb with rfl | hb
    · rfl
    · exact absurd rfl hb
  | cons c t ih =>
    unfold intDigits
    rw [if_pos (h c (by simp)), ih (fun x hx => h x (by simp [hx])) _ _ (.inl rfl)]
    rfl

theorem digit_not_space {c : Char} (h : isDigit c = true) : isIntSpace c = false := by
  simp only [isDigit, Bool.and_eq_true, decide_eq_true_eq] at h
  have e0 : '0'.toNat = 48 := rfl
  have e9 : '9'.toNat = 57 := rfl
  rw [e0, e9] at h
  simp only [isIntSpace]
  rw [if_pos (by omega)]
  simp only [Bool.or_eq_false_iff, Bool.and_eq_false_iff, decide_eq_false_iff_not, beq_eq_false_iff_ne]
  omega

theorem dropWhile_none {s : Str} {p : Char → Bool} (h : ∀ c ∈ s, p c = false) : s.dropWhile p = s := by
  cases s with
  | nil => rfl
  | cons c t => rw [List.dropWhile_cons_of_neg]; rw [h c (by simp)]; simp

theorem intStrip_none {s : Str} (h : ∀ c ∈ s, isIntSpace c = false) : intStrip s = s := by
  unfold intStrip
  rw [dropWhile_none h, dropWhile_none (fun c hc => h c (List.mem_reverse.mp hc)), List.reverse_reverse]

theorem intStr_noSpace (n : Int) : ∀ c ∈ intStr n, isIntSpace c = false := by
  intro c hc
  unfold intStr at hc
  split at hc
  · rcases List.mem_cons.mp hc with rfl | hc
    · decide
    · exact digit_not_space (natStr_digits _ c hc)
  · exact digit_not_space (natStr_digits _ c hc)

theorem pyInt_intStr (n : Int) : pyInt (intStr n) = some n := by
  unfold pyInt
  rw [intStrip_none (intStr_noSpace n)]
  have hv : ∀ m, intDigits false 0 (natStr m) = some m := by
    intro m
    rw [intDigits_digits _ (natStr_digits m) _ _ (.inr (natStr_ne m))]
    exact congrArg some (natStr_val m)
  unfold intStr
  by_cases h : n < 0
  · rw [if_pos h]
    simp only [hv, Option.map_some]; congr 1; omega
  · rw [if_neg h]
    have hd := natStr_digits n.natAbs
    have hne := natStr_ne n.natAbs
    cases hs : natStr n.natAbs with
    | nil => exact absurd hs hne
    | cons c t =>
      have hc := hd c (by simp [hs])
      have hcase : (match c :: t with
          | '-' :: t => (intDigits false 0 t).map (fun n : Nat => -(n : Int))
          | '+' :: t => (intDigits false 0 t).map (fun n : Nat => (n : Int))
          | t => (intDigits false 0 t).map (fun n : Nat => (n : Int))) =
          (intDigits false 0 (c :: t)).map (fun n : Nat => (n : Int)) := by
        split
        · rename_i heq; injection heq with h1 _; subst h1; exact absurd hc (by decide)
        · rename_i heq; injection heq with h1 _; subst h1; exact absurd hc (by decide)
        · rfl
      refine Eq.trans hcase ?_
      rw [← hs, hv, Option.map_some]; congr 1; omega

theorem intStr_injective {a b : Int} (h : intStr a = intStr b) : a = b := by
  have := pyInt_intStr a
  rw [h, pyInt_intStr] at this
  injection this with this
  exact this.symm

end Resync
