import Verif.Py.Regex
import Verif.Spec.Mapper
/- Lemmas about the regex model. -/

namespace Py
open Resync.Spec

/-- the regex item an ordinary pattern character compiles to -/
def atomOf (c : Char) : Re := if c = '.' then .dot else .lit c

theorem step_plain (s : PSt) {c : Char} (h : c ∉ metaChars) :
    s.step c = .ok (s.push .atom (atomOf c)) := by
  simp only [metaChars, List.mem_cons, List.not_mem_nil, or_false, not_or] at h
  obtain ⟨h1, h2, h3, h4, h5, h6, h7, h8, h9, h10, h11⟩ := h
  by_cases hd : c = '.'
  · subst hd; simp [PSt.step, atomOf]
  · simp [PSt.step, atomOf, *]

theorem run_append (s : PSt) (a b : Str) :
    s.run (a ++ b) = match s.run a with | .ok s' => s'.run b | .error e => .error e := by
  induction a generalizing s with
  | nil => simp [PSt.run]
  | cons c cs ih =>
    simp only [List.cons_append, PSt.run]
    cases s.step c with
    | error e => simp
    | ok s' => simp [ih]

theorem run_plain (s : PSt) (b : Str) (h : LiteralOrDot b) :
    s.run b = .ok { s with top := { s.top with
      cur := (b.map (fun c => (ItemKind.atom, atomOf c))).reverse ++ s.top.cur } } := by
  induction b generalizing s with
  | nil => simp [PSt.run]
  | cons c cs ih =>
    have hc : c ∉ metaChars := h c (by simp)
    have hcs : LiteralOrDot cs := fun d hd => h d (by simp [hd])
    simp [PSt.run, step_plain s hc, ih _ hcs, PSt.push]

/-- `(/.*)?` and `$` -/
def tailItems : List Re :=
  [.opt (.grp 1 (.cat (.lit '/') (.cat (.star .dot) .eps))), .eos]

theorem compile_base_tail (b : Str) (h : LiteralOrDot b) :
    compile (b ++ "(/.*)?$".toList) = .ok (Re.seq (b.map atomOf ++ tailItems)) := by
  unfold compile
  rw [run_append, run_plain _ _ h]
  have : "(/.*)?$".toList = ['(', '/', '.', '*', ')', '?', '$'] := by decide
  simp [this, PSt.run, PSt.step, PSt.push, PSt.repeatLast, Frame.toRe, Re.seq, tailItems,
    Function.comp_def]

/-! ### Matching a sequence of plain characters -/

theorem seq_append_m (a b : List Re) (st : MSt) :
    (Re.seq (a ++ b)).m st = ((Re.seq a).m st).flatMap (Re.seq b).m := by
  induction a generalizing st with
  | nil => simp [Re.seq, Re.m]
  | cons x t ih =>
    have e : (Re.seq (t ++ b)).m = fun st => ((Re.seq t).m st).flatMap (Re.seq b).m := funext ih
    simp [Re.seq, Re.m, List.flatMap_assoc, e]

theorem atomOf_m (c d : Char) (k : Nat) (t : Str) (caps : List (Nat × Str)) :
    (atomOf c).m ⟨k, d :: t, caps⟩ =
      if c = d ∨ (c = '.' ∧ d ≠ '\n') then [⟨k + 1, t, caps⟩] else [] := by
  unfold atomOf
  by_cases hc : c = '.'
  · subst hc
    by_cases hd : d = '\n'
    · subst hd; simp [Re.dot, Re.m]
    · simp [Re.dot, Re.m, hd]
  · simp only [hc, if_false, Re.lit, Re.m, false_and, or_false]
    by_cases hd : c = d
    · simp [hd]
    · have : ¬ d = c := fun e => hd e.symm
      simp [hd, this]

theorem plain_m_of_dotEq {b p : Str} (h : DotEq b p) (k : Nat) (rest : Str)
    (caps : List (Nat × Str)) :
    (Re.seq (b.map atomOf)).m ⟨k, p ++ rest, caps⟩ = [⟨k + b.length, rest, caps⟩] := by
  induction h generalizing k with
  | nil => simp [Re.seq, Re.m]
  | same c _ ih =>
    simp [Re.seq, Re.m, atomOf_m, ih]; omega
  | dot c hc _ ih =>
    simp [Re.seq, Re.m, atomOf_m, hc, ih]; omega

theorem plain_m_none {b s : Str} (h : ¬ ∃ p rest, s = p ++ rest ∧ DotEq b p) (k : Nat)
    (caps : List (Nat × Str)) : (Re.seq (b.map atomOf)).m ⟨k, s, caps⟩ = [] := by
  induction b generalizing s k with
  | nil => exact absurd ⟨[], s, rfl, .nil⟩ h
  | cons c cs ih =>
    cases s with
    | nil =>
      simp only [List.map_cons, Re.seq, Re.m]
      unfold atomOf
      split <;> simp [Re.dot, Re.lit, Re.m]
    | cons d t =>
      simp only [List.map_cons, Re.seq, Re.m, atomOf_m]
      by_cases hm : c = d ∨ (c = '.' ∧ d ≠ '\n')
      · rw [if_pos hm]
        have : ¬ ∃ p rest, t = p ++ rest ∧ DotEq cs p := by
          rintro ⟨p, rest, rfl, hp⟩
          apply h
          refine ⟨d :: p, rest, rfl, ?_⟩
          rcases hm with rfl | ⟨rfl, hd⟩
          · exact .same _ hp
          · exact .dot _ hd hp
        simp [ih this]
      · rw [if_neg hm]; simp

/-! ### Greedy iteration of a character class -/

/-- the results of `p*` in order: longest first -/
def drops (p : Char → Bool) : Nat → Str → List (Nat × Str)
  | k, [] => [(k, [])]
  | k, c :: cs => (if p c then drops p (k + 1) cs else []) ++ [(k, c :: cs)]

theorem chr_m_cons (p : Char → Bool) (k : Nat) (c : Char) (cs : Str) (caps : List (Nat × Str)) :
    (Re.chr p).m ⟨k, c :: cs, caps⟩ = if p c then [⟨k + 1, cs, caps⟩] else [] := by
  simp [Re.m]

theorem starIter_chr (p : Char → Bool) (n k : Nat) (s : Str) (caps : List (Nat × Str))
    (h : s.length ≤ n) :
    starIter (Re.chr p).m n ⟨k, s, caps⟩ = (drops p k s).map (fun x => ⟨x.1, x.2, caps⟩) := by
  induction n generalizing k s with
  | zero =>
    have : s = [] := List.length_eq_zero_iff.mp (by omega)
    subst this; simp [starIter, drops, Re.m]
  | succ n ih =>
    cases s with
    | nil => simp [starIter, drops, Re.m]
    | cons c cs =>
      have hl : cs.length ≤ n := by simpa using h
      by_cases hp : p c
      · rw [starIter, chr_m_cons, if_pos hp]
        simp [hp, drops, ih (k + 1) cs hl]
      · rw [starIter, chr_m_cons, if_neg hp]
        simp [hp, drops]

theorem star_chr_m (p : Char → Bool) (k : Nat) (s : Str) (caps : List (Nat × Str)) :
    (Re.star (.chr p)).m ⟨k, s, caps⟩ = (drops p k s).map (fun x => ⟨x.1, x.2, caps⟩) := by
  simp only [Re.m]
  exact starIter_chr p _ k s caps (Nat.le_refl _)

/-! ### The tail `(/.*)?$` -/

/-- What `(/.*)?$` does on a remaining input: `none` no match, `some none` match without the
group, `some (some g)` match with group text `g`. -/
def tailResult : Str → Option (Option Str)
  | [] => some none
  | '/' :: t =>
    let u := t.takeWhile (· != '\n')
    let v := t.dropWhile (· != '\n')
    if v = [] ∨ v = ['\n'] then some (some ('/' :: u)) else none
  | ['\n'] => some none
  | _ => none

/-- the first of the `drops` from which `$` matches is the longest one, if any -/
theorem find_drops (k : Nat) (t : Str) :
    ((drops (fun c => c != '\n') k t).filter (fun x => decide (x.2 = [] ∨ x.2 = ['\n']))).head? =
      let v := t.dropWhile (· != '\n')
      if v = [] ∨ v = ['\n'] then some (k + (t.takeWhile (· != '\n')).length, v) else none := by
  induction t generalizing k with
  | nil => simp [drops]
  | cons c cs ih =>
    by_cases hc : c = '\n'
    · subst hc
      by_cases hcs : cs = []
      · simp [drops, hcs]
      · simp [drops, hcs]
    · have hb : (c != '\n') = true := by simp [hc]
      simp only [drops, hb, if_true, List.filter_append, List.head?_append, ih,
        List.takeWhile_cons, List.dropWhile_cons, List.length_cons]
      by_cases hv : List.dropWhile (fun x => x != '\n') cs = [] ∨
          List.dropWhile (fun x => x != '\n') cs = ['\n']
      · simp [hv]; omega
      · simp [hv, hc]

theorem flatMap_eos (l : List MSt) :
    l.flatMap (Re.seq [.eos]).m = l.filter (fun st => decide (st.rest = [] ∨ st.rest = ['\n'])) := by
  induction l with
  | nil => rfl
  | cons a t ih =>
    rw [List.flatMap_cons, ih, List.filter_cons]
    by_cases h : a.rest = [] ∨ a.rest = ['\n'] <;> simp [Re.seq, Re.m, h]

theorem tail_m (k : Nat) (s : Str) :
    ((Re.seq tailItems).m ⟨k, s, []⟩).head?.map (fun st => st.group 1) = tailResult s := by
  have hsplit : tailItems = [.opt (.grp 1 (.cat (.lit '/') (.cat (.star .dot) .eps)))] ++ [.eos] := rfl
  rw [hsplit, seq_append_m, flatMap_eos]
  cases s with
  | nil => simp [Re.seq, Re.m, Re.lit, tailResult, MSt.group]
  | cons c t =>
    by_cases hc : c = '/'
    · subst hc
      have e1 : (Re.seq [.opt (.grp 1 (.cat (.lit '/') (.cat (.star .dot) .eps)))]).m ⟨k, '/' :: t, []⟩
          = ((drops (fun c => c != '\n') (k + 1) t).map (fun x =>
              (⟨x.1, x.2, [(1, ('/' :: t).take (t.length + 1 - x.2.length))]⟩ : MSt))) ++
            [⟨k, '/' :: t, []⟩] := by
        simp only [Re.seq, Re.m, Re.lit, Re.dot]
        simp only [beq_self_eq_true, if_true, List.flatMap_cons, List.flatMap_nil, List.append_nil]
        have := starIter_chr (fun c => c != '\n') t.length (k + 1) t [] (Nat.le_refl _)
        simp only [Re.m] at this
        rw [this]
        simp [Function.comp_def]
      rw [e1]
      rw [List.filter_append, List.filter_map, List.head?_append]
      have e2 := find_drops (k + 1) t
      simp only [Function.comp_def, List.head?_map, e2]
      by_cases hv : List.dropWhile (fun x => x != '\n') t = [] ∨
          List.dropWhile (fun x => x != '\n') t = ['\n']
      · have hlen := congrArg List.length (List.takeWhile_append_dropWhile (p := fun x => x != '\n') (l := t))
        simp only [List.length_append] at hlen
        have htake : List.take (t.length - (List.dropWhile (fun x => x != '\n') t).length) t =
            List.takeWhile (fun x => x != '\n') t := by
          conv => lhs; arg 2; rw [← List.takeWhile_append_dropWhile (p := fun x => x != '\n') (l := t)]
          rw [List.take_append_of_le_length (by omega), List.take_of_length_le (by omega)]
        have hle : (List.dropWhile (fun x => x != '\n') t).length ≤ t.length := by omega
        have hsub : t.length + 1 - (List.dropWhile (fun x => x != '\n') t).length
            = (t.length - (List.dropWhile (fun x => x != '\n') t).length) + 1 := by omega
        simp [hv, tailResult, MSt.group, hsub, htake]
      · simp [hv, tailResult]
    · have e1 : (Re.seq [.opt (.grp 1 (.cat (.lit '/') (.cat (.star .dot) .eps)))]).m ⟨k, c :: t, []⟩
          = [⟨k, c :: t, []⟩] := by
        simp [Re.seq, Re.m, Re.lit, hc]
      rw [e1]
      by_cases hn : c = '\n' ∧ t = []
      · obtain ⟨rfl, rfl⟩ := hn
        simp [tailResult, MSt.group]
      · have : tailResult (c :: t) = none := by
          unfold tailResult
          split <;> simp_all
        rw [this]
        simp
        intro h; exact fun h2 => hn ⟨h, h2⟩

end Py
