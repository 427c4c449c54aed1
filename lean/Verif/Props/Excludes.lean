import Verif.Spec.Excludes
import Verif.Props.Builder
/-
C42: exclude patterns over the life of a builder.
-/

namespace Resync
open Py Resync.Spec

theorem compileLoop_good (ps : List Str) : ∀ done, (∀ p ∈ ps, Compiles p) →
    ∃ rs, compileLoop ps done = (done ++ rs, .ok ()) ∧ ∀ r, r ∈ rs ↔ ∃ p ∈ ps, compile p = .ok r := by
  induction ps with
  | nil => intro done _; exact ⟨[], by simp [compileLoop], by simp⟩
  | cons p ps ih =>
    intro done h
    obtain ⟨re, hre⟩ := h p (by simp)
    obtain ⟨rs, h1, h2⟩ := ih (done ++ [re]) (fun q hq => h q (by simp [hq]))
    refine ⟨re :: rs, ?_, ?_⟩
    · rw [compileLoop, hre]; simp only; rw [h1]; simp
    · intro r
      simp only [List.mem_cons, h2, exists_eq_or_imp]
      exact or_congr_left ⟨fun e => by rw [hre, e], fun e => by rw [hre] at e; cases e; rfl⟩

theorem compileLoop_bad (pre : List Str) (p : Str) (post : List Str) (hp : compile p = .error .bad) : ∀ done,
    (∀ q ∈ pre, Compiles q) →
    ∃ rs, compileLoop (pre ++ p :: post) done = (done ++ rs, .error .value) ∧ ∀ r, r ∈ rs ↔ ∃ q ∈ pre, compile q = .ok r := by
  induction pre with
  | nil => intro done _; exact ⟨[], by simp [compileLoop, hp], by simp⟩
  | cons q pre ih =>
    intro done h
    obtain ⟨re, hre⟩ := h q (by simp)
    obtain ⟨rs, h1, h2⟩ := ih (done ++ [re]) (fun q hq => h q (by simp [hq]))
    refine ⟨re :: rs, ?_, ?_⟩
    · rw [List.cons_append, compileLoop, hre]; simp only; rw [h1]; simp
    · intro r
      simp only [List.mem_cons, h2, exists_eq_or_imp]
      exact or_congr_left ⟨fun e => by rw [hre, e], fun e => by rw [hre] at e; cases e; rfl⟩

theorem calls_patterns (cs : List (List Str)) : ∀ e, (Excludes.calls cs e).1.patterns = e.patterns ++ cs.flatten := by
  induction cs with
  | nil => intro e; simp [Excludes.calls]
  | cons ps cs ih =>
    intro e
    rw [Excludes.calls]
    simp only [ih, List.flatten_cons, ← List.append_assoc]
    rfl

theorem calls_append (cs : List (List Str)) (ps : List Str) : ∀ e,
    Excludes.calls (cs ++ [ps]) e = (((Excludes.calls cs e).1.add ps).1, (Excludes.calls cs e).2 ++ [((Excludes.calls cs e).1.add ps).2]) := by
  induction cs with
  | nil => intro e; rfl
  | cons q cs ih =>
    intro e
    rw [List.cons_append, Excludes.calls, Excludes.calls]
    simp only [ih, List.cons_append]

theorem exclude_of_mem {e : Excludes} {l : List Str} (h : ∀ r, r ∈ e.compiled ↔ ∃ p ∈ l, compile p = .ok r) (name : Str) :
    e.exclude name = true ↔ ∃ p ∈ l, MatchesAtStart p name := by
  simp only [Excludes.exclude, List.any_eq_true, Option.isSome_iff_exists, h, MatchesAtStart]
  constructor
  · rintro ⟨re, ⟨p, hp, hc⟩, m⟩; exact ⟨p, hp, re, hc, m⟩
  · rintro ⟨p, hp, re, hc, m⟩; exact ⟨re, ⟨p, hp, hc⟩, m⟩

/-- C42, exclude patterns.  After any number of calls of add_exclude_patterns, all of whose patterns are regular expressions: no call
raised an exception, and a name is excluded exactly if one of the patterns of one of the calls matches at its beginning. -/
theorem C42_patterns (cs : List (List Str)) (h : ∀ p ∈ cs.flatten, Compiles p) :
    (∀ res ∈ (Excludes.calls cs {}).2, res = .ok ()) ∧
    ∀ name, (Excludes.calls cs {}).1.exclude name = true ↔ ∃ ps ∈ cs, ∃ p ∈ ps, MatchesAtStart p name := by
  induction cs using List.reverseRecOn with
  | nil => exact ⟨by simp [Excludes.calls], by simp [Excludes.calls, Excludes.exclude]⟩
  | append_singleton cs ps ih =>
    obtain ⟨i1, -⟩ := ih (fun p hp => h p (by rw [List.flatten_append]; exact List.mem_append_left _ hp))
    have hpat := calls_patterns cs {}
    simp only [List.nil_append] at hpat
    obtain ⟨rs, h1, h2⟩ := compileLoop_good ((Excludes.calls cs {}).1.patterns ++ ps) []
      (fun p hp => h p (by rw [List.flatten_append, List.flatten_cons, List.flatten_nil, List.append_nil, ← hpat]; exact hp))
    rw [calls_append]
    refine ⟨?_, ?_⟩
    · intro res hres
      rcases List.mem_append.mp hres with hr | hr
      · exact i1 res hr
      · rw [List.mem_singleton.mp hr]
        simp only [Excludes.add, h1]
    · intro name
      have : ∀ r, r ∈ ((Excludes.calls cs {}).1.add ps).1.compiled ↔
          ∃ p ∈ (Excludes.calls cs {}).1.patterns ++ ps, compile p = .ok r := by
        intro r
        simp only [Excludes.add, h1, List.nil_append]
        exact h2 r
      rw [exclude_of_mem this, hpat, show cs.flatten ++ ps = (cs ++ [ps]).flatten by simp]
      simp only [List.mem_flatten]
      constructor
      · rintro ⟨p, ⟨l, hl, hp⟩, hm⟩; exact ⟨l, hl, p, hp, hm⟩
      · rintro ⟨l, hl, p, hp, hm⟩; exact ⟨p, ⟨l, hl, hp⟩, hm⟩

/-- C42, a bad exclude pattern.  Let `p` be the first pattern of all calls that is no regular expression: the call that passes it raises
a ValueError, and so does every later call, whatever its patterns; what is excluded from then on are the names matched by the
patterns before `p`, and no others. -/
theorem C42_bad_pattern (before : List (List Str)) (pre : List Str) (p : Str) (post : List Str) (after : List (List Str))
    (hgood : ∀ q ∈ before.flatten ++ pre, Compiles q) (hp : compile p = .error .bad) :
    let e := Excludes.calls (before ++ (pre ++ p :: post) :: after) {}
    (∃ ok bad, e.2 = ok ++ bad ∧ ok.length = before.length ∧ (∀ res ∈ ok, res = .ok ()) ∧ (∀ res ∈ bad, res = .error .value) ∧
      bad.length = after.length + 1) ∧
    ∀ name, e.1.exclude name = true ↔ ∃ q ∈ before.flatten ++ pre, MatchesAtStart q name := by
  have len : ∀ (cs : List (List Str)) e, (Excludes.calls cs e).2.length = cs.length := by
    intro cs
    induction cs with
    | nil => intro e; rfl
    | cons ps cs ih => intro e; simp [Excludes.calls, ih]
  simp only
  induction after using List.reverseRecOn with
  | nil =>
    have hpat := calls_patterns before {}
    simp only [List.nil_append] at hpat
    obtain ⟨g1, -⟩ := C42_patterns before (fun q hq => hgood q (List.mem_append_left _ hq))
    obtain ⟨rs, h1, h2⟩ := compileLoop_bad (before.flatten ++ pre) p post hp [] hgood
    have hadd : (Excludes.calls before {}).1.add (pre ++ p :: post) =
        ({ patterns := before.flatten ++ (pre ++ p :: post), compiled := rs }, .error .value) := by
      simp only [Excludes.add, hpat]
      rw [show before.flatten ++ (pre ++ p :: post) = before.flatten ++ pre ++ p :: post by simp, h1]
      rfl
    rw [show before ++ (pre ++ p :: post) :: [] = before ++ [pre ++ p :: post] from rfl, calls_append, hadd]
    refine ⟨⟨_, _, rfl, len _ _, g1, by simp, rfl⟩, ?_⟩
    intro name
    exact exclude_of_mem h2 name
  | append_singleton after ps ih =>
    obtain ⟨⟨ok, bad, i1, i2, i3, i4, i5⟩, -⟩ := ih
    have hpat := calls_patterns (before ++ (pre ++ p :: post) :: after) {}
    simp only [List.nil_append] at hpat
    obtain ⟨rs, h1, h2⟩ := compileLoop_bad (before.flatten ++ pre) p (post ++ (after.flatten ++ ps)) hp [] hgood
    have hadd : ((Excludes.calls (before ++ (pre ++ p :: post) :: after) {}).1.add ps).2 = .error .value ∧
        ((Excludes.calls (before ++ (pre ++ p :: post) :: after) {}).1.add ps).1.compiled = rs := by
      simp only [Excludes.add, hpat]
      rw [show (before ++ (pre ++ p :: post) :: after).flatten ++ ps =
        before.flatten ++ pre ++ p :: (post ++ (after.flatten ++ ps)) by simp, h1]
      exact ⟨rfl, rfl⟩
    rw [show before ++ (pre ++ p :: post) :: (after ++ [ps]) = (before ++ (pre ++ p :: post) :: after) ++ [ps] by simp, calls_append]
    refine ⟨⟨ok, bad ++ [.error .value], ?_, i2, i3, ?_, by simp [i5]⟩, ?_⟩
    · simp only [i1, hadd.1, List.append_assoc]
    · intro res hr
      rcases List.mem_append.mp hr with hr | hr
      · exact i4 res hr
      · exact List.mem_singleton.mp hr
    · intro name
      refine exclude_of_mem ?_ name
      rw [hadd.2]
      exact h2

/-- The patterns of a scan (`Builder.excludes`, from `compileExcludes`) are those one call leaves. -/
theorem C42_scan_patterns (ps : List Str) (rs : List Re) :
    compileExcludes ps = .ok rs ↔ (Excludes.add {} ps).2 = .ok () ∧ (Excludes.add {} ps).1.compiled = rs := by
  have key : ∀ (ps : List Str) done rs, (∃ l, compileExcludes ps = .ok l ∧ done ++ l = rs) ↔ compileLoop ps done = (rs, .ok ()) := by
    intro ps
    induction ps with
    | nil => intro done rs; simp [compileExcludes, compileLoop]
    | cons p ps ih =>
      intro done rs
      rw [compileExcludes, compileLoop]
      cases hc : compile p with
      | error e => cases e <;> simp
      | ok r =>
        simp only
        rw [← ih]
        cases compileExcludes ps with
        | error e => simp [bind, Except.bind]
        | ok l => simp [bind, Except.bind, pure, Except.pure]
  have := key ps [] rs
  simp only [List.nil_append, exists_eq_right] at this
  rw [this]
  simp only [Excludes.add, List.nil_append]
  cases compileLoop ps [] with
  | mk a b => simp [and_comm]

/-! Three calls, the second with a bad pattern. -/

example : Compiles ".git".toList := ⟨_, rfl⟩
example : compile "a(b".toList = .error .bad := by rfl

example : (Excludes.calls [[".git".toList], ["x".toList, "a(b".toList, "y".toList], ["z".toList]] {}).2.map (fun r => decide (r = .ok ())) =
    [true, false, false] := by decide +kernel

example : ([".git".toList, "x1".toList, "y1".toList, "z1".toList].map
    (Excludes.calls [[".git".toList], ["x".toList, "a(b".toList, "y".toList], ["z".toList]] {}).1.exclude) = [true, true, false, false] := by
  decide +kernel

end Resync
