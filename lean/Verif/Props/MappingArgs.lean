import Verif.Props.Mapper
/-
C05: which mapping arguments are accepted, and what they mean
-/

namespace Resync
open Py

/-- What a list of mapping arguments says, as pairs of a source URI and a destination path (README: `resync uri path`, `uri=path`
arguments, or just the `uri` where the path follows from it). -/
inductive Spec.ArgsSay (uw : Char → Bool) (use_default_path : Bool) : List Str → List (Str × Str) → Prop
  /-- arguments `uri=path`; no URI or path is that of an earlier mapping -/
  | explicit (ps : List (Str × Str)) (one : ∀ p ∈ ps, '=' ∉ p.1 ∧ '=' ∉ p.2)
      (fresh : ps.Pairwise (fun p q => q.1 ≠ (Map.new p.1 p.2).src_uri ∧ q.2 ≠ (Map.new p.1 p.2).dst_path)) :
      Spec.ArgsSay uw use_default_path (ps.map (fun p => p.1 ++ '=' :: p.2)) ps
  /-- the two arguments `uri path` -/
  | pair (uri path : Str) (h1 : '=' ∉ uri) (h2 : '=' ∉ path) : Spec.ArgsSay uw use_default_path [uri, path] [(uri, path)]
  /-- the argument `uri` -/
  | single (uri path : Str) (h : '=' ∉ uri) (hd : use_default_path = true) (hp : pathFromUri uw uri = .ok path) :
      Spec.ArgsSay uw use_default_path [uri] [(uri, path)]

theorem splitOn_one_eq {c : Char} {s b : Str} (h : splitOn c s = [b]) : s = b := by
  induction s generalizing b with
  | nil => simpa [splitOn] using h
  | cons x xs ih =>
    rw [splitOn] at h
    split at h
    · simp [splitOn_ne_nil] at h
    · split at h
      · rename_i hd tl heq
        simp only [List.cons.injEq] at h
        obtain ⟨rfl, rfl⟩ := h
        rw [ih heq]
      · rename_i heq; exact absurd heq (splitOn_ne_nil c xs)

theorem splitOn_two_eq {c : Char} {s a b : Str} (h : splitOn c s = [a, b]) : s = a ++ c :: b := by
  induction s generalizing a with
  | nil => simp [splitOn] at h
  | cons x xs ih =>
    rw [splitOn] at h
    split at h
    · rename_i hx
      simp only [List.cons.injEq] at h
      rw [← h.1, hx, splitOn_one_eq h.2]; rfl
    · split at h
      · rename_i hd tl heq
        simp only [List.cons.injEq] at h
        obtain ⟨rfl, rfl⟩ := h
        rw [ih heq]; rfl
      · rename_i heq; exact absurd heq (splitOn_ne_nil c xs)

theorem parseEntries_iff (args : List Str) (ms out : Mapper) : parseEntries ms args = .ok out ↔
    ∃ ps : List (Str × Str), args = ps.map (fun p => p.1 ++ '=' :: p.2) ∧ (∀ p ∈ ps, '=' ∉ p.1 ∧ '=' ∉ p.2) ∧
      ps.Pairwise (fun p q => q.1 ≠ (Map.new p.1 p.2).src_uri ∧ q.2 ≠ (Map.new p.1 p.2).dst_path) ∧
      (∀ m ∈ ms, ∀ q ∈ ps, q.1 ≠ m.src_uri ∧ q.2 ≠ m.dst_path) ∧
      out = ms ++ ps.map (fun p => Map.new p.1 p.2) := by
  induction args generalizing ms with
  | nil =>
    simp only [parseEntries, Except.ok.injEq]
    constructor
    · rintro rfl; exact ⟨[], by simp⟩
    · rintro ⟨ps, hps, _, _, _, rfl⟩
      have : ps = [] := by simpa using hps.symm
      subst this; simp
  | cons a as ih =>
    constructor
    · intro h
      simp only [parseEntries] at h
      split at h
      · rename_i src dst hsplit
        split at h
        · cases h
        · rename_i hany
          obtain ⟨ps, rfl, hone, hpw, hms, rfl⟩ := (ih _).mp h
          simp only [List.any_eq_true, not_exists, not_and, Bool.or_eq_true, decide_eq_true_eq, not_or] at hany
          have hn : '=' ∉ src ∧ '=' ∉ dst :=
            ⟨not_mem_of_mem_splitOn (s := a) (by rw [hsplit]; simp), not_mem_of_mem_splitOn (s := a) (by rw [hsplit]; simp)⟩
          refine ⟨(src, dst) :: ps, by rw [splitOn_two_eq hsplit]; rfl, ?_, ?_, ?_, by simp⟩
          · intro p hp
            rcases List.mem_cons.mp hp with rfl | hp
            · exact hn
            · exact hone p hp
          · refine List.pairwise_cons.mpr ⟨fun q hq => ?_, hpw⟩
            exact hms (Map.new src dst) (by simp) q hq
          · intro m hm q hq
            rcases List.mem_cons.mp hq with rfl | hq
            · exact hany m hm
            · exact hms m (by simp [hm]) q hq
      · cases h
    · rintro ⟨ps, hps, hone, hpw, hms, rfl⟩
      cases ps with
      | nil => simp at hps
      | cons p ps =>
        simp only [List.map_cons, List.cons.injEq] at hps
        obtain ⟨rfl, rfl⟩ := hps
        have ha := hone p (by simp)
        rw [List.pairwise_cons] at hpw
        simp only [parseEntries, splitOn_append_sep, splitOn_of_not_mem ha.1, splitOn_of_not_mem ha.2, List.singleton_append]
        rw [if_neg, ih]
        · refine ⟨ps, rfl, fun q hq => hone q (by simp [hq]), hpw.2, ?_, by simp⟩
          intro m hm q hq
          rcases List.mem_append.mp hm with hm | hm
          · exact hms m hm q (by simp [hq])
          · have : m = Map.new p.1 p.2 := by simpa using hm
            subst this; exact hpw.1 q hq
        · simp only [List.any_eq_true, not_exists, not_and, Bool.or_eq_true, decide_eq_true_eq, not_or]
          exact fun m hm => hms m hm p (by simp)

theorem contains_iff_eq (a : Str) : (a.contains '=' = true) ↔ '=' ∈ a := List.contains_iff_mem

/-- C05. Mapping arguments are accepted exactly if they say something, and the mappings are then those they say, in order; all
other arguments are refused. -/
theorem C05_arguments (uw : Char → Bool) (args : List Str) (use_default_path : Bool) (ms : Mapper) :
    Mapper.parse uw args use_default_path = .ok ms ↔
    ∃ ps, Spec.ArgsSay uw use_default_path args ps ∧ ms = ps.map (fun p => Map.new p.1 p.2) := by
  have hent : ∀ args : List Str, parseEntries [] args = .ok ms →
      ∃ ps, Spec.ArgsSay uw use_default_path args ps ∧ ms = ps.map (fun p => Map.new p.1 p.2) := by
    intro args h
    obtain ⟨ps, rfl, h1, h2, _, rfl⟩ := (parseEntries_iff args [] ms).mp h
    exact ⟨ps, .explicit ps h1 h2, by simp⟩
  constructor
  · intro h
    unfold Mapper.parse at h
    split at h
    · rename_i a
      split at h
      · rename_i hc
        split at h
        · rename_i path hp
          cases h
          exact ⟨[(a, path)], .single a path (by rw [← contains_iff_eq]; exact hc.2) hc.1 hp, rfl⟩
        · cases h
      · exact hent _ h
    · rename_i a b
      split at h
      · rename_i hc
        cases h
        exact ⟨[(a, b)], .pair a b (by rw [← contains_iff_eq]; exact hc.1) (by rw [← contains_iff_eq]; exact hc.2), rfl⟩
      · exact hent _ h
    · exact hent _ h
  · rintro ⟨ps, hsay, rfl⟩
    cases hsay with
    | explicit ps h1 h2 =>
      have hp : parseEntries [] (ps.map (fun p => p.1 ++ '=' :: p.2)) = .ok (ps.map (fun p => Map.new p.1 p.2)) :=
        (parseEntries_iff _ [] _).mpr ⟨ps, rfl, h1, h2, by simp, by simp⟩
      have hin : ∀ p : Str × Str, (p.1 ++ '=' :: p.2).contains '=' = true := fun p => by rw [contains_iff_eq]; simp
      match ps, hp with
      | [], hp => exact hp
      | [p], hp =>
        show Mapper.parse uw [p.1 ++ '=' :: p.2] use_default_path = _
        unfold Mapper.parse
        dsimp only
        rw [if_neg (by rw [hin p]; simp)]
        exact hp
      | [p, q], hp =>
        show Mapper.parse uw [p.1 ++ '=' :: p.2, q.1 ++ '=' :: q.2] use_default_path = _
        unfold Mapper.parse
        dsimp only
        rw [if_neg (by rw [hin p]; simp)]
        exact hp
      | p :: q :: r :: t, hp => exact hp
    | pair uri path h1 h2 =>
      unfold Mapper.parse
      dsimp only
      rw [if_pos ⟨by rw [contains_iff_eq]; exact h1, by rw [contains_iff_eq]; exact h2⟩]
      rfl
    | single uri path h hd hp =>
      unfold Mapper.parse
      dsimp only
      rw [if_pos ⟨hd, by rw [contains_iff_eq]; exact h⟩, hp]
      rfl

-- all three kinds of arguments are there, and so are arguments that are refused
example : Spec.ArgsSay (fun _ => false) false ["http://h/a=/x".toList, "http://h/b=/y".toList]
    [("http://h/a".toList, "/x".toList), ("http://h/b".toList, "/y".toList)] :=
  .explicit [("http://h/a".toList, "/x".toList), ("http://h/b".toList, "/y".toList)] (by decide) (by decide)
example : Mapper.parse (fun _ => false) ["http://h/a".toList, "/x".toList] false = .ok [⟨"http://h/a".toList, "/x".toList⟩] := by decide
example : Mapper.parse (fun _ => false) ["http://h/a".toList] true = .ok [⟨"http://h/a".toList, "h_a".toList⟩] := by decide
example : Mapper.parse (fun _ => false) ["http://h/a".toList] false = .error .mapper := by decide
example : Mapper.parse (fun _ => false) ["http://h/a".toList, "b=c".toList] false = .error .mapper := by decide
example : Mapper.parse (fun _ => false) ["a=b".toList, "c".toList] false = .error .mapper := by decide
example : Mapper.parse (fun _ => false) ["a=b=c".toList] true = .error .mapper := by decide

end Resync
