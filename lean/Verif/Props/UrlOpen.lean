import Verif.Model.UrlOpen
import Mathlib.Data.List.Induction
import Mathlib.Data.List.TakeWhile
/-
C62: delay and token of requests.
-/

namespace Resync
open Py

/-- the token a program last set -/
def lastToken (ops : List OpenOp) : Option Str :=
  ops.foldl (fun t op => match op with | .setToken t' => t' | _ => t) none

/-- the delay a program last set -/
def lastDelay (ops : List OpenOp) : Option Nat :=
  ops.foldl (fun d op => match op with | .setDelay d' => d' | _ => d) none

/-- the requests a program makes -/
def opened (ops : List OpenOp) : List Str :=
  ops.filterMap (fun op => match op with | .open u => some u | _ => none)

/-- A word made of letters, digits, '_' followed by ':' starts the text -/
def WithScheme (uw : Char → Bool) (uri : Str) : Prop :=
  ∃ w rest, uri = w ++ ':' :: rest ∧ w ≠ [] ∧ ∀ c ∈ w, isWord uw c = true

/-- a local file: no scheme, or the scheme file: -/
def LocalUri (uw : Char → Bool) (uri : Str) : Prop := ¬ WithScheme uw uri ∨ "file:".toList <+: uri

theorem isWord_colon (uw : Char → Bool) : isWord uw ':' = false := by
  unfold isWord; rw [if_pos (by decide)]; decide

theorem hasScheme_iff (uw : Char → Bool) (uri : Str) : hasScheme uw uri = true ↔ WithScheme uw uri := by
  unfold hasScheme WithScheme
  simp only [Bool.and_eq_true, Bool.not_eq_true', List.isEmpty_eq_false_iff, beq_iff_eq]
  constructor
  · rintro ⟨h1, h2⟩
    have e := List.takeWhile_append_dropWhile (p := isWord uw) (l := uri)
    have ed : uri.drop (uri.takeWhile (isWord uw)).length = uri.dropWhile (isWord uw) := by
      conv_lhs => rw [← e]
      rw [List.takeWhile_append_dropWhile]
      conv_lhs => arg 2; rw [← e]
      rw [List.drop_left]
    rw [ed] at h2
    cases hd : uri.dropWhile (isWord uw) with
    | nil => rw [hd] at h2; cases h2
    | cons c rest =>
      rw [hd] at h2 e
      simp only [List.head?_cons, Option.some.injEq] at h2
      subst h2
      exact ⟨_, rest, e.symm, h1, fun c hc => List.mem_takeWhile_imp hc⟩
  · rintro ⟨w, rest, rfl, hw, hall⟩
    have ht : (w ++ ':' :: rest).takeWhile (isWord uw) = w := by
      rw [List.takeWhile_append_of_pos hall, List.takeWhile_cons_of_neg (by simp [isWord_colon]), List.append_nil]
    rw [ht, List.drop_left]
    exact ⟨hw, rfl⟩

theorem startsWith_iff (p s : Str) : startsWith s p = true ↔ p <+: s := by
  unfold startsWith; simp

theorem openUrl_file (uw : Char → Bool) (uri : Str) :
    startsWith (openUrl uw uri) "file:".toList = true ↔ LocalUri uw uri := by
  unfold openUrl LocalUri
  rw [startsWith_iff]
  by_cases h : hasScheme uw uri
  · rw [if_pos h]
    have := (hasScheme_iff uw uri).mp h
    exact ⟨.inr, fun x => x.elim (fun y => absurd this y) id⟩
  · rw [if_neg h]
    exact ⟨fun _ => .inl (fun x => h ((hasScheme_iff uw uri).mpr x)), fun _ => List.prefix_append _ _⟩

theorem runOpen_append (uw : Char → Bool) (ops : List OpenOp) (op : OpenOp) :
    runOpen uw (ops ++ [op]) = openStep uw (runOpen uw ops) op := by
  simp [runOpen, List.foldl_append]

theorem runOpen_config (uw : Char → Bool) (ops : List OpenOp) :
    (runOpen uw ops).1 = { num_requests := (opened ops).length, bearer_token := lastToken ops, delay := lastDelay ops } ∧
    (runOpen uw ops).2.length = (opened ops).length := by
  induction ops using List.reverseRecOn with
  | nil => exact ⟨rfl, rfl⟩
  | append_singleton ops op ih =>
    rw [runOpen_append]
    cases op with
    | setToken t =>
      simp [openStep, ih, lastToken, lastDelay, opened, List.filterMap_append]
    | setDelay d =>
      simp [openStep, ih, lastToken, lastDelay, opened, List.filterMap_append]
    | «open» u =>
      simp [openStep, urlOrFileOpen, ih, lastToken, lastDelay, opened, List.filterMap_append]

theorem runOpen_prefix (uw : Char → Bool) (ops ops' : List OpenOp) :
    (runOpen uw ops).2 <+: (runOpen uw (ops ++ ops')).2 := by
  induction ops' using List.reverseRecOn with
  | nil => simp
  | append_singleton l op ih =>
    rw [← List.append_assoc, runOpen_append]
    refine ih.trans ?_
    cases op <;> simp [openStep]

/-- The request made by `open uri` after the operations `before`, whatever the program does later -/
def requestOf (uw : Char → Bool) (before : List OpenOp) (uri : Str) (after : List OpenOp) : Option Request :=
  (runOpen uw (before ++ .open uri :: after)).2[(opened before).length]?

theorem requestOf_eq (uw : Char → Bool) (before : List OpenOp) (uri : Str) (after : List OpenOp) :
    requestOf uw before uri after = some (urlOrFileOpen uw (runOpen uw before).1 uri).2 := by
  unfold requestOf
  have h := runOpen_prefix uw (before ++ [.open uri]) after
  rw [List.append_assoc, List.singleton_append] at h
  have h1 : (runOpen uw (before ++ [.open uri])).2 = (runOpen uw before).2 ++ [(urlOrFileOpen uw (runOpen uw before).1 uri).2] := by
    rw [runOpen_append]; rfl
  obtain ⟨t, ht⟩ := h
  rw [← ht, h1, ← (runOpen_config uw before).2]
  simp

/-- C62.  In every program, a request sleeps first exactly if it is not the first request made, its target is not a local
file and a delay is set; it sleeps for the delay last set. -/
theorem C62_delay (uw : Char → Bool) (before : List OpenOp) (uri : Str) (after : List OpenOp) :
    ∃ r, requestOf uw before uri after = some r ∧
      (opened before = [] → r.slept = none) ∧ (LocalUri uw uri → r.slept = none) ∧
      (opened before ≠ [] → ¬ LocalUri uw uri → r.slept = lastDelay before) := by
  refine ⟨_, requestOf_eq uw before uri after, ?_, ?_, ?_⟩
  · intro h
    simp [urlOrFileOpen, (runOpen_config uw before).1, h]
  · intro h
    have := (openUrl_file uw uri).mpr h
    unfold urlOrFileOpen
    simp only [this, not_true_eq_false, and_false, if_false]
  · intro h1 h2
    have hl : startsWith (openUrl uw uri) "file:".toList = false := by
      rw [Bool.eq_false_iff]; exact fun x => h2 ((openUrl_file uw uri).mp x)
    have hn : (opened before).length ≠ 0 := by simpa using h1
    unfold urlOrFileOpen
    simp only [hl, (runOpen_config uw before).1]
    cases lastDelay before <;> simp [hn]

/-- C62.  With a token set every request, to a local file or any host, carries it; without one none does. -/
theorem C62_token (uw : Char → Bool) (before : List OpenOp) (uri : Str) (after : List OpenOp) :
    ∃ r, requestOf uw before uri after = some r ∧
      r.authorization = (lastToken before).map (fun t => "Bearer ".toList ++ t) := by
  refine ⟨_, requestOf_eq uw before uri after, ?_⟩
  simp [urlOrFileOpen, (runOpen_config uw before).1]

/-- C62.  The URL requested is the one given, with file: put before a text without scheme. -/
theorem C62_url (uw : Char → Bool) (before : List OpenOp) (uri : Str) (after : List OpenOp) :
    ∃ r, requestOf uw before uri after = some r ∧
      (WithScheme uw uri → r.url = uri) ∧ (¬ WithScheme uw uri → r.url = "file:".toList ++ uri) := by
  refine ⟨_, requestOf_eq uw before uri after, ?_, ?_⟩
  · intro h; simp [urlOrFileOpen, openUrl, (hasScheme_iff uw uri).mpr h]
  · intro h
    have : hasScheme uw uri = false := by
      rw [Bool.eq_false_iff]; exact fun x => h ((hasScheme_iff uw uri).mp x)
    simp [urlOrFileOpen, openUrl, this]

/-- C62.  A program makes one request per call. -/
theorem C62_count (uw : Char → Bool) (ops : List OpenOp) : (runOpen uw ops).2.length = (opened ops).length :=
  (runOpen_config uw ops).2

example : (runOpen (fun _ => false) [.setDelay (some 3), .open "/a".toList, .open "http://h/".toList, .setToken (some "t".toList),
    .open "b".toList, .open "https://h/".toList]).2 =
    [⟨none, "file:/a".toList, none⟩, ⟨some 3, "http://h/".toList, none⟩, ⟨none, "file:b".toList, some "Bearer t".toList⟩,
     ⟨some 3, "https://h/".toList, some "Bearer t".toList⟩] := by decide

end Resync
