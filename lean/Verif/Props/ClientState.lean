import Verif.Proofs.ClientState
/-
C43-C45: the client's stored state.
-/

namespace Resync
open Py Resync.Spec

variable {T : Type}

/-! Numbers for the examples: 1.5, 12.0 and 1.0 -/

inductive ExT
  | a | b | c
deriving DecidableEq

def exFt : FloatText ExT where
  str := fun t => match t with
    | .a => "1.5".toList
    | .b => "12.0".toList
    | .c => "1.0".toList
  float := fun s =>
    if s = "1.5".toList then some .a
    else if s = "12.0".toList ∨ s = "12.".toList ∨ s = "12".toList then some .b
    else if s = "1.0".toList ∨ s = "1.".toList ∨ s = "1".toList then some .c
    else none

theorem exFt_ok : FloatOk exFt where
  back := by intro t; cases t <;> decide
  nonempty := by intro t; cases t <;> decide
  clean := by intro t; cases t <;> decide

/-- C43.  After any history of set_state calls, starting without a state file, reading the state of a site gives the
timestamp of the last call for it, and `None` if there was none or the last was with `None`.  (Site names are not
empty.) -/
theorem C43_history (ft : FloatText T) (hft : FloatOk ft) (ops : List (Str × Option T)) (hops : ∀ op ∈ ops, op.1 ≠ []) :
    ∃ file, setAll ft none ops = .ok file ∧
      (∀ site t, getState ft file site = .ok (some t) ↔ LastSet ops site (some t)) ∧
      (∀ site, getState ft file site = .ok none ↔ ¬ ∃ t, LastSet ops site (some t)) := by
  obtain ⟨file, h1, h2⟩ := setAll_holds hft ops hops (holds_none ft)
  refine ⟨file, h1, ?_, ?_⟩
  · intro site t
    rw [getState_holds hft h2, Except.ok.injEq, dget_foldl]
  · intro site
    rw [getState_holds hft h2, Except.ok.injEq]
    simp only [← dget_foldl]
    rw [← Option.eq_none_iff_forall_ne_some.trans (not_exists (p := fun t => _ = some t)).symm]

/-- C43.  One more call: the site reads back what was set, sites with another entry are as before. -/
theorem C43_read_back (ft : FloatText T) (hft : FloatOk ft) (ops : List (Str × Option T)) (hops : ∀ op ∈ ops, op.1 ≠ [])
    (file : Option Str) (hfile : setAll ft none ops = .ok file) (site : Str) (hs : site ≠ []) (t : Option T) :
    ∃ file', setState ft file site t = .ok file' ∧ getState ft file' site = .ok t ∧
      ∀ site', ¬ SameKey site site' → getState ft file' site' = getState ft file site' := by
  obtain ⟨f, h1, h2⟩ := setAll_holds hft ops hops (holds_none ft)
  rw [h1] at hfile
  cases hfile
  obtain ⟨file', h3, h4⟩ := setState_holds hft h2 site hs t
  refine ⟨file', h3, ?_, ?_⟩
  · rw [getState_holds hft h4, dget_stateStep, if_pos rfl]
  · intro site' hk
    rw [getState_holds hft h4, getState_holds hft h2, dget_stateStep, if_neg (fun e => hk ((siteKey_eq _ _).mp e))]

example : ∃ file, setAll exFt none [("http://a.b/".toList, some .a), ("http://c/".toList, some .b),
      ("http://a.b/".toList, some .c), ("http://c/".toList, none)] = .ok file ∧
    getState exFt file "http://a.b/".toList = .ok (some .c) ∧ getState exFt file "http://c/".toList = .ok none :=
  ⟨some "[incremental]\nhttp___a_b_ = 1.0\n\n".toList, by decide⟩

/-- C43 fails for the empty site name: the entry without a name makes the file unreadable for every site, and later
calls of set_state fail. -/
theorem C43_violated : ∃ file, setState exFt none [] (some .a) = .ok file ∧
    ∀ site t, getState exFt file site = .error (.cfg .parse) ∧ setState exFt file site t = .error (.cfg .parse) := by
  refine ⟨some "[incremental]\n = 1.5\n\n".toList, by decide, ?_⟩
  have : readStatus (some "[incremental]\n = 1.5\n\n".toList) = .error (.cfg .parse) := by decide
  intro site t
  simp only [getState, setState, this, and_self]

/-- C44 as far as it holds: for names with different entries (see `SameKey`). -/
theorem C44_partial (ft : FloatText T) (hft : FloatOk ft) (ops : List (Str × Option T)) (hops : ∀ op ∈ ops, op.1 ≠ [])
    (file : Option Str) (hfile : setAll ft none ops = .ok file) (site : Str) (hs : site ≠ []) (t : Option T)
    (site' : Str) (hk : ¬ SameKey site site') :
    ∃ file', setState ft file site t = .ok file' ∧ getState ft file' site' = getState ft file site' := by
  obtain ⟨f, h1, -, h3⟩ := C43_read_back ft hft ops hops file hfile site hs t
  exact ⟨f, h1, h3 site' hk⟩

/-- C44 fails for all others: names which differ in case only, or in characters that are not letters or digits, share
one entry, in every history. -/
theorem C44_shared (ft : FloatText T) (hft : FloatOk ft) (ops : List (Str × Option T)) (hops : ∀ op ∈ ops, op.1 ≠ [])
    (file : Option Str) (hfile : setAll ft none ops = .ok file) (site : Str) (hs : site ≠ []) (t : Option T)
    (site' : Str) (hk : SameKey site site') :
    ∃ file', setState ft file site t = .ok file' ∧ getState ft file' site' = .ok t := by
  obtain ⟨f, h1, h2⟩ := setAll_holds hft ops hops (holds_none ft)
  rw [h1] at hfile
  cases hfile
  obtain ⟨file', h3, h4⟩ := setState_holds hft h2 site hs t
  refine ⟨file', h3, ?_⟩
  rw [getState_holds hft h4, dget_stateStep, if_pos ((siteKey_eq _ _).mpr hk)]

theorem C44_violated : ∃ file, setState exFt none "http://h/a-b".toList (some .a) = .ok file ∧
    getState exFt none "http://h/a_b".toList = .ok none ∧ getState exFt file "http://h/a_b".toList = .ok (some .a) ∧
    getState exFt file "http://h/A.B".toList = .ok (some .a) :=
  ⟨some "[incremental]\nhttp___h_a_b = 1.5\n\n".toList, by decide⟩

theorem setSteps_run {ft : FloatText T} (hft : FloatOk ft) {file : Option Str} {d : Dict T} (h : Holds ft file d)
    (site : Str) (hs : site ≠ []) (t : Option T) : ∃ c file', Holds ft file' (stateStep d (site, t)) ∧
      setStep ft site t .start file = (.read c, file) ∧ file' = some c.write := by
  obtain ⟨c, hc, hdef, hsec⟩ := readStatus_holds hft h
  obtain ⟨file', h3, h4⟩ := setState_holds hft h site hs t
  unfold setState at h3
  simp only [hc] at h3
  cases h3
  exact ⟨_, _, h4, by simp only [setStep, hc], rfl⟩

/-- C45 as far as it holds: if the second client starts when the first is done, both updates take effect (for sites
with different entries), and other sites are as before. -/
theorem C45_serial_partial (ft : FloatText T) (hft : FloatOk ft) (ops : List (Str × Option T)) (hops : ∀ op ∈ ops, op.1 ≠ [])
    (file : Option Str) (hfile : setAll ft none ops = .ok file) (s1 s2 : Str) (t1 t2 : Option T) (h1 : s1 ≠ []) (h2 : s2 ≠ [])
    (hk : ¬ SameKey s1 s2) : ∃ file', runTwo ft (s1, t1) (s2, t2) [true, true, true, false, false, false] (.start, .start, file) =
        (.done, .done, file') ∧ getState ft file' s1 = .ok t1 ∧ getState ft file' s2 = .ok t2 ∧
      ∀ s, ¬ SameKey s1 s → ¬ SameKey s2 s → getState ft file' s = getState ft file s := by
  obtain ⟨f, e1, hh⟩ := setAll_holds hft ops hops (holds_none ft)
  rw [e1] at hfile
  cases hfile
  obtain ⟨c1, f1, g1, g2, rfl⟩ := setSteps_run hft hh s1 h1 t1
  obtain ⟨c2, f2, g3, g4, rfl⟩ := setSteps_run hft g1 s2 h2 t2
  have hk1 : siteKey s1 ≠ siteKey s2 := fun e => hk ((siteKey_eq _ _).mp e)
  refine ⟨some c2.write, ?_, ?_, ?_, ?_⟩
  · simp only [runTwo, g2]
    simp only [setStep, Option.getD_some, List.drop_nil, List.append_nil]
    have := g4
    simp only [setStep] at this
    simp only [this, Option.getD_some, List.drop_nil, List.append_nil]
  · rw [getState_holds hft g3, dget_stateStep, if_neg (Ne.symm hk1), dget_stateStep, if_pos rfl]
  · rw [getState_holds hft g3, dget_stateStep, if_pos rfl]
  · intro s k1 k2
    rw [getState_holds hft g3, getState_holds hft hh, dget_stateStep, if_neg (fun e => k2 ((siteKey_eq _ _).mp e)),
      dget_stateStep, if_neg (fun e => k1 ((siteKey_eq _ _).mp e))]

/-- C45 fails: when the second client reads the file before the first has written it, the update of the first is
lost.  This happens for all sites (with different entries) and timestamps. -/
theorem C45_lost_update_violated (ft : FloatText T) (hft : FloatOk ft) (ops : List (Str × Option T))
    (hops : ∀ op ∈ ops, op.1 ≠ []) (file : Option Str) (hfile : setAll ft none ops = .ok file) (s1 s2 : Str) (t1 t2 : Option T)
    (h1 : s1 ≠ []) (h2 : s2 ≠ []) (hk : ¬ SameKey s1 s2) :
    ∃ file', runTwo ft (s1, t1) (s2, t2) [true, false, true, true, false, false] (.start, .start, file) =
        (.done, .done, file') ∧ getState ft file' s2 = .ok t2 ∧ getState ft file' s1 = getState ft file s1 := by
  obtain ⟨f, e1, hh⟩ := setAll_holds hft ops hops (holds_none ft)
  rw [e1] at hfile
  cases hfile
  obtain ⟨c1, f1, g1, g2, rfl⟩ := setSteps_run hft hh s1 h1 t1
  obtain ⟨c2, f2, g3, g4, rfl⟩ := setSteps_run hft hh s2 h2 t2
  have hk1 : siteKey s1 ≠ siteKey s2 := fun e => hk ((siteKey_eq _ _).mp e)
  refine ⟨some c2.write, ?_, ?_, ?_⟩
  · simp only [runTwo, g2, g4]
    simp only [setStep, Option.getD_some, List.drop_nil, List.append_nil]
  · rw [getState_holds hft g3, dget_stateStep, if_pos rfl]
  · rw [getState_holds hft g3, getState_holds hft hh, dget_stateStep, if_neg (Ne.symm hk1)]

/-- C45 fails: with both clients past open(..., 'w') before they write, the file can end up unreadable. -/
theorem C45_garbled_violated : ∃ file', runTwo exFt ("abcd".toList, some .b) ("s".toList, some .a)
      [true, false, true, false, true, false] (.start, .start, none) = (.done, .done, file') ∧
    getState exFt file' "s".toList = .error (.cfg .parse) :=
  ⟨some "[incremental]\ns = 1.5\n\n.0\n\n".toList, by decide⟩

/-- C45 fails: a crash right after the file has been opened loses the state of every site. -/
theorem C45_crash_violated (ft : FloatText T) (hft : FloatOk ft) (ops : List (Str × Option T)) (hops : ∀ op ∈ ops, op.1 ≠ [])
    (file : Option Str) (hfile : setAll ft none ops = .ok file) (site : Str) (hs : site ≠ []) (t : Option T) :
    ∃ crashed, CrashFile ft file site t crashed ∧ ∀ s, getState ft crashed s = .ok none := by
  obtain ⟨f, e1, hh⟩ := setAll_holds hft ops hops (holds_none ft)
  rw [e1] at hfile
  cases hfile
  obtain ⟨c, f1, g1, g2, rfl⟩ := setSteps_run hft hh site hs t
  have hset : ∃ text, setState ft file site t = .ok (some text) := by
    unfold setState
    obtain ⟨c, hc, -⟩ := readStatus_holds hft hh
    simp only [hc]
    exact ⟨_, rfl⟩
  obtain ⟨text, ht⟩ := hset
  refine ⟨some [], .during [] text ht, ?_⟩
  intro s
  have : readStatus (some []) = .ok {} := by decide
  simp only [getState, this, Cfg.get, dget]
  rw [if_neg (by decide)]

/-- C45 fails: a crash while the file is being written can leave a timestamp that was never recorded. -/
theorem C45_wrong_timestamp_violated : ∃ file crashed, setState exFt none "s".toList (some .a) = .ok file ∧
    CrashFile exFt file "s".toList (some .b) crashed ∧ getState exFt crashed "s".toList = .ok (some .c) :=
  ⟨some "[incremental]\ns = 1.5\n\n".toList, some "[incremental]\ns = 1".toList, by decide,
    .during _ "2.0\n\n".toList (by decide), by decide⟩

end Resync
