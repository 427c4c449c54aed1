import Verif.Proofs.Resume
import Verif.Props.Copies
/-
C118: an incremental sync completes what broken-off ones have begun.
-/

namespace Resync
open Py Resync.Spec

/-- C118, the part that holds.  The client has a copy of what the source had, and any number of incremental syncs have been broken off:
they have failed in whatever way, with whatever answers from the server, or have been ended at any moment, also in the middle of writing a
file, before they have recorded a time; they have read the change list as it is or as it was before (a beginning of it).  The change list
as it is now records how the source got from what it had to what it has, and now the server answers and the disk works: then the next
incremental sync (with deletion, from the same time on) succeeds and leaves a copy of what the source has, whatever the others have left.
This is under the condition NothingPassing: what has come and gone in the meantime was not there when one of the others read the list.
Missing: without it (C118_violated). -/
theorem C118_resumed_partial (env : Env) (hft : FloatOk env.ft) (c : ClientCfg) (site : Str) (hu : SetUp c site) (uri from_datetime : Option Str)
    (s : St) (hh : s.hashes = []) (sites : List (Map × Loc)) (places : Loc → Prop) (old new : Snapshot) (changes : List Resource) (t0 : Rat)
    -- what there was
    (w : World) (hst : Stands env.ft env.cwd c sites places w old)
    -- what has been tried
    (htried : BrokenOff (SameTask env.ft env.cwd c (fun cl => cl <+: changes ∧ NothingPassing cl changes c.spec_version t0)) from_datetime
      w s.world)
    -- the run that is not broken off
    (hsur : Surroundings env c uri site changes new) (hstart : startTime env c from_datetime s = .ok t0)
    (htimes : ∀ r ∈ changes, changeTime c.spec_version r ≠ none) (hrec : Records old new changes c.spec_version t0)
    (hbelow : ∀ r ∈ changes, BelowSites sites r.uri)
    (hin : ∀ r ∈ changes, ∀ p ∈ sites, ∀ names, names ≠ [] → (∀ n ∈ names, PlainName n) → r.uri = uriBelow p.1 names → places (p.2 ++ names))
    (hplaces : ∀ l, PlaceOf sites new l → places l) (ht0 : InYears t0) (hyears : TimesBefore10000 changes) :
    (incremental env c true uri from_datetime s).2 = .ok () ∧
    Stands env.ft env.cwd c sites places (incremental env c true uri from_datetime s).1.world new := by
  have hstate : s.world.state = w.state := by
    generalize s.world = w' at htried
    induction htried with
    | none => rfl
    | more _ _ _ _ h ih => exact h.trans ih
  have hstart' : ∀ env' s', env'.ft = env.ft → s'.world.state = w.state → startTime env' c from_datetime s' = .ok t0 := by
    intro env' s' h1 h2
    rw [← hstart]
    unfold startTime
    rw [h1, h2, hstate]
  obtain ⟨k1, k2, k3, k4⟩ := brokenOff_left hst.mapped hst.room hbelow hin hstart' htried
  obtain ⟨hs, hroom⟩ := mayRoom_end hst.mapped hst.room k1
  have hown : OwnState env.ft s.world.state := by rw [hstate]; exact hst.state
  have hbelow' : ∀ r ∈ changes, AtOrAfter c.spec_version t0 r → BelowSites sites r.uri := fun r hr _ => hbelow r hr
  refine ⟨(run_succeeds hft hu hsur hh hstart htimes hs hroom hrec hbelow' hplaces hown ht0 hyears).1, ?_⟩
  refine run_copies_from hft hu hsur hh hstart htimes hs hroom hown (O := old) ?_ ?_ hrec hbelow' hplaces ht0 hyears
  · intro p hp names hne hn hno content mtime
    rw [k3 p hp names hne hn hno content mtime]
    exact hst.copy p hp names hne hn content mtime
  · intro p hp names hne hn x r hx hr hxu hru h1 h2
    refine k4 p hp names hne hn x r hx hr hxu hru h1 h2 ?_
    rintro ⟨b, m, hf⟩
    obtain ⟨t, h3, -⟩ := (hst.copy p hp names hne hn b m).mp hf
    rw [← hxu, hrec.fresh x r hx hr (hxu.trans hru.symm) h1 h2] at h3
    cases h3

/-- C118 when the change list has stayed as it is: then there is no further condition. -/
theorem C118_same_list (env : Env) (hft : FloatOk env.ft) (c : ClientCfg) (site : Str) (hu : SetUp c site) (uri from_datetime : Option Str)
    (s : St) (hh : s.hashes = []) (sites : List (Map × Loc)) (places : Loc → Prop) (old new : Snapshot) (changes : List Resource) (t0 : Rat)
    (w : World) (hst : Stands env.ft env.cwd c sites places w old)
    (htried : BrokenOff (SameTask env.ft env.cwd c (fun cl => cl = changes)) from_datetime w s.world)
    (hsur : Surroundings env c uri site changes new) (hstart : startTime env c from_datetime s = .ok t0)
    (htimes : ∀ r ∈ changes, changeTime c.spec_version r ≠ none) (hrec : Records old new changes c.spec_version t0)
    (hbelow : ∀ r ∈ changes, BelowSites sites r.uri)
    (hin : ∀ r ∈ changes, ∀ p ∈ sites, ∀ names, names ≠ [] → (∀ n ∈ names, PlainName n) → r.uri = uriBelow p.1 names → places (p.2 ++ names))
    (hplaces : ∀ l, PlaceOf sites new l → places l) (ht0 : InYears t0) (hyears : TimesBefore10000 changes) :
    (incremental env c true uri from_datetime s).2 = .ok () ∧
    Stands env.ft env.cwd c sites places (incremental env c true uri from_datetime s).1.world new := by
  refine C118_resumed_partial env hft c site hu uri from_datetime s hh sites places old new changes t0 w hst ?_ hsur hstart htimes hrec hbelow hin
    hplaces ht0 hyears
  generalize s.world = w' at htried
  induction htried with
  | none => exact .none
  | more _ ht hw hl he ih =>
    refine .more ih { ht with list := ?_ } hw hl he
    intro u cl h
    have := ht.list u cl h
    subst this
    refine ⟨List.prefix_refl _, ?_⟩
    intro x r _ hr _ _ hd y hy hyu
    rw [lastChange_unique hy hr hyu]
    exact hd

/-- C118, when nothing is broken off: applying the same changes once more, from the same time on, leaves the copy as it is. -/
theorem C118_again (env : Env) (hft : FloatOk env.ft) (c : ClientCfg) (site : Str) (hu : SetUp c site) (uri from_datetime : Option Str)
    (s : St) (hh : s.hashes = []) (sites : List (Map × Loc)) (places : Loc → Prop) (old new : Snapshot) (changes : List Resource) (t0 : Rat)
    (hst : Stands env.ft env.cwd c sites places s.world new)
    (hsur : Surroundings env c uri site changes new) (hstart : startTime env c from_datetime s = .ok t0)
    (htimes : ∀ r ∈ changes, changeTime c.spec_version r ≠ none) (hrec : Records old new changes c.spec_version t0)
    (hbelow : ∀ r ∈ changes, AtOrAfter c.spec_version t0 r → BelowSites sites r.uri) (hplaces : ∀ l, PlaceOf sites new l → places l)
    (ht0 : InYears t0) (hyears : TimesBefore10000 changes) :
    (incremental env c true uri from_datetime s).2 = .ok () ∧
    Stands env.ft env.cwd c sites places (incremental env c true uri from_datetime s).1.world new := by
  have hrec' : Records new new changes c.spec_version t0 := by
    refine ⟨fun _ _ => rfl, hrec.last, ?_⟩
    intro x r _ hr hxr _ hd
    rcases hrec.last r hr with ⟨h | h, -⟩ | ⟨-, h⟩
    · rw [hd] at h; exact absurd h (by decide)
    · rw [hd] at h; exact absurd h (by decide)
    · rw [hxr]; exact h
  obtain ⟨h1, h2, -⟩ := C85_incremental env hft c site hu uri from_datetime s hh sites places new new changes t0 hst hsur hstart htimes hrec'
    hbelow hplaces ht0 hyears
  exact ⟨h1, h2⟩

namespace CopyExample
open ClientExample

/-- C118 fails without the condition.  The resource a is created at 60, the client fetches it and is ended before it has recorded the
time; a is deleted at 70.  From the time the client has, 55, the change list has both entries, so that it drops them: the file stays. -/
theorem C118_violated :
    let S : Snapshot := fun _ => none
    let w0 : World := { fs := disk [], state := state55 }
    let run1 := incremental (envAt brief 1) cfg true none none (freshSt w0)
    let w1 := ((doneBetween (freshSt w0) run1.1).dropLast).foldl World.apply w0
    let run2 := incremental (envAt brief 2) cfg true none none (freshSt w1)
    Stands ratFt [] cfg theSites places w0 S ∧
    (LeftBy (freshSt w0) run1.1 w1 ∧ w1.state = w0.state) ∧
    (∀ k, k = 1 ∨ k = 2 → Surroundings (envAt brief k) cfg none (uri "rl.xml") (changeListOf (brief.take k)) (sourceAfter S (brief.take k))) ∧
    startTime (envAt brief 2) cfg none (freshSt w1) = .ok 55 ∧ Records S (sourceAfter S brief) (changeListOf brief) cfg.spec_version 55 ∧
    run2.2 = .ok () ∧ sourceAfter S brief (uri "a") = none ∧ IsFile run2.1.world.fs (at_ "a") [1] 60 := by
  intro S w0 run1 w1 run2
  refine ⟨stands_empty state55_own, ⟨.inl ⟨(doneBetween (freshSt w0) run1.1).length - 1, ?_⟩, by decide +kernel⟩, brief_surroundings,
    by decide +kernel, ?_, by decide +kernel, by decide, by unfold IsFile; decide +kernel⟩
  · rw [← List.dropLast_eq_take]
    rfl
  · refine records (n := 0) (t := 55) brief_chronicle ?_ (by intro e he; simp at he)
    intro f hf
    simp only [List.drop_zero, brief, List.mem_cons, List.not_mem_nil, or_false] at hf
    rcases hf with rfl | rfl
    · exact ⟨60, rfl, by decide +kernel⟩
    · exact ⟨70, rfl, by decide +kernel⟩

/-- the client is ended while it fetches c: the server has sent other bytes than it should, and one of them has been written -/
def badEnv : Env := { envAt story 4 with serve := fun _ _ => .body [9, 9, 9] (some .timeout), unlinkFails := fun _ _ => true }

def leftWorld : World :=
  (((doneBetween (freshSt world0) (incremental badEnv cfg false none none (freshSt world0)).1).take 2).foldl World.apply world0).apply
    (.append (at_ "c") [9])

theorem leftWorld_left : LeftBy (freshSt world0) (incremental badEnv cfg false none none (freshSt world0)).1 leftWorld :=
  .inr ⟨2, at_ "c", [9, 9, 9], [9], by decide +kernel, ⟨[9, 9], rfl⟩, rfl⟩

/-- so that there is one wrong byte in c now, and no b -/
example : leftWorld.state = world0.state ∧ IsFile leftWorld.fs (at_ "c") [9] 1000 ∧ leftWorld.fs.get (at_ "b") = none := by
  refine ⟨by decide +kernel, by unfold IsFile; decide +kernel, by decide +kernel⟩

theorem in_places {r : Resource} (h : r.uri = uri "a" ∨ r.uri = uri "b" ∨ r.uri = uri "c") : ∀ p ∈ theSites, ∀ names, names ≠ [] →
    (∀ n ∈ names, PlainName n) → r.uri = uriBelow p.1 names → places (p.2 ++ names) := by
  intro p hp names hne hn hu
  refine places_of (S := fun u => if u = r.uri then some ([], 0) else none) ?_ _ ⟨p, hp, names, hne, hn, rfl, by simp [hu]⟩
  intro u hu'
  simp only [ne_eq, ite_eq_right_iff, reduceCtorEq, imp_false, not_not] at hu'
  rw [hu']
  exact h

/-- C118 after that: the next sync makes the copy -/
example : (incremental (envAt story 4) cfg true none none (freshSt leftWorld)).2 = .ok () ∧
    IsCopy theSites (incremental (envAt story 4) cfg true none none (freshSt leftWorld)).1.world.fs (sourceAfter S0 (story.take 4)) := by
  obtain ⟨-, -, hsur, -⟩ := theRuns_ok ⟨4, envAt story 4⟩ (by simp [theRuns])
  have hk := chronicle.take 4
  have hin : ∀ r ∈ changeListOf (story.take 4), ∃ e ∈ story.take 4, e.entry = r := fun r hr => List.mem_map.mp hr
  have hk3 : ∀ r ∈ changeListOf (story.take 4), r.uri = uri "a" ∨ r.uri = uri "b" ∨ r.uri = uri "c" := by
    intro r hr
    obtain ⟨e, he, rfl⟩ := hin r hr
    exact story_uris e (List.mem_of_mem_take he)
  obtain ⟨h1, h2⟩ := C118_same_list (envAt story 4) ratFt_ok cfg (uri "rl.xml") setUp none none (freshSt leftWorld) rfl theSites places S0
    (sourceAfter S0 (story.take 4)) (changeListOf (story.take 4)) 55 world0 stands
    (.more .none (env := badEnv) (c := cfg) (s := freshSt world0)
      ⟨rfl, rfl, rfl, rfl, fun u cl h => by
        simp only [badEnv, envAt, env, Option.ite_none_right_eq_some, Option.some.injEq] at h
        exact h.2.symm⟩ rfl leftWorld_left (by decide +kernel))
    hsur (by decide +kernel) (by decide)
    (by
      have := records (n := 0) (t := 55) hk (fun f hf => caughtUp.later f (List.mem_of_mem_take hf)) (by intro e he; simp at he)
      exact this)
    (fun r hr => belowSites (hk3 r hr)) (fun r hr => in_places (hk3 r hr))
    (places_of (known story_uris 4)) (by unfold InYears; decide +kernel) hk.years
  exact ⟨h1, h2.copy⟩

/-- the condition of C118_resumed_partial: a list that ends when a has been deleted again, or that does not mention a at all; but not one that
ends in between -/
example : NothingPassing (changeListOf (story.take 3)) (changeListOf story) cfg.spec_version 55 ∧
    NothingPassing [] (changeListOf story) cfg.spec_version 55 ∧
    ¬ NothingPassing (changeListOf (story.take 2)) (changeListOf story) cfg.spec_version 55 := by
  have hafter : ∀ d, (55 : Rat) ≤ d → ∀ r, changeTime cfg.spec_version r = some d → AtOrAfter cfg.spec_version 55 r := fun d h r hr => ⟨d, hr, h⟩
  refine ⟨?_, ?_, ?_⟩
  · intro x r hx hr hxr hc hd y hy hyu
    have hr' : r ∈ changeListOf story := (lastChange_mem hr).1
    have : r = chg "a" sDeleted none 70 := by
      simp only [changeListOf, story, List.map_cons, List.map_nil, List.mem_cons, List.not_mem_nil, or_false] at hr'
      rcases hr' with rfl | rfl | rfl | rfl
      · exact absurd hd (by decide)
      · exact absurd hd (by decide)
      · rfl
      · exact absurd hd (by decide)
    subst this
    have hy' := (lastChange_mem hy).1
    simp only [changeListOf, story, List.take_succ_cons, List.take_zero, List.map_cons, List.map_nil, List.mem_cons, List.not_mem_nil,
      or_false] at hy'
    rcases hy' with rfl | rfl | rfl
    · obtain ⟨b, a, e, h1, h2⟩ := hy
      have hlast : LastChange (changeListOf (story.take 3)) cfg.spec_version 55 (chg "a" sDeleted none 70) :=
        ⟨[chg "a" sCreated (some 60) 60, chg "c" sUpdated (some 65) 65], [], rfl, hafter 70 (by decide +kernel) _ rfl, by simp⟩
      exact absurd (lastChange_unique ⟨b, a, e, h1, h2⟩ hlast rfl) (by
        intro h
        have := congrArg Resource.change h
        exact absurd this (by decide))
    · exact absurd hyu (by decide)
    · rfl
  · rintro x r - - - - - y ⟨b, a, h, -⟩
    simp at h
  · intro h
    have := h (chg "a" sCreated (some 60) 60) (chg "a" sDeleted none 70)
      ⟨[], _, rfl, hafter 60 (by decide +kernel) _ rfl, by simp⟩
      ⟨[chg "a" sCreated (some 60) 60, chg "c" sUpdated (some 65) 65], [chg "b" sCreated (some 75) 75], rfl, hafter 70 (by decide +kernel) _ rfl, by
        intro r hr hu
        rw [List.mem_singleton] at hr
        subst hr
        exact absurd hu (by decide)⟩ rfl rfl rfl (chg "a" sCreated (some 60) 60)
      ⟨[], [chg "c" sUpdated (some 65) 65], rfl, hafter 60 (by decide +kernel) _ rfl, by
        intro r hr hu
        rw [List.mem_singleton] at hr
        subst hr
        exact absurd hu (by decide)⟩ rfl
    exact absurd this (by decide)

end CopyExample
end Resync
