import Verif.Proofs.ChangeOrder
import Verif.Props.Copies
/-
C117: entries about different resources may come in any order in a change list.
-/

namespace Resync
open Py Resync.Spec

/-- C117.  Pruning: two change lists which say the same about each URI are pruned to lists which say the same about each URI, and the same
number of entries is dropped, by prune_updates_before() and by prune_dupes(). -/
theorem C117_prune (l l' : List Resource) (h : SameHistories l l') :
    SameHistories (pruneDupes l).1 (pruneDupes l').1 ∧ (pruneDupes l').2 = (pruneDupes l).2 ∧ (pruneDupes l').1.Perm (pruneDupes l).1 ∧
    ∀ t v, ((∃ e e', (pruneUpdatesBefore l t v).2 = .error e ∧ (pruneUpdatesBefore l' t v).2 = .error e') ∨
      ∃ k k' n, pruneUpdatesBefore l t v = (k, .ok n) ∧ pruneUpdatesBefore l' t v = (k', .ok n) ∧ SameHistories k k') := by
  rw [C25_prune_dupes, C25_prune_dupes]
  have hp := sameHist_pruned h
  refine ⟨hp, ?_, sameHist_perm hp, pruneUpdatesBefore_same h⟩
  show _ - _ = _ - _
  rw [(sameHist_perm h).length_eq, (sameHist_perm hp).length_eq]

/-- C117.  What an incremental sync takes on, whatever else there is: with the entries of the change list in another order it refuses the
change list or not as before; if not, it selects the same change for each URI, and notes the same time. -/
theorem C117_plan (env : Env) (f : Str → Option (List Resource)) (hf : ChangeListsReordered env.changeList f) (c : ClientCfg)
    (uri from_datetime : Option Str) (s : St) :
    let p := incrementalPlan env c uri from_datetime s
    let p' := incrementalPlan { env with changeList := f } c uri from_datetime s
    (∃ e e', p.2 = .error e ∧ p'.2 = .error e') ∨
    (∃ cl cl', p.2 = .ok cl ∧ p'.2 = .ok cl' ∧ SameHistories cl cl' ∧ (cl.map (·.uri)).Nodup ∧ p'.1.last_timestamp = p.1.last_timestamp) := by
  have hst : startTime { env with changeList := f } c from_datetime s = startTime env c from_datetime s := rfl
  unfold incrementalPlan
  rw [hst]
  simp only
  split
  · exact .inl ⟨_, _, rfl, rfl⟩
  split
  · exact .inl ⟨_, _, rfl, rfl⟩
  · exact .inl ⟨_, _, rfl, rfl⟩
  split
  · exact .inl ⟨_, _, rfl, rfl⟩
  rename_i t0 _
  split
  · exact .inl ⟨_, _, rfl, rfl⟩
  rename_i clUri _
  obtain ⟨hn, hs⟩ := hf clUri
  cases h1 : env.changeList clUri with
  | none =>
    rw [hn.mpr h1]
    exact .inl ⟨_, _, rfl, rfl⟩
  | some l =>
    cases h2 : f clUri with
    | none =>
      rw [hn.mp h2] at h1
      cases h1
    | some l' =>
      have hl := hs l l' h1 h2
      simp only
      split
      · exact .inl ⟨_, _, rfl, rfl⟩
      rw [checkTimes_perm (sameHist_perm hl)]
      split
      · exact .inl ⟨_, _, rfl, rfl⟩
      have ha := incrementalAuthority_perm (c := c) (u := clUri) (b := givenUri uri) (sameHist_perm hl)
      cases a1 : incrementalAuthority c clUri (givenUri uri) l with
      | error e =>
        cases a2 : incrementalAuthority c clUri (givenUri uri) l' with
        | error e' => exact .inl ⟨_, _, rfl, rfl⟩
        | ok u =>
          rw [a1, a2] at ha
          simp at ha
      | ok u =>
        rw [a1] at ha
        rw [ha.mpr rfl]
        simp only
        rcases pruneUpdatesBefore_same hl t0 c.spec_version with ⟨e, e', h3, h4⟩ | ⟨k, k', n, h3, h4, h5⟩
        · cases b1 : pruneUpdatesBefore l t0 c.spec_version with
          | mk x y =>
          cases b2 : pruneUpdatesBefore l' t0 c.spec_version with
          | mk x' y' =>
          rw [b1] at h3
          rw [b2] at h4
          simp only at h3 h4
          subst h3 h4
          exact .inl ⟨_, _, rfl, rfl⟩
        · rw [h3, h4]
          simp only
          split
          · exact .inl ⟨_, _, rfl, rfl⟩
          obtain ⟨q1, -, q2, -⟩ := C117_prune k k' h5
          have hany : ∀ q : Resource → Bool, (pruneDupes k').1.any q = (pruneDupes k).1.any q := by
            intro q
            rw [Bool.eq_iff_iff, List.any_eq_true, List.any_eq_true]
            simp only [q2.mem_iff]
          rw [hany]
          split
          · exact .inl ⟨_, _, rfl, rfl⟩
          · exact .inr ⟨_, _, rfl, rfl, q1, (C25_at_most_one_per_uri _).1, rfl⟩

/-- C117.  A client with a copy of a source runs an incremental sync in good surroundings.  If the change list has its entries in another
order, except that those about the same URI stay in order, the run succeeds as well, leaves the same files with the same contents and times
at every place below the destinations, and later syncs go on from the same time. -/
theorem C117_sync (env : Env) (hft : FloatOk env.ft) (c : ClientCfg) (site : Str) (hu : SetUp c site) (uri from_datetime : Option Str)
    (s : St) (hh : s.hashes = []) (sites : List (Map × Loc)) (places : Loc → Prop) (old new : Snapshot) (changes changes' : List Resource)
    (t0 : Rat) (hsame : SameHistories changes changes') (f : Str → Option (List Resource))
    (hst : Stands env.ft env.cwd c sites places s.world old) (hsur : Surroundings env c uri site changes new)
    (hsur' : Surroundings { env with changeList := f } c uri site changes' new)
    (hstart : startTime env c from_datetime s = .ok t0) (htimes : ∀ r ∈ changes, changeTime c.spec_version r ≠ none)
    (hrec : Records old new changes c.spec_version t0) (hbelow : ∀ r ∈ changes, AtOrAfter c.spec_version t0 r → BelowSites sites r.uri)
    (hplaces : ∀ l, PlaceOf sites new l → places l) (ht0 : InYears t0) (hyears : TimesBefore10000 changes)
    (hpos : ∃ r ∈ changes, ∃ d, listedTime r = some d ∧ 0 < d)
    (hmod : ∀ r ∈ changes, ∀ t d, r.timestamp = some t → r.ts_datetime = some d → t ≤ d) :
    let p := incremental env c true uri from_datetime s
    let p' := incremental { env with changeList := f } c true uri from_datetime s
    p.2 = .ok () ∧ p'.2 = .ok () ∧
    (∀ q ∈ sites, ∀ names, names ≠ [] → (∀ n ∈ names, PlainName n) → ∀ content mtime,
      IsFile p'.1.world.fs (q.2 ++ names) content mtime ↔ IsFile p.1.world.fs (q.2 ++ names) content mtime) ∧
    startTime env c none p'.1 = startTime env c none p.1 := by
  have hm : ∀ r, r ∈ changes' ↔ r ∈ changes := fun r => sameHist_mem hsame
  have hstart' : startTime { env with changeList := f } c from_datetime s = .ok t0 := hstart
  have hrec' := sameHist_records hsame hrec
  have htimes' : ∀ r ∈ changes', changeTime c.spec_version r ≠ none := fun r hr => htimes r ((hm r).mp hr)
  have hbelow' : ∀ r ∈ changes', AtOrAfter c.spec_version t0 r → BelowSites sites r.uri := fun r hr => hbelow r ((hm r).mp hr)
  have hyears' : TimesBefore10000 changes' := fun r hr => hyears r ((hm r).mp hr)
  obtain ⟨r1, -, -, -, r5, r6⟩ := run_succeeds hft hu hsur hh hstart htimes hst.mapped hst.room hrec hbelow hplaces hst.state ht0 hyears
  obtain ⟨q1, -, -, -, q5, q6⟩ := run_succeeds (env := { env with changeList := f }) hft hu hsur' hh hstart' htimes' hst.mapped hst.room hrec'
    hbelow' hplaces hst.state ht0 hyears'
  have c1 := (run_copies hft hu hsur hh hstart htimes hst hrec hbelow hplaces ht0 hyears).copy
  have c2 := (run_copies (env := { env with changeList := f }) hft hu hsur' hh hstart' htimes' hst hrec' hbelow' hplaces ht0 hyears').copy
  refine ⟨r1, q1, ?_, ?_⟩
  · intro q hq names h1 h2 content mtime
    exact (c2 q hq names h1 h2 content mtime).trans (c1 q hq names h1 h2 content mtime).symm
  · have hsel : SameHistories (selectedFrom c.spec_version t0 changes) (selectedFrom c.spec_version t0 changes') :=
      (C117_prune _ _ (sameHist_filter hsame _)).1
    by_cases hz : selectedFrom c.spec_version t0 changes = []
    · have hz' : selectedFrom c.spec_version t0 changes' = [] := by
        have := sameHist_perm hsel
        rw [hz] at this
        exact List.perm_nil.mp this
      have e : ∀ x y : St, x.world = y.world → startTime env c none x = startTime env c none y := by
        intro x y h
        unfold startTime
        rw [h]
      rw [e _ s (q5 hz'), e _ s (r5 hz)]
    · have hz' : selectedFrom c.spec_version t0 changes' ≠ [] := by
        intro h
        have := sameHist_perm hsel
        rw [h] at this
        exact hz (List.nil_perm.mp this)
      obtain ⟨t, a1, ⟨x, hx, a2⟩, a3⟩ := r6 hz hpos hmod
      obtain ⟨r, hr, d, hd⟩ := hpos
      obtain ⟨t', b1, ⟨y, hy, b2⟩, b3⟩ := q6 hz' ⟨r, (hm r).mpr hr, d, hd⟩ (fun r hr => hmod r ((hm r).mp hr))
      have hb1 : startTime env c none (incremental { env with changeList := f } c true uri from_datetime s).1 = .ok t' := b1
      rw [a1, hb1]
      congr 1
      exact le_antisymm (a3 y ((hm y).mp hy) _ b2) (b3 x ((hm x).mpr hx) _ a2)

namespace ChangeOrderExample
open ClientExample CopyExample

/-- the story of CopyExample with its entries told URI by URI -/
def byUri : List Resource := [chg "b" sCreated (some 75) 75, chg "a" sCreated (some 60) 60, chg "a" sDeleted none 70, chg "c" sUpdated (some 65) 65]

theorem byUri_same : SameHistories (changeListOf story) byUri := by
  intro u
  by_cases ha : u = uri "a"
  · subst ha; decide +kernel
  by_cases hb : u = uri "b"
  · subst hb; decide +kernel
  by_cases hc : u = uri "c"
  · subst hc; decide +kernel
  have h1 : ∀ x : String, (uri x = u) = (u = uri x) := fun x => propext eq_comm
  simp [byUri, changeListOf, story, chg, h1, ha, hb, hc]

example : byUri ≠ changeListOf story ∧ ChangeListsReordered (envAt story 4).changeList (env [] byUri [1]).changeList := by
  refine ⟨by decide +kernel, fun u => ⟨?_, ?_⟩⟩
  · simp [envAt, env]
  · intro cl cl' h1 h2
    simp only [envAt, env] at h1 h2
    by_cases hc : u = uri "changelist.xml"
    · rw [if_pos hc] at h1 h2
      cases h1
      cases h2
      exact byUri_same
    · rw [if_neg hc] at h1
      cases h1

/-- the two runs, from the beginning to the end of the story -/
example :
    let p := incremental (envAt story 4) cfg true none none (freshSt world0)
    let p' := incremental { envAt story 4 with changeList := (env [] byUri [1]).changeList } cfg true none none (freshSt world0)
    p.2 = .ok () ∧ p'.2 = .ok () ∧ IsFile p.1.world.fs (at_ "b") [1] 75 ∧ IsFile p'.1.world.fs (at_ "b") [1] 75 ∧
    startTime (envAt story 4) cfg none p'.1 = startTime (envAt story 4) cfg none p.1 := by
  obtain ⟨-, -, hsur, -⟩ := theRuns_ok ⟨4, envAt story 4⟩ (by simp [theRuns])
  have hsur' : Surroundings { envAt story 4 with changeList := (env [] byUri [1]).changeList } cfg none (uri "rl.xml") byUri
      (sourceAfter S0 (story.take 4)) := by
    refine ⟨⟨uri "changelist.xml", by decide +kernel, by simp [env], .inr ⟨⟨_, rfl⟩, ⟨_, rfl⟩, ?_⟩⟩, hsur.server, ⟨hsur.disk.mkdir, hsur.disk.openW, hsur.disk.unlink⟩⟩
    intro r hr
    obtain ⟨e, he, rfl⟩ := List.mem_map.mp ((sameHist_mem byUri_same).mp hr)
    exact authorised (story_uris e he)
  have hin : ∀ r ∈ changeListOf (story.take 4), ∃ e ∈ story.take 4, e.entry = r := fun r hr => List.mem_map.mp hr
  have hk := chronicle.take 4
  obtain ⟨h1, h2, h3, h4⟩ := C117_sync (envAt story 4) ratFt_ok cfg (uri "rl.xml") setUp none none (freshSt world0) rfl theSites places S0
    (sourceAfter S0 (story.take 4)) (changeListOf (story.take 4)) byUri 55 byUri_same _ stands hsur hsur' (by decide +kernel) (by decide)
    (by
      have := records (n := 0) (t := 55) hk (fun f hf => caughtUp.later f (List.mem_of_mem_take hf)) (by intro e he; simp at he)
      exact this)
    (fun r hr _ => by obtain ⟨e, he, rfl⟩ := hin r hr; exact belowSites (story_uris e (List.mem_of_mem_take he)))
    (places_of (known story_uris 4)) (by unfold InYears; decide +kernel) hk.years
    ⟨chg "b" sCreated (some 75) 75, by decide +kernel, 75, by decide +kernel, by decide +kernel⟩
    (by
      intro r hr
      obtain ⟨e, he, rfl⟩ := hin r hr
      exact hk.modified e he)
  exact ⟨h1, h2, by unfold IsFile; decide +kernel, by unfold IsFile; decide +kernel, h4⟩

/-- C117.  The order of entries about the same URI does matter: deleted and created again is not created and deleted. -/
theorem C117_one_uri :
    let l := [chg "a" sCreated (some 60) 60, chg "a" sDeleted none 70, chg "b" sCreated (some 75) 75]
    let l' := [chg "a" sDeleted none 70, chg "a" sCreated (some 60) 60, chg "b" sCreated (some 75) 75]
    let p := incremental (env [] l [1]) cfg true none none (freshSt world0)
    let p' := incremental (env [] l' [1]) cfg true none none (freshSt world0)
    l'.Perm l ∧ p.2 = .ok () ∧ p'.2 = .ok () ∧ p.1.world.fs.get (at_ "a") = none ∧ IsFile p'.1.world.fs (at_ "a") [1] 60 := by
  refine ⟨List.Perm.swap _ _ _, by decide +kernel, by decide +kernel, by decide +kernel, by unfold IsFile; decide +kernel⟩

end ChangeOrderExample
end Resync
