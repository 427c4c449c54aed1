import Verif.Proofs.FirstCopy
import Verif.Props.Copies
/-
C87: a first baseline sync makes a copy, and incremental syncs keep it one.
-/

namespace Resync
open Py Resync.Spec

/-- C87, the first sync.  There are no files yet at the destinations (Stands with nothing), the list says what the source has (Lists), the
times are before the year 10000, the server delivers it and the disk works: then the baseline sync succeeds, there is a copy of what the source has, and the
stored time is the latest time of last modification in it. -/
theorem C87_first_copy (env : Env) (hft : FloatOk env.ft) (c : ClientCfg) (site : Str) (hu : SetUp c site) (s : St) (hh : ∀ t ∈ s.hashes, HashType t)
    (hk : ListsKeyed env.sources) (sites : List (Map × Loc)) (places : Loc → Prop) (src : Dict Resource) (S : Snapshot)
    (hfound : (findResourceList env.sources c.disc).2 = .ok src) (hreg : ListBelow sites src) (hl : Lists src S)
    (hauth : c.noauth = true ∨ ∀ u r, (u, r) ∈ src → Authorised c.strictauth site u)
    (hserve : Offers env c.tries S) (hdisk : DiskWorks env)
    (hst : Stands env.ft env.cwd c sites places s.world (fun _ => none)) (hplaces : ∀ l, PlaceOf sites S l → places l)
    (hpos : ∃ u content t, S u = some (content, t) ∧ 0 < t) (hyears : ∀ u content t, S u = some (content, t) → Before10000 t) :
    (baselineOrAudit env c true false s).2 = .ok () ∧ Stands env.ft env.cwd c sites places (baselineOrAudit env c true false s).1.world S ∧
    ∃ t, startTime env c none (baselineOrAudit env c true false s).1 = .ok t ∧ (∃ u content, S u = some (content, t)) ∧
      ∀ u content t', S u = some (content, t') → t' ≤ t :=
  baseline_first hft hu hh hk hfound hreg hl hauth hserve hdisk hst hplaces hpos hyears

/-- C87, the part that holds: a first baseline sync when the first `n` things have happened, then incremental syncs at any later moments: after
each there is a copy of what the source has at that moment.  Conditions on the history: as for C86, and at the time of the baseline
sync something had been modified later than the creation of whatever is going to be deleted.  Missing: without these (C86_violated,
C87_violated). -/
theorem C87_lifecycle_partial (env : Env) (hft : FloatOk env.ft) (c : ClientCfg) (site : Str) (hu : SetUp c site) (s : St) (hh : ∀ t ∈ s.hashes, HashType t)
    (hk : ListsKeyed env.sources) (uri : Option Str) (sites : List (Map × Loc)) (places : Loc → Prop) (S : Snapshot) (es : List Happening)
    (h : Chronicle S c.spec_version es) (hbelow : ∀ e ∈ es, BelowSites sites e.entry.uri)
    (hold : ∀ u content t, S u = some (content, t) → ∀ e ∈ es, AtOrAfter c.spec_version t e.entry)
    (hyears : ∀ u content t, S u = some (content, t) → Before10000 t)
    (hplaces : ∀ k l, PlaceOf sites (sourceAfter S (es.take k)) l → places l)
    (n : Nat) (src : Dict Resource) (hfound : (findResourceList env.sources c.disc).2 = .ok src) (hreg : ListBelow sites src)
    (hl : Lists src (sourceAfter S (es.take n))) (hauth : c.noauth = true ∨ ∀ u r, (u, r) ∈ src → Authorised c.strictauth site u)
    (hserve : Offers env c.tries (sourceAfter S (es.take n))) (hdisk : DiskWorks env)
    (hst : Stands env.ft env.cwd c sites places s.world (fun _ => none))
    (hpos : ∃ u content t, sourceAfter S (es.take n) u = some (content, t) ∧ 0 < t)
    (hset : ∀ e ∈ es.take n, ∀ f ∈ es.drop n, e.entry.uri = f.entry.uri → e.entry.change = some "created".toList →
      f.entry.change = some "deleted".toList → ∃ u content t, sourceAfter S (es.take n) u = some (content, t) ∧
        ∀ d, changeTime c.spec_version e.entry = some d → d < t)
    (runs : List SyncRun) (hmono : (n :: runs.map SyncRun.moment).Pairwise (· ≤ ·))
    (henv : ∀ r ∈ runs, r.env.ft = env.ft ∧ r.env.cwd = env.cwd ∧
      Surroundings r.env c uri site (changeListOf (es.take r.moment)) (sourceAfter S (es.take r.moment)) ∧ Settled c.spec_version es r.moment)
    (earlier later : List SyncRun) (r : SyncRun) (hr : runs = earlier ++ r :: later) :
    let w := (baselineOrAudit env c true false s).1.world
    IsCopy sites w.fs (sourceAfter S (es.take n)) ∧
    (r.run c uri (worldAfter c uri w earlier)).2 = .ok () ∧
    IsCopy sites (r.run c uri (worldAfter c uri w earlier)).1.world.fs (sourceAfter S (es.take r.moment)) := by
  intro w
  have hyears' : ∀ u content t, sourceAfter S (es.take n) u = some (content, t) → Before10000 t := by
    intro u content t ht
    rcases sourceAfter_time ht with h6 | ⟨e, he, h6⟩
    · exact hyears _ _ _ h6
    · exact h.years _ (List.mem_map.mpr ⟨e, List.mem_of_mem_take he, rfl⟩) t (.inl h6)
  obtain ⟨-, h2, t, h3, ⟨u, content, h4⟩, h5⟩ := baseline_first hft hu hh hk hfound hreg hl hauth hserve hdisk hst (hplaces n) hpos hyears'
  refine ⟨h2.copy, C86_copies_partial env.ft hft env.cwd c site hu uri sites places S es h hbelow hplaces w n t h2 ?_ ⟨?_, ?_⟩
    ⟨?_, hyears' _ _ _ h4⟩ runs hmono henv
    earlier later r hr⟩
  · unfold startTime at h3
    simp only [hu.source] at h3
    show getState env.ft (baselineOrAudit env c true false s).1.world.state site = _
    split at h3
    · cases h3
    · cases h3
    · rename_i hg
      cases h3
      exact hg
  · intro f hf
    rcases sourceAfter_time h4 with h6 | ⟨e, he, h6⟩
    · exact hold _ _ _ h6 f (List.mem_of_mem_drop hf)
    · have he' := List.mem_of_mem_take he
      obtain ⟨d, -, d1, d2⟩ := h.timed e he'
      obtain ⟨d', -, d3, -⟩ := h.timed f (List.mem_of_mem_drop hf)
      have ho := h.order
      rw [← List.take_append_drop n es] at ho
      refine ⟨d', d3, le_trans ?_ ((List.pairwise_append.mp ho).2.2 e he f hf _ _ d1 d3)⟩
      rcases d2 with d2 | ⟨-, d2⟩
      · exact h.modified e he' t d h6 d2
      · rw [h6] at d2
        cases d2
        exact le_refl _
  · intro e he f hf hue hec hfc hat
    obtain ⟨u', content', t', q1, q2⟩ := hset e he f hf hue hec hfc
    obtain ⟨d, d1, d2⟩ := hat
    exact absurd (lt_of_le_of_lt d2 (q2 d d1)) (not_lt.mpr (h5 _ _ _ q1))
  · obtain ⟨u', content', t', q1, q2⟩ := hpos
    have := h5 _ _ _ q1
    linarith

namespace CopyExample
open ClientExample

/-- the server as it was at the beginning -/
def envB : Env := env [res "c" 50] [] [7]

theorem offersB : Offers envB cfg.tries S0 := by
  intro u content t h
  refine ⟨delivers_always (by decide) (fun _ => ⟨_, rfl⟩), ?_⟩
  intro tr b hb
  unfold S0 at h
  split at h
  · cases h
    simp only [envB, env, Reply.body.injEq, and_true] at hb
    exact hb.symm
  · cases h

/-- A baseline sync at the beginning, then the two incremental syncs: only b and c are there. -/
example :
    let w := (baselineOrAudit envB cfg true false (start [])).1.world
    let r := (SyncRun.mk 4 (envAt story 4)).run cfg none (worldAfter cfg none w [⟨2, envAt story 2⟩])
    IsCopy theSites w.fs S0 ∧ IsFile w.fs (at_ "c") [7] 50 ∧ r.2 = .ok () ∧ IsCopy theSites r.1.world.fs (sourceAfter S0 (story.take 4)) ∧
    r.1.world.fs.get (at_ "a") = none ∧ IsFile r.1.world.fs (at_ "b") [1] 75 ∧ IsFile r.1.world.fs (at_ "c") [1] 65 := by
  obtain ⟨h1, h2, h3⟩ := C87_lifecycle_partial envB ratFt_ok cfg (uri "rl.xml") setUp (start []) (by simp [start]) (env_keyed _ _ _ (by decide)) none
    theSites places S0 story chronicle (fun e he => belowSites (story_uris e he)) (by
      intro u content t h e he
      have ht : t = 50 := by
        unfold S0 at h
        split at h <;> cases h
        rfl
      subst ht
      obtain ⟨d, -, h1, -⟩ := chronicle.time he
      refine ⟨d, h1, ?_⟩
      simp only [story, List.mem_cons, List.not_mem_nil, or_false] at he
      rcases he with rfl | rfl | rfl | rfl <;> cases h1 <;> decide +kernel)
    (by
      intro u content t h
      unfold S0 at h
      split at h <;> cases h
      decide +kernel)
    (fun k => places_of (known story_uris k)) 0 (listOf [res "c" 50]) (by decide +kernel) (by
      intro u r h
      simp only [listOf, List.map_cons, List.map_nil, List.mem_cons, Prod.mk.injEq, List.not_mem_nil, or_false] at h
      obtain ⟨rfl, -⟩ := h
      exact belowSites (.inr (.inr rfl)))
    ⟨by
      intro u r h
      simp only [listOf, List.map_cons, List.map_nil, List.mem_cons, Prod.mk.injEq, List.not_mem_nil, or_false] at h
      obtain ⟨rfl, rfl⟩ := h
      exact ⟨[7], 50, by decide, rfl⟩, by
      intro u h
      have h : S0 u ≠ none := h
      unfold S0 at h
      split at h
      · rename_i hu
        exact ⟨res "c" 50, by simp [listOf, hu, res]⟩
      · exact absurd rfl h⟩
    (.inr (by
      intro u r h
      simp only [listOf, List.map_cons, List.map_nil, List.mem_cons, Prod.mk.injEq, List.not_mem_nil, or_false] at h
      obtain ⟨rfl, -⟩ := h
      exact ⟨_, rfl, by decide +kernel⟩))
    offersB ⟨fun _ _ => rfl, fun _ _ => rfl, fun _ _ => rfl⟩ (stands_empty ⟨[], by simp, rfl⟩) ⟨uri "c", [7], 50, by decide, by decide +kernel⟩
    (by intro e he; cases he) theRuns (by decide) theRuns_ok [⟨2, envAt story 2⟩] [] ⟨4, envAt story 4⟩ rfl
  refine ⟨h1, ?_, h2, h3, ?_, ?_, ?_⟩
  all_goals first | (unfold IsFile; decide +kernel) | decide +kernel

/-- C87 fails without the condition: a is created at 60; a baseline sync makes the copy and stores the time 60; a is deleted at 70, and no
incremental sync deletes the copy. -/
theorem C87_violated :
    let S : Snapshot := fun _ => none
    let b := baselineOrAudit (env [res "a" 60] [] [1]) cfg true false (start [])
    let r := (SyncRun.mk 2 (envAt brief 2)).run cfg none b.1.world
    Chronicle S cfg.spec_version brief ∧ Stands ratFt [] cfg theSites places (start []).world S ∧
    (findResourceList (env [res "a" 60] [] [1]).sources cfg.disc).2 = .ok (listOf [res "a" 60]) ∧
    sourceAfter S (brief.take 1) (uri "a") = some ([1], 60) ∧ b.2 = .ok () ∧
    Surroundings (envAt brief 2) cfg none (uri "rl.xml") (changeListOf (brief.take 2)) (sourceAfter S (brief.take 2)) ∧
    r.2 = .ok () ∧ sourceAfter S (brief.take 2) (uri "a") = none ∧ IsFile r.1.world.fs (at_ "a") [1] 60 := by
  refine ⟨brief_chronicle, stands_empty ⟨[], by simp, rfl⟩, by decide +kernel, by decide, by decide +kernel, brief_surroundings 2 (.inr rfl),
    by decide +kernel, by decide, by unfold IsFile; decide +kernel⟩

end CopyExample
end Resync
