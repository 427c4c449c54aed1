import Verif.Proofs.Chronicle
import Verif.Props.ClientSites
/-
C85, C86: incremental syncs keep a copy of the source.
-/

namespace Resync
open Py Resync.Spec

/-- C85.  The client's destinations hold a copy of what the source had, the change list it may use records from the start time on how the
source got from there to what it has now (Records), the times are in the years 1 to 9999, the server has what it has now, and nothing goes
wrong on the disk: then the incremental sync
with deletion succeeds and leaves a copy of what the source has now, with room for the next one; and it stores the latest time
listed, unless it has had nothing to do. -/
theorem C85_incremental (env : Env) (hft : FloatOk env.ft) (c : ClientCfg) (site : Str) (hu : SetUp c site) (uri from_datetime : Option Str)
    (s : St) (hh : s.hashes = []) (sites : List (Map × Loc)) (places : Loc → Prop) (old new : Snapshot) (changes : List Resource) (t0 : Rat)
    (hst : Stands env.ft env.cwd c sites places s.world old) (hsur : Surroundings env c uri site changes new)
    (hstart : startTime env c from_datetime s = .ok t0) (htimes : ∀ r ∈ changes, changeTime c.spec_version r ≠ none)
    (hrec : Records old new changes c.spec_version t0) (hbelow : ∀ r ∈ changes, AtOrAfter c.spec_version t0 r → BelowSites sites r.uri)
    (hplaces : ∀ l, PlaceOf sites new l → places l) (ht0 : InYears t0) (hyears : TimesBefore10000 changes) :
    (incremental env c true uri from_datetime s).2 = .ok () ∧
    Stands env.ft env.cwd c sites places (incremental env c true uri from_datetime s).1.world new ∧
    ((incremental env c true uri from_datetime s).1.world = s.world ∨
     ((∃ r ∈ changes, ∃ d, listedTime r = some d ∧ 0 < d) →
      (∀ r ∈ changes, ∀ t d, r.timestamp = some t → r.ts_datetime = some d → t ≤ d) →
      ∃ t, startTime env c none (incremental env c true uri from_datetime s).1 = .ok t ∧ (∃ r ∈ changes, listedTime r = some t) ∧
        ∀ r ∈ changes, ∀ d, listedTime r = some d → d ≤ t)) := by
  obtain ⟨r1, -, -, -, r5, r6⟩ := run_succeeds hft hu hsur hh hstart htimes hst.mapped hst.room hrec hbelow hplaces hst.state ht0 hyears
  refine ⟨r1, run_copies hft hu hsur hh hstart htimes hst hrec hbelow hplaces ht0 hyears, ?_⟩
  by_cases h : selectedFrom c.spec_version t0 changes = []
  · exact .inl (r5 h)
  · exact .inr (r6 h)

/-- C86, the part that holds.  A source has a history (Chronicle) which its change list reports; the client has a copy of what there was at
some moment, and a stored time that fits (CaughtUp).  Whenever it then is run, however often, each time with the change list and the server
as they are at that moment: each run succeeds and leaves a copy of what the source has then.  This is under the condition
Settled: by the time of each run something has happened at a later time than the creation of whatever is going to be deleted after that
run.  Missing: without it (C86_violated). -/
theorem C86_copies_partial (ft : FloatText Rat) (hft : FloatOk ft) (cwd : Loc) (c : ClientCfg) (site : Str) (hu : SetUp c site)
    (uri : Option Str) (sites : List (Map × Loc)) (places : Loc → Prop) (S : Snapshot) (es : List Happening)
    (h : Chronicle S c.spec_version es) (hbelow : ∀ e ∈ es, BelowSites sites e.entry.uri)
    (hplaces : ∀ k l, PlaceOf sites (sourceAfter S (es.take k)) l → places l)
    (w : World) (n : Nat) (t : Rat) (hst : Stands ft cwd c sites places w (sourceAfter S (es.take n)))
    (hstate : getState ft w.state site = .ok (some t)) (hcu : CaughtUp S c.spec_version es n t) (ht0 : InYears t)
    (runs : List SyncRun) (hmono : (n :: runs.map SyncRun.moment).Pairwise (· ≤ ·))
    (henv : ∀ r ∈ runs, r.env.ft = ft ∧ r.env.cwd = cwd ∧
      Surroundings r.env c uri site (changeListOf (es.take r.moment)) (sourceAfter S (es.take r.moment)) ∧ Settled c.spec_version es r.moment)
    (earlier later : List SyncRun) (r : SyncRun) (hr : runs = earlier ++ r :: later) :
    (r.run c uri (worldAfter c uri w earlier)).2 = .ok () ∧
    IsCopy sites (r.run c uri (worldAfter c uri w earlier)).1.world.fs (sourceAfter S (es.take r.moment)) := by
  subst hr
  induction earlier generalizing w n t with
  | nil =>
    obtain ⟨e1, e2, e3, e4⟩ := henv r (by simp)
    have hle : n ≤ r.moment := (List.pairwise_cons.mp hmono).1 _ (by simp)
    have hstart : startTime r.env c none (freshSt w) = .ok t := by
      unfold startTime
      simp only [hu.source, freshSt, e1, hstate]
    obtain ⟨h1, h2, -⟩ := run_catches_up (by rw [e1]; exact hft) hu h hle e3 rfl hstart hcu ht0 (by rw [e1, e2]; exact hst) hbelow
      (hplaces _) e4
    exact ⟨h1, h2.copy⟩
  | cons q earlier ih =>
    obtain ⟨e1, e2, e3, e4⟩ := henv q (by simp)
    obtain ⟨m1, m2⟩ := List.pairwise_cons.mp hmono
    have hle : n ≤ q.moment := m1 _ (by simp)
    have hstart : startTime q.env c none (freshSt w) = .ok t := by
      unfold startTime
      simp only [hu.source, freshSt, e1, hstate]
    obtain ⟨-, h2, t', h3, h4, h5⟩ := run_catches_up (by rw [e1]; exact hft) hu h hle e3 rfl hstart hcu ht0 (by rw [e1, e2]; exact hst) hbelow
      (hplaces _) e4
    rw [e1, e2] at h2
    refine ih (q.run c uri w).1.world q.moment t' h2 ?_ h4 h5 ?_ (fun x hx => henv x (by simp only [List.cons_append, List.mem_cons]; exact .inr hx))
    · unfold startTime at h3
      simp only [hu.source, e1] at h3
      show getState ft (incremental q.env c true uri none (freshSt w)).1.world.state site = _
      split at h3
      · cases h3
      · cases h3
      · rename_i hg
        cases h3
        exact hg
    · exact m2


namespace CopyExample
open ClientExample

/-- what the source has to begin with: c, of time 50 -/
def S0 : Snapshot := fun u => if u = uri "c" then some ([7], 50) else none

/-- a is created, c updated, a deleted, b created -/
def story : List Happening := [⟨chg "a" sCreated (some 60) 60, [1]⟩, ⟨chg "c" sUpdated (some 65) 65, [1]⟩, ⟨chg "a" sDeleted none 70, []⟩,
  ⟨chg "b" sCreated (some 75) 75, [1]⟩]

def theSites : List (Map × Loc) := [(⟨base, "/d".toList⟩, ["d".toList])]

/-- the state file with the time 55 -/
def state55 : Option Str := match setState ratFt none (uri "rl.xml") (some 55) with
  | .ok f => f
  | .error _ => none

def world0 : World := { fs := disk ["c"], state := state55 }

/-- the files a, b and c -/
def places (l : Loc) : Prop := l = at_ "a" ∨ l = at_ "b" ∨ l = at_ "c"

theorem setUp : SetUp cfg (uri "rl.xml") := ⟨by decide +kernel, by decide +kernel, by decide, rfl, rfl, by decide⟩

theorem state55_own : OwnState ratFt state55 := ⟨[(uri "rl.xml", some 55)], by simp; decide, by decide +kernel⟩

theorem below_names {names : List Str} (hne : names ≠ []) (hn : ∀ n ∈ names, PlainName n) (x : String) (hx : ProperName x.toList)
    (h : uriBelow ⟨base, "/d".toList⟩ names = uri x) : names = [x.toList] := by
  refine uriBelow_inj (m := ⟨base, "/d".toList⟩) hne (b := [x.toList]) (by simp) (fun n hn' => (hn n hn').1) (by simpa using hx) ?_
  rw [h]
  simp [uriBelow, uri, join]

theorem places_of {S : Snapshot} (h : ∀ u, S u ≠ none → u = uri "a" ∨ u = uri "b" ∨ u = uri "c") (l : Loc) (hl : PlaceOf theSites S l) :
    places l := by
  obtain ⟨p, hp, names, h1, h2, rfl, h4⟩ := hl
  rw [theSites, List.mem_singleton] at hp
  subst hp
  rcases h _ h4 with h | h | h
  · rw [below_names h1 h2 "a" (by decide) h]; exact .inl rfl
  · rw [below_names h1 h2 "b" (by decide) h]; exact .inr (.inl rfl)
  · rw [below_names h1 h2 "c" (by decide) h]; exact .inr (.inr rfl)

theorem free {fs : Fs} (h1 : fs.get ["d".toList] = some .dir) (h2 : ∀ l, places l → fs.get l ≠ some .dir) : FreeFor places fs where
  apart := by
    rintro a b (rfl | rfl | rfl) (rfl | rfl | rfl) h <;> first | rfl | exact absurd h (by decide)
  noDir := h2
  noFile := by
    intro l hl p hp hne
    have : p = [] ∨ p = ["d".toList] := by
      rcases hl with rfl | rfl | rfl <;>
      · rcases p with _ | ⟨x, _ | ⟨y, _ | ⟨z, t⟩⟩⟩
        · exact .inl rfl
        · simp [at_] at hp; exact .inr (by simp [hp])
        · simp [at_] at hp; exact absurd (by simp [at_, hp]) hne
        · simp [at_] at hp
    rcases this with rfl | rfl
    · exact no_file (get_root _)
    · exact no_file h1

theorem stands : Stands ratFt [] cfg theSites places world0 S0 where
  mapped := (site ["c"] (properFs_of (by decide) (by decide) (by decide) (by decide)) (by decide)).sites
  room := free (by decide) (by rintro l (rfl | rfl | rfl) <;> decide)
  copy := by
    intro p hp names h1 h2 content mtime
    rw [theSites, List.mem_singleton] at hp
    subst hp
    have hS : ∀ t, S0 (uriBelow ⟨base, "/d".toList⟩ names) = some (content, t) ↔ names = ["c".toList] ∧ content = [7] ∧ t = 50 := by
      intro t
      unfold S0
      by_cases hu : uriBelow ⟨base, "/d".toList⟩ names = uri "c"
      · rw [if_pos hu]
        have := below_names h1 h2 "c" (by decide) hu
        simp [this, eq_comm]
      · rw [if_neg hu]
        constructor
        · intro h; cases h
        · rintro ⟨rfl, -, -⟩
          exact absurd (by decide) hu
    have hF : IsFile world0.fs (["d".toList] ++ names) content mtime ↔ names = ["c".toList] ∧ content = [7] ∧ mtime = 50 := by
      have hget : world0.fs.get (["d".toList] ++ names) = if names = ["c".toList] then some (.file [7] 50) else none := by
        unfold Fs.get
        rw [if_neg (by simp)]
        by_cases hc : names = ["c".toList]
        · subst hc; decide +kernel
        · rw [if_neg hc]
          have e1 : ((["d".toList] ++ names : Loc) == ["d".toList]) = false := by
            simpa using h1
          have e2 : ((["d".toList] ++ names : Loc) == at_ "c") = false := by
            simpa [at_] using hc
          simp only [world0, disk, List.map_cons, List.map_nil, List.lookup_cons, e1, e2, List.lookup_nil]
      unfold IsFile
      rw [hget]
      split
      · simp_all [eq_comm]
      · simp_all
    rw [hF]
    constructor
    · rintro ⟨h3, h4, h5⟩
      exact ⟨50, (hS 50).mpr ⟨h3, h4, rfl⟩, by rw [h5]; decide +kernel⟩
    · rintro ⟨t, h3, h4⟩
      obtain ⟨h5, h6, rfl⟩ := (hS t).mp h3
      exact ⟨h5, h6, by rw [h4]; decide +kernel⟩
  state := state55_own

/-- the server at some moment -/
def envAt (es : List Happening) (k : Nat) : Env := env [] (changeListOf (es.take k)) [1]

theorem surroundings {es : List Happening} {k : Nat} {S : Snapshot}
    (hauth : ∀ r ∈ changeListOf (es.take k), Authorised cfg.strictauth (uri "changelist.xml") r.uri)
    (hS : ∀ u content t, S u = some (content, t) → content = [1]) :
    Surroundings (envAt es k) cfg none (uri "rl.xml") (changeListOf (es.take k)) S where
  list := ⟨uri "changelist.xml", by decide +kernel, by simp [envAt, env], .inr ⟨⟨_, rfl⟩, ⟨_, rfl⟩, hauth⟩⟩
  server := by
    intro u content t h
    refine ⟨delivers_always (by decide) (fun _ => ⟨_, rfl⟩), ?_⟩
    intro tr b hb
    rw [hS u content t h]
    simp only [envAt, env, Reply.body.injEq, and_true] at hb
    exact hb.symm
  disk := ⟨fun _ _ => rfl, fun _ _ => rfl, fun _ _ => rfl⟩

theorem authorised {r : Resource} (h : r.uri = uri "a" ∨ r.uri = uri "b" ∨ r.uri = uri "c") :
    Authorised cfg.strictauth (uri "changelist.xml") r.uri := by
  rcases h with h | h | h <;> rw [h] <;> exact ⟨_, rfl, by decide +kernel⟩

theorem belowSites {u : Str} (h : u = uri "a" ∨ u = uri "b" ∨ u = uri "c") : BelowSites theSites u := by
  rcases h with rfl | rfl | rfl
  · exact ⟨_, List.mem_singleton.mpr rfl, ["a".toList], by decide, plain (by decide), by decide⟩
  · exact ⟨_, List.mem_singleton.mpr rfl, ["b".toList], by decide, plain (by decide), by decide⟩
  · exact ⟨_, List.mem_singleton.mpr rfl, ["c".toList], by decide, plain (by decide), by decide⟩

theorem known {es : List Happening} (h : ∀ e ∈ es, e.entry.uri = uri "a" ∨ e.entry.uri = uri "b" ∨ e.entry.uri = uri "c") (k : Nat)
    (u : Str) (hu : sourceAfter S0 (es.take k) u ≠ none) : u = uri "a" ∨ u = uri "b" ∨ u = uri "c" := by
  by_cases hex : ∃ e ∈ es.take k, e.entry.uri = u
  · obtain ⟨e, he, rfl⟩ := hex
    exact h e (List.mem_of_mem_take he)
  · rw [sourceAfter_other (fun e he hue => hex ⟨e, he, hue⟩)] at hu
    unfold S0 at hu
    split at hu
    · rename_i h; exact .inr (.inr h)
    · exact absurd rfl hu

theorem story_uris : ∀ e ∈ story, e.entry.uri = uri "a" ∨ e.entry.uri = uri "b" ∨ e.entry.uri = uri "c" := by decide +kernel

theorem years_of (rs : List Resource) (h : rs.all (fun r => r.timestamp.all (fun t => decide (Before10000 t)) &&
    r.ts_datetime.all (fun t => decide (Before10000 t))) = true) : TimesBefore10000 rs := by
  intro r hr t ht
  have := List.all_eq_true.mp h r hr
  rw [Bool.and_eq_true] at this
  rcases ht with ht | ht <;> simp only [ht, Option.all_some, decide_eq_true_eq] at this
  · exact this.1
  · exact this.2

theorem chronicle : Chronicle S0 cfg.spec_version story where
  kind := by decide +kernel
  timed := by
    intro e he
    simp only [story, List.mem_cons, List.not_mem_nil, or_false] at he
    rcases he with rfl | rfl | rfl | rfl
    · exact ⟨60, by decide +kernel, rfl, .inl rfl⟩
    · exact ⟨65, by decide +kernel, rfl, .inl rfl⟩
    · exact ⟨70, by decide +kernel, rfl, .inl rfl⟩
    · exact ⟨75, by decide +kernel, rfl, .inl rfl⟩
  modified := by
    intro e he t d h1 h2
    simp only [story, List.mem_cons, List.not_mem_nil, or_false] at he
    rcases he with rfl | rfl | rfl | rfl <;> cases h1 <;> cases h2 <;> exact le_refl _
  years := years_of _ (by decide +kernel)
  order := by
    have key : ∀ (a b : Resource) (x y : Rat), changeTime cfg.spec_version a = some x → changeTime cfg.spec_version b = some y → x ≤ y →
        ∀ d d', changeTime cfg.spec_version a = some d → changeTime cfg.spec_version b = some d' → d ≤ d' := by
      intro a b x y h1 h2 hle d d' h3 h4
      rw [h1] at h3
      rw [h2] at h4
      cases h3
      cases h4
      exact hle
    simp only [story, List.pairwise_cons, List.mem_cons, List.not_mem_nil, or_false, forall_eq_or_imp, forall_eq, List.Pairwise.nil, and_true,
      false_implies, implies_true]
    refine ⟨⟨?_, ?_, ?_⟩, ⟨?_, ?_⟩, ?_⟩ <;> exact key _ _ _ _ rfl rfl (by decide +kernel)
  new := by
    intro before e rest h hc
    rcases before with _ | ⟨b1, _ | ⟨b2, _ | ⟨b3, _ | ⟨b4, t⟩⟩⟩⟩
    · simp only [story, List.nil_append, List.cons.injEq] at h
      obtain ⟨rfl, -⟩ := h
      decide
    · simp only [story, List.cons_append, List.nil_append, List.cons.injEq] at h
      obtain ⟨-, rfl, -⟩ := h
      exact absurd hc (by decide)
    · simp only [story, List.cons_append, List.nil_append, List.cons.injEq] at h
      obtain ⟨-, -, rfl, -⟩ := h
      exact absurd hc (by decide)
    · simp only [story, List.cons_append, List.nil_append, List.cons.injEq] at h
      obtain ⟨rfl, rfl, rfl, rfl, -⟩ := h
      decide
    · simp [story] at h

theorem at2 (u : Str) (content : Bytes) (t : Rat) (h : sourceAfter S0 (story.take 2) u = some (content, t)) : content = [1] := by
  have hu := known story_uris 2 u (by rw [h]; simp)
  rcases hu with rfl | rfl | rfl
  · have : sourceAfter S0 (story.take 2) (uri "a") = some ([1], 60) := by decide
    rw [this] at h; cases h; rfl
  · have : sourceAfter S0 (story.take 2) (uri "b") = none := by decide
    rw [this] at h; cases h
  · have : sourceAfter S0 (story.take 2) (uri "c") = some ([1], 65) := by decide
    rw [this] at h; cases h; rfl

theorem at4 (u : Str) (content : Bytes) (t : Rat) (h : sourceAfter S0 (story.take 4) u = some (content, t)) : content = [1] := by
  have hu := known story_uris 4 u (by rw [h]; simp)
  rcases hu with rfl | rfl | rfl
  · have : sourceAfter S0 (story.take 4) (uri "a") = none := by decide
    rw [this] at h; cases h
  · have : sourceAfter S0 (story.take 4) (uri "b") = some ([1], 75) := by decide
    rw [this] at h; cases h; rfl
  · have : sourceAfter S0 (story.take 4) (uri "c") = some ([1], 65) := by decide
    rw [this] at h; cases h; rfl

theorem caughtUp : CaughtUp S0 cfg.spec_version story 0 55 where
  later := by
    intro f hf
    obtain ⟨d, -, h1, -⟩ := chronicle.time (e := f) hf
    refine ⟨d, h1, ?_⟩
    simp only [List.drop_zero, story, List.mem_cons, List.not_mem_nil, or_false] at hf
    rcases hf with rfl | rfl | rfl | rfl <;> cases h1 <;> decide +kernel
  created := by intro e he; cases he

def theRuns : List SyncRun := [⟨2, envAt story 2⟩, ⟨4, envAt story 4⟩]

theorem theRuns_ok : ∀ r ∈ theRuns, r.env.ft = ratFt ∧ r.env.cwd = [] ∧
    Surroundings r.env cfg none (uri "rl.xml") (changeListOf (story.take r.moment)) (sourceAfter S0 (story.take r.moment)) ∧
    Settled cfg.spec_version story r.moment := by
  have hauth : ∀ k, ∀ r ∈ changeListOf (story.take k), Authorised cfg.strictauth (uri "changelist.xml") r.uri := by
    intro k r hr
    obtain ⟨e, he, rfl⟩ := List.mem_map.mp hr
    exact authorised (story_uris e (List.mem_of_mem_take he))
  intro r hr
  simp only [theRuns, List.mem_cons, List.not_mem_nil, or_false] at hr
  rcases hr with rfl | rfl
  · refine ⟨rfl, rfl, surroundings (hauth 2) at2, ?_⟩
    intro e he f hf hue hec hfc
    refine ⟨⟨chg "c" sUpdated (some 65) 65, [1]⟩, by simp [story], ?_⟩
    intro d d' h1 h2
    simp only [story, List.take_succ_cons, List.take_zero, List.mem_cons, List.not_mem_nil, or_false] at he
    cases h2
    rcases he with rfl | rfl
    · cases h1; decide +kernel
    · exact absurd hec (by decide)
  · refine ⟨rfl, rfl, surroundings (hauth 4) at4, ?_⟩
    intro e he f hf
    simp [story] at hf

/-- Two runs, the first when a has been created and c updated, the second when a has been deleted and b created.  After both there are copies
of b and c only. -/
example :
    let w := worldAfter cfg none world0 [⟨2, envAt story 2⟩]
    let r := (SyncRun.mk 4 (envAt story 4)).run cfg none w
    r.2 = .ok () ∧ IsCopy theSites r.1.world.fs (sourceAfter S0 (story.take 4)) ∧
    IsFile w.fs (at_ "a") [1] 60 ∧ IsFile w.fs (at_ "c") [1] 65 ∧
    r.1.world.fs.get (at_ "a") = none ∧ IsFile r.1.world.fs (at_ "b") [1] 75 ∧ IsFile r.1.world.fs (at_ "c") [1] 65 := by
  obtain ⟨h1, h2⟩ := C86_copies_partial ratFt ratFt_ok [] cfg (uri "rl.xml") setUp none theSites places S0 story chronicle
    (fun e he => belowSites (story_uris e he)) (fun k => places_of (known story_uris k)) world0 0 55 stands (by decide +kernel) caughtUp
    (by unfold InYears; decide +kernel) theRuns (by decide) theRuns_ok [⟨2, envAt story 2⟩] [] ⟨4, envAt story 4⟩ rfl
  refine ⟨h1, h2, ?_, ?_, ?_, ?_, ?_⟩
  all_goals first | (unfold IsFile; decide +kernel) | decide +kernel

/-- one run of C85: from the beginning to the second moment -/
example : (incremental (envAt story 2) cfg true none none (freshSt world0)).2 = .ok () ∧
    IsCopy theSites (incremental (envAt story 2) cfg true none none (freshSt world0)).1.world.fs (sourceAfter S0 (story.take 2)) := by
  obtain ⟨-, -, hsur, -⟩ := theRuns_ok ⟨2, envAt story 2⟩ (by simp [theRuns])
  have hk := chronicle.take 2
  have hin : ∀ r ∈ changeListOf (story.take 2), ∃ e ∈ story.take 2, e.entry = r := fun r hr => List.mem_map.mp hr
  obtain ⟨h1, h2, -⟩ := C85_incremental (envAt story 2) ratFt_ok cfg (uri "rl.xml") setUp none none (freshSt world0) rfl theSites places S0
    (sourceAfter S0 (story.take 2)) (changeListOf (story.take 2)) 55 stands hsur (by decide +kernel) (by decide)
    (by
      have := records (n := 0) (t := 55) hk (fun f hf => caughtUp.later f (List.mem_of_mem_take hf)) (by intro e he; simp at he)
      exact this)
    (fun r hr _ => by obtain ⟨e, he, rfl⟩ := hin r hr; exact belowSites (story_uris e (List.mem_of_mem_take he)))
    (places_of (known story_uris 2)) (by unfold InYears; decide +kernel) hk.years
  exact ⟨h1, h2.copy⟩

/-- a is created, a is deleted -/
def brief : List Happening := [⟨chg "a" sCreated (some 60) 60, [1]⟩, ⟨chg "a" sDeleted none 70, []⟩]

theorem brief_uris : ∀ e ∈ brief, e.entry.uri = uri "a" ∨ e.entry.uri = uri "b" ∨ e.entry.uri = uri "c" := by decide +kernel

theorem brief_chronicle : Chronicle (fun _ => none) cfg.spec_version brief where
  kind := by decide +kernel
  timed := by
    intro e he
    simp only [brief, List.mem_cons, List.not_mem_nil, or_false] at he
    rcases he with rfl | rfl
    · exact ⟨60, by decide +kernel, rfl, .inl rfl⟩
    · exact ⟨70, by decide +kernel, rfl, .inl rfl⟩
  modified := by
    intro e he t d h1 h2
    simp only [brief, List.mem_cons, List.not_mem_nil, or_false] at he
    rcases he with rfl | rfl
    · cases h1; cases h2; exact le_refl _
    · cases h1
  years := years_of _ (by decide +kernel)
  order := by
    simp only [brief, List.pairwise_cons, List.mem_cons, List.not_mem_nil, or_false, forall_eq, List.Pairwise.nil, and_true, false_implies,
      implies_true]
    intro d d' h1 h2
    cases h1
    cases h2
    decide +kernel
  new := by
    intro before e rest h hc
    rcases before with _ | ⟨b1, _ | ⟨b2, t⟩⟩
    · rfl
    · simp only [brief, List.cons_append, List.nil_append, List.cons.injEq] at h
      obtain ⟨-, rfl, -⟩ := h
      exact absurd hc (by decide)
    · simp [brief] at h

theorem stands_empty {state : Option Str} (h : OwnState ratFt state) : Stands ratFt [] cfg theSites places { fs := disk [], state := state }
    (fun _ => none) where
  mapped := (site [] (properFs_of (by decide) (by decide) (by decide) (by decide)) (by decide)).sites
  room := free (show (disk []).get ["d".toList] = some .dir by decide)
    (by rintro l (rfl | rfl | rfl)
        · show (disk []).get (at_ "a") ≠ some .dir
          decide
        · show (disk []).get (at_ "b") ≠ some .dir
          decide
        · show (disk []).get (at_ "c") ≠ some .dir
          decide)
  copy := by
    intro p hp names h1 h2 content mtime
    rw [theSites, List.mem_singleton] at hp
    subst hp
    constructor
    · intro h
      have : (disk []).get (["d".toList] ++ names) = some (.file content mtime) := h
      unfold Fs.get at this
      rw [if_neg (by simp)] at this
      have e1 : ((["d".toList] ++ names : Loc) == ["d".toList]) = false := by simpa using h1
      simp only [disk, List.map_nil, List.lookup_cons, e1, List.lookup_nil] at this
      cases this
    · rintro ⟨t, h, -⟩
      cases h
  state := h

theorem brief_content (k : Nat) (hk : k = 1 ∨ k = 2) (u : Str) (content : Bytes) (t : Rat)
    (h : sourceAfter (fun _ => none) (brief.take k) u = some (content, t)) : content = [1] := by
  have hu : u = uri "a" := by
    by_contra hne
    rw [sourceAfter_other] at h
    · cases h
    · intro e he hue
      have := List.mem_of_mem_take he
      simp only [brief, List.mem_cons, List.not_mem_nil, or_false] at this
      rcases this with rfl | rfl <;> exact hne hue.symm
  subst hu
  rcases hk with rfl | rfl
  · have : sourceAfter (fun _ => none) (brief.take 1) (uri "a") = some ([1], 60) := by decide
    rw [this] at h; cases h; rfl
  · have : sourceAfter (fun _ => none) (brief.take 2) (uri "a") = none := by decide
    rw [this] at h; cases h

theorem brief_surroundings (k : Nat) (hk : k = 1 ∨ k = 2) : Surroundings (envAt brief k) cfg none (uri "rl.xml") (changeListOf (brief.take k))
    (sourceAfter (fun _ => none) (brief.take k)) := by
  refine surroundings ?_ (brief_content k hk)
  intro r hr
  obtain ⟨e, he, rfl⟩ := List.mem_map.mp hr
  exact authorised (brief_uris e (List.mem_of_mem_take he))

/-- C86 fails without the condition.  The resource a is created at 60, the client makes its copy and stores the time 60; a is deleted at 70.
From the time 60 on the change list has both entries, so that the client drops them: the deletion never reaches it. -/
theorem C86_violated :
    let S : Snapshot := fun _ => none
    let w0 : World := { fs := disk [], state := state55 }
    let w1 := worldAfter cfg none w0 [⟨1, envAt brief 1⟩]
    let r := (SyncRun.mk 2 (envAt brief 2)).run cfg none w1
    Chronicle S cfg.spec_version brief ∧ Stands ratFt [] cfg theSites places w0 S ∧ getState ratFt w0.state (uri "rl.xml") = .ok (some 55) ∧
    CaughtUp S cfg.spec_version brief 0 55 ∧
    (∀ k, k = 1 ∨ k = 2 → Surroundings (envAt brief k) cfg none (uri "rl.xml") (changeListOf (brief.take k)) (sourceAfter S (brief.take k))) ∧
    r.2 = .ok () ∧ sourceAfter S brief (uri "a") = none ∧ IsFile r.1.world.fs (at_ "a") [1] 60 ∧
    IsFile ((SyncRun.mk 2 (envAt brief 2)).run cfg none r.1.world).1.world.fs (at_ "a") [1] 60 := by
  refine ⟨brief_chronicle, stands_empty state55_own, by decide +kernel, ⟨?_, by intro e he; cases he⟩, brief_surroundings, by decide +kernel,
    by decide, by unfold IsFile; decide +kernel, by unfold IsFile; decide +kernel⟩
  intro f hf
  simp only [List.drop_zero, brief, List.mem_cons, List.not_mem_nil, or_false] at hf
  rcases hf with rfl | rfl
  · exact ⟨60, rfl, by decide +kernel⟩
  · exact ⟨70, rfl, by decide +kernel⟩

end CopyExample
end Resync
