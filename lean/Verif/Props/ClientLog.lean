import Verif.Proofs.ClientLog
import Verif.Props.ClientResult
/-
C109: the log of a synchronisation tells what was done.
-/

namespace Resync
open Py Resync.Spec

/-- C109.  The runs with messages are the runs all other theorems are about. -/
theorem C109_same_runs (env : Env) (c : ClientCfg) (s : St) :
    (∀ allow_deletion audit_only, ((baselineLog env c allow_deletion audit_only s).1, (baselineLog env c allow_deletion audit_only s).2.1) =
      baselineOrAudit env c allow_deletion audit_only s) ∧
    (∀ allow_deletion uri from_datetime, ((incrementalLog env c allow_deletion uri from_datetime s).1,
        (incrementalLog env c allow_deletion uri from_datetime s).2.1) = incremental env c allow_deletion uri from_datetime s) :=
  ⟨fun _ _ => baselineLog_run env c _ _ s, fun _ _ _ => incrementalLog_run env c _ _ _ s⟩

/-- The resource shown in an event is what the code constructs: `Resource(resource=resource, change=change)`, and this raises no
exception for a resource object with a valid change type or none. -/
theorem C109_event_resource (r : Resource) (ch : Str) (hch : ch ∈ CHANGE_TYPES) (hr : ∀ x, r.change = some x → x ∈ CHANGE_TYPES) :
    Resource.new { resource := some r, change := some ch } = .ok { r with change := some ch } := by
  cases r with
  | mk uri ts len mime md5 sha1 sha256 change tsd path ln cap at_ comp from_ until_ =>
    cases change with
    | none => simp [Resource.new, checkChange, pickDate, pick, hch, bind, Except.bind, pure, Except.pure]
    | some x =>
      have hx := hr x rfl
      simp [Resource.new, checkChange, pickDate, pick, hch, hx, bind, Except.bind, pure, Except.pure]

theorem doneBetween_eq {s s' : St} {es : List Effect} (h : s'.trace = s.trace ++ es) : doneBetween s s' = es := by
  unfold doneBetween; rw [h, List.drop_left]

/-- C109, baseline.  However the run ends and whatever fails on the way: the events are, one for one and in order, about the downloads
completed and the files removed; after the event for a download comes a complaint exactly if the length, or a digest of a type that is
still asked for, differs from what the list says.  `_partial`: at least one try; and "asked for" are the types left by prune_hashes, see
`C109_hashes_violated`. -/
theorem C109_baseline_partial (env : Env) (c : ClientCfg) (allow_deletion audit_only : Bool) (s : St) (ht : 0 < c.tries) :
    Tells env c (baselineLog env c allow_deletion audit_only s).1.hashes s.trace
      (doneBetween s (baselineLog env c allow_deletion audit_only s).1) (baselineLog env c allow_deletion audit_only s).2.2 := by
  unfold baselineLog
  obtain ⟨-, p2, -⟩ := baselinePlan_same env c audit_only s
  have nothing : ∀ s1 : St, s1.trace = s.trace → Tells env c s1.hashes s.trace (doneBetween s s1) [] := by
    intro s1 h
    rw [doneBetween_eq (es := []) (by rw [h]; simp)]
    exact ⟨List.Forall₂.nil, List.Forall₂.nil⟩
  cases hp : baselinePlan env c audit_only s with
  | mk s1 x =>
    rw [hp] at p2
    simp only at p2
    cases x with
    | error e => exact nothing s1 p2
    | ok y =>
      obtain ⟨src, cmp⟩ := y
      simp only
      split
      · exact nothing s1 p2
      · obtain ⟨es, h1, h2, h3, -, -⟩ := baselineSyncLog_step (env := env) ht allow_deletion src cmp s1
        rw [p2] at h1 h3
        rw [doneBetween_eq h1, h2]
        exact h3

/-- C109, incremental.  The same for an incremental sync; besides, each event is about an entry of the change list, as it is there. -/
theorem C109_incremental_partial (env : Env) (c : ClientCfg) (allow_deletion : Bool) (uri from_datetime : Option Str) (s : St)
    (ht : 0 < c.tries) :
    Tells env c (incrementalLog env c allow_deletion uri from_datetime s).1.hashes s.trace
      (doneBetween s (incrementalLog env c allow_deletion uri from_datetime s).1) (incrementalLog env c allow_deletion uri from_datetime s).2.2 ∧
    ∀ r, .event r ∈ (incrementalLog env c allow_deletion uri from_datetime s).2.2 → ∃ changes, ChangesRead env c uri changes ∧ r ∈ changes := by
  unfold incrementalLog
  obtain ⟨-, p2⟩ := incrementalPlan_same env c uri from_datetime s
  have nothing : ∀ s1 : St, s1.trace = s.trace → Tells env c s1.hashes s.trace (doneBetween s s1) [] := by
    intro s1 h
    rw [doneBetween_eq (es := []) (by rw [h]; simp)]
    exact ⟨List.Forall₂.nil, List.Forall₂.nil⟩
  cases hp : incrementalPlan env c uri from_datetime s with
  | mk s1 x =>
    rw [hp] at p2
    simp only at p2
    cases x with
    | error e => exact ⟨nothing s1 p2, by simp⟩
    | ok cl =>
      simp only
      split
      · exact ⟨nothing s1 p2, by simp⟩
      · obtain ⟨t0, clUri, raw, kept, last, hpl⟩ := incrementalPlan_ok hp
        have hsub : ∀ r ∈ cl, ∃ changes, ChangesRead env c uri changes ∧ r ∈ changes := by
          intro r hr
          obtain ⟨pre, post, e, -⟩ := planned_last hpl hr
          exact ⟨raw, ⟨clUri, hpl.listUri, hpl.read⟩, by rw [e]; simp⟩
        have hs := forLog_step (K := fun r => ∃ changes, ChangesRead env c uri changes ∧ r ∈ changes) (f := applyOneLog env c allow_deletion)
          (rs := cl) (fun r hr s => (applyOneLog_step (env := env) ht allow_deletion s r).mono (fun e he => by rw [he]; exact hsub r hr)) s1
        have fin : ∀ s2 log, LogStep env c (fun r => ∃ changes, ChangesRead env c uri changes ∧ r ∈ changes) s1 s2 log →
            Tells env c s2.hashes s.trace (doneBetween s s2) log ∧
              ∀ r, .event r ∈ log → ∃ changes, ChangesRead env c uri changes ∧ r ∈ changes := by
          rintro s2 log ⟨es, h1, h2, h3, -, h5⟩
          rw [p2] at h1 h3
          rw [doneBetween_eq h1, h2]
          exact ⟨h3, h5⟩
        revert hs
        cases forLog (applyOneLog env c allow_deletion) cl s1 with
        | mk s2 x =>
          obtain ⟨x, log⟩ := x
          cases x with
          | error e => exact fin s2 log
          | ok u =>
            simp only
            intro hs
            split
            · have := hs.trans (storeState_step env c _ s2)
              rw [List.append_nil] at this
              exact fin _ _ this
            · exact fin _ _ hs

/-- C109, kinds of events.  With one plain mapping, an event of a baseline sync says "created" of a resource of the source's list without
a file, "updated" of one whose file is another one, and "deleted" of a file not in the list; apart from this word, events about
fetched resources show the entry of the list. -/
theorem C109_kinds_partial (env : Env) (c : ClientCfg) (allow_deletion audit_only : Bool) (s : St) (m : Map) (root : Loc) (src : Dict Resource)
    (hone : OneSite c env.cwd m root s.world.fs) (hh : ∀ t ∈ s.hashes, HashType t) (hk : ListsKeyed env.sources)
    (hfound : (findResourceList env.sources c.disc).2 = .ok src) (ht : 0 < c.tries) (e : Resource)
    (he : .event e ∈ (baselineLog env c allow_deletion audit_only s).2.2) :
    (e.change = some "created".toList ∧ Missing m root src s.world.fs e.uri ∧
        ∃ r, (e.uri, r) ∈ src ∧ e = { r with change := some "created".toList }) ∨
    (e.change = some "updated".toList ∧ Outdated m root src s.world.fs e.uri ∧
        ∃ r, (e.uri, r) ∈ src ∧ e = { r with change := some "updated".toList }) ∨
    (e.change = some "deleted".toList ∧ Surplus m root src s.world.fs e.uri) := by
  unfold baselineLog at he
  revert he
  cases hp : baselinePlan env c audit_only s with
  | mk s1 x =>
    cases x with
    | error e => intro he; simp at he
    | ok y =>
      obtain ⟨src', cmp⟩ := y
      simp only
      split
      · intro he; simp at he
      · intro he
        have hs : src' = src := by
          obtain ⟨dst, hpl⟩ := baselinePlan_ok hp
          have := hpl.found
          rw [hfound] at this
          cases this; rfl
        subst hs
        obtain ⟨dst, hpl⟩ := baselinePlan_ok hp
        have pf := planFacts hk hone.proper hpl
        obtain ⟨hwf, k1, k2, k3⟩ := compares_sets hone hh hk hp
        obtain ⟨es, -, -, -, -, h5⟩ := baselineSyncLog_step (env := env) ht allow_deletion src' cmp s1
        rcases h5 e he with ⟨r, hr, rfl⟩ | ⟨r, hr, rfl⟩ | ⟨r, hr, rfl⟩
        · have hg := (mem_iterList hwf.created).mp hr
          exact Or.inl ⟨rfl, (k1 r.uri).mp ⟨r, hg⟩, r, mem_of_dget (plan_upd_source pf (List.mem_append_left _ hr)), rfl⟩
        · have hg := (mem_iterList hwf.updated).mp hr
          exact Or.inr (Or.inl ⟨rfl, (k2 r.uri).mp ⟨r, hg⟩, r, mem_of_dget (plan_upd_source pf (List.mem_append_right _ hr)), rfl⟩)
        · have hg := (mem_iterList hwf.deleted).mp hr
          exact Or.inr (Or.inr ⟨rfl, (k3 r.uri).mp ⟨r, hg⟩⟩)

/-- C109, nothing is passed over in silence.  With one plain mapping, the log of a baseline sync that ends without an exception says of
each resource that is missing, outdated or surplus how it went (an event, a warning, or what would have been done), exactly once, and
of no other. -/
theorem C109_baseline_accounts (env : Env) (c : ClientCfg) (allow_deletion : Bool) (s : St) (m : Map) (root : Loc) (src : Dict Resource)
    (hone : OneSite c env.cwd m root s.world.fs) (hh : ∀ t ∈ s.hashes, HashType t) (hk : ListsKeyed env.sources)
    (hfound : (findResourceList env.sources c.disc).2 = .ok src)
    (hok : (baselineLog env c allow_deletion false s).2.1 = .ok ()) :
    (outcomes (baselineLog env c allow_deletion false s).2.2).Nodup ∧
    ∀ u, u ∈ outcomes (baselineLog env c allow_deletion false s).2.2 ↔
      Missing m root src s.world.fs u ∨ Outdated m root src s.world.fs u ∨ Surplus m root src s.world.fs u := by
  revert hok
  unfold baselineLog
  cases hp : baselinePlan env c false s with
  | mk s1 x =>
    cases x with
    | error e => intro hok; simp at hok
    | ok y =>
      obtain ⟨src', cmp⟩ := y
      have hs : src' = src := by
        obtain ⟨dst, hpl⟩ := baselinePlan_ok hp
        have := hpl.found
        rw [hfound] at this
        cases this; rfl
      subst hs
      obtain ⟨hwf, k1, k2, k3⟩ := compares_sets hone hh hk hp
      simp only
      split
      · rename_i hz
        intro _
        have hz : cmp.created.length + cmp.updated.length + cmp.deleted.length = 0 := by simpa using hz
        have e1 : cmp.created = [] := List.length_eq_zero_iff.mp (by omega)
        have e2 : cmp.updated = [] := List.length_eq_zero_iff.mp (by omega)
        have e3 : cmp.deleted = [] := List.length_eq_zero_iff.mp (by omega)
        refine ⟨List.nodup_nil, fun u => ?_⟩
        rw [← k1, ← k2, ← k3, e1, e2, e3]
        simp [outcomes, dget]
      · intro hok
        rw [baselineSyncLog_outcomes hok]
        have mem : ∀ {d : Dict Resource}, WF d → ∀ u, u ∈ (iterList d).map (·.uri) ↔ ∃ r, dget d u = some r := by
          intro d hd u
          rw [List.mem_map]
          constructor
          · rintro ⟨r, hr, rfl⟩; exact ⟨r, (mem_iterList hd).mp hr⟩
          · rintro ⟨r, hr⟩
            have hu := hd.2 u r hr
            exact ⟨r, (mem_iterList hd).mpr (by rw [hu]; exact hr), hu⟩
        have nd : ∀ {d : Dict Resource}, WF d → ((iterList d).map (·.uri)).Nodup := by
          intro d hd
          rw [iterList_eq]
          rw [listing_uris hd]
          exact (sortStr_perm _).nodup_iff.mpr hd.1
        rw [List.map_append, List.map_append]
        constructor
        · refine List.Nodup.append (nd hwf.created) (List.Nodup.append (nd hwf.updated) (nd hwf.deleted) ?_) ?_
          · intro u h1 h2
            rw [mem hwf.updated, k2] at h1
            rw [mem hwf.deleted, k3] at h2
            obtain ⟨r, hr, -⟩ := h1
            exact h2.1 r hr
          · intro u h1 h2
            rw [mem hwf.created, k1] at h1
            rcases List.mem_append.mp h2 with h2 | h2
            · rw [mem hwf.updated, k2] at h2
              obtain ⟨r, -, b, t, hf, -⟩ := h2
              exact h1.2 b t hf
            · rw [mem hwf.deleted, k3] at h2
              obtain ⟨⟨r, hr⟩, -⟩ := h1
              exact h2.1 r hr
        · intro u
          rw [List.mem_append, List.mem_append, mem hwf.created, mem hwf.updated, mem hwf.deleted, k1, k2, k3]

/-- C109, the same for an incremental sync: how it went with the last change of each URI at or after the start time, in their order,
leaving out what was created and deleted again; nothing is said if all of these are deletions and deletion is not allowed. -/
theorem C109_incremental_accounts (env : Env) (c : ClientCfg) (allow_deletion : Bool) (uri from_datetime : Option Str) (s : St)
    (hok : (incrementalLog env c allow_deletion uri from_datetime s).2.1 = .ok ()) :
    ∃ changes t0, ChangesRead env c uri changes ∧ startTime env c from_datetime s = .ok t0 ∧
      let due := prunedSpec (changes.filter (fun r => (entryTime c.spec_version r).any (t0 ≤ ·)))
      outcomes (incrementalLog env c allow_deletion uri from_datetime s).2.2 =
        if allow_deletion = false ∧ ∀ r ∈ due, r.change = some "deleted".toList then [] else due.map (·.uri) := by
  revert hok
  unfold incrementalLog
  cases hp : incrementalPlan env c uri from_datetime s with
  | mk s1 x =>
    cases x with
    | error e => intro hok; simp at hok
    | ok cl =>
      obtain ⟨t0, clUri, raw, kept, last, hpl⟩ := incrementalPlan_ok hp
      obtain ⟨n, hpr⟩ := hpl.pruned
      obtain ⟨-, hk⟩ := pruned_eq hpr
      have hcl : cl = prunedSpec (raw.filter (fun r => (entryTime c.spec_version r).any (t0 ≤ ·))) := by
        rw [hpl.dupes, hk, C25_prune_dupes]
      intro hok
      refine ⟨raw, t0, ⟨clUri, hpl.listUri, hpl.read⟩, hpl.start, ?_⟩
      simp only
      rw [← hcl]
      clear hcl
      revert hok
      have hall : (cl.all (fun r => r.change = some sDeleted)) = true ↔ ∀ r ∈ cl, r.change = some "deleted".toList := by
        rw [List.all_eq_true]
        constructor
        · intro h r hr; exact of_decide_eq_true (h r hr)
        · intro h r hr; exact decide_eq_true (h r hr)
      simp only
      split
      · rename_i hz
        intro _
        rcases hz with hz | ⟨h1, h2⟩
        · subst hz
          simp [outcomes]
        · rw [if_pos ⟨by simpa using h2, hall.mp h1⟩]; rfl
      · rename_i hz
        rw [if_neg (fun h => hz (Or.inr ⟨hall.mpr h.2, by simp [h.1]⟩))]
        cases h1 : forLog (applyOneLog env c allow_deletion) cl s1 with
        | mk s2 x =>
          obtain ⟨x, log⟩ := x
          cases x with
          | error e => intro hok; simp at hok
          | ok u =>
            intro _
            exact forLog_outcomes (fun _ _ _ _ => applyOneLog_outcomes) _ _ _ _ h1

theorem mem_takeWhile_sub {l : List LogMsg} {m : LogMsg} {p : LogMsg → Bool} (h : m ∈ l.takeWhile p) : m ∈ l :=
  (List.takeWhile_sublist p).subset h

/-- a complaint about a digest in a log stands behind an event -/
theorem reportsOf_mem {log : List LogMsg} {r : Resource} {ms : List LogMsg} (h : (r, ms) ∈ reportsOf log) :
    .event r ∈ log ∧ ∀ m ∈ ms, m ∈ log := by
  induction log with
  | nil => simp [reportsOf] at h
  | cons m t ih =>
    have go : (r, ms) ∈ reportsOf t → .event r ∈ m :: t ∧ ∀ x ∈ ms, x ∈ m :: t := fun h =>
      ⟨List.mem_cons_of_mem _ (ih h).1, fun x hx => List.mem_cons_of_mem _ ((ih h).2 x hx)⟩
    cases m with
    | event e =>
      simp only [reportsOf] at h
      split at h
      · exact go h
      · rcases List.mem_cons.mp h with h | h
        · simp only [Prod.mk.injEq] at h
          obtain ⟨rfl, rfl⟩ := h
          exact ⟨by simp, fun x hx => List.mem_cons_of_mem _ (mem_takeWhile_sub hx)⟩
        · exact go h
    | _ => exact go h

/-- C109, violated: digests are never compared.  Whatever types of hashes are asked for, whatever the source's list states and whatever is
delivered, no complaint about a digest follows any event of a baseline sync (prune_hashes takes away exactly the types which the
list has). -/
theorem C109_hashes_violated (env : Env) (c : ClientCfg) (allow_deletion audit_only : Bool) (s : St) (hk : ListsKeyed env.sources)
    (hfs : ProperFs s.world.fs) (ht : 0 < c.tries) (r : Resource) (ms : List LogMsg)
    (hr : (r, ms) ∈ reportsOf (baselineLog env c allow_deletion audit_only s).2.2) (type got expected : Str) :
    .hash type r.uri got expected ∉ ms := by
  have hT := C109_baseline_partial env c allow_deletion audit_only s ht
  obtain ⟨d, -, -, -, hC⟩ : ∃ d, d ∈ completedFrom env s.trace (doneBetween s (baselineLog env c allow_deletion audit_only s).1) ∧
      d.1 = r.uri ∧ FilePlace env c r.uri d.2.1 ∧ Complains env.lib (baselineLog env c allow_deletion audit_only s).1.hashes r d.2.2 ms := by
    have h := hT.fetched
    revert h hr
    generalize reportsOf (baselineLog env c allow_deletion audit_only s).2.2 = b
    generalize completedFrom env s.trace (doneBetween s (baselineLog env c allow_deletion audit_only s).1) = a
    intro hr h
    induction h with
    | nil => simp at hr
    | cons h1 h2 ih =>
      rename_i d0 e0 _ _
      rcases List.mem_cons.mp hr with e | hr
      · rw [← e] at h1
        exact ⟨d0, by simp, h1.1, h1.2.1, h1.2.2⟩
      · obtain ⟨d, k1, k2⟩ := ih hr
        exact ⟨d, by simp [k1], k2⟩
  -- the types left and the types of the list have nothing in common
  obtain ⟨hev, -⟩ := reportsOf_mem hr
  revert hev hC
  unfold baselineLog
  cases hp : baselinePlan env c audit_only s with
  | mk s1 x =>
    cases x with
    | error e => intro _ hev; simp at hev
    | ok y =>
      obtain ⟨src, cmp⟩ := y
      simp only
      split
      · intro _ hev; simp at hev
      · obtain ⟨dst, hpl⟩ := baselinePlan_ok hp
        have pf := planFacts hk hfs hpl
        obtain ⟨es, -, h2, -, -, h5⟩ := baselineSyncLog_step (env := env) ht allow_deletion src cmp s1
        intro hC hev
        rw [h2] at hC
        have hleft : s1.hashes = leftHashes s src := by rw [hpl.state]
        rw [hleft] at hC
        have nopair : ∀ t, t ∈ leftHashes s src → t ∉ listHashes (iterList src) := by
          intro t htm
          unfold leftHashes at htm
          split at htm
          · unfold pruneHashes at htm
            simpa using (List.mem_filter.mp htm).2
          · rename_i hz
            have : s.hashes = [] := by simpa using hz
            rw [this] at htm
            simp at htm
        intro hm
        rcases hC.nothing_else _ hm with ⟨_, _, h⟩ | ⟨ty, hty, g, x, h⟩
        · cases h
        simp only [LogMsg.hash.injEq] at h
        obtain ⟨rfl, -, rfl, rfl⟩ := h
        -- the entry of the list the event is about
        have source : (r.change ≠ some "deleted".toList) → ∃ r0 ∈ iterList src, r.md5 = r0.md5 ∧ r.sha1 = r0.sha1 ∧ r.sha256 = r0.sha256 := by
          intro hnd
          rcases h5 r hev with ⟨r0, hr0, rfl⟩ | ⟨r0, hr0, rfl⟩ | ⟨r0, hr0, rfl⟩
          · exact ⟨r0, (mem_iterList pf.wf).mpr (plan_upd_source pf (List.mem_append_left _ hr0)), rfl, rfl, rfl⟩
          · exact ⟨r0, (mem_iterList pf.wf).mpr (plan_upd_source pf (List.mem_append_right _ hr0)), rfl, rfl, rfl⟩
          · exact absurd rfl hnd
        have hnd : r.change ≠ some "deleted".toList := by
          clear * - hr
          revert hr
          generalize (baselineLog env c allow_deletion audit_only s).2.2 = log
          intro hr
          induction log with
          | nil => simp [reportsOf] at hr
          | cons m t ih =>
            cases m with
            | event e =>
              simp only [reportsOf] at hr
              split at hr
              · exact ih hr
              · rename_i hx
                rcases List.mem_cons.mp hr with h | h
                · simp only [Prod.mk.injEq] at h
                  rw [h.1]; exact hx
                · exact ih h
            | _ => exact ih hr
        obtain ⟨r0, hr0, e1, e2, e3⟩ := source hnd
        have anyOf : ∀ {p : Resource → Bool}, p r0 = true → (iterList src).any p = true := fun hp => List.any_eq_true.mpr ⟨r0, hr0, hp⟩
        rcases List.mem_cons.mp hty with rfl | hty
        · obtain ⟨k1, k2, -⟩ := (hC.md5 _ _).mp hm
          refine nopair _ k1 ?_
          unfold listHashes
          rw [if_pos (anyOf (by rw [← e1, k2]; rfl))]
          exact List.mem_append_left _ (List.mem_append_left _ (List.mem_singleton.mpr rfl))
        rcases List.mem_cons.mp hty with rfl | hty
        · obtain ⟨k1, k2, -⟩ := (hC.sha1 _ _).mp hm
          refine nopair _ k1 ?_
          unfold listHashes
          rw [if_pos (c := (iterList src).any (·.sha1.isSome) = true) (anyOf (by rw [← e2, k2]; rfl))]
          exact List.mem_append_left _ (List.mem_append_right _ (List.mem_singleton.mpr rfl))
        · have : type = "sha-256".toList := by simpa using hty
          subst this
          obtain ⟨k1, k2, -⟩ := (hC.sha256 _ _).mp hm
          refine nopair _ k1 ?_
          unfold listHashes
          rw [if_pos (c := (iterList src).any (·.sha256.isSome) = true) (anyOf (by rw [← e3, k2]; rfl))]
          exact List.mem_append_right _ (List.mem_singleton.mpr rfl)

namespace ClientExample

/-- A sync with a wrong length in the list: the events, and the complaint -/
example : (baselineLog (env [{ res "a" 100 with length := some 3 }, res "b" 200] [] [1, 2]) cfg true false (start ["a", "c"])).2 =
    (.ok (), [.start sCreated (uri "b") "/d/b".toList, .event { res "b" 200 with change := some sCreated },
      .start sUpdated (uri "a") "/d/a".toList, .event { res "a" 100 with length := some 3, change := some sUpdated }, .size (uri "a") 2 3,
      .deleted (uri "c") "/d/c".toList,
      .event { uri := uri "c", timestamp := some 50, length := some 1, change := some sDeleted }]) := by decide +kernel

/-- the downloads and removals of that run -/
example :
    let e := env [{ res "a" 100 with length := some 3 }, res "b" 200] [] [1, 2]
    let r := baselineLog e cfg true false (start ["a", "c"])
    completedFrom e [] (doneBetween (start ["a", "c"]) r.1) = [(uri "b", at_ "b", [1, 2]), (uri "a", at_ "a", [1, 2])] ∧
    unlinkedOf (doneBetween (start ["a", "c"]) r.1) = [at_ "c"] := by decide +kernel

/-- the hypotheses of the theorems about baseline syncs hold of it -/
example : 0 < cfg.tries ∧ OneSite cfg [] ⟨base, "/d".toList⟩ ["d".toList] (start ["a", "c"]).world.fs ∧
    ListsKeyed (env [{ res "a" 100 with length := some 3 }, res "b" 200] [] [1, 2]).sources ∧
    (findResourceList (env [{ res "a" 100 with length := some 3 }, res "b" 200] [] [1, 2]).sources cfg.disc).2 =
      .ok (listOf [{ res "a" 100 with length := some 3 }, res "b" 200]) :=
  ⟨by decide, site _ (properFs_of (by decide) (by decide) (by decide) (by decide)) (by decide), env_keyed _ _ _ (by decide), by decide +kernel⟩

/-- a server that times out at first, a resource that cannot be had, failures ignored, no deletion -/
example : (baselineLog { env [res "a" 100, res "b" 200] [] [] with
        serve := fun tr u => if u = uri "b" then .fail .io else if Effect.get (uri "a") ∈ tr then .body [5] none else .body [1] (some .timeout) }
      { cfg with ignore_failures := true } false false (start ["c"])).2 =
    (.ok (), [.start sCreated (uri "a") "/d/a".toList, .retrying, .event { res "a" 100 with change := some sCreated },
      .start sCreated (uri "b") "/d/b".toList, .failedGet (uri "b"), .noDelete (uri "c")]) := by decide +kernel

/-- an incremental sync -/
example : (incrementalLog (env [] [{ res "a" 100 with change := some sUpdated, ts_datetime := some 100 },
        { uri := uri "c", change := some sDeleted, ts_datetime := some 300 }] [1, 2]) cfg true none
      (some "1970-01-01T00:00:00Z".toList) (start ["a", "c"])).2 =
    (.ok (), [.start sUpdated (uri "a") "/d/a".toList, .event { res "a" 100 with change := some sUpdated, ts_datetime := some 100 },
      .deleted (uri "c") "/d/c".toList, .event { uri := uri "c", change := some sDeleted, ts_datetime := some 300 }]) := by decide +kernel

/-- C109, violated.  (1) MD5 digests are asked for, the list states one, something else is delivered: there is an event and no complaint.
(2) With `--tries -1` nothing is fetched, and there is an event all the same. -/
theorem C109_violated :
    (let e := env [{ res "a" 100 with md5 := some (exLib.md5 [1, 2]) }] [] [3, 4]
     let r := baselineLog e cfg false false { start [] with hashes := [sMd5] }
     r.2 = (.ok (), [.start sCreated (uri "a") "/d/a".toList,
       .event { res "a" 100 with md5 := some (exLib.md5 [1, 2]), change := some sCreated }]) ∧
     r.1.world.fs.get (at_ "a") = some (.file [3, 4] 100)) ∧
    (let e := env [res "a" 100] [] [3, 4]
     let r := baselineLog e { cfg with tries := 0 } false false (start ["a"])
     r.2 = (.ok (), [.start sUpdated (uri "a") "/d/a".toList, .event { res "a" 100 with change := some sUpdated }]) ∧
     completedFrom e [] (doneBetween (start ["a"]) r.1) = [] ∧ r.1.world.fs.get (at_ "a") = some (.file [7] 100)) := by
  decide +kernel

/-- an event is among the reports: the hypothesis of C109_hashes_violated -/
example : ({ res "a" 100 with md5 := some (exLib.md5 [1, 2]), change := some sCreated }, []) ∈
    reportsOf (baselineLog (env [{ res "a" 100 with md5 := some (exLib.md5 [1, 2]) }] [] [3, 4]) cfg false false
      { start [] with hashes := [sMd5] }).2.2 := by decide +kernel

end ClientExample
end Resync
