import Verif.Proofs.StatusSites
import Verif.Props.ClientStatus
import Verif.Props.ClientLog
import Verif.Props.Locality
/-
C77 and C109 with any number of sites, each mapped to a directory of its own.
-/

namespace Resync
open Py Resync.Spec

/-- C77, audits, with any number of sites: the first line of an audit or baseline sync gives the true numbers of resources that are the
same, missing, different and no longer listed, taken over all destinations, and says "IN SYNC" exactly if nothing is missing, different
or no longer listed.  An audit that succeeds prints just this line. -/
theorem C77_sites_audit (env : Env) (c : ClientCfg) (allow_deletion audit_only : Bool) (s : St) (sites : List (Map × Loc)) (src : Dict Resource)
    (hsites : Sites c env.cwd sites s.world.fs) (hh : ∀ t ∈ s.hashes, HashType t) (hk : ListsKeyed env.sources)
    (hfound : (findResourceList env.sources c.disc).2 = .ok src) :
    (∀ first rest, (baselineReport env c allow_deletion audit_only s).2.2 = first :: rest →
      ∃ same created updated deleted, ComparesAt sites src s.world.fs same created updated deleted ∧
        first = if created = 0 ∧ updated = 0 ∧ deleted = 0 then auditLine "        IN SYNC" same 0 0 0
          else auditLine "    NOT IN SYNC" same created updated deleted) ∧
    (audit_only = true → (baselineReport env c allow_deletion audit_only s).2.1 = .ok () →
      ∃ first, (baselineReport env c allow_deletion audit_only s).2.2 = [first]) := by
  unfold baselineReport
  cases hp : baselinePlan env c audit_only s with
  | mk s1 x =>
    cases x with
    | error e => exact ⟨fun _ _ h => by simp at h, fun _ h => by simp at h⟩
    | ok p =>
      obtain ⟨src', cmp⟩ := p
      have hs : src' = src := by
        obtain ⟨dst, hpl⟩ := baselinePlan_ok hp
        have := hpl.found
        rw [hfound] at this
        cases this; rfl
      subst hs
      obtain ⟨hcmp, -⟩ := compares_at hsites hh hk hp
      constructor
      · intro first rest h
        refine ⟨_, _, _, _, hcmp, ?_⟩
        rw [← logStatus_audit]
        simp only at h
        split at h <;> simp only [List.cons.injEq] at h <;> exact h.1.symm
      · rintro rfl -
        simp

/-- C77, what was done, with any number of sites.  If failures are not ignored and it is not a dry run, a baseline sync that succeeds
with something to do ends with a line that gives the numbers of resources that were missing and that were different, and says "SYNCED"
together with the number of files removed if there were no more to remove, and otherwise "PART SYNCED" with the number of files to be
removed.  Missing: dry runs and ignored failures (C77_violated). -/
theorem C77_sites_synced_partial (env : Env) (c : ClientCfg) (allow_deletion : Bool) (s : St) (sites : List (Map × Loc)) (src : Dict Resource)
    (hsites : Sites c env.cwd sites s.world.fs) (hh : ∀ t ∈ s.hashes, HashType t) (hk : ListsKeyed env.sources)
    (hfound : (findResourceList env.sources c.disc).2 = .ok src)
    (hd : c.dryrun = false) (hi : c.ignore_failures = false) (ht : 0 < c.tries)
    (hok : (baselineReport env c allow_deletion false s).2.1 = .ok ()) :
    ∃ same created updated deleted, ComparesAt sites src s.world.fs same created updated deleted ∧
      ((created = 0 ∧ updated = 0 ∧ deleted = 0 ∧ (baselineReport env c allow_deletion false s).2.2 = [auditLine "        IN SYNC" same 0 0 0]) ∨
      (¬ (created = 0 ∧ updated = 0 ∧ deleted = 0) ∧ ∃ last,
        (baselineReport env c allow_deletion false s).2.2 = [auditLine "    NOT IN SYNC" same created updated deleted, last] ∧
        last = if removals (doneBetween s (baselineReport env c allow_deletion false s).1) < deleted
          then doneLine "    PART SYNCED" "to delete (--delete)" same created updated deleted
          else doneLine "         SYNCED" "deleted" same created updated
            (removals (doneBetween s (baselineReport env c allow_deletion false s).1)))) := by
  obtain ⟨es, ht1, -, -⟩ := baseline_did env c allow_deletion false s
  rw [← baselineReport_run] at ht1
  simp only at ht1
  have hrem : removals (baselineReport env c allow_deletion false s).1.trace =
      removals s.trace + removals (doneBetween s (baselineReport env c allow_deletion false s).1) := by
    unfold doneBetween
    rw [ht1, List.drop_left, removals, List.countP_append]; rfl
  clear ht1
  revert hok hrem
  unfold baselineReport
  cases hp : baselinePlan env c false s with
  | mk s1 x =>
    cases x with
    | error e => intro hok; simp at hok
    | ok p =>
      obtain ⟨src', cmp⟩ := p
      have hs : src' = src := by
        obtain ⟨dst, hpl⟩ := baselinePlan_ok hp
        have := hpl.found
        rw [hfound] at this
        cases this; rfl
      subst hs
      obtain ⟨hcmp, hwf⟩ := compares_at hsites hh hk hp
      have hs1 : s1.trace = s.trace := by
        have := (baselinePlan_same env c false s).2.1
        rw [hp] at this
        exact this
      simp only [Bool.false_eq_true, false_or]
      rw [logStatus_audit]
      split
      · rename_i hz
        have z1 : cmp.created.length = 0 := by omega
        have z2 : cmp.updated.length = 0 := by omega
        have z3 : cmp.deleted.length = 0 := by omega
        intro _ _
        refine ⟨_, _, _, _, hcmp, .inl ⟨z1, z2, z3, ?_⟩⟩
        rw [if_pos ⟨z1, z2, z3⟩]
      · rename_i hz
        have hz' : ¬ (cmp.created.length = 0 ∧ cmp.updated.length = 0 ∧ cmp.deleted.length = 0) := by omega
        rw [if_neg hz']
        intro hok hrem
        refine ⟨_, _, _, _, hcmp, .inr ⟨hz', ?_⟩⟩
        revert hok hrem
        simp only [List.cons.injEq, true_and]
        unfold baselineSyncReport
        cases baselineAuthority c src' with
        | error e => intro hok; simp at hok
        | ok u =>
          simp only
          cases h1 : forCount (updateCount env c) (iterList cmp.created) { s1 with last_timestamp := 0 } 0 with
          | mk s2 x =>
          cases x with
          | error e => intro hok; simp at hok
          | ok n1 =>
          simp only
          cases h2 : forCount (updateCount env c) (iterList cmp.updated) s2 0 with
          | mk s3 x =>
          cases x with
          | error e => intro hok; simp at hok
          | ok n2 =>
          simp only
          cases h3 : forCount (deleteCount env c allow_deletion) (iterList cmp.deleted) s3 0 with
          | mk s4 x =>
          cases x with
          | error e => intro hok; simp at hok
          | ok n3 =>
          simp only
          have e1 : n1 = cmp.created.length := by
            have := forCount_ones _ _ _ _ _ (fun r _ s s' x h => updateCount_counts hd hi ht h) h1
            rw [this, iterList_length hwf.created]; omega
          have e2 : n2 = cmp.updated.length := by
            have := forCount_ones _ _ _ _ _ (fun r _ s s' x h => updateCount_counts hd hi ht h) h2
            rw [this, iterList_length hwf.updated]; omega
          have r1 := updates_removals _ _ _ _ _ h1
          have r2 := updates_removals _ _ _ _ _ h2
          have r3 := forCount_sum (fun s => removals s.trace) (fun r s s' x h => deleteCount_removals r s s' x h) _ _ _ _ _ h3
          simp only at r1 r3
          have r4 : ∀ s5 x, (if s4.last_timestamp > 0 then storeState env c s4 else (s4, .ok ())) = (s5, x) →
              removals s5.trace = removals s4.trace := by
            intro s5 x h
            split at h
            · unfold storeState at h
              repeat' split at h
              all_goals simp only [Prod.mk.injEq] at h
              all_goals rw [← h.1]
              simp [St.emit, removals, isRemoval, List.countP_append]
            · simp only [Prod.mk.injEq] at h
              rw [← h.1]
          cases h4 : (if s4.last_timestamp > 0 then storeState env c s4 else (s4, .ok ())) with
          | mk s5 x =>
          have r4' := r4 s5 x h4
          cases x with
          | error e => intro hok; simp at hok
          | ok u =>
            simp only
            intro _ hrem
            have e3 : n3 = removals (doneBetween s s5) := by
              rw [r4'] at hrem
              rw [hs1] at r1
              omega
            refine ⟨_, rfl, ?_⟩
            have e4 : (cmp.updated.length + cmp.deleted.length + cmp.created.length == 0) = false := by
              rw [beq_eq_false_iff_ne]; omega
            rw [e4, logStatus_done, e1, e2, e3]

/-- C109, kinds of events, with any number of sites: an event of a baseline sync says "created" of a resource of the source's list
without a file, "updated" of one whose file is another one, and "deleted" of a file not in the list; apart from this word, events about
fetched resources show the entry of the list. -/
theorem C109_sites_kinds_partial (env : Env) (c : ClientCfg) (allow_deletion audit_only : Bool) (s : St) (sites : List (Map × Loc)) (src : Dict Resource)
    (hsites : Sites c env.cwd sites s.world.fs) (hh : ∀ t ∈ s.hashes, HashType t) (hk : ListsKeyed env.sources)
    (hfound : (findResourceList env.sources c.disc).2 = .ok src) (ht : 0 < c.tries) (e : Resource)
    (he : .event e ∈ (baselineLog env c allow_deletion audit_only s).2.2) :
    (e.change = some "created".toList ∧ MissingAt sites src s.world.fs e.uri ∧
        ∃ r, (e.uri, r) ∈ src ∧ e = { r with change := some "created".toList }) ∨
    (e.change = some "updated".toList ∧ OutdatedAt sites src s.world.fs e.uri ∧
        ∃ r, (e.uri, r) ∈ src ∧ e = { r with change := some "updated".toList }) ∨
    (e.change = some "deleted".toList ∧ SurplusAt sites src s.world.fs e.uri) := by
  unfold baselineLog at he
  revert he
  cases hp : baselinePlan env c audit_only s with
  | mk s1 x =>
    cases x with
    | error e => intro he; simp at he
    | ok y =>
      obtain ⟨src', cmp⟩ := y
      simp only
      split
      · intro he; simp at he
      · intro he
        have hs : src' = src := by
          obtain ⟨dst, hpl⟩ := baselinePlan_ok hp
          have := hpl.found
          rw [hfound] at this
          cases this; rfl
        subst hs
        obtain ⟨dst, hpl⟩ := baselinePlan_ok hp
        have pf := planFacts hk hsites.proper hpl
        obtain ⟨hwf, k1, k2, k3⟩ := compares_sets_at hsites hh hk hp
        obtain ⟨es, -, -, -, -, h5⟩ := baselineSyncLog_step (env := env) ht allow_deletion src' cmp s1
        rcases h5 e he with ⟨r, hr, rfl⟩ | ⟨r, hr, rfl⟩ | ⟨r, hr, rfl⟩
        · have hg := (mem_iterList hwf.created).mp hr
          exact Or.inl ⟨rfl, (k1 r.uri).mp ⟨r, hg⟩, r, mem_of_dget (plan_upd_source pf (List.mem_append_left _ hr)), rfl⟩
        · have hg := (mem_iterList hwf.updated).mp hr
          exact Or.inr (Or.inl ⟨rfl, (k2 r.uri).mp ⟨r, hg⟩, r, mem_of_dget (plan_upd_source pf (List.mem_append_right _ hr)), rfl⟩)
        · have hg := (mem_iterList hwf.deleted).mp hr
          exact Or.inr (Or.inr ⟨rfl, (k3 r.uri).mp ⟨r, hg⟩⟩)

/-- C109, nothing is passed over in silence, with any number of sites: the log of a baseline sync that ends without an exception says of
each resource that is missing, outdated or surplus how it went, exactly once, and of no other. -/
theorem C109_sites_accounts (env : Env) (c : ClientCfg) (allow_deletion : Bool) (s : St) (sites : List (Map × Loc)) (src : Dict Resource)
    (hsites : Sites c env.cwd sites s.world.fs) (hh : ∀ t ∈ s.hashes, HashType t) (hk : ListsKeyed env.sources)
    (hfound : (findResourceList env.sources c.disc).2 = .ok src)
    (hok : (baselineLog env c allow_deletion false s).2.1 = .ok ()) :
    (outcomes (baselineLog env c allow_deletion false s).2.2).Nodup ∧
    ∀ u, u ∈ outcomes (baselineLog env c allow_deletion false s).2.2 ↔
      MissingAt sites src s.world.fs u ∨ OutdatedAt sites src s.world.fs u ∨ SurplusAt sites src s.world.fs u := by
  revert hok
  unfold baselineLog
  cases hp : baselinePlan env c false s with
  | mk s1 x =>
    cases x with
    | error e => intro hok; simp at hok
    | ok y =>
      obtain ⟨src', cmp⟩ := y
      have hs : src' = src := by
        obtain ⟨dst, hpl⟩ := baselinePlan_ok hp
        have := hpl.found
        rw [hfound] at this
        cases this; rfl
      subst hs
      obtain ⟨hwf, k1, k2, k3⟩ := compares_sets_at hsites hh hk hp
      simp only
      split
      · rename_i hz
        intro _
        have hz : cmp.created.length + cmp.updated.length + cmp.deleted.length = 0 := by simpa using hz
        have e1 : cmp.created = [] := List.length_eq_zero_iff.mp (by omega)
        have e2 : cmp.updated = [] := List.length_eq_zero_iff.mp (by omega)
        have e3 : cmp.deleted = [] := List.length_eq_zero_iff.mp (by omega)
        refine ⟨List.nodup_nil, fun u => ?_⟩
        rw [← k1, ← k2, ← k3, e1, e2, e3]
        simp [outcomes, dget]
      · intro hok
        rw [baselineSyncLog_outcomes hok]
        have mem : ∀ {d : Dict Resource}, WF d → ∀ u, u ∈ (iterList d).map (·.uri) ↔ ∃ r, dget d u = some r := by
          intro d hd u
          rw [List.mem_map]
          constructor
          · rintro ⟨r, hr, rfl⟩; exact ⟨r, (mem_iterList hd).mp hr⟩
          · rintro ⟨r, hr⟩
            have hu := hd.2 u r hr
            exact ⟨r, (mem_iterList hd).mpr (by rw [hu]; exact hr), hu⟩
        have nd : ∀ {d : Dict Resource}, WF d → ((iterList d).map (·.uri)).Nodup := by
          intro d hd
          rw [iterList_eq]
          rw [listing_uris hd]
          exact (sortStr_perm _).nodup_iff.mpr hd.1
        rw [List.map_append, List.map_append]
        constructor
        · refine List.Nodup.append (nd hwf.created) (List.Nodup.append (nd hwf.updated) (nd hwf.deleted) ?_) ?_
          · intro u h1 h2
            rw [mem hwf.updated, k2] at h1
            rw [mem hwf.deleted, k3] at h2
            obtain ⟨r, hr, -⟩ := h1
            exact h2.1 r hr
          · intro u h1 h2
            rw [mem hwf.created, k1] at h1
            rcases List.mem_append.mp h2 with h2 | h2
            · rw [mem hwf.updated, k2] at h2
              obtain ⟨r, -, b, t, hf, -⟩ := h2
              exact h1.2 b t hf
            · rw [mem hwf.deleted, k3] at h2
              obtain ⟨⟨r, hr⟩, -⟩ := h1
              exact h2.1 r hr
        · intro u
          rw [List.mem_append, List.mem_append, mem hwf.created, mem hwf.updated, mem hwf.deleted, k1, k2, k3]

namespace StatusSitesExample
open SitesExample

theorem found2 : (findResourceList env2.sources cfg2.disc).2 = .ok (ClientExample.listOf rl) := by decide +kernel

/-- with two sites there is a file to be updated below the first, one to be created below the second, and one to be deleted below each -/
example : (baselineReport env2 cfg2 true true s2).2.2 = ["Status:     NOT IN SYNC (same=0, to create=1, to update=1, to delete=2)".toList] ∧
    (baselineReport env2 cfg2 true false s2).2.1 = .ok () ∧
    (baselineReport env2 cfg2 true false s2).2.2 = ["Status:     NOT IN SYNC (same=0, to create=1, to update=1, to delete=2)".toList,
      "Status:          SYNCED (same=0, created=1, updated=1, deleted=2)".toList] := by
  refine ⟨by decide +kernel, by decide +kernel, by decide +kernel⟩

/-- the theorems apply to it -/
example : ∃ first, (baselineReport env2 cfg2 true true s2).2.2 = [first] :=
  (C77_sites_audit env2 cfg2 true true s2 two (ClientExample.listOf rl) sites2 (by simp [s2]) keyed2 found2).2 rfl (by decide +kernel)

example : ∃ same created updated deleted, ComparesAt two (ClientExample.listOf rl) s2.world.fs same created updated deleted := by
  obtain ⟨a, b, c, d, h, -⟩ := C77_sites_synced_partial env2 cfg2 true s2 two (ClientExample.listOf rl) sites2 (by simp [s2]) keyed2 found2
    rfl rfl (by decide) (by decide +kernel)
  exact ⟨a, b, c, d, h⟩

/-- the log says of a file below the second destination, which is not in the list, how it went -/
example : SurplusAt two (ClientExample.listOf rl) s2.world.fs "http://t/x/old".toList ∧
    "http://t/x/old".toList ∈ outcomes (baselineLog env2 cfg2 true false s2).2.2 := by
  have h : SurplusAt two (ClientExample.listOf rl) s2.world.fs "http://t/x/old".toList := by
    refine ⟨fun r hr => ?_, [7], 50, (mT, ["e".toList, "f".toList]), by simp [two], ["old".toList], by decide, by decide, by unfold IsFile; decide⟩
    have := List.mem_map_of_mem (f := Prod.fst) hr
    revert this
    generalize hk : (ClientExample.listOf rl).map Prod.fst = ks
    have : ks = ["http://s/a".toList, "http://t/x/b/c".toList] := by rw [← hk]; decide +kernel
    rw [this]; exact (by decide : ¬ "http://t/x/old".toList ∈ ["http://s/a".toList, "http://t/x/b/c".toList])
  exact ⟨h, ((C109_sites_accounts env2 cfg2 true s2 two (ClientExample.listOf rl) sites2 (by simp [s2]) keyed2 found2 (by decide +kernel)).2 _).mpr
    (.inr (.inr h))⟩

/-- the events of this run, to each of which the theorem about kinds of events applies -/
example : ((baselineLog env2 cfg2 true false s2).2.2.filterMap (fun | .event e => some (e.change, e.uri) | _ => none)) =
    [(some "created".toList, "http://t/x/b/c".toList), (some "updated".toList, "http://s/a".toList),
     (some "deleted".toList, "http://s/old".toList), (some "deleted".toList, "http://t/x/old".toList)] := by decide +kernel

example (e : Resource) (he : .event e ∈ (baselineLog env2 cfg2 true false s2).2.2) (hc : e.change = some "created".toList) :
    MissingAt two (ClientExample.listOf rl) s2.world.fs e.uri := by
  rcases C109_sites_kinds_partial env2 cfg2 true false s2 two (ClientExample.listOf rl) sites2 (by simp [s2]) keyed2 found2 (by decide) e he with
    h | h | h
  · exact h.2.1
  · rw [h.1] at hc; exact absurd hc (by decide)
  · rw [h.1] at hc; exact absurd hc (by decide)

end StatusSitesExample

end Resync
