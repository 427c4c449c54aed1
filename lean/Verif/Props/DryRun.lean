import Verif.Proofs.DryRun
import Verif.Props.Locality
import Verif.Props.ClientStatus
/-
C122: A dry run announces what a real run will do.
-/

namespace Resync
open Py Resync.Spec

/-- the end of both kinds of run: the state is recorded, or not -/
theorem performs_end (env : Env) (c : ClientCfg) {planned : List Deed} {log : List LogMsg} {s s1 : St} {es : List Effect}
    (h1 : s1.trace = s.trace ++ es) (h2 : DoesInTurn env.cwd planned True log es) (ok : Prop) :
    PerformsPlan env.cwd planned ok log (doneBetween s (if s1.last_timestamp > 0 then storeState env c s1 else (s1, .ok ())).1) := by
  have hany : ∀ ok : Prop, DoesInTurn env.cwd planned ok log es := fun ok => doesInTurn_done h2 trivial
  split
  · obtain ⟨es2, d1, -, d3⟩ := (storeState_did env c s1).1
    refine ⟨es, es2, doneBetween_eq (by rw [d1, h1, List.append_assoc]), hany _, ?_⟩
    intro e he
    obtain ⟨_, text, -, -, rfl⟩ := d3 e he
    exact ⟨text, rfl⟩
  · exact ⟨es, [], doneBetween_eq (by rw [List.append_nil]; exact h1), hany _, by simp⟩

/-- a run that stops before its end -/
theorem performs_stop {cwd : Loc} {planned : List Deed} {ok : Prop} {log : List LogMsg} {s s1 : St} {es : List Effect}
    (h1 : s1.trace = s.trace ++ es) (h2 : DoesInTurn cwd planned ok log es) : PerformsPlan cwd planned ok log (doneBetween s s1) := by
  refine ⟨es, [], doneBetween_eq (by rw [List.append_nil]; exact h1), ?_, by simp⟩
  obtain ⟨a, b, r, p1, p2, p3⟩ := h2
  exact ⟨a, b, r, p1, p2, p3.imp id (fun h => ⟨by simpa using h.1, h.2⟩)⟩

theorem performs_nothing {cwd : Loc} {ok : Prop} {log : List LogMsg} {s s1 : St} (h : s1.trace = s.trace) :
    PerformsPlan cwd [] ok log (doneBetween s s1) :=
  performs_stop (es := []) (by simp [h]) (doesInTurn_nil _ _)

theorem baseline_performs (env : Env) (cd cr : ClientCfg) (allow_deletion audit_only : Bool) (s : St) (hd : cd.dryrun = true) (hr : cr.dryrun = false)
    (ht : 0 < cr.tries) (hdisc : cd.disc = cr.disc) (hplan : baselinePlan env cd audit_only s = baselinePlan env cr audit_only s)
    (hauth : ∀ src, baselineAuthority cd src = baselineAuthority cr src)
    (hdry : (baselineLog env cd allow_deletion audit_only s).2.1 = .ok ()) :
    PerformsPlan env.cwd (announcedIn (baselineLog env cd allow_deletion audit_only s).2.2)
      ((baselineLog env cr allow_deletion audit_only s).2.1 = .ok ()) (baselineLog env cr allow_deletion audit_only s).2.2
      (doneBetween s (baselineLog env cr allow_deletion audit_only s).1) := by
  have hF : fetchItem cd = fetchItem cr := by funext r; unfold fetchItem; rw [hdisc]
  have hR : removeItem cd allow_deletion = removeItem cr allow_deletion := by funext r; unfold removeItem; rw [hdisc]
  have hM : ∀ r, IsMapped cd r → IsMapped cr r := by intro r; unfold IsMapped; rw [hdisc]; exact id
  revert hdry
  unfold baselineLog
  rw [hplan]
  obtain ⟨-, p2, -⟩ := baselinePlan_same env cr audit_only s
  rcases hp : baselinePlan env cr audit_only s with ⟨s1, x⟩
  rw [hp] at p2
  simp only at p2
  cases x with
  | error e => intro h; cases h
  | ok y =>
    obtain ⟨src, cmp⟩ := y
    simp only
    by_cases hn : audit_only = true ∨ cmp.created.length + cmp.updated.length + cmp.deleted.length = 0
    · rw [if_pos hn, if_pos hn]
      exact fun _ => performs_nothing p2
    rw [if_neg hn, if_neg hn]
    unfold baselineSyncLog
    rw [hauth]
    cases baselineAuthority cr src with
    | error e => intro h; cases h
    | ok u =>
      simp only
      -- the dry run
      rcases h1 : forLog (updateOneLog env cd sCreated) (iterList cmp.created) { s1 with last_timestamp := 0 } with ⟨t1, x1, l1⟩
      have k1 := forLog_dry (updateOneLog_dry (env := env) hd sCreated) (iterList cmp.created) { s1 with last_timestamp := 0 }
      rw [h1] at k1
      cases x1 with
      | error e => intro h; cases h
      | ok u =>
      simp only
      rcases h2 : forLog (updateOneLog env cd sUpdated) (iterList cmp.updated) t1 with ⟨t2, x2, l2⟩
      have k2 := forLog_dry (updateOneLog_dry (env := env) hd sUpdated) (iterList cmp.updated) t1
      rw [h2] at k2
      cases x2 with
      | error e => intro h; cases h
      | ok u =>
      simp only
      rcases h3 : forLog (deleteOneLog env cd allow_deletion) (iterList cmp.deleted) t2 with ⟨t3, x3, l3⟩
      have k3 := forLog_dry (deleteOneLog_dry (env := env) hd allow_deletion) (iterList cmp.deleted) t2
      rw [h3] at k3
      cases x3 with
      | error e => intro h; cases h
      | ok u =>
      obtain ⟨g1, a1⟩ := k1 rfl
      obtain ⟨g2, a2⟩ := k2 rfl
      obtain ⟨g3, a3⟩ := k3 rfl
      simp only [hF, hR] at a1 a2 a3
      intro _
      simp only [announcedIn_append, a1, a2, a3]
      -- the real one
      have i1 := (forLog_real (env := env) (iterList cmp.created) (fun r hr' s => updateOneLog_real hr ht sCreated (hM r (g1 r hr')) s)
        { s1 with last_timestamp := 0 }).does
      rcases f1 : forLog (updateOneLog env cr sCreated) (iterList cmp.created) { s1 with last_timestamp := 0 } with ⟨u1, y1, m1⟩
      rw [f1] at i1
      obtain ⟨e1, i1, j1⟩ := i1
      simp only at i1 j1
      rw [p2] at i1
      cases y1 with
      | error e => exact performs_stop i1 (doesInTurn_stop _ j1 (by intro h; cases h))
      | ok v =>
      simp only
      have i2 := (forLog_real (env := env) (iterList cmp.updated) (fun r hr' s => updateOneLog_real hr ht sUpdated (hM r (g2 r hr')) s)
        u1).does
      rcases f2 : forLog (updateOneLog env cr sUpdated) (iterList cmp.updated) u1 with ⟨u2, y2, m2⟩
      rw [f2] at i2
      obtain ⟨e2, i2, j2⟩ := i2
      simp only at i2 j2
      rw [i1, List.append_assoc] at i2
      cases y2 with
      | error e =>
        exact performs_stop i2 (doesInTurn_seq j1 rfl (doesInTurn_stop _ j2 (by intro h; cases h)))
      | ok v =>
      simp only
      have i3 := (forLog_real (env := env) (iterList cmp.deleted) (fun r hr' s => deleteOneLog_real hr allow_deletion (hM r (g3 r hr')) s)
        u2).does
      rcases f3 : forLog (deleteOneLog env cr allow_deletion) (iterList cmp.deleted) u2 with ⟨u3, y3, m3⟩
      rw [f3] at i3
      obtain ⟨e3, i3, j3⟩ := i3
      simp only at i3 j3
      rw [i2, List.append_assoc, List.append_assoc] at i3
      cases y3 with
      | error e =>
        exact performs_stop i3 (doesInTurn_seq j1 rfl (doesInTurn_seq j2 rfl (doesInTurn_none j3 (by intro h; cases h))))
      | ok v =>
        exact performs_end env cr i3
          (doesInTurn_seq j1 rfl (doesInTurn_seq j2 rfl (doesInTurn_done j3 rfl))) _

theorem incremental_performs (env : Env) (cd cr : ClientCfg) (allow_deletion : Bool) (uri from_datetime : Option Str) (s : St) (hd : cd.dryrun = true)
    (hr : cr.dryrun = false) (ht : 0 < cr.tries) (hdisc : cd.disc = cr.disc)
    (hplan : incrementalPlan env cd uri from_datetime s = incrementalPlan env cr uri from_datetime s)
    (hdry : (incrementalLog env cd allow_deletion uri from_datetime s).2.1 = .ok ()) :
    PerformsPlan env.cwd (announcedIn (incrementalLog env cd allow_deletion uri from_datetime s).2.2)
      ((incrementalLog env cr allow_deletion uri from_datetime s).2.1 = .ok ()) (incrementalLog env cr allow_deletion uri from_datetime s).2.2
      (doneBetween s (incrementalLog env cr allow_deletion uri from_datetime s).1) := by
  have hF : changeItem cd allow_deletion = changeItem cr allow_deletion := by
    funext r; unfold changeItem fetchItem removeItem; rw [hdisc]
  have hM : ∀ r, IsMapped cd r → IsMapped cr r := by intro r; unfold IsMapped; rw [hdisc]; exact id
  revert hdry
  unfold incrementalLog
  rw [hplan]
  obtain ⟨-, p2⟩ := incrementalPlan_same env cr uri from_datetime s
  rcases hp : incrementalPlan env cr uri from_datetime s with ⟨s1, x⟩
  rw [hp] at p2
  simp only at p2
  cases x with
  | error e => intro h; cases h
  | ok cl =>
    simp only
    by_cases hn : cl = [] ∨ (cl.all (fun r => r.change = some sDeleted) = true ∧ ¬ allow_deletion = true)
    · rw [if_pos hn, if_pos hn]
      exact fun _ => performs_nothing p2
    rw [if_neg hn, if_neg hn]
    rcases h1 : forLog (applyOneLog env cd allow_deletion) cl s1 with ⟨t1, x1, l1⟩
    have k1 := forLog_dry (applyOneLog_dry (env := env) hd allow_deletion) cl s1
    rw [h1] at k1
    cases x1 with
    | error e => intro h; cases h
    | ok u =>
      obtain ⟨g1, a1⟩ := k1 rfl
      simp only [hF] at a1
      intro _
      simp only [a1]
      have i1 := (forLog_real (env := env) cl (fun r hr' s => applyOneLog_real hr ht allow_deletion ⟨hM r (g1 r hr').1, (g1 r hr').2⟩ s) s1).does
      rcases f1 : forLog (applyOneLog env cr allow_deletion) cl s1 with ⟨u1, y1, m1⟩
      rw [f1] at i1
      obtain ⟨e1, i1, j1⟩ := i1
      simp only at i1 j1
      rw [p2] at i1
      cases y1 with
      | error e => exact performs_stop i1 (doesInTurn_none j1 (by intro h; cases h))
      | ok v => exact performs_end env cr i1 (doesInTurn_done j1 rfl) _

/-- C122.  After a dry run of a baseline sync that has ended well, a real run in the same situation does what the dry run has announced,
in the same order and nothing else: it requests each of the resources announced and writes it to the file announced, and removes each of the
files announced or reports that this has failed.  If it does not end well then it has done this for the first of them. -/
theorem C122_baseline (env : Env) (c : ClientCfg) (allow_deletion audit_only : Bool) (s : St) (ht : 0 < c.tries)
    (hdry : (baselineLog env { c with dryrun := true } allow_deletion audit_only s).2.1 = .ok ()) :
    let announced := announcedIn (baselineLog env { c with dryrun := true } allow_deletion audit_only s).2.2
    let real := baselineLog env { c with dryrun := false } allow_deletion audit_only s
    PerformsPlan env.cwd announced (real.2.1 = .ok ()) real.2.2 (doneBetween s real.1) :=
  baseline_performs env { c with dryrun := true } { c with dryrun := false } allow_deletion audit_only s rfl rfl ht rfl rfl (fun _ => rfl) hdry

/-- C122 for incremental syncs -/
theorem C122_incremental (env : Env) (c : ClientCfg) (allow_deletion : Bool) (uri from_datetime : Option Str) (s : St) (ht : 0 < c.tries)
    (hdry : (incrementalLog env { c with dryrun := true } allow_deletion uri from_datetime s).2.1 = .ok ()) :
    let announced := announcedIn (incrementalLog env { c with dryrun := true } allow_deletion uri from_datetime s).2.2
    let real := incrementalLog env { c with dryrun := false } allow_deletion uri from_datetime s
    PerformsPlan env.cwd announced (real.2.1 = .ok ()) real.2.2 (doneBetween s real.1) :=
  incremental_performs env { c with dryrun := true } { c with dryrun := false } allow_deletion uri from_datetime s rfl rfl ht rfl rfl hdry

/-- the number of resources to be fetched -/
theorem fetches_count {c : ClientCfg} : ∀ {rs : List Resource}, (∀ r ∈ rs, IsMapped c r) →
    (rs.flatMap (fetchItem c)).countP isFetchDeed = rs.length ∧ (rs.flatMap (fetchItem c)).countP isRemovalDeed = 0
  | [], _ => ⟨rfl, rfl⟩
  | r :: rs, h => by
    obtain ⟨fn, hfn⟩ := h r List.mem_cons_self
    obtain ⟨i1, i2⟩ := fetches_count (rs := rs) (fun r' hr => h r' (List.mem_cons_of_mem _ hr))
    have e : fetchItem c r = [.fetch r.uri fn] := by unfold fetchItem; rw [hfn]
    rw [List.flatMap_cons, e, List.countP_append, List.countP_append, i1, i2, List.length_cons]
    exact ⟨Nat.add_comm _ _, rfl⟩

theorem removals_count {c : ClientCfg} : ∀ {rs : List Resource}, (∀ r ∈ rs, IsMapped c r) →
    (rs.flatMap (removeItem c true)).countP isRemovalDeed = rs.length ∧ (rs.flatMap (removeItem c true)).countP isFetchDeed = 0
  | [], _ => ⟨rfl, rfl⟩
  | r :: rs, h => by
    obtain ⟨fn, hfn⟩ := h r List.mem_cons_self
    obtain ⟨i1, i2⟩ := removals_count (rs := rs) (fun r' hr => h r' (List.mem_cons_of_mem _ hr))
    have e : removeItem c true r = [.remove r.uri fn] := by unfold removeItem; rw [hfn]; rfl
    rw [List.flatMap_cons, e, List.countP_append, List.countP_append, i1, i2, List.length_cons]
    exact ⟨Nat.add_comm _ _, rfl⟩

/-- C122, audits.  The numbers in the line an audit prints are those of the resources a dry run in the same situation says it would get (to be
created and to be updated, together) and would delete. -/
theorem C122_audit (env : Env) (c : ClientCfg) (s : St) (hk : ListsKeyed env.sources) (hfs : ProperFs s.world.fs) (hc : c.dryrun = true)
    (hdry : (baselineLog env c true false s).2.1 = .ok ()) :
    ∃ same created updated deleted,
      (baselineReport env c true true s).2 = (.ok (), [if created = 0 ∧ updated = 0 ∧ deleted = 0 then auditLine "        IN SYNC" same 0 0 0
        else auditLine "    NOT IN SYNC" same created updated deleted]) ∧
      (announcedIn (baselineLog env c true false s).2.2).countP isFetchDeed = created + updated ∧
      (announcedIn (baselineLog env c true false s).2.2).countP isRemovalDeed = deleted := by
  revert hdry
  unfold baselineLog baselineReport
  rcases hp : baselinePlan env c false s with ⟨s1, x⟩
  cases x with
  | error e => intro h; cases h
  | ok y =>
    obtain ⟨src, cmp⟩ := y
    obtain ⟨dst, hpl⟩ := baselinePlan_ok hp
    have hw := (planFacts hk hfs hpl).cmp.wf
    have hp' : baselinePlan env c true s = (s1, .ok (src, cmp)) := by
      rw [← hp]
      unfold baselinePlan
      rw [hpl.safe rfl]
      rfl
    rw [hp']
    simp only [Bool.false_eq_true, false_or, true_or, if_true]
    intro hdry
    refine ⟨cmp.same.length, cmp.created.length, cmp.updated.length, cmp.deleted.length, ?_, ?_⟩
    · rw [← logStatus_audit]
    by_cases hn : cmp.created.length + cmp.updated.length + cmp.deleted.length = 0
    · rw [if_pos hn]
      exact ⟨by show 0 = _; omega, by show 0 = _; omega⟩
    rw [if_neg hn] at hdry ⊢
    revert hdry
    unfold baselineSyncLog
    cases baselineAuthority c src with
    | error e => intro h; cases h
    | ok u =>
      simp only
      rcases h1 : forLog (updateOneLog env c sCreated) (iterList cmp.created) { s1 with last_timestamp := 0 } with ⟨t1, x1, l1⟩
      have k1 := forLog_dry (updateOneLog_dry (env := env) hc sCreated) (iterList cmp.created) { s1 with last_timestamp := 0 }
      rw [h1] at k1
      cases x1 with
      | error e => intro h; cases h
      | ok u =>
      simp only
      rcases h2 : forLog (updateOneLog env c sUpdated) (iterList cmp.updated) t1 with ⟨t2, x2, l2⟩
      have k2 := forLog_dry (updateOneLog_dry (env := env) hc sUpdated) (iterList cmp.updated) t1
      rw [h2] at k2
      cases x2 with
      | error e => intro h; cases h
      | ok u =>
      simp only
      rcases h3 : forLog (deleteOneLog env c true) (iterList cmp.deleted) t2 with ⟨t3, x3, l3⟩
      have k3 := forLog_dry (deleteOneLog_dry (env := env) hc true) (iterList cmp.deleted) t2
      rw [h3] at k3
      cases x3 with
      | error e => intro h; cases h
      | ok u =>
      intro _
      obtain ⟨g1, a1⟩ := k1 rfl
      obtain ⟨g2, a2⟩ := k2 rfl
      obtain ⟨g3, a3⟩ := k3 rfl
      simp only at a1 a2 a3
      obtain ⟨n1, n2⟩ := fetches_count g1
      obtain ⟨n3, n4⟩ := fetches_count g2
      obtain ⟨n5, n6⟩ := removals_count g3
      have len : ∀ {d : Dict Resource}, WF d → (iterList d).length = d.length := fun h => by rw [iterList_eq, listing_len h]
      simp only [announcedIn_append, a1, a2, a3, List.countP_append, n1, n2, n3, n4, n5, n6, len hw.created, len hw.updated, len hw.deleted]
      exact ⟨by omega, by omega⟩

namespace DryRunExample
open SitesExample

/-- the dry run ends well, and announces two transfers and two removals -/
theorem dry2 : (baselineLog env2 { cfg2 with dryrun := true } true false s2).2.1 = .ok () ∧
    announcedIn (baselineLog env2 { cfg2 with dryrun := true } true false s2).2.2 =
      [.fetch "http://t/x/b/c".toList "/e/f/b/c".toList, .fetch "http://s/a".toList "/d/a".toList,
       .remove "http://s/old".toList "/d/old".toList, .remove "http://t/x/old".toList "/e/f/old".toList] := by
  decide +kernel

example : PerformsPlan env2.cwd [.fetch "http://t/x/b/c".toList "/e/f/b/c".toList, .fetch "http://s/a".toList "/d/a".toList,
       .remove "http://s/old".toList "/d/old".toList, .remove "http://t/x/old".toList "/e/f/old".toList] True
      (baselineLog env2 cfg2 true false s2).2.2 (doneBetween s2 (baselineLog env2 cfg2 true false s2).1) := by
  have h := C122_baseline env2 cfg2 true false s2 (by decide) dry2.1
  rw [dry2.2] at h
  have hok : (baselineLog env2 { cfg2 with dryrun := false } true false s2).2.1 = .ok () := by decide +kernel
  simp only [hok] at h
  exact h

example : ∃ same created updated deleted,
    (baselineReport env2 { cfg2 with dryrun := true } true true s2).2.2 = [if created = 0 ∧ updated = 0 ∧ deleted = 0 then
      auditLine "        IN SYNC" same 0 0 0 else auditLine "    NOT IN SYNC" same created updated deleted] ∧ created + updated = 2 ∧ deleted = 2 := by
  obtain ⟨a, b, c, d, h1, h2, h3⟩ := C122_audit env2 { cfg2 with dryrun := true } s2 keyed2 sites2.proper rfl dry2.1
  rw [dry2.2] at h2 h3
  exact ⟨a, b, c, d, congrArg Prod.snd h1, h2.symm.trans (by decide), h3.symm.trans (by decide)⟩

/-- an incremental sync: one transfer and one removal -/
theorem dry5 : (incrementalLog LocalityExample.env5 { cfg2 with dryrun := true } true (some "http://s/cl.xml".toList)
      (some "1970-01-01T00:00:00Z".toList) s2).2.1 = .ok () ∧
    announcedIn (incrementalLog LocalityExample.env5 { cfg2 with dryrun := true } true (some "http://s/cl.xml".toList)
      (some "1970-01-01T00:00:00Z".toList) s2).2.2 =
      [.fetch "http://s/a".toList "/d/a".toList, .remove "http://t/x/old".toList "/e/f/old".toList] := by
  decide +kernel

example : PerformsPlan env2.cwd [.fetch "http://s/a".toList "/d/a".toList, .remove "http://t/x/old".toList "/e/f/old".toList] True
    (incrementalLog LocalityExample.env5 cfg2 true (some "http://s/cl.xml".toList) (some "1970-01-01T00:00:00Z".toList) s2).2.2
    (doneBetween s2 (incrementalLog LocalityExample.env5 cfg2 true (some "http://s/cl.xml".toList) (some "1970-01-01T00:00:00Z".toList) s2).1) := by
  have h := C122_incremental LocalityExample.env5 cfg2 true (some "http://s/cl.xml".toList) (some "1970-01-01T00:00:00Z".toList) s2 (by decide) dry5.1
  rw [dry5.2] at h
  have hok : (incrementalLog LocalityExample.env5 { cfg2 with dryrun := false } true (some "http://s/cl.xml".toList)
      (some "1970-01-01T00:00:00Z".toList) s2).2.1 = .ok () := by decide +kernel
  simp only [hok] at h
  exact h

end DryRunExample

end Resync
