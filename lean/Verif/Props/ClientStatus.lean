import Verif.Proofs.ClientStatus
import Verif.Props.ClientResult
/-
C77: what the status lines of audits and syncs say.
-/

namespace Resync
open Py Resync.Spec

theorem compares {env : Env} {c : ClientCfg} {audit : Bool} {s s1 : St} {m : Map} {root : Loc} {src : Dict Resource} {cmp : Comparison}
    (hone : OneSite c env.cwd m root s.world.fs) (hh : ∀ t ∈ s.hashes, HashType t) (hk : ListsKeyed env.sources)
    (hp : baselinePlan env c audit s = (s1, .ok (src, cmp))) :
    Compares m root src s.world.fs cmp.same.length cmp.created.length cmp.updated.length cmp.deleted.length ∧ AllWF cmp := by
  obtain ⟨dst, hpl⟩ := baselinePlan_ok hp
  have pf := planFacts hk hone.proper hpl
  have hw := pf.wf
  obtain ⟨dst', k1, k2⟩ := hone.scan env.lib (leftHashes s src) (fun t ht => hh t (leftHashes_sub ht))
  have hdst : dst' = dst := by
    have := hpl.scan
    rw [k1] at this
    cases this; rfl
  subst hdst
  have hmem : ∀ u r, (u, r) ∈ src ↔ dget src u = some r := fun u r => ⟨dget_of_mem hw.1, mem_of_dget⟩
  have hloc : ∀ u b t, LocalFile m root s.world.fs u b t ↔ ∃ names, names ≠ [] ∧ u = uriBelow m names ∧ IsFile s.world.fs (root ++ names) b t :=
    fun _ _ _ => Iff.rfl
  -- what there is of a local file
  have hfile : ∀ u a, dget dst' u = some a → ∃ b t, LocalFile m root s.world.fs u b t ∧
      (∀ r, (u, r) ∈ src → (a.eq (some r) = true ↔ Agrees r b t)) ∧ ∀ b' t', LocalFile m root s.world.fs u b' t' → b' = b ∧ t' = t := by
    intro u a ha
    obtain ⟨names, b, t, hne, hf, rfl, rfl⟩ := (k2 u a).mp ha
    refine ⟨b, t, ⟨names, hne, rfl, hf⟩, fun r hr => describes_eq hw ((hmem _ _).mp hr), ?_⟩
    rintro b' t' ⟨names', hne', e, hf'⟩
    have := uriBelow_inj hne hne' (fun n hn => (names_of_file hone.tidy hne hf n hn).1) (fun n hn => (names_of_file hone.tidy hne' hf' n hn).1) e
    subst this
    unfold IsFile at hf hf'
    rw [hf] at hf'
    simp only [Option.some.injEq, FsNode.file.injEq] at hf'
    exact ⟨hf'.1.symm, hf'.2.symm⟩
  have hnone : ∀ u, dget dst' u = none ↔ ∀ b t, ¬ LocalFile m root s.world.fs u b t := by
    intro u
    constructor
    · rintro h b t ⟨names, hne, e, hf⟩
      have := (k2 u _).mpr ⟨names, b, t, hne, hf, e, rfl⟩
      rw [h] at this
      cases this
    · intro h
      cases e : dget dst' u with
      | none => rfl
      | some a =>
        obtain ⟨b, t, h1, -⟩ := hfile u a e
        exact absurd h1 (h b t)
  have hc := pf.cmp
  refine ⟨⟨count_dict hc.wf.same ?_, count_dict hc.wf.created ?_, count_dict hc.wf.updated ?_, count_dict hc.wf.deleted ?_⟩, hc.wf⟩
  · intro u
    simp only [hc.same]
    constructor
    · rintro ⟨a, h1, r, h2, h3⟩
      obtain ⟨b, t, f1, f2, -⟩ := hfile u a h1
      exact ⟨r, mem_of_dget h2, b, t, f1, (f2 r (mem_of_dget h2)).mp h3⟩
    · rintro ⟨r, h1, b, t, h2, h3⟩
      cases e : dget dst' u with
      | none => exact absurd h2 ((hnone u).mp e b t)
      | some a =>
        obtain ⟨b', t', f1, f2, f3⟩ := hfile u a e
        obtain ⟨rfl, rfl⟩ := f3 b t h2
        exact ⟨a, rfl, r, (hmem _ _).mp h1, (f2 r h1).mpr h3⟩
  · intro u
    simp only [hc.created, hnone, hmem]
    constructor
    · rintro ⟨r, h1, h2⟩; exact ⟨⟨r, h1⟩, h2⟩
    · rintro ⟨⟨r, h1⟩, h2⟩; exact ⟨r, h1, h2⟩
  · intro u
    simp only [hc.updated]
    constructor
    · rintro ⟨r, h1, a, h2, h3⟩
      obtain ⟨b, t, f1, f2, -⟩ := hfile u a h2
      refine ⟨r, mem_of_dget h1, b, t, f1, fun h => ?_⟩
      rw [(f2 r (mem_of_dget h1)).mpr h] at h3
      cases h3
    · rintro ⟨r, h1, b, t, h2, h3⟩
      cases e : dget dst' u with
      | none => exact absurd h2 ((hnone u).mp e b t)
      | some a =>
        obtain ⟨b', t', f1, f2, f3⟩ := hfile u a e
        obtain ⟨rfl, rfl⟩ := f3 b t h2
        refine ⟨r, (hmem _ _).mp h1, a, rfl, ?_⟩
        rw [← Bool.not_eq_true, f2 r h1]
        exact h3
  · intro u
    simp only [hc.deleted]
    constructor
    · rintro ⟨a, h1, h2⟩
      obtain ⟨b, t, f1, -⟩ := hfile u a h1
      refine ⟨fun r hr => ?_, b, t, f1⟩
      rw [(hmem _ _).mp hr] at h2
      cases h2
    · rintro ⟨h1, b, t, h2⟩
      cases e : dget dst' u with
      | none => exact absurd h2 ((hnone u).mp e b t)
      | some a =>
        refine ⟨a, rfl, ?_⟩
        cases e2 : dget src u with
        | none => rfl
        | some r => exact absurd ((hmem _ _).mpr e2) (h1 r)

theorem lit_same : " (same=".toList = " (".toList ++ "same=".toList := by decide
theorem lit_toCreate : ", to create=".toList = ", ".toList ++ ("to create".toList ++ "=".toList) := by decide
theorem lit_toUpdate : ", to update=".toList = ", ".toList ++ ("to update".toList ++ "=".toList) := by decide
theorem lit_toDelete : ", to delete=".toList = ", ".toList ++ ("to delete".toList ++ "=".toList) := by decide
theorem lit_created : ", created=".toList = ", ".toList ++ ("created".toList ++ "=".toList) := by decide
theorem lit_created' : " (created=".toList = " (".toList ++ ("created".toList ++ "=".toList) := by decide
theorem lit_updated : ", updated=".toList = ", ".toList ++ ("updated".toList ++ "=".toList) := by decide
theorem lit_deleted : ", deleted=".toList = ", ".toList ++ ("deleted".toList ++ "=".toList) := by decide

theorem pad_inSync : padLeft 15 "IN SYNC".toList = "        IN SYNC".toList := by decide
theorem pad_notInSync : padLeft 15 "NOT IN SYNC".toList = "    NOT IN SYNC".toList := by decide
theorem pad_part : padLeft 15 "PART SYNCED".toList = "    PART SYNCED".toList := by decide
theorem pad_synced : padLeft 15 "SYNCED".toList = "         SYNCED".toList := by decide
theorem pad_noChanges : padLeft 15 "NO CHANGES".toList = "     NO CHANGES".toList := by decide
theorem pad_changes : padLeft 15 "CHANGES APPLIED".toList = "CHANGES APPLIED".toList := by decide

theorem logStatus_inSync (same created updated deleted : Nat) :
    logStatus true false true (some same) created updated deleted 0 = auditLine "        IN SYNC" same created updated deleted := by
  unfold logStatus auditLine
  rw [lit_same, lit_toCreate, lit_toUpdate, lit_toDelete]
  simp only [if_true, Bool.false_eq_true, if_false, pad_inSync, List.append_assoc]

theorem logStatus_notInSync (same created updated deleted : Nat) :
    logStatus false false true (some same) created updated deleted 0 = auditLine "    NOT IN SYNC" same created updated deleted := by
  unfold logStatus auditLine
  rw [lit_same, lit_toCreate, lit_toUpdate, lit_toDelete]
  simp only [if_true, Bool.false_eq_true, if_false, pad_notInSync, List.append_assoc]

/-- the text before anything is done -/
theorem logStatus_audit (same created updated deleted : Nat) :
    logStatus (updated + deleted + created == 0) false true (some same) created updated deleted 0 =
      if created = 0 ∧ updated = 0 ∧ deleted = 0 then auditLine "        IN SYNC" same 0 0 0
      else auditLine "    NOT IN SYNC" same created updated deleted := by
  by_cases h : created = 0 ∧ updated = 0 ∧ deleted = 0
  · rw [if_pos h]
    obtain ⟨rfl, rfl, rfl⟩ := h
    exact logStatus_inSync same 0 0 0
  · rw [if_neg h]
    have e2 : (updated + deleted + created == 0) = false := by
      rw [beq_eq_false_iff_ne]; omega
    rw [e2, logStatus_notInSync]

theorem logStatus_done (same created updated deleted to_delete : Nat) :
    logStatus false false false (some same) created updated deleted to_delete =
      if deleted < to_delete then doneLine "    PART SYNCED" "to delete (--delete)" same created updated to_delete
      else doneLine "         SYNCED" "deleted" same created updated deleted := by
  unfold logStatus doneLine
  rw [lit_same, lit_created, lit_updated]
  by_cases h : deleted < to_delete
  · simp only [Bool.false_eq_true, if_false, gt_iff_lt, if_pos h, pad_part, List.append_assoc]
  · simp only [Bool.false_eq_true, if_false, gt_iff_lt, if_neg h, pad_synced, List.append_assoc]

theorem logStatus_no_changes (created updated deleted to_delete : Nat) :
    logStatus true true false none created updated deleted to_delete = changesLine "     NO CHANGES" created updated deleted := by
  unfold logStatus changesLine
  rw [lit_created', lit_updated, lit_deleted]
  simp only [if_true, Bool.false_eq_true, if_false, pad_noChanges, List.append_assoc, List.nil_append]

theorem logStatus_changes (created updated deleted : Nat) :
    logStatus false true false none created updated deleted 0 = changesLine "CHANGES APPLIED" created updated deleted := by
  unfold logStatus changesLine
  rw [lit_created', lit_updated, lit_deleted]
  simp only [if_true, Bool.false_eq_true, if_false, gt_iff_lt, Nat.not_lt_zero, pad_changes, List.append_assoc, List.nil_append]

/-- The runs with status lines are the runs of the other theorems. -/
theorem C77_same_runs (env : Env) (c : ClientCfg) (s : St) :
    (∀ allow_deletion audit_only, ((baselineReport env c allow_deletion audit_only s).1, (baselineReport env c allow_deletion audit_only s).2.1) =
      baselineOrAudit env c allow_deletion audit_only s) ∧
    (∀ allow_deletion uri from_datetime, ((incrementalReport env c allow_deletion uri from_datetime s).1,
        (incrementalReport env c allow_deletion uri from_datetime s).2.1) = incremental env c allow_deletion uri from_datetime s) :=
  ⟨fun _ _ => baselineReport_run env c _ _ s, fun _ _ _ => incrementalReport_run env c _ _ _ s⟩

/-- C77, audits.  With one plain mapping, the first line of an audit or baseline sync gives the true numbers of resources that are the
same, missing, different and no longer listed, and says "IN SYNC" exactly if nothing is missing, different or no longer
listed.  An audit that succeeds prints just this line. -/
theorem C77_audit (env : Env) (c : ClientCfg) (allow_deletion audit_only : Bool) (s : St) (m : Map) (root : Loc) (src : Dict Resource)
    (hone : OneSite c env.cwd m root s.world.fs) (hh : ∀ t ∈ s.hashes, HashType t) (hk : ListsKeyed env.sources)
    (hfound : (findResourceList env.sources c.disc).2 = .ok src) :
    (∀ first rest, (baselineReport env c allow_deletion audit_only s).2.2 = first :: rest →
      ∃ same created updated deleted, Compares m root src s.world.fs same created updated deleted ∧
        first = if created = 0 ∧ updated = 0 ∧ deleted = 0 then auditLine "        IN SYNC" same 0 0 0
          else auditLine "    NOT IN SYNC" same created updated deleted) ∧
    (audit_only = true → (baselineReport env c allow_deletion audit_only s).2.1 = .ok () →
      ∃ first, (baselineReport env c allow_deletion audit_only s).2.2 = [first]) := by
  unfold baselineReport
  cases hp : baselinePlan env c audit_only s with
  | mk s1 x =>
    cases x with
    | error e => exact ⟨fun _ _ h => by simp at h, fun _ h => by simp at h⟩
    | ok p =>
      obtain ⟨src', cmp⟩ := p
      have hs : src' = src := by
        obtain ⟨dst, hpl⟩ := baselinePlan_ok hp
        have := hpl.found
        rw [hfound] at this
        cases this; rfl
      subst hs
      obtain ⟨hcmp, -⟩ := compares hone hh hk hp
      constructor
      · intro first rest h
        refine ⟨_, _, _, _, hcmp, ?_⟩
        rw [← logStatus_audit]
        simp only at h
        split at h <;> simp only [List.cons.injEq] at h <;> exact h.1.symm
      · rintro rfl -
        simp

/-- C77, what was done.  If failures are not ignored and it is not a dry run, a baseline sync that succeeds with something to do ends with
a line that gives the numbers of resources that were missing and that were different (all of which have been fetched, C50), and says
"SYNCED" together with the number of files removed if there were no more to remove, and otherwise "PART SYNCED" with the number of files
to be removed.  Missing: dry runs and ignored failures (C77_violated). -/
theorem C77_synced_partial (env : Env) (c : ClientCfg) (allow_deletion : Bool) (s : St) (m : Map) (root : Loc) (src : Dict Resource)
    (hone : OneSite c env.cwd m root s.world.fs) (hh : ∀ t ∈ s.hashes, HashType t) (hk : ListsKeyed env.sources)
    (hfound : (findResourceList env.sources c.disc).2 = .ok src)
    (hd : c.dryrun = false) (hi : c.ignore_failures = false) (ht : 0 < c.tries)
    (hok : (baselineReport env c allow_deletion false s).2.1 = .ok ()) :
    ∃ same created updated deleted, Compares m root src s.world.fs same created updated deleted ∧
      ((created = 0 ∧ updated = 0 ∧ deleted = 0 ∧ (baselineReport env c allow_deletion false s).2.2 = [auditLine "        IN SYNC" same 0 0 0]) ∨
      (¬ (created = 0 ∧ updated = 0 ∧ deleted = 0) ∧ ∃ last,
        (baselineReport env c allow_deletion false s).2.2 = [auditLine "    NOT IN SYNC" same created updated deleted, last] ∧
        last = if removals (doneBetween s (baselineReport env c allow_deletion false s).1) < deleted
          then doneLine "    PART SYNCED" "to delete (--delete)" same created updated deleted
          else doneLine "         SYNCED" "deleted" same created updated
            (removals (doneBetween s (baselineReport env c allow_deletion false s).1)))) := by
  obtain ⟨es, ht1, -, -⟩ := baseline_did env c allow_deletion false s
  rw [← baselineReport_run] at ht1
  simp only at ht1
  have hrem : removals (baselineReport env c allow_deletion false s).1.trace =
      removals s.trace + removals (doneBetween s (baselineReport env c allow_deletion false s).1) := by
    unfold doneBetween
    rw [ht1, List.drop_left, removals, List.countP_append]; rfl
  clear ht1
  revert hok hrem
  unfold baselineReport
  cases hp : baselinePlan env c false s with
  | mk s1 x =>
    cases x with
    | error e => intro hok; simp at hok
    | ok p =>
      obtain ⟨src', cmp⟩ := p
      have hs : src' = src := by
        obtain ⟨dst, hpl⟩ := baselinePlan_ok hp
        have := hpl.found
        rw [hfound] at this
        cases this; rfl
      subst hs
      obtain ⟨hcmp, hwf⟩ := compares hone hh hk hp
      have hs1 : s1.trace = s.trace := by
        have := (baselinePlan_same env c false s).2.1
        rw [hp] at this
        exact this
      simp only [Bool.false_eq_true, false_or]
      rw [logStatus_audit]
      split
      · rename_i hz
        have z1 : cmp.created.length = 0 := by omega
        have z2 : cmp.updated.length = 0 := by omega
        have z3 : cmp.deleted.length = 0 := by omega
        intro _ _
        refine ⟨_, _, _, _, hcmp, .inl ⟨z1, z2, z3, ?_⟩⟩
        rw [if_pos ⟨z1, z2, z3⟩]
      · rename_i hz
        have hz' : ¬ (cmp.created.length = 0 ∧ cmp.updated.length = 0 ∧ cmp.deleted.length = 0) := by omega
        rw [if_neg hz']
        intro hok hrem
        refine ⟨_, _, _, _, hcmp, .inr ⟨hz', ?_⟩⟩
        revert hok hrem
        simp only [List.cons.injEq, true_and]
        unfold baselineSyncReport
        cases baselineAuthority c src' with
        | error e => intro hok; simp at hok
        | ok u =>
          simp only
          cases h1 : forCount (updateCount env c) (iterList cmp.created) { s1 with last_timestamp := 0 } 0 with
          | mk s2 x =>
          cases x with
          | error e => intro hok; simp at hok
          | ok n1 =>
          simp only
          cases h2 : forCount (updateCount env c) (iterList cmp.updated) s2 0 with
          | mk s3 x =>
          cases x with
          | error e => intro hok; simp at hok
          | ok n2 =>
          simp only
          cases h3 : forCount (deleteCount env c allow_deletion) (iterList cmp.deleted) s3 0 with
          | mk s4 x =>
          cases x with
          | error e => intro hok; simp at hok
          | ok n3 =>
          simp only
          have e1 : n1 = cmp.created.length := by
            have := forCount_ones _ _ _ _ _ (fun r _ s s' x h => updateCount_counts hd hi ht h) h1
            rw [this, iterList_length hwf.created]; omega
          have e2 : n2 = cmp.updated.length := by
            have := forCount_ones _ _ _ _ _ (fun r _ s s' x h => updateCount_counts hd hi ht h) h2
            rw [this, iterList_length hwf.updated]; omega
          have r1 := updates_removals _ _ _ _ _ h1
          have r2 := updates_removals _ _ _ _ _ h2
          have r3 := forCount_sum (fun s => removals s.trace) (fun r s s' x h => deleteCount_removals r s s' x h) _ _ _ _ _ h3
          simp only at r1 r3
          have r4 : ∀ s5 x, (if s4.last_timestamp > 0 then storeState env c s4 else (s4, .ok ())) = (s5, x) →
              removals s5.trace = removals s4.trace := by
            intro s5 x h
            split at h
            · unfold storeState at h
              repeat' split at h
              all_goals simp only [Prod.mk.injEq] at h
              all_goals rw [← h.1]
              simp [St.emit, removals, isRemoval, List.countP_append]
            · simp only [Prod.mk.injEq] at h
              rw [← h.1]
          cases h4 : (if s4.last_timestamp > 0 then storeState env c s4 else (s4, .ok ())) with
          | mk s5 x =>
          have r4' := r4 s5 x h4
          cases x with
          | error e => intro hok; simp at hok
          | ok u =>
            simp only
            intro _ hrem
            have e3 : n3 = removals (doneBetween s s5) := by
              rw [r4'] at hrem
              rw [hs1] at r1
              omega
            refine ⟨_, rfl, ?_⟩
            have e4 : (cmp.updated.length + cmp.deleted.length + cmp.created.length == 0) = false := by
              rw [beq_eq_false_iff_ne]; omega
            rw [e4, logStatus_done, e1, e2, e3]

/-- C77, incremental syncs, the part that holds: the first line gives the numbers of changes of each kind, and says "NO CHANGES" exactly
if there are none.  (Otherwise it says "CHANGES APPLIED", though at that point nothing has been applied, C77_announced_violated.) -/
theorem C77_incremental_partial (env : Env) (c : ClientCfg) (allow_deletion : Bool) (uri from_datetime : Option Str) (s : St)
    (cl : List Resource) (hcl : (incrementalPlan env c uri from_datetime s).2 = .ok cl) :
    ∃ rest, (incrementalReport env c allow_deletion uri from_datetime s).2.2 =
      (if cl = [] then changesLine "     NO CHANGES" 0 0 0
       else changesLine "CHANGES APPLIED" (cl.countP (fun r => r.change = some "created".toList))
        (cl.countP (fun r => r.change = some "updated".toList)) (cl.countP (fun r => r.change = some "deleted".toList))) :: rest := by
  unfold incrementalReport
  cases hp : incrementalPlan env c uri from_datetime s with
  | mk s1 x =>
    rw [hp] at hcl
    simp only at hcl
    subst hcl
    obtain ⟨t0, clUri, raw, kept, last, hpl⟩ := incrementalPlan_ok hp
    have hsum := toDo_sum hpl.known
    have hfirst : logStatus ((toDo cl).updated + (toDo cl).deleted + (toDo cl).created == 0) true false none (toDo cl).created
        (toDo cl).updated (toDo cl).deleted 0 =
        (if cl = [] then changesLine "     NO CHANGES" 0 0 0
         else changesLine "CHANGES APPLIED" (cl.countP (fun r => r.change = some "created".toList))
          (cl.countP (fun r => r.change = some "updated".toList)) (cl.countP (fun r => r.change = some "deleted".toList))) := by
      rw [hsum]
      by_cases he : cl = []
      · rw [if_pos he]
        subst he
        exact logStatus_no_changes 0 0 0 0
      · have : (cl.length == 0) = false := by
          rw [beq_eq_false_iff_ne]; simpa using he
        rw [this, if_neg he, logStatus_changes]
        rfl
    simp only
    rw [hfirst]
    split
    · exact ⟨_, rfl⟩
    · split
      · exact ⟨_, rfl⟩
      · split <;> exact ⟨_, rfl⟩

/-- Violated: the last line of every incremental sync says "NO CHANGES", whatever was done; and the numbers count changes that were
not carried out. -/
theorem C77_incremental_violated (env : Env) (c : ClientCfg) (allow_deletion : Bool) (uri from_datetime : Option Str) (s : St)
    (hok : (incrementalReport env c allow_deletion uri from_datetime s).2.1 = .ok ()) (first last : Str)
    (hl : (incrementalReport env c allow_deletion uri from_datetime s).2.2 = [first, last]) :
    ∃ created updated deleted, last = changesLine "     NO CHANGES" created updated deleted := by
  revert hok hl
  unfold incrementalReport
  cases incrementalPlan env c uri from_datetime s with
  | mk s1 x =>
    cases x with
    | error e => intro h; simp at h
    | ok cl =>
      simp only
      split
      · intro _ h; simp at h
      · cases applyAll env c allow_deletion cl s1 {} with
        | mk s2 x =>
          cases x with
          | error e => intro h; simp at h
          | ok n =>
            simp only
            cases (if s2.last_timestamp > 0 then storeState env c s2 else (s2, .ok ())) with
            | mk s3 x =>
              cases x with
              | error e => intro h; simp at h
              | ok u =>
                simp only
                intro _ h
                rw [logStatus_no_changes] at h
                simp only [List.cons.injEq, and_true] at h
                exact ⟨_, _, _, h.2.symm⟩

/-- Violated: when there are only deletions and they are not allowed, the run does nothing and its only line says "CHANGES APPLIED". -/
theorem C77_announced_violated (env : Env) (c : ClientCfg) (uri from_datetime : Option Str) (s : St)
    (cl : List Resource) (hcl : (incrementalPlan env c uri from_datetime s).2 = .ok cl) (hne : cl ≠ [])
    (hdel : ∀ r ∈ cl, r.change = some "deleted".toList) :
    (incrementalReport env c false uri from_datetime s).2 = (.ok (), [changesLine "CHANGES APPLIED" 0 0 cl.length]) ∧
    doneBetween s (incrementalReport env c false uri from_datetime s).1 = [] := by
  have htr := (incrementalPlan_same env c uri from_datetime s).2
  unfold incrementalReport
  cases hp : incrementalPlan env c uri from_datetime s with
  | mk s1 x =>
    rw [hp] at hcl htr
    simp only at hcl htr
    subst hcl
    have d1 : sUpdated ≠ sDeleted := by decide
    have d2 : sCreated ≠ sDeleted := by decide
    have hdel' : ∀ r ∈ cl, r.change = some sDeleted := hdel
    have c1 : (toDo cl).updated = 0 := by
      simp only [toDo, List.countP_eq_zero]
      intro r hr
      rw [hdel' r hr]
      simpa using d1.symm
    have c2 : (toDo cl).created = 0 := by
      simp only [toDo, List.countP_eq_zero]
      intro r hr
      rw [hdel' r hr]
      simpa using d2.symm
    have c3 : (toDo cl).deleted = cl.length := by
      simp only [toDo, List.countP_eq_length]
      intro r hr
      simpa using hdel' r hr
    have hl : cl.length ≠ 0 := by simpa using hne
    have hb : (0 + cl.length + 0 == 0) = false := by
      rw [beq_eq_false_iff_ne]; omega
    simp only [c1, c2, c3, hb]
    rw [if_pos (.inr (by simp)), logStatus_changes]
    refine ⟨rfl, ?_⟩
    unfold doneBetween
    rw [htr]
    simp

namespace ClientExample

/-- an audit: a is older than listed, b is missing, c is not listed -/
example : (baselineReport (env [res "a" 100, res "b" 200] [] [1, 2]) cfg false true (start ["a", "c"])).2.2 =
    ["Status:     NOT IN SYNC (same=0, to create=1, to update=1, to delete=1)".toList] := by decide +kernel

/-- a sync without and with deletion -/
example : (baselineReport (env [res "a" 100, res "b" 200] [] [1, 2]) cfg false false (start ["a", "c"])).2.2 =
    ["Status:     NOT IN SYNC (same=0, to create=1, to update=1, to delete=1)".toList,
     "Status:     PART SYNCED (same=0, created=1, updated=1, to delete (--delete)=1)".toList] := by decide +kernel

example : (baselineReport (env [res "a" 100, res "b" 200] [] [1, 2]) cfg true false (start ["a", "c"])).2.2 =
    ["Status:     NOT IN SYNC (same=0, to create=1, to update=1, to delete=1)".toList,
     "Status:          SYNCED (same=0, created=1, updated=1, deleted=1)".toList] := by decide +kernel

/-- the hypotheses of C77_audit and C77_synced_partial hold -/
example : OneSite cfg [] ⟨base, "/d".toList⟩ ["d".toList] (start ["a", "c"]).world.fs ∧
    ListsKeyed (env [res "a" 100, res "b" 200] [] [1, 2]).sources ∧
    (findResourceList (env [res "a" 100, res "b" 200] [] [1, 2]).sources cfg.disc).2 = .ok (listOf [res "a" 100, res "b" 200]) :=
  ⟨site _ (properFs_of (by decide) (by decide) (by decide) (by decide)) (by decide), env_keyed _ _ _ (by decide), by decide +kernel⟩

/-- Violated: after a dry run, and when failures are ignored, the line says "SYNCED" although nothing has been fetched. -/
theorem C77_violated :
    (let r := baselineReport (env [res "a" 100, res "b" 200] [] [1, 2]) { cfg with dryrun := true } false false (start ["a"])
     r.2.1 = .ok () ∧ r.2.2 = ["Status:     NOT IN SYNC (same=0, to create=1, to update=1, to delete=0)".toList,
       "Status:          SYNCED (same=0, created=0, updated=0, deleted=0)".toList] ∧ r.1.world.fs = (start ["a"]).world.fs) ∧
    (let r := baselineReport { env [res "a" 100, res "b" 200] [] [] with serve := fun _ _ => .fail .io } { cfg with ignore_failures := true }
        false false (start ["a"])
     r.2.1 = .ok () ∧ r.2.2 = ["Status:     NOT IN SYNC (same=0, to create=1, to update=1, to delete=0)".toList,
       "Status:          SYNCED (same=0, created=0, updated=0, deleted=0)".toList] ∧ r.1.world.fs = (start ["a"]).world.fs) := by
  decide +kernel

/-- a change list with one change of each kind -/
def changes3 : List Resource :=
  [{ uri := uri "a", timestamp := some 100, change := some sUpdated, ts_datetime := some 100 },
   { uri := uri "b", timestamp := some 200, change := some sCreated, ts_datetime := some 200 },
   { uri := uri "c", change := some sDeleted, ts_datetime := some 300 }]

/-- the lines of an incremental sync: first what there is to do, then, when it has been done, "NO CHANGES" -/
example : (incrementalReport (env [] changes3 [1, 2]) cfg true none (some "1970-01-01T00:00:00Z".toList) (start ["a", "c"])).2 =
    (.ok (), ["Status: CHANGES APPLIED (created=1, updated=1, deleted=1)".toList, "Status:      NO CHANGES (created=1, updated=1, deleted=1)".toList]) := by
  decide +kernel

/-- a deletion that is not allowed -/
example : (incrementalReport (env [] [{ uri := uri "c", change := some sDeleted, ts_datetime := some 300 }] [1, 2]) cfg false none
      (some "1970-01-01T00:00:00Z".toList) (start ["a", "c"])).2 =
    (.ok (), ["Status: CHANGES APPLIED (created=0, updated=0, deleted=1)".toList]) := by
  decide +kernel

/-- and the numbers do not depend on success -/
example : (incrementalReport { env [] changes3 [] with serve := fun _ _ => .fail .io } { cfg with ignore_failures := true } false none
      (some "1970-01-01T00:00:00Z".toList) (start ["a", "c"])).2 =
    (.ok (), ["Status: CHANGES APPLIED (created=1, updated=1, deleted=1)".toList, "Status:      NO CHANGES (created=1, updated=1, deleted=0)".toList]) := by
  decide +kernel

end ClientExample
end Resync
