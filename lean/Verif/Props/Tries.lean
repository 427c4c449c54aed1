import Verif.Proofs.Tries
import Verif.Props.ClientSites
import Verif.Props.Locality
/-
C125: more tries do no harm.
-/

namespace Resync
open Py Resync.Spec

/-- C125 for a baseline sync or an audit: with more tries a run does the same, or it goes on where the other one has given up. -/
theorem C125_baseline (env : Env) (c : ClientCfg) (allow_deletion audit_only : Bool) (s : St) (n : Nat) (hi : c.ignore_failures = false)
    (h0 : 0 < c.tries) (hn : c.tries ≤ n) :
    GoesOn s (baselineOrAudit env c allow_deletion audit_only s) (baselineOrAudit env { c with tries := n } allow_deletion audit_only s) := by
  obtain ⟨p1, p2, -⟩ := baselinePlan_same env c audit_only s
  unfold baselineOrAudit
  have hp : baselinePlan env { c with tries := n } audit_only s = baselinePlan env c audit_only s := rfl
  rw [hp]
  rcases hpl : baselinePlan env c audit_only s with ⟨s1, x⟩
  rw [hpl] at p1 p2
  cases x with
  | error e => exact .inl rfl
  | ok y =>
    obtain ⟨src, cmp⟩ := y
    simp only
    split
    · exact .inl rfl
    · exact baselineSync_more env c n allow_deletion src cmp hi h0 hn s1 (Did.same p2 p1)

/-- C125 for an incremental sync -/
theorem C125_incremental (env : Env) (c : ClientCfg) (allow_deletion : Bool) (change_list_uri from_datetime : Option Str) (s : St) (n : Nat)
    (hi : c.ignore_failures = false) (h0 : 0 < c.tries) (hn : c.tries ≤ n) :
    GoesOn s (incremental env c allow_deletion change_list_uri from_datetime s)
      (incremental env { c with tries := n } allow_deletion change_list_uri from_datetime s) := by
  obtain ⟨p1, p2⟩ := incrementalPlan_same env c change_list_uri from_datetime s
  unfold incremental
  have hp : incrementalPlan env { c with tries := n } change_list_uri from_datetime s = incrementalPlan env c change_list_uri from_datetime s := rfl
  rw [hp]
  rcases hpl : incrementalPlan env c change_list_uri from_datetime s with ⟨s1, x⟩
  rw [hpl] at p1 p2
  cases x with
  | error e => exact .inl rfl
  | ok cl =>
    simp only
    split
    · exact .inl rfl
    · exact (forEach_then (applyOne_more env c n allow_deletion hi h0 hn) (applyOne_later env { c with tries := n } allow_deletion) cl
        (k := fun s => if s.last_timestamp > 0 then storeState env c s else (s, .ok ()))
        (k' := fun s => if s.last_timestamp > 0 then storeState env { c with tries := n } s else (s, .ok ())) (fun _ _ => .inl rfl)
        (finish_later env { c with tries := n }) s1).1 (Did.same p2 p1)

/-- C125: what ends well ends in the same way with more tries, having done the same. -/
theorem C125_same (env : Env) (c : ClientCfg) (allow_deletion : Bool) (change_list_uri from_datetime : Option Str) (s : St) (n : Nat)
    (hi : c.ignore_failures = false) (h0 : 0 < c.tries) (hn : c.tries ≤ n) :
    ((baselineOrAudit env c allow_deletion false s).2 = .ok () →
      baselineOrAudit env { c with tries := n } allow_deletion false s = baselineOrAudit env c allow_deletion false s) ∧
    ((incremental env c allow_deletion change_list_uri from_datetime s).2 = .ok () →
      incremental env { c with tries := n } allow_deletion change_list_uri from_datetime s =
        incremental env c allow_deletion change_list_uri from_datetime s) := by
  constructor
  · intro hok
    rcases C125_baseline env c allow_deletion false s n hi h0 hn with h | ⟨h, -⟩
    · exact h
    · rw [hok] at h; cases h
  · intro hok
    rcases C125_incremental env c allow_deletion change_list_uri from_datetime s n hi h0 hn with h | ⟨h, -⟩
    · exact h
    · rw [hok] at h; cases h

namespace TriesExample
open SitesExample LocalityExample

/-- every other request times out: one try is too few, two are enough … -/
def once : ClientCfg := { cfg2 with tries := 1 }

example : (baselineOrAudit env2 once true false s2).2 = .error .fatal ∧
    (baselineOrAudit env2 { once with tries := 2 } true false s2).2 = .ok () := by
  refine ⟨by decide +kernel, by decide +kernel⟩

/-- … the run with two goes on where the other one has given up … -/
example : GoesOn s2 (baselineOrAudit env2 once true false s2) (baselineOrAudit env2 { once with tries := 2 } true false s2) :=
  C125_baseline env2 once true false s2 2 rfl (by decide) (by decide)

/-- … and with more nothing changes -/
example (n : Nat) (hn : 2 ≤ n) : baselineOrAudit env2 { cfg2 with tries := n } true false s2 = baselineOrAudit env2 cfg2 true false s2 :=
  (C125_same env2 cfg2 true none none s2 n rfl (by decide) hn).1 (by decide +kernel)

/-- At least one try is needed for this. With none at all nothing is requested, and the run ends well if all the files are there, with the times
of the new versions. -/
theorem C125_no_tries : ∃ (env : Env) (c : ClientCfg) (s : St), c.ignore_failures = false ∧ c.tries = 0 ∧
    (incremental env c true (some "http://s/cl.xml".toList) (some "1970-01-01T00:00:00Z".toList) s).2 = .ok () ∧
    incremental env { c with tries := 2 } true (some "http://s/cl.xml".toList) (some "1970-01-01T00:00:00Z".toList) s ≠
      incremental env c true (some "http://s/cl.xml".toList) (some "1970-01-01T00:00:00Z".toList) s := by
  refine ⟨env5, { cfg2 with tries := 0 }, s2, rfl, rfl, by decide +kernel, ?_⟩
  intro h
  have h := congrArg (fun p => p.1.world.fs.get ["d".toList, "a".toList]) h
  revert h
  decide +kernel

/-- C125: that failures are not ignored is needed as well: where they are, a sync can end well without a file that one more try would have got. -/
theorem C125_ignored : ∃ (env : Env) (c : ClientCfg) (s : St), c.ignore_failures = true ∧ c.tries = 1 ∧
    (baselineOrAudit env c true false s).2 = .ok () ∧
    baselineOrAudit env { c with tries := 2 } true false s ≠ baselineOrAudit env c true false s := by
  refine ⟨env2, { once with ignore_failures := true }, s2, rfl, rfl, by decide +kernel, ?_⟩
  intro h
  have h := congrArg (fun p => p.1.world.fs.get ["e".toList, "f".toList, "b".toList, "c".toList]) h
  revert h
  decide +kernel

end TriesExample

end Resync
