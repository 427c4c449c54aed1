import Verif.Proofs.Refusal
import Verif.Props.ClientSites
import Verif.Props.ClientProgress
/-
C127: checks of authority do nothing but refuse.
-/

namespace Resync
open Py Resync.Spec

/-- C127: a baseline sync or audit that checks authority is the one that does not, or it has been refused before anything was requested or changed. -/
theorem C127_baseline_noauth (env : Env) (c : ClientCfg) (allow_deletion audit_only : Bool) (s : St) :
    OnlyRefuses s (baselineOrAudit env c allow_deletion audit_only s) (baselineOrAudit env { c with noauth := true } allow_deletion audit_only s) :=
  baseline_only_refuses env c true c.strictauth (accepts_noauth c) allow_deletion audit_only s

/-- C127: the same for an incremental sync -/
theorem C127_incremental_noauth (env : Env) (c : ClientCfg) (allow_deletion : Bool) (change_list_uri from_datetime : Option Str) (s : St) :
    OnlyRefuses s (incremental env c allow_deletion change_list_uri from_datetime s)
      (incremental env { c with noauth := true } allow_deletion change_list_uri from_datetime s) :=
  incremental_only_refuses env c true c.strictauth (accepts_noauth c) allow_deletion change_list_uri from_datetime s

/-- C127: and for strict and lax checks: what passes the strict one passes the lax one. -/
theorem C127_baseline_strict (env : Env) (c : ClientCfg) (allow_deletion audit_only : Bool) (s : St) :
    OnlyRefuses s (baselineOrAudit env { c with strictauth := true } allow_deletion audit_only s)
      (baselineOrAudit env { c with strictauth := false } allow_deletion audit_only s) :=
  baseline_only_refuses env { c with strictauth := true } c.noauth false (accepts_lax { c with strictauth := true }) allow_deletion audit_only s

theorem C127_incremental_strict (env : Env) (c : ClientCfg) (allow_deletion : Bool) (change_list_uri from_datetime : Option Str) (s : St) :
    OnlyRefuses s (incremental env { c with strictauth := true } allow_deletion change_list_uri from_datetime s)
      (incremental env { c with strictauth := false } allow_deletion change_list_uri from_datetime s) :=
  incremental_only_refuses env { c with strictauth := true } c.noauth false (accepts_lax { c with strictauth := true }) allow_deletion change_list_uri
    from_datetime s

/-- C127: so a sync that passes the checks and ends well would have been the same without them, and one that passes the strict check the same with
the lax one. -/
theorem C127_same (env : Env) (c : ClientCfg) (allow_deletion audit_only : Bool) (change_list_uri from_datetime : Option Str) (s : St) :
    ((baselineOrAudit env c allow_deletion audit_only s).2 = .ok () →
      baselineOrAudit env { c with noauth := true } allow_deletion audit_only s = baselineOrAudit env c allow_deletion audit_only s ∧
      baselineOrAudit env { c with strictauth := false } allow_deletion audit_only s = baselineOrAudit env c allow_deletion audit_only s) ∧
    ((incremental env c allow_deletion change_list_uri from_datetime s).2 = .ok () →
      incremental env { c with noauth := true } allow_deletion change_list_uri from_datetime s =
        incremental env c allow_deletion change_list_uri from_datetime s ∧
      incremental env { c with strictauth := false } allow_deletion change_list_uri from_datetime s =
        incremental env c allow_deletion change_list_uri from_datetime s) := by
  have ok : ∀ {p p' : St × Except ClientErr Unit}, OnlyRefuses s p p' → p.2 = .ok () → p' = p := by
    rintro p p' (h | ⟨⟨e, h⟩, -⟩) h'
    · exact h.symm
    · rw [h] at h'; cases h'
  exact ⟨fun h => ⟨ok (baseline_only_refuses env c true c.strictauth (accepts_noauth c) allow_deletion audit_only s) h,
      ok (baseline_only_refuses env c c.noauth false (accepts_lax c) allow_deletion audit_only s) h⟩,
    fun h => ⟨ok (incremental_only_refuses env c true c.strictauth (accepts_noauth c) allow_deletion change_list_uri from_datetime s) h,
      ok (incremental_only_refuses env c c.noauth false (accepts_lax c) allow_deletion change_list_uri from_datetime s) h⟩⟩

namespace RefusalExample
open SitesExample

/-- The list of the example for several sites has a resource of another host: with the check there is no sync (and nothing is done) … -/
example : (baselineOrAudit env2 { cfg2 with noauth := false } true false s2).2 = .error .fatal ∧
    (baselineOrAudit env2 { cfg2 with noauth := false } true false s2).1.trace = s2.trace ∧
    (baselineOrAudit env2 cfg2 true false s2).2 = .ok () ∧ (baselineOrAudit env2 cfg2 true false s2).1.trace ≠ s2.trace := by
  refine ⟨by decide +kernel, by decide +kernel, by decide +kernel, by decide +kernel⟩

example : OnlyRefuses s2 (baselineOrAudit env2 { cfg2 with noauth := false } true false s2) (baselineOrAudit env2 cfg2 true false s2) :=
  C127_baseline_noauth env2 { cfg2 with noauth := false } true false s2

open ClientExample in
/-- … a list for which the strict check passes changes the disk in the same way without it -/
example : let env := ClientExample.env [res "n/b" 100] [] [1, 2]
    (baselineOrAudit env { cfg with strictauth := true } true false (start ["a"])).1.trace ≠ (start ["a"]).trace ∧
    baselineOrAudit env { cfg with strictauth := true, noauth := true } true false (start ["a"]) =
      baselineOrAudit env { cfg with strictauth := true } true false (start ["a"]) := by
  refine ⟨by decide +kernel, ?_⟩
  exact ((C127_same (ClientExample.env [res "n/b" 100] [] [1, 2]) { cfg with strictauth := true } true false none none (start ["a"])).1
    (by decide +kernel)).1

end RefusalExample

end Resync
