import Verif.Spec.ClientStatus
import Verif.Proofs.ClientBaseline
/-
The runs with status lines are the runs of Model/Client.lean, and what the counters count.
-/

namespace Resync
open Py Resync.Spec

def forget {α : Type} (r : St × Except ClientErr α) : St × Except ClientErr Unit :=
  match r with
  | (s, .error e) => (s, .error e)
  | (s, .ok _) => (s, .ok ())

theorem forCount_forget {f : St → Resource → St × Except ClientErr Nat} {g : St → Resource → St × Except ClientErr Unit}
    (h : ∀ s r, g s r = forget (f s r)) : ∀ rs s n, forEach g rs s = forget (forCount f rs s n) := by
  intro rs
  induction rs with
  | nil => intro s n; rfl
  | cons r t ih =>
    intro s n
    simp only [forEach, forCount, h]
    cases hf : f s r with
    | mk s1 x =>
      cases x with
      | error e => simp [forget]
      | ok k => simp only [forget]; exact ih s1 (n + k)

theorem updateCount_forget (env : Env) (c : ClientCfg) (s : St) (r : Resource) : updateOne env c s r = forget (updateCount env c s r) := by
  unfold updateOne updateCount
  cases c.disc.mapper.srcToDst r.uri with
  | error e => rfl
  | ok fn =>
    simp only
    cases updateResource env c s r fn with
    | mk s1 x => cases x <;> rfl

theorem deleteCount_forget (env : Env) (c : ClientCfg) (a : Bool) (s : St) (r : Resource) :
    deleteOne env c a s r = forget (deleteCount env c a s r) := by
  unfold deleteOne deleteCount
  cases c.disc.mapper.srcToDst r.uri <;> rfl

theorem baselineSyncReport_run (env : Env) (c : ClientCfg) (a : Bool) (src : Dict Resource) (cmp : Comparison) (s : St) :
    ((baselineSyncReport env c a src cmp s).1, (baselineSyncReport env c a src cmp s).2.1) = baselineSync env c a src cmp s := by
  unfold baselineSyncReport baselineSync
  cases baselineAuthority c src with
  | error e => rfl
  | ok u =>
    simp only
    rw [forCount_forget (updateCount_forget env c) (iterList cmp.created) { s with last_timestamp := 0 } 0]
    cases forCount (updateCount env c) (iterList cmp.created) { s with last_timestamp := 0 } 0 with
    | mk s1 x =>
      cases x with
      | error e => rfl
      | ok n1 =>
        simp only [forget]
        rw [forCount_forget (updateCount_forget env c) (iterList cmp.updated) s1 0]
        cases forCount (updateCount env c) (iterList cmp.updated) s1 0 with
        | mk s2 x =>
          cases x with
          | error e => rfl
          | ok n2 =>
            simp only [forget]
            rw [forCount_forget (deleteCount_forget env c a) (iterList cmp.deleted) s2 0]
            cases forCount (deleteCount env c a) (iterList cmp.deleted) s2 0 with
            | mk s3 x =>
              cases x with
              | error e => rfl
              | ok n3 =>
                simp only [forget]
                cases (if s3.last_timestamp > 0 then storeState env c s3 else (s3, .ok ())) with
                | mk s4 x => cases x <;> rfl

/-- the status lines do not change the run -/
theorem baselineReport_run (env : Env) (c : ClientCfg) (a audit : Bool) (s : St) :
    ((baselineReport env c a audit s).1, (baselineReport env c a audit s).2.1) = baselineOrAudit env c a audit s := by
  unfold baselineReport baselineOrAudit
  cases baselinePlan env c audit s with
  | mk s1 x =>
    cases x with
    | error e => rfl
    | ok p =>
      obtain ⟨src, cmp⟩ := p
      simp only
      split
      · rfl
      · exact baselineSyncReport_run env c a src cmp s1

theorem applyCount_forget (env : Env) (c : ClientCfg) (a : Bool) (s : St) (n : Counts) (r : Resource) :
    applyOne env c a s r = forget (applyCount env c a s n r) := by
  unfold applyOne applyCount
  cases c.disc.mapper.srcToDst r.uri with
  | error e => rfl
  | ok fn =>
    simp only
    by_cases h1 : r.change = some sUpdated
    · rw [if_pos (.inl h1), if_pos h1]
      cases updateResource env c s r fn with
      | mk s1 x => cases x <;> rfl
    · by_cases h2 : r.change = some sCreated
      · rw [if_pos (.inr h2), if_neg h1, if_pos h2]
        cases updateResource env c s r fn with
        | mk s1 x => cases x <;> rfl
      · rw [if_neg (by simp [h1, h2]), if_neg h1, if_neg h2]
        by_cases h3 : r.change = some sDeleted
        · rw [if_pos h3, if_pos h3]; rfl
        · rw [if_neg h3, if_neg h3]; rfl

theorem applyAll_forget (env : Env) (c : ClientCfg) (a : Bool) : ∀ rs s n, forEach (applyOne env c a) rs s = forget (applyAll env c a rs s n) := by
  intro rs
  induction rs with
  | nil => intro s n; rfl
  | cons r t ih =>
    intro s n
    simp only [forEach, applyAll, applyCount_forget env c a s n r]
    cases applyCount env c a s n r with
    | mk s1 x =>
      cases x with
      | error e => rfl
      | ok k => simp only [forget]; exact ih s1 k

theorem toDo_sum {cl : List Resource} (h : ∀ r ∈ cl, r.change = some sUpdated ∨ r.change = some sCreated ∨ r.change = some sDeleted) :
    (toDo cl).updated + (toDo cl).deleted + (toDo cl).created = cl.length := by
  induction cl with
  | nil => rfl
  | cons r t ih =>
    have ih' := ih (fun r hr => h r (by simp [hr]))
    simp only [toDo, List.countP_cons, List.length_cons] at ih' ⊢
    have d1 : sUpdated ≠ sCreated := by decide
    have d2 : sUpdated ≠ sDeleted := by decide
    have d3 : sCreated ≠ sDeleted := by decide
    rcases h r (by simp) with e | e | e <;> rw [e] <;>
      simp only [Option.some.injEq, d1, d2, d3, d1.symm, d2.symm, d3.symm, decide_true, decide_false, if_true, if_false,
        Bool.false_eq_true] <;> omega

/-- the status lines do not change the run -/
theorem incrementalReport_run (env : Env) (c : ClientCfg) (a : Bool) (uri fd : Option Str) (s : St) :
    ((incrementalReport env c a uri fd s).1, (incrementalReport env c a uri fd s).2.1) = incremental env c a uri fd s := by
  unfold incrementalReport incremental
  cases hp : incrementalPlan env c uri fd s with
  | mk s1 x =>
    cases x with
    | error e => rfl
    | ok cl =>
      obtain ⟨t0, clUri, raw, kept, last, hpl⟩ := incrementalPlan_ok hp
      have hsum := toDo_sum hpl.known
      have h1 : ((toDo cl).updated + (toDo cl).deleted + (toDo cl).created == 0) = true ↔ cl = [] := by
        rw [beq_iff_eq, hsum, List.length_eq_zero_iff]
      have h2 : (toDo cl).updated + (toDo cl).created = 0 ↔ cl.all (fun r => r.change = some sDeleted) = true := by
        rw [List.all_eq_true]
        have : (toDo cl).deleted = cl.length ↔ ∀ r ∈ cl, decide (r.change = some sDeleted) = true := List.countP_eq_length
        rw [← this]; omega
      simp only [h1, h2]
      split
      · rfl
      · rw [applyAll_forget env c a cl s1 {}]
        cases applyAll env c a cl s1 {} with
        | mk s2 x =>
          cases x with
          | error e => rfl
          | ok n =>
            simp only [forget]
            cases (if s2.last_timestamp > 0 then storeState env c s2 else (s2, .ok ())) with
            | mk s4 x => cases x <;> rfl

/-! ### What the counters count -/

theorem forCount_ones {f : St → Resource → St × Except ClientErr Nat} : ∀ rs s n s' k, (∀ r ∈ rs, ∀ s s' x, f s r = (s', .ok x) → x = 1) →
    forCount f rs s n = (s', .ok k) → k = n + rs.length := by
  intro rs
  induction rs with
  | nil => intro s n s' k _ h; simp only [forCount, Prod.mk.injEq, Except.ok.injEq] at h; simp [← h.2]
  | cons r t ih =>
    intro s n s' k hf h
    simp only [forCount] at h
    cases hr : f s r with
    | mk s1 x =>
      rw [hr] at h
      cases x with
      | error e => simp at h
      | ok j =>
        simp only at h
        have hj := hf r (by simp) s s1 j hr
        have := ih s1 (n + j) s' k (fun r hr => hf r (by simp [hr])) h
        rw [this, hj, List.length_cons]; omega

theorem forCount_sum {f : St → Resource → St × Except ClientErr Nat} (μ : St → Nat)
    (hf : ∀ r s s' x, f s r = (s', .ok x) → μ s' = μ s + x) : ∀ rs s n s' k,
    forCount f rs s n = (s', .ok k) → μ s' + n = μ s + k := by
  intro rs
  induction rs with
  | nil => intro s n s' k h; simp only [forCount, Prod.mk.injEq, Except.ok.injEq] at h; rw [← h.1, ← h.2]
  | cons r t ih =>
    intro s n s' k h
    simp only [forCount] at h
    cases hr : f s r with
    | mk s1 x =>
      rw [hr] at h
      cases x with
      | error e => simp at h
      | ok j =>
        simp only at h
        have h1 := hf r s s1 j hr
        have h2 := ih s1 (n + j) s' k h
        omega

theorem updateResource_counts {env : Env} {c : ClientCfg} (hd : c.dryrun = false) (hi : c.ignore_failures = false) (ht : 0 < c.tries)
    {s s' : St} {r : Resource} {fn : Str} {n : Nat} (h : updateResource env c s r fn = (s', .ok n)) : n = 1 := by
  unfold updateResource at h
  cases hm : mkpath env [] (location env.cwd (dirname fn)) s with
  | mk s1 b =>
    rw [hm] at h
    cases b with
    | false => simp at h
    | true =>
      simp only [hd, hi, Bool.false_eq_true, if_false] at h
      have key : ∀ k s, 0 < k → (getLoop env false r.uri (location env.cwd fn) k s).2 ≠ .skipped ∧
          (getLoop env false r.uri (location env.cwd fn) k s).2 ≠ .gaveUp := by
        intro k
        induction k with
        | zero => intro s hk; omega
        | succ k ih =>
          intro s _
          simp only [getLoop, Bool.false_eq_true, if_false]
          cases (tryGet env s r.uri (location env.cwd fn)).2 with
          | none => simp
          | some e =>
            cases e with
            | timeout =>
              simp only
              split
              · simp
              · rename_i hk; exact ih _ (Nat.pos_of_ne_zero hk)
            | io => simp
            | other => simp
      obtain ⟨k1, k2⟩ := key c.tries s1 ht
      cases hg : getLoop env false r.uri (location env.cwd fn) c.tries s1 with
      | mk s2 g =>
        rw [hg] at h k1 k2
        cases g with
        | raised e => simp at h
        | gaveUp => exact absurd rfl k2
        | skipped => exact absurd rfl k1
        | updated =>
          simp only at h
          cases hs : setTime s2 (location env.cwd fn) r.timestamp with
          | mk s3 x =>
            rw [hs] at h
            cases x with
            | error e => simp at h
            | ok u => simp at h; exact h.2.symm

theorem updateCount_counts {env : Env} {c : ClientCfg} (hd : c.dryrun = false) (hi : c.ignore_failures = false) (ht : 0 < c.tries)
    {s s' : St} {r : Resource} {n : Nat} (h : updateCount env c s r = (s', .ok n)) : n = 1 := by
  unfold updateCount at h
  cases hm : c.disc.mapper.srcToDst r.uri with
  | error e => rw [hm] at h; simp at h
  | ok fn => rw [hm] at h; exact updateResource_counts hd hi ht h

theorem deleteResource_removals (env : Env) (c : ClientCfg) (a : Bool) (s : St) (r : Resource) (fn : Str) :
    removals (deleteResource env c a s r fn).1.trace = removals s.trace + (deleteResource env c a s r fn).2 := by
  unfold deleteResource
  simp only
  split
  · simp [St.seen_trace]
  · split
    · simp [St.seen_trace]
    · split
      · split
        · simp [St.seen_trace]
        · simp only [St.emit, St.seen_trace, removals, List.countP_append, List.countP_cons, List.countP_nil]; simp [isRemoval]
      · simp [St.seen_trace]

theorem deleteCount_removals {env : Env} {c : ClientCfg} {a : Bool} (r : Resource) (s s' : St) (n : Nat)
    (h : deleteCount env c a s r = (s', .ok n)) : removals s'.trace = removals s.trace + n := by
  unfold deleteCount at h
  cases hm : c.disc.mapper.srcToDst r.uri with
  | error e => rw [hm] at h; simp at h
  | ok fn =>
    rw [hm] at h
    simp only [Prod.mk.injEq, Except.ok.injEq] at h
    rw [← h.1, ← h.2]
    exact deleteResource_removals env c a s r fn

theorem updateResource_removals (env : Env) (c : ClientCfg) (s : St) (r : Resource) (fn : Str) :
    removals (updateResource env c s r fn).1.trace = removals s.trace := by
  obtain ⟨⟨es, h1, -, h2⟩, -⟩ := updateResource_did env c s r fn
  rw [h1, removals, List.countP_append]
  have : List.countP isRemoval es = 0 := by
    rw [List.countP_eq_zero]
    intro e he
    rcases h2 e he with ⟨d, rfl, -⟩ | ⟨-, h | ⟨t, rfl⟩⟩
    · simp [isRemoval]
    · unfold FetchEff at h
      rcases h with rfl | ⟨-, t, rfl⟩ | ⟨-, b, rfl⟩ <;> simp [isRemoval]
    · simp [isRemoval]
  rw [this]; rfl

theorem updates_removals {env : Env} {c : ClientCfg} : ∀ rs s n s' k, forCount (updateCount env c) rs s n = (s', .ok k) →
    removals s'.trace = removals s.trace := by
  intro rs
  induction rs with
  | nil => intro s n s' k h; simp only [forCount, Prod.mk.injEq] at h; rw [← h.1]
  | cons r t ih =>
    intro s n s' k h
    simp only [forCount] at h
    cases hr : updateCount env c s r with
    | mk s1 x =>
      rw [hr] at h
      cases x with
      | error e => simp at h
      | ok j =>
        simp only at h
        rw [ih _ _ _ _ h]
        unfold updateCount at hr
        cases hm : c.disc.mapper.srcToDst r.uri with
        | error e => rw [hm] at hr; simp at hr
        | ok fn =>
          rw [hm] at hr
          simp only at hr
          rw [← updateResource_removals env c s r fn, hr]

theorem iterList_length {d : Dict Resource} (hd : WF d) : (iterList d).length = d.length := by
  rw [iterList_eq]
  have := congrArg List.length (listing_uris hd)
  rw [List.length_map] at this
  rw [this, (sortStr_perm _).length_eq]
  simp [dkeys]

theorem count_dict {d : Dict Resource} (hd : WF d) {P : Str → Prop} (h : ∀ u, (∃ r, dget d u = some r) ↔ P u) : Count P d.length := by
  refine ⟨dkeys d, hd.1, ?_, by simp [dkeys]⟩
  intro u
  rw [← h u, ← dget_isSome_iff, Option.isSome_iff_exists]

end Resync
