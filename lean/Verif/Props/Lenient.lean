import Verif.Proofs.Lenient
import Verif.Props.Tries
import Verif.Props.StatusSites
import Verif.Props.ClientIncremental
/-
C126: ignoring failures.
-/

namespace Resync
open Py Resync.Spec

/-- C126 for a baseline sync or an audit: a run that ignores failures does the same as one that does not, or it goes on where the other one has ended with a FatalError. -/
theorem C126_baseline (env : Env) (c : ClientCfg) (allow_deletion audit_only : Bool) (s : St) (hi : c.ignore_failures = false) :
    GoesPast s (baselineOrAudit env c allow_deletion audit_only s) (baselineOrAudit env { c with ignore_failures := true } allow_deletion audit_only s) := by
  obtain ⟨p1, p2, -⟩ := baselinePlan_same env c audit_only s
  unfold baselineOrAudit
  have hp : baselinePlan env { c with ignore_failures := true } audit_only s = baselinePlan env c audit_only s := rfl
  rw [hp]
  rcases hpl : baselinePlan env c audit_only s with ⟨s1, x⟩
  rw [hpl] at p1 p2
  cases x with
  | error e => exact .inl rfl
  | ok y =>
    obtain ⟨src, cmp⟩ := y
    simp only
    split
    · exact .inl rfl
    · exact baselineSync_lenient env c allow_deletion src cmp hi s1 (Did.same p2 p1)

/-- C126 for an incremental sync -/
theorem C126_incremental (env : Env) (c : ClientCfg) (allow_deletion : Bool) (change_list_uri from_datetime : Option Str) (s : St)
    (hi : c.ignore_failures = false) :
    GoesPast s (incremental env c allow_deletion change_list_uri from_datetime s)
      (incremental env { c with ignore_failures := true } allow_deletion change_list_uri from_datetime s) := by
  obtain ⟨p1, p2⟩ := incrementalPlan_same env c change_list_uri from_datetime s
  unfold incremental
  have hp : incrementalPlan env { c with ignore_failures := true } change_list_uri from_datetime s = incrementalPlan env c change_list_uri from_datetime s := rfl
  rw [hp]
  rcases hpl : incrementalPlan env c change_list_uri from_datetime s with ⟨s1, x⟩
  rw [hpl] at p1 p2
  cases x with
  | error e => exact .inl rfl
  | ok cl =>
    simp only
    split
    · exact .inl rfl
    · exact (forEach_past (applyOne_lenient env c allow_deletion hi) (applyOne_later env { c with ignore_failures := true } allow_deletion) cl
        (k := fun s => if s.last_timestamp > 0 then storeState env c s else (s, .ok ()))
        (k' := fun s => if s.last_timestamp > 0 then storeState env { c with ignore_failures := true } s else (s, .ok ())) (fun _ _ => .inl rfl)
        (finish_later env { c with ignore_failures := true }) s1).1 (Did.same p2 p1)

/-- C126: what ends well without ignoring failures is the same when they are ignored. -/
theorem C126_same (env : Env) (c : ClientCfg) (allow_deletion : Bool) (change_list_uri from_datetime : Option Str) (s : St)
    (hi : c.ignore_failures = false) :
    ((baselineOrAudit env c allow_deletion false s).2 = .ok () →
      baselineOrAudit env { c with ignore_failures := true } allow_deletion false s = baselineOrAudit env c allow_deletion false s) ∧
    ((incremental env c allow_deletion change_list_uri from_datetime s).2 = .ok () →
      incremental env { c with ignore_failures := true } allow_deletion change_list_uri from_datetime s =
        incremental env c allow_deletion change_list_uri from_datetime s) := by
  constructor
  · intro hok
    rcases C126_baseline env c allow_deletion false s hi with h | ⟨h, -⟩
    · exact h
    · rw [hok] at h; cases h
  · intro hok
    rcases C126_incremental env c allow_deletion change_list_uri from_datetime s hi with h | ⟨h, -⟩
    · exact h
    · rw [hok] at h; cases h

/-- C126: and it does go on.  A baseline sync that ends well, whether it ignores failures or not, has requested every listed resource that was
missing or of which there was another version. -/
theorem C126_all_requested (env : Env) (c : ClientCfg) (allow_deletion : Bool) (s : St) (sites : List (Map × Loc)) (src : Dict Resource)
    (hsites : Sites c env.cwd sites s.world.fs) (hh : ∀ t ∈ s.hashes, HashType t) (hk : ListsKeyed env.sources)
    (hfound : (findResourceList env.sources c.disc).2 = .ok src) (hd : c.dryrun = false) (ht : 0 < c.tries)
    (hok : (baselineOrAudit env c allow_deletion false s).2 = .ok ()) (u : Str)
    (hu : MissingAt sites src s.world.fs u ∨ OutdatedAt sites src s.world.fs u) :
    Effect.get u ∈ doneBetween s (baselineOrAudit env c allow_deletion false s).1 := by
  obtain ⟨p1, p2, -⟩ := baselinePlan_same env c false s
  unfold baselineOrAudit at hok ⊢
  rcases hp : baselinePlan env c false s with ⟨s1, x⟩
  rw [hp] at hok p1 p2
  cases x with
  | error e => cases hok
  | ok y =>
    obtain ⟨src', cmp⟩ := y
    obtain ⟨dst, hpl⟩ := baselinePlan_ok hp
    have hsrc : src' = src := by
      have := hpl.found
      rw [hfound] at this
      cases this; rfl
    subst hsrc
    obtain ⟨hw, hc, hup, -⟩ := compares_sets_at hsites hh hk hp
    simp only at hok ⊢
    have hr : ∃ r ∈ iterList cmp.created ++ iterList cmp.updated, r.uri = u := by
      rcases hu with hu | hu
      · obtain ⟨r, hr⟩ := (hc u).mpr hu
        have e : r.uri = u := hw.created.2 _ _ hr
        exact ⟨r, List.mem_append_left _ ((mem_iterList hw.created).mpr (by rw [e]; exact hr)), e⟩
      · obtain ⟨r, hr⟩ := (hup u).mpr hu
        have e : r.uri = u := hw.updated.2 _ _ hr
        exact ⟨r, List.mem_append_right _ ((mem_iterList hw.updated).mpr (by rw [e]; exact hr)), e⟩
    obtain ⟨r, hr, rfl⟩ := hr
    split at hok
    · rename_i hz
      exfalso
      rcases hz with hz | hz
      · cases hz
      · have h1 : cmp.created = [] := List.length_eq_zero_iff.mp (by omega)
        have h2 : cmp.updated = [] := List.length_eq_zero_iff.mp (by omega)
        rw [h1, h2] at hr
        revert hr
        rw [iterList_eq]
        simp [listing, dget]
    · rename_i hz
      rw [if_neg hz]
      exact Requested.mem (.earlier (Did.same p2 p1) (baselineSync_requests env c allow_deletion src' cmp hd ht s1 hok r hr))

/-- C126: an incremental sync that ends well has requested every resource whose last change at or after the start time says that it was created
or updated. -/
theorem C126_all_changes_requested (env : Env) (c : ClientCfg) (allow_deletion : Bool) (uri from_datetime : Option Str) (s : St)
    (hd : c.dryrun = false) (ht : 0 < c.tries) (hok : (incremental env c allow_deletion uri from_datetime s).2 = .ok ())
    (changes : List Resource) (hread : ChangesRead env c uri changes) (t0 : Rat) (hstart : startTime env c from_datetime s = .ok t0)
    (r : Resource) (hr : LastChange changes c.spec_version t0 r) (hc : r.change = some "created".toList ∨ r.change = some "updated".toList) :
    Effect.get r.uri ∈ doneBetween s (incremental env c allow_deletion uri from_datetime s).1 := by
  obtain ⟨p1, p2⟩ := incrementalPlan_same env c uri from_datetime s
  unfold incremental at hok ⊢
  rcases hp : incrementalPlan env c uri from_datetime s with ⟨s1, x⟩
  rw [hp] at hok p1 p2
  cases x with
  | error e => cases hok
  | ok cl =>
    obtain ⟨t0', clUri, raw, kept, last, hpl⟩ := incrementalPlan_ok hp
    have h1 := hpl.start
    rw [hstart] at h1
    cases h1
    have hraw : raw = changes := by
      obtain ⟨u, hu1, hu2⟩ := hread
      have := hpl.listUri
      rw [hu1] at this
      cases this
      have := hpl.read
      rw [hu2] at this
      cases this
      rfl
    subst hraw
    have hnd : r.change ≠ some sDeleted := by rcases hc with h | h <;> rw [h] <;> decide
    have hin : r ∈ cl := last_selected hpl hr (fun h => absurd h hnd)
    simp only at hok ⊢
    split
    · rename_i hz
      exfalso
      rcases hz with rfl | ⟨hz, -⟩
      · cases hin
      · exact hnd (by simpa using List.all_eq_true.mp hz r hin)
    · rename_i hz
      rw [if_neg hz] at hok
      have each := forEach_each (applyOne_later env c allow_deletion) cl s1
      rcases e1 : forEach (applyOne env c allow_deletion) cl s1 with ⟨s2, x⟩
      rw [e1] at hok each
      cases x with
      | error e => cases hok
      | ok _ =>
        obtain ⟨m, m1, m2, m3⟩ := each rfl r hin
        exact Requested.mem (.earlier (Did.trans (Did.same p2 p1) m1)
          ((applyOne_requests env c allow_deletion hd ht m r hc.symm m2).later (Did.trans m3 (finish_later env c s2))))

/-- C126: a lenient sync ends with a FatalError only before it has requested or changed anything (no mapping, an unsafe one, no list, resources
outside the authority of their list, …). -/
theorem C126_fatal_first (env : Env) (c : ClientCfg) (allow_deletion audit_only : Bool) (uri from_datetime : Option Str) (s : St)
    (hi : c.ignore_failures = true) :
    ((baselineOrAudit env c allow_deletion audit_only s).2 = .error .fatal →
      (baselineOrAudit env c allow_deletion audit_only s).1.trace = s.trace ∧
      (baselineOrAudit env c allow_deletion audit_only s).1.world = s.world) ∧
    ((incremental env c allow_deletion uri from_datetime s).2 = .error .fatal →
      (incremental env c allow_deletion uri from_datetime s).1.trace = s.trace ∧
      (incremental env c allow_deletion uri from_datetime s).1.world = s.world) := by
  constructor
  · obtain ⟨p1, p2, -⟩ := baselinePlan_same env c audit_only s
    unfold baselineOrAudit
    rcases hp : baselinePlan env c audit_only s with ⟨s1, x⟩
    rw [hp] at p1 p2
    cases x with
    | error e => exact fun _ => ⟨p2, p1⟩
    | ok y =>
      simp only
      split
      · exact fun _ => ⟨p2, p1⟩
      · intro h
        rw [baselineSync_fatal env c allow_deletion y.1 y.2 hi s1 h]
        exact ⟨p2, p1⟩
  · obtain ⟨p1, p2⟩ := incrementalPlan_same env c uri from_datetime s
    unfold incremental
    rcases hp : incrementalPlan env c uri from_datetime s with ⟨s1, x⟩
    rw [hp] at p1 p2
    cases x with
    | error e => exact fun _ => ⟨p2, p1⟩
    | ok cl =>
      simp only
      split
      · exact fun _ => ⟨p2, p1⟩
      · intro h
        exfalso
        have n := forEach_not_fatal (applyOne_not_fatal env c allow_deletion hi) cl s1
        rcases e1 : forEach (applyOne env c allow_deletion) cl s1 with ⟨s2, x⟩
        rw [e1] at h n
        cases x with
        | error e => exact n h
        | ok _ => exact finish_not_fatal env c s2 h

namespace LenientExample
open SitesExample LocalityExample TriesExample

/-- With one try each of the downloads of the example for several sites fails; the run that ignores this goes on to the end (and removes what is
not in the list) … -/
example : (baselineOrAudit env2 once true false s2).2 = .error .fatal ∧
    (baselineOrAudit env2 { once with ignore_failures := true } true false s2).2 = .ok () ∧
    (baselineOrAudit env2 once true false s2).1.world.fs.get ["d".toList, "old".toList] ≠ none ∧
    (baselineOrAudit env2 { once with ignore_failures := true } true false s2).1.world.fs.get ["d".toList, "old".toList] = none := by
  refine ⟨by decide +kernel, by decide +kernel, by decide +kernel, by decide +kernel⟩

/-- … after requesting both resources … -/
example : Effect.get "http://t/x/b/c".toList ∈ doneBetween s2 (baselineOrAudit env2 { once with ignore_failures := true } true false s2).1 := by
  refine C126_all_requested env2 { once with ignore_failures := true } true s2 two _ { sites2 with mapper := rfl } (by simp [s2]) keyed2
    (by decide +kernel : (findResourceList env2.sources ({ once with ignore_failures := true } : ClientCfg).disc).2 = .ok (ClientExample.listOf rl)) rfl (by decide)
    (by decide +kernel) _ (.inl ⟨⟨_, by simp [ClientExample.listOf, rl]; rfl⟩, ?_⟩)
  rintro b t ⟨p, hp, names, hne, e, hf⟩
  obtain ⟨rfl, rfl⟩ : p = (mT, ["e".toList, "f".toList]) ∧ names = ["b".toList, "c".toList] :=
    sites2.uri_inj (b := ["b".toList, "c".toList]) hp (by simp [two]) hne (by decide) (names_of_file sites2.tidy hne hf)
      (ClientExample.plain (by unfold ProperName OneLine; decide)) e.symm
  revert hf
  unfold IsFile
  rw [(by decide : s2.world.fs.get (["e".toList, "f".toList] ++ ["b".toList, "c".toList]) = none)]
  simp

example : GoesPast s2 (baselineOrAudit env2 once true false s2) (baselineOrAudit env2 { once with ignore_failures := true } true false s2) :=
  C126_baseline env2 once true false s2 rfl

open ClientExample in
/-- A change is applied although nothing can be had from the server: it has been requested. -/
example : let env := { ClientExample.env [] [chg "b" sUpdated none 80] [1] with serve := fun _ _ => .fail .io }
    Effect.get (chg "b" sUpdated none 80).uri ∈ doneBetween (start ["a"])
      (incremental env { cfg with ignore_failures := true } true none from0 (start ["a"])).1 := by
  refine C126_all_changes_requested _ { cfg with ignore_failures := true } true none from0 (start ["a"]) rfl (by decide) (by decide +kernel)
    [chg "b" sUpdated none 80] ⟨_, rfl, rfl⟩ 0 (by decide +kernel) _ ⟨[], [], rfl, ⟨80, rfl, by decide +kernel⟩, by simp⟩ (.inr rfl)

/-- There are such errors: here without a mapping. -/
example : (baselineOrAudit env2 { once with ignore_failures := true, disc := { mapper := [] } } true false s2).2 = .error .fatal := by decide +kernel

/-- … with two tries there is nothing to ignore -/
example : baselineOrAudit env2 { cfg2 with ignore_failures := true } true false s2 = baselineOrAudit env2 cfg2 true false s2 :=
  (C126_same env2 cfg2 true none none s2 rfl).1 (by decide +kernel)

end LenientExample

end Resync
