import Verif.Props.ClientFetch
import Verif.Props.Lenient
/-
C58 for whole runs: how often a resource is requested.
-/

namespace Resync
open Py Resync.Spec

/-- between the two moments nothing has been requested more than `n` times for each time it is in the list -/
def AtMost (n : Nat) (us : List Str) (s s' : St) : Prop :=
  ∃ es, s'.trace = s.trace ++ es ∧ ∀ u, es.count (Effect.get u) ≤ n * us.count u

variable {n : Nat}

theorem AtMost.refl (us : List Str) (s : St) : AtMost n us s s := ⟨[], by simp, fun _ => by simp⟩

theorem AtMost.trans {us vs : List Str} {a b d : St} (h : AtMost n us a b) (h' : AtMost n vs b d) : AtMost n (us ++ vs) a d := by
  obtain ⟨x, x1, x2⟩ := h
  obtain ⟨y, y1, y2⟩ := h'
  refine ⟨x ++ y, by rw [y1, x1]; simp, fun u => ?_⟩
  rw [List.count_append, List.count_append, Nat.mul_add]
  exact Nat.add_le_add (x2 u) (y2 u)

theorem AtMost.more {us vs : List Str} {a b : St} (h : AtMost n us a b) : AtMost n (us ++ vs) a b := by
  have := h.trans (AtMost.refl vs b)
  exact this

theorem atMost_none {P : Effect → Prop} {a b : St} (h : Did P a b) (hP : ∀ u, ¬ P (.get u)) : AtMost n [] a b := by
  obtain ⟨es, h1, -, h3⟩ := h
  refine ⟨es, h1, fun u => ?_⟩
  have : Effect.get u ∉ es := fun hm => hP u (h3 _ hm)
  rw [List.count_eq_zero_of_not_mem this]
  exact Nat.zero_le _

theorem atMost_done {us : List Str} {s s' : St} (h : AtMost n us s s') (u : Str) : (doneBetween s s').count (Effect.get u) ≤ n * us.count u := by
  obtain ⟨es, h1, h2⟩ := h
  unfold doneBetween
  rw [h1, List.drop_left]
  exact h2 u

section
variable (env : Env) (c : ClientCfg)

theorem updateResource_atMost (s : St) (r : Resource) (fn : Str) : AtMost c.tries [r.uri] s (updateResource env c s r fn).1 := by
  obtain ⟨h1, h2, -⟩ := C58_update_resource env c s r fn
  obtain ⟨es, e1, -⟩ := (updateResource_did env c s r fn).1
  have hd : doneBetween s (updateResource env c s r fn).1 = es := by
    unfold doneBetween
    rw [e1, List.drop_left]
  rw [hd] at h1 h2
  refine ⟨es, e1, fun u => ?_⟩
  by_cases hu : u = r.uri
  · subst hu
    rw [List.count_singleton_self, Nat.mul_one]
    refine Nat.le_trans ?_ h1
    unfold requests
    rw [← List.count_filter (p := fun e => match e with | .get _ => true | _ => false) (a := Effect.get r.uri) (l := es) rfl]
    exact List.count_le_length
  · have : Effect.get u ∉ es := by
      intro hm
      obtain ⟨pre, post, e⟩ := List.append_of_mem hm
      exact hu (h2 pre u post e).1
    rw [List.count_eq_zero_of_not_mem this]
    exact Nat.zero_le _

theorem updateOne_atMost (s : St) (r : Resource) : AtMost c.tries [r.uri] s (updateOne env c s r).1 := by
  unfold updateOne
  cases c.disc.mapper.srcToDst r.uri with
  | error e => exact .refl _ _
  | ok fn =>
    have h := updateResource_atMost env c s r fn
    simp only
    rcases e : updateResource env c s r fn with ⟨s1, x⟩
    rw [e] at h
    cases x <;> exact h

theorem deleteOne_atMost (allow : Bool) (s : St) (r : Resource) : AtMost n [] s (deleteOne env c allow s r).1 := by
  unfold deleteOne
  cases c.disc.mapper.srcToDst r.uri with
  | error e => exact .refl _ _
  | ok fn => exact atMost_none (deleteResource_did env c allow s r fn).1 (by rintro u ⟨h, -⟩; cases h)

theorem applyOne_atMost (allow : Bool) (s : St) (r : Resource) : AtMost c.tries [r.uri] s (applyOne env c allow s r).1 := by
  unfold applyOne
  cases c.disc.mapper.srcToDst r.uri with
  | error e => exact .refl _ _
  | ok fn =>
    simp only
    split
    · have h := updateResource_atMost env c s r fn
      rcases e : updateResource env c s r fn with ⟨s1, x⟩
      rw [e] at h
      cases x <;> exact h
    · split
      · have h : AtMost c.tries [] s (deleteResource env c allow s r fn).1 :=
          atMost_none (deleteResource_did env c allow s r fn).1 (by rintro u ⟨h, -⟩; cases h)
        exact AtMost.more (vs := [r.uri]) h
      · exact .refl _ _

theorem forEach_atMost {f : St → Resource → St × Except ClientErr Unit} {w : Resource → List Str} (hf : ∀ s r, AtMost n (w r) s (f s r).1) :
    ∀ (rs : List Resource) (s : St), AtMost n (rs.flatMap w) s (forEach f rs s).1
  | [], s => .refl _ s
  | r :: rs, s => by
    have h := hf s r
    unfold forEach
    rw [List.flatMap_cons]
    rcases e : f s r with ⟨s1, x⟩
    rw [e] at h
    cases x with
    | error e => exact h.more
    | ok u => exact h.trans (forEach_atMost hf rs s1)

theorem finish_atMost (s : St) : AtMost n [] s (if s.last_timestamp > 0 then storeState env c s else (s, .ok ()) : St × Except ClientErr Unit).1 := by
  split
  · exact atMost_none (storeState_did env c s).1 (by rintro u ⟨_, _, -, -, h⟩; cases h)
  · exact .refl _ _

theorem flatMap_uri (rs : List Resource) : rs.flatMap (fun r => [r.uri]) = rs.map (·.uri) := by
  induction rs with
  | nil => rfl
  | cons a rs ih => simp [List.flatMap_cons, ih]

theorem flatMap_nothing (rs : List Resource) : rs.flatMap (fun _ => ([] : List Str)) = [] := by
  induction rs with
  | nil => rfl
  | cons a rs ih => simp [List.flatMap_cons]

theorem baselineSync_atMost (allow : Bool) (src : Dict Resource) (cmp : Comparison) (s : St) :
    AtMost c.tries ((iterList cmp.created).map (·.uri) ++ (iterList cmp.updated).map (·.uri)) s (baselineSync env c allow src cmp s).1 := by
  unfold baselineSync
  cases baselineAuthority c src with
  | error e => exact .refl _ _
  | ok u =>
    simp only
    have h1 := forEach_atMost (updateOne_atMost env c) (iterList cmp.created) { s with last_timestamp := 0 }
    rw [flatMap_uri] at h1
    have h1 : AtMost c.tries _ s _ := h1
    rcases e1 : forEach (updateOne env c) (iterList cmp.created) { s with last_timestamp := 0 } with ⟨s1, x⟩
    rw [e1] at h1
    cases x with
    | error e => exact h1.more
    | ok _ =>
      simp only
      have h2 := forEach_atMost (updateOne_atMost env c) (iterList cmp.updated) s1
      rw [flatMap_uri] at h2
      rcases e2 : forEach (updateOne env c) (iterList cmp.updated) s1 with ⟨s2, x⟩
      rw [e2] at h2
      have h12 := h1.trans h2
      cases x with
      | error e => exact h12
      | ok _ =>
        simp only
        have h3 := forEach_atMost (n := c.tries) (deleteOne_atMost env c allow) (iterList cmp.deleted) s2
        rw [flatMap_nothing] at h3
        rcases e3 : forEach (deleteOne env c allow) (iterList cmp.deleted) s2 with ⟨s3, x⟩
        rw [e3] at h3
        have h13 := h12.trans h3
        rw [List.append_nil] at h13
        cases x with
        | error e => exact h13
        | ok _ =>
          have := h13.trans (finish_atMost env c s3)
          rw [List.append_nil] at this
          exact this

end

/-- C58 for a baseline sync or an audit: no URI is requested more often than there are tries, whatever the server does, and none that is not
in the list. -/
theorem C58_baseline_requests (env : Env) (c : ClientCfg) (allow_deletion audit_only : Bool) (s : St) (hk : ListsKeyed env.sources)
    (hfs : ProperFs s.world.fs) (u : Str) :
    let done := doneBetween s (baselineOrAudit env c allow_deletion audit_only s).1
    done.count (Effect.get u) ≤ c.tries ∧
    (Effect.get u ∈ done → ∃ src, (findResourceList env.sources c.disc).2 = .ok src ∧ ∃ r, (u, r) ∈ src) := by
  obtain ⟨p1, p2, -⟩ := baselinePlan_same env c audit_only s
  have nothing : ∀ s1 : St, s1.trace = s.trace → (doneBetween s s1).count (Effect.get u) ≤ c.tries ∧
      (Effect.get u ∈ doneBetween s s1 → ∃ src, (findResourceList env.sources c.disc).2 = .ok src ∧ ∃ r, (u, r) ∈ src) := by
    intro s1 h
    have : doneBetween s s1 = [] := by unfold doneBetween; rw [h]; simp
    rw [this]
    simp
  simp only
  unfold baselineOrAudit
  rcases hp : baselinePlan env c audit_only s with ⟨s1, x⟩
  rw [hp] at p1 p2
  cases x with
  | error e => exact nothing s1 p2
  | ok y =>
    obtain ⟨src, cmp⟩ := y
    simp only
    split
    · exact nothing s1 p2
    · obtain ⟨dst, hpl⟩ := baselinePlan_ok hp
      have pf := planFacts hk hfs hpl
      have hC := pf.cmp
      have h0 : AtMost c.tries [] s s1 := ⟨[], by rw [List.append_nil]; exact p2, fun _ => by simp⟩
      have h := atMost_done (h0.trans (baselineSync_atMost env c allow_deletion src cmp s1)) u
      rw [List.nil_append, List.count_append, iterList_eq, iterList_eq] at h
      have uniq : ∀ {d : Dict Resource}, WF d → ((listing d).map (·.uri)).count u ≤ 1 ∧
          (0 < ((listing d).map (·.uri)).count u → ∃ r, dget d u = some r) := by
        intro d hd
        rw [listing_uris hd]
        refine ⟨List.nodup_iff_count_le_one.mp ((sortStr_perm _).nodup_iff.mpr hd.1) u, fun hpos => ?_⟩
        exact dkeys_mem.mp (mem_sortStr.mp (List.count_pos_iff.mp hpos))
      obtain ⟨c1, c2⟩ := uniq hC.wf.created
      obtain ⟨d1, d2⟩ := uniq hC.wf.updated
      have one : ((listing cmp.created).map (·.uri)).count u + ((listing cmp.updated).map (·.uri)).count u ≤ 1 := by
        by_contra hgt
        obtain ⟨r, hr⟩ := c2 (by omega)
        obtain ⟨r', hr'⟩ := d2 (by omega)
        have x1 := ((hC.created u r).mp hr).2
        obtain ⟨a, x2, -⟩ := ((hC.updated u r').mp hr').2
        rw [x1] at x2
        cases x2
      refine ⟨Nat.le_trans h (by calc c.tries * _ ≤ c.tries * 1 := Nat.mul_le_mul_left _ one
                                  _ = c.tries := Nat.mul_one _), fun hm => ⟨src, pf.found, ?_⟩⟩
      have hpos := List.count_pos_iff.mpr hm
      have : 0 < ((listing cmp.created).map (·.uri)).count u + ((listing cmp.updated).map (·.uri)).count u := by
        by_contra hz
        have hz : ((listing cmp.created).map (·.uri)).count u + ((listing cmp.updated).map (·.uri)).count u = 0 := by omega
        rw [hz] at h
        exact absurd (Nat.lt_of_lt_of_le hpos h) (by simp)
      rcases Nat.lt_or_ge 0 (((listing cmp.created).map (·.uri)).count u) with hx | hx
      · obtain ⟨r, hr⟩ := c2 hx
        exact ⟨r, mem_of_dget ((hC.created u r).mp hr).1⟩
      · obtain ⟨r, hr⟩ := d2 (by omega)
        exact ⟨r, mem_of_dget ((hC.updated u r).mp hr).1⟩

/-- C58 for an incremental sync: however often a resource is in the change list -/
theorem C58_incremental_requests (env : Env) (c : ClientCfg) (allow_deletion : Bool) (change_list_uri from_datetime : Option Str) (s : St) (u : Str) :
    let done := doneBetween s (incremental env c allow_deletion change_list_uri from_datetime s).1
    done.count (Effect.get u) ≤ c.tries ∧
    (Effect.get u ∈ done → ∃ changes, ChangesRead env c change_list_uri changes ∧ ∃ r ∈ changes, r.uri = u) := by
  obtain ⟨p1, p2⟩ := incrementalPlan_same env c change_list_uri from_datetime s
  have nothing : ∀ s1 : St, s1.trace = s.trace → (doneBetween s s1).count (Effect.get u) ≤ c.tries ∧
      (Effect.get u ∈ doneBetween s s1 → ∃ changes, ChangesRead env c change_list_uri changes ∧ ∃ r ∈ changes, r.uri = u) := by
    intro s1 h
    have : doneBetween s s1 = [] := by unfold doneBetween; rw [h]; simp
    rw [this]
    simp
  simp only
  unfold incremental
  rcases hp : incrementalPlan env c change_list_uri from_datetime s with ⟨s1, x⟩
  rw [hp] at p1 p2
  cases x with
  | error e => exact nothing s1 p2
  | ok cl =>
    obtain ⟨t0, clUri, raw, kept, last, hpl⟩ := incrementalPlan_ok hp
    simp only
    split
    · exact nothing s1 p2
    · have h0 : AtMost c.tries [] s s1 := ⟨[], by rw [List.append_nil]; exact p2, fun _ => by simp⟩
      have h1 := forEach_atMost (applyOne_atMost env c allow_deletion) cl s1
      rw [flatMap_uri] at h1
      have key : AtMost c.tries (cl.map (·.uri)) s (match forEach (applyOne env c allow_deletion) cl s1 with
          | (s, .error e) => (s, .error e)
          | (s, .ok ()) => if s.last_timestamp > 0 then storeState env c s else (s, .ok ()) : St × Except ClientErr Unit).1 := by
        rcases e1 : forEach (applyOne env c allow_deletion) cl s1 with ⟨s2, x⟩
        rw [e1] at h1
        cases x with
        | error e => exact h0.trans h1
        | ok _ =>
          have := (h0.trans h1).trans (finish_atMost env c s2)
          rw [List.append_nil] at this
          exact this
      have h := atMost_done key u
      have hnd : (cl.map (·.uri)).Nodup := by rw [hpl.dupes]; exact (C25_at_most_one_per_uri kept).1
      refine ⟨Nat.le_trans h (by calc c.tries * _ ≤ c.tries * 1 := Nat.mul_le_mul_left _ (List.nodup_iff_count_le_one.mp hnd u)
                                  _ = c.tries := Nat.mul_one _), fun hm => ⟨raw, ⟨clUri, hpl.listUri, hpl.read⟩, ?_⟩⟩
      have hpos := List.count_pos_iff.mpr hm
      have : 0 < (cl.map (·.uri)).count u := by
        by_contra hz
        have hz : (cl.map (·.uri)).count u = 0 := by omega
        rw [hz] at h
        exact absurd (Nat.lt_of_lt_of_le hpos h) (by simp)
      obtain ⟨r, hr, rfl⟩ := List.mem_map.mp (List.count_pos_iff.mp this)
      exact ⟨r, (lastChange_mem (planned_last hpl hr)).1, rfl⟩

namespace RequestCountExample
open ClientExample

/-- Two timeouts, then the file: three requests, as many as there are tries. -/
example : (doneBetween (start ["a"]) (incremental { slowServer with changeList := fun _ => some [chg "b" sUpdated none 80, chg "b" sUpdated none 90] }
    { cfg with tries := 3 } true none from0 (start ["a"])).1).count (Effect.get (uri "b")) = 3 := by decide +kernel

open SitesExample LocalityExample in
/-- The example for several sites meets the hypotheses; a resource there is requested, and more than once. -/
example : 1 < (doneBetween s2 (baselineOrAudit env2 cfg2 true false s2).1).count (Effect.get "http://t/x/b/c".toList) ∧
    (doneBetween s2 (baselineOrAudit env2 cfg2 true false s2).1).count (Effect.get "http://t/x/b/c".toList) ≤ cfg2.tries :=
  ⟨by decide +kernel, (C58_baseline_requests env2 cfg2 true false s2 keyed2 sites2.proper _).1⟩

end RequestCountExample

end Resync
