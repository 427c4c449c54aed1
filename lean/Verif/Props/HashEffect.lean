import Verif.Proofs.OptionOrder
import Verif.Props.Order
import Verif.Props.ClientSites
import Verif.Props.Locality
/-
C57: what asking for digests does to a baseline sync (nothing at all).
-/

namespace Resync
open Py Resync.Spec

theorem listing_map_ext {β : Type} {f : Resource → β} {d e : Dict Resource} (hd : WF d) (he : WF e)
    (h : ∀ u, (dget d u).map f = (dget e u).map f) : (listing d).map f = (listing e).map f := by
  unfold listing
  rw [List.map_filterMap, List.map_filterMap]
  have hk : sortStr (dkeys d) = sortStr (dkeys e) := by
    apply sortStr_eq_of_perm
    rw [List.perm_ext_iff_of_nodup hd.1 he.1]
    intro u
    rw [dkeys_mem, dkeys_mem]
    have := congrArg Option.isSome (h u)
    simp only [Option.isSome_map] at this
    rw [← Option.isSome_iff_exists, ← Option.isSome_iff_exists, this]
  rw [hk]
  congr 1
  funext u
  exact h u

theorem forEach_looks {β : Type} {f : Resource → β} {g : St → Resource → St × Except ClientErr Unit} (hg : ∀ s r r', f r = f r' → g s r = g s r') :
    ∀ (l l' : List Resource) (s : St), l.map f = l'.map f → forEach g l s = forEach g l' s
  | [], [], _, _ => rfl
  | [], _ :: _, _, h => by cases h
  | _ :: _, [], _, h => by cases h
  | a :: l, b :: l', s, h => by
    simp only [List.map_cons, List.cons.injEq] at h
    unfold forEach
    rw [hg s a b h.1]
    rcases g s b with ⟨s1, x⟩
    cases x with
    | error e => rfl
    | ok u => exact forEach_looks hg l l' s1 h.2

theorem deleteOne_looks (env : Env) (c : ClientCfg) (allow : Bool) (s : St) (r r' : Resource) (h : (r.uri, r.timestamp) = (r'.uri, r'.timestamp)) :
    deleteOne env c allow s r = deleteOne env c allow s r' := by
  simp only [Prod.mk.injEq] at h
  unfold deleteOne deleteResource
  rw [h.1, h.2]

/-- C57, what happens instead: whatever types of digest are asked for, a baseline sync or audit does, and ends, exactly as if none had been.
The digests of the local files are computed, but those that could be compared with the source's are not among them. -/
theorem C57_no_effect_violated (env : Env) (c : ClientCfg) (allow_deletion audit_only : Bool) (s : St) (sites : List (Map × Loc))
    (hsites : Sites c env.cwd sites s.world.fs) (hh : ∀ t ∈ s.hashes, HashType t) (hk : ListsKeyed env.sources) :
    let p := baselineOrAudit env c allow_deletion audit_only s
    let p' := baselineOrAudit env c allow_deletion audit_only { s with hashes := [] }
    p.2 = p'.2 ∧ p.1.trace = p'.1.trace ∧ p.1.world = p'.1.world := by
  suffices ∃ h', baselineOrAudit env c allow_deletion audit_only s =
      withHashes h' (baselineOrAudit env c allow_deletion audit_only { s with hashes := [] }) by
    obtain ⟨h', e⟩ := this
    simp only
    rw [e]
    exact ⟨rfl, rfl, rfl⟩
  unfold baselineOrAudit baselinePlan
  by_cases hm : c.disc.mapper = []
  · rw [if_pos hm, if_pos hm]; exact ⟨s.hashes, rfl⟩
  rw [if_neg hm, if_neg hm]
  cases (if audit_only then Except.ok false else c.disc.mapper.isUnsafe) with
  | error e => exact ⟨s.hashes, rfl⟩
  | ok b =>
    cases b with
    | true => exact ⟨s.hashes, rfl⟩
    | false =>
      cases hfound : (findResourceList env.sources c.disc).2 with
      | error e => exact ⟨s.hashes, rfl⟩
      | ok src =>
        have hw := found_WF hk hfound
        simp only
        by_cases hne : src = []
        · rw [if_pos hne, if_pos hne]; exact ⟨s.hashes, rfl⟩
        rw [if_neg hne, if_neg hne]
        have est : ∀ t : St, (if t.hashes ≠ [] then { t with hashes := pruneHashes t.hashes (listHashes (iterList src)) } else t)
            = { t with hashes := leftHashes t src } := by
          intro t; unfold leftHashes; split <;> rfl
        have e1 := est s
        have e2 := est { s with hashes := [] }
        simp only at e1 e2
        rw [e1, e2]
        have l2 : leftHashes { s with hashes := [] } src = [] := rfl
        obtain ⟨dst, k1, k2⟩ := hsites.scan env.lib (leftHashes s src) (fun t ht => hh t (leftHashes_sub ht))
        obtain ⟨dst', k1', k2'⟩ := hsites.scan env.lib (leftHashes { s with hashes := [] } src) (by rw [l2]; simp)
        have hdw : WF dst := (fromDisk_found' hsites.proper k1).1
        have hdw' : WF dst' := (fromDisk_found' hsites.proper k1').1
        -- the same files, with the same times, and the same of them agree with the list
        have there : ∀ u a, dget dst u = some a → ∃ a', dget dst' u = some a' ∧ a'.uri = a.uri ∧ a'.timestamp = a.timestamp ∧
            ∀ r, dget src u = some r → a'.eq (some r) = a.eq (some r) := by
          intro u a ha
          obtain ⟨q, hq, names, b, t, hn, hf, hu, rfl⟩ := (k2 u a).mp ha
          refine ⟨_, (k2' u _).mpr ⟨q, hq, names, b, t, hn, hf, hu, rfl⟩, rfl, rfl, fun r hr => ?_⟩
          rw [Bool.eq_iff_iff, describes_eq hw hr, describes_eq hw hr]
        have back : ∀ u a, dget dst' u = some a → ∃ a', dget dst u = some a' := by
          intro u a ha
          obtain ⟨q, hq, names, b, t, hn, hf, hu, rfl⟩ := (k2' u a).mp ha
          exact ⟨_, (k2 u _).mpr ⟨q, hq, names, b, t, hn, hf, hu, rfl⟩⟩
        have none_iff : ∀ u, dget dst u = none ↔ dget dst' u = none := by
          intro u
          constructor
          · intro h
            cases h' : dget dst' u with
            | none => rfl
            | some a => obtain ⟨a', e⟩ := back u a h'; rw [h] at e; cases e
          · intro h
            cases h' : dget dst u with
            | none => rfl
            | some a => obtain ⟨a', e, -⟩ := there u a h'; rw [h] at e; cases e
        obtain ⟨g, cmp, a1, -⟩ := compare_spec (pairHeap dst src) 0 1 (by decide) hdw hw
        obtain ⟨g', cmp', b1, -⟩ := compare_spec (pairHeap dst' src) 0 1 (by decide) hdw' hw
        have hC := compared hdw hw a1
        have hC' := compared hdw' hw b1
        have lc : listing cmp.created = listing cmp'.created := by
          apply listing_ext hC.wf.created hC'.wf.created
          intro u r
          rw [hC.created, hC'.created, none_iff]
        have lu : listing cmp.updated = listing cmp'.updated := by
          apply listing_ext hC.wf.updated hC'.wf.updated
          intro u r
          rw [hC.updated, hC'.updated]
          refine and_congr_right fun hr => ?_
          constructor
          · rintro ⟨a, x1, x2⟩
            obtain ⟨a', y1, -, -, y2⟩ := there u a x1
            exact ⟨a', y1, by rw [y2 r hr, x2]⟩
          · rintro ⟨a', x1, x2⟩
            obtain ⟨a, y⟩ := back u a' x1
            obtain ⟨a'', y1, -, -, y2⟩ := there u a y
            rw [x1] at y1
            cases y1
            exact ⟨a, y, by rw [← y2 r hr, x2]⟩
        have ld : (listing cmp.deleted).map (fun r => (r.uri, r.timestamp)) = (listing cmp'.deleted).map (fun r => (r.uri, r.timestamp)) := by
          apply listing_map_ext hC.wf.deleted hC'.wf.deleted
          intro u
          cases h1 : dget cmp.deleted u with
          | some a =>
            obtain ⟨x1, x2⟩ := (hC.deleted u a).mp h1
            obtain ⟨a', y1, y2, y3, -⟩ := there u a x1
            rw [(hC'.deleted u a').mpr ⟨y1, x2⟩]
            simp [y2, y3]
          | none =>
            cases h2 : dget cmp'.deleted u with
            | none => rfl
            | some a' =>
              obtain ⟨x1, x2⟩ := (hC'.deleted u a').mp h2
              obtain ⟨a, y⟩ := back u a' x1
              rw [(hC.deleted u a).mpr ⟨y, x2⟩] at h1
              cases h1
        have nu : cmp.updated.length = cmp'.updated.length := by rw [← listing_len hC.wf.updated, lu, listing_len hC'.wf.updated]
        have nd : cmp.deleted.length = cmp'.deleted.length := by
          rw [← listing_len hC.wf.deleted, ← listing_len hC'.wf.deleted]
          simpa using congrArg List.length ld
        have nc : cmp.created.length = cmp'.created.length := by rw [← listing_len hC.wf.created, lc, listing_len hC'.wf.created]
        simp only [k1, k1', a1, b1, nu, nd, nc]
        refine ⟨leftHashes s src, ?_⟩
        split
        · rfl
        · have hs : ∀ t, baselineSync env c allow_deletion src cmp t = baselineSync env c allow_deletion src cmp' t := by
            intro t
            unfold baselineSync
            simp only [iterList_eq, lc, lu, forEach_looks (deleteOne_looks env c allow_deletion) _ _ _ ld]
          rw [hs]
          exact baselineSync_hashes env c (leftHashes s src) allow_deletion src cmp' { s with hashes := leftHashes { s with hashes := [] } src }

namespace HashEffectExample
open ClientExample

/-- The digest in the list is not that of the local file, and digests are asked for; time and length agree.  Nothing is done. -/
example : let r : Resource := { res "a" 50 with md5 := some "xyz".toList, length := some 1 }
    let s0 : St := { start ["a"] with hashes := ["md5".toList] }
    exLib.md5 [7] ≠ "xyz".toList ∧ (baselineOrAudit (ClientExample.env [r] [] [1]) cfg false false s0).1.trace = [] := by decide +kernel

open SitesExample in
/-- the example with several sites meets the conditions -/
example : (baselineOrAudit env2 cfg2 true false { s2 with hashes := ["md5".toList] }).1.trace = (baselineOrAudit env2 cfg2 true false { s2 with hashes := [] }).1.trace :=
  (C57_no_effect_violated env2 cfg2 true false { s2 with hashes := ["md5".toList] } two sites2 (by simp [HashType]) keyed2).2.1

end HashEffectExample

end Resync
