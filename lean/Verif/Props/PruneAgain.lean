import Verif.Proofs.PruneAgain
/-
C120: pruning a change list: what it does to the effect of the list, pruning again, pruning piece by piece.
-/

namespace Resync
open Py Resync.Spec

/-- Pruning keeps the effect of a change list on every collection which does not yet have what the list first creates and in the end
deletes. -/
theorem C120_effect_partial (m : Str → Option Resource) (l : List Resource) (hk : AllKinds l)
    (hf : ∀ u, FirstIs l u "created".toList → LastIs l u "deleted".toList → m u = none) :
    applyChanges m (pruneDupes l).1 = applyChanges m l := by
  rw [C25_prune_dupes]
  funext u
  have hkp : AllKinds (prunedSpec l) := fun r hr => hk r (mem_keepLast (List.mem_filter.mp hr).1)
  by_cases hex : ∃ x ∈ l, x.uri = u
  · obtain ⟨r, hr, rfl⟩ := keepLast_has_uri.mpr hex
    rw [applyChanges_last hk m m hr]
    by_cases hp : r ∈ prunedSpec l
    · exact applyChanges_hit m _ (prunedSpec_nodup l) r hp
    · have hd : r.change = some "deleted".toList ∧ FirstIs l r.uri "created".toList := by
        rw [firstIs_iff]
        by_contra hcon
        apply hp
        refine List.mem_filter.mpr ⟨hr, ?_⟩
        rw [Bool.not_eq_true', Bool.and_eq_false_iff]
        by_cases h1 : r.change = some "deleted".toList
        · right
          simpa using fun h2 => hcon ⟨h1, h2⟩
        · left
          simpa using h1
      have hm := hf r.uri hd.2 (lastIs_iff.mpr ⟨r, hr, rfl, hd.1⟩)
      rw [applyChanges_miss, hm]
      · unfold applyChange
        rw [if_pos rfl, if_pos hd.1]
      · intro x hx hu
        have := List.inj_on_of_nodup_map (keepLast_nodup l) (List.mem_filter.mp hx).1 hr hu
        exact hp (this ▸ hx)
  · rw [applyChanges_miss, applyChanges_miss]
    · intro r hr hu; exact hex ⟨r, hr, hu⟩
    · intro r hr hu; exact hex ⟨r, mem_keepLast (List.mem_filter.mp hr).1, hu⟩

/-- Without this condition the deletion is lost: a collection that has the resource keeps it, where the list as a whole removes it. -/
theorem C120_effect_violated (m : Str → Option Resource) (l : List Resource) (hk : AllKinds l) (u : Str)
    (h1 : FirstIs l u "created".toList) (h2 : LastIs l u "deleted".toList) :
    applyChanges m l u = none ∧ applyChanges m (pruneDupes l).1 u = m u := by
  obtain ⟨r, hr, rfl, hd⟩ := lastIs_iff.mp h2
  constructor
  · rw [applyChanges_last hk m m hr]
    unfold applyChange
    rw [if_pos rfl, if_pos hd]
  · rw [C25_prune_dupes]
    apply applyChanges_miss
    intro x hx hu
    have hx := List.mem_filter.mp hx
    have e := List.inj_on_of_nodup_map (keepLast_nodup l) hx.1 hr hu
    have h3 := hx.2
    rw [e, firstIs_iff.mp h1, hd] at h3
    revert h3
    decide

/-- Pruning a pruned list removes nothing. -/
theorem C120_again (l : List Resource) : pruneDupes (pruneDupes l).1 = ((pruneDupes l).1, 0) := by
  rw [C25_prune_dupes (pruneDupes l).1, C25_prune_dupes l]
  simp only [prunedSpec_again, Nat.sub_self]

/-- A list may be pruned, extended and pruned again, with the same result as pruning it once at the end, if for each URI which is deleted
in the end the first part of the list begins with a creation just if it ends with one. -/
theorem C120_piecewise_partial (a b : List Resource)
    (h : ∀ u, (∃ x ∈ a, x.uri = u) → LastIs b u "deleted".toList →
      (FirstIs a u "created".toList ↔ LastIs a u "created".toList)) :
    (pruneDupes ((pruneDupes a).1 ++ b)).1 = (pruneDupes (a ++ b)).1 := by
  rw [C25_prune_dupes a, C25_prune_dupes, C25_prune_dupes]
  exact prunedSpec_piecewise h

/-- In particular if nothing in the first part is deleted in the second. -/
theorem C120_piecewise_kept (a b : List Resource) (h : ∀ x ∈ a, ¬ LastIs b x.uri "deleted".toList) :
    (pruneDupes ((pruneDupes a).1 ++ b)).1 = (pruneDupes (a ++ b)).1 :=
  C120_piecewise_partial a b (fun u ⟨x, hx, hu⟩ hl => absurd (hu ▸ hl) (h x hx))

/-- Otherwise it may lose a deletion: a resource is deleted, made again (here the list is pruned) and deleted.  Pruned once, the list
says that it is deleted; pruned piece by piece, it says nothing, and a collection that has had the resource all along keeps it. -/
theorem C120_piecewise_violated : ∃ a b : List Resource, AllKinds (a ++ b) ∧
    (pruneDupes (a ++ b)).1 = b ∧ b ≠ [] ∧ (pruneDupes ((pruneDupes a).1 ++ b)).1 = [] ∧
    ∀ r ∈ b, ∀ m : Str → Option Resource, applyChanges m (a ++ b) r.uri = none ∧
      applyChanges m (pruneDupes ((pruneDupes a).1 ++ b)).1 r.uri = m r.uri := by
  have hk : AllKinds ([ent "a" "deleted", ent "a" "created"] ++ [ent "a" "deleted"]) := by
    intro r hr
    simp only [List.cons_append, List.nil_append, List.mem_cons, List.not_mem_nil, or_false] at hr
    rcases hr with rfl | rfl | rfl <;> decide
  have e : (pruneDupes ((pruneDupes [ent "a" "deleted", ent "a" "created"]).1 ++ [ent "a" "deleted"])).1 = [] := by decide
  refine ⟨[ent "a" "deleted", ent "a" "created"], [ent "a" "deleted"], hk, by decide, by decide, e, ?_⟩
  intro r hr m
  rw [List.mem_singleton] at hr
  subst hr
  constructor
  · rw [applyChanges_last hk m m (r := ent "a" "deleted") (by decide)]
    rfl
  · rw [e]; rfl

/-- Two cut-offs have the effect of the later one, and the numbers removed add up. -/
theorem C120_cutoffs (l : List Resource) (t t' : Rat) (v : Str) (h : ∀ r ∈ l, (entryTime v r).isSome) :
    ∃ k n n', pruneUpdatesBefore l t v = (k, .ok n) ∧
      pruneUpdatesBefore k t' v = ((pruneUpdatesBefore l (max t t') v).1, .ok n') ∧
      (pruneUpdatesBefore l (max t t') v).2 = .ok (n + n') := by
  have e1 := (C26_prune_updates_before l t v).1 h
  have e2 := (C26_prune_updates_before l (max t t') v).1 h
  have e3 := (C26_prune_updates_before (l.filter (fun r => (entryTime v r).any (t ≤ ·))) t' v).1
    (fun r hr => h r (List.mem_filter.mp hr).1)
  have ef : (l.filter (fun r => (entryTime v r).any (t ≤ ·))).filter (fun r => (entryTime v r).any (t' ≤ ·)) =
      l.filter (fun r => (entryTime v r).any (max t t' ≤ ·)) := by
    rw [List.filter_filter]
    apply List.filter_congr
    intro r hr
    obtain ⟨s, hs⟩ := Option.isSome_iff_exists.mp (h r hr)
    rw [hs]
    simp only [Option.any_some, max_le_iff]
    rw [← Bool.decide_and]
    exact decide_eq_decide.mpr and_comm
  rw [ef] at e3
  rw [e2]
  refine ⟨_, _, _, e1, e3, ?_⟩
  · have h1 := List.length_filter_le (fun r : Resource => (entryTime v r).any (t ≤ ·)) l
    have h2 := List.length_filter_le (fun r : Resource => (entryTime v r).any (t' ≤ ·)) (l.filter (fun r => (entryTime v r).any (t ≤ ·)))
    rw [ef] at h2
    simp only [Except.ok.injEq]
    omega

/-! Cases that meet the hypotheses. -/

/-- the list of the examples: something is made and removed again, something changes, something that was there is removed -/
def pruneList : List Resource := [ent "a" "created", ent "b" "updated", ent "a" "updated", ent "c" "deleted", ent "b" "updated", ent "a" "deleted"]

example : AllKinds pruneList := by
  intro r hr
  simp only [pruneList, List.mem_cons, List.not_mem_nil, or_false] at hr
  rcases hr with rfl | rfl | rfl | rfl | rfl | rfl <;> decide

example : FirstIs pruneList "a".toList "created".toList ∧ LastIs pruneList "a".toList "deleted".toList :=
  ⟨⟨[], _, _, rfl, by decide, by decide, by decide⟩, ⟨pruneList.dropLast, ent "a" "deleted", [], rfl, by decide, by decide, by decide⟩⟩

example : (pruneDupes pruneList).1 = [ent "c" "deleted", ent "b" "updated"] ∧ (pruneDupes pruneList).2 = 4 := by decide

/-- made before the list is pruned, deleted afterwards: the condition of C120_piecewise_partial holds -/
example : ∀ u, (∃ x ∈ [ent "a" "created", ent "b" "updated"], x.uri = u) → LastIs [ent "a" "deleted", ent "b" "deleted"] u "deleted".toList →
    (FirstIs [ent "a" "created", ent "b" "updated"] u "created".toList ↔ LastIs [ent "a" "created", ent "b" "updated"] u "created".toList) := by
  rintro u ⟨x, hx, rfl⟩ -
  simp only [List.mem_cons, List.not_mem_nil, or_false] at hx
  rcases hx with rfl | rfl
  · rw [firstIs_iff, lastIs_iff]; decide
  · rw [firstIs_iff, lastIs_iff]; decide

example : (pruneDupes ((pruneDupes [ent "a" "created", ent "b" "updated"]).1 ++ [ent "a" "deleted", ent "b" "deleted"])).1 = [ent "b" "deleted"] := by
  decide

example : pruneUpdatesBefore [entAt "a" 1, entAt "b" 3, entAt "a" 2] 2 "1.1".toList = ([entAt "b" 3, entAt "a" 2], .ok 1) ∧
    pruneUpdatesBefore [entAt "b" 3, entAt "a" 2] 3 "1.1".toList = ([entAt "b" 3], .ok 1) := by decide +kernel

end Resync
