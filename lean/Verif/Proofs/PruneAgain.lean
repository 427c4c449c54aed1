import Verif.Spec.PruneAgain
import Verif.Proofs.ChangeOrder
/-
Lemmas for C120.
-/

namespace Resync
open Py Resync.Spec

theorem firstIs_iff {l : List Resource} {u k : Str} :
    FirstIs l u k ↔ (l.find? (fun x => x.uri = u)).map (·.change) = some (some k) := by
  constructor
  · rintro ⟨b, r, a, rfl, hu, hk, hb⟩
    have : (b ++ r :: a).find? (fun x => decide (x.uri = u)) = some r := by
      rw [List.find?_append, List.find?_eq_none.mpr (by intro x hx; simpa using hb x hx)]
      simp [hu]
    rw [this]; simp [hk]
  · intro h
    obtain ⟨r, hr, hk⟩ := Option.map_eq_some_iff.mp h
    obtain ⟨hp, b, a, e, hb⟩ := List.find?_eq_some_iff_append.mp hr
    exact ⟨b, r, a, e, by simpa using hp, hk, by intro x hx; simpa using hb x hx⟩

theorem mem_keepLast_iff {l : List Resource} {r : Resource} :
    r ∈ keepLast l ↔ ∃ b a, l = b ++ r :: a ∧ ∀ x ∈ a, x.uri ≠ r.uri := by
  induction l with
  | nil => simp [keepLast]
  | cons y t ih =>
    constructor
    · intro h
      unfold keepLast at h
      split at h
      · obtain ⟨b, a, e, h2⟩ := ih.mp h
        exact ⟨y :: b, a, by simp [e], h2⟩
      · rename_i hn
        rcases List.mem_cons.mp h with rfl | h
        · refine ⟨[], t, rfl, ?_⟩
          intro x hx e
          exact hn (List.any_eq_true.mpr ⟨x, hx, by simpa using e⟩)
        · obtain ⟨b, a, e, h2⟩ := ih.mp h
          exact ⟨y :: b, a, by simp [e], h2⟩
    · rintro ⟨b, a, e, h2⟩
      cases b with
      | nil =>
        obtain ⟨rfl, rfl⟩ : y = r ∧ t = a := by simpa using e
        unfold keepLast
        rw [if_neg]
        · simp
        · intro h
          obtain ⟨x, hx, hxu⟩ := List.any_eq_true.mp h
          exact h2 x hx (by simpa using hxu)
      | cons z b =>
        obtain ⟨rfl, rfl⟩ : y = z ∧ t = b ++ r :: a := by simpa using e
        have : r ∈ keepLast (b ++ r :: a) := ih.mpr ⟨b, a, rfl, h2⟩
        unfold keepLast
        split
        · exact this
        · exact List.mem_cons_of_mem _ this

theorem lastIs_iff {l : List Resource} {u k : Str} :
    LastIs l u k ↔ ∃ r ∈ keepLast l, r.uri = u ∧ r.change = some k := by
  constructor
  · rintro ⟨b, r, a, e, hu, hk, ha⟩
    exact ⟨r, mem_keepLast_iff.mpr ⟨b, a, e, by rw [hu]; exact ha⟩, hu, hk⟩
  · rintro ⟨r, hr, hu, hk⟩
    obtain ⟨b, a, e, ha⟩ := mem_keepLast_iff.mp hr
    exact ⟨b, r, a, e, hu, hk, by rw [← hu]; exact ha⟩

theorem keepLast_of_nodup {l : List Resource} (h : (l.map (·.uri)).Nodup) : keepLast l = l := by
  induction l with
  | nil => rfl
  | cons r t ih =>
    rw [List.map_cons, List.nodup_cons] at h
    unfold keepLast
    rw [if_neg, ih h.2]
    intro ha
    obtain ⟨x, hx, hxu⟩ := List.any_eq_true.mp ha
    exact h.1 (List.mem_map.mpr ⟨x, hx, by simpa using hxu⟩)

theorem prunedSpec_nodup (l : List Resource) : ((prunedSpec l).map (·.uri)).Nodup :=
  (keepLast_nodup l).sublist ((List.filter_sublist).map _)

theorem keepLast_append (a b : List Resource) :
    keepLast (a ++ b) = (keepLast a).filter (fun r => ! b.any (fun x => x.uri = r.uri)) ++ keepLast b := by
  induction a with
  | nil => rfl
  | cons r t ih =>
    rw [List.cons_append, keepLast, keepLast, List.any_append, ih]
    by_cases h1 : t.any (fun x => decide (x.uri = r.uri)) = true
    · simp [h1]
    · by_cases h2 : b.any (fun x => decide (x.uri = r.uri)) = true
      · rw [if_pos (by simp [h2]), if_neg h1, List.filter_cons, if_neg (by simp [h2])]
      · rw [if_neg (by simp [h1, h2]), if_neg h1, List.filter_cons, if_pos (by simp [h2])]
        rfl

/-- the entry left for a URI, if there is one, is the only one and thus the first -/
theorem find_of_nodup {l : List Resource} (h : (l.map (·.uri)).Nodup) {r : Resource} (hr : r ∈ l) :
    l.find? (fun x => x.uri = r.uri) = some r := by
  obtain ⟨x, hx, hm, hu⟩ := find_uri_some ⟨r, hr, rfl⟩
  rw [hx, List.inj_on_of_nodup_map h hm hr hu]

theorem prunedSpec_again (l : List Resource) : prunedSpec (prunedSpec l) = prunedSpec l := by
  have hn := prunedSpec_nodup l
  conv_lhs => unfold prunedSpec
  rw [show keepLast (List.filter _ (keepLast l)) = prunedSpec l from keepLast_of_nodup hn]
  rw [List.filter_eq_self]
  intro r hr
  rw [show (List.filter _ (keepLast l)) = prunedSpec l from rfl, find_of_nodup hn hr]
  by_cases hc : r.change = some "deleted".toList
  · rw [Option.map_some, hc]; decide
  · rw [decide_eq_false hc]; rfl

theorem prunedSpec_piecewise {a b : List Resource}
    (h : ∀ u, (∃ x ∈ a, x.uri = u) → LastIs b u "deleted".toList → (FirstIs a u "created".toList ↔ LastIs a u "created".toList)) :
    prunedSpec (prunedSpec a ++ b) = prunedSpec (a ++ b) := by
  have hn := prunedSpec_nodup a
  have hL : prunedSpec (prunedSpec a ++ b) = (keepLast (prunedSpec a ++ b)).filter (fun r => ! (r.change = some "deleted".toList &&
    ((prunedSpec a ++ b).find? (fun x => x.uri = r.uri)).map (·.change) = some (some "created".toList))) := rfl
  have hR : prunedSpec (a ++ b) = (keepLast (a ++ b)).filter (fun r => ! (r.change = some "deleted".toList &&
    ((a ++ b).find? (fun x => x.uri = r.uri)).map (·.change) = some (some "created".toList))) := rfl
  rw [hL, hR, keepLast_append, keepLast_append, keepLast_of_nodup hn, List.filter_append, List.filter_append]
  congr 1
  · -- what the new entries say nothing about
    have hP : prunedSpec a = (keepLast a).filter (fun r => ! (r.change = some "deleted".toList &&
      (a.find? (fun x => x.uri = r.uri)).map (·.change) = some (some "created".toList))) := rfl
    have e1 : ((prunedSpec a).filter (fun r => ! b.any (fun x => x.uri = r.uri))).filter (fun r => ! (r.change = some "deleted".toList &&
        ((prunedSpec a ++ b).find? (fun x => x.uri = r.uri)).map (·.change) = some (some "created".toList))) =
        (prunedSpec a).filter (fun r => ! b.any (fun x => x.uri = r.uri)) := by
      rw [List.filter_eq_self]
      intro r hr
      have hr := (List.mem_filter.mp hr).1
      rw [List.find?_append, find_of_nodup hn hr]
      by_cases hc : r.change = some "deleted".toList
      · rw [Option.some_or, Option.map_some, hc]; decide
      · rw [decide_eq_false hc]; rfl
    rw [e1, hP, List.filter_filter, List.filter_filter]
    apply List.filter_congr
    intro r hr
    obtain ⟨f, hf, -, -⟩ := find_uri_some ⟨r, mem_keepLast hr, rfl⟩
    rw [List.find?_append, hf, Option.some_or, Bool.and_comm]
  · -- what they say something about
    apply List.filter_congr
    intro r hr
    by_cases hc : r.change = some "deleted".toList
    · rw [List.find?_append, List.find?_append]
      by_cases hex : ∃ x ∈ a, x.uri = r.uri
      · have hi := h r.uri hex (lastIs_iff.mpr ⟨r, hr, rfl, hc⟩)
        obtain ⟨f, hf, -, -⟩ := find_uri_some hex
        obtain ⟨z, hz, hzu⟩ := keepLast_has_uri.mpr hex
        have hlast : LastIs a r.uri "created".toList ↔ z.change = some "created".toList := by
          rw [lastIs_iff]
          constructor
          · rintro ⟨y, hy, hyu, hyc⟩
            rw [← List.inj_on_of_nodup_map (keepLast_nodup a) hy hz (hyu.trans hzu.symm)]; exact hyc
          · intro hzc; exact ⟨z, hz, hzu, hzc⟩
        have hfirst : FirstIs a r.uri "created".toList ↔ f.change = some "created".toList := by
          rw [firstIs_iff, hf, Option.map_some]; exact ⟨Option.some.inj, fun e => by rw [e]⟩
        have hiff : f.change = some "created".toList ↔ z.change = some "created".toList := hfirst.symm.trans (hi.trans hlast)
        have hzp : z ∈ prunedSpec a := by
          refine List.mem_filter.mpr ⟨hz, ?_⟩
          rw [hzu, hf, Option.map_some]
          by_cases hzd : z.change = some "deleted".toList
          · have : ¬ f.change = some "created".toList := by
              rw [hiff, hzd]; decide
            rw [Bool.not_eq_true', Bool.and_eq_false_iff]
            exact Or.inr (decide_eq_false (fun e => this (Option.some.inj e)))
          · rw [decide_eq_false hzd]; rfl
        have hzf : (prunedSpec a).find? (fun x => x.uri = r.uri) = some z := by
          rw [← hzu]; exact find_of_nodup hn hzp
        rw [hzf, hf, Option.some_or, Option.some_or, Option.map_some, Option.map_some]
        congr 2
        rw [decide_eq_decide]
        constructor
        · intro e; rw [hiff.mpr (Option.some.inj e)]
        · intro e; rw [hiff.mp (Option.some.inj e)]
      · have h1 : a.find? (fun x => decide (x.uri = r.uri)) = none := find_uri_none hex
        have h2 : (prunedSpec a).find? (fun x => decide (x.uri = r.uri)) = none :=
          find_uri_none (fun ⟨x, hx, e⟩ => hex ⟨x, mem_keepLast (List.mem_filter.mp hx).1, e⟩)
        rw [h1, h2]
    · rw [decide_eq_false hc]; rfl

theorem applyChange_kind {r : Resource} (h : r.change = some "created".toList ∨ r.change = some "updated".toList ∨ r.change = some "deleted".toList)
    (m m' : Str → Option Resource) : applyChange m r r.uri = applyChange m' r r.uri := by
  unfold applyChange
  rw [if_pos rfl, if_pos rfl]
  rcases h with h | h | h
  · rw [if_neg (by rw [h]; decide), if_pos (Or.inl h), if_neg (by rw [h]; decide), if_pos (Or.inl h)]
  · rw [if_neg (by rw [h]; decide), if_pos (Or.inr h), if_neg (by rw [h]; decide), if_pos (Or.inr h)]
  · rw [if_pos h, if_pos h]

/-- the last entry for a URI decides -/
theorem applyChanges_last {l : List Resource} (hk : AllKinds l) (m m' : Str → Option Resource) {r : Resource} (hr : r ∈ keepLast l) :
    applyChanges m l r.uri = applyChange m' r r.uri := by
  obtain ⟨b, a, e, ha⟩ := mem_keepLast_iff.mp hr
  subst e
  rw [applyChanges_append]
  have : applyChanges (applyChanges m b) (r :: a) = applyChanges (applyChange (applyChanges m b) r) a := rfl
  rw [this, applyChanges_miss _ _ _ ha]
  exact applyChange_kind (hk r (by simp)) _ _

end Resync
