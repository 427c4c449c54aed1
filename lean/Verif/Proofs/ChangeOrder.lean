import Verif.Spec.ChangeOrder
import Verif.Proofs.Copies
import Verif.Proofs.DocOrder
/-
Lemmas for C117.
-/

namespace Resync
open Py Resync.Spec

theorem sameHist_symm {l l' : List Resource} (h : SameHistories l l') : SameHistories l' l := fun u => (h u).symm

theorem sameHist_perm {l l' : List Resource} (h : SameHistories l l') : l'.Perm l := by
  classical
  rw [List.perm_iff_count]
  intro r
  have e : ∀ k : List Resource, k.count r = (k.filter (fun x => x.uri = r.uri)).count r := by
    intro k
    rw [List.count_filter]
    simp
  rw [e l, e l', h r.uri]

theorem sameHist_mem {l l' : List Resource} (h : SameHistories l l') {r : Resource} : r ∈ l' ↔ r ∈ l := (sameHist_perm h).mem_iff

theorem sameHist_filter {l l' : List Resource} (h : SameHistories l l') (q : Resource → Bool) :
    SameHistories (l.filter q) (l'.filter q) := by
  intro u
  have e : ∀ k : List Resource, (k.filter q).filter (fun r => r.uri = u) = (k.filter (fun r => r.uri = u)).filter q := by
    intro k
    rw [List.filter_filter, List.filter_filter]
    congr 1
    funext r
    rw [Bool.and_comm]
  rw [e, e, h u]

theorem keepLast_filter (u : Str) : ∀ l : List Resource,
    (keepLast l).filter (fun r => r.uri = u) = ((l.filter (fun r => r.uri = u)).getLast?).toList := by
  intro l
  induction l with
  | nil => rfl
  | cons r t ih =>
    by_cases hu : r.uri = u
    · have hf : (r :: t).filter (fun r => r.uri = u) = r :: t.filter (fun r => r.uri = u) := by simp [hu]
      rw [hf]
      unfold keepLast
      split
      · rename_i h
        obtain ⟨x, hx, hxu⟩ := List.any_eq_true.mp h
        have hne : t.filter (fun r => r.uri = u) ≠ [] := by
          intro e
          have : x ∈ t.filter (fun r => r.uri = u) := List.mem_filter.mpr ⟨hx, by rw [← hu]; exact hxu⟩
          rw [e] at this
          cases this
        rw [ih, List.getLast?_cons, List.getLast?_eq_some_getLast hne]
        rfl
      · rename_i h
        have hnil : t.filter (fun r => r.uri = u) = [] := by
          rw [List.filter_eq_nil_iff]
          intro x hx hxu
          apply h
          exact List.any_eq_true.mpr ⟨x, hx, by rw [hu]; exact hxu⟩
        rw [List.filter_cons, if_pos (by simpa using hu), ih, hnil]
        rfl
    · have hf : (r :: t).filter (fun r => r.uri = u) = t.filter (fun r => r.uri = u) := by simp [hu]
      rw [hf, ← ih, keepLast]
      split
      · rfl
      · rw [List.filter_cons, if_neg (by simpa using hu)]

theorem prunedSpec_filter (u : Str) (l : List Resource) :
    (prunedSpec l).filter (fun r => r.uri = u) =
      (((l.filter (fun r => r.uri = u)).getLast?).toList).filter (fun r => ! (r.change = some "deleted".toList &&
        ((l.filter (fun r => r.uri = u)).head?).map (·.change) = some (some "created".toList))) := by
  unfold prunedSpec
  rw [← keepLast_filter, List.filter_filter, List.filter_filter]
  apply List.filter_congr
  intro r _
  by_cases hu : r.uri = u
  · subst hu
    rw [List.head?_filter]
    simp
  · simp [hu]

theorem sameHist_pruned {l l' : List Resource} (h : SameHistories l l') : SameHistories (prunedSpec l) (prunedSpec l') := by
  intro u
  rw [prunedSpec_filter, prunedSpec_filter, h u]

theorem lastChange_filter {l : List Resource} {v : Str} {t0 : Rat} {r : Resource} :
    LastChange l v t0 r ↔ LastChange (l.filter (fun x => x.uri = r.uri)) v t0 r := by
  constructor
  · rintro ⟨b, a, e, h1, h2⟩
    refine ⟨b.filter (fun x => x.uri = r.uri), a.filter (fun x => x.uri = r.uri), ?_, h1, ?_⟩
    · rw [e, List.filter_append, List.filter_cons, if_pos (by simp)]
    · intro x hx
      exact h2 x (List.mem_filter.mp hx).1
  · rintro ⟨b, a, e, h1, h2⟩
    obtain ⟨l1, l2, e1, -, e2⟩ := List.filter_eq_append_iff.mp e
    obtain ⟨l3, l4, e3, -, -, e4⟩ := List.filter_eq_cons_iff.mp e2
    refine ⟨l1 ++ l3, l4, by rw [e1, e3]; simp, h1, ?_⟩
    intro x hx hu
    exact h2 x (by rw [← e4]; exact List.mem_filter.mpr ⟨hx, by simpa using hu⟩) hu

theorem firstChange_filter {l : List Resource} {v : Str} {t0 : Rat} {r : Resource} :
    FirstChange l v t0 r ↔ FirstChange (l.filter (fun x => x.uri = r.uri)) v t0 r := by
  constructor
  · rintro ⟨b, a, e, h1, h2⟩
    refine ⟨b.filter (fun x => x.uri = r.uri), a.filter (fun x => x.uri = r.uri), ?_, h1, ?_⟩
    · rw [e, List.filter_append, List.filter_cons, if_pos (by simp)]
    · intro x hx
      exact h2 x (List.mem_filter.mp hx).1
  · rintro ⟨b, a, e, h1, h2⟩
    obtain ⟨l1, l2, e1, e5, e2⟩ := List.filter_eq_append_iff.mp e
    obtain ⟨l3, l4, e3, e6, -, -⟩ := List.filter_eq_cons_iff.mp e2
    refine ⟨l1 ++ l3, l4, by rw [e1, e3]; simp, h1, ?_⟩
    intro x hx hu
    rcases List.mem_append.mp hx with hx | hx
    · exact h2 x (by rw [← e5]; exact List.mem_filter.mpr ⟨hx, by simpa using hu⟩) hu
    · exact absurd (by simpa using hu) (e6 x hx)

theorem sameHist_last {l l' : List Resource} (h : SameHistories l l') {v : Str} {t0 : Rat} {r : Resource} :
    LastChange l' v t0 r ↔ LastChange l v t0 r := by
  rw [lastChange_filter, h r.uri, ← lastChange_filter]

theorem sameHist_first {l l' : List Resource} (h : SameHistories l l') {v : Str} {t0 : Rat} {r : Resource} :
    FirstChange l' v t0 r ↔ FirstChange l v t0 r := by
  rw [firstChange_filter, h r.uri, ← firstChange_filter]

theorem sameHist_records {l l' : List Resource} (h : SameHistories l l') {O N : Snapshot} {v : Str} {t0 : Rat}
    (hr : Records O N l v t0) : Records O N l' v t0 := by
  refine ⟨?_, ?_, ?_⟩
  · intro u hu
    exact hr.unchanged u (fun r hm => hu r ((sameHist_mem h).mpr hm))
  · intro r hl
    exact hr.last r ((sameHist_last h).mp hl)
  · intro r r' h1 h2
    exact hr.fresh r r' ((sameHist_first h).mp h1) ((sameHist_last h).mp h2)

theorem checkTimes_perm {l l' : List Resource} (hp : l'.Perm l) (last : Rat) :
    checkTimes l' last = checkTimes l last := by
  have maxc : ∀ a b c : Rat, (if b > (if a > c then a else c) then b else (if a > c then a else c)) =
      (if a > (if b > c then b else c) then a else (if b > c then b else c)) := by
    intro a b c
    split_ifs <;> linarith
  induction hp generalizing last with
  | nil => rfl
  | cons x _ ih =>
    unfold checkTimes
    cases x.ts_datetime <;> cases x.timestamp <;> simp only [ih]
  | swap x y l =>
    simp only [checkTimes]
    cases x.ts_datetime <;> cases x.timestamp <;> cases y.ts_datetime <;> cases y.timestamp <;> simp only [maxc]
  | trans _ _ ih1 ih2 => rw [ih1, ih2]

theorem checkChangeAuthority_iff {cs sm : UrlAuthority} {l : List Resource} :
    checkChangeAuthority cs sm l = .ok () ↔
      ∀ r ∈ l, cs.hasAuthorityOver r.uri = some true ∨ (cs.hasAuthorityOver r.uri = some false ∧ sm.hasAuthorityOver r.uri = some true) := by
  induction l with
  | nil => simp [checkChangeAuthority]
  | cons r t ih =>
    unfold checkChangeAuthority
    rw [List.forall_mem_cons, ← ih]
    cases h1 : cs.hasAuthorityOver r.uri with
    | none => simp
    | some b =>
      cases b with
      | true => simp
      | false =>
        cases h2 : sm.hasAuthorityOver r.uri with
        | none => simp
        | some b => cases b <;> simp

theorem incrementalAuthority_perm {c : ClientCfg} {u : Str} {b : Bool} {l l' : List Resource} (hp : l'.Perm l) :
    incrementalAuthority c u b l' = .ok () ↔ incrementalAuthority c u b l = .ok () := by
  unfold incrementalAuthority
  split
  · rfl
  split
  · rfl
  split
  · rfl
  split
  · rfl
  split
  · rfl
  rw [checkChangeAuthority_iff, checkChangeAuthority_iff]
  simp only [hp.mem_iff]

theorem pruneUpdatesBefore_same {l l' : List Resource} (h : SameHistories l l') (t : Rat) (v : Str) :
    (∃ e e', (pruneUpdatesBefore l t v).2 = .error e ∧ (pruneUpdatesBefore l' t v).2 = .error e') ∨
    ∃ k k' n, pruneUpdatesBefore l t v = (k, .ok n) ∧ pruneUpdatesBefore l' t v = (k', .ok n) ∧ SameHistories k k' := by
  have hp := sameHist_perm h
  by_cases ht : ∃ r ∈ l, entryTime v r = none
  · left
    obtain ⟨r, hr, he⟩ := ht
    rw [(C26_prune_updates_before l t v).2 ⟨r, hr, he⟩, (C26_prune_updates_before l' t v).2 ⟨r, hp.mem_iff.mpr hr, he⟩]
    exact ⟨_, _, rfl, rfl⟩
  · right
    have ha : ∀ r ∈ l, (entryTime v r).isSome := by
      intro r hr
      cases he : entryTime v r with
      | none => exact absurd ⟨r, hr, he⟩ ht
      | some x => rfl
    rw [(C26_prune_updates_before l t v).1 ha, (C26_prune_updates_before l' t v).1 (fun r hr => ha r (hp.mem_iff.mp hr))]
    refine ⟨_, _, _, rfl, ?_, sameHist_filter h _⟩
    rw [hp.length_eq, (hp.filter _).length_eq]

end Resync
