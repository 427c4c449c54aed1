import Verif.Py.Dict
/- Lemmas about dictionaries and sorting. -/

namespace Py
variable {α : Type}

theorem dget_dset (d : Dict α) (k k' : Str) (v : α) :
    dget (dset d k v) k' = if k = k' then some v else dget d k' := by
  induction d with
  | nil => simp [dset, dget]
  | cons p t ih =>
    obtain ⟨a, b⟩ := p
    by_cases h : a = k
    · subst h; by_cases h2 : a = k' <;> simp [dset, dget, h2]
    · by_cases h2 : a = k'
      · subst h2; simp [dset, dget, h, Ne.symm h]
      · simp [dset, dget, h, h2, ih]

theorem dget_dset_self (d : Dict α) (k : Str) (v : α) : dget (dset d k v) k = some v := by
  simp [dget_dset]

theorem dget_dset_ne (d : Dict α) {k k' : Str} (v : α) (h : k ≠ k') :
    dget (dset d k v) k' = dget d k' := by simp [dget_dset, h]

theorem dget_isSome_iff (d : Dict α) (k : Str) : (dget d k).isSome ↔ k ∈ dkeys d := by
  induction d with
  | nil => simp [dget, dkeys]
  | cons p t ih =>
    obtain ⟨a, b⟩ := p
    by_cases h : a = k
    · simp [dget, dkeys, h]
    · have : dkeys ((a, b) :: t) = a :: dkeys t := rfl
      simp [dget, h, ih, this, Ne.symm h]

theorem dget_eq_none_iff (d : Dict α) (k : Str) : dget d k = none ↔ k ∉ dkeys d := by
  rw [← dget_isSome_iff]; cases dget d k <;> simp

theorem mem_of_dget {d : Dict α} {k : Str} {v : α} (h : dget d k = some v) : (k, v) ∈ d := by
  induction d with
  | nil => simp [dget] at h
  | cons p t ih =>
    obtain ⟨a, b⟩ := p
    by_cases h2 : a = k
    · simp [dget, h2] at h; simp [h2, h]
    · simp [dget, h2] at h; exact List.mem_cons_of_mem _ (ih h)

theorem dget_of_mem {d : Dict α} {k : Str} {v : α} (hn : (dkeys d).Nodup) (h : (k, v) ∈ d) :
    dget d k = some v := by
  induction d with
  | nil => simp at h
  | cons p t ih =>
    obtain ⟨a, b⟩ := p
    have hn' : a ∉ dkeys t ∧ (dkeys t).Nodup := by simpa [dkeys] using hn
    rcases List.mem_cons.mp h with h | h
    · cases h; simp [dget]
    · have : a ≠ k := fun e => hn'.1 (e ▸ List.mem_map.mpr ⟨_, h, rfl⟩)
      simp [dget, this, ih hn'.2 h]

theorem dkeys_dset (d : Dict α) (k : Str) (v : α) :
    dkeys (dset d k v) = if k ∈ dkeys d then dkeys d else dkeys d ++ [k] := by
  induction d with
  | nil => simp [dset, dkeys]
  | cons p t ih =>
    obtain ⟨a, b⟩ := p
    by_cases h : a = k
    · simp [dset, dkeys, h]
    · have e : dkeys ((a, b) :: t) = a :: dkeys t := rfl
      have e2 : dset ((a, b) :: t) k v = (a, b) :: dset t k v := by simp [dset, h]
      have e3 : dkeys ((a, b) :: dset t k v) = a :: dkeys (dset t k v) := rfl
      rw [e2, e3, e, ih]
      by_cases h2 : k ∈ dkeys t <;> simp [h2, Ne.symm h]

theorem mem_dkeys_dset (d : Dict α) (k k' : Str) (v : α) :
    k' ∈ dkeys (dset d k v) ↔ k' = k ∨ k' ∈ dkeys d := by
  rw [dkeys_dset]
  split
  · rename_i h
    exact ⟨.inr, fun h2 => h2.elim (fun e => e ▸ h) id⟩
  · simp [or_comm]

theorem nodup_dset (d : Dict α) (k : Str) (v : α) (h : (dkeys d).Nodup) :
    (dkeys (dset d k v)).Nodup := by
  rw [dkeys_dset]
  split
  · exact h
  · rename_i h2
    rw [List.nodup_append]
    refine ⟨h, by simp, ?_⟩
    intro a ha b hb e
    simp at hb; subst hb; subst e; exact h2 ha

theorem dset_absent (d : Dict α) (k : Str) (v : α) (h : k ∉ dkeys d) : dset d k v = d ++ [(k, v)] := by
  induction d with
  | nil => rfl
  | cons p t ih =>
    obtain ⟨a, b⟩ := p
    have h' : k ≠ a ∧ k ∉ dkeys t := by simpa [dkeys] using h
    simp [dset, Ne.symm h'.1, ih h'.2]

theorem mem_sortStr {l : List Str} {x : Str} : x ∈ sortStr l ↔ x ∈ l :=
  (List.perm_insertionSort _ l).mem_iff

theorem sortStr_perm (l : List Str) : (sortStr l).Perm l := List.perm_insertionSort _ l

theorem sortStr_pairwise (l : List Str) : (sortStr l).Pairwise (· ≤ ·) :=
  List.pairwise_insertionSort _ l

theorem sortStr_strict {l : List Str} (h : l.Nodup) : (sortStr l).Pairwise (· < ·) := by
  have hn : (sortStr l).Nodup := (sortStr_perm l).nodup_iff.mpr h
  have := (sortStr_pairwise l).and hn
  exact this.imp (fun h => lt_of_le_of_ne h.1 h.2)

theorem sortStr_eq_of_perm {l l' : List Str} (h : l.Perm l') : sortStr l = sortStr l' := by
  refine List.Perm.eq_of_pairwise (le := (· ≤ ·)) (fun a b _ _ h1 h2 => le_antisymm h1 h2)
    (sortStr_pairwise l) (sortStr_pairwise l') ?_
  exact (sortStr_perm l).trans (h.trans (sortStr_perm l').symm)

end Py
