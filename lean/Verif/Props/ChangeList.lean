import Verif.Props.ResourceList
/-
C25–C27: change lists (change_list.py, resource_container.py prune_dupes, client.py
write_change_list).
-/

namespace Resync
open Py Resync.Spec

/-! ## C25 prune_dupes -/

theorem mem_keepLast {l : List Resource} {r : Resource} (h : r ∈ keepLast l) : r ∈ l := by
  induction l with
  | nil => exact h
  | cons a t ih =>
    unfold keepLast at h
    split at h
    · exact List.mem_cons_of_mem _ (ih h)
    · rcases List.mem_cons.mp h with rfl | h
      · simp
      · exact List.mem_cons_of_mem _ (ih h)

theorem keepLast_has_uri {l : List Resource} {u : Str} :
    (∃ x ∈ keepLast l, x.uri = u) ↔ ∃ x ∈ l, x.uri = u := by
  constructor
  · rintro ⟨x, h1, h2⟩; exact ⟨x, mem_keepLast h1, h2⟩
  · induction l with
    | nil => rintro ⟨x, h, -⟩; simp at h
    | cons a t ih =>
      rintro ⟨x, hx, hu⟩
      unfold keepLast
      split
      · rename_i h
        rcases List.mem_cons.mp hx with rfl | hx
        · obtain ⟨y, hy, hyu⟩ := List.any_eq_true.mp h
          exact ih ⟨y, hy, (of_decide_eq_true hyu).trans hu⟩
        · exact ih ⟨x, hx, hu⟩
      · rcases List.mem_cons.mp hx with rfl | hx
        · exact ⟨x, by simp, hu⟩
        · obtain ⟨y, hy, hyu⟩ := ih ⟨x, hx, hu⟩
          exact ⟨y, by simp [hy], hyu⟩

theorem keepLast_nodup (l : List Resource) : ((keepLast l).map (·.uri)).Nodup := by
  induction l with
  | nil => simp [keepLast]
  | cons a t ih =>
    unfold keepLast
    split
    · exact ih
    · rename_i h
      rw [List.map_cons, List.nodup_cons]
      refine ⟨?_, ih⟩
      intro hm
      obtain ⟨x, hx, hu⟩ := List.mem_map.mp hm
      exact h (List.any_eq_true.mpr ⟨x, mem_keepLast hx, by simpa using hu⟩)

theorem keepLast_length_le (l : List Resource) : (keepLast l).length ≤ l.length := by
  induction l with
  | nil => simp [keepLast]
  | cons a t ih =>
    unfold keepLast
    split
    · simp; omega
    · simp; exact ih

/-- the loop state after the entries of `l` (processed last to first) -/
def pruneState (l : List Resource) : PruneState := l.reverse.foldl pruneStep {}

theorem pruneState_cons (r : Resource) (t : List Resource) :
    pruneState (r :: t) = pruneStep (pruneState t) r := by
  simp [pruneState]

/-- meaning of the `deletes` dictionary -/
def delSpec (l : List Resource) (u : Str) : Option (Option Str) :=
  match l.find? (fun x => x.uri = u), (keepLast l).find? (fun x => x.uri = u) with
  | some f, some x => if x.change = some sDeleted then some f.change else none
  | _, _ => none

theorem find_uri_none {l : List Resource} {u : Str} (h : ¬ ∃ x ∈ l, x.uri = u) :
    l.find? (fun x => decide (x.uri = u)) = none := by
  rw [List.find?_eq_none]
  intro x hx e
  exact h ⟨x, hx, of_decide_eq_true e⟩

theorem find_uri_some {l : List Resource} {u : Str} (h : ∃ x ∈ l, x.uri = u) :
    ∃ x, l.find? (fun x => decide (x.uri = u)) = some x ∧ x ∈ l ∧ x.uri = u := by
  cases hf : l.find? (fun x => decide (x.uri = u)) with
  | none =>
    obtain ⟨x, hx, e⟩ := h
    have := List.find?_eq_none.mp hf x hx
    simp [e] at this
  | some x =>
    have hp := List.find?_some hf
    exact ⟨x, rfl, List.mem_of_find?_eq_some hf, by simpa using hp⟩

theorem pruneState_spec (l : List Resource) :
    (∀ u, u ∈ (pruneState l).seen ↔ ∃ x ∈ l, x.uri = u) ∧
    (pruneState l).pruned1.reverse = keepLast l ∧
    (pruneState l).n + (keepLast l).length = l.length ∧
    ∀ u, dget (pruneState l).deletes u = delSpec l u := by
  induction l with
  | nil => exact ⟨by simp [pruneState], rfl, rfl, fun u => rfl⟩
  | cons r t ih =>
    obtain ⟨h1, h2, h3, h4⟩ := ih
    rw [pruneState_cons]
    unfold pruneStep
    by_cases hs : r.uri ∈ (pruneState t).seen
    · have hex := (h1 r.uri).mp hs
      have hany : t.any (fun x => decide (x.uri = r.uri)) = true := by
        obtain ⟨x, hx, e⟩ := hex
        exact List.any_eq_true.mpr ⟨x, hx, by simpa using e⟩
      have hk : keepLast (r :: t) = keepLast t := by simp only [keepLast, hany, if_true]
      rw [if_pos hs]
      refine ⟨?_, ?_, ?_, ?_⟩
      · intro u
        simp only []
        rw [h1]
        constructor
        · rintro ⟨x, hx, e⟩; exact ⟨x, by simp [hx], e⟩
        · rintro ⟨x, hx, e⟩
          rcases List.mem_cons.mp hx with rfl | hx
          · rw [← e]; exact hex
          · exact ⟨x, hx, e⟩
      · rw [hk]; exact h2
      · rw [hk]; simp only [List.length_cons]; omega
      · intro u
        simp only []
        by_cases hu : r.uri = u
        · subst hu
          obtain ⟨f, hf, -, -⟩ := find_uri_some hex
          obtain ⟨x, hx, -, -⟩ := find_uri_some (keepLast_has_uri.mpr hex)
          have e1 : delSpec (r :: t) r.uri = if x.change = some sDeleted then some r.change else none := by
            simp [delSpec, hk, hx]
          have e2 : delSpec t r.uri = if x.change = some sDeleted then some f.change else none := by
            simp [delSpec, hf, hx]
          rw [e1, h4, e2]
          by_cases hc : x.change = some sDeleted
          · simp [hc, dget_dset_self]
          · simp only [hc, if_false, Option.isSome_none, Bool.false_eq_true]
            rw [h4, e2, if_neg hc]
        · have e1 : delSpec (r :: t) u = delSpec t u := by
            simp [delSpec, hk, hu]
          rw [e1, ← h4]
          split
          · exact dget_dset_ne _ _ hu
          · rfl
    · have hex : ¬ ∃ x ∈ t, x.uri = r.uri := fun h => hs ((h1 _).mpr h)
      have hany : ¬ t.any (fun x => decide (x.uri = r.uri)) = true := by
        intro h
        obtain ⟨x, hx, e⟩ := List.any_eq_true.mp h
        exact hex ⟨x, hx, by simpa using e⟩
      have hk : keepLast (r :: t) = r :: keepLast t := by
        simp only [keepLast, hany, Bool.false_eq_true, if_false]
      rw [if_neg hs]
      refine ⟨?_, ?_, ?_, ?_⟩
      · intro u
        simp only [List.mem_cons]
        rw [h1]
        constructor
        · rintro (rfl | ⟨x, hx, e⟩)
          · exact ⟨r, by simp, rfl⟩
          · exact ⟨x, by simp [hx], e⟩
        · rintro ⟨x, hx, e⟩
          rcases hx with rfl | hx
          · exact .inl e.symm
          · exact .inr ⟨x, hx, e⟩
      · rw [hk]; simp [h2]
      · rw [hk]; simp only [List.length_cons]; omega
      · intro u
        simp only []
        by_cases hu : r.uri = u
        · subst hu
          have e1 : delSpec (r :: t) r.uri = if r.change = some sDeleted then some r.change else none := by
            simp [delSpec, hk]
          have e2 : delSpec t r.uri = none := by
            simp only [delSpec, find_uri_none hex]
          rw [e1]
          by_cases hc : r.change = some sDeleted
          · simp [hc, dget_dset_self]
          · rw [if_neg hc, if_neg hc, h4, e2]
        · have e1 : delSpec (r :: t) u = delSpec t u := by
            simp [delSpec, hk, hu]
          rw [e1, ← h4]
          split
          · exact dget_dset_ne _ _ hu
          · rfl

theorem pruneStep2_eq (del : Dict (Option Str)) (l : List Resource) (n : Nat) (acc : List Resource) :
    pruneStep2 del l n acc =
      (acc ++ l.filter (fun r => ! decide (dget del r.uri = some (some sCreated))),
       n + (l.length - (l.filter (fun r => ! decide (dget del r.uri = some (some sCreated)))).length)) := by
  induction l generalizing n acc with
  | nil => simp [pruneStep2]
  | cons r t ih =>
    unfold pruneStep2
    have hle := List.length_filter_le (fun r : Resource => ! decide (dget del r.uri = some (some sCreated))) t
    by_cases h : dget del r.uri = some (some sCreated)
    · rw [if_pos h, ih]
      have hf : (r :: t).filter (fun r => ! decide (dget del r.uri = some (some sCreated))) =
          t.filter (fun r => ! decide (dget del r.uri = some (some sCreated))) := by
        rw [List.filter_cons_of_neg]; simp [h]
      rw [hf, List.length_cons]
      congr 1
      omega
    · rw [if_neg h, ih]
      have hf : (r :: t).filter (fun r => ! decide (dget del r.uri = some (some sCreated))) =
          r :: t.filter (fun r => ! decide (dget del r.uri = some (some sCreated))) := by
        rw [List.filter_cons_of_pos]; simp [h]
      rw [hf, List.length_cons, List.length_cons, List.append_assoc, List.singleton_append]
      congr 1
      omega

/-- prune_dupes() leaves exactly the last entry of each URI, in the original order, minus the URIs
created first and deleted last; it returns the number of entries removed. -/
theorem C25_prune_dupes (l : List Resource) :
    pruneDupes l = (prunedSpec l, l.length - (prunedSpec l).length) := by
  obtain ⟨-, h2, h3, h4⟩ := pruneState_spec l
  have e0 : pruneDupes l = pruneStep2 (pruneState l).deletes (pruneState l).pruned1.reverse
    (pruneState l).n [] := rfl
  rw [e0, pruneStep2_eq, h2]
  have hf : (keepLast l).filter
      (fun r => ! decide (dget (pruneState l).deletes r.uri = some (some sCreated))) = prunedSpec l := by
    unfold prunedSpec
    apply List.filter_congr
    intro r hr
    rw [h4]
    have hex : ∃ x ∈ keepLast l, x.uri = r.uri := ⟨r, hr, rfl⟩
    obtain ⟨f, hf, -, -⟩ := find_uri_some (keepLast_has_uri.mp hex)
    obtain ⟨x, hx, hx2, hxu⟩ := find_uri_some hex
    have : x = r := by
      have hn := keepLast_nodup l
      exact List.inj_on_of_nodup_map hn hx2 hr hxu
    subst this
    simp only [delSpec, hf, hx, Option.map_some]
    by_cases hc : x.change = some sDeleted
    · have hc' : x.change = some "deleted".toList := hc
      simp [hc, sCreated, sDeleted]
    · have hc' : ¬ x.change = some "deleted".toList := hc
      rw [if_neg hc]
      simp only [hc', decide_false]
      simp
  rw [hf]
  simp only [List.nil_append, Prod.mk.injEq, true_and]
  have hle : (prunedSpec l).length ≤ (keepLast l).length := List.length_filter_le _ _
  omega

/-- One entry per URI remains at most, and it was the last entry for that URI. -/
theorem C25_at_most_one_per_uri (l : List Resource) :
    ((pruneDupes l).1.map (·.uri)).Nodup ∧ ∀ r ∈ (pruneDupes l).1, ∃ pre post,
      l = pre ++ r :: post ∧ ∀ x ∈ post, x.uri ≠ r.uri := by
  rw [C25_prune_dupes]
  constructor
  · exact (keepLast_nodup l).sublist ((List.filter_sublist).map _)
  · intro r hr
    have hr : r ∈ keepLast l := (List.mem_filter.mp hr).1
    clear * - hr
    induction l with
    | nil => simp [keepLast] at hr
    | cons a t ih =>
      unfold keepLast at hr
      split at hr
      · obtain ⟨pre, post, h1, h2⟩ := ih hr
        exact ⟨a :: pre, post, by simp [h1], h2⟩
      · rename_i h
        rcases List.mem_cons.mp hr with rfl | hr
        · refine ⟨[], t, rfl, ?_⟩
          intro x hx e
          exact h (List.any_eq_true.mpr ⟨x, hx, by simpa using e⟩)
        · obtain ⟨pre, post, h1, h2⟩ := ih hr
          exact ⟨a :: pre, post, by simp [h1], h2⟩

def ent (u : String) (c : String) : Resource := { uri := u.toList, change := some c.toList }
example : pruneDupes [ent "a" "created", ent "b" "updated", ent "a" "updated", ent "c" "deleted",
      ent "b" "deleted", ent "a" "deleted"] =
    ([ent "c" "deleted", ent "b" "deleted"], 4) := by decide

/-! ## C26 prune_updates_before -/

/-- the time that counts in the given version of the specification -/
def entryTime (spec_version : Str) (r : Resource) : Option Rat :=
  if spec_version = "1.0".toList then r.timestamp else r.ts_datetime

theorem pruneUpdatesLoop_ok (t : Rat) (b : Bool) (l : List Resource) (n : Nat) (acc : List Resource)
    (h : ∀ r ∈ l, ((if b then r.timestamp else r.ts_datetime) : Option Rat).isSome) :
    pruneUpdatesLoop t b l n acc =
      .ok (acc ++ l.filter (fun r => ((if b then r.timestamp else r.ts_datetime) : Option Rat).any (t ≤ ·)),
        n + (l.length - (l.filter (fun r => ((if b then r.timestamp else r.ts_datetime) : Option Rat).any (t ≤ ·))).length)) := by
  induction l generalizing n acc with
  | nil => simp [pruneUpdatesLoop]
  | cons r l ih =>
    have ih := fun n acc => ih n acc (fun x hx => h x (by simp [hx]))
    have hle := List.length_filter_le (fun r : Resource => ((if b then r.timestamp else r.ts_datetime) : Option Rat).any (t ≤ ·)) l
    obtain ⟨ts, hts⟩ := Option.isSome_iff_exists.mp (h r (by simp))
    simp only [pruneUpdatesLoop, hts]
    by_cases hc : t ≤ ts
    · rw [if_pos hc, ih, List.filter_cons_of_pos (by simp [hts, hc])]
      simp only [List.append_assoc, List.singleton_append, List.length_cons, Except.ok.injEq,
        Prod.mk.injEq, true_and]
      omega
    · rw [if_neg hc, ih, List.filter_cons_of_neg (by simp [hts, hc])]
      simp only [List.length_cons, Except.ok.injEq, Prod.mk.injEq, true_and]
      omega

theorem pruneUpdatesLoop_err (t : Rat) (b : Bool) (l : List Resource) (n : Nat) (acc : List Resource)
    (h : ∃ r ∈ l, ((if b then r.timestamp else r.ts_datetime) : Option Rat) = none) :
    pruneUpdatesLoop t b l n acc = .error .noTime := by
  induction l generalizing n acc with
  | nil => obtain ⟨r, hr, -⟩ := h; simp at hr
  | cons r l ih =>
    cases hts : ((if b then r.timestamp else r.ts_datetime) : Option Rat) with
    | none => simp only [pruneUpdatesLoop, hts]
    | some ts =>
      have : ∃ r ∈ l, ((if b then r.timestamp else r.ts_datetime) : Option Rat) = none := by
        obtain ⟨x, hx, e⟩ := h
        rcases List.mem_cons.mp hx with rfl | hx
        · rw [hts] at e; cases e
        · exact ⟨x, hx, e⟩
      simp only [pruneUpdatesLoop, hts]
      split
      · exact ih _ _ this
      · exact ih _ _ this

/-- If every entry has the relevant time: exactly the entries at or after the cut-off are kept, in
order, and the number removed is returned.  Otherwise an exception is raised and the list is
unchanged. -/
theorem C26_prune_updates_before (l : List Resource) (t : Rat) (v : Str) :
    ((∀ r ∈ l, (entryTime v r).isSome) →
      pruneUpdatesBefore l t v =
        (l.filter (fun r => (entryTime v r).any (t ≤ ·)),
         .ok (l.length - (l.filter (fun r => (entryTime v r).any (t ≤ ·))).length))) ∧
    ((∃ r ∈ l, entryTime v r = none) → pruneUpdatesBefore l t v = (l, .error .noTime)) := by
  have e : ∀ r : Resource, entryTime v r =
      (if decide (v = "1.0".toList) = true then r.timestamp else r.ts_datetime) := by
    intro r; unfold entryTime; by_cases h : v = "1.0".toList <;> simp [h]
  constructor
  · intro h
    unfold pruneUpdatesBefore
    rw [pruneUpdatesLoop_ok _ _ _ _ _ (fun r hr => by rw [← e]; exact h r hr)]
    simp only [e, List.nil_append, Nat.zero_add]
  · intro ⟨r, hr, h⟩
    unfold pruneUpdatesBefore
    rw [pruneUpdatesLoop_err _ _ _ _ _ ⟨r, hr, by rw [← e]; exact h⟩]

def entAt (u : String) (t : Rat) : Resource :=
  { uri := u.toList, change := some sUpdated, ts_datetime := some t }
example : pruneUpdatesBefore [entAt "a" 1, entAt "b" 3, entAt "a" 2] 2 "1.1".toList =
    ([entAt "b" 3, entAt "a" 2], .ok 1) := by decide +kernel
example : pruneUpdatesBefore [entAt "a" 1, entAt "b" 3] 2 "1.0".toList =
    ([entAt "a" 1, entAt "b" 3], .error .noTime) := by decide +kernel

/-! ## C27 a generated change list takes the old state to the new state -/

theorem copy_with_change (r : Resource) (c : Str) (hr : ValidChange r.change) (hc : ValidChange (some c)) :
    Resource.new { resource := some r, change := some c } = .ok { r with change := some c } := by
  have h1 : checkChange r.change = .ok () := checkChange_ok.mpr hr
  have h2 : checkChange (some c) = .ok () := checkChange_ok.mpr hc
  simp [Resource.new, h1, h2, bind, Except.bind, pickDate, pick, pure, Except.pure]

theorem addChangedResources_ok (cl : List Resource) (c : Str) (hc : ValidChange (some c))
    (rs : List Resource) (h : ∀ r ∈ rs, ValidChange r.change) :
    addChangedResources cl (some c) rs = (cl ++ rs.map (fun r => { r with change := some c }), none) := by
  induction rs generalizing cl with
  | nil => simp [addChangedResources]
  | cons r t ih =>
    rw [addChangedResources, copy_with_change r c (h r (by simp)) hc]
    simp only [addIfChanged]
    rw [ih _ (fun x hx => h x (by simp [hx]))]
    simp

theorem applyChanges_append (m : Str → Option Resource) (a b : List Resource) :
    applyChanges m (a ++ b) = applyChanges (applyChanges m a) b := by
  simp [applyChanges]

theorem applyChanges_miss (m : Str → Option Resource) (l : List Resource) (u : Str)
    (h : ∀ r ∈ l, r.uri ≠ u) : applyChanges m l u = m u := by
  induction l generalizing m with
  | nil => rfl
  | cons r t ih =>
    have : applyChanges m (r :: t) = applyChanges (applyChange m r) t := rfl
    rw [this, ih _ (fun x hx => h x (by simp [hx]))]
    simp [applyChange, Ne.symm (h r (by simp))]

theorem applyChanges_hit (m : Str → Option Resource) (l : List Resource) (hn : (l.map (·.uri)).Nodup)
    (r : Resource) (hr : r ∈ l) : applyChanges m l r.uri = applyChange m r r.uri := by
  induction l generalizing m with
  | nil => simp at hr
  | cons a t ih =>
    have : applyChanges m (a :: t) = applyChanges (applyChange m a) t := rfl
    rw [this]
    simp only [List.map_cons, List.nodup_cons] at hn
    rcases List.mem_cons.mp hr with rfl | hr
    · apply applyChanges_miss
      intro x hx e
      exact hn.1 (List.mem_map.mpr ⟨x, hx, e⟩)
    · rw [ih _ hn.2 hr]
      have hne : r.uri ≠ a.uri := fun e => hn.1 (List.mem_map.mpr ⟨r, hr, e⟩)
      simp only [applyChange, if_true]
      rw [if_neg hne]

/-- entries made from a resource-list dictionary with a given change -/
theorem applyChanges_dict (m : Str → Option Resource) (d : Dict Resource) (hd : WF d) (c : Str) (u : Str) :
    applyChanges m ((listing d).map (fun r => { r with change := some c })) u =
      match dget d u with
      | none => m u
      | some r => applyChange m { r with change := some c } u := by
  have hnod : (((listing d).map (fun r : Resource => { r with change := some c })).map (·.uri)).Nodup := by
    rw [List.map_map]
    have : ((fun r : Resource => r.uri) ∘ fun r : Resource => { r with change := some c }) = (·.uri) := rfl
    rw [this, listing_uris hd]
    exact (sortStr_perm _).nodup_iff.mpr hd.1
  cases hg : dget d u with
  | none =>
    apply applyChanges_miss
    intro r hr e
    obtain ⟨x, hx, rfl⟩ := List.mem_map.mp hr
    rw [mem_listing hd] at hx
    simp only at e
    rw [e, hg] at hx; cases hx
  | some r =>
    have hu := hd.2 u r hg
    subst hu
    have hm : ({ r with change := some c } : Resource) ∈
        (listing d).map (fun r => { r with change := some c }) :=
      List.mem_map.mpr ⟨r, (mem_listing hd).mpr hg, rfl⟩
    exact applyChanges_hit m _ hnod _ hm

theorem eq_change_irrelevant (r o : Resource) (c : Option Str) :
    ({ r with change := c } : Resource).eq (some o) = r.eq (some o) := rfl

/-- For every old and new state (two resource lists), the generated change list has only right entries (none for what has not
changed), at most one per URI; and applying it to the old state yields the new state up to resource equality. -/
theorem C27_change_list_old_to_new (h : Heap) (old new : Nat) (hne : old ≠ new)
    (oops nops : List (Resource × Bool)) (ho : (h old).dict = addMany oops)
    (hn : (h new).dict = addMany nops)
    (vo : ∀ op ∈ oops, ValidChange op.1.change) (vn : ∀ op ∈ nops, ValidChange op.1.change) :
    ∃ cl, changeEntries h old new = .ok cl ∧ (cl.map (·.uri)).Nodup ∧
      (∀ r ∈ cl, RightEntry (holder oops) (holder nops) r) ∧
      ∀ u, match applyChanges (holder oops) cl u, holder nops u with
        | none, none => True
        | some r, some s => r.eq (some s) = true
        | _, _ => False := by
  have wO := addMany_spec oops
  have wN := addMany_spec nops
  obtain ⟨h', c, g1, -, k1, k2, k3, k4, -⟩ := C23_compare h old new hne oops nops ho hn
  obtain ⟨h'', c'', g1', -, -, wf⟩ := compare_spec h old new hne (ho ▸ wO.1) (hn ▸ wN.1)
  rw [g1] at g1'
  injection g1' with g1'
  injection g1' with ga gb
  subst gb
  have vholder : ∀ (ops : List (Resource × Bool)), (∀ op ∈ ops, ValidChange op.1.change) →
      ∀ u r, holder ops u = some r → ValidChange r.change := by
    intro ops hv u r hr
    unfold holder at hr
    split at hr
    · cases hr
    · rename_i first rest hf
      have hsub : ∀ x ∈ first :: rest, x ∈ ops := by
        intro x hx; rw [← hf] at hx; exact (List.mem_filter.mp hx).1
      split at hr
      · rename_i op hop
        injection hr with hr; subst hr
        exact hv _ (hsub _ (List.mem_cons_of_mem _ (List.mem_filter.mp (List.mem_of_getLast? hop)).1))
      · injection hr with hr; subst hr
        exact hv _ (hsub _ (by simp))
  have vU : ∀ r ∈ listing c.updated, ValidChange r.change := fun r hr =>
    vholder nops vn _ r ((k2 _ r).mp ((mem_listing wf.updated).mp hr)).1
  have vD : ∀ r ∈ listing c.deleted, ValidChange r.change := fun r hr =>
    vholder oops vo _ r ((k3 _ r).mp ((mem_listing wf.deleted).mp hr)).1
  have vC : ∀ r ∈ listing c.created, ValidChange r.change := fun r hr =>
    vholder nops vn _ r ((k4 _ r).mp ((mem_listing wf.created).mp hr)).1
  have okU : ValidChange (some sUpdated) := .inr (.inr (.inl rfl))
  have okD : ValidChange (some sDeleted) := .inr (.inr (.inr rfl))
  have okC : ValidChange (some sCreated) := .inr (.inl rfl)
  let cl := (listing c.updated).map (fun r => { r with change := some sUpdated }) ++
      (listing c.deleted).map (fun r => { r with change := some sDeleted }) ++
      (listing c.created).map (fun r => { r with change := some sCreated })
  have hcl : changeEntries h old new = .ok cl := by
    simp only [changeEntries, g1, bind, Except.bind, iterAll_listing,
      addChangedResources_ok _ _ okU _ vU, addChangedResources_ok _ _ okD _ vD,
      addChangedResources_ok _ _ okC _ vC, List.nil_append, pure, Except.pure, cl]
  refine ⟨cl, hcl, ?_, ?_, ?_⟩
  · -- no URI twice
    have hu : cl.map (·.uri) = sortStr (dkeys c.updated) ++ sortStr (dkeys c.deleted) ++
        sortStr (dkeys c.created) := by
      simp only [cl, List.map_append, List.map_map]
      rw [← listing_uris wf.updated, ← listing_uris wf.deleted, ← listing_uris wf.created]
      rfl
    have inU : ∀ u, u ∈ sortStr (dkeys c.updated) → (holder oops u).isSome ∧ (holder nops u).isSome := by
      intro u hu
      rw [mem_sortStr, ← dget_isSome_iff] at hu
      obtain ⟨r, hr⟩ := Option.isSome_iff_exists.mp hu
      obtain ⟨a, d, b, -⟩ := (k2 u r).mp hr
      simp [a, b]
    have inD : ∀ u, u ∈ sortStr (dkeys c.deleted) → (holder oops u).isSome ∧ holder nops u = none := by
      intro u hu
      rw [mem_sortStr, ← dget_isSome_iff] at hu
      obtain ⟨r, hr⟩ := Option.isSome_iff_exists.mp hu
      obtain ⟨a, b⟩ := (k3 u r).mp hr
      simp [a, b]
    have inC : ∀ u, u ∈ sortStr (dkeys c.created) → holder oops u = none := by
      intro u hu
      rw [mem_sortStr, ← dget_isSome_iff] at hu
      obtain ⟨r, hr⟩ := Option.isSome_iff_exists.mp hu
      exact ((k4 u r).mp hr).2
    rw [hu, List.nodup_append, List.nodup_append]
    refine ⟨⟨(sortStr_perm _).nodup_iff.mpr wf.updated.1, (sortStr_perm _).nodup_iff.mpr wf.deleted.1, ?_⟩,
      (sortStr_perm _).nodup_iff.mpr wf.created.1, ?_⟩
    · intro a ha b hb e
      subst e
      have h1 := (inU a ha).2
      rw [(inD a hb).2] at h1; simp at h1
    · intro a ha b hb e
      subst e
      have h0 := inC a hb
      rcases List.mem_append.mp ha with ha | ha
      · have := (inU a ha).1; rw [h0] at this; simp at this
      · have := (inD a ha).1; rw [h0] at this; simp at this
  · intro r hr
    simp only [cl, List.mem_append, List.mem_map] at hr
    rcases hr with (⟨x, hx, rfl⟩ | ⟨x, hx, rfl⟩) | ⟨x, hx, rfl⟩
    · exact ⟨x, rfl, .inr (.inl ⟨rfl, (k2 _ x).mp ((mem_listing wf.updated).mp hx)⟩)⟩
    · exact ⟨x, rfl, .inr (.inr ⟨rfl, (k3 _ x).mp ((mem_listing wf.deleted).mp hx)⟩)⟩
    · exact ⟨x, rfl, .inl ⟨rfl, ((k4 _ x).mp ((mem_listing wf.created).mp hx)).symm⟩⟩
  · intro u
    have e : applyChanges (holder oops) cl u =
        match dget c.created u with
        | some r => some { r with change := some sCreated }
        | none => match dget c.deleted u with
          | some _ => none
          | none => match dget c.updated u with
            | some r => some { r with change := some sUpdated }
            | none => holder oops u := by
      simp only [cl]
      rw [applyChanges_append, applyChanges_append, applyChanges_dict _ _ wf.created]
      cases hc : dget c.created u with
      | some r =>
        have := wf.created.2 u r hc
        simp [applyChange, this, sCreated]
      | none =>
        simp only []
        rw [applyChanges_dict _ _ wf.deleted]
        cases hd : dget c.deleted u with
        | some r =>
          have := wf.deleted.2 u r hd
          simp [applyChange, this, sDeleted]
        | none =>
          simp only []
          rw [applyChanges_dict _ _ wf.updated]
          cases hd : dget c.updated u with
          | some r =>
            have := wf.updated.2 u r hd
            simp [applyChange, this, sUpdated]
          | none => rfl
    rw [e]
    cases hN : holder nops u with
    | none =>
      have hc : dget c.created u = none := by
        cases x : dget c.created u with
        | none => rfl
        | some r => rw [((k4 u r).mp x).1] at hN; cases hN
      rw [hc]
      simp only []
      cases hO : holder oops u with
      | none =>
        have hd : dget c.deleted u = none := by
          cases x : dget c.deleted u with
          | none => rfl
          | some r => rw [((k3 u r).mp x).1] at hO; cases hO
        have hup : dget c.updated u = none := by
          cases x : dget c.updated u with
          | none => rfl
          | some r => rw [((k2 u r).mp x).1] at hN; cases hN
        rw [hd, hup]
        simp
      | some r =>
        rw [(k3 u r).mpr ⟨hO, hN⟩]
        simp
    | some s =>
      cases hO : holder oops u with
      | none =>
        rw [(k4 u s).mpr ⟨hN, hO⟩]
        simp only []
        rw [eq_change_irrelevant]
        exact C15_reflexive s
      | some r =>
        have hc : dget c.created u = none := by
          cases x : dget c.created u with
          | none => rfl
          | some r' => rw [((k4 u r').mp x).2] at hO; cases hO
        have hd : dget c.deleted u = none := by
          cases x : dget c.deleted u with
          | none => rfl
          | some r' => rw [((k3 u r').mp x).2] at hN; cases hN
        rw [hc, hd]
        simp only []
        cases hq : r.eq (some s) with
        | false =>
          rw [(k2 u s).mpr ⟨hN, r, hO, hq⟩]
          simp only []
          rw [eq_change_irrelevant]
          exact C15_reflexive s
        | true =>
          have hup : dget c.updated u = none := by
            cases x : dget c.updated u with
            | none => rfl
            | some r' =>
              obtain ⟨a, d, b, e⟩ := (k2 u r').mp x
              rw [hO] at b; injection b with b; subst b
              rw [hN] at a; injection a with a; subst a
              rw [hq] at e; cases e
          rw [hup]
          simpa using hq

example : changeEntries (twoLists (addMany [(r1, false), (r3, false)]) (addMany [(r4, false), (r2, false)])) 0 1 =
    .ok [{ r2 with change := some sUpdated }, { r3 with change := some sDeleted },
      { r4 with change := some sCreated }] := by decide

end Resync
