import Verif.Proofs.ResourceList
import Verif.Props.Resource
import Verif.Spec.Lists
import Mathlib.Data.List.Induction
import Mathlib.Data.List.Dedup
/-
C21–C24, C67: resource lists as maps, iteration, comparison (resource_list.py).
-/

namespace Resync
open Py Resync.Spec

/-! ## C21 a resource list is a map -/

/-- a sequence of `add` calls, the caller carrying on after an exception -/
def addMany (ops : List (Resource × Bool)) : Dict Resource :=
  ops.foldl (fun d op => match dictAdd d op.1 op.2 with | .ok d' => d' | .error _ => d) []

theorem addMany_append (ops : List (Resource × Bool)) (op : Resource × Bool) :
    addMany (ops ++ [op]) =
      match dictAdd (addMany ops) op.1 op.2 with | .ok d' => d' | .error _ => addMany ops := by
  simp [addMany]

theorem holder_append (ops : List (Resource × Bool)) (r : Resource) (b : Bool) (u : Str) :
    holder (ops ++ [(r, b)]) u =
      if r.uri = u ∧ (b = true ∨ holder ops u = none) then some r else holder ops u := by
  unfold holder
  rw [List.filter_append]
  by_cases hu : r.uri = u
  · simp only [hu, decide_true, List.filter_cons_of_pos, List.filter_nil, true_and]
    cases hf : ops.filter (fun op => decide (op.1.uri = u)) with
    | nil => cases b <;> simp
    | cons first rest =>
      simp only [List.cons_append, List.filter_append]
      cases b
      · simp only [List.filter_cons, Bool.false_eq_true, if_false, List.filter_nil, List.append_nil,
          false_or]
        split <;> simp
      · simp
  · have : [(r, b)].filter (fun op => decide (op.1.uri = u)) = [] := by simp [hu]
    rw [this, List.append_nil]
    simp [hu]

theorem addMany_spec (ops : List (Resource × Bool)) :
    WF (addMany ops) ∧ ∀ u, dget (addMany ops) u = holder ops u := by
  induction ops using List.reverseRecOn with
  | nil => exact ⟨WF_nil, fun u => rfl⟩
  | append_singleton ops op ih =>
    obtain ⟨r, b⟩ := op
    obtain ⟨w, ih⟩ := ih
    rw [addMany_append]
    unfold dictAdd
    by_cases hd : (dget (addMany ops) r.uri).isSome ∧ ¬ b = true
    · rw [if_pos hd]
      refine ⟨w, fun u => ?_⟩
      simp only []
      rw [ih, holder_append]
      rw [if_neg]
      rintro ⟨h1, h2⟩
      rcases h2 with h2 | h2
      · exact hd.2 h2
      · rw [ih, h1, h2] at hd; exact absurd hd.1 (by simp)
    · rw [if_neg hd]
      refine ⟨WF_dset w r, fun u => ?_⟩
      simp only []
      rw [dget_dset, ih, holder_append]
      by_cases hu : r.uri = u
      · rw [if_pos hu, if_pos]
        refine ⟨hu, ?_⟩
        by_cases hb : b = true
        · exact .inl hb
        · right
          rw [ih, hu] at hd
          cases hh : holder ops u with
          | none => rfl
          | some x => rw [hh] at hd; exact absurd ⟨by simp, hb⟩ hd
      · simp [hu]

/-- After any sequence of `add` calls the list holds for each URI exactly the resource the
specification names, once. -/
theorem C21_resource_list_is_map (ops : List (Resource × Bool)) :
    (dkeys (addMany ops)).Nodup ∧ ∀ u, dget (addMany ops) u = holder ops u :=
  ⟨(addMany_spec ops).1.1, (addMany_spec ops).2⟩

/-- An add raises exactly when the URI is present and replace is not set; it then changes nothing
(the state is only assigned on success), otherwise exactly that URI is set. -/
theorem C21_add (d : Dict Resource) (r : Resource) (replace : Bool) :
    ((dget d r.uri).isSome ∧ replace = false → dictAdd d r replace = .error .dupe) ∧
    (¬ ((dget d r.uri).isSome ∧ replace = false) →
      ∃ d', dictAdd d r replace = .ok d' ∧
        ∀ u, dget d' u = if u = r.uri then some r else dget d u) := by
  constructor
  · rintro ⟨h1, h2⟩; simp [dictAdd, h1, h2]
  · intro h
    refine ⟨dset d r.uri r, ?_, ?_⟩
    · unfold dictAdd
      rw [if_neg]
      rintro ⟨h1, h2⟩
      exact h ⟨h1, by simpa using h2⟩
    · intro u; rw [dget_dset]
      by_cases e : u = r.uri
      · simp [e]
      · simp [e, Ne.symm e]

/-- Adding an iterable without replace: if it raises, the resources before the first duplicate have
been added and nothing else; if not, all have. -/
theorem C21_add_iterable (d : Dict Resource) (rs : List Resource) :
    ∃ pre post, rs = pre ++ post ∧ (dictAddAll d rs false).1 = pre.foldl (fun d r => dset d r.uri r) d ∧
      ((dictAddAll d rs false).2 = none ∧ post = [] ∨
       (dictAddAll d rs false).2 = some .dupe ∧ ∃ r t, post = r :: t ∧
         (dget (dictAddAll d rs false).1 r.uri).isSome) := by
  induction rs generalizing d with
  | nil => exact ⟨[], [], rfl, rfl, .inl ⟨rfl, rfl⟩⟩
  | cons r t ih =>
    by_cases h : (dget d r.uri).isSome
    · have e : dictAdd d r false = .error .dupe := by simp [dictAdd, h]
      refine ⟨[], r :: t, rfl, by simp [dictAddAll, e], .inr ⟨by simp [dictAddAll, e], r, t, rfl, ?_⟩⟩
      simpa [dictAddAll, e] using h
    · have e : dictAdd d r false = .ok (dset d r.uri r) := dictAdd_fresh false (by simpa using h)
      obtain ⟨pre, post, h1, h2, h3⟩ := ih (dset d r.uri r)
      refine ⟨r :: pre, post, by simp [h1], by simp [dictAddAll, e, h2], ?_⟩
      simpa only [dictAddAll, e] using h3

/-- the same URI twice, then replaced -/
def r1 : Resource := { uri := "a".toList, md5 := some "1".toList }
def r2 : Resource := { uri := "a".toList, md5 := some "2".toList }
def r3 : Resource := { uri := "b".toList }
example : addMany [(r1, false), (r3, false), (r2, false)] = [("a".toList, r1), ("b".toList, r3)] := by
  decide
example : addMany [(r1, false), (r3, false), (r2, true)] = [("a".toList, r2), ("b".toList, r3)] := by
  decide

/-! ## C22 iteration -/

/-- Iteration yields every resource exactly once, sorted strictly by URI. -/
theorem C22_iteration_sorted_complete (ops : List (Resource × Bool)) :
    ∃ rs, iterAll (addMany ops) = .ok rs ∧ SortedByUri rs ∧
      ∀ r, r ∈ rs ↔ holder ops r.uri = some r := by
  refine ⟨listing (addMany ops), iterAll_listing _, listing_sorted (addMany_spec ops).1, ?_⟩
  intro r
  rw [mem_listing (addMany_spec ops).1, (addMany_spec ops).2]

/-- Iteration depends only on what is held, not on the order of insertion. -/
theorem C22_insertion_order_irrelevant (ops ops' : List (Resource × Bool))
    (h : ∀ u, holder ops u = holder ops' u) : iterAll (addMany ops) = iterAll (addMany ops') := by
  have hk : (dkeys (addMany ops)).Perm (dkeys (addMany ops')) := by
    rw [List.perm_ext_iff_of_nodup (addMany_spec ops).1.1 (addMany_spec ops').1.1]
    intro u
    rw [← dget_isSome_iff, ← dget_isSome_iff, (addMany_spec ops).2, (addMany_spec ops').2, h]
  rw [iterAll_ok, iterAll_ok, sortStr_eq_of_perm hk]
  congr 1
  apply List.filterMap_congr
  intro k _
  rw [(addMany_spec ops).2, (addMany_spec ops').2, h]

/-- `uris()` is the sorted list of the URIs held. -/
theorem C22_uris (ops : List (Resource × Bool)) :
    (dictUris (addMany ops)).Pairwise (· < ·) ∧
      ∀ u, u ∈ dictUris (addMany ops) ↔ (holder ops u).isSome := by
  refine ⟨sortStr_strict (addMany_spec ops).1.1, ?_⟩
  intro u
  unfold dictUris
  rw [mem_sortStr, ← dget_isSome_iff, (addMany_spec ops).2]

/-- The ordered variant delivers the resources in the order in which their URIs were first added. -/
theorem C22_ordered_variant (ops : List (Resource × Bool)) :
    (iterOrdered (addMany ops)).map (·.uri) = (ops.map (·.1.uri)).reverse.dedup.reverse ∧
      ∀ r, r ∈ iterOrdered (addMany ops) ↔ holder ops r.uri = some r := by
  have keyval : ∀ d : Dict Resource, WF d → (iterOrdered d).map (·.uri) = dkeys d := by
    intro d w
    unfold iterOrdered dvalues dkeys
    rw [List.map_map]
    apply List.map_congr_left
    intro p hp
    exact w.2 p.1 p.2 (dget_of_mem w.1 hp)
  constructor
  · rw [keyval _ (addMany_spec ops).1]
    induction ops using List.reverseRecOn with
    | nil => rfl
    | append_singleton ops op ih =>
      obtain ⟨r, b⟩ := op
      rw [addMany_append]
      simp only [List.map_append, List.map_cons, List.map_nil, List.reverse_append,
        List.reverse_cons, List.reverse_nil, List.nil_append, List.cons_append]
      have hmem : r.uri ∈ dkeys (addMany ops) ↔ r.uri ∈ (ops.map (·.1.uri)).reverse := by
        rw [ih, List.mem_reverse, List.mem_dedup]
      by_cases hin : r.uri ∈ dkeys (addMany ops)
      · rw [List.dedup_cons_of_mem (hmem.mp hin), ← ih]
        unfold dictAdd
        split
        · rename_i e
          split at e
          · cases e
          · injection e with e; subst e; rw [dkeys_dset, if_pos hin]
        · rfl
      · rw [List.dedup_cons_of_notMem (fun h => hin (hmem.mpr h)), List.reverse_cons, ← ih]
        have : dget (addMany ops) r.uri = none := (dget_eq_none_iff _ _).mpr hin
        rw [dictAdd_fresh b this]
        simp only []
        rw [dkeys_dset, if_neg hin]
  · intro r
    rw [← (addMany_spec ops).2]
    unfold iterOrdered dvalues
    constructor
    · intro h
      obtain ⟨p, hp, e⟩ := List.mem_map.mp h
      have := dget_of_mem (addMany_spec ops).1.1 (k := p.1) (v := p.2) hp
      have hu := (addMany_spec ops).1.2 _ _ this
      subst e
      rw [hu]; exact this
    · intro h; exact List.mem_map.mpr ⟨_, mem_of_dget h, rfl⟩

example : iterAll (addMany [(r3, false), (r1, false)]) = .ok [r1, r3] := by decide
example : iterOrdered (addMany [(r3, false), (r1, false)]) = [r3, r1] := by decide

/-! ## C23 comparison -/

/-- Two distinct list objects: `dst.compare(src)` succeeds, leaves both lists as they were, and puts
every URI where it belongs (each of the four results holds a URI at most once). -/
theorem C23_compare (h : Heap) (dst src : Nat) (hne : dst ≠ src) (dops sops : List (Resource × Bool))
    (hd : (h dst).dict = addMany dops) (hs : (h src).dict = addMany sops) :
    ∃ h' c, compare h dst src = .ok (h', c) ∧ (∀ o, (h' o).dict = (h o).dict) ∧
      (∀ u r, dget c.same u = some r ↔
        holder dops u = some r ∧ ∃ s, holder sops u = some s ∧ r.eq (some s) = true) ∧
      (∀ u r, dget c.updated u = some r ↔
        holder sops u = some r ∧ ∃ d, holder dops u = some d ∧ d.eq (some r) = false) ∧
      (∀ u r, dget c.deleted u = some r ↔ holder dops u = some r ∧ holder sops u = none) ∧
      (∀ u r, dget c.created u = some r ↔ holder sops u = some r ∧ holder dops u = none) ∧
      (dkeys c.same).Nodup ∧ (dkeys c.updated).Nodup ∧ (dkeys c.deleted).Nodup ∧
        (dkeys c.created).Nodup := by
  have wD := addMany_spec dops
  have wS := addMany_spec sops
  obtain ⟨h', c, g1, g2, g3, g4⟩ := compare_spec h dst src hne (hd ▸ wD.1) (hs ▸ wS.1)
  rw [hd, hs] at g3
  have memD : ∀ u r, (r ∈ listing (addMany dops) ∧ r.uri = u) ↔ holder dops u = some r := by
    intro u r
    rw [mem_listing wD.1, ← wD.2]
    constructor
    · rintro ⟨h1, rfl⟩; exact h1
    · intro h1; have := wD.1.2 u r h1; subst this; exact ⟨h1, rfl⟩
  have memS : ∀ u r, (r ∈ listing (addMany sops) ∧ r.uri = u) ↔ holder sops u = some r := by
    intro u r
    rw [mem_listing wS.1, ← wS.2]
    constructor
    · rintro ⟨h1, rfl⟩; exact h1
    · intro h1; have := wS.1.2 u r h1; subst this; exact ⟨h1, rfl⟩
  have none_of : ∀ (ops : List (Resource × Bool)) u,
      (∀ r, holder ops u ≠ some r) ↔ holder ops u = none := by
    intro ops u; cases holder ops u <;> simp
  refine ⟨h', c, g1, g2, ?_, ?_, ?_, ?_, g4.same.1, g4.updated.1, g4.deleted.1, g4.created.1⟩
  · intro u r
    rw [g3.same, ← memD]
    constructor
    · rintro (h | ⟨h1, h2, b, hb, h3, h4⟩)
      · simp [dget] at h
      · exact ⟨⟨h1, h2⟩, b, (memS u b).mp ⟨hb, h3⟩, h4⟩
    · rintro ⟨⟨h1, h2⟩, b, hb, h4⟩
      obtain ⟨hb1, hb2⟩ := (memS u b).mpr hb
      exact .inr ⟨h1, h2, b, hb1, hb2, h4⟩
  · intro u r
    rw [g3.updated, ← memS]
    constructor
    · rintro (h | ⟨h1, h2, b, hb, h3, h4⟩)
      · simp [dget] at h
      · exact ⟨⟨h1, h2⟩, b, (memD u b).mp ⟨hb, h3⟩, h4⟩
    · rintro ⟨⟨h1, h2⟩, b, hb, h4⟩
      obtain ⟨hb1, hb2⟩ := (memD u b).mpr hb
      exact .inr ⟨h1, h2, b, hb1, hb2, h4⟩
  · intro u r
    rw [g3.deleted, ← memD, ← none_of]
    constructor
    · rintro (h | ⟨h1, h2, h3⟩)
      · simp [dget] at h
      · exact ⟨⟨h1, h2⟩, fun b hb => h3 b ((memS u b).mpr hb).1 ((memS u b).mpr hb).2⟩
    · rintro ⟨⟨h1, h2⟩, h3⟩
      exact .inr ⟨h1, h2, fun b hb e => h3 b ((memS u b).mp ⟨hb, e⟩)⟩
  · intro u r
    rw [g3.created, ← memS, ← none_of]
    constructor
    · rintro (h | ⟨h1, h2, h3⟩)
      · simp [dget] at h
      · exact ⟨⟨h1, h2⟩, fun b hb => h3 b ((memD u b).mpr hb).1 ((memD u b).mpr hb).2⟩
    · rintro ⟨⟨h1, h2⟩, h3⟩
      exact .inr ⟨h1, h2, fun b hb e => h3 b ((memD u b).mp ⟨hb, e⟩)⟩

/-- a heap with two lists -/
def twoLists (a b : Dict Resource) : Heap := fun i => if i = 0 then { dict := a } else { dict := b }
def r4 : Resource := { uri := "c".toList }
example : ((compare (twoLists (addMany [(r1, false), (r3, false)]) (addMany [(r4, false), (r2, false)])) 0 1).map
    (·.2)) = .ok ⟨[], [("a".toList, r2)], [("b".toList, r3)], [("c".toList, r4)]⟩ := by decide
example : ((compare (twoLists (addMany [(r1, false)]) (addMany [(r1, false)])) 0 1).map
    (·.2)) = .ok { same := [("a".toList, r1)] } := by decide

/-! ## C24 comparing a list with itself – violated -/

/-- `rl.compare(rl)` never reports anything as the same: both cursors draw from one iterator, so
every resource ends up in deleted or created. -/
theorem C24_violated_for_every_list (h : Heap) (o : Nat) (ops : List (Resource × Bool))
    (ho : (h o).dict = addMany ops) :
    ∃ h' c, compare h o o = .ok (h', c) ∧ c.same = [] ∧ c.updated = [] ∧
      ∀ u r, holder ops u = some r → dget c.deleted u = some r ∨ dget c.created u = some r := by
  obtain ⟨h', c, g1, g2, g3, g4⟩ := compare_self h o (ho ▸ (addMany_spec ops).1)
  refine ⟨h', c, g1, g2, g3, ?_⟩
  intro u r hr
  exact g4 u r (by rw [ho, (addMany_spec ops).2]; exact hr)

/-- The claim is false. -/
theorem C24_violated : ¬ ∀ (h : Heap) (o : Nat) (ops : List (Resource × Bool)),
    (h o).dict = addMany ops → ∃ h' c, compare h o o = .ok (h', c) ∧
      (∀ u r, holder ops u = some r → dget c.same u = some r) ∧ c.deleted = [] ∧ c.created = [] := by
  intro hall
  obtain ⟨h', c, h1, h2, -, -⟩ := hall (twoLists (addMany [(r1, false)]) []) 0 [(r1, false)] rfl
  obtain ⟨h'', c'', g1, g2, -⟩ :=
    C24_violated_for_every_list (twoLists (addMany [(r1, false)]) []) 0 [(r1, false)] rfl
  rw [h1] at g1
  injection g1 with g1
  injection g1 with ga gb
  subst gb
  have := h2 "a".toList r1 (by decide)
  rw [g2] at this
  simp [dget] at this

/-- What does hold: comparing with an equal but distinct list object reports everything as the same. -/
theorem C24_equal_copy_partial (h : Heap) (dst src : Nat) (hne : dst ≠ src)
    (ops : List (Resource × Bool)) (hd : (h dst).dict = addMany ops) (hs : (h src).dict = addMany ops) :
    ∃ h' c, compare h dst src = .ok (h', c) ∧
      (∀ u, dget c.same u = holder ops u) ∧ (∀ u, dget c.updated u = none) ∧
      (∀ u, dget c.deleted u = none) ∧ (∀ u, dget c.created u = none) := by
  obtain ⟨h', c, g1, -, g3, g4, g5, g6, -⟩ := C23_compare h dst src hne ops ops hd hs
  refine ⟨h', c, g1, ?_, ?_, ?_, ?_⟩
  · intro u
    cases hh : holder ops u with
    | some r => exact (g3 u r).mpr ⟨hh, r, hh, C15_reflexive r⟩
    | none =>
      cases hc : dget c.same u with
      | none => rfl
      | some r => rw [((g3 u r).mp hc).1] at hh; cases hh
  · intro u
    cases hc : dget c.updated u with
    | none => rfl
    | some r =>
      obtain ⟨h1, d, h2, h3⟩ := (g4 u r).mp hc
      rw [h1] at h2; injection h2 with h2; subst h2
      rw [C15_reflexive] at h3; cases h3
  · intro u
    cases hc : dget c.deleted u with
    | none => rfl
    | some r => obtain ⟨h1, h2⟩ := (g5 u r).mp hc; rw [h1] at h2; cases h2
  · intro u
    cases hc : dget c.created u with
    | none => rfl
    | some r => obtain ⟨h1, h2⟩ := (g6 u r).mp hc; rw [h1] at h2; cases h2

example : ((compare (twoLists (addMany [(r1, false), (r3, false), (r4, false)]) []) 0 0).map
    (·.2)) = .ok ⟨[], [], [("a".toList, r1), ("c".toList, r4)], [("b".toList, r3)]⟩ := by decide

/-! ## C67 nested iteration – violated -/

/-- iterating an object to the end, from the given state: heap afterwards and resources seen -/
def runIter : Nat → Heap → Nat → Heap × List Resource
  | 0, h, _ => (h, [])
  | n + 1, h, o =>
    match iterNext h o with
    | .ok (h', some r) => let x := runIter n h' o; (x.1, r :: x.2)
    | _ => (h, [])

theorem runIter_spec (n : Nat) : ∀ (h : Heap) (o : Nat) (L : List Resource),
    (∀ r ∈ L, dget (h o).dict r.uri = some r) → (h o).nextList = L.map (·.uri) → L.length ≤ n →
    (runIter n h o).2 = L ∧ ((runIter n h o).1 o).nextList = [] := by
  induction n with
  | zero =>
    intro h o L _ h2 h3
    have : L = [] := by simpa using h3
    subst this; exact ⟨rfl, by simpa [runIter] using h2⟩
  | succ n ih =>
    intro h o L h1 h2 h3
    obtain ⟨h', e1, e2, e3⟩ := iterNext_self h1 h2
    cases L with
    | nil => simp only [List.map_nil] at h2; simp [runIter, iterNext, h2]
    | cons r L =>
      simp only [List.head?_cons] at e1
      obtain ⟨g1, g2⟩ := ih h' o L (fun x hx => by rw [e3]; exact h1 x (by simp [hx])) e2
        (by simpa using h3)
      simp only [runIter, e1]
      exact ⟨by rw [g1], g2⟩

/-- An iteration over the whole list inside another one over the same list ends the outer one: after
the inner loop the outer iterator reports the end, however many resources it had still to deliver. -/
theorem C67_violated_inner_loop_ends_outer (h : Heap) (o : Nat) (hw : WF (h o).dict) :
    let inner := runIter (h o).dict.length (sortedIter h o) o
    inner.2 = listing (h o).dict ∧ ∃ h', iterNext inner.1 o = .ok (h', none) := by
  have e : ((sortedIter h o) o).dict = (h o).dict := by unfold sortedIter; rw [set_same]
  have hlen : (listing (h o).dict).length ≤ (h o).dict.length := by
    unfold listing
    refine le_trans (List.length_filterMap_le _ _) ?_
    rw [(sortStr_perm _).length_eq]; simp [dkeys]
  obtain ⟨g1, g2⟩ := runIter_spec (h o).dict.length (sortedIter h o) o (listing (h o).dict)
    (fun r hr => by rw [e]; exact (mem_listing hw).mp hr)
    (by rw [listing_uris hw]; unfold sortedIter; rw [set_same]) hlen
  exact ⟨g1, (runIter (h o).dict.length (sortedIter h o) o).1, by simp only [iterNext, g2]⟩

/-- The claim "an iteration in progress is not disturbed by another one" is false. -/
theorem C67_violated : ¬ ∀ (h h1 : Heap) (o : Nat) (r : Resource),
    iterNext (sortedIter h o) o = .ok (h1, some r) → ∀ k, (h1 o).nextList = k :: (h1 o).nextList.tail →
      ∃ h2 r2, iterNext (runIter (h o).dict.length (sortedIter h1 o) o).1 o = .ok (h2, some r2) := by
  intro hall
  have := hall (twoLists (addMany [(r1, false), (r3, false)]) [])
    ((twoLists (addMany [(r1, false), (r3, false)]) []).set 0
      { dict := addMany [(r1, false), (r3, false)], nextList := ["b".toList] }) 0 r1
    (by
      have : iterNext (sortedIter (twoLists (addMany [(r1, false), (r3, false)]) []) 0) 0 =
        .ok ((sortedIter (twoLists (addMany [(r1, false), (r3, false)]) []) 0).set 0
          { dict := addMany [(r1, false), (r3, false)], nextList := ["b".toList] }, some r1) := by rfl
      rw [this]
      congr 2
      funext i
      unfold sortedIter Heap.set
      by_cases hi : i = 0 <;> simp [hi]) "b".toList (by rfl)
  obtain ⟨h2, r2, h3⟩ := this
  have e : (iterNext (runIter 2 (sortedIter ((twoLists (addMany [(r1, false), (r3, false)]) []).set 0
      { dict := addMany [(r1, false), (r3, false)], nextList := ["b".toList] }) 0) 0).1 0).map (·.2) =
      .ok none := by decide
  have h3' := congrArg (Except.map (·.2)) h3
  have h4 : Except.map (·.2) (iterNext (runIter 2 (sortedIter ((twoLists (addMany [(r1, false), (r3, false)]) []).set 0
      { dict := addMany [(r1, false), (r3, false)], nextList := ["b".toList] }) 0) 0).1 0) =
      (.ok (some r2) : Except ListErr (Option Resource)) := h3'
  rw [e] at h4
  injection h4 with h4
  cases h4

/-- Without a second iterator on the same list, iteration is complete (partial: this is C22). -/
theorem C67_single_iteration_partial (h : Heap) (o : Nat) (hw : WF (h o).dict) :
    (runIter (h o).dict.length (sortedIter h o) o).2 = listing (h o).dict :=
  (C67_violated_inner_loop_ends_outer h o hw).1

end Resync
