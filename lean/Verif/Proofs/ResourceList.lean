import Verif.Model.ChangeList
import Verif.Proofs.Resource
/- Helper lemmas for resource lists. -/

namespace Resync
open Py Resync.Spec

/-- a resource-list dictionary: one entry per URI, stored under its URI -/
def WF (d : Dict Resource) : Prop := (dkeys d).Nodup ∧ ∀ k r, dget d k = some r → r.uri = k

theorem WF_nil : WF [] := ⟨by simp [dkeys], by simp [dget]⟩

theorem WF_dset {d : Dict Resource} (h : WF d) (r : Resource) : WF (dset d r.uri r) := by
  refine ⟨nodup_dset _ _ _ h.1, ?_⟩
  intro k x hx
  rw [dget_dset] at hx
  split at hx
  · rename_i e; rw [← Option.some.inj hx]; exact e
  · exact h.2 k x hx

theorem dictAdd_fresh {d : Dict Resource} {r : Resource} (b : Bool) (h : dget d r.uri = none) :
    dictAdd d r b = .ok (dset d r.uri r) := by
  simp [dictAdd, h]

theorem drain_ok {d : Dict Resource} {ks : List Str} (h : ∀ k ∈ ks, k ∈ dkeys d) :
    drain d ks = .ok (ks.filterMap (dget d)) := by
  induction ks with
  | nil => rfl
  | cons k t ih =>
    have hk : (dget d k).isSome := (dget_isSome_iff d k).mpr (h k (by simp))
    obtain ⟨r, hr⟩ := Option.isSome_iff_exists.mp hk
    simp [drain, hr, ih (fun k hk => h k (by simp [hk]))]

theorem filterMap_uris {d : Dict Resource} (hd : WF d) {ks : List Str} (h : ∀ k ∈ ks, k ∈ dkeys d) :
    (ks.filterMap (dget d)).map (·.uri) = ks := by
  induction ks with
  | nil => rfl
  | cons k t ih =>
    have hk : (dget d k).isSome := (dget_isSome_iff d k).mpr (h k (by simp))
    obtain ⟨r, hr⟩ := Option.isSome_iff_exists.mp hk
    simp [hr, hd.2 k r hr, ih (fun k hk => h k (by simp [hk]))]

theorem iterAll_ok (d : Dict Resource) :
    iterAll d = .ok ((sortStr (dkeys d)).filterMap (dget d)) :=
  drain_ok (fun _ hk => mem_sortStr.mp hk)

/-- the resources of a list in the order of iteration -/
def listing (d : Dict Resource) : List Resource := (sortStr (dkeys d)).filterMap (dget d)

theorem iterAll_listing (d : Dict Resource) : iterAll d = .ok (listing d) := iterAll_ok d

theorem listing_uris {d : Dict Resource} (hd : WF d) : (listing d).map (·.uri) = sortStr (dkeys d) :=
  filterMap_uris hd (fun _ hk => mem_sortStr.mp hk)

theorem mem_listing {d : Dict Resource} (hd : WF d) {r : Resource} :
    r ∈ listing d ↔ dget d r.uri = some r := by
  unfold listing
  rw [List.mem_filterMap]
  constructor
  · rintro ⟨k, -, hk⟩; rw [hd.2 k r hk]; exact hk
  · intro h
    exact ⟨r.uri, mem_sortStr.mpr ((dget_isSome_iff d _).mp (by simp [h])), h⟩

theorem listing_sorted {d : Dict Resource} (hd : WF d) :
    (listing d).Pairwise (fun a b => a.uri < b.uri) := by
  have := sortStr_strict hd.1
  rw [← listing_uris hd, List.pairwise_map] at this
  exact this

/-! ### compare -/

/-- iterator `o` is about to deliver the resources `L`, the first of them being already held -/
def Cursor (h : Heap) (o : Nat) (cur : Option Resource) (L : List Resource) : Prop :=
  (∀ r ∈ L, dget (h o).dict r.uri = some r) ∧ cur = L.head? ∧
    (h o).nextList = L.tail.map (·.uri)

theorem set_same (h : Heap) (o : Nat) (x : RLObj) : (h.set o x) o = x := by simp [Heap.set]
theorem set_other (h : Heap) {o o' : Nat} (x : RLObj) (hne : o' ≠ o) : (h.set o x) o' = h o' := by
  simp [Heap.set, hne]

theorem iterNext_start {h : Heap} {o : Nat} {L : List Resource}
    (h1 : ∀ r ∈ L, dget (h o).dict r.uri = some r) (h3 : (h o).nextList = L.map (·.uri)) :
    ∃ h', iterNext h o = .ok (h', L.head?) ∧ Cursor h' o L.head? L ∧
      (∀ o', (h' o').dict = (h o').dict) ∧
      (∀ o', o' ≠ o → h' o' = h o') := by
  cases L with
  | nil =>
    refine ⟨h, ?_, ?_, fun _ => rfl, fun _ _ => rfl⟩
    · simp only [List.map_nil] at h3
      simp [iterNext, h3]
    · exact ⟨by simp, rfl, by simpa using h3⟩
  | cons a L =>
    simp only [List.map_cons] at h3
    have ha : dget (h o).dict a.uri = some a := h1 a (by simp)
    refine ⟨h.set o { h o with nextList := L.map (·.uri) }, ?_, ?_, ?_, ?_⟩
    · simp [iterNext, h3, ha]
    · refine ⟨?_, rfl, ?_⟩
      · intro x hx; rw [set_same]; exact h1 x hx
      · rw [set_same]; rfl
    · intro o'
      by_cases e : o' = o
      · subst e; rw [set_same]
      · rw [set_other _ _ e]
    · intro o' hne
      exact set_other _ _ hne

theorem iterNext_cursor {h : Heap} {o : Nat} {cur : Option Resource} {r : Resource}
    {L : List Resource} (hc : Cursor h o cur (r :: L)) :
    ∃ h', iterNext h o = .ok (h', L.head?) ∧ Cursor h' o L.head? L ∧
      (∀ o', (h' o').dict = (h o').dict) ∧
      (∀ o' c' L', o' ≠ o → Cursor h o' c' L' → Cursor h' o' c' L') := by
  obtain ⟨h1, h2, h3⟩ := hc
  obtain ⟨h', e1, e2, e3, e4⟩ := iterNext_start (L := L) (fun r hr => h1 r (by simp [hr])) h3
  refine ⟨h', e1, e2, e3, ?_⟩
  intro o' c' L' hne hc
  unfold Cursor
  rw [e4 o' hne]
  exact hc

/-- what the merge of `D` (destination) and `S` (source) adds to the four lists -/
structure Classified (D S : List Resource) (c c' : Comparison) : Prop where
  same : ∀ u r, dget c'.same u = some r ↔ dget c.same u = some r ∨
    (r ∈ D ∧ r.uri = u ∧ ∃ b ∈ S, b.uri = u ∧ r.eq (some b) = true)
  updated : ∀ u r, dget c'.updated u = some r ↔ dget c.updated u = some r ∨
    (r ∈ S ∧ r.uri = u ∧ ∃ a ∈ D, a.uri = u ∧ a.eq (some r) = false)
  deleted : ∀ u r, dget c'.deleted u = some r ↔ dget c.deleted u = some r ∨
    (r ∈ D ∧ r.uri = u ∧ ∀ b ∈ S, b.uri ≠ u)
  created : ∀ u r, dget c'.created u = some r ↔ dget c.created u = some r ∨
    (r ∈ S ∧ r.uri = u ∧ ∀ a ∈ D, a.uri ≠ u)

structure AllWF (c : Comparison) : Prop where
  same : WF c.same
  updated : WF c.updated
  deleted : WF c.deleted
  created : WF c.created

def FreshIn (c : Comparison) (u : Str) : Prop :=
  dget c.same u = none ∧ dget c.updated u = none ∧ dget c.deleted u = none ∧ dget c.created u = none

theorem dget_dset_fresh_iff {d : Dict Resource} {x : Resource} (h : dget d x.uri = none) (u : Str)
    (r : Resource) : dget (dset d x.uri x) u = some r ↔ dget d u = some r ∨ (r = x ∧ x.uri = u) := by
  rw [dget_dset]
  by_cases e : x.uri = u
  · subst e; simp [h, eq_comm]
  · simp [e]

abbrev URISorted (L : List Resource) : Prop := L.Pairwise (fun a b => a.uri < b.uri)

theorem sorted_head_lt {a : Resource} {L : List Resource} (h : URISorted (a :: L)) :
    ∀ r ∈ L, a.uri < r.uri := (List.pairwise_cons.mp h).1

theorem cmpLoop_spec (n : Nat) : ∀ (h : Heap) (dst src : Nat) (D S : List Resource) (dc sc : Option Resource)
    (c : Comparison), dst ≠ src → D.length + S.length + 1 ≤ n → URISorted D → URISorted S →
    Cursor h dst dc D → Cursor h src sc S → (∀ r ∈ D, FreshIn c r.uri) → (∀ r ∈ S, FreshIn c r.uri) →
    AllWF c →
    ∃ h' c', cmpLoop n h dst src dc sc c = .ok (h', c') ∧ (∀ o, (h' o).dict = (h o).dict) ∧
      Classified D S c c' ∧ AllWF c' := by
  induction n with
  | zero => intro h dst src D S _ _ c _ hn; omega
  | succ n ih =>
    intro h dst src D S dc sc c hne hn hD hS cD cS fD fS wf
    have hdc : dc = D.head? := cD.2.1
    have hsc : sc = S.head? := cS.2.1
    cases D with
    | nil =>
      cases S with
      | nil =>
        subst hdc; subst hsc
        exact ⟨h, c, rfl, fun _ => rfl, ⟨by simp, by simp, by simp, by simp⟩, wf⟩
      | cons s S =>
        subst hdc; subst hsc
        obtain ⟨h', e1, e2, e3, e4⟩ := iterNext_cursor cS
        have fs := fS s (by simp)
        have hlt := sorted_head_lt hS
        obtain ⟨h'', c', g1, g2, g3, g4⟩ := ih h' dst src [] S none S.head?
          { c with created := dset c.created s.uri s } hne (by simp at hn ⊢; omega) hD
          (List.pairwise_cons.mp hS).2 (e4 dst _ _ hne cD) e2 (by simp)
          (by
            intro r hr
            obtain ⟨f1, f2, f3, f4⟩ := fS r (by simp [hr])
            refine ⟨f1, f2, f3, ?_⟩
            simp only []
            rw [dget_dset_ne _ _ (ne_of_lt (hlt r hr))]; exact f4)
          ⟨wf.same, wf.updated, wf.deleted, WF_dset wf.created s⟩
        refine ⟨h'', c', ?_, ?_, ?_, g4⟩
        · simp only [List.head?_nil, List.head?_cons, cmpLoop, dictAdd_fresh false fs.2.2.2, e1, bind, Except.bind]
          exact g1
        · intro o; rw [g2, e3]
        · refine ⟨?_, ?_, ?_, ?_⟩
          · intro u r; rw [g3.same]; simp
          · intro u r; rw [g3.updated]; simp
          · intro u r; rw [g3.deleted]; simp
          · intro u r
            rw [g3.created, dget_dset_fresh_iff fs.2.2.2]
            constructor
            · rintro ((h1 | ⟨rfl, h2⟩) | ⟨h1, h2, -⟩)
              · exact .inl h1
              · exact .inr ⟨by simp, h2, by simp⟩
              · exact .inr ⟨by simp [h1], h2, by simp⟩
            · rintro (h1 | ⟨h1, h2, -⟩)
              · exact .inl (.inl h1)
              · rcases List.mem_cons.mp h1 with rfl | h1
                · exact .inl (.inr ⟨rfl, h2⟩)
                · exact .inr ⟨h1, h2, by simp⟩
    | cons d D =>
      have fd := fD d (by simp)
      have hltD := sorted_head_lt hD
      obtain ⟨hd', d1, d2, d3, d4⟩ := iterNext_cursor cD
      -- the case where d goes to deleted
      have delCase : (∀ b ∈ S, d.uri < b.uri) →
          ∃ h' c', cmpLoop n hd' dst src D.head? S.head?
              { c with deleted := dset c.deleted d.uri d } = .ok (h', c') ∧
            (∀ o, (h' o).dict = (h o).dict) ∧ Classified (d :: D) S c c' ∧ AllWF c' := by
        intro hall
        obtain ⟨h'', c', g1, g2, g3, g4⟩ := ih hd' dst src D S D.head? S.head?
          { c with deleted := dset c.deleted d.uri d } hne (by simp at hn ⊢; omega)
          (List.pairwise_cons.mp hD).2 hS d2 (hsc ▸ d4 src _ _ (Ne.symm hne) cS)
          (by
            intro r hr
            obtain ⟨f1, f2, f3, f4⟩ := fD r (by simp [hr])
            refine ⟨f1, f2, ?_, f4⟩
            simp only []
            rw [dget_dset_ne _ _ (ne_of_lt (hltD r hr))]; exact f3)
          (by
            intro r hr
            obtain ⟨f1, f2, f3, f4⟩ := fS r hr
            refine ⟨f1, f2, ?_, f4⟩
            simp only []
            rw [dget_dset_ne _ _ (ne_of_lt (hall r hr))]; exact f3)
          ⟨wf.same, wf.updated, WF_dset wf.deleted d, wf.created⟩
        refine ⟨h'', c', g1, fun o => by rw [g2, d3], ⟨?_, ?_, ?_, ?_⟩, g4⟩
        · intro u r
          rw [g3.same]
          constructor
          · rintro (h1 | ⟨h1, h2⟩)
            · exact .inl h1
            · exact .inr ⟨by simp [h1], h2⟩
          · rintro (h1 | ⟨h1, h2, b, hb, h3, h4⟩)
            · exact .inl h1
            · rcases List.mem_cons.mp h1 with rfl | h1
              · exact absurd (h3.trans h2.symm) (ne_of_gt (hall b hb))
              · exact .inr ⟨h1, h2, b, hb, h3, h4⟩
        · intro u r
          rw [g3.updated]
          constructor
          · rintro (h1 | ⟨h1, h2, a, ha, h3⟩)
            · exact .inl h1
            · exact .inr ⟨h1, h2, a, by simp [ha], h3⟩
          · rintro (h1 | ⟨h1, h2, a, ha, h3, h4⟩)
            · exact .inl h1
            · rcases List.mem_cons.mp ha with rfl | ha
              · exact absurd (h3.trans h2.symm) (ne_of_lt (hall r h1))
              · exact .inr ⟨h1, h2, a, ha, h3, h4⟩
        · intro u r
          rw [g3.deleted, dget_dset_fresh_iff fd.2.2.1]
          constructor
          · rintro ((h1 | ⟨rfl, h2⟩) | ⟨h1, h2⟩)
            · exact .inl h1
            · exact .inr ⟨by simp, h2, fun b hb => h2 ▸ ne_of_gt (hall b hb)⟩
            · exact .inr ⟨by simp [h1], h2⟩
          · rintro (h1 | ⟨h1, h2, h3⟩)
            · exact .inl (.inl h1)
            · rcases List.mem_cons.mp h1 with rfl | h1
              · exact .inl (.inr ⟨rfl, h2⟩)
              · exact .inr ⟨h1, h2, h3⟩
        · intro u r
          rw [g3.created]
          constructor
          · rintro (h1 | ⟨h1, h2, h3⟩)
            · exact .inl h1
            · refine .inr ⟨h1, h2, ?_⟩
              intro a ha
              rcases List.mem_cons.mp ha with rfl | ha
              · exact h2 ▸ ne_of_lt (hall r h1)
              · exact h3 a ha
          · rintro (h1 | ⟨h1, h2, h3⟩)
            · exact .inl h1
            · exact .inr ⟨h1, h2, fun a ha => h3 a (by simp [ha])⟩
      cases S with
      | nil =>
        subst hdc; subst hsc
        obtain ⟨h', c', g1, g2⟩ := delCase (by simp)
        refine ⟨h', c', ?_, g2⟩
        simp only [List.head?_nil, List.head?_cons, cmpLoop, dictAdd_fresh false fd.2.2.1, d1, bind, Except.bind]
        exact g1
      | cons s S =>
        subst hdc; subst hsc
        have fs := fS s (by simp)
        have hltS := sorted_head_lt hS
        by_cases heq : d.uri = s.uri
        · -- both cursors advance
          obtain ⟨hs', s1, s2, s3, s4⟩ := iterNext_cursor (d4 src _ _ (Ne.symm hne) cS)
          have hdS : ∀ b ∈ S, d.uri < b.uri := fun b hb => heq ▸ hltS b hb
          have hsD : ∀ a ∈ D, s.uri < a.uri := fun a ha => heq ▸ hltD a ha
          by_cases hq : d.eq (some s) = true
          · obtain ⟨h'', c', g1, g2, g3, g4⟩ := ih hs' dst src D S D.head? S.head?
              { c with same := dset c.same d.uri d } hne (by simp at hn ⊢; omega)
              (List.pairwise_cons.mp hD).2 (List.pairwise_cons.mp hS).2 (s4 dst _ _ hne d2) s2
              (by
                intro r hr
                obtain ⟨f1, f2, f3, f4⟩ := fD r (by simp [hr])
                refine ⟨?_, f2, f3, f4⟩
                simp only []
                rw [dget_dset_ne _ _ (ne_of_lt (hltD r hr))]; exact f1)
              (by
                intro r hr
                obtain ⟨f1, f2, f3, f4⟩ := fS r (by simp [hr])
                refine ⟨?_, f2, f3, f4⟩
                simp only []
                rw [dget_dset_ne _ _ (ne_of_lt (hdS r hr))]; exact f1)
              ⟨WF_dset wf.same d, wf.updated, wf.deleted, wf.created⟩
            refine ⟨h'', c', ?_, fun o => by rw [g2, s3, d3], ⟨?_, ?_, ?_, ?_⟩, g4⟩
            · simp only [List.head?_cons, cmpLoop, heq, if_true, hq, dictAdd_fresh false fd.1, Except.map, bind,
                Except.bind, d1, s1]
              rw [← heq]; exact g1
            · intro u r
              rw [g3.same, dget_dset_fresh_iff fd.1]
              constructor
              · rintro ((h1 | ⟨rfl, h2⟩) | ⟨h1, h2, b, hb, h3⟩)
                · exact .inl h1
                · exact .inr ⟨by simp, h2, s, by simp, heq ▸ h2, hq⟩
                · exact .inr ⟨by simp [h1], h2, b, by simp [hb], h3⟩
              · rintro (h1 | ⟨h1, h2, b, hb, h3, h4⟩)
                · exact .inl (.inl h1)
                · rcases List.mem_cons.mp h1 with rfl | h1
                  · exact .inl (.inr ⟨rfl, h2⟩)
                  · rcases List.mem_cons.mp hb with rfl | hb
                    · exact absurd (h3.trans h2.symm) (ne_of_lt (hsD r h1))
                    · exact .inr ⟨h1, h2, b, hb, h3, h4⟩
            · intro u r
              rw [g3.updated]
              constructor
              · rintro (h1 | ⟨h1, h2, a, ha, h3⟩)
                · exact .inl h1
                · exact .inr ⟨by simp [h1], h2, a, by simp [ha], h3⟩
              · rintro (h1 | ⟨h1, h2, a, ha, h3, h4⟩)
                · exact .inl h1
                · rcases List.mem_cons.mp h1 with rfl | h1
                  · rcases List.mem_cons.mp ha with rfl | ha
                    · rw [hq] at h4; exact absurd h4 (by simp)
                    · exact absurd (h3.trans h2.symm) (ne_of_gt (hsD a ha))
                  · rcases List.mem_cons.mp ha with rfl | ha
                    · exact absurd (h3.trans h2.symm) (ne_of_lt (hdS r h1))
                    · exact .inr ⟨h1, h2, a, ha, h3, h4⟩
            · intro u r
              rw [g3.deleted]
              constructor
              · rintro (h1 | ⟨h1, h2, h3⟩)
                · exact .inl h1
                · refine .inr ⟨by simp [h1], h2, ?_⟩
                  intro b hb
                  rcases List.mem_cons.mp hb with rfl | hb
                  · exact h2 ▸ ne_of_lt (hsD r h1)
                  · exact h3 b hb
              · rintro (h1 | ⟨h1, h2, h3⟩)
                · exact .inl h1
                · rcases List.mem_cons.mp h1 with rfl | h1
                  · exact absurd (heq ▸ h2) (h3 s (by simp))
                  · exact .inr ⟨h1, h2, fun b hb => h3 b (by simp [hb])⟩
            · intro u r
              rw [g3.created]
              constructor
              · rintro (h1 | ⟨h1, h2, h3⟩)
                · exact .inl h1
                · refine .inr ⟨by simp [h1], h2, ?_⟩
                  intro a ha
                  rcases List.mem_cons.mp ha with rfl | ha
                  · exact h2 ▸ ne_of_lt (hdS r h1)
                  · exact h3 a ha
              · rintro (h1 | ⟨h1, h2, h3⟩)
                · exact .inl h1
                · rcases List.mem_cons.mp h1 with rfl | h1
                  · exact absurd (heq.trans h2) (h3 d (by simp))
                  · exact .inr ⟨h1, h2, fun a ha => h3 a (by simp [ha])⟩
          · have hqf : d.eq (some s) = false := by simpa using hq
            obtain ⟨h'', c', g1, g2, g3, g4⟩ := ih hs' dst src D S D.head? S.head?
              { c with updated := dset c.updated s.uri s } hne (by simp at hn ⊢; omega)
              (List.pairwise_cons.mp hD).2 (List.pairwise_cons.mp hS).2 (s4 dst _ _ hne d2) s2
              (by
                intro r hr
                obtain ⟨f1, f2, f3, f4⟩ := fD r (by simp [hr])
                refine ⟨f1, ?_, f3, f4⟩
                simp only []
                rw [dget_dset_ne _ _ (ne_of_lt (hsD r hr))]; exact f2)
              (by
                intro r hr
                obtain ⟨f1, f2, f3, f4⟩ := fS r (by simp [hr])
                refine ⟨f1, ?_, f3, f4⟩
                simp only []
                rw [dget_dset_ne _ _ (ne_of_lt (hltS r hr))]; exact f2)
              ⟨wf.same, WF_dset wf.updated s, wf.deleted, wf.created⟩
            refine ⟨h'', c', ?_, fun o => by rw [g2, s3, d3], ⟨?_, ?_, ?_, ?_⟩, g4⟩
            · simp only [List.head?_cons, cmpLoop, heq, if_true, hqf, Bool.false_eq_true, if_false,
                dictAdd_fresh false fs.2.1, Except.map, bind, Except.bind, d1, s1]
              exact g1
            · intro u r
              rw [g3.same]
              constructor
              · rintro (h1 | ⟨h1, h2, b, hb, h3⟩)
                · exact .inl h1
                · exact .inr ⟨by simp [h1], h2, b, by simp [hb], h3⟩
              · rintro (h1 | ⟨h1, h2, b, hb, h3, h4⟩)
                · exact .inl h1
                · rcases List.mem_cons.mp h1 with rfl | h1
                  · rcases List.mem_cons.mp hb with rfl | hb
                    · exact absurd h4 hq
                    · exact absurd (h3.trans h2.symm) (ne_of_gt (hdS b hb))
                  · rcases List.mem_cons.mp hb with rfl | hb
                    · exact absurd (h3.trans h2.symm) (ne_of_lt (hsD r h1))
                    · exact .inr ⟨h1, h2, b, hb, h3, h4⟩
            · intro u r
              rw [g3.updated, dget_dset_fresh_iff fs.2.1]
              constructor
              · rintro ((h1 | ⟨rfl, h2⟩) | ⟨h1, h2, a, ha, h3⟩)
                · exact .inl h1
                · exact .inr ⟨by simp, h2, d, by simp, heq.trans h2, hqf⟩
                · exact .inr ⟨by simp [h1], h2, a, by simp [ha], h3⟩
              · rintro (h1 | ⟨h1, h2, a, ha, h3, h4⟩)
                · exact .inl (.inl h1)
                · rcases List.mem_cons.mp h1 with rfl | h1
                  · exact .inl (.inr ⟨rfl, h2⟩)
                  · rcases List.mem_cons.mp ha with rfl | ha
                    · exact absurd (h3.trans h2.symm) (ne_of_lt (hdS r h1))
                    · exact .inr ⟨h1, h2, a, ha, h3, h4⟩
            · intro u r
              rw [g3.deleted]
              constructor
              · rintro (h1 | ⟨h1, h2, h3⟩)
                · exact .inl h1
                · refine .inr ⟨by simp [h1], h2, ?_⟩
                  intro b hb
                  rcases List.mem_cons.mp hb with rfl | hb
                  · exact h2 ▸ ne_of_lt (hsD r h1)
                  · exact h3 b hb
              · rintro (h1 | ⟨h1, h2, h3⟩)
                · exact .inl h1
                · rcases List.mem_cons.mp h1 with rfl | h1
                  · exact absurd (heq ▸ h2) (h3 s (by simp))
                  · exact .inr ⟨h1, h2, fun b hb => h3 b (by simp [hb])⟩
            · intro u r
              rw [g3.created]
              constructor
              · rintro (h1 | ⟨h1, h2, h3⟩)
                · exact .inl h1
                · refine .inr ⟨by simp [h1], h2, ?_⟩
                  intro a ha
                  rcases List.mem_cons.mp ha with rfl | ha
                  · exact h2 ▸ ne_of_lt (hdS r h1)
                  · exact h3 a ha
              · rintro (h1 | ⟨h1, h2, h3⟩)
                · exact .inl h1
                · rcases List.mem_cons.mp h1 with rfl | h1
                  · exact absurd (heq.trans h2) (h3 d (by simp))
                  · exact .inr ⟨h1, h2, fun a ha => h3 a (by simp [ha])⟩
        · by_cases hlt : d.uri < s.uri
          · obtain ⟨h', c', g1, g2⟩ := delCase (by
              intro b hb
              rcases List.mem_cons.mp hb with rfl | hb
              · exact hlt
              · exact lt_trans hlt (hltS b hb))
            refine ⟨h', c', ?_, g2⟩
            simp only [List.head?_cons, cmpLoop, heq, hlt, if_true, if_false,
              dictAdd_fresh false fd.2.2.1, d1, bind, Except.bind]
            exact g1
          · -- s goes to created
            have hgt : s.uri < d.uri := lt_of_le_of_ne (le_of_not_gt hlt) (Ne.symm heq)
            have hall : ∀ a ∈ d :: D, s.uri < a.uri := by
              intro a ha
              rcases List.mem_cons.mp ha with rfl | ha
              · exact hgt
              · exact lt_trans hgt (hltD a ha)
            obtain ⟨hs', s1, s2, s3, s4⟩ := iterNext_cursor cS
            obtain ⟨h'', c', g1, g2, g3, g4⟩ := ih hs' dst src (d :: D) S (some d) S.head?
              { c with created := dset c.created s.uri s } hne (by simp at hn ⊢; omega)
              hD (List.pairwise_cons.mp hS).2 (s4 dst _ _ hne cD) s2
              (by
                intro r hr
                obtain ⟨f1, f2, f3, f4⟩ := fD r hr
                refine ⟨f1, f2, f3, ?_⟩
                simp only []
                rw [dget_dset_ne _ _ (ne_of_lt (hall r hr))]; exact f4)
              (by
                intro r hr
                obtain ⟨f1, f2, f3, f4⟩ := fS r (by simp [hr])
                refine ⟨f1, f2, f3, ?_⟩
                simp only []
                rw [dget_dset_ne _ _ (ne_of_lt (hltS r hr))]; exact f4)
              ⟨wf.same, wf.updated, wf.deleted, WF_dset wf.created s⟩
            refine ⟨h'', c', ?_, fun o => by rw [g2, s3], ⟨?_, ?_, ?_, ?_⟩, g4⟩
            · simp only [List.head?_cons, cmpLoop, heq, hlt, if_false,
                dictAdd_fresh false fs.2.2.2, s1, bind, Except.bind]
              exact g1
            · intro u r
              rw [g3.same]
              constructor
              · rintro (h1 | ⟨h1, h2, b, hb, h3⟩)
                · exact .inl h1
                · exact .inr ⟨h1, h2, b, by simp [hb], h3⟩
              · rintro (h1 | ⟨h1, h2, b, hb, h3, h4⟩)
                · exact .inl h1
                · rcases List.mem_cons.mp hb with rfl | hb
                  · exact absurd (h3.trans h2.symm) (ne_of_lt (hall r h1))
                  · exact .inr ⟨h1, h2, b, hb, h3, h4⟩
            · intro u r
              rw [g3.updated]
              constructor
              · rintro (h1 | ⟨h1, h2⟩)
                · exact .inl h1
                · exact .inr ⟨by simp [h1], h2⟩
              · rintro (h1 | ⟨h1, h2, a, ha, h3, h4⟩)
                · exact .inl h1
                · rcases List.mem_cons.mp h1 with rfl | h1
                  · exact absurd (h3.trans h2.symm) (ne_of_gt (hall a ha))
                  · exact .inr ⟨h1, h2, a, ha, h3, h4⟩
            · intro u r
              rw [g3.deleted]
              constructor
              · rintro (h1 | ⟨h1, h2, h3⟩)
                · exact .inl h1
                · refine .inr ⟨h1, h2, ?_⟩
                  intro b hb
                  rcases List.mem_cons.mp hb with rfl | hb
                  · exact h2 ▸ ne_of_lt (hall r h1)
                  · exact h3 b hb
              · rintro (h1 | ⟨h1, h2, h3⟩)
                · exact .inl h1
                · exact .inr ⟨h1, h2, fun b hb => h3 b (by simp [hb])⟩
            · intro u r
              rw [g3.created, dget_dset_fresh_iff fs.2.2.2]
              constructor
              · rintro ((h1 | ⟨rfl, h2⟩) | ⟨h1, h2⟩)
                · exact .inl h1
                · exact .inr ⟨by simp, h2, fun a ha => h2 ▸ ne_of_gt (hall a ha)⟩
                · exact .inr ⟨by simp [h1], h2⟩
              · rintro (h1 | ⟨h1, h2, h3⟩)
                · exact .inl (.inl h1)
                · rcases List.mem_cons.mp h1 with rfl | h1
                  · exact .inl (.inr ⟨rfl, h2⟩)
                  · exact .inr ⟨h1, h2, h3⟩

/-- compare() of two different list objects -/
theorem compare_spec (h : Heap) (dst src : Nat) (hne : dst ≠ src) (hD : WF (h dst).dict)
    (hS : WF (h src).dict) :
    ∃ h' c, compare h dst src = .ok (h', c) ∧ (∀ o, (h' o).dict = (h o).dict) ∧
      Classified (listing (h dst).dict) (listing (h src).dict) {} c ∧ AllWF c := by
  have s0 : ∀ o, ((sortedIter (sortedIter h dst) src) o).dict = (h o).dict := by
    intro o
    unfold sortedIter
    by_cases e : o = src
    · subst e; rw [set_same]; rw [set_other _ _ (Ne.symm hne)]
    · rw [set_other _ _ e]
      by_cases e' : o = dst
      · subst e'; rw [set_same]
      · rw [set_other _ _ e']
  have nd : ((sortedIter (sortedIter h dst) src) dst).nextList = (listing (h dst).dict).map (·.uri) := by
    rw [listing_uris hD]
    unfold sortedIter
    rw [set_other _ _ hne, set_same]
  have ns : ((sortedIter (sortedIter h dst) src) src).nextList = (listing (h src).dict).map (·.uri) := by
    rw [listing_uris hS]
    unfold sortedIter
    rw [set_same, set_other _ _ (Ne.symm hne)]
  obtain ⟨h1, a1, a2, a3, a4⟩ := iterNext_start (o := dst)
    (fun r hr => by rw [s0]; exact (mem_listing hD).mp hr) nd
  obtain ⟨h2, b1, b2, b3, b4⟩ := iterNext_start (h := h1) (o := src) (L := listing (h src).dict)
    (fun r hr => by rw [a3, s0]; exact (mem_listing hS).mp hr) (by rw [a4 _ (Ne.symm hne)]; exact ns)
  have lenD : ∀ d : Dict Resource, (listing d).length ≤ d.length := by
    intro d
    unfold listing
    refine le_trans (List.length_filterMap_le _ _) ?_
    rw [(sortStr_perm _).length_eq]; simp [dkeys]
  have cD : Cursor h2 dst (listing (h dst).dict).head? (listing (h dst).dict) := by
    unfold Cursor; rw [b4 _ hne]; exact a2
  obtain ⟨h', c', g1, g2, g3, g4⟩ := cmpLoop_spec
    ((h2 dst).dict.length + (h2 src).dict.length + 2) h2 dst src (listing (h dst).dict)
    (listing (h src).dict) _ _ {} hne
    (by
      rw [b3, b3, a3, a3, s0, s0]
      have := lenD (h dst).dict
      have := lenD (h src).dict
      omega)
    (listing_sorted hD) (listing_sorted hS) cD b2
    (by intro r _; exact ⟨rfl, rfl, rfl, rfl⟩) (by intro r _; exact ⟨rfl, rfl, rfl, rfl⟩)
    ⟨WF_nil, WF_nil, WF_nil, WF_nil⟩
  refine ⟨h', c', ?_, ?_, g3, g4⟩
  · simp only [compare, a1, b1, bind, Except.bind]
    exact g1
  · intro o; rw [g2, b3, a3, s0]

end Resync

namespace Resync
open Py Resync.Spec

/-! ### compare() of a list with itself: both cursors draw from one iterator state -/

structure SelfState (h : Heap) (o : Nat) (dc sc : Option Resource) (N : List Resource)
    (c : Comparison) : Prop where
  look : ∀ r ∈ dc.toList ++ sc.toList ++ N, dget (h o).dict r.uri = some r
  next : (h o).nextList = N.map (·.uri)
  distinct : ((dc.toList ++ sc.toList ++ N).map (·.uri)).Nodup
  fresh : ∀ r ∈ dc.toList ++ sc.toList ++ N, dget c.deleted r.uri = none ∧ dget c.created r.uri = none

theorem iterNext_self {h : Heap} {o : Nat} {N : List Resource}
    (h1 : ∀ r ∈ N, dget (h o).dict r.uri = some r) (h3 : (h o).nextList = N.map (·.uri)) :
    ∃ h', iterNext h o = .ok (h', N.head?) ∧ (h' o).nextList = N.tail.map (·.uri) ∧
      (h' o).dict = (h o).dict := by
  obtain ⟨h', e1, e2, e3, -⟩ := iterNext_start h1 h3
  exact ⟨h', e1, e2.2.2, e3 o⟩

theorem head_tail (N : List Resource) : N.head?.toList ++ N.tail = N := by cases N <;> rfl

theorem cmpLoop_self (n : Nat) : ∀ (h : Heap) (o : Nat) (dc sc : Option Resource) (N : List Resource)
    (c : Comparison), dc.toList.length + sc.toList.length + N.length + 1 ≤ n →
    (dc = none → sc = none → N = []) → SelfState h o dc sc N c →
    ∃ h' c', cmpLoop n h o o dc sc c = .ok (h', c') ∧ c'.same = c.same ∧ c'.updated = c.updated ∧
      (∀ u r, dget c.deleted u = some r → dget c'.deleted u = some r) ∧
      (∀ u r, dget c.created u = some r → dget c'.created u = some r) ∧
      (∀ r ∈ dc.toList ++ sc.toList ++ N,
        dget c'.deleted r.uri = some r ∨ dget c'.created r.uri = some r) := by
  induction n with
  | zero => intro h o dc sc N c hn; omega
  | succ n ih =>
    intro h o dc sc N c hn hend st
    obtain ⟨look, next, distinct, fresh⟩ := st
    obtain ⟨h1, e1, e2, e3⟩ := iterNext_self (fun r hr => look r (by simp [hr])) next
    -- one step that moves `x` (a cursor) into deleted or created
    have stepLemma : ∀ (x : Resource) (rest : List Resource) (dc' sc' : Option Resource) (c1 : Comparison),
        (dc.toList ++ sc.toList ++ N).Perm (x :: rest) →
        (dc'.toList ++ sc'.toList ++ N.tail).Perm rest →
        (dc' = none → sc' = none → N.tail = []) →
        c1.same = c.same → c1.updated = c.updated →
        (∀ u, u ≠ x.uri → dget c1.deleted u = dget c.deleted u ∧ dget c1.created u = dget c.created u) →
        (∀ u r, dget c.deleted u = some r → dget c1.deleted u = some r) →
        (∀ u r, dget c.created u = some r → dget c1.created u = some r) →
        (dget c1.deleted x.uri = some x ∨ dget c1.created x.uri = some x) →
        ∃ h' c', cmpLoop n h1 o o dc' sc' c1 = .ok (h', c') ∧ c'.same = c.same ∧
          c'.updated = c.updated ∧
          (∀ u r, dget c.deleted u = some r → dget c'.deleted u = some r) ∧
          (∀ u r, dget c.created u = some r → dget c'.created u = some r) ∧
          (∀ r ∈ dc.toList ++ sc.toList ++ N,
            dget c'.deleted r.uri = some r ∨ dget c'.created r.uri = some r) := by
      intro x rest dc' sc' c1 p1 p2 he s1 s2 keep m1 m2 hx
      have hnod : (x.uri :: rest.map (·.uri)).Nodup := by
        have := (p1.map (·.uri)).nodup_iff.mp distinct
        simpa using this
      have hlen : dc'.toList.length + sc'.toList.length + N.tail.length = rest.length := by
        have := p2.length_eq
        simpa [List.length_append, Nat.add_assoc] using this
      have hlen1 : dc.toList.length + sc.toList.length + N.length = rest.length + 1 := by
        have := p1.length_eq
        simpa [List.length_append, Nat.add_assoc] using this
      have hsub : ∀ r ∈ dc'.toList ++ sc'.toList ++ N.tail, r ∈ dc.toList ++ sc.toList ++ N := by
        intro r hr
        exact p1.mem_iff.mpr (List.mem_cons_of_mem _ (p2.mem_iff.mp hr))
      have hne : ∀ r ∈ dc'.toList ++ sc'.toList ++ N.tail, r.uri ≠ x.uri := by
        intro r hr e
        have := (List.nodup_cons.mp hnod).1
        exact this (e ▸ List.mem_map.mpr ⟨r, p2.mem_iff.mp hr, rfl⟩)
      obtain ⟨h', c', g1, g2, g3, g4, g5, g6⟩ := ih h1 o dc' sc' N.tail c1 (by omega) he
        ⟨fun r hr => by rw [e3]; exact look r (hsub r hr), e2,
          ((p2.map (·.uri)).nodup_iff.mpr (List.nodup_cons.mp hnod).2),
          fun r hr => by
            rw [(keep _ (hne r hr)).1, (keep _ (hne r hr)).2]; exact fresh r (hsub r hr)⟩
      refine ⟨h', c', g1, g2.trans s1, g3.trans s2, fun u r hr => g4 u r (m1 u r hr),
        fun u r hr => g5 u r (m2 u r hr), ?_⟩
      intro r hr
      rcases List.mem_cons.mp (p1.mem_iff.mp hr) with rfl | hr
      · rcases hx with hx | hx
        · exact .inl (g4 _ _ hx)
        · exact .inr (g5 _ _ hx)
      · exact g6 r (p2.mem_iff.mpr hr)
    have grow : ∀ (d : Dict Resource) (x : Resource), dget d x.uri = none →
        ∀ u r, dget d u = some r → dget (dset d x.uri x) u = some r := by
      intro d x hx u r hr
      rw [dget_dset_ne]
      · exact hr
      · rintro rfl; rw [hx] at hr; cases hr
    cases dc with
    | none =>
      cases sc with
      | none =>
        refine ⟨h, c, rfl, rfl, rfl, fun _ _ h => h, fun _ _ h => h, ?_⟩
        rw [hend rfl rfl]; simp
      | some s =>
        have fs := fresh s (by simp)
        obtain ⟨h', c', g⟩ := stepLemma s N none N.head?
          { c with created := dset c.created s.uri s } (by simp)
          (by simp [head_tail]) (by intro _ h; cases N <;> simp_all) rfl rfl
          (fun u hu => ⟨rfl, dget_dset_ne _ _ (Ne.symm hu)⟩) (fun _ _ h => h) (grow _ _ fs.2)
          (.inr (dget_dset_self _ _ _))
        refine ⟨h', c', ?_, g.2⟩
        simp only [cmpLoop, dictAdd_fresh false fs.2, e1, bind, Except.bind]
        exact g.1
    | some d =>
      have fd := fresh d (by simp)
      have delStep := stepLemma d (sc.toList ++ N) N.head? sc
        { c with deleted := dset c.deleted d.uri d } (by simp)
        (by
          have : (N.head?.toList ++ sc.toList ++ N.tail).Perm (sc.toList ++ (N.head?.toList ++ N.tail)) := by
            rw [← List.append_assoc]
            exact List.Perm.append_right _ List.perm_append_comm
          rwa [head_tail] at this)
        (by intro h _; cases N <;> simp_all) rfl rfl
        (fun u hu => ⟨dget_dset_ne _ _ (Ne.symm hu), rfl⟩) (grow _ _ fd.1) (fun _ _ h => h)
        (.inl (dget_dset_self _ _ _))
      cases sc with
      | none =>
        obtain ⟨h', c', g⟩ := delStep
        refine ⟨h', c', ?_, g.2⟩
        simp only [cmpLoop, dictAdd_fresh false fd.1, e1, bind, Except.bind]
        exact g.1
      | some s =>
        have fs := fresh s (by simp)
        have hds : d.uri ≠ s.uri := by
          intro e; simp [e] at distinct
        by_cases hlt : d.uri < s.uri
        · obtain ⟨h', c', g⟩ := delStep
          refine ⟨h', c', ?_, g.2⟩
          simp only [cmpLoop, hds, hlt, if_true, if_false, dictAdd_fresh false fd.1, e1, bind, Except.bind]
          exact g.1
        · obtain ⟨h', c', g⟩ := stepLemma s (d :: N) (some d) N.head?
            { c with created := dset c.created s.uri s }
            (by simpa using List.Perm.swap s d N)
            (by
              have : ((some d).toList ++ N.head?.toList ++ N.tail) = d :: (N.head?.toList ++ N.tail) := by simp
              rw [this, head_tail]) (by simp) rfl rfl
            (fun u hu => ⟨rfl, dget_dset_ne _ _ (Ne.symm hu)⟩) (fun _ _ h => h) (grow _ _ fs.2)
            (.inr (dget_dset_self _ _ _))
          refine ⟨h', c', ?_, g.2⟩
          simp only [cmpLoop, hds, hlt, if_false, dictAdd_fresh false fs.2, e1, bind, Except.bind]
          exact g.1

theorem compare_self (h : Heap) (o : Nat) (hD : WF (h o).dict) :
    ∃ h' c, compare h o o = .ok (h', c) ∧ c.same = [] ∧ c.updated = [] ∧
      ∀ u r, dget (h o).dict u = some r → dget c.deleted u = some r ∨ dget c.created u = some r := by
  have s0 : ((sortedIter (sortedIter h o) o) o).dict = (h o).dict := by
    unfold sortedIter; rw [set_same, set_same]
  have nd : ((sortedIter (sortedIter h o) o) o).nextList = (listing (h o).dict).map (·.uri) := by
    rw [listing_uris hD]
    unfold sortedIter
    rw [set_same, set_same]
  obtain ⟨h1, a1, a2, a3⟩ := iterNext_self
    (fun r hr => by rw [s0]; exact (mem_listing hD).mp hr) nd
  have htl : ∀ r ∈ (listing (h o).dict).tail, dget (h1 o).dict r.uri = some r := by
    intro r hr; rw [a3, s0]; exact (mem_listing hD).mp (List.mem_of_mem_tail hr)
  obtain ⟨h2, b1, b2, b3⟩ := iterNext_self htl a2
  have hall : (listing (h o).dict).head?.toList ++ (listing (h o).dict).tail.head?.toList ++
      (listing (h o).dict).tail.tail = listing (h o).dict := by
    rw [List.append_assoc, head_tail, head_tail]
  have hlen : (listing (h o).dict).length ≤ (h o).dict.length := by
    unfold listing
    refine le_trans (List.length_filterMap_le _ _) ?_
    rw [(sortStr_perm _).length_eq]; simp [dkeys]
  have hl2 := congrArg List.length hall
  simp only [List.length_append] at hl2
  obtain ⟨h', c', g1, g2, g3, -, -, g6⟩ := cmpLoop_self
    ((h2 o).dict.length + (h2 o).dict.length + 2) h2 o (listing (h o).dict).head?
    (listing (h o).dict).tail.head? (listing (h o).dict).tail.tail {}
    (by rw [b3, a3, s0]; omega)
    (by intro h1 h2; simp at h1; simp [h1])
    ⟨by
      rw [hall]; intro r hr; rw [b3, a3, s0]; exact (mem_listing hD).mp hr, b2, by
      rw [hall, listing_uris hD]; exact (sortStr_perm _).nodup_iff.mpr hD.1, by
      intro r _; exact ⟨rfl, rfl⟩⟩
  refine ⟨h', c', ?_, g2, g3, ?_⟩
  · simp only [compare, a1, b1, bind, Except.bind]
    exact g1
  · intro u r hr
    have hu := hD.2 u r hr
    subst hu
    exact g6 r (by rw [hall]; exact (mem_listing hD).mpr hr)

end Resync
