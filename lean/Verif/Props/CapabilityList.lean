import Verif.Model.CapabilityList
import Verif.Proofs.ResourceList
import Mathlib.Data.List.Perm.Basic
import Mathlib.Data.List.Induction
/-
C63: iteration order of capability lists.
-/

namespace Resync
open Py

/-- the distinct elements in order of first appearance -/
def nub {α : Type} [DecidableEq α] : List α → List α
  | [] => []
  | a :: t => a :: (nub t).filter (· ≠ a)

theorem mem_nub {α : Type} [DecidableEq α] (l : List α) (x : α) : x ∈ nub l ↔ x ∈ l := by
  induction l with
  | nil => simp [nub]
  | cons a t ih => by_cases h : x = a <;> simp [nub, ih, h]

theorem nub_append {α : Type} [DecidableEq α] (l : List α) (x : α) :
    nub (l ++ [x]) = if x ∈ l then nub l else nub l ++ [x] := by
  induction l with
  | nil => simp [nub]
  | cons a t ih =>
    simp only [List.cons_append, nub, ih, List.mem_cons]
    by_cases h1 : x = a
    · subst h1
      by_cases h2 : x ∈ t <;> simp [h2]
    · by_cases h2 : x ∈ t <;> simp [h1, h2]

theorem nub_pairwise (l : List (Option Str)) :
    (nub l).Pairwise (fun a b => a ≠ b ∧ l.idxOf a < l.idxOf b) := by
  induction l with
  | nil => simp [nub]
  | cons x t ih =>
    rw [nub, List.pairwise_cons]
    constructor
    · intro b hb
      simp only [List.mem_filter, decide_eq_true_eq] at hb
      refine ⟨fun e => hb.2 e.symm, ?_⟩
      rw [List.idxOf_cons_self, List.idxOf_cons_ne _ (fun e => hb.2 e.symm)]
      omega
    · have h := ih.filter (fun y => decide (y ≠ x))
      refine List.Pairwise.imp_of_mem ?_ h
      intro a b ha hb hab
      simp only [List.mem_filter, decide_eq_true_eq] at ha hb
      refine ⟨hab.1, ?_⟩
      rw [List.idxOf_cons_ne _ (fun e => ha.2 e.symm), List.idxOf_cons_ne _ (fun e => hb.2 e.symm)]
      omega

/-- the URIs of one capability, in insertion order -/
def urisOf (d : Dict Resource) (c : Option Str) : List Str :=
  (d.filter (fun p => p.2.capability = c)).map Prod.fst

def capsOf (d : Dict Resource) : List (Option Str) := d.map (fun p => p.2.capability)

theorem addUri_map (f : Option Str → List Str) (c : Option Str) (u : Str) (l : List (Option Str)) (hn : l.Nodup) :
    CapIndex.addUri (l.map (fun x => (x, f x))) c u =
      if c ∈ l then l.map (fun x => (x, if x = c then f x ++ [u] else f x)) else l.map (fun x => (x, f x)) ++ [(c, [u])] := by
  induction l with
  | nil => simp [CapIndex.addUri]
  | cons a t ih =>
    rw [List.nodup_cons] at hn
    simp only [List.map_cons, CapIndex.addUri]
    by_cases h : a = c
    · subst h
      simp only [if_true, List.mem_cons, true_or]
      congr 1
      apply List.map_congr_left
      intro x hx
      rw [if_neg (fun e : x = a => hn.1 (e ▸ hx))]
    · rw [if_neg h, ih hn.2]
      by_cases h2 : c ∈ t
      · simp [h2, h]
      · simp [h2, h, Ne.symm h]

theorem nub_nodup (l : List (Option Str)) : (nub l).Nodup :=
  (nub_pairwise l).imp (fun h => h.1)

theorem capIndex_eq (d : Dict Resource) : capIndex d = (nub (capsOf d)).map (fun c => (c, urisOf d c)) := by
  induction d using List.reverseRecOn with
  | nil => rfl
  | append_singleton d p ih =>
    have e : capIndex (d ++ [p]) = CapIndex.addUri (capIndex d) p.2.capability p.1 := by
      simp [capIndex, List.foldl_append]
    rw [e, ih, addUri_map _ _ _ _ (nub_nodup _)]
    simp only [mem_nub]
    have ec : capsOf (d ++ [p]) = capsOf d ++ [p.2.capability] := by simp [capsOf]
    rw [ec, nub_append]
    have eu : ∀ c, urisOf (d ++ [p]) c = if c = p.2.capability then urisOf d c ++ [p.1] else urisOf d c := by
      intro c
      unfold urisOf
      by_cases h : c = p.2.capability
      · simp [h]
      · simp [h, Ne.symm h]
    by_cases h : p.2.capability ∈ capsOf d
    · rw [if_pos h, if_pos h]
      apply List.map_congr_left
      intro x _
      rw [eu]
    · rw [if_neg h, if_neg h, List.map_append]
      congr 1
      · apply List.map_congr_left
        intro x hx
        rw [eu, if_neg]
        rintro rfl
        exact h ((mem_nub _ _).mp hx)
      · simp only [List.map_cons, List.map_nil, eu, if_true]
        have : urisOf d p.2.capability = [] := by
          unfold urisOf
          rw [List.map_eq_nil_iff, List.filter_eq_nil_iff]
          intro q hq
          simp only [decide_eq_true_eq]
          intro e
          exact h (e ▸ List.mem_map_of_mem (f := fun p : Str × Resource => p.2.capability) hq)
        rw [this]
        rfl

theorem lookup_map (f : Option Str → List Str) (c : Option Str) (l : List (Option Str)) :
    (l.map (fun x => (x, f x))).lookup c = if c ∈ l then some (f c) else none := by
  induction l with
  | nil => simp
  | cons a t ih =>
    simp only [List.map_cons, List.lookup_cons, ih, List.mem_cons]
    by_cases h : c = a
    · subst h; simp
    · have : (c == a) = false := by simpa using h
      rw [this]; simp [h]

theorem capKnown_eq (d : Dict Resource) (order : List Str) : ∀ (l : List (Option Str)),
    order.Nodup → (∀ c, c ∈ capsOf d → (∃ o ∈ order, c = some o) → c ∈ l) →
    capKnown order (l.map (fun c => (c, urisOf d c))) =
      (order.flatMap (fun o => sortStr (urisOf d (some o))),
       (l.filter (fun c => c ∉ order.map some)).map (fun c => (c, urisOf d c))) := by
  induction order with
  | nil => intro l _ _; simp [capKnown]
  | cons o rest ih =>
    intro l hn hl
    rw [List.nodup_cons] at hn
    simp only [capKnown, lookup_map]
    by_cases h : some o ∈ l
    · rw [if_pos h]
      simp only
      have e : (l.map (fun c => (c, urisOf d c))).filter (fun p => p.1 ≠ some o) =
          (l.filter (fun c => c ≠ some o)).map (fun c => (c, urisOf d c)) := by
        rw [List.filter_map]; rfl
      rw [e, ih _ hn.2]
      · simp only [List.flatMap_cons, List.filter_filter, Prod.mk.injEq, true_and]
        congr 1
        apply List.filter_congr
        intro x _
        simp only [List.map_cons, List.mem_cons, not_or]
        by_cases h1 : x = some o <;> simp [h1]
      · intro c hc ⟨o', ho', e'⟩
        rw [List.mem_filter]
        refine ⟨hl c hc ⟨o', by simp [ho'], e'⟩, ?_⟩
        simp only [ne_eq, decide_eq_true_eq, e', Option.some.injEq]
        rintro rfl
        exact hn.1 ho'
    · rw [if_neg h]
      simp only
      rw [ih _ hn.2]
      · have hu : urisOf d (some o) = [] := by
          unfold urisOf
          rw [List.map_eq_nil_iff, List.filter_eq_nil_iff]
          intro q hq
          simp only [decide_eq_true_eq]
          intro e
          exact h (hl (some o) (e ▸ List.mem_map_of_mem (f := fun p : Str × Resource => p.2.capability) hq) ⟨o, by simp, rfl⟩)
        simp only [List.flatMap_cons, hu, Prod.mk.injEq]
        refine ⟨by simp [sortStr], ?_⟩
        congr 1
        apply List.filter_congr
        intro x hx
        simp only [List.map_cons, List.mem_cons, not_or]
        by_cases h1 : x = some o
        · exact absurd (h1 ▸ hx) h
        · simp [h1]
      · intro c hc ⟨o', ho', e'⟩
        exact hl c hc ⟨o', by simp [ho'], e'⟩

/-- the capabilities in the order the iteration visits them -/
def capSequence (d : Dict Resource) : List (Option Str) :=
  capOrder.map some ++ (nub (capsOf d)).filter (fun c => c ∉ capOrder.map some)

theorem capUris_eq (d : Dict Resource) : capUris d = (capSequence d).flatMap (fun c => sortStr (urisOf d c)) := by
  unfold capUris capSequence
  rw [capIndex_eq, capKnown_eq d capOrder _ (by decide) (fun c hc _ => (mem_nub _ _).mpr hc)]
  simp only [List.flatMap_append, List.flatMap_map]

/-- the order of the ResourceSync specification: the four kinds of document, then the archives of each -/
def specifiedOrder : List Str :=
  ["resourcelist".toList, "resourcedump".toList, "changelist".toList, "changedump".toList,
   "resourcelist-archive".toList, "resourcedump-archive".toList, "changelist-archive".toList,
   "changedump-archive".toList]

theorem capOrder_specified : capOrder = specifiedOrder := by decide

/-- the place of a capability in the specification's order; capabilities it does not name come last -/
def capRank (c : Option Str) : Nat :=
  match c with
  | some s => specifiedOrder.idxOf s
  | none => specifiedOrder.length

/-- entry a comes before entry b: by rank; within one capability by URI; two capabilities outside the specification's
order, as their first entries were inserted -/
def CapBefore (d : Dict Resource) (a b : Resource) : Prop :=
  capRank a.capability < capRank b.capability ∨
  (a.capability = b.capability ∧ a.uri < b.uri) ∨
  (a.capability ≠ b.capability ∧ capRank a.capability = specifiedOrder.length ∧ capRank b.capability = specifiedOrder.length ∧
    (capsOf d).idxOf a.capability < (capsOf d).idxOf b.capability)

theorem capRank_known {c : Option Str} (h : c ∈ specifiedOrder.map some) : capRank c < specifiedOrder.length := by
  obtain ⟨o, ho, rfl⟩ := List.mem_map.mp h
  exact List.idxOf_lt_length_of_mem ho

theorem capRank_unknown {c : Option Str} (h : c ∉ specifiedOrder.map some) : capRank c = specifiedOrder.length := by
  cases c with
  | none => rfl
  | some s =>
    refine List.idxOf_eq_length ?_
    intro hm
    exact h (List.mem_map_of_mem hm)

theorem capOrder_rank : (specifiedOrder.map some).Pairwise (fun a b => a ≠ b ∧ capRank a < capRank b) := by decide

theorem capSequence_pairwise (d : Dict Resource) : (capSequence d).Pairwise (fun a b => a ≠ b ∧
    (capRank a < capRank b ∨ (capRank a = specifiedOrder.length ∧ capRank b = specifiedOrder.length ∧
      (capsOf d).idxOf a < (capsOf d).idxOf b))) := by
  unfold capSequence
  rw [capOrder_specified]
  rw [List.pairwise_append]
  refine ⟨capOrder_rank.imp (fun h => ⟨h.1, .inl h.2⟩), ?_, ?_⟩
  · have h := (nub_pairwise (capsOf d)).filter (fun c => decide (c ∉ specifiedOrder.map some))
    refine List.Pairwise.imp_of_mem ?_ h
    intro a b ha hb hab
    simp only [List.mem_filter, decide_eq_true_eq] at ha hb
    exact ⟨hab.1, .inr ⟨capRank_unknown ha.2, capRank_unknown hb.2, hab.2⟩⟩
  · intro a ha b hb
    simp only [List.mem_filter, decide_eq_true_eq] at hb
    refine ⟨fun e => hb.2 (e ▸ ha), .inl ?_⟩
    rw [capRank_unknown hb.2]
    exact capRank_known ha

theorem mem_urisOf {d : Dict Resource} (hd : WF d) {c : Option Str} {u : Str} :
    u ∈ urisOf d c ↔ ∃ r, dget d u = some r ∧ r.capability = c := by
  unfold urisOf
  simp only [List.mem_map, List.mem_filter, decide_eq_true_eq]
  constructor
  · rintro ⟨⟨k, r⟩, ⟨hp, hc⟩, rfl⟩
    exact ⟨r, dget_of_mem hd.1 hp, hc⟩
  · rintro ⟨r, hr, hc⟩
    exact ⟨(u, r), ⟨mem_of_dget hr, hc⟩, rfl⟩

theorem urisOf_nodup {d : Dict Resource} (hd : WF d) (c : Option Str) : (urisOf d c).Nodup :=
  (List.Sublist.map _ List.filter_sublist).nodup hd.1

theorem mem_capUris {d : Dict Resource} (hd : WF d) {u : Str} : u ∈ capUris d ↔ u ∈ dkeys d := by
  rw [capUris_eq, List.mem_flatMap]
  constructor
  · rintro ⟨c, -, hu⟩
    obtain ⟨r, hr, -⟩ := (mem_urisOf hd).mp (mem_sortStr.mp hu)
    exact (dget_isSome_iff _ _).mp (by rw [hr]; rfl)
  · intro hu
    obtain ⟨r, hr⟩ := Option.isSome_iff_exists.mp ((dget_isSome_iff _ _).mpr hu)
    refine ⟨r.capability, ?_, mem_sortStr.mpr ((mem_urisOf hd).mpr ⟨r, hr, rfl⟩)⟩
    unfold capSequence
    rw [List.mem_append]
    by_cases h : r.capability ∈ capOrder.map some
    · exact .inl h
    · refine .inr (List.mem_filter.mpr ⟨(mem_nub _ _).mpr ?_, by simpa using h⟩)
      exact List.mem_map_of_mem (f := fun p : Str × Resource => p.2.capability) (mem_of_dget hr)

theorem capIter_pairwise {d : Dict Resource} (hd : WF d) : (capIter d).Pairwise (CapBefore d) := by
  unfold capIter
  rw [List.pairwise_filterMap, capUris_eq, List.pairwise_flatMap]
  constructor
  · intro c _
    refine List.Pairwise.imp_of_mem ?_ (sortStr_strict (urisOf_nodup hd c))
    intro u v hu hv huv a ha b hb
    obtain ⟨a', ha', hca⟩ := (mem_urisOf hd).mp (mem_sortStr.mp hu)
    obtain ⟨b', hb', hcb⟩ := (mem_urisOf hd).mp (mem_sortStr.mp hv)
    rw [ha'] at ha; rw [hb'] at hb
    cases ha; cases hb
    refine .inr (.inl ⟨hca.trans hcb.symm, ?_⟩)
    rw [hd.2 _ _ ha', hd.2 _ _ hb']
    exact huv
  · refine (capSequence_pairwise d).imp ?_
    intro c c' hcc u hu v hv a ha b hb
    obtain ⟨a', ha', hca⟩ := (mem_urisOf hd).mp (mem_sortStr.mp hu)
    obtain ⟨b', hb', hcb⟩ := (mem_urisOf hd).mp (mem_sortStr.mp hv)
    rw [ha'] at ha; rw [hb'] at hb
    cases ha; cases hb
    subst hca; subst hcb
    rcases hcc.2 with h | h
    · exact .inl h
    · exact .inr (.inr ⟨hcc.1, h⟩)

/-- C63.  Iterating gives exactly the entries ... -/
theorem C63_every_entry {d : Dict Resource} (hd : WF d) (r : Resource) :
    r ∈ capIter d ↔ dget d r.uri = some r := by
  unfold capIter
  rw [List.mem_filterMap]
  constructor
  · rintro ⟨k, -, hk⟩; rw [hd.2 k r hk]; exact hk
  · intro h
    exact ⟨r.uri, (mem_capUris hd).mpr ((dget_isSome_iff _ _).mp (by rw [h]; rfl)), h⟩

/-- C63.  ... each once ... -/
theorem C63_once {d : Dict Resource} (hd : WF d) : ((capIter d).map (·.uri)).Nodup := by
  rw [List.Nodup, List.pairwise_map]
  refine List.Pairwise.imp_of_mem ?_ (capIter_pairwise hd)
  intro a b ha hb h e
  have h1 := (C63_every_entry hd a).mp ha
  have h2 := (C63_every_entry hd b).mp hb
  rw [e, h2] at h1
  cases h1
  rcases h with h | ⟨-, h⟩ | ⟨h, -⟩
  · exact absurd h (Nat.lt_irrefl _)
  · exact lt_irrefl _ h
  · exact h rfl

/-- C63.  ... with the capabilities of the specification first, in its order, URI order within one capability, and the
other capabilities grouped after them.  Missing from the full statement: these other groups come in the order their first
entries were added, not alphabetically (next theorem). -/
theorem C63_order_partial {d : Dict Resource} (hd : WF d) : (capIter d).Pairwise (CapBefore d) := capIter_pairwise hd

def exCaps : Dict Resource :=
  [("u5".toList, { uri := "u5".toList, capability := some "zeta".toList }),
   ("u4".toList, { uri := "u4".toList, capability := some "changelist".toList }),
   ("u3".toList, { uri := "u3".toList, capability := some "alpha".toList }),
   ("u2".toList, { uri := "u2".toList, capability := some "resourcelist".toList }),
   ("u1".toList, { uri := "u1".toList, capability := some "changelist".toList })]

theorem exCaps_wf : WF exCaps := by
  refine ⟨by decide, ?_⟩
  intro k r h
  have := mem_of_dget h
  simp only [exCaps, List.mem_cons, List.not_mem_nil, or_false, Prod.mk.injEq] at this
  rcases this with ⟨rfl, rfl⟩ | ⟨rfl, rfl⟩ | ⟨rfl, rfl⟩ | ⟨rfl, rfl⟩ | ⟨rfl, rfl⟩ <;> rfl

/-- C63 fails for capabilities outside the specification's list: zeta, added first, comes before alpha, and a list with the same entries added in
another order iterates differently. -/
theorem C63_violated : WF exCaps ∧
    (capIter exCaps).map (·.uri) = ["u2".toList, "u1".toList, "u4".toList, "u5".toList, "u3".toList] ∧
    (capIter exCaps.reverse).map (·.uri) = ["u2".toList, "u1".toList, "u4".toList, "u3".toList, "u5".toList] :=
  ⟨exCaps_wf, by decide, by decide⟩

theorem capIter_find {d : Dict Resource} (hd : WF d) (c : Option Str) (r : Resource) :
    capabilityInfo d c = some r ↔ (dget d r.uri = some r ∧ r.capability = c ∧
      ∀ r', dget d r'.uri = some r' → r'.capability = c → r.uri ≤ r'.uri) := by
  unfold capabilityInfo
  constructor
  · intro h
    have hc : r.capability = c := by simpa using List.find?_some h
    have hm := List.mem_of_find?_eq_some h
    refine ⟨(C63_every_entry hd r).mp hm, hc, ?_⟩
    intro r' hr' hc'
    rw [List.find?_eq_some_iff_append] at h
    obtain ⟨-, as, bs, e, h3⟩ := h
    have hm' := (C63_every_entry hd r').mpr hr'
    have hp := capIter_pairwise hd
    rw [e] at hm' hp
    rcases List.mem_append.mp hm' with h1 | h1
    · exact absurd (h3 _ h1) (by simp [hc'])
    · rcases List.mem_cons.mp h1 with rfl | h1
      · exact le_refl _
      · have := (List.pairwise_cons.mp (List.pairwise_append.mp hp).2.1).1 r' h1
        rcases this with h | ⟨-, h⟩ | ⟨h, -⟩
        · rw [hc, hc'] at h; exact absurd h (Nat.lt_irrefl _)
        · exact le_of_lt h
        · exact absurd (hc.trans hc'.symm) h
  · rintro ⟨h1, h2, h3⟩
    have hm := (C63_every_entry hd r).mpr h1
    cases hf : (capIter d).find? (fun r => r.capability == c) with
    | none =>
      rw [List.find?_eq_none] at hf
      exact absurd (hf r hm) (by simp [h2])
    | some x =>
      have hc : x.capability = c := by simpa using List.find?_some hf
      have hx := (C63_every_entry hd x).mp (List.mem_of_find?_eq_some hf)
      have hle := h3 x hx hc
      -- x is found before r, so x.uri ≤ r.uri
      rw [List.find?_eq_some_iff_append] at hf
      obtain ⟨-, as, bs, e, h4⟩ := hf
      have hp := capIter_pairwise hd
      rw [e] at hm hp
      rcases List.mem_append.mp hm with h | h
      · exact absurd (h4 _ h) (by simp [h2])
      · rcases List.mem_cons.mp h with rfl | h
        · rfl
        · have := (List.pairwise_cons.mp (List.pairwise_append.mp hp).2.1).1 r h
          rcases this with h | ⟨-, h⟩ | ⟨h, -⟩
          · rw [hc, h2] at h; exact absurd h (Nat.lt_irrefl _)
          · exact absurd h (not_lt.mpr hle)
          · exact absurd (hc.trans h2.symm) h

/-- C63.  capability_info gives the entry with the least URI among those with the capability asked for, and None exactly
when there is none. -/
theorem C63_info {d : Dict Resource} (hd : WF d) (c : Option Str) (r : Resource) :
    capabilityInfo d c = some r ↔ (dget d r.uri = some r ∧ r.capability = c ∧
      ∀ r', dget d r'.uri = some r' → r'.capability = c → r.uri ≤ r'.uri) := capIter_find hd c r

theorem C63_info_none {d : Dict Resource} (hd : WF d) (c : Option Str) :
    hasCapability d c = false ↔ ∀ r, dget d r.uri = some r → r.capability ≠ c := by
  unfold hasCapability capabilityInfo
  rw [Option.isSome_eq_false_iff, Option.isNone_iff_eq_none, List.find?_eq_none]
  simp only [beq_iff_eq]
  constructor
  · intro h r hr; exact h r ((C63_every_entry hd r).mpr hr)
  · intro h r hr; exact h r ((C63_every_entry hd r).mp hr)

example : (capabilityInfo exCaps (some "changelist".toList)).map (·.uri) = some "u1".toList ∧
    hasCapability exCaps (some "changedump".toList) = false := by decide

end Resync
