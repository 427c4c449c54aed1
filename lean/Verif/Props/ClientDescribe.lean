import Verif.Props.ClientChanges
import Verif.Props.CapabilityList
/-
C75: the capability list and the source description that write_capability_list and write_source_description write.
-/

namespace Resync
open Py Resync.Spec

/-- what an entry of these documents says: a URI and the capability found there -/
def announces (r : Resource) : Str × Option Str := (r.uri, r.capability)

theorem addCapabilities_ok (caps : Dict Str) : ∀ (d : Dict Resource), WF d → (∀ p ∈ caps, dget d p.2 = none) →
    (caps.map (·.2)).Nodup → ∃ d', addCapabilities d caps = .ok d' ∧ WF d' ∧
      ∀ u r, dget d' u = some r ↔ dget d u = some r ∨ ∃ n, (n, u) ∈ caps ∧ r = { uri := u, capability := some n } := by
  induction caps with
  | nil => intro d hd _ _; exact ⟨d, rfl, hd, by simp⟩
  | cons p t ih =>
    intro d hd hnone hn
    obtain ⟨name, uri⟩ := p
    rw [List.map_cons, List.nodup_cons] at hn
    have h0 : dget d uri = none := hnone (name, uri) List.mem_cons_self
    obtain ⟨d', h1, h2, h3⟩ := ih (dset d uri { uri := uri, capability := some name })
      (WF_dset hd { uri := uri, capability := some name }) (by
        intro p hp
        rw [dget_dset, if_neg (by intro e; exact hn.1 (List.mem_map.mpr ⟨p, hp, e.symm⟩))]
        exact hnone p (List.mem_cons_of_mem _ hp)) hn.2
    refine ⟨d', ?_, h2, ?_⟩
    · simp only [addCapabilities, addCapability, dictAdd, h0, Option.isSome_none, Bool.false_eq_true, false_and, if_false]
      exact h1
    · intro u r
      rw [h3, dget_dset]
      by_cases e : uri = u
      · subst e
        rw [if_pos rfl, h0]
        constructor
        · rintro (h | ⟨n, h, e⟩)
          · cases h; exact .inr ⟨name, List.mem_cons_self, rfl⟩
          · exact .inr ⟨n, List.mem_cons_of_mem _ h, e⟩
        · rintro (h | ⟨n, h, e⟩)
          · cases h
          · rcases List.mem_cons.mp h with h | h
            · cases h; exact .inl (congrArg some e.symm)
            · exact .inr ⟨n, h, e⟩
      · rw [if_neg e]
        constructor
        · rintro (h | ⟨n, h, e⟩)
          · exact .inl h
          · exact .inr ⟨n, List.mem_cons_of_mem _ h, e⟩
        · rintro (h | ⟨n, h, e'⟩)
          · exact .inl h
          · rcases List.mem_cons.mp h with h | h
            · cases h; exact absurd rfl e
            · exact .inr ⟨n, h, e'⟩

theorem addCapabilities_dupe (caps : Dict Str) : ∀ (d : Dict Resource),
    (¬ (caps.map (·.2)).Nodup ∨ ∃ p ∈ caps, (dget d p.2).isSome) → ∃ e, addCapabilities d caps = .error e := by
  induction caps with
  | nil => intro d h; simp at h
  | cons p t ih =>
    intro d h
    obtain ⟨name, uri⟩ := p
    by_cases h0 : (dget d uri).isSome
    · exact ⟨.dupe, by simp [addCapabilities, addCapability, dictAdd, h0]⟩
    · obtain ⟨e, he⟩ := ih (dset d uri { uri := uri, capability := some name }) (by
        rcases h with h | ⟨p, hp, h⟩
        · rw [List.map_cons, List.nodup_cons, not_and_or, not_not] at h
          rcases h with h | h
          · obtain ⟨p, hp, e⟩ := List.mem_map.mp h
            exact .inr ⟨p, hp, by simp only at e; rw [e, dget_dset_self]; rfl⟩
          · exact .inl h
        · rcases List.mem_cons.mp hp with rfl | hp
          · exact absurd h h0
          · refine .inr ⟨p, hp, ?_⟩
            rw [dget_dset]
            split
            · rfl
            · exact h)
      exact ⟨e, by simp [addCapabilities, addCapability, dictAdd, h0, he]⟩

theorem addCapabilityLists_eq (uris : List Str) : ∀ d, addCapabilityLists d uris =
    addCapabilities d (uris.map (fun u => ("capabilitylist".toList, u))) := by
  induction uris with
  | nil => intro d; rfl
  | cons u t ih =>
    intro d
    simp only [addCapabilityLists, List.map_cons, addCapabilities, addCapabilityList, addCapability]
    cases dictAdd d { uri := u, capability := some "capabilitylist".toList } false with
    | error e => rfl
    | ok d' => exact ih d'

theorem announced_ok (u n : Str) (hu : u ≠ [] ∧ XmlOk u ∧ '\r' ∉ u) (hn : XmlOk n) :
    ResOk { uri := u, capability := some n } :=
  { plainRes_ok u hu.1 hu.2.1 hu.2.2 with
    capability := by intro v hv; cases hv; exact hn }

theorem capabilityMd_ok (cap : Str) (h : XmlOk cap) : MdOk (mdAttKeys {}) (defaultCapability [] (some cap)) := by
  show MdOk _ [(kCapability, cap)]
  refine ⟨by simp [dkeys], ?_, ?_, .inl ?_, ?_⟩
  · intro k hk
    simp only [dkeys, List.map_cons, List.map_nil, List.mem_singleton] at hk
    subst hk; decide
  · intro k v hv
    simp only [dget] at hv
    split at hv
    · cases hv; exact h
    · cases hv
  · have : kCapability ≠ "change".toList := by decide
    simp only [dget]
    rw [if_neg this]
  · intro v hv
    have : kCapability ≠ "length".toList := by decide
    simp only [dget] at hv
    rw [if_neg this] at hv
    cases hv

/-- C75 (capability list).  For capabilities with different URIs, write_capability_list succeeds; reading the document as
a capability list gives exactly the given names, each at its URI, in the order of the specification, and the given links.
Without an output file the same document is printed. -/
theorem C75_capability_list (caps : Dict Str) (hdist : (caps.map (·.2)).Nodup)
    (hchars : ∀ n u, (n, u) ∈ caps → (u ≠ [] ∧ XmlOk u ∧ '\r' ∉ u) ∧ XmlOk n)
    (links : Option (List Link)) (hln : ∀ x ∈ links.getD [], LinkOk x) (f : Str) (before : Str → Option FileState) :
    (writeCapabilityList (some caps) (some f) links).2 = .ok () ∧
    ∃ raw doc c n, (writeCapabilityList (some caps) none links) = ({ printed := some raw }, .ok ()) ∧ reparse raw = some doc ∧
      fileDoc (runFs before (writeCapabilityList (some caps) (some f) links).1.files f) = some doc ∧
      parseXml {} listAdd { resources := [] } doc (some "capabilitylist".toList) none = .ok (c, false, n) ∧
      (∀ name uri, (uri, some name) ∈ c.resources.map announces ↔ (name, uri) ∈ caps) ∧
      c.resources.length = caps.length ∧
      c.resources.Pairwise (fun a b => capRank a.capability ≤ capRank b.capability) ∧
      SameLinks (links.getD []) c.ln := by
  obtain ⟨d, h1, h2, h3⟩ := addCapabilities_ok caps [] WF_nil (by intro p _; rfl) hdist
  have hmem : ∀ u r, dget d u = some r ↔ ∃ n, (n, u) ∈ caps ∧ r = { uri := u, capability := some n } := by
    intro u r; rw [h3]; simp [dget]
  obtain ⟨t, t', c, q1, q2, q3, q4, -, q6⟩ := C34_round_trip_partial {} (defaultCapability [] (some "capabilitylist".toList))
    (links.getD []) (capIter d) false (capabilityMd_ok _ (by unfold XmlOk; decide)) hln (by
      intro r hr
      obtain ⟨n, hn, e⟩ := (hmem _ _).mp ((C63_every_entry h2 r).mp hr)
      obtain ⟨a, b⟩ := hchars _ _ hn
      rw [e]; exact announced_ok _ _ a b) (some "capabilitylist".toList) (by intro c hc; cases hc; rfl) none (.inl rfl)
  have hw : ∀ o, writeCapabilityList (some caps) o links = writeSingle "capabilitylist".toList (links.getD []) (capIter d) o := by
    intro o
    unfold writeCapabilityList
    rw [Option.getD_some, h1]
  have hw1 : writeCapabilityList (some caps) none links = ({ printed := some t }, .ok ()) := by
    rw [hw]; unfold writeSingle; simp only [q1]
  have hw2 : writeCapabilityList (some caps) (some f) links = ({ files := [.openW f, .finish f t] }, .ok ()) := by
    rw [hw]; unfold writeSingle; simp only [q1, writeDoc]
  have hann : c.resources.map announces = (capIter d).map announces :=
    forall₂_map_eq q4 (fun a b h => by unfold announces; rw [h.uri, h.capability])
  rw [hw2]
  refine ⟨rfl, t, t', c, _, hw1, q2, ?_, q3, ?_, ?_, ?_, q6⟩
  · simp only [runFs, if_true, fileDoc]; exact q2
  · intro name uri
    rw [hann]
    simp only [List.mem_map, announces, Prod.mk.injEq]
    constructor
    · rintro ⟨r, hr, e1, e2⟩
      obtain ⟨n, hn, e⟩ := (hmem _ _).mp ((C63_every_entry h2 r).mp hr)
      rw [e] at e2; cases e2
      rw [← e1]; exact hn
    · intro h
      exact ⟨{ uri := uri, capability := some name }, (C63_every_entry h2 _).mpr ((hmem _ _).mpr ⟨name, h, rfl⟩), rfl, rfl⟩
  · have hl := congrArg List.length hann
    rw [List.length_map, List.length_map] at hl
    rw [hl]
    have p1 : ((capIter d).map (·.uri)).Perm (caps.map (·.2)) := by
      refine (List.perm_ext_iff_of_nodup (C63_once h2) hdist).mpr ?_
      intro u
      simp only [List.mem_map]
      constructor
      · rintro ⟨r, hr, rfl⟩
        obtain ⟨n, hn, e⟩ := (hmem _ _).mp ((C63_every_entry h2 r).mp hr)
        exact ⟨_, hn, rfl⟩
      · rintro ⟨⟨n, u'⟩, hn, rfl⟩
        exact ⟨{ uri := u', capability := some n }, (C63_every_entry h2 _).mpr ((hmem _ _).mpr ⟨n, hn, rfl⟩), rfl⟩
    have := p1.length_eq
    simpa using this
  · have hp : (capIter d).Pairwise (fun a b => capRank a.capability ≤ capRank b.capability) := by
      refine (C63_order_partial h2).imp ?_
      intro a b h
      rcases h with h | ⟨h, -⟩ | ⟨-, h, h', -⟩
      · exact Nat.le_of_lt h
      · rw [h]
      · rw [h, h']
    have e1 : (c.resources.map announces).Pairwise (fun a b => capRank a.2 ≤ capRank b.2) := by
      rw [hann, List.pairwise_map]; exact hp
    rw [List.pairwise_map] at e1
    exact e1

/-- C75 (capability list).  Two capabilities with one URI are refused; nothing is written or printed. -/
theorem C75_capability_list_refused (caps : Dict Str) (h : ¬ (caps.map (·.2)).Nodup) (outfile : Option Str)
    (links : Option (List Link)) : ∃ e, writeCapabilityList (some caps) outfile links = ({}, .error e) := by
  obtain ⟨e, he⟩ := addCapabilities_dupe caps [] (.inl h)
  exact ⟨.list e, by unfold writeCapabilityList; rw [Option.getD_some, he]⟩

theorem description_dict (uris : List Str) (hdist : uris.Nodup) : ∃ d, addCapabilityLists [] uris = .ok d ∧ WF d ∧
    (∀ u r, dget d u = some r ↔ u ∈ uris ∧ r = { uri := u, capability := some "capabilitylist".toList }) ∧
    ((listing d).map (·.uri)).Perm uris := by
  obtain ⟨d, h1, h2, h3⟩ := addCapabilities_ok (uris.map (fun u => ("capabilitylist".toList, u))) [] WF_nil (by intro p _; rfl)
    (by rw [List.map_map]; simpa [Function.comp_def] using hdist)
  rw [← addCapabilityLists_eq] at h1
  have hmem : ∀ u r, dget d u = some r ↔ u ∈ uris ∧ r = { uri := u, capability := some "capabilitylist".toList } := by
    intro u r; rw [h3]; simp [dget]
  have hperm : ((listing d).map (·.uri)).Perm uris := by
    refine (List.perm_ext_iff_of_nodup ?_ hdist).mpr ?_
    · rw [listing_uris h2]; exact (sortStr_perm _).nodup_iff.mpr h2.1
    · intro u
      simp only [List.mem_map]
      constructor
      · rintro ⟨r, hr, rfl⟩
        exact ((hmem _ _).mp ((mem_listing h2).mp hr)).1
      · intro hu
        exact ⟨{ uri := u, capability := some "capabilitylist".toList }, (mem_listing h2).mpr ((hmem _ _).mpr ⟨hu, rfl⟩), rfl⟩
  exact ⟨d, h1, h2, hmem, hperm⟩

/-- C75 (source description).  For different URIs (up to 50000; see the next theorem), write_source_description succeeds;
reading the document as a source description gives exactly the given capability lists, in the order of their URIs, and the
given links.  Without an output file the same document is printed. -/
theorem C75_source_description_partial (env : WriteEnv) (uris : List Str) (hdist : uris.Nodup) (hlen : uris.length ≤ 50000)
    (hchars : ∀ u ∈ uris, u ≠ [] ∧ XmlOk u ∧ '\r' ∉ u)
    (links : Option (List Link)) (hln : ∀ x ∈ links.getD [], LinkOk x) (f : Str) (before : Str → Option FileState) :
    (writeSourceDescription env (some uris) (some f) links).2 = .ok () ∧
    ∃ raw doc c n, (writeSourceDescription env (some uris) none links) = ({ printed := some raw }, .ok ()) ∧
      reparse raw = some doc ∧
      fileDoc (runFs before (writeSourceDescription env (some uris) (some f) links).1.files f) = some doc ∧
      parseXml {} listAdd { resources := [] } doc (some "description".toList) none = .ok (c, false, n) ∧
      (c.resources.map (·.uri)).Perm uris ∧ c.resources.Pairwise (fun a b => a.uri < b.uri) ∧
      (∀ r ∈ c.resources, r.capability = some "capabilitylist".toList) ∧
      SameLinks (links.getD []) c.ln := by
  obtain ⟨d, h1, h2, hmem, hperm⟩ := description_dict uris hdist
  have hlen' : (listing d).length ≤ 50000 := by
    have := hperm.length_eq
    rw [List.length_map] at this
    omega
  obtain ⟨t, t', c, q1, q2, q3, q4, -, q6⟩ := C34_round_trip_partial {} (defaultCapability [] (some "description".toList))
    (links.getD []) (listing d) false (capabilityMd_ok _ (by unfold XmlOk; decide)) hln (by
      intro r hr
      obtain ⟨hu, e⟩ := (hmem _ _).mp ((mem_listing h2).mp hr)
      rw [e]; exact announced_ok _ _ (hchars _ hu) (by unfold XmlOk; decide))
    (some "description".toList) (by intro c hc; cases hc; rfl) none (.inl rfl)
  have hw1 : writeSourceDescription env (some uris) none links = ({ printed := some t }, .ok ()) := by
    unfold writeSourceDescription
    rw [Option.getD_some, h1]
    simp only [iterAll_listing, LBI.print, LBI.asXml]
    have hm : LBI.requiresMultifile { resources := listing d, ln := links.getD [], capability_name := some "description".toList } =
        .ok none := by
      unfold LBI.requiresMultifile
      simp only
      rw [if_pos (by exact hlen')]
    rw [hm]
    simp only [ebind_ok, q1]
  have hw2 : writeSourceDescription env (some uris) (some f) links = ({ files := [.openW f, .finish f t] }, .ok ()) := by
    unfold writeSourceDescription
    rw [Option.getD_some, h1]
    simp only [iterAll_listing, LBI.writeTo]
    rw [write_single _ env.stat f 50000 rfl (by simpa using hlen')]
    simp only [q1, writeDoc]
  have hann : c.resources.map announces = (listing d).map announces :=
    forall₂_map_eq q4 (fun a b h => by unfold announces; rw [h.uri, h.capability])
  have huri : c.resources.map (·.uri) = (listing d).map (·.uri) := forall₂_map_eq q4 (fun a b h => h.uri)
  rw [hw2]
  refine ⟨rfl, t, t', c, _, hw1, q2, ?_, q3, huri ▸ hperm, ?_, ?_, q6⟩
  · simp only [runFs, if_true, fileDoc]; exact q2
  · have := listing_sorted h2
    rw [← List.pairwise_map (f := fun r : Resource => r.uri) (R := (· < ·))] at this ⊢
    rw [huri]; exact this
  · intro r hr
    obtain ⟨a, ha, hrec⟩ := (forall₂_mem q4).1 r hr
    rw [hrec.capability, ((hmem _ _).mp ((mem_listing h2).mp ha)).2]

/-- C75 (source description).  A URI given twice is refused; nothing is written or printed. -/
theorem C75_source_description_refused (env : WriteEnv) (uris : List Str) (h : ¬ uris.Nodup) (outfile : Option Str)
    (links : Option (List Link)) : ∃ e, writeSourceDescription env (some uris) outfile links = ({}, .error e) := by
  obtain ⟨e, he⟩ := addCapabilities_dupe (uris.map (fun u => ("capabilitylist".toList, u))) []
    (.inl (by rw [List.map_map]; simpa [Function.comp_def] using h))
  exact ⟨.list e, by unfold writeSourceDescription; rw [Option.getD_some, addCapabilityLists_eq, he]⟩

/-- C75 is violated for a source description that needs more than one document: it cannot be written at all, although the
class allows an index (the description has no mapper to name the parts with). -/
theorem C75_violated (env : WriteEnv) (uris : List Str) (hdist : uris.Nodup) (hlen : 50000 < uris.length) (f : Str)
    (links : Option (List Link)) : ∃ e, writeSourceDescription env (some uris) (some f) links = ({}, .error e) := by
  obtain ⟨d, h1, h2, -, hperm⟩ := description_dict uris hdist
  have hlen' : 50000 < (listing d).length := by
    have := hperm.length_eq
    rw [List.length_map] at this
    omega
  refine ⟨.lb .attr, ?_⟩
  unfold writeSourceDescription
  rw [Option.getD_some, h1]
  simp only [iterAll_listing, LBI.writeTo]
  rw [write_multi _ env.stat f 50000 rfl (by simpa using hlen')]
  rfl

namespace DescribeExample

def caps : Dict Str :=
  [("changelist".toList, "http://h/cl.xml".toList), ("extra".toList, "http://h/x.xml".toList),
   ("resourcelist".toList, "http://h/rl.xml".toList)]

def up : Link := [("rel".toList, "up".toList), ("href".toList, "http://h/.well-known/resourcesync".toList)]

theorem up_ok : LinkOk up where
  keys_nodup := by decide
  keys := by decide
  href := by decide
  rel := by decide
  chars := by
    intro k v h
    have := Py.mem_of_dget h
    simp only [up, List.mem_cons, Prod.mk.injEq, List.not_mem_nil, or_false] at this
    rcases this with ⟨-, rfl⟩ | ⟨-, rfl⟩ <;> (unfold XmlOk; decide)
  length := by intro v h; rw [show dget up "length".toList = none by decide] at h; cases h
  pri := by intro v h; rw [show dget up "pri".toList = none by decide] at h; cases h

/-- the hypotheses of C75_capability_list hold for three capabilities given in another order than the specification's -/
example : (caps.map (·.2)).Nodup ∧ (∀ n u, (n, u) ∈ caps → (u ≠ [] ∧ XmlOk u ∧ '\r' ∉ u) ∧ XmlOk n) ∧
    ∀ x ∈ (some [up]).getD [], LinkOk x := by
  refine ⟨by decide, ?_, ?_⟩
  · intro n u h
    simp only [caps, List.mem_cons, Prod.mk.injEq, List.not_mem_nil, or_false] at h
    rcases h with ⟨rfl, rfl⟩ | ⟨rfl, rfl⟩ | ⟨rfl, rfl⟩ <;>
      exact ⟨⟨by decide, by unfold XmlOk; decide, by decide⟩, by unfold XmlOk; decide⟩
  · intro x hx
    simp only [Option.getD_some, List.mem_singleton] at hx
    subst hx; exact up_ok

example : ¬ ((("other".toList, "http://h/cl.xml".toList) :: caps).map (·.2)).Nodup := by decide

/-- ... and those of C75_source_description_partial for two capability lists -/
example : ["http://h/b".toList, "http://h/a".toList].Nodup ∧
    ∀ u ∈ ["http://h/b".toList, "http://h/a".toList], u ≠ [] ∧ XmlOk u ∧ '\r' ∉ u := by
  refine ⟨by decide, ?_⟩
  intro u h
  simp only [List.mem_cons, List.not_mem_nil, or_false] at h
  rcases h with rfl | rfl <;> exact ⟨by decide, by unfold XmlOk; decide, by decide⟩

/-- ... and those of C75_violated -/
example : ((List.range 50001).map (fun n => List.replicate n 'a')).Nodup ∧
    50000 < ((List.range 50001).map (fun n => List.replicate n 'a')).length := by
  refine ⟨List.Nodup.map ?_ List.nodup_range, by rw [List.length_map, List.length_range]; omega⟩
  intro a b h
  have := congrArg List.length h
  simpa using this

end DescribeExample

end Resync
