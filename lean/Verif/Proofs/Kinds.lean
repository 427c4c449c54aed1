import Verif.Model.Kinds
import Verif.Proofs.ListRead
import Verif.Props.CapabilityList
import Verif.Props.Sitemap
/-
Lemmas for C84: entries of the classes of documents.
-/

namespace Resync
open Py Resync.Spec

theorem dset_fresh {α : Type} (d : Dict α) (k : Str) (v : α) (h : dget d k = none) : dset d k v = d ++ [(k, v)] := by
  induction d with
  | nil => rfl
  | cons p t ih =>
    obtain ⟨k', v'⟩ := p
    by_cases hk : k' = k
    · subst hk; simp [dget] at h
    · have h' : dget t k = none := by simpa [dget, hk] using h
      simp [dset, hk, ih h']

theorem addAll_eq (rs : List Resource) : ∀ (d : Dict Resource), (rs.map (·.uri)).Nodup → (∀ r ∈ rs, dget d r.uri = none) →
    addAll d rs = d ++ rs.map (fun r => (r.uri, r)) := by
  induction rs with
  | nil => intro d _ _; simp [addAll]
  | cons r t ih =>
    intro d hn hf
    rw [List.map_cons, List.nodup_cons] at hn
    show addAll (dset d r.uri r) t = _
    rw [ih _ hn.2, dset_fresh _ _ _ (hf r (by simp))]
    · simp
    · intro x hx
      rw [dget_dset_ne]
      · exact hf x (by simp [hx])
      · intro h; exact hn.1 (h ▸ List.mem_map_of_mem hx)

theorem foldlM_rlAdd_inv (rs : List Resource) : ∀ (d d' : Dict Resource), rs.foldlM rlAdd d = .ok d' →
    (rs.map (·.uri)).Nodup ∧ ∀ r ∈ rs, dget d r.uri = none := by
  induction rs with
  | nil => intro d d' _; simp
  | cons r t ih =>
    intro d d' h
    rw [List.foldlM_cons] at h
    cases h1 : rlAdd d r with
    | error e => rw [h1] at h; cases h
    | ok d1 =>
      rw [h1, ebind_ok] at h
      have hr : dget d r.uri = none ∧ d1 = dset d r.uri r := by
        unfold rlAdd dictAdd at h1
        cases hd : dget d r.uri with
        | none => simp [hd] at h1; exact ⟨rfl, h1.symm⟩
        | some x => simp [hd] at h1
      obtain ⟨hr, rfl⟩ := hr
      obtain ⟨i1, i2⟩ := ih _ _ h
      have hne : ∀ x ∈ t, x.uri ≠ r.uri := by
        intro x hx e
        have := i2 x hx
        rw [e, dget_dset_self] at this
        cases this
      refine ⟨?_, ?_⟩
      · rw [List.map_cons, List.nodup_cons]
        refine ⟨?_, i1⟩
        intro hm
        obtain ⟨x, hx, e⟩ := List.mem_map.mp hm
        exact hne x hx e
      · intro x hx
        rcases List.mem_cons.mp hx with rfl | hx
        · exact hr
        · have := i2 x hx
          rwa [dget_dset_ne _ _ (Ne.symm (hne x hx))] at this

theorem foldlM_dict (k : Kind) (rs : List Resource) : ∀ (d : Dict Resource),
    rs.foldlM k.addTo (.dict d) = (rs.foldlM rlAdd d).map Entries.dict := by
  induction rs with
  | nil => intro d; rfl
  | cons r t ih =>
    intro d
    rw [List.foldlM_cons, List.foldlM_cons]
    simp only [Kind.addTo]
    cases rlAdd d r with
    | error e => rfl
    | ok d1 => simp only [ebind_ok]; exact ih d1

theorem foldlM_list (k : Kind) (rs : List Resource) : ∀ (l : List Resource) (e : Entries),
    rs.foldlM k.addTo (.list l) = .ok e ↔ e = .list (l ++ rs) ∧ (k.isChangeList = true → ∀ r ∈ rs, r.change.isSome) := by
  induction rs with
  | nil =>
    intro l e
    simp only [List.foldlM_nil, epure, Except.ok.injEq, List.append_nil]
    constructor
    · intro h; exact ⟨h.symm, by simp⟩
    · intro h; exact h.1.symm
  | cons r t ih =>
    intro l e
    rw [List.foldlM_cons]
    simp only [Kind.addTo, clAdd, listAdd]
    cases hk : k.isChangeList with
    | false =>
      simp only [Bool.false_eq_true, if_false, ebind_ok]
      rw [ih]
      simp [hk]
    | true =>
      simp only [if_true]
      cases hc : r.change with
      | none =>
        simp [hc, ebind_err]
      | some c =>
        simp only [Option.isSome_some, if_true, ebind_ok]
        rw [ih]
        simp [hk, hc]

theorem WF_addAll {rs : List Resource} (hn : (rs.map (·.uri)).Nodup) : WF (addAll [] rs) := by
  constructor
  · rw [dkeys_addAll rs [] hn (by intro r _; rfl)]; simpa [dkeys] using hn
  · intro k r h
    rcases (dget_addAll rs [] hn (by intro r _; rfl) k r).mp h with h | h
    · cases h
    · exact h.2

theorem mem_addAll {rs : List Resource} (hn : (rs.map (·.uri)).Nodup) (r : Resource) :
    dget (addAll [] rs) r.uri = some r ↔ r ∈ rs := by
  rw [dget_addAll rs [] hn (by intro r _; rfl)]
  simp [dget]

theorem listing_addAll_perm {rs : List Resource} (hn : (rs.map (·.uri)).Nodup) : (listing (addAll [] rs)).Perm rs := by
  have hw := WF_addAll hn
  rw [List.perm_ext_iff_of_nodup]
  · intro r; rw [mem_listing hw, mem_addAll hn]
  · exact (listing_sorted hw).imp (fun h e => by rw [e] at h; exact absurd h (lt_irrefl _))
  · exact hn.of_map _

theorem capIter_addAll_perm {rs : List Resource} (hn : (rs.map (·.uri)).Nodup) : (capIter (addAll [] rs)).Perm rs := by
  have hw := WF_addAll hn
  rw [List.perm_ext_iff_of_nodup]
  · intro r; rw [C63_every_entry hw, mem_addAll hn]
  · exact (C63_once hw).of_map _
  · exact hn.of_map _

/-- a list in the order of URIs, put into a dictionary, is iterated in its own order -/
theorem listing_sorted_eq {rs : List Resource} (hs : rs.Pairwise (fun a b => a.uri < b.uri)) : listing (addAll [] rs) = rs := by
  have hn : (rs.map (·.uri)).Nodup := by
    rw [List.Nodup, List.pairwise_map]
    exact hs.imp (fun h e => by rw [e] at h; exact absurd h (lt_irrefl _))
  exact List.Perm.eq_of_pairwise (fun a b _ _ h1 h2 => absurd h2 (lt_asymm h1)) (listing_sorted (WF_addAll hn)) hs
    (listing_addAll_perm hn)

theorem CapBefore.asymm {d : Dict Resource} {a b : Resource} (h1 : CapBefore d a b) (h2 : CapBefore d b a) : False := by
  unfold CapBefore at h1 h2
  rcases h1 with h1 | ⟨h1, h1'⟩ | ⟨h1, h1a, h1b, h1'⟩ <;> rcases h2 with h2 | ⟨h2, h2'⟩ | ⟨h2, h2a, h2b, h2'⟩
  · omega
  · rw [h2] at h1; omega
  · omega
  · rw [h1] at h2; omega
  · exact lt_asymm h1' h2'
  · exact h2 h1.symm
  · omega
  · exact h1 h2.symm
  · omega

/-- a list in the order of some iteration of a capability set, put into a capability set, is iterated in its own order -/
theorem capIter_sorted_eq {d : Dict Resource} {rs : List Resource} (hn : (rs.map (·.uri)).Nodup) (hs : rs.Pairwise (CapBefore d)) :
    capIter (addAll [] rs) = rs := by
  have hcaps : capsOf (addAll [] rs) = rs.map (·.capability) := by
    rw [addAll_eq rs [] hn (by intro r _; rfl)]
    simp [capsOf]
  refine List.Perm.eq_of_pairwise (fun a b _ _ h1 h2 => (h1.asymm h2).elim) (capIter_pairwise (WF_addAll hn)) ?_ (capIter_addAll_perm hn)
  -- the first entry of a capability comes before that of another one exactly if all do
  rw [List.pairwise_iff_getElem] at hs ⊢
  intro i j hi hj hij
  rcases hs i j hi hj hij with h | h | ⟨h1, h2, h3, h4⟩
  · exact .inl h
  · exact .inr (.inl h)
  · refine .inr (.inr ⟨h1, h2, h3, ?_⟩)
    rw [hcaps]
    have hmi : rs[i].capability ∈ rs.map (·.capability) := List.mem_map_of_mem (List.getElem_mem hi)
    have hmj : rs[j].capability ∈ rs.map (·.capability) := List.mem_map_of_mem (List.getElem_mem hj)
    have li := List.idxOf_lt_length_iff.mpr hmi
    have lj := List.idxOf_lt_length_iff.mpr hmj
    have ei := List.getElem_idxOf li
    have ej := List.getElem_idxOf lj
    rw [List.getElem_map] at ei ej
    rw [List.length_map] at li lj
    by_contra hlt
    have hne : (rs.map (·.capability)).idxOf rs[j].capability ≠ (rs.map (·.capability)).idxOf rs[i].capability := by
      intro e
      apply h1
      rw [← ei, ← ej]
      simp only [e]
    have hlt' : (rs.map (·.capability)).idxOf rs[j].capability < (rs.map (·.capability)).idxOf rs[i].capability := by omega
    rcases hs _ _ lj li hlt' with h | h | ⟨g1, g2, g3, g4⟩
    · rw [ei, ej] at h; omega
    · rw [ei, ej] at h; exact h1 h.1.symm
    · rw [ei, ej] at g4; omega

/-! ### Reading into a dictionary inside `Entries` -/

def Cont.mapRes {σ τ : Type} (f : σ → τ) (c : Cont σ) : Cont τ := { resources := f c.resources, md := c.md, ln := c.ln }

def ParseSt.mapRes {σ τ : Type} (f : σ → τ) (st : ParseSt σ) : ParseSt τ :=
  { cont := st.cont.mapRes f, in_preamble := st.in_preamble, seen_md := st.seen_md, created := st.created }

theorem parseStep_mapRes {σ τ : Type} (f : σ → τ) {s : Sitemap} {add : σ → Resource → Except SmErr σ}
    {add' : τ → Resource → Except SmErr τ} (hadd : ∀ x r, add' (f x) r = (add x r).map f) (tag : Str) (st : ParseSt σ) (e : Elem) :
    parseStep s add' tag (st.mapRes f) e = (parseStep s add tag st e).map (ParseSt.mapRes f) := by
  unfold parseStep
  split
  · cases resourceFromEtree s e with
    | error x => rfl
    | ok r =>
      simp only [ebind_ok, ParseSt.mapRes, Cont.mapRes, hadd]
      cases add st.cont.resources r <;> rfl
  · split
    · have h1 : (st.mapRes f).in_preamble = st.in_preamble := rfl
      have h2 : (st.mapRes f).seen_md = st.seen_md := rfl
      rw [h1, h2]
      split
      · split
        · rfl
        · cases mdFromEtree s e <;> rfl
      · rfl
    · split
      · have h1 : (st.mapRes f).in_preamble = st.in_preamble := rfl
        rw [h1]
        split
        · cases lnFromEtree e <;> rfl
        · rfl
      · rfl

theorem parseLoop_mapRes {σ τ : Type} (f : σ → τ) {s : Sitemap} {add : σ → Resource → Except SmErr σ}
    {add' : τ → Resource → Except SmErr τ} (hadd : ∀ x r, add' (f x) r = (add x r).map f) (tag : Str) (es : List Elem) :
    ∀ st : ParseSt σ, parseLoop s add' tag es (st.mapRes f) = (parseLoop s add tag es st).map (ParseSt.mapRes f) := by
  induction es with
  | nil => intro st; rfl
  | cons e t ih =>
    intro st
    simp only [parseLoop, parseStep_mapRes f hadd]
    cases parseStep s add tag st e with
    | error x => rfl
    | ok st1 => exact ih st1

theorem parseXml_mapRes {σ τ : Type} (f : σ → τ) {s : Sitemap} {add : σ → Resource → Except SmErr σ}
    {add' : τ → Resource → Except SmErr τ} (hadd : ∀ x r, add' (f x) r = (add x r).map f) (c : Cont σ) (root : Elem)
    (cap : Option Str) (want : Option Bool) :
    parseXml s add' (c.mapRes f) root cap want = (parseXml s add c root cap want).map (fun x => (x.1.mapRes f, x.2)) := by
  unfold parseXml
  cases rootKind root want with
  | error x => rfl
  | ok i =>
    simp only [ebind_ok]
    have := parseLoop_mapRes f hadd (s := s) (if i then smTag "sitemap" else smTag "url") root.children { cont := c }
    have e : ({ cont := c } : ParseSt σ).mapRes f = { cont := c.mapRes f } := rfl
    rw [e] at this
    rw [this]
    cases parseLoop s add (if i then smTag "sitemap" else smTag "url") root.children { cont := c } with
    | error x => rfl
    | ok st =>
      have h : (st.mapRes f).cont.md = st.cont.md := rfl
      simp only [Except.map, ebind_ok, h]
      cases checkCapability cap st.cont.md <;> rfl

/-- reading into a list kept in a ResourceListDict is what `Model/ListIndex` says of resource lists -/
theorem read_resourceList {k : Kind} (hk : k.isResourceList = true) (s : Sitemap) (docAt : Str → Option Elem) (uw : Char → Bool)
    (uri : Str) {c : Cont (Dict Resource)}
    (h : readList { sitemap := s, capability_name := some k.capability, uw := uw, docAt := docAt } { resources := [] } uri = .ok c) :
    (k.new s [] none none).read docAt uw uri =
      .ok { (k.new s [] none none) with entries := .dict c.resources, md := c.md, ln := c.ln } := by
  have hne : (k.new s [] none none).kind ≠ .capabilityList := by
    intro e
    have : k = .capabilityList := e
    rw [this] at hk; cases hk
  have hno : (k.new s [] none none).entries = .dict [] := by cases k <;> first | rfl | cases hk
  have ham : (k.new s [] none none).allow_multifile = true := by unfold Kind.new; split <;> rfl
  unfold readList at h
  unfold DocList.read
  simp only at h
  cases hd : docAt uri with
  | none => rw [hd] at h; cases h
  | some root =>
    rw [hd] at h
    simp only at h ⊢
    rw [if_neg hne, hno]
    have hp := parseXml_mapRes Entries.dict (s := s) (add := rlAdd) (add' := k.addTo)
      (by intro x r; simp only [Kind.addTo]; cases rlAdd x r <;> rfl) { resources := [] } root (some k.capability) none
    have hp' : parseXml (k.new s [] none none).sitemap (k.new s [] none none).kind.addTo
        { resources := Entries.dict [], md := (k.new s [] none none).md, ln := (k.new s [] none none).ln } root
        (some (k.new s [] none none).kind.capability) none = _ := hp
    rw [hp']
    cases hx : parseXml s rlAdd { resources := [] } root (some k.capability) none with
    | error e => rw [hx] at h; cases h
    | ok x =>
      obtain ⟨c1, idx, n⟩ := x
      rw [hx] at h
      simp only [liftSm, ebind_ok] at h
      cases idx with
      | false =>
        simp only [Bool.false_eq_true, if_false, epure, Except.ok.injEq] at h
        subst h
        rfl
      | true =>
        simp only [if_true, not_true, if_false, Bool.false_eq_true, bind_ok_iff, epure, Except.ok.injEq] at h
        obtain ⟨d, h1, rfl⟩ := h
        have hkind : (k.new s [] none none).kind.isResourceList = true := hk
        have hmp : (k.new s [] none none).mapper = none := rfl
        have hsm : (k.new s [] none none).sitemap = s := rfl
        simp only [Except.map, Cont.mapRes, ham, not_true, if_false, Bool.false_eq_true, hkind]
        have h1' : (dictUris c1.resources).foldlM (readComponent { sitemap := (k.new s [] none none).sitemap, capability_name := some (k.new s [] none none).kind.capability, mapper := (k.new s [] none none).mapper, uw := uw, docAt := docAt } uri (isFileUri uw uri)) [] = .ok d := h1
        rw [h1']

end Resync
