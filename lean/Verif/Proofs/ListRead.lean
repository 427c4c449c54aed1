import Verif.Proofs.ListIndex
import Mathlib.Data.List.Perm.Basic

namespace Resync
open Py Resync.Spec

/-! ### Adding to a resource list -/

def addAll (d : Dict Resource) (rs : List Resource) : Dict Resource := rs.foldl (fun d r => dset d r.uri r) d

theorem foldlM_rlAdd (rs : List Resource) : ∀ (d : Dict Resource), (rs.map (·.uri)).Nodup →
    (∀ r ∈ rs, dget d r.uri = none) → rs.foldlM rlAdd d = .ok (addAll d rs) := by
  induction rs with
  | nil => intro d _ _; rfl
  | cons r t ih =>
    intro d hn hf
    rw [List.map_cons, List.nodup_cons] at hn
    have h1 : rlAdd d r = .ok (dset d r.uri r) := by
      simp only [rlAdd, dictAdd_fresh false (hf r (by simp))]
    rw [List.foldlM_cons, h1, ebind_ok, ih _ hn.2]
    · rfl
    · intro x hx
      rw [dget_dset_ne]
      · exact hf x (by simp [hx])
      · intro h
        exact hn.1 (h ▸ List.mem_map_of_mem hx)

theorem dget_addAll (rs : List Resource) : ∀ (d : Dict Resource), (rs.map (·.uri)).Nodup →
    (∀ r ∈ rs, dget d r.uri = none) → ∀ u x, dget (addAll d rs) u = some x ↔
      dget d u = some x ∨ (x ∈ rs ∧ x.uri = u) := by
  induction rs with
  | nil => intro d _ _ u x; simp [addAll]
  | cons r t ih =>
    intro d hn hf u x
    rw [List.map_cons, List.nodup_cons] at hn
    have hft : ∀ y ∈ t, dget (dset d r.uri r) y.uri = none := by
      intro y hy
      rw [dget_dset_ne]
      · exact hf y (by simp [hy])
      · intro h; exact hn.1 (h ▸ List.mem_map_of_mem hy)
    have := ih (dset d r.uri r) hn.2 hft u x
    show dget (addAll (dset d r.uri r) t) u = some x ↔ _
    rw [this]
    by_cases hu : u = r.uri
    · subst hu
      rw [dget_dset_self, hf r (by simp)]
      constructor
      · rintro (h | h)
        · cases h; exact .inr ⟨by simp, rfl⟩
        · exact .inr ⟨by simp [h.1], h.2⟩
      · rintro (h | ⟨h, h'⟩)
        · cases h
        · rcases List.mem_cons.mp h with rfl | h
          · exact .inl rfl
          · exact .inr ⟨h, h'⟩
    · rw [dget_dset_ne _ _ (fun h => hu h.symm)]
      constructor
      · rintro (h | h)
        · exact .inl h
        · exact .inr ⟨by simp [h.1], h.2⟩
      · rintro (h | ⟨h, h'⟩)
        · exact .inl h
        · rcases List.mem_cons.mp h with rfl | h
          · exact absurd h'.symm hu
          · exact .inr ⟨h, h'⟩

theorem dkeys_addAll (rs : List Resource) : ∀ (d : Dict Resource), (rs.map (·.uri)).Nodup →
    (∀ r ∈ rs, dget d r.uri = none) → dkeys (addAll d rs) = dkeys d ++ rs.map (·.uri) := by
  induction rs with
  | nil => intro d _ _; simp [addAll]
  | cons r t ih =>
    intro d hn hf
    rw [List.map_cons, List.nodup_cons] at hn
    have hft : ∀ y ∈ t, dget (dset d r.uri r) y.uri = none := by
      intro y hy
      rw [dget_dset_ne]
      · exact hf y (by simp [hy])
      · intro h; exact hn.1 (h ▸ List.mem_map_of_mem hy)
    show dkeys (addAll (dset d r.uri r) t) = _
    rw [ih _ hn.2 hft, dkeys_dset, if_neg ((dget_eq_none_iff _ _).mp (hf r (by simp)))]
    simp

theorem recorded_uris {v a : Bool} {rs rs' : List Resource} (h : List.Forall₂ (Recorded v a) rs rs') :
    rs'.map (·.uri) = rs.map (·.uri) := by
  induction h with
  | nil => rfl
  | cons h _ ih => simp [ih, h.uri]

/-! ### Links and entries that the format can express -/

theorem dkeys_dset_mem {d : Dict Str} {k v : Str} (h : k ∈ dkeys d) : dkeys (dset d k v) = dkeys d := by
  rw [dkeys_dset, if_pos h]

theorem setHref_ok {l : Link} (h : LinkOk l) {uri : Str} (hu : XmlOk uri) : LinkOk (dset l sHref uri) := by
  have hk : sHref ∈ dkeys l := (dget_isSome_iff _ _).mp h.href
  have hne : ∀ k : Str, k ≠ sHref → dget (dset l sHref uri) k = dget l k := fun k hk => dget_dset_ne _ _ (Ne.symm hk)
  refine ⟨?_, ?_, ?_, ?_, ?_, ?_, ?_⟩
  · rw [dkeys_dset_mem hk]; exact h.keys_nodup
  · rw [dkeys_dset_mem hk]; exact h.keys
  · show (dget (dset l sHref uri) sHref).isSome
    rw [dget_dset_self]; rfl
  · rw [hne _ (by decide)]; exact h.rel
  · intro k v hv
    by_cases hkk : k = sHref
    · rw [hkk, dget_dset_self] at hv; cases hv; exact hu
    · rw [hne k hkk] at hv; exact h.chars k v hv
  · intro v hv; rw [hne _ (by decide)] at hv; exact h.length v hv
  · intro v hv; rw [hne _ (by decide)] at hv; exact h.pri v hv

theorem updateFirst_ok {ln : List Link} (h : ∀ l ∈ ln, LinkOk l) {uri : Str} (hu : XmlOk uri) :
    ∀ l ∈ updateFirst ln sIndex (fun l => addAtts (dset l sHref uri) []), LinkOk l := by
  induction ln with
  | nil => intro l hl; simp [updateFirst] at hl
  | cons a t ih =>
    intro l hl
    simp only [updateFirst] at hl
    split at hl
    · rcases List.mem_cons.mp hl with rfl | hl
      · exact setHref_ok (h a (by simp)) hu
      · exact h l (by simp [hl])
    · rcases List.mem_cons.mp hl with rfl | hl
      · exact h l (by simp)
      · exact ih (fun x hx => h x (by simp [hx])) l hl

theorem newIndexLink_ok {uri : Str} (hu : XmlOk uri) : LinkOk (addAtts [(sRel, sIndex), (sHref, uri)] []) := by
  show LinkOk [(sRel, sIndex), (sHref, uri)]
  have hd : ∀ k, dget [(sRel, sIndex), (sHref, uri)] k =
      if sRel = k then some sIndex else if sHref = k then some uri else none := by
    intro k; simp [dget]
  have hk : dkeys [(sRel, sIndex), (sHref, uri)] = [sRel, sHref] := rfl
  refine ⟨by rw [hk]; decide, by rw [hk]; decide, rfl, rfl, ?_, ?_, ?_⟩
  · intro k v hv
    rw [hd] at hv
    split at hv
    · cases hv; intro c hc; revert c hc; decide
    · split at hv
      · cases hv; exact hu
      · cases hv
  · intro v hv; rw [hd, if_neg (by decide), if_neg (by decide)] at hv; cases hv
  · intro v hv; rw [hd, if_neg (by decide), if_neg (by decide)] at hv; cases hv

theorem setIndexLink_ok {ln : List Link} (h : ∀ l ∈ ln, LinkOk l) {uri : Str} (hu : XmlOk uri) :
    ∀ l ∈ setIndexLink ln uri, LinkOk l := by
  intro l hl
  unfold setIndexLink linkSetList at hl
  split at hl
  · exact updateFirst_ok h hu l hl
  · rcases List.mem_append.mp hl with hl | hl
    · exact h l hl
    · rw [List.mem_singleton.mp hl]; exact newIndexLink_ok hu

theorem sharedIndexLink_ok {ln : List Link} (h : ∀ l ∈ ln, LinkOk l) {uri : Str} (hu : XmlOk uri) :
    ∀ l ∈ sharedIndexLink ln uri, LinkOk l := by
  intro l hl
  unfold sharedIndexLink at hl
  split at hl
  · exact setIndexLink_ok h hu l hl
  · exact h l hl

/-- what a file system has to report about a component for the index to be able to record it -/
theorem entryOf_ok {env : StatEnv} {basename : Str} {k : Nat} {u : Str} (h1 : u ≠ []) (h2 : XmlOk u) (h3 : '\r' ∉ u)
    (h4 : MicroTime (env.mtime (partName basename k)))
    (h5 : XmlOk (env.md5 (partName basename k)) ∧ NoSpace (env.md5 (partName basename k))) :
    ResOk (entryOf env basename k u) where
  uri_ne := h1
  uri := h2
  uri_cr := h3
  change := by unfold ValidChange entryOf; simp
  timestamp := by intro t ht; cases ht; exact h4
  ts_datetime := by intro t ht; cases ht
  ts_at := by intro t ht; cases ht
  ts_completed := by intro t ht; cases ht
  ts_from := by intro t ht; cases ht
  ts_until := by intro t ht; cases ht
  mime_type := by intro t ht; cases ht
  path := by intro t ht; cases ht
  capability := by intro t ht; cases ht
  md5 := by intro t ht; cases ht; exact h5
  sha1 := by intro t ht; cases ht
  sha256 := by intro t ht; cases ht
  ln := by intro t ht; cases ht

theorem entriesOf_ok {env : StatEnv} {basename : Str} {us : List Str} : ∀ {k : Nat},
    (∀ i (h : i < us.length), us[i] ≠ [] ∧ XmlOk us[i] ∧ '\r' ∉ us[i]) →
    (∀ i, i < us.length → MicroTime (env.mtime (partName basename (k + i))) ∧
      XmlOk (env.md5 (partName basename (k + i))) ∧ NoSpace (env.md5 (partName basename (k + i)))) →
    ∀ r ∈ entriesOf env basename k us, ResOk r := by
  induction us with
  | nil => intro k _ _ r hr; simp [entriesOf] at hr
  | cons u us ih =>
    intro k h1 h2 r hr
    simp only [entriesOf, List.mem_cons] at hr
    rcases hr with rfl | hr
    · have a := h1 0 (by simp)
      have b := h2 0 (by simp)
      exact entryOf_ok a.1 a.2.1 a.2.2 b.1 b.2
    · refine ih (k := k + 1) ?_ ?_ r hr
      · intro i hi; exact h1 (i + 1) (by simpa using hi)
      · intro i hi
        have := h2 (i + 1) (by simpa using hi)
        have e : k + (i + 1) = k + 1 + i := by omega
        rw [e] at this; exact this

theorem entriesOf_uris {env : StatEnv} {basename : Str} (us : List Str) : ∀ k : Nat,
    (entriesOf env basename k us).map (·.uri) = us := by
  induction us with
  | nil => intro k; rfl
  | cons u us ih => intro k; simp only [entriesOf, List.map_cons, ih]; rfl

/-! ### Reading components -/

theorem foldlM_lift (rs : List Resource) (d : Dict Resource) :
    rs.foldlM (fun d r => liftSm (rlAdd d r)) d = liftSm (rs.foldlM rlAdd d) := by
  induction rs generalizing d with
  | nil => rfl
  | cons r t ih =>
    rw [List.foldlM_cons, List.foldlM_cons]
    cases rlAdd d r with
    | error e => rfl
    | ok d' => simp only [liftSm, ebind_ok]; exact ih d'

/-- reading the components in any order -/
theorem foldlM_components (f : Str → List Resource) (rd : Dict Resource → Str → Except LbErr (Dict Resource))
    (us : List Str) (hrd : ∀ u ∈ us, ∀ d, rd d u = liftSm ((f u).foldlM rlAdd d)) :
    ∀ d, us.foldlM rd d = liftSm ((us.flatMap f).foldlM rlAdd d) := by
  induction us with
  | nil => intro d; rfl
  | cons u us ih =>
    intro d
    rw [List.foldlM_cons, hrd u (by simp), List.flatMap_cons, List.foldlM_append]
    cases (f u).foldlM rlAdd d with
    | error e => rfl
    | ok d' => simp only [liftSm, ebind_ok]; exact ih (fun u hu => hrd u (by simp [hu])) d'

end Resync
