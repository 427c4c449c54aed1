import Verif.Proofs.Kinds
import Verif.Props.ListRead
import Verif.Proofs.ReadWF
import Verif.Props.Mapper
/-
C84: the classes of documents are kept apart, and each of them reads what it has written.
-/

namespace Resync
open Py Resync.Spec

/-- the kind that a capability name belongs to -/
def Kind.ofCapability (c : Str) : Option Kind :=
  [Kind.resourceList, .resourceDump, .resourceDumpManifest, .changeList, .changeDump, .changeDumpManifest, .capabilityList,
    .sourceDescription, .resourceListArchive, .resourceDumpArchive, .changeListArchive, .changeDumpArchive].find? (fun k => k.capability = c)

theorem Kind.ofCapability_eq (k : Kind) : Kind.ofCapability k.capability = some k := by
  cases k <;> decide +kernel

theorem Kind.capability_injective {k k' : Kind} (h : k.capability = k'.capability) : k = k' := by
  have := k.ofCapability_eq
  rw [h, k'.ofCapability_eq] at this
  exact (Option.some.inj this).symm

theorem Kind.capability_ok (k : Kind) : XmlOk k.capability := by
  intro c hc
  revert hc c
  cases k <;> decide

theorem default_md (s : Sitemap) (k : Kind) : MdOk (mdAttKeys s) (defaultCapability [] (some k.capability)) where
  keys_nodup := by simp [defaultCapability, dget, dset, dkeys]
  keys_known := by
    intro x hx
    simp only [defaultCapability, dget, dset, dkeys, List.map_cons, List.map_nil, List.mem_cons, List.not_mem_nil, or_false] at hx
    subst hx
    exact (mem_mdAttKeys s).1
  chars := by
    intro x v hv
    simp only [defaultCapability, dget, dset] at hv
    split at hv
    · cases hv; exact k.capability_ok
    · cases hv
  change := by
    have : dget (defaultCapability [] (some k.capability)) "change".toList = none := rfl
    rw [this]; exact .inl rfl
  length := by
    intro v hv
    have : dget (defaultCapability [] (some k.capability)) "length".toList = none := rfl
    rw [this] at hv; cases hv

theorem default_cap (k : Kind) : dget (defaultCapability [] (some k.capability)) "capability".toList = some k.capability := rfl

theorem parseXml_want {σ : Type} {s : Sitemap} {add : σ → Resource → Except SmErr σ} {c c' : Cont σ} {root : Elem}
    {cap : Option Str} {want : Bool} {idx : Bool} {n : Nat} (h : parseXml s add c root cap (some want) = .ok (c', idx, n)) :
    parseXml s add c root cap none = .ok (c', idx, n) := by
  simp only [parseXml, bind_ok_iff, epure] at h ⊢
  obtain ⟨i, h1, h2⟩ := h
  exact ⟨i, (rootKind_ok root none i).mpr ⟨((rootKind_ok root _ i).mp h1).1, .inl rfl⟩, h2⟩

/-- entries added to a new object of a kind, in the order in which the object is iterated -/
theorem addAll_iter {k : Kind} {s : Sitemap} {ln : List Link} {mp : Option Mapper} {am : Option Bool} {rs : List Resource} {l : DocList}
    (h : (k.new s ln mp am).addAll rs = .ok l) :
    ∃ es ws, l = { (k.new s ln mp am) with entries := es } ∧ l.iter = .ok ws ∧ ws.Perm rs ∧
      ∀ v a ws', List.Forall₂ (Recorded v a) ws ws' → ∃ es', ws'.foldlM k.addTo k.noEntries = .ok es' ∧
        ({ (k.new s ln mp am) with entries := es' } : DocList).iter = .ok ws' ∧
        ∀ s2 ln2 mp2 am2 md2, ({ (k.new s2 ln2 mp2 am2) with entries := es', md := md2 } : DocList).iter = .ok ws' := by
  unfold DocList.addAll at h
  split at h
  · rename_i es hes
    cases h
    change rs.foldlM k.addTo k.noEntries = .ok es at hes
    have hk : k.noEntries = .dict [] ∨ k.noEntries = .list [] := by cases k <;> simp [Kind.noEntries, Kind.isResourceList]
    rcases hk with hk | hk
    · rw [hk, foldlM_dict] at hes
      cases hd : rs.foldlM rlAdd [] with
      | error e => rw [hd] at hes; cases hes
      | ok d =>
        rw [hd] at hes; cases hes
        have hn := (foldlM_rlAdd_inv rs [] d hd).1
        rw [foldlM_rlAdd rs [] hn (by intro r _; rfl)] at hd
        cases hd
        by_cases hcap : k = .capabilityList
        · refine ⟨_, capIter (addAll [] rs), rfl, by simp [DocList.iter, Kind.new, hcap], capIter_addAll_perm hn, ?_⟩
          intro v a ws' hrec
          have hn' : (ws'.map (·.uri)).Nodup := by rw [recorded_uris hrec]; exact C63_once (WF_addAll hn)
          have hord : ws'.Pairwise (CapBefore (addAll [] rs)) := by
            have hp := capIter_pairwise (WF_addAll hn)
            rw [List.pairwise_iff_getElem] at hp ⊢
            intro i j hi hj hij
            have hlen := hrec.length_eq
            have g : ∀ n (h : n < ws'.length), Recorded v a (capIter (addAll [] rs))[n] ws'[n] := fun n h =>
              (List.forall₂_iff_get.mp hrec).2 n (by omega) h
            have := hp i j (by omega) (by omega) hij
            unfold CapBefore at this ⊢
            rw [(g i hi).uri, (g j hj).uri, (g i hi).capability, (g j hj).capability]
            exact this
          have hi := capIter_sorted_eq hn' hord
          refine ⟨.dict (addAll [] ws'), ?_, ?_, ?_⟩
          · rw [hk, foldlM_dict, foldlM_rlAdd ws' [] hn' (by intro r _; rfl)]; rfl
          · simp [DocList.iter, Kind.new, hcap, hi]
          · intros; simp [DocList.iter, Kind.new, hcap, hi]
        · refine ⟨_, listing (addAll [] rs), rfl, by simp [DocList.iter, Kind.new, hcap, iterAll_listing], listing_addAll_perm hn, ?_⟩
          intro v a ws' hrec
          have hord : ws'.Pairwise (fun a b => a.uri < b.uri) := by
            rw [← List.pairwise_map (f := fun r : Resource => r.uri) (R := (· < ·)), recorded_uris hrec, List.pairwise_map]
            exact listing_sorted (WF_addAll hn)
          have hn' : (ws'.map (·.uri)).Nodup := by
            rw [recorded_uris hrec, listing_uris (WF_addAll hn)]
            exact (sortStr_perm _).nodup_iff.mpr (WF_addAll hn).1
          have hi := listing_sorted_eq hord
          refine ⟨.dict (addAll [] ws'), ?_, ?_, ?_⟩
          · rw [hk, foldlM_dict, foldlM_rlAdd ws' [] hn' (by intro r _; rfl)]; rfl
          · simp [DocList.iter, Kind.new, hcap, iterAll_listing, hi]
          · intros; simp [DocList.iter, Kind.new, hcap, iterAll_listing, hi]
    · rw [hk, foldlM_list] at hes
      obtain ⟨rfl, hch⟩ := hes
      refine ⟨_, rs, rfl, rfl, .refl _, ?_⟩
      intro v a ws' hrec
      refine ⟨.list ws', ?_, rfl, fun _ _ _ _ _ => rfl⟩
      rw [hk, foldlM_list]
      refine ⟨rfl, ?_⟩
      intro hc r' hr'
      obtain ⟨r, hr, hrec⟩ := (forall₂_mem hrec).1 r' hr'
      rw [hrec.change]
      exact hch hc r hr
  · cases h

/-- the document of a new object whose entries have been added -/
theorem asXml_eq {k : Kind} {s : Sitemap} {ln : List Link} {mp : Option Mapper} {am : Option Bool} {es : Entries} {ws : List Resource}
    (hi : ({ (k.new s ln mp am) with entries := es } : DocList).iter = .ok ws) (hlen : k = .capabilityList ∨ ws.length ≤ 50000) :
    ({ (k.new s ln mp am) with entries := es } : DocList).asXml =
      liftSm (resourcesAsXml s (defaultCapability [] (some k.capability)) ln ws false) := by
  unfold DocList.asXml
  rw [hi]
  simp only
  have hkind : (k.new s ln mp am).kind = k := rfl
  by_cases hk : k = .capabilityList
  · rw [hkind, if_pos hk]; rfl
  · rw [hkind, if_neg hk]
    have hle : ws.length ≤ 50000 := by rcases hlen with h | h; · exact absurd h hk
                                       · exact h
    have hreq : (({ (k.new s ln mp am) with entries := es } : DocList).obj ws).requiresMultifile = .ok none := if_pos hle
    unfold LBI.asXml
    simp only [Kind.new] at hreq ⊢
    rw [hreq, ebind_ok]
    simp only [DocList.obj]
    cases resourcesAsXml s (defaultCapability [] (some k.capability)) ln ws false <;> rfl

/-- C84 (own kind).  Whatever the kind of list: resources that the format can express have been added to a new list, all of
them accepted, and the list is serialised.  Then a new list of the same kind accepts the document (with `parse` and, from
wherever it is served, with `read`), and iterating over it gives the same resources in the same order, as the version of the
format records them, and the same links. -/
theorem C84_own_kind (k : Kind) (s : Sitemap) (ln : List Link) (rs : List Resource) (l : DocList)
    (hadd : (k.new s ln none none).addAll rs = .ok l) (hln : ∀ x ∈ ln, LinkOk x) (hrs : ∀ r ∈ rs, ResOk r)
    (hlen : k = .capabilityList ∨ rs.length ≤ 50000) :
    ∃ written doc doc', l.iter = .ok written ∧ written.Perm rs ∧ l.asXml = .ok doc ∧ reparse doc = some doc' ∧
      ∃ back got, (k.new s [] none none).parse doc' = .ok back ∧
        (∀ docAt uw uri, docAt uri = some doc' → (k.new s [] none none).read docAt uw uri = .ok back) ∧
        back.iter = .ok got ∧ List.Forall₂ (Recorded s.spec_1_0 s.add_lastmod) written got ∧ SameLinks ln back.ln := by
  obtain ⟨es, ws, rfl, h2, h3, h4⟩ := addAll_iter hadd
  have hx := asXml_eq h2 (hlen.imp_right (fun h => by rw [h3.length_eq]; exact h))
  obtain ⟨t, t', rs', d1, d2, d3, d4⟩ := doc_round_trip s (defaultCapability [] (some k.capability)) ln ws false (default_md s k) hln
    (fun r hr => hrs r (h3.mem_iff.mp hr))
  rw [d1] at hx
  obtain ⟨es', f1, f2, f3⟩ := h4 _ _ _ d3
  have hp : ∀ want, want = none ∨ want = some false →
      ∃ c, parseXml s k.addTo { resources := k.noEntries } t' (some k.capability) want = .ok (c, false, ws.length) ∧
        c.resources = es' ∧ SameMap (defaultCapability [] (some k.capability)) c.md ∧ SameLinks ln c.ln := by
    intro want hw
    exact d4 k.addTo k.noEntries es' f1 (some k.capability) (by intro c hc; cases hc; exact default_cap k) want hw
  obtain ⟨c, p1, p2, p3, p4⟩ := hp (some false) (.inr rfl)
  refine ⟨ws, t, t', h2, h3, hx, d2, { (k.new s [] none none) with entries := c.resources, md := c.md, ln := c.ln }, rs', ?_, ?_, ?_, d3, p4⟩
  · unfold DocList.parse
    have : parseXml (k.new s [] none none).sitemap (k.new s [] none none).kind.addTo
        { resources := (k.new s [] none none).entries, md := (k.new s [] none none).md, ln := (k.new s [] none none).ln } t'
        (some (k.new s [] none none).kind.capability) (some false) = .ok (c, false, ws.length) := p1
    rw [this]
  · intro docAt uw uri hdoc
    unfold DocList.read
    rw [hdoc]
    simp only
    split
    · unfold DocList.parse
      have : parseXml (k.new s [] none none).sitemap (k.new s [] none none).kind.addTo
          { resources := (k.new s [] none none).entries, md := (k.new s [] none none).md, ln := (k.new s [] none none).ln } t'
          (some (k.new s [] none none).kind.capability) (some false) = .ok (c, false, ws.length) := p1
      rw [this]
    · have : parseXml (k.new s [] none none).sitemap (k.new s [] none none).kind.addTo
          { resources := (k.new s [] none none).entries, md := (k.new s [] none none).md, ln := (k.new s [] none none).ln } t'
          (some (k.new s [] none none).kind.capability) none = .ok (c, false, ws.length) := parseXml_want p1
      rw [this]
  · have := f3 s c.ln none none c.md
    rw [← p2] at this
    exact this

theorem liftSm_ok' {α : Type} {x : Except SmErr α} {a : α} (h : liftSm x = .ok a) : x = .ok a := by
  cases x with
  | error e => cases h
  | ok b => cases h; rfl

/-- C84 (other kinds).  The document of a list of one kind, with resources and links that the format can express, as sitemap or
as index, is refused by `parse` and by `read` of a new list of any other kind, whatever the other settings. -/
theorem C84_other_kind (k k' : Kind) (hne : k' ≠ k) (s : Sitemap) (ln : List Link) (rs : List Resource) (l : DocList)
    (hadd : (k.new s ln none none).addAll rs = .ok l) (hln : ∀ x ∈ ln, LinkOk x) (hrs : ∀ r ∈ rs, ResOk r)
    (hlen : k = .capabilityList ∨ rs.length ≤ 50000)
    (doc doc' : Elem) (hdoc : l.asXml = .ok doc ∨ l.indexAsXml = .ok doc) (hre : reparse doc = some doc')
    (s' : Sitemap) (ln' : List Link) (mp : Option Mapper) (am : Option Bool) :
    (∀ back, (k'.new s' ln' mp am).parse doc' ≠ .ok back) ∧
    ∀ docAt uw uri index_only back, docAt uri = some doc' → (k'.new s' ln' mp am).read docAt uw uri index_only ≠ .ok back := by
  obtain ⟨es, ws, rfl, h2, h3, -⟩ := addAll_iter hadd
  have hws : ∀ r ∈ ws, ResOk r := fun r hr => hrs r (h3.mem_iff.mp hr)
  have hcap : docCapability doc' = some k.capability := by
    have key : ∀ index, resourcesAsXml s (defaultCapability [] (some k.capability)) ln ws index = .ok doc →
        docCapability doc' = some k.capability := by
      intro index hx
      obtain ⟨t, t', c, d1, d2, d3, -⟩ := C34_round_trip_partial s (defaultCapability [] (some k.capability)) ln ws index (default_md s k)
        hln hws (some k.capability) (by intro c hc; cases hc; exact default_cap k) none (.inl rfl)
      rw [d1] at hx; cases hx
      rw [d2] at hre; cases hre
      obtain ⟨t2, t2', c2, e1, e2, e3, -, e4, -⟩ := C34_round_trip_partial s (defaultCapability [] (some k.capability)) ln ws index
        (default_md s k) hln hws none (by intro c hc; cases hc) none (.inl rfl)
      rw [d1] at e1; cases e1
      rw [d2] at e2; cases e2
      rw [← parsed_capability s listAdd { resources := [] } c2 _ none index ws.length e3 rfl]
      exact (e4 _).symm.trans (default_cap k)
    rcases hdoc with hdoc | hdoc
    · rw [asXml_eq h2 (hlen.imp_right (fun h => by rw [h3.length_eq]; exact h))] at hdoc
      exact key false (liftSm_ok' hdoc)
    · unfold DocList.indexAsXml at hdoc
      rw [h2] at hdoc
      exact key true (liftSm_ok' hdoc)
  have refuse : ∀ want x, parseXml s' k'.addTo { resources := k'.noEntries, ln := ln' } doc' (some k'.capability) want ≠ .ok x := by
    intro want x hx
    rcases ((C36_accepted_iff s' k'.addTo { resources := k'.noEntries, ln := ln' } doc' k'.capability want rfl).mp ⟨x, hx⟩).2 with h | h
    · rw [hcap] at h
      exact hne (Kind.capability_injective (Option.some.inj h)).symm
    · rw [hcap] at h; cases h.1
  have hparse : ∀ back, (k'.new s' ln' mp am).parse doc' ≠ .ok back := by
    intro back h
    unfold DocList.parse at h
    split at h
    · cases h
    · rename_i hx; exact refuse _ _ hx
  refine ⟨hparse, ?_⟩
  intro docAt uw uri index_only back hat h
  unfold DocList.read at h
  rw [hat] at h
  simp only at h
  split at h
  · exact hparse _ h
  · split at h
    · cases h
    · rename_i hx; exact refuse _ _ hx
    · rename_i hx; exact refuse _ _ hx

/-- C84 (several documents).  Resource lists, resource dumps, change dumps and resource dump manifests, with resources that the format can
express, may be written with any limit on the entries per document; if the documents are served at the places that the mapper
names, a new list of the same kind that reads them has the same resources, as the format records them. -/
theorem C84_several_documents_partial (k : Kind) (hk : k.isResourceList = true) (s : Sitemap) (ln : List Link) (mp : Mapper)
    (rs : List Resource) (l : DocList) (hadd : (k.new s ln (some mp) none).addAll rs = .ok l) (hln : ∀ x ∈ ln, LinkOk x)
    (hrs : ∀ r ∈ rs, ResOk r) (m : Nat) (basename : Str) (env : StatEnv) (uw : Char → Bool) (docAt : Str → Option Elem)
    (uri : Str) (hbase : mp.dstToSrc basename = .ok uri) (hchars : XmlOk uri)
    (hparts : ∀ i < rs.length, (∃ u, MapsBack mp (partName basename i) u) ∧ MicroTime (env.mtime (partName basename i)) ∧
      XmlOk (env.md5 (partName basename i)) ∧ NoSpace (env.md5 (partName basename i)))
    (hremote : isFileUri uw uri = false ∨
      ∀ i < rs.length, ∀ u, mp.dstToSrc (partName basename i) = .ok u → isFileUri uw u = true)
    (fs : Str → Option FileState)
    (hserve : ∀ p u, p = basename ∨ (∃ i, p = partName basename i) → mp.dstToSrc p = .ok u →
      docAt u = fileDoc (runFs fs (({ l with max_sitemap_entries := some m } : DocList).write env basename).1 p)) :
    (({ l with max_sitemap_entries := some m } : DocList).write env basename).2 = .ok () ∧
    ∃ back got, (k.new s [] none none).read docAt uw uri = .ok back ∧ back.iter = .ok got ∧
      got.Pairwise (fun a b => a.uri < b.uri) ∧
      (∀ r ∈ rs, ∃ r' ∈ got, Recorded s.spec_1_0 s.add_lastmod r r') ∧
      (∀ r' ∈ got, ∃ r ∈ rs, Recorded s.spec_1_0 s.add_lastmod r r') ∧
      ((∀ x ∈ ln, dget x "rel".toList ≠ some "index".toList) → SameLinks ln back.ln) := by
  have hno : (k.new s ln (some mp) none).entries = .dict [] := by cases k <;> first | rfl | cases hk
  have hcap : k ≠ .capabilityList := by rintro rfl; cases hk
  have ham : (k.new s ln (some mp) none).allow_multifile = true := by unfold Kind.new; split <;> rfl
  unfold DocList.addAll at hadd
  rw [hno] at hadd
  have hkind : (k.new s ln (some mp) none).kind = k := rfl
  rw [hkind, foldlM_dict] at hadd
  cases hd : rs.foldlM rlAdd [] with
  | error e => rw [hd] at hadd; cases hadd
  | ok d =>
    rw [hd] at hadd
    simp only [Except.map, Except.ok.injEq] at hadd
    subst hadd
    have hn := (foldlM_rlAdd_inv rs [] d hd).1
    rw [foldlM_rlAdd rs [] hn (by intro r _; rfl)] at hd
    cases hd
    have hw := WF_addAll hn
    have hperm := listing_addAll_perm hn
    have hwrite : ({ (k.new s ln (some mp) none) with entries := .dict (addAll [] rs), max_sitemap_entries := some m } : DocList).write env
        basename = (({ (k.new s ln (some mp) none) with entries := .dict (addAll [] rs), max_sitemap_entries := some m } : DocList).obj
          (listing (addAll [] rs))).write env basename := by
      have hi : ({ (k.new s ln (some mp) none) with entries := .dict (addAll [] rs), max_sitemap_entries := some m } : DocList).iter =
          .ok (listing (addAll [] rs)) := by
        unfold DocList.iter
        simp only [hkind, if_neg hcap, iterAll_listing]
      unfold DocList.write
      rw [hi]
      simp only [hkind, if_neg hcap]
    have hserve' : ∀ p u, p = basename ∨ (∃ i, p = partName basename i) → mp.dstToSrc p = .ok u →
        docAt u = fileDoc (runFs fs ((({ (k.new s ln (some mp) none) with entries := .dict (addAll [] rs), max_sitemap_entries := some m } : DocList).obj
          (listing (addAll [] rs))).write env basename).1 p) := by
      intro p u h1 h2
      rw [← hwrite]
      exact hserve p u h1 h2
    have hlen : (listing (addAll [] rs)).length = rs.length := hperm.length_eq
    obtain ⟨h1, c, h2, h3, -, h5⟩ := C31_remote_partial (addAll [] rs) hw
      (by
        intro u r hr
        have hu := hw.2 u r hr
        rw [← hu] at hr
        exact hrs r ((mem_addAll hn r).mp hr))
      _ (iterAll_listing _) m rfl rfl ham k.capability rfl (default_cap k) (default_md s k) hln mp rfl basename env
      { sitemap := s, capability_name := some k.capability, uw := uw, docAt := docAt } ⟨rfl, rfl, rfl⟩ uri hbase hchars
      (by
        rcases hremote with h | h
        · exact .inl h
        · exact .inr ⟨rfl, fun i hi => h i (hlen ▸ hi)⟩)
      (fun i hi => hparts i (hlen ▸ hi)) fs hserve'
    refine ⟨by rw [← h1]; exact congrArg Prod.snd hwrite, _, listing c.resources, read_resourceList hk s docAt uw uri h2, ?_, ?_, ?_, ?_, h5⟩
    · unfold DocList.iter
      have hkind : (k.new s [] none none).kind = k := rfl
      simp only [hkind, if_neg hcap, iterAll_listing]
    all_goals have hwc : WF c.resources := readList_WF WF_nil h2
    · exact listing_sorted hwc
    · intro r hr
      have := h3 r.uri
      rw [(mem_addAll hn r).mpr hr] at this
      cases hg : dget c.resources r.uri with
      | none => rw [hg] at this; exact this.elim
      | some y =>
        rw [hg] at this
        refine ⟨y, (mem_listing hwc).mpr ?_, this⟩
        rw [this.uri]; exact hg
    · intro y hy
      have hy' := (mem_listing hwc).mp hy
      have := h3 y.uri
      rw [hy'] at this
      cases hg : dget (addAll [] rs) y.uri with
      | none => rw [hg] at this; exact this.elim
      | some r =>
        rw [hg] at this
        refine ⟨r, (mem_addAll hn r).mp ?_, this⟩
        rw [← this.uri]; exact hg

/-- C84 fails for lists in several documents, except for resource lists, dumps and manifests (those kept in dictionaries by
URI): no other kind can read an index, whatever it says. -/
theorem C84_index_violated (k : Kind) (hk : k.isResourceList = false) (s : Sitemap) (ln : List Link) (mp : Option Mapper)
    (am : Option Bool) (docAt : Str → Option Elem) (uw : Char → Bool) (uri : Str) (root : Elem) (hdoc : docAt uri = some root)
    (hroot : root.tag = smName "sitemapindex") : ∀ back, (k.new s ln mp am).read docAt uw uri ≠ .ok back := by
  intro back h
  unfold DocList.read at h
  rw [hdoc] at h
  have hkind : (k.new s ln mp am).kind = k := rfl
  simp only [hkind, hk] at h
  have hidx : ∀ want c idx n, parseXml (k.new s ln mp am).sitemap k.addTo
      { resources := (k.new s ln mp am).entries, md := (k.new s ln mp am).md, ln := (k.new s ln mp am).ln } root
      (some k.capability) want = .ok (c, idx, n) → idx = true ∧ want ≠ some false := by
    intro want c idx n hx
    simp only [parseXml, bind_ok_iff, epure] at hx
    obtain ⟨i, h1, st, -, md, -, h4⟩ := hx
    cases h4
    obtain ⟨h5, h6⟩ := (rootKind_ok root want idx).mp h1
    rw [hroot] at h5
    cases idx with
    | true => exact ⟨rfl, by rcases h6 with h | h <;> rw [h] <;> simp⟩
    | false => exact absurd h5 (by decide)
  split at h
  · unfold DocList.parse at h
    split at h
    · cases h
    · rename_i hx
      exact (hidx _ _ _ _ hx).2 rfl
  · split at h
    · cases h
    · rename_i hx
      exact absurd (hidx _ _ _ _ hx).1 (by simp)
    · split at h
      · cases h
      · split at h
        · rename_i hf; cases hf
        · cases h

/-- C84 fails for allow_multifile: a ResourceDump, ChangeDump or manifest created with allow_multifile=False is the same as one
created without, so that it reads and writes indexes. -/
theorem C84_allow_multifile_violated (k : Kind) (hk : k ≠ .resourceList) (s : Sitemap) (ln : List Link) (mp : Option Mapper)
    (am : Option Bool) : k.new s ln mp am = k.new s ln mp none ∧ (k.new s ln mp am).allow_multifile = true := by
  simp [Kind.new, hk]

/-- C84, changes.  Change lists and change dump manifests take entries that say what has changed and no others; all other classes
take entries whether they say it or not (all entries, if URIs are different). -/
theorem C84_changes (k : Kind) (s : Sitemap) (ln : List Link) (mp : Option Mapper) (am : Option Bool) (rs : List Resource)
    (hd : (rs.map (·.uri)).Nodup) :
    (∃ l, (k.new s ln mp am).addAll rs = .ok l) ↔ (k = .changeList ∨ k = .changeDumpManifest → ∀ r ∈ rs, r.change.isSome) := by
  have hkc : k.isChangeList = true ↔ k = .changeList ∨ k = .changeDumpManifest := by cases k <;> simp [Kind.isChangeList]
  have hadd : (∃ l, (k.new s ln mp am).addAll rs = .ok l) ↔ ∃ e, rs.foldlM k.addTo k.noEntries = .ok e := by
    unfold DocList.addAll
    rw [show (k.new s ln mp am).kind = k from rfl, show (k.new s ln mp am).entries = k.noEntries from rfl]
    cases rs.foldlM k.addTo k.noEntries with
    | error e => simp
    | ok e => simp
  rw [hadd, ← hkc]
  have hk : (k.noEntries = .dict [] ∧ k.isChangeList = false) ∨ k.noEntries = .list [] := by
    cases k <;> simp [Kind.noEntries, Kind.isResourceList, Kind.isChangeList]
  rcases hk with ⟨hk, hf⟩ | hk
  · rw [hk, foldlM_dict, foldlM_rlAdd rs [] hd (by intro r _; rfl), hf]
    constructor
    · intro _ h; cases h
    · intro _; exact ⟨_, rfl⟩
  · rw [hk]
    constructor
    · rintro ⟨e, he⟩; exact ((foldlM_list k rs [] e).mp he).2
    · intro h; exact ⟨_, (foldlM_list k rs [] _).mpr ⟨rfl, h⟩⟩

/-- C84, a resource list that may not be in several documents refuses an index (also if only the index is asked for); other objects
asked only for the index get its entries and know that it is one. -/
theorem C84_index_only (k : Kind) (hcap : k ≠ .capabilityList) (s : Sitemap) (ln : List Link) (mp : Option Mapper) (am : Option Bool)
    (docAt : Str → Option Elem) (uw : Char → Bool) (uri : Str) (root : Elem) (hdoc : docAt uri = some root)
    (hroot : root.tag = smName "sitemapindex") :
    (k = .resourceList → ∀ index_only back, (k.new s ln mp (some false)).read docAt uw uri index_only ≠ .ok back) ∧
    (∀ back, (k.new s ln mp am).read docAt uw uri true = .ok back → back.sitemapindex = true) ∧
    ∀ c n, parseXml s k.addTo { resources := k.noEntries, ln := ln } root (some k.capability) none = .ok (c, true, n) →
      ¬ (k = .resourceList ∧ am = some false) →
      ∃ back, (k.new s ln mp am).read docAt uw uri true = .ok back ∧ back.entries = c.resources ∧ back.md = c.md ∧ back.ln = c.ln := by
  have hidx : ∀ (am : Option Bool) c idx n, parseXml s k.addTo { resources := k.noEntries, ln := ln } root
      (some k.capability) none = .ok (c, idx, n) → idx = true := by
    intro am c idx n hx
    simp only [parseXml, bind_ok_iff, epure] at hx
    obtain ⟨i, h1, st, -, md, -, h4⟩ := hx
    cases h4
    obtain ⟨h5, -⟩ := (rootKind_ok root _ idx).mp h1
    rw [hroot] at h5
    cases idx with
    | true => rfl
    | false => exact absurd h5 (by decide)
  have hread : ∀ (am : Option Bool) (only : Bool), (k.new s ln mp am).read docAt uw uri only =
      match parseXml s k.addTo { resources := k.noEntries, ln := ln } root (some k.capability) none with
      | .error e => .error (.sm e)
      | .ok (c, false, _) => .ok { (k.new s ln mp am) with entries := c.resources, md := c.md, ln := c.ln }
      | .ok (c, true, _) =>
        if ¬ (k.new s ln mp am).allow_multifile then .error .index
        else if only then .ok { (k.new s ln mp am) with entries := c.resources, md := c.md, ln := c.ln, sitemapindex := true }
        else
          match k.isResourceList, c.resources with
          | true, .dict sitemaps =>
            match (dictUris sitemaps).foldlM (readComponent
                { sitemap := s, capability_name := some k.capability, mapper := mp, uw := uw, docAt := docAt }
                uri (isFileUri uw uri)) [] with
            | .error e => .error e
            | .ok d => .ok { (k.new s ln mp am) with entries := .dict d, md := c.md, ln := c.ln }
          | _, _ => .error .attr := by
    intro am only
    unfold DocList.read
    rw [hdoc]
    simp only [show (k.new s ln mp am).kind = k from rfl, if_neg hcap]
    rfl
  refine ⟨?_, ?_, ?_⟩
  · rintro rfl only back
    rw [hread]
    cases hx : parseXml s Kind.resourceList.addTo { resources := Kind.resourceList.noEntries, ln := ln } root (some Kind.resourceList.capability) none with
    | error e => simp
    | ok x =>
      obtain ⟨c, idx, n⟩ := x
      rw [hidx none _ _ _ hx]
      simp [Kind.new]
  · intro back
    rw [hread]
    cases hx : parseXml s k.addTo { resources := k.noEntries, ln := ln } root (some k.capability) none with
    | error e => simp
    | ok x =>
      obtain ⟨c, idx, n⟩ := x
      rw [hidx none _ _ _ hx]
      dsimp only
      split
      · intro h; cases h
      · rw [if_pos rfl]
        intro h; cases h; rfl
  · intro c n hx hno
    rw [hread, hx]
    dsimp only
    have : (k.new s ln mp am).allow_multifile = true := by
      simp only [Kind.new]
      split
      · rename_i hk
        cases am with
        | none => rfl
        | some b => cases b with
          | true => rfl
          | false => exact absurd ⟨hk, rfl⟩ hno
      · rfl
    rw [if_neg (by rw [this]; simp), if_pos rfl]
    exact ⟨_, rfl, rfl, rfl, rfl⟩

def exIndex : Elem := .mk (smName "sitemapindex") [] none
  [.mk (rsName "md") [("capability".toList, "resourcelist".toList)] none [],
   .mk (smName "sitemap") [] none [.mk (smName "loc") [] (some "http://h/1.xml".toList) []],
   .mk (smName "sitemap") [] none [.mk (smName "loc") [] (some "http://h/2.xml".toList) []]]

def exIndexAt (u : Str) : Option Elem := if u = "http://h/i.xml".toList then some exIndex else none

/-- an index of two lists: what an object that is asked only for the index gets, and one that may not have several documents -/
example : (match (Kind.resourceList.new {} [] none none).read exIndexAt (fun _ => false) "http://h/i.xml".toList true with
      | .ok b => decide ((match b.iter with | .ok rs => rs.map (·.uri) | .error _ => []) = ["http://h/1.xml".toList, "http://h/2.xml".toList])
      | .error _ => false) = true ∧
    (match (Kind.resourceList.new {} [] none (some false)).read exIndexAt (fun _ => false) "http://h/i.xml".toList true with
      | .error e => decide (e = .index)
      | .ok _ => false) = true := by
  decide +kernel

/-- two resources that the format can express -/
def exTwo : List Resource := [{ uri := "http://example.com/b".toList }, { uri := "http://example.com/a".toList }]

theorem exTwo_ok : ∀ r ∈ exTwo, ResOk r := by
  have hall : ∀ r ∈ exTwo, r = { uri := r.uri : Resource } ∧ r.uri ≠ [] ∧ (∀ c ∈ r.uri, isXmlChar c = true) ∧ '\r' ∉ r.uri := by decide
  intro r hr
  obtain ⟨h1, h2, h3, h4⟩ := hall r hr
  rw [h1]; exact plainRes_ok _ h2 h3 h4

/-- the hypotheses of C84 (own kind, other kinds) are met for all kinds but change lists and their archives and manifests -/
example (k : Kind) (hk : k.isChangeList = false) : ∃ l, (k.new {} [] none none).addAll exTwo = .ok l := by
  cases k <;> first | exact ⟨_, rfl⟩ | cases hk


/-- a change that the format can express -/
theorem createdRes_ok (u : Str) (h1 : u ≠ []) (h2 : XmlOk u) (h3 : '\r' ∉ u) :
    ResOk { uri := u, change := some "created".toList } where
  uri_ne := h1
  uri := h2
  uri_cr := h3
  change := by unfold ValidChange; simp only; decide
  timestamp := by intro t ht; cases ht
  ts_datetime := by intro t ht; cases ht
  ts_at := by intro t ht; cases ht
  ts_completed := by intro t ht; cases ht
  ts_from := by intro t ht; cases ht
  ts_until := by intro t ht; cases ht
  mime_type := by intro t ht; cases ht
  path := by intro t ht; cases ht
  capability := by intro t ht; cases ht
  md5 := by intro t ht; cases ht
  sha1 := by intro t ht; cases ht
  sha256 := by intro t ht; cases ht
  ln := by intro t ht; cases ht

/-- the same for change lists and change dump manifests -/
example (k : Kind) (hk : k.isChangeList = true) :
    ∃ l, (k.new {} [] none none).addAll (exTwo.map fun r => { r with change := some "created".toList }) = .ok l ∧
      ∀ r ∈ (exTwo.map fun r => { r with change := some "created".toList }), ResOk r := by
  have hall : ∀ r ∈ exTwo, r = { uri := r.uri : Resource } ∧ r.uri ≠ [] ∧ (∀ c ∈ r.uri, isXmlChar c = true) ∧ '\r' ∉ r.uri := by decide
  have hok : ∀ r ∈ (exTwo.map fun r => { r with change := some "created".toList }), ResOk r := by
    intro r hr
    obtain ⟨q, hq, rfl⟩ := List.mem_map.mp hr
    obtain ⟨h1, h2, h3, h4⟩ := hall q hq
    rw [h1]; exact createdRes_ok _ h2 h3 h4
  cases k <;> first | (cases hk; done) | exact ⟨_, rfl, hok⟩

/-- the hypotheses of C84 (several documents) are met: a change dump of three documents, read from a web server -/
example : ∃ (l : DocList) (docAt : Str → Option Elem) (back : DocList) (got : List Resource),
    (Kind.changeDump.new {} [] (some [⟨"http://example.com".toList, "/tmp/x".toList⟩]) none).addAll exTwo = .ok l ∧
    (({ l with max_sitemap_entries := some 1 } : DocList).write exEnv exBase).2 = .ok () ∧
    (Kind.changeDump.new {} [] none none).read docAt (fun _ => false) "http://example.com/l.xml".toList = .ok back ∧
    back.iter = .ok got ∧ ∀ u, u ∈ got.map (·.uri) ↔ u ∈ exTwo.map (·.uri) := by
  obtain ⟨l, hl⟩ : ∃ l, (Kind.changeDump.new {} [] (some [⟨"http://example.com".toList, "/tmp/x".toList⟩]) none).addAll exTwo = .ok l :=
    ⟨_, rfl⟩
  have hmap : ∀ i, i < 2 → ∃ u, MapsBack [⟨"http://example.com".toList, "/tmp/x".toList⟩] (partName exBase i) u := by
    intro i hi
    have hx : ∀ s : Str, (∀ c ∈ s, isXmlChar c = true) → XmlOk s := fun s h => h
    match i, hi with
    | 0, _ => exact ⟨"http://example.com/l00000.xml".toList, by decide +kernel, by decide +kernel, by decide, hx _ (by decide), by decide⟩
    | 1, _ => exact ⟨"http://example.com/l00001.xml".toList, by decide +kernel, by decide +kernel, by decide, hx _ (by decide), by decide⟩
  have hline : ∀ p, p = exBase ∨ (∃ i, p = partName exBase i) → OneLine p ∧ p ≠ "/tmp/x".toList := by
    rintro p (rfl | ⟨i, rfl⟩)
    · unfold OneLine; decide
    · have hp : partName exBase i = "/tmp/x/l".toList ++ natPad 5 i ++ ".xml".toList := if_pos (by decide)
      refine ⟨?_, ?_⟩
      · rw [hp]
        simp only [OneLine, List.mem_append, not_or]
        refine ⟨⟨by decide, ?_⟩, by decide⟩
        intro h
        exact absurd (natPad_digits 5 i _ h) (by decide)
      · intro h
        have := congrArg List.length h
        have h2 := partName_longer exBase i
        rw [this] at h2
        exact absurd h2 (by decide)
  obtain ⟨h1, back, got, h2, h3, h4, h5, h6, -⟩ := C84_several_documents_partial .changeDump rfl {} [] _ exTwo l hl (by intro x hx; cases hx)
    exTwo_ok 1 exBase exEnv (fun _ => false)
    (fun u => fileDoc (runFs (fun _ => none) (({ l with max_sitemap_entries := some 1 } : DocList).write exEnv exBase).1
      ("/tmp/x".toList ++ u.drop "http://example.com".toList.length))) "http://example.com/l.xml".toList (by decide +kernel)
    (by unfold XmlOk; decide) (by
      intro i hi
      refine ⟨hmap i hi, ⟨0, by decide, by decide, ?_⟩, ?_, ?_⟩
      · show (0 : Rat) = ((0 : Int) : Rat) / 1000000
        rw [Rat.intCast_zero, Rat.div_def, Rat.zero_mul]
      · show XmlOk "Q2hlY2sgSW50ZWdyaXR5IQ==".toList
        unfold XmlOk; decide
      · show NoSpace "Q2hlY2sgSW50ZWdyaXR5IQ==".toList
        unfold NoSpace; decide) (.inl (by decide)) (fun _ => none) (by
      intro p u hp hu
      obtain ⟨hl1, hl2⟩ := hline p hp
      obtain ⟨pre, m, post, e1, e2, -⟩ := (C01_dst_to_src_partial _ p u (by
        intro m hm
        rw [List.mem_singleton] at hm
        rw [hm]; unfold Literal; decide) hl1).mp hu
      have hm : m = ⟨"http://example.com".toList, "/tmp/x".toList⟩ := by
        have : m ∈ pre ++ m :: post := by simp
        rw [← e1] at this
        exact List.mem_singleton.mp this
      subst hm
      rcases e2 with ⟨e2, -⟩ | ⟨t, rfl, rfl⟩
      · exact absurd e2 hl2
      · simp only [List.drop_left])
  refine ⟨l, _, back, got, hl, h1, h2, h3, ?_⟩
  have e1 : exTwo.map (·.uri) ⊆ got.map (·.uri) := by
    intro u hu
    obtain ⟨r, hr, rfl⟩ := List.mem_map.mp hu
    obtain ⟨r', hr', e⟩ := h5 r hr
    exact List.mem_map.mpr ⟨r', hr', e.uri⟩
  have e2 : got.map (·.uri) ⊆ exTwo.map (·.uri) := by
    intro u hu
    obtain ⟨r', hr', rfl⟩ := List.mem_map.mp hu
    obtain ⟨r, hr, e⟩ := h6 r' hr'
    exact List.mem_map.mpr ⟨r, hr, e.uri.symm⟩
  exact fun u => ⟨fun h => e2 h, fun h => e1 h⟩

end Resync
