import Verif.Proofs.ListRead
import Verif.Props.ListIndex
/-
C31: a resource list written to disk and read back.
-/

namespace Resync
open Py Resync.Spec

theorem sameList_of_mem {v a : Bool} {d : Dict Resource} {rs rs' : List Resource} (hd : WF d)
    (hrs : ∀ r, r ∈ rs ↔ dget d r.uri = some r) (hn : (rs.map (·.uri)).Nodup)
    (h : ∀ r', r' ∈ rs' → ∃ r ∈ rs, Recorded v a r r') (h2 : ∀ r ∈ rs, ∃ r' ∈ rs', Recorded v a r r')
    (hn' : (rs'.map (·.uri)).Nodup) : SameList v a d (addAll [] rs') := by
  have hg := dget_addAll rs' [] hn' (by intro r _; rfl)
  intro u
  cases h1 : dget d u with
  | none =>
    cases h3 : dget (addAll [] rs') u with
    | none => trivial
    | some y =>
      exfalso
      rcases (hg u y).mp h3 with h4 | ⟨h4, h5⟩
      · cases h4
      · obtain ⟨r, hr, hrec⟩ := h y h4
        have := (hrs r).mp hr
        rw [← hrec.uri, h5, h1] at this; cases this
  | some x =>
    have hxu : x.uri = u := hd.2 u x h1
    have hx : x ∈ rs := (hrs x).mpr (by rw [hxu]; exact h1)
    obtain ⟨y, hy, hrec⟩ := h2 x hx
    have := (hg u y).mpr (.inr ⟨hy, by rw [hrec.uri, hxu]⟩)
    rw [this]; exact hrec

theorem forall₂_mem {α β : Type} {R : α → β → Prop} {l : List α} {l' : List β} (h : List.Forall₂ R l l') :
    (∀ b ∈ l', ∃ a ∈ l, R a b) ∧ ∀ a ∈ l, ∃ b ∈ l', R a b := by
  induction h with
  | nil => simp
  | cons h _ ih =>
    constructor
    · intro b hb
      rcases List.mem_cons.mp hb with rfl | hb
      · exact ⟨_, by simp, h⟩
      · obtain ⟨a, h1, h2⟩ := ih.1 b hb; exact ⟨a, by simp [h1], h2⟩
    · intro b hb
      rcases List.mem_cons.mp hb with rfl | hb
      · exact ⟨_, by simp, h⟩
      · obtain ⟨a, h1, h2⟩ := ih.2 b hb; exact ⟨a, by simp [h1], h2⟩

theorem readComponent_eq (cfg : ReadCfg) (at_ u p : Str) (isFile : Bool) (t' : Elem) (c : Cont (List Resource)) (k : Nat)
    (hloc : componentLocation cfg at_ u isFile = .ok p) (hdoc : cfg.docAt p = some t')
    (hparse : parseXml cfg.sitemap listAdd { resources := [] } t' none (some false) = .ok (c, false, k)) :
    ∀ d, readComponent cfg at_ isFile d u = liftSm (c.resources.foldlM rlAdd d) := by
  intro d
  simp only [readComponent, hloc, ebind_ok, hdoc, hparse, liftSm]
  exact foldlM_lift _ _

theorem Spec.PublishedAs.mapsBack {mp : Mapper} {uw : Char → Bool} {p u : Str} (h : PublishedAs mp uw p u) : MapsBack mp p u :=
  ⟨h.out, h.back, h.ne, h.chars, h.cr⟩

theorem sharedIndexLink_none {ln : List Link} {u : Str} (h : ∀ x ∈ ln, dget x "rel".toList ≠ some "index".toList) :
    sharedIndexLink ln u = ln := by
  unfold sharedIndexLink
  rw [if_neg]
  rw [Option.isSome_iff_exists]
  rintro ⟨x, hx⟩
  have hx : ln.find? (fun l => decide (dget l sRel = some sIndex)) = some x := hx
  have h2 := List.find?_some hx
  exact h x (List.mem_of_find?_eq_some hx) (of_decide_eq_true h2)

/-- The part common to reading files and reading over the network: `at_` is where the list is read, `loc i` where component
`i` is read. -/
theorem list_round_trip (d : Dict Resource) (hd : WF d) (hres : ∀ k r, dget d k = some r → ResOk r)
    (l : LBI) (hl : iterAll d = .ok l.resources) (m : Nat) (hm : l.max_sitemap_entries = some m)
    (hidx : l.sitemapindex = false) (hmulti : l.allow_multifile = true)
    (cap : Str) (hcn : l.capability_name = some cap)
    (hcap : dget (defaultCapability l.md l.capability_name) "capability".toList = some cap)
    (hmd : MdOk (mdAttKeys l.sitemap) (defaultCapability l.md l.capability_name)) (hln : ∀ x ∈ l.ln, LinkOk x)
    (mp : Mapper) (hmp : l.mapper = some mp) (basename : Str) (env : StatEnv)
    (cfg : ReadCfg) (hcfg : cfg.sitemap = l.sitemap ∧ cfg.capability_name = some cap ∧ cfg.allow_multifile = true)
    (hbase : ∃ u, mp.dstToSrc basename = .ok u ∧ XmlOk u)
    (hparts : ∀ i < l.resources.length, (∃ u, MapsBack mp (partName basename i) u) ∧
      MicroTime (env.mtime (partName basename i)) ∧
      XmlOk (env.md5 (partName basename i)) ∧ NoSpace (env.md5 (partName basename i)))
    (fs : Str → Option FileState) (at_ : Str) (loc : Nat → Str)
    (hloc : ∀ i < l.resources.length, ∀ u, MapsBack mp (partName basename i) u →
      componentLocation cfg at_ u (isFileUri cfg.uw at_) = .ok (loc i))
    (hopen : cfg.docAt at_ = fileDoc (runFs fs (l.write env basename).1 basename))
    (hopenp : ∀ i < l.resources.length,
      cfg.docAt (loc i) = fileDoc (runFs fs (l.write env basename).1 (partName basename i))) :
    (l.write env basename).2 = .ok () ∧
    ∃ c, readList cfg { resources := [] } at_ = .ok c ∧
      SameList l.sitemap.spec_1_0 l.sitemap.add_lastmod d c.resources ∧
      SameMap (defaultCapability l.md l.capability_name) c.md ∧
      ((∀ x ∈ l.ln, dget x "rel".toList ≠ some "index".toList) → SameLinks l.ln c.ln) := by
  obtain ⟨hc1, hc2, hc3⟩ := hcfg
  have hlist : l.resources = listing d := by
    rw [iterAll_listing] at hl; exact (Except.ok.inj hl).symm
  have hmem : ∀ r, r ∈ l.resources ↔ dget d r.uri = some r := by
    intro r; rw [hlist]; exact mem_listing hd
  have hnod : (l.resources.map (·.uri)).Nodup := by
    rw [hlist, listing_uris hd]; exact (sortStr_perm _).nodup_iff.mpr hd.1
  have hrok : ∀ r ∈ l.resources, ResOk r := fun r hr => hres _ r ((hmem r).mp hr)
  by_cases hlen : l.resources.length ≤ max 1 m
  · -- one file
    rw [write_single l env basename m hm hlen, hidx] at hopen ⊢
    obtain ⟨t, t', rs', h1, h2, h3, h4⟩ := doc_round_trip l.sitemap (defaultCapability l.md l.capability_name) l.ln
      l.resources false hmd hln hrok
    rw [h1] at hopen ⊢
    refine ⟨rfl, ?_⟩
    have hn' : (rs'.map (·.uri)).Nodup := by rw [recorded_uris h3]; exact hnod
    obtain ⟨c, p1, p2, p3, p4⟩ := h4 rlAdd [] (addAll [] rs') (foldlM_rlAdd rs' [] hn' (by intro r _; rfl)) (some cap)
      (by intro c hc; cases hc; exact hcap) none (.inl rfl)
    have hdoc : cfg.docAt at_ = some t' := by
      rw [hopen]; simp only [writeDoc, runFs, if_true, fileDoc]; exact h2
    refine ⟨c, ?_, ?_, p3, fun _ => p4⟩
    · simp only [readList, hdoc, hc1, hc2, p1, liftSm, ebind_ok]; rfl
    · rw [p2]
      obtain ⟨f1, f2⟩ := forall₂_mem h3
      exact sameList_of_mem hd hmem hnod f1 f2 hn'
  · -- index and components
    have hlen' : max 1 m < l.resources.length := by omega
    obtain ⟨iu, hiu, hiux⟩ := hbase
    let cs := chunkSeq m l.resources
    have hflat : cs.flatten = l.resources := by
      show (chunkSeq m l.resources).flatten = _
      rw [chunkSeq, List.flatten_cons, slices_flatten (by omega), List.take_append_drop]
    have hne : ∀ c ∈ cs, c ≠ [] := by
      intro c hc
      rcases List.mem_cons.mp hc with rfl | hc
      · rw [ne_eq, List.take_eq_nil_iff]
        rintro (h | h)
        · omega
        · rw [h] at hlen'; simp at hlen'
      · exact (slices_bound (by omega) _ c hc).1
    have hcl : cs.length ≤ l.resources.length := by
      rw [← hflat, List.length_flatten]
      have : ∀ cs : List (List Resource), (∀ c ∈ cs, c ≠ []) → cs.length ≤ (cs.map List.length).sum := by
        intro cs
        induction cs with
        | nil => simp
        | cons c t ih =>
          intro h
          have h1 := List.length_pos_iff.mpr (h c (by simp))
          have h2 := ih (fun x hx => h x (by simp [hx]))
          simp only [List.length_cons, List.map_cons, List.sum_cons]; omega
      exact this cs hne
    -- the component documents
    have hdocs : ∀ i (hi : i < cs.length), ∃ t t' rs', partDoc l iu cs[i] = .ok t ∧ reparse t = some t' ∧
        List.Forall₂ (Recorded l.sitemap.spec_1_0 l.sitemap.add_lastmod) cs[i] rs' ∧
        ∃ c, parseXml l.sitemap listAdd { resources := [] } t' none (some false) = .ok (c, false, cs[i].length) ∧
          c.resources = rs' := by
      intro i hi
      obtain ⟨t, t', rs', h1, h2, h3, h4⟩ := doc_round_trip l.sitemap (defaultCapability l.md l.capability_name)
        (setIndexLink l.ln iu) cs[i] false hmd (setIndexLink_ok hln hiux)
        (fun r hr => hrok r (by rw [← hflat]; exact List.mem_flatten.mpr ⟨_, List.getElem_mem hi, hr⟩))
      have fold : ∀ (l acc : List Resource), l.foldlM listAdd acc = .ok (acc ++ l) := by
        intro l
        induction l with
        | nil => intro acc; simp [epure]
        | cons a t ih => intro acc; rw [List.foldlM_cons]; simp only [listAdd, ebind_ok]; rw [ih]; simp
      obtain ⟨c, p1, p2, -, -⟩ := h4 listAdd [] rs' (fold rs' []) none (by intro c hc; cases hc) (some false) (.inr rfl)
      exact ⟨t, t', rs', h1, h2, h3, c, p1, p2⟩
    haveI : Nonempty Elem := ⟨.mk [] [] none []⟩
    choose! T T' RS hT hT' hRec hparse using hdocs
    have hparts' : ∀ i, i < cs.length → ∃ u, MapsBack mp (partName basename i) u :=
      fun i hi => (hparts i (by omega)).1
    choose! U hU using hparts'
    let us := (List.range cs.length).map U
    let docs := (List.range cs.length).map T
    have husl : us.length = cs.length := by simp [us]
    have husg : ∀ i (hi : i < us.length), us[i] = U i := by intro i hi; simp [us]
    have hdocsl : docs.length = cs.length := by simp [docs]
    have hdocsg : ∀ i (hi : i < docs.length), docs[i] = T i := by intro i hi; simp [docs]
    -- distinct URIs
    have husnd : us.Nodup := by
      refine List.Nodup.map_on ?_ List.nodup_range
      intro i hi j hj hij
      have a := (hU i (List.mem_range.mp hi)).back
      have b := (hU j (List.mem_range.mp hj)).back
      rw [hij, b] at a
      exact (partName_injective basename (Except.ok.inj a)).symm
    -- the index
    have hent : ∀ r ∈ entriesOf env basename 0 us, ResOk r := by
      refine entriesOf_ok ?_ ?_
      · intro i hi
        rw [husg i hi]
        have := hU i (by rw [← husl]; exact hi)
        exact ⟨this.ne, this.chars, this.cr⟩
      · intro i hi
        rw [Nat.zero_add]
        exact (hparts i (by rw [husl] at hi; omega)).2
    obtain ⟨ti, ti', es', i1, i2, i3, i4⟩ := doc_round_trip l.sitemap (defaultCapability l.md l.capability_name)
      (sharedIndexLink l.ln iu) (entriesOf env basename 0 us) true hmd (sharedIndexLink_ok hln hiux) hent
    have hes : es'.map (·.uri) = us := by rw [recorded_uris i3, entriesOf_uris]
    have hesn : (es'.map (·.uri)).Nodup := by rw [hes]; exact husnd
    obtain ⟨ci, q1, q2, q3, q4⟩ := i4 rlAdd [] (addAll [] es') (foldlM_rlAdd es' [] hesn (by intro r _; rfl)) (some cap)
      (by intro c hc; cases hc; exact hcap) none (.inl rfl)
    have hwrite := write_multi_success l env basename m hm hlen' hmulti iu docs us ti
      (by rw [hmp]; exact mapFile_ok.mpr hiu)
      (by
        rw [List.forall₂_iff_get]
        refine ⟨hdocsl.symm, ?_⟩
        intro i h1 h2
        simp only [List.get_eq_getElem]
        rw [hdocsg i h2]
        exact hT i h1)
      husl
      (by
        intro i hi
        rw [husg i hi, hmp]
        exact mapFile_ok.mpr (hU i (by rw [← husl]; exact hi)).out)
      i1
    rw [hwrite] at hopen hopenp ⊢
    refine ⟨rfl, ?_⟩
    have hdoci : cfg.docAt at_ = some ti' := by
      rw [hopen]
      simp only [runFs_append, runFs, if_true, fileDoc]; exact i2
    have hdocp : ∀ i, i < cs.length → cfg.docAt (loc i) = some (T' i) := by
      intro i hi
      rw [hopenp i (by omega)]
      simp only [runFs_append, runFs, if_neg (partName_ne basename i)]
      have hi2 : i < docs.length := by rw [hdocsl]; exact hi
      have := runFs_partEffs fs basename 0 docs i hi2
      rw [Nat.zero_add] at this
      rw [this, hdocsg i hi2]
      exact hT' i hi
    -- reading
    let f : Str → List Resource := fun u => RS (us.idxOf u)
    have hfU : ∀ i, i < cs.length → f (U i) = RS i := by
      intro i hi
      have hi2 : i < us.length := by rw [husl]; exact hi
      show RS (us.idxOf (U i)) = RS i
      rw [← husg i hi2, husnd.idxOf_getElem]
    have hrd : ∀ u ∈ us, ∀ dd, readComponent cfg at_ (isFileUri cfg.uw at_) dd u = liftSm ((f u).foldlM rlAdd dd) := by
      intro u hu dd
      obtain ⟨i, hi, rfl⟩ := List.mem_map.mp hu
      have hi := List.mem_range.mp hi
      obtain ⟨c, hc1', hc2'⟩ := hparse i hi
      rw [hfU i hi, ← hc2']
      refine readComponent_eq cfg at_ (U i) (loc i) _ (T' i) c cs[i].length (hloc i (by omega) _ (hU i hi)) (hdocp i hi) ?_ dd
      rw [hc1]; exact hc1'
    have hkeys : dkeys ci.resources = us := by
      rw [q2, dkeys_addAll es' [] hesn (by intro r _; rfl), hes]; rfl
    have hperm : (dictUris ci.resources).Perm us := by
      unfold dictUris; rw [hkeys]; exact sortStr_perm us
    have hfold := foldlM_components f (readComponent cfg at_ (isFileUri cfg.uw at_)) (dictUris ci.resources)
      (fun u hu => hrd u (hperm.subset hu)) []
    have hflatf : us.flatMap f = (List.range cs.length).flatMap RS := by
      show ((List.range cs.length).map U).flatMap f = _
      rw [List.flatMap_map]
      have hg : ∀ i ∈ List.range cs.length, f (U i) = RS i := fun i hi => hfU i (List.mem_range.mp hi)
      unfold List.flatMap
      rw [List.map_congr_left hg]
    have hperm2 : ((dictUris ci.resources).flatMap f).Perm ((List.range cs.length).flatMap RS) := by
      rw [← hflatf]; exact hperm.flatMap_right f
    have hall : List.Forall₂ (Recorded l.sitemap.spec_1_0 l.sitemap.add_lastmod) l.resources
        ((List.range cs.length).flatMap RS) := by
      have hcs : l.resources = (List.range cs.length).flatMap (fun i => cs.getD i []) := by
        rw [List.flatMap_def]
        have : (List.range cs.length).map (fun i => cs.getD i []) = cs := by
          apply List.ext_getElem
          · simp
          · intro i h1 h2
            simp only [List.getElem_map, List.getElem_range]
            rw [List.getD_eq_getElem?_getD, List.getElem?_eq_getElem h2]; rfl
        rw [this, hflat]
      rw [hcs]
      have gen : ∀ ns : List Nat, (∀ i ∈ ns, i < cs.length) →
          List.Forall₂ (Recorded l.sitemap.spec_1_0 l.sitemap.add_lastmod) (ns.flatMap (fun i => cs.getD i []))
            (ns.flatMap RS) := by
        intro ns
        induction ns with
        | nil => intro _; exact .nil
        | cons a t ih =>
          intro h
          rw [List.flatMap_cons, List.flatMap_cons]
          refine List.rel_append ?_ (ih (fun i hi => h i (by simp [hi])))
          have ha := h a (by simp)
          rw [List.getD_eq_getElem?_getD, List.getElem?_eq_getElem ha]
          exact hRec a ha
      exact gen _ (fun i hi => List.mem_range.mp hi)
    have hnd2 : (((dictUris ci.resources).flatMap f).map (·.uri)).Nodup := by
      rw [(hperm2.map _).nodup_iff, recorded_uris hall]; exact hnod
    rw [foldlM_rlAdd _ [] hnd2 (by intro r _; rfl)] at hfold
    refine ⟨{ ci with resources := addAll [] ((dictUris ci.resources).flatMap f) }, ?_, ?_, q3, fun h => by rw [sharedIndexLink_none h] at q4; exact q4⟩
    · simp only [readList, hdoci, hc1, hc2, q1, liftSm, ebind_ok, hc3, not_true, if_false, if_true]
      rw [hfold]; rfl
    · obtain ⟨f1, f2⟩ := forall₂_mem hall
      refine sameList_of_mem hd hmem hnod ?_ ?_ hnd2
      · intro r' hr'; exact f1 r' (hperm2.subset hr')
      · intro r hr
        obtain ⟨r', h1, h2⟩ := f2 r hr
        exact ⟨r', hperm2.symm.subset h1, h2⟩

/-- Writing a resource list `d` and reading the file at `basename` gives a list with the same URIs and,
for each, the metadata that documents record (everything but the times of C33), together with the
list's own metadata.  This holds whether one file is enough or an index with components is needed, for
every limit, every starting contents `fs` of the file system, and all expressible entries, metadata and
links.  Assumptions: each file is published under a URI that maps back to it (`PublishedAs`, see C02);
opening a path that was written gives the document in that file (`hopen`). -/
theorem C31_round_trip_partial (d : Dict Resource) (hd : WF d) (hres : ∀ k r, dget d k = some r → ResOk r)
    (l : LBI) (hl : iterAll d = .ok l.resources) (m : Nat) (hm : l.max_sitemap_entries = some m)
    (hidx : l.sitemapindex = false) (hmulti : l.allow_multifile = true)
    (cap : Str) (hcn : l.capability_name = some cap)
    (hcap : dget (defaultCapability l.md l.capability_name) "capability".toList = some cap)
    (hmd : MdOk (mdAttKeys l.sitemap) (defaultCapability l.md l.capability_name)) (hln : ∀ x ∈ l.ln, LinkOk x)
    (mp : Mapper) (hmp : l.mapper = some mp) (basename : Str) (env : StatEnv)
    (cfg : ReadCfg) (hcfg : cfg.sitemap = l.sitemap ∧ cfg.capability_name = some cap ∧ cfg.allow_multifile = true ∧
      cfg.mapper = some mp)
    (hbase : ∃ u, mp.dstToSrc basename = .ok u ∧ XmlOk u) (hlocal : isFileUri cfg.uw basename = true)
    (hparts : ∀ i < l.resources.length, (∃ u, PublishedAs mp cfg.uw (partName basename i) u) ∧
      MicroTime (env.mtime (partName basename i)) ∧
      XmlOk (env.md5 (partName basename i)) ∧ NoSpace (env.md5 (partName basename i)))
    (fs : Str → Option FileState)
    (hopen : ∀ p, p = basename ∨ (∃ i, p = partName basename i) →
      cfg.docAt p = fileDoc (runFs fs (l.write env basename).1 p)) :
    (l.write env basename).2 = .ok () ∧
    ∃ c, readList cfg { resources := [] } basename = .ok c ∧
      SameList l.sitemap.spec_1_0 l.sitemap.add_lastmod d c.resources ∧
      SameMap (defaultCapability l.md l.capability_name) c.md ∧
      ((∀ x ∈ l.ln, dget x "rel".toList ≠ some "index".toList) → SameLinks l.ln c.ln) :=
  list_round_trip d hd hres l hl m hm hidx hmulti cap hcn hcap hmd hln mp hmp basename env cfg ⟨hcfg.1, hcfg.2.1, hcfg.2.2.1⟩
    hbase (fun i hi => ⟨(hparts i hi).1.imp (fun _ h => h.mapsBack), (hparts i hi).2⟩) fs basename (partName basename) (by
      intro i hi u hmap
      obtain ⟨u', hpub⟩ := (hparts i hi).1
      have : u' = u := Except.ok.inj (hpub.out.symm.trans hmap.out)
      subst this
      rw [hlocal]
      simp only [componentLocation, if_true, hpub.remote, hcfg.2.2.2, hpub.back]; rfl)
    (hopen _ (.inl rfl)) (fun i _ => hopen _ (.inr ⟨i, rfl⟩))

/-- The same for a reader elsewhere, who reads the list from the URI under which it is published, from a server that
delivers under the URI of a file that file.  No mapper is needed there.  (`hremote`: with http URIs; or with https URIs, which
the code takes for local files, unless authority is checked.) -/
theorem C31_remote_partial (d : Dict Resource) (hd : WF d) (hres : ∀ k r, dget d k = some r → ResOk r)
    (l : LBI) (hl : iterAll d = .ok l.resources) (m : Nat) (hm : l.max_sitemap_entries = some m)
    (hidx : l.sitemapindex = false) (hmulti : l.allow_multifile = true)
    (cap : Str) (hcn : l.capability_name = some cap)
    (hcap : dget (defaultCapability l.md l.capability_name) "capability".toList = some cap)
    (hmd : MdOk (mdAttKeys l.sitemap) (defaultCapability l.md l.capability_name)) (hln : ∀ x ∈ l.ln, LinkOk x)
    (mp : Mapper) (hmp : l.mapper = some mp) (basename : Str) (env : StatEnv)
    (cfg : ReadCfg) (hcfg : cfg.sitemap = l.sitemap ∧ cfg.capability_name = some cap ∧ cfg.allow_multifile = true)
    (uri : Str) (hbase : mp.dstToSrc basename = .ok uri) (hchars : XmlOk uri)
    (hremote : isFileUri cfg.uw uri = false ∨ cfg.check_url_authority = false ∧
      ∀ i < l.resources.length, ∀ u, mp.dstToSrc (partName basename i) = .ok u → isFileUri cfg.uw u = true)
    (hparts : ∀ i < l.resources.length, (∃ u, MapsBack mp (partName basename i) u) ∧
      MicroTime (env.mtime (partName basename i)) ∧
      XmlOk (env.md5 (partName basename i)) ∧ NoSpace (env.md5 (partName basename i)))
    (fs : Str → Option FileState)
    (hserve : ∀ p u, p = basename ∨ (∃ i, p = partName basename i) → mp.dstToSrc p = .ok u →
      cfg.docAt u = fileDoc (runFs fs (l.write env basename).1 p)) :
    (l.write env basename).2 = .ok () ∧
    ∃ c, readList cfg { resources := [] } uri = .ok c ∧
      SameList l.sitemap.spec_1_0 l.sitemap.add_lastmod d c.resources ∧
      SameMap (defaultCapability l.md l.capability_name) c.md ∧
      ((∀ x ∈ l.ln, dget x "rel".toList ≠ some "index".toList) → SameLinks l.ln c.ln) :=
  list_round_trip d hd hres l hl m hm hidx hmulti cap hcn hcap hmd hln mp hmp basename env cfg hcfg ⟨uri, hbase, hchars⟩
    hparts fs uri (fun i => match mp.dstToSrc (partName basename i) with | .ok u => u | .error _ => []) (by
      intro i hi u hpub
      rw [hpub.out]
      rcases hremote with h | ⟨h1, h2⟩
      · rw [h]; rfl
      · simp only [componentLocation, h2 i hi u hpub.out, not_true, if_false, h1]
        split <;> rfl)
    (hserve _ _ (.inl rfl) hbase) (by
      intro i hi
      obtain ⟨u, hpub⟩ := (hparts i hi).1
      simp only [hpub.out]
      exact hserve _ _ (.inr ⟨i, rfl⟩) hpub.out)

/-- three resources and the object that writes them, two to a file -/
def exDict : Dict Resource :=
  [("http://example.com/a".toList, { uri := "http://example.com/a".toList }),
   ("http://example.com/b".toList, { uri := "http://example.com/b".toList }),
   ("http://example.com/c".toList, { uri := "http://example.com/c".toList })]

/-- reads the files that `exList 2` writes into an empty directory -/
def exCfg : ReadCfg where
  mapper := some [⟨"http://example.com".toList, "/tmp/x".toList⟩]
  docAt := fun p => fileDoc (runFs (fun _ => none) ((exList 2).write exEnv exBase).1 p)

theorem plainRes_ok (u : Str) (h1 : u ≠ []) (h2 : XmlOk u) (h3 : '\r' ∉ u) : ResOk { uri := u } where
  uri_ne := h1
  uri := h2
  uri_cr := h3
  change := by unfold ValidChange; simp
  timestamp := by intro t ht; cases ht
  ts_datetime := by intro t ht; cases ht
  ts_at := by intro t ht; cases ht
  ts_completed := by intro t ht; cases ht
  ts_from := by intro t ht; cases ht
  ts_until := by intro t ht; cases ht
  mime_type := by intro t ht; cases ht
  path := by intro t ht; cases ht
  capability := by intro t ht; cases ht
  md5 := by intro t ht; cases ht
  sha1 := by intro t ht; cases ht
  sha256 := by intro t ht; cases ht
  ln := by intro t ht; cases ht

theorem mem_of_dget {d : Dict Resource} {k : Str} {r : Resource} (h : dget d k = some r) : (k, r) ∈ d := by
  induction d with
  | nil => cases h
  | cons p t ih =>
    obtain ⟨a, b⟩ := p
    simp only [dget] at h
    split at h
    · rename_i hk; cases h; rw [hk]; simp
    · exact List.mem_cons_of_mem _ (ih h)

/-- the hypotheses of C31 are met: an index and two components -/
example : ∃ c, readList exCfg { resources := [] } exBase = .ok c ∧ SameList false false exDict c.resources := by
  have hmap : ∀ i, i < 3 → ∃ u, PublishedAs [⟨"http://example.com".toList, "/tmp/x".toList⟩] (fun _ => false)
      (partName exBase i) u := by
    intro i hi
    have hx : ∀ s : Str, (∀ c ∈ s, isXmlChar c = true) → XmlOk s := fun s h => h
    match i, hi with
    | 0, _ => exact ⟨"http://example.com/l00000.xml".toList, by decide +kernel, by decide +kernel, by decide, by decide, hx _ (by decide), by decide⟩
    | 1, _ => exact ⟨"http://example.com/l00001.xml".toList, by decide +kernel, by decide +kernel, by decide, by decide, hx _ (by decide), by decide⟩
    | 2, _ => exact ⟨"http://example.com/l00002.xml".toList, by decide +kernel, by decide +kernel, by decide, by decide, hx _ (by decide), by decide⟩
  have hall : ∀ p ∈ exDict, p.2 = { uri := p.1 : Resource } ∧ p.1 ≠ [] ∧ (∀ c ∈ p.1, isXmlChar c = true) ∧
      '\r' ∉ p.1 := by decide
  have hwf : WF exDict := by
    refine ⟨by decide, ?_⟩
    intro k r h
    have h1 : r = { uri := k : Resource } := (hall _ (mem_of_dget h)).1
    rw [h1]
  have hmd : defaultCapability [] (some "resourcelist".toList) = [("capability".toList, "resourcelist".toList)] := by
    decide
  have key := C31_round_trip_partial exDict hwf ?h1 (exList 2) (by decide) 2 rfl rfl rfl
    "resourcelist".toList rfl (by decide) ?h2 (by intro x hx; cases hx) _ rfl exBase exEnv exCfg ⟨rfl, rfl, rfl, rfl⟩
    ⟨"http://example.com/l.xml".toList, by decide +kernel, by unfold XmlOk; decide⟩ (by decide) ?h3 (fun _ => none)
    (fun p _ => rfl)
  · obtain ⟨_, c, h1, h2, -⟩ := key
    exact ⟨c, h1, h2⟩
  · intro k r h
    obtain ⟨h1, h2, h3, h4⟩ := hall _ (mem_of_dget h)
    simp only at h1 h2 h3 h4
    rw [h1]; exact plainRes_ok k h2 h3 h4
  · show MdOk _ (defaultCapability [] (some "resourcelist".toList))
    rw [hmd]
    refine ⟨by decide, by decide, ?_, by unfold ValidChange; decide, ?_⟩
    · intro k v hv
      simp only [dget] at hv
      split at hv
      · cases hv; unfold XmlOk; decide
      · cases hv
    · intro v hv
      have : dget [("capability".toList, "resourcelist".toList)] "length".toList = none := by decide
      rw [this] at hv; cases hv
  · intro i hi
    refine ⟨hmap i hi, ⟨0, by decide, by decide, ?_⟩, ?_, ?_⟩
    · show (0 : Rat) = ((0 : Int) : Rat) / 1000000
      rw [Rat.intCast_zero, Rat.div_def, Rat.zero_mul]
    · show XmlOk "Q2hlY2sgSW50ZWdyaXR5IQ==".toList
      unfold XmlOk; decide
    · show NoSpace "Q2hlY2sgSW50ZWdyaXR5IQ==".toList
      unfold NoSpace; decide

/-- Every https URI counts as a local file, so a local reader does not map the component URIs of an
index published under https back to the files: it tries to get them from the server. -/
theorem C31_https_violated (cfg : ReadCfg) (index rest : Str) (h : cfg.check_url_authority = false) :
    componentLocation cfg index ("https:".toList ++ rest) true = .ok ("https:".toList ++ rest) := by
  have h1 : isFileUri cfg.uw ("https:".toList ++ rest) = true := by
    have h2 : schemeMatch34 cfg.uw ("https:".toList ++ rest) = false := by
      show schemeMatch34 cfg.uw ('h' :: 't' :: 't' :: 'p' :: 's' :: ':' :: rest) = false
      simp [schemeMatch34]
    unfold isFileUri; rw [h2]; simp
  simp only [componentLocation, if_true, h1, h]
  rfl

/-- The same three resources published under https: written without error, but reading the local
copy fails unless the server can be reached. -/
theorem C31_https_read_violated : ∃ (l : LBI) (cfg : ReadCfg),
    l.mapper = some [⟨"https://example.com".toList, "/tmp/x".toList⟩] ∧ cfg.mapper = l.mapper ∧
    (l.write exEnv exBase).2 = .ok () ∧
    (∀ p, cfg.docAt p = fileDoc (runFs (fun _ => none) (l.write exEnv exBase).1 p)) ∧
    (match readList cfg { resources := [] } exBase with | .error e => e = .index | .ok _ => False) := by
  let l : LBI := { exList 2 with mapper := some [⟨"https://example.com".toList, "/tmp/x".toList⟩] }
  refine ⟨l, { mapper := l.mapper, docAt := fun p => fileDoc (runFs (fun _ => none) (l.write exEnv exBase).1 p) },
    rfl, rfl, by decide +kernel, fun p => rfl, ?_⟩
  have h : (match readList { mapper := l.mapper, docAt := fun p => fileDoc (runFs (fun _ => none) (l.write exEnv exBase).1 p) }
      { resources := [] } exBase with | .error e => decide (e = .index) | .ok _ => false) = true := by decide +kernel
  revert h
  cases readList { mapper := l.mapper, docAt := fun p => fileDoc (runFs (fun _ => none) (l.write exEnv exBase).1 p) }
      { resources := [] } exBase with
  | error e => intro h; exact of_decide_eq_true h
  | ok c => intro h; cases h

end Resync
