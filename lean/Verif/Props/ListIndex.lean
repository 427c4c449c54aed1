import Verif.Proofs.ListIndex
/-
C28–C30 and C32: lists written as several sitemaps.
-/

namespace Resync
open Py Resync.Spec

/-! ### C28: multi-file output loses nothing -/

theorem max_two {m : Nat} (h : 2 ≤ m) : max 1 m = m := by omega

theorem mapIdx_zero (basename : Str) (docs : List Elem) :
    docs.mapIdx (fun i t => (partName basename (0 + i), t)) = docs.mapIdx (fun i t => (partName basename i, t)) := by
  congr 1; funext i t; rw [Nat.zero_add]

/-- The entries fit in one file exactly when there are at most max_sitemap_entries of them; then the
one file has an entry for each, in order. -/
theorem C28_single (l : LBI) (env : StatEnv) (basename : Str) (m : Nat) (hm : l.max_sitemap_entries = some m)
    (hidx : l.sitemapindex = false) (hlen : l.resources.length ≤ m) (hok : (l.write env basename).2 = .ok ()) :
    ∃ doc, written (l.write env basename).1 = [(basename, doc)] ∧
      (entries "url" doc).map entryUri = l.resources.map (fun r => some r.uri) := by
  rw [write_single l env basename m hm (by omega)] at hok ⊢
  rw [hidx] at hok ⊢
  cases hd : resourcesAsXml l.sitemap (defaultCapability l.md l.capability_name) l.ln l.resources false with
  | error e => rw [hd] at hok; simp [writeDoc] at hok
  | ok t => exact ⟨t, rfl, resourceElements_uris (entries_url hd)⟩

/-- A list with more than max_sitemap_entries entries is written as component files part_name(basename, 0),
part_name(basename, 1), ... followed by the index at `basename`.  The entries of the components, one
after the other, are exactly the entries of a single document for the whole list; no component is
empty and none has more than max_sitemap_entries entries.  Missing from the full claim: the limit 1,
for which the bound fails (`C28_limit_one_violated`). -/
theorem C28_components_partial (l : LBI) (env : StatEnv) (basename : Str) (m : Nat)
    (hm : l.max_sitemap_entries = some m) (h2 : 2 ≤ m) (hlen : m < l.resources.length)
    (hok : (l.write env basename).2 = .ok ()) :
    ∃ (docs : List Elem) (index whole : Elem), written (l.write env basename).1 =
        docs.mapIdx (fun i t => (partName basename i, t)) ++ [(basename, index)] ∧
      resourcesAsXml l.sitemap l.md l.ln l.resources false = .ok whole ∧
      docs.flatMap (entries "url") = entries "url" whole ∧
      (docs.flatMap (entries "url")).map entryUri = l.resources.map (fun r => some r.uri) ∧
      ∀ t ∈ docs, 1 ≤ (entries "url" t).length ∧ (entries "url" t).length ≤ m := by
  obtain ⟨iu, docs, us, idx, h1, h2', h3, h4, h5, h6⟩ := write_multi_ok l env basename m hm (by omega) hok
  have hR : l.resources ≠ [] := by intro h; rw [h] at hlen; simp at hlen
  rw [chunkSeq_eq h2 hR] at h2'
  have hall := components_entries h2'
  rw [slices_flatten (by omega)] at hall
  have hw := (resourcesAsXml_ok (s := l.sitemap) (md := l.md) (ln := l.ln) (rs := l.resources) (index := false)).mpr
    ⟨_, hall, rfl⟩
  refine ⟨docs, idx, _, ?_, hw, ?_, resourceElements_uris hall, ?_⟩
  · rw [h6, written_append, written_partEffs, mapIdx_zero]; rfl
  · have := entries_url hw
    rw [hall] at this
    exact Except.ok.inj this
  · intro t ht
    obtain ⟨i, hi, rfl⟩ := List.mem_iff_getElem.mp ht
    have hi' : i < (slices m l.resources).length := by rw [h2'.length_eq]; exact hi
    have hd := (List.forall₂_iff_get.mp h2').2 i hi' hi
    have hl := (resourceElements_tag (entries_url hd)).2
    have hb := slices_bound (by omega) l.resources _ (List.getElem_mem hi')
    simp only [List.get_eq_getElem] at hl
    rw [hl]
    exact ⟨List.length_pos_iff.mpr hb.1, hb.2⟩

/-- For every limit (also 0 and 1) nothing is lost or duplicated and no component is empty. -/
theorem C28_nothing_lost (l : LBI) (env : StatEnv) (basename : Str) (m : Nat)
    (hm : l.max_sitemap_entries = some m) (hlen : max 1 m < l.resources.length)
    (hok : (l.write env basename).2 = .ok ()) :
    ∃ (docs : List Elem) (index : Elem), written (l.write env basename).1 =
        docs.mapIdx (fun i t => (partName basename i, t)) ++ [(basename, index)] ∧
      (docs.flatMap (entries "url")).map entryUri = l.resources.map (fun r => some r.uri) ∧
      ∀ t ∈ docs, 1 ≤ (entries "url" t).length ∧ (entries "url" t).length ≤ max 2 m := by
  obtain ⟨iu, docs, us, idx, h1, h2', h3, h4, h5, h6⟩ := write_multi_ok l env basename m hm (by omega) hok
  have hall := components_entries h2'
  have hflat : (chunkSeq m l.resources).flatten = l.resources := by
    rw [chunkSeq, List.flatten_cons, slices_flatten (by omega), List.take_append_drop]
  rw [hflat] at hall
  refine ⟨docs, idx, ?_, resourceElements_uris hall, ?_⟩
  · rw [h6, written_append, written_partEffs, mapIdx_zero]; rfl
  · intro t ht
    obtain ⟨i, hi, rfl⟩ := List.mem_iff_getElem.mp ht
    have hi' : i < (chunkSeq m l.resources).length := by rw [h2'.length_eq]; exact hi
    have hd := (List.forall₂_iff_get.mp h2').2 i hi' hi
    have hl := (resourceElements_tag (entries_url hd)).2
    simp only [List.get_eq_getElem] at hl
    rw [hl]
    have hmem : (chunkSeq m l.resources)[i] ∈ chunkSeq m l.resources := List.getElem_mem hi'
    generalize (chunkSeq m l.resources)[i] = c at hmem
    rw [chunkSeq] at hmem
    rcases List.mem_cons.mp hmem with rfl | hc
    · rw [List.length_take]; omega
    · have hb := slices_bound (by omega) _ c hc
      exact ⟨List.length_pos_iff.mpr hb.1, hb.2⟩

/-- three resources at /tmp/x, published at http://example.com -/
def exList (m : Nat) : LBI where
  resources := [{ uri := "http://example.com/a".toList }, { uri := "http://example.com/b".toList },
    { uri := "http://example.com/c".toList }]
  capability_name := some "resourcelist".toList
  max_sitemap_entries := some m
  mapper := some [⟨"http://example.com".toList, "/tmp/x".toList⟩]

def exEnv : StatEnv := { mtime := fun _ => 0, md5 := fun _ => "Q2hlY2sgSW50ZWdyaXR5IQ==".toList }

def exBase : Str := "/tmp/x/l.xml".toList

/-- With the limit 1 the second component has two entries. -/
theorem C28_limit_one_violated : ∃ (l : LBI) (env : StatEnv) (basename : Str) (doc : Elem),
    l.max_sitemap_entries = some 1 ∧ (l.write env basename).2 = .ok () ∧
    (partName basename 1, doc) ∈ written (l.write env basename).1 ∧ (entries "url" doc).length = 2 := by
  have h : ((written ((exList 1).write exEnv exBase).1).map (fun p => (p.1, (entries "url" p.2).length)))[1]? =
      some (partName exBase 1, 2) := by decide +kernel
  rw [List.getElem?_map, Option.map_eq_some_iff] at h
  obtain ⟨⟨f, d⟩, h1, h2⟩ := h
  simp only [Prod.mk.injEq] at h2
  obtain ⟨rfl, h2⟩ := h2
  exact ⟨exList 1, exEnv, exBase, d, rfl, by decide +kernel, List.mem_of_getElem? h1, h2⟩

/-- the hypotheses are met: limit 2, three entries, the write succeeds -/
example : (exList 2).max_sitemap_entries = some 2 ∧ 2 < (exList 2).resources.length ∧
    ((exList 2).write exEnv exBase).2 = .ok () ∧
    ((written ((exList 2).write exEnv exBase).1).map (·.1)) =
      ["/tmp/x/l00000.xml".toList, "/tmp/x/l00001.xml".toList, exBase] := by decide +kernel

example : ((exList 5).write exEnv exBase).2 = .ok () ∧ (exList 5).resources.length ≤ 5 := by decide +kernel

/-! ### C29: components one by one -/

/-- `requires_multifile()` says False exactly when one file is enough. -/
theorem C29_single (l : LBI) (m : Nat) (hm : l.max_sitemap_entries = some m) (h1 : 1 ≤ m) :
    l.requiresMultifile = .ok none ↔ l.len ≤ m := by
  unfold LBI.requiresMultifile
  rw [hm]
  simp only
  by_cases h : l.len ≤ m
  · simp [h]
  · rw [if_neg h, if_neg (by omega : m ≠ 0)]; simp [h]

/-- `requires_multifile()` is the number of component files that write() makes, and as_xml_part(i) has
the same entries as the file part_name(basename, i).  (For limits of at least 2.) -/
theorem C29_parts_partial (l : LBI) (env : StatEnv) (basename name : Str) (m : Nat)
    (hm : l.max_sitemap_entries = some m) (h2 : 2 ≤ m) (hcount : l.count = none ∨ l.count = some l.resources.length)
    (hlen : m < l.resources.length) (hok : (l.write env basename).2 = .ok ()) :
    ∃ (docs : List Elem) (index : Elem), written (l.write env basename).1 =
        docs.mapIdx (fun i t => (partName basename i, t)) ++ [(basename, index)] ∧
      l.requiresMultifile = .ok (some docs.length) ∧
      ∀ i (hi : i < docs.length), ∃ t, l.asXmlPart name i = .ok t ∧ entries "url" t = entries "url" docs[i] := by
  obtain ⟨iu, docs, us, idx, h1, h2', h3, h4, h5, h6⟩ := write_multi_ok l env basename m hm (by omega) hok
  have hR : l.resources ≠ [] := by intro h; rw [h] at hlen; simp at hlen
  rw [chunkSeq_eq h2 hR] at h2'
  have hL : l.len = l.resources.length := by rcases hcount with h | h <;> simp [LBI.len, h]
  have hdl : docs.length = (l.resources.length + m - 1) / m := by
    rw [← h2'.length_eq]; simp [slices]
  have hreq : l.requiresMultifile = .ok (some docs.length) := by
    unfold LBI.requiresMultifile
    rw [hm]
    simp only
    rw [hL, if_neg (by omega), if_neg (by omega), hdl]
  refine ⟨docs, idx, by rw [h6, written_append, written_partEffs, mapIdx_zero]; rfl, hreq, ?_⟩
  intro i hi
  have hi' : i < (slices m l.resources).length := by rw [h2'.length_eq]; exact hi
  have hd := (List.forall₂_iff_get.mp h2').2 i hi' hi
  simp only [List.get_eq_getElem] at hd
  have hsl : (slices m l.resources)[i] = (l.resources.drop (i * m)).take m := by
    simp only [slices, List.getElem_map, List.getElem_range]
  have hi2 : i * m < l.resources.length := by
    rw [hdl] at hi
    have h : (i + 1) * m ≤ l.resources.length + m - 1 := (Nat.le_div_iff_mul_le (by omega)).mp hi
    rw [Nat.succ_mul] at h
    omega
  have hstop : (l.resources.drop (i * m)).take
      ((if i * m + m > l.len then l.len else i * m + m) - i * m) = (l.resources.drop (i * m)).take m := by
    rw [hL]
    by_cases h : i * m + m > l.resources.length
    · rw [if_pos h, List.take_of_length_le (by rw [List.length_drop]), List.take_of_length_le (by rw [List.length_drop]; omega)]
    · rw [if_neg h, Nat.add_sub_cancel_left]
  have hel := entries_url hd
  rw [hsl] at hel
  have hw := (resourcesAsXml_ok (s := l.sitemap) (md := defaultCapability [] l.capability_name)
    (ln := setIndexLink [] name) (rs := (l.resources.drop (i * m)).take m) (index := false)).mpr ⟨_, hel, rfl⟩
  obtain ⟨t, hw⟩ : ∃ t, _ = Except.ok t := ⟨_, hw⟩
  refine ⟨t, ?_, ?_⟩
  · unfold LBI.asXmlPart
    rw [hreq, ebind_ok, hm]
    simp only
    rw [if_neg (by omega), hstop, hw]
  · have := entries_url hw
    rw [hel] at this
    exact (Except.ok.inj this).symm

/-- as_xml_part() refuses part numbers past the end ... -/
theorem C29_part_too_high (l : LBI) (basename : Str) (m n : Nat) (hm : l.max_sitemap_entries = some m)
    (h : l.len < n * m) : ∃ e, l.asXmlPart basename n = .error e := by
  unfold LBI.asXmlPart
  cases hr : l.requiresMultifile with
  | error e => exact ⟨e, rfl⟩
  | ok o =>
    rw [ebind_ok, hm]
    cases o with
    | none => exact ⟨_, rfl⟩
    | some k => simp only; rw [if_pos h]; exact ⟨_, rfl⟩

/-- ... except the first one past the end when the last component is full: as_xml_part(N), where N is
the number of components, then gives a document without entries although there is no such file. -/
theorem C29_empty_part_violated (l : LBI) (basename : Str) (m n : Nat) (hm : l.max_sitemap_entries = some m)
    (h1 : 1 ≤ m) (h2 : 2 ≤ n) (hcount : l.count = none) (hlen : l.resources.length = n * m) :
    l.requiresMultifile = .ok (some n) ∧ ∃ t, l.asXmlPart basename n = .ok t ∧ entries "url" t = [] := by
  have hL : l.len = n * m := by simp [LBI.len, hcount, hlen]
  have hnm : m < n * m := by
    calc m = 1 * m := by omega
      _ < n * m := Nat.mul_lt_mul_of_pos_right (by omega) (by omega)
  have hreq : l.requiresMultifile = .ok (some n) := by
    unfold LBI.requiresMultifile
    rw [hm]
    simp only
    rw [hL, if_neg (by omega), if_neg (by omega)]
    congr 2
    have : n * m + m - 1 = m - 1 + m * n := by rw [Nat.mul_comm n m]; omega
    rw [this, Nat.add_mul_div_left _ _ (by omega), Nat.div_eq_of_lt (by omega), Nat.zero_add]
  refine ⟨hreq, ?_⟩
  have hw := (resourcesAsXml_ok (s := l.sitemap) (md := defaultCapability [] l.capability_name)
    (ln := setIndexLink [] basename) (rs := []) (index := false)).mpr ⟨[], rfl, rfl⟩
  have hdrop : l.resources.drop (n * m) = [] := by rw [List.drop_eq_nil_iff]; omega
  obtain ⟨t, hw⟩ : ∃ t, _ = Except.ok t := ⟨_, hw⟩
  refine ⟨t, ?_, ?_⟩
  · unfold LBI.asXmlPart
    rw [hreq, ebind_ok, hm]
    simp only
    rw [if_neg (by omega), hdrop, List.take_nil, hw]
  · have := entries_url hw
    exact (Except.ok.inj this).symm

/-- For the limit 1 the numbers disagree: three entries, requires_multifile() says 3, write() makes two
components. -/
theorem C29_limit_one_violated : (exList 1).requiresMultifile = .ok (some 3) ∧
    ((exList 1).write exEnv exBase).2 = .ok () ∧
    (written ((exList 1).write exEnv exBase).1).map (·.1) = [partName exBase 0, partName exBase 1, exBase] := by
  decide +kernel

example : (exList 2).requiresMultifile = .ok (some 2) := by decide +kernel

/-- as_xml() of a list that needs several files lists the names of the files that write() makes. -/
theorem C29_index (l : LBI) (basename : Str) (m : Nat) (hm : l.max_sitemap_entries = some m) (h1 : 1 ≤ m)
    (hlen : m < l.len) : ∃ t, l.asXml true basename = .ok t ∧
      (entries "sitemap" t).map entryUri =
        (List.range ((l.len + m - 1) / m)).map (fun i => some (partName basename i)) := by
  have hreq : l.requiresMultifile = .ok (some ((l.len + m - 1) / m)) := by
    unfold LBI.requiresMultifile
    rw [hm]
    simp only
    rw [if_neg (by omega), if_neg (by omega)]
  have hall : ∀ ns : List Nat, ∃ es, resourceElements {} "sitemap".toList
      (ns.map (fun i => { uri := partName basename i : Resource })) = .ok es := by
    intro ns
    induction ns with
    | nil => exact ⟨[], rfl⟩
    | cons a t ih =>
      obtain ⟨es, hes⟩ := ih
      exact ⟨_ :: es, by rw [List.map_cons]; simp only [resourceElements, hes, ebind_ok]; rfl⟩
  obtain ⟨es, hes⟩ := hall (List.range ((l.len + m - 1) / m))
  have hw := (resourcesAsXml_ok (s := {}) (md := defaultCapability [] l.capability_name)
    (ln := []) (rs := (List.range ((l.len + m - 1) / m)).map (fun i => { uri := partName basename i : Resource }))
    (index := true)).mpr ⟨es, hes, rfl⟩
  obtain ⟨t, hw⟩ : ∃ t, _ = Except.ok t := ⟨_, hw⟩
  refine ⟨t, ?_, ?_⟩
  · unfold LBI.asXml
    rw [hreq, ebind_ok]
    simp only [if_true]
    unfold LBI.asXmlIndex
    rw [hreq, ebind_ok]
    simp only
    rw [hw]
  · have h := resourceElements_uris (entries_sitemap hw)
    rw [List.map_map] at h
    exact h

/-! ### C30: names -/

/-- Component names are pairwise different and different from the name of the index, for every
basename and all part numbers. -/
theorem C30_names (basename : Str) (i j : Nat) :
    (i ≠ j → partName basename i ≠ partName basename j) ∧ partName basename i ≠ basename :=
  ⟨fun h e => h (partName_injective basename e), partName_ne basename i⟩

/-- Components stay next to the index and have its suffix when that is .xml. -/
theorem C30_same_place (stem : Str) (i : Nat) :
    partName (stem ++ ".xml".toList) i = stem ++ natPad 5 i ++ ".xml".toList := by
  unfold partName
  have h1 : endsWith (stem ++ ".xml".toList) ".xml".toList = true := by
    simp [endsWith]
  rw [if_pos h1]
  congr 2
  have : (stem ++ ".xml".toList).length - 4 = stem.length := by
    rw [List.length_append]; exact Nat.add_sub_cancel ..
  rw [this, List.take_left]

/-- Two different lists can get the same component names: a list at `x` and one at `x.xml`. -/
theorem C30_other_basename_violated (stem : Str) (i : Nat) (h : endsWith stem ".xml".toList = false) :
    partName stem i = partName (stem ++ ".xml".toList) i ∧ stem ≠ stem ++ ".xml".toList := by
  constructor
  · rw [C30_same_place]; unfold partName; rw [h]; rfl
  · intro e
    have := congrArg List.length e
    rw [List.length_append] at this
    have h4 : ".xml".toList.length = 4 := rfl
    omega

example : partName "/tmp/sitemap.xml".toList 3 = "/tmp/sitemap00003.xml".toList ∧
    partName "/tmp/sitemap".toList 123456 = "/tmp/sitemap123456.xml".toList := by decide

/-! ### C32: crash points -/

theorem runFs_append (fs : Str → Option FileState) (a b : List FsEff) : runFs fs (a ++ b) = runFs (runFs fs a) b := by
  induction a generalizing fs with
  | nil => rfl
  | cons e t ih => cases e <;> exact ih _

theorem runFs_other (fs : Str → Option FileState) (tr : List FsEff) (f : Str) (h : ∀ e ∈ tr, e.file ≠ f) :
    runFs fs tr f = fs f := by
  induction tr generalizing fs with
  | nil => rfl
  | cons e t ih =>
    have h1 := h e (by simp)
    have h2 := ih (h := fun e he => h e (by simp [he]))
    cases e with
    | openW g => rw [runFs, h2]; exact if_neg (Ne.symm h1)
    | finish g d => rw [runFs, h2]; exact if_neg (Ne.symm h1)

theorem partEffs_files (basename : Str) (k : Nat) (docs : List Elem) :
    ∀ e ∈ partEffs basename k docs, ∃ i, k ≤ i ∧ e.file = partName basename i := by
  induction docs generalizing k with
  | nil => simp [partEffs]
  | cons t ts ih =>
    intro e he
    simp only [partEffs, List.mem_cons] at he
    rcases he with rfl | rfl | he
    · exact ⟨k, le_refl _, rfl⟩
    · exact ⟨k, le_refl _, rfl⟩
    · obtain ⟨i, h1, h2⟩ := ih (k + 1) e he; exact ⟨i, by omega, h2⟩

theorem runFs_partEffs (fs : Str → Option FileState) (basename : Str) (k : Nat) (docs : List Elem) (i : Nat)
    (hi : i < docs.length) :
    runFs fs (partEffs basename k docs) (partName basename (k + i)) = some (.complete docs[i]) := by
  induction docs generalizing k i fs with
  | nil => simp at hi
  | cons t ts ih =>
    simp only [partEffs, runFs]
    cases i with
    | zero =>
      rw [runFs_other]
      · simp
      · intro e he h
        obtain ⟨j, h1, h2⟩ := partEffs_files basename (k + 1) ts e he
        have := partName_injective basename (h2.symm.trans h)
        omega
    | succ i =>
      have e : k + (i + 1) = k + 1 + i := by omega
      rw [e, ih _ _ i (by simpa using hi)]; rfl

/-- At every crash point of every write, finished or not: if the file at `basename` has been touched
(the event of opening it for writing is among the events `pre` so far) then either the list needs no
components, or all the components part_name(basename, i) are completely written, and what is written
at `basename` from there on is an index with one entry for each of them, whose URI is the one that
the mapper gives for the component. -/
theorem C32_index_last (l : LBI) (env : StatEnv) (basename : Str) (m : Nat) (hm : l.max_sitemap_entries = some m)
    (pre : List FsEff) (hpre : pre <+: (l.write env basename).1) (hidx : FsEff.openW basename ∈ pre)
    (hlen : max 1 m < l.resources.length) (fs : Str → Option FileState) :
    ∃ (docs : List Elem) (us : List Str) (mp : Mapper), us.length = docs.length ∧ l.mapper = some mp ∧
      (∀ i (h : i < docs.length), runFs fs pre (partName basename i) = some (.complete docs[i])) ∧
      (∀ i (h : i < us.length), mp.dstToSrc (partName basename i) = .ok us[i]) ∧
      (∀ doc, FsEff.finish basename doc ∈ (l.write env basename).1 →
        (entries "sitemap" doc).map entryUri = us.map some) ∧
      docs.flatMap (fun d => (entries "url" d).map entryUri) = l.resources.map (fun r => some r.uri) := by
  have hmem : ∀ e ∈ pre, e ∈ (l.write env basename).1 := fun e he => hpre.subset he
  have key : ∃ iu effs index, mapFile l.mapper basename = .ok iu ∧
      partsRun l env basename iu (chunkSeq m l.resources) [] = (effs, .ok index) ∧
      (l.write env basename).1 = effs ++ (writeDoc basename (indexDoc l iu index)).1 := by
    have h0 := hmem _ hidx
    rw [write_multi l env basename m hm hlen] at h0 ⊢
    cases ha : l.allow_multifile with
    | false => rw [ha] at h0; simp at h0
    | true =>
      rw [ha] at h0
      simp only [not_true, if_false] at h0 ⊢
      cases hmf : mapFile l.mapper basename with
      | error e => rw [hmf] at h0; simp at h0
      | ok iu =>
        rw [hmf] at h0
        simp only at h0 ⊢
        have hf := partsRun_files l env basename iu (chunkSeq m l.resources) []
        rcases hp : partsRun l env basename iu (chunkSeq m l.resources) [] with ⟨effs, e | index⟩
        · rw [hp] at h0 hf
          obtain ⟨k, hk⟩ := hf _ h0
          exact absurd hk.symm (partName_ne basename k)
        · exact ⟨iu, effs, index, rfl, hp, rfl⟩
  obtain ⟨iu, effs, index, hiu, hp, htr⟩ := key
  obtain ⟨docs, us, h1, h2, h3, h4, h5⟩ := (partsRun_ok l env basename iu _ _ _ _).mp hp
  have hus : us.length = docs.length := by rw [h2, h1.length_eq]
  -- the prefix contains all events of the components
  have hfull : effs <+: pre := by
    have hp1 : pre <+: effs ++ (writeDoc basename (indexDoc l iu index)).1 := htr ▸ hpre
    rcases List.prefix_or_prefix_of_prefix hp1 (List.prefix_append effs _) with h | h
    · exfalso
      have h0 := h.subset hidx
      have hf := partsRun_files l env basename iu (chunkSeq m l.resources) []
      rw [hp] at hf
      obtain ⟨k, hk⟩ := hf _ h0
      exact partName_ne basename k hk.symm
    · exact h
  obtain ⟨rest, hrest⟩ := hfull
  have hrestm : ∀ e ∈ rest, e.file = basename := by
    intro e he
    have hp1 : pre <+: effs ++ (writeDoc basename (indexDoc l iu index)).1 := htr ▸ hpre
    rw [← hrest, List.prefix_append_right_inj] at hp1
    exact writeDoc_files _ _ e (hp1.subset he)
  obtain ⟨mp, hmp⟩ : ∃ mp, l.mapper = some mp := by
    cases hl : l.mapper with
    | none => rw [hl] at hiu; cases hiu
    | some mp => exact ⟨mp, rfl⟩
  refine ⟨docs, us, mp, hus, hmp, ?_, ?_, ?_, ?_⟩
  · intro i hi
    rw [← hrest, runFs_append, runFs_other]
    · rw [h4]; have := runFs_partEffs fs basename 0 docs i hi; simpa using this
    · intro e he h
      rw [hrestm e he] at h
      exact partName_ne basename i h.symm
  · intro i hi
    have := h3 i hi
    rw [hmp, List.length_nil, Nat.zero_add] at this
    exact mapFile_ok.mp this
  · intro doc hdoc
    rw [htr, List.mem_append] at hdoc
    rcases hdoc with hdoc | hdoc
    · have hf := partsRun_files l env basename iu (chunkSeq m l.resources) []
      rw [hp] at hf
      obtain ⟨k, hk⟩ := hf _ hdoc
      exact absurd hk.symm (partName_ne basename k)
    · cases hd : indexDoc l iu index with
      | error e => rw [hd] at hdoc; simp [writeDoc] at hdoc
      | ok t =>
        rw [hd] at hdoc
        simp [writeDoc] at hdoc
        subst hdoc
        have := resourceElements_uris (entries_sitemap hd)
        rw [this, h5, List.nil_append]
        have hen : ∀ (k : Nat) (us : List Str), (entriesOf env basename k us).map (fun r => some r.uri) = us.map some := by
          intro k us
          induction us generalizing k with
          | nil => rfl
          | cons u us ih => simp only [entriesOf, List.map_cons, ih]; rfl
        exact hen _ _
  · have hall := resourceElements_uris (components_entries h1)
    have hflat : (chunkSeq m l.resources).flatten = l.resources := by
      rw [chunkSeq, List.flatten_cons, slices_flatten (by omega), List.take_append_drop]
    rw [hflat, List.map_flatMap] at hall
    exact hall

/-- Rewriting in place: when the list was written before, then after the first event of the second
write the complete old index is still there while its first component is empty.  So an index that is
on disk can refer to a component that is not completely written. -/
theorem C32_rewrite_violated (l : LBI) (env : StatEnv) (basename : Str) (m : Nat)
    (hm : l.max_sitemap_entries = some m) (hlen : max 1 m < l.resources.length)
    (hok : (l.write env basename).2 = .ok ()) (fs : Str → Option FileState) :
    ∃ (pre : List FsEff) (index : Elem) (mp : Mapper), pre <+: (l.write env basename).1 ∧
      l.mapper = some mp ∧
      runFs (runFs fs (l.write env basename).1) pre basename = some (.complete index) ∧
      (∃ u, mp.dstToSrc (partName basename 0) = .ok u ∧ some u ∈ (entries "sitemap" index).map entryUri) ∧
      runFs (runFs fs (l.write env basename).1) pre (partName basename 0) = some .incomplete := by
  obtain ⟨iu, docs, us, idx, h1, h2, h3, h4, h5, h6⟩ := write_multi_ok l env basename m hm hlen hok
  obtain ⟨mp, hmp⟩ : ∃ mp, l.mapper = some mp := by
    cases hl : l.mapper with
    | none => rw [hl] at h1; cases h1
    | some mp => exact ⟨mp, rfl⟩
  cases h2 with
  | @cons c t cs ts hd _ =>
    cases us with
    | nil => simp [chunkSeq] at h3
    | cons u us =>
      refine ⟨[.openW (partName basename 0)], idx, mp, ?_, hmp, ?_, ⟨u, ?_, ?_⟩, ?_⟩
      · rw [h6]; exact ⟨_, rfl⟩
      · have hne := partName_ne basename 0
        simp only [runFs, if_neg (Ne.symm hne)]
        rw [h6, runFs_append]
        simp [runFs]
      · have := h4 0 (by simp)
        rw [hmp] at this
        exact mapFile_ok.mp this
      · have := resourceElements_uris (entries_sitemap h5)
        rw [this]; simp [entriesOf, entryOf]
      · simp [runFs]

/-- a crash point to which C32_index_last applies -/
example : FsEff.openW exBase ∈ ((exList 2).write exEnv exBase).1 := by
  have h : (((exList 2).write exEnv exBase).1.any (fun e => match e with | .openW f => f == exBase | _ => false)) = true := by
    decide +kernel
  rw [List.any_eq_true] at h
  obtain ⟨e, h1, h2⟩ := h
  cases e with
  | openW f =>
    have hf : f = exBase := eq_of_beq h2
    rw [hf] at h1; exact h1
  | finish f d => cases h2

end Resync
