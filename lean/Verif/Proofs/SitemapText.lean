import Verif.Model.SitemapText
import Verif.Spec.Text
import Verif.Proofs.XmlRead
import Verif.Proofs.Sitemap
/- Names in the documents that the code makes. -/

namespace Resync
open Py Resync.Spec

theorem distinct_iff (l : List Str) : distinct l = true ↔ l.Nodup := by
  induction l with
  | nil => simp [distinct]
  | cons a t ih => simp [distinct, ih, List.nodup_cons]

theorem xmlAttName_xmlName {k : Str} (h : isXmlName k = true) : isXmlName (xmlAttName k) = true := by
  unfold xmlAttName
  split
  · decide
  split
  · decide
  split
  · decide
  split
  · decide
  split
  · decide
  · exact h

theorem xmlAtts_nodup (atts : Dict Str) : (dkeys (xmlAtts atts)).Nodup := by
  unfold xmlAtts
  have : ∀ (l d : Dict Str), (dkeys d).Nodup → (dkeys (l.foldl (fun d kv => dset d (xmlAttName kv.1) kv.2) d)).Nodup := by
    intro l
    induction l with
    | nil => intro d h; exact h
    | cons a t ih => intro d h; exact ih _ (nodup_dset _ _ _ h)
  exact this _ _ (by simp [dkeys])

theorem sortItems_nodup {d : Dict Str} (h : (dkeys d).Nodup) : (dkeys (sortItems d)).Nodup := by
  have e : dkeys (sortItems d) = sortStr (dkeys d) := by
    have : ∀ l : List Str, (∀ k ∈ l, k ∈ dkeys d) → dkeys (l.filterMap (fun k => (dget d k).map (fun v => (k, v)))) = l := by
      intro l
      induction l with
      | nil => intro _; rfl
      | cons a t ih =>
        intro hl
        have ha : (dget d a).isSome := (dget_isSome_iff d a).mpr (hl a (by simp))
        obtain ⟨v, hv⟩ := Option.isSome_iff_exists.mp ha
        rw [List.filterMap_cons]
        simp only [hv, Option.map_some]
        simp only [dkeys, List.map_cons]
        exact congrArg _ (ih (fun k hk => hl k (by simp [hk])))
    exact this _ (fun k hk => (List.mem_insertionSort _).mp hk)
  rw [e]
  exact (List.perm_insertionSort _ _).nodup_iff.mpr h

theorem elementWithAtts_tree (name : Str) (hn : isTreeTag name = true) {atts : Dict Str} (ha : AttNames atts) :
    ∀ e ∈ elementWithAtts name atts, treeNames e = true ∧ distinctAtts e = true := by
  intro e he
  unfold elementWithAtts at he
  split at he
  · rw [List.mem_singleton.mp he]
    constructor
    · simp only [treeNames, treeNamesList, hn, Bool.true_and, Bool.and_true, List.all_eq_true]
      rintro ⟨k, v⟩ hkv
      obtain ⟨k', h1, h2⟩ := xmlAtts_keys atts k v (sortItems_mem hkv)
      have := xmlAttName_xmlName (ha k' (List.mem_map.mpr ⟨_, h1, rfl⟩))
      rw [← h2] at this
      simp [isTreeAtt, this]
    · simp only [distinctAtts, distinctAttsList, Bool.and_true, distinct_iff]
      exact sortItems_nodup (xmlAtts_nodup _)
  · simp at he

theorem treeNamesList_iff (l : List Elem) : treeNamesList l = true ↔ ∀ e ∈ l, treeNames e = true := by
  induction l with
  | nil => simp [treeNamesList]
  | cons e t ih => simp [treeNamesList, ih]

theorem distinctAttsList_iff (l : List Elem) : distinctAttsList l = true ↔ ∀ e ∈ l, distinctAtts e = true := by
  induction l with
  | nil => simp [distinctAttsList]
  | cons e t ih => simp [distinctAttsList, ih]

theorem mdAtts_keys {r : Resource} {ks : List Str} {a : Dict Str} (h : mdAtts r ks = .ok a) : ∀ k ∈ dkeys a, k ∈ ks := by
  induction ks generalizing a with
  | nil => cases h; simp [dkeys]
  | cons k t ih =>
    rw [mdAtts] at h
    cases h1 : resourceAttr r k with
    | error e => rw [h1] at h; cases h
    | ok v =>
      rw [h1, ebind_ok] at h
      cases h2 : mdAtts r t with
      | error e => rw [h2] at h; cases h
      | ok rest =>
        rw [h2, ebind_ok] at h
        cases v with
        | none => cases h; intro x hx; exact List.mem_cons_of_mem _ (ih h2 x hx)
        | some s =>
          cases h
          intro x hx
          simp only [dkeys, List.map_cons, List.mem_cons] at hx ⊢
          rcases hx with rfl | hx
          · exact .inl rfl
          · exact .inr (ih h2 x hx)

theorem mdAttKeys_names (s : Sitemap) : ∀ k ∈ mdAttKeys s, isXmlName k = true := by
  obtain ⟨b, -, -⟩ := s
  cases b
  · exact (by decide : ∀ k ∈ mdAttKeys { spec_1_0 := false }, isXmlName k = true)
  · exact (by decide : ∀ k ∈ mdAttKeys { spec_1_0 := true }, isXmlName k = true)

theorem leaf_tree {tag : Str} (h : isTreeTag tag = true) (x : Option Str) :
    treeNames (.mk tag [] x []) = true ∧ distinctAtts (.mk tag [] x []) = true := by
  simp [treeNames, treeNamesList, distinctAtts, distinctAttsList, dkeys, distinct, h]

theorem resourceEtreeElement_tree {s : Sitemap} {r : Resource} {name : Str} (hn : isTreeTag name = true) {e : Elem}
    (h : resourceEtreeElement s r name = .ok e) (hl : ∀ l ∈ r.ln.getD [], AttNames l) : treeNames e = true ∧ distinctAtts e = true := by
  unfold resourceEtreeElement at h
  cases h1 : lastmodText s r with
  | error x => rw [h1] at h; cases h
  | ok lm =>
    rw [h1, ebind_ok] at h
    cases h2 : mdAtts r (mdAttKeys s) with
    | error x => rw [h2] at h; cases h
    | ok a =>
      rw [h2, ebind_ok] at h
      cases h
      have ha : AttNames a := fun k hk => mdAttKeys_names s k (mdAtts_keys h2 k hk)
      have hall : ∀ e ∈ ([.mk "loc".toList [] (some r.uri) []] ++
          (match lm with | some t => [.mk "lastmod".toList [] (some t) []] | none => []) ++
          elementWithAtts "rs:md".toList a ++ ((r.ln.getD []).flatMap (elementWithAtts "rs:ln".toList)) : List Elem),
          treeNames e = true ∧ distinctAtts e = true := by
        intro e he
        rw [List.mem_append, List.mem_append, List.mem_append] at he
        rcases he with ((he | he) | he) | he
        · rw [List.mem_singleton.mp he]; exact leaf_tree (by decide) _
        · cases lm with
          | none => simp at he
          | some t => rw [List.mem_singleton.mp he]; exact leaf_tree (by decide) _
        · exact elementWithAtts_tree _ (by decide) ha e he
        · obtain ⟨l, h1, h2⟩ := List.mem_flatMap.mp he
          exact elementWithAtts_tree _ (by decide) (hl l h1) e h2
      constructor
      · simp only [treeNames, hn, List.all_nil, Bool.true_and, treeNamesList_iff]
        exact fun e he => (hall e he).1
      · simp only [distinctAtts, dkeys, List.map_nil, distinct, Bool.true_and, distinctAttsList_iff]
        exact fun e he => (hall e he).2

theorem resourceElements_tree {s : Sitemap} {item : Str} (hn : isTreeTag item = true) {rs : List Resource} {es : List Elem}
    (h : resourceElements s item rs = .ok es) (hl : ∀ l ∈ EntryLinks rs, AttNames l) :
    ∀ e ∈ es, treeNames e = true ∧ distinctAtts e = true := by
  induction rs generalizing es with
  | nil => cases h; simp
  | cons r t ih =>
    rw [resourceElements] at h
    cases h1 : resourceEtreeElement s r item with
    | error x => rw [h1] at h; cases h
    | ok e1 =>
      rw [h1, ebind_ok] at h
      cases h2 : resourceElements s item t with
      | error x => rw [h2] at h; cases h
      | ok es' =>
        rw [h2, ebind_ok] at h
        cases h
        intro e he
        rcases List.mem_cons.mp he with rfl | he
        · exact resourceEtreeElement_tree hn h1 (fun l hl' => hl l (List.mem_flatMap.mpr ⟨r, by simp, hl'⟩))
        · refine ih h2 (fun l hl' => hl l ?_) e he
          obtain ⟨x, hx, hx'⟩ := List.mem_flatMap.mp hl'
          exact List.mem_flatMap.mpr ⟨x, List.mem_cons_of_mem _ hx, hx'⟩

theorem resourcesAsXml_tree {s : Sitemap} {md : Dict Str} {ln : List Link} {rs : List Resource} {index : Bool} {t : Elem}
    (h : resourcesAsXml s md ln rs index = .ok t) (hmd : AttNames md) (hln : ∀ l ∈ ln, AttNames l) (hrs : ∀ l ∈ EntryLinks rs, AttNames l) :
    treeNames t = true ∧ distinctAtts t = true ∧ dget t.attrib sXmlns = some SITEMAP_NS ∧ dget t.attrib "xmlns:rs".toList = some RS_NS := by
  unfold resourcesAsXml at h
  dsimp only at h
  cases h1 : resourceElements s (if index then "sitemap".toList else "url".toList) rs with
  | error x => rw [h1] at h; cases h
  | ok es =>
    rw [h1, ebind_ok] at h
    cases h
    have hes := resourceElements_tree (by cases index <;> decide) h1 hrs
    have hall : ∀ e ∈ ln.flatMap (elementWithAtts "rs:ln".toList) ++ elementWithAtts "rs:md".toList md ++ es,
        treeNames e = true ∧ distinctAtts e = true := by
      intro e he
      rw [List.mem_append, List.mem_append] at he
      rcases he with (he | he) | he
      · obtain ⟨l, h1, h2⟩ := List.mem_flatMap.mp he
        exact elementWithAtts_tree _ (by decide) (hln l h1) e h2
      · exact elementWithAtts_tree _ (by decide) hmd e he
      · exact hes e he
    refine ⟨?_, ?_, rfl, ?_⟩
    rotate_left 2
    · show dget [(sXmlns, SITEMAP_NS), ("xmlns:rs".toList, RS_NS)] "xmlns:rs".toList = some RS_NS
      decide
    · have hr : isTreeTag (if index then "sitemapindex".toList else "urlset".toList) = true := by cases index <;> decide
      have ha : ([(sXmlns, SITEMAP_NS), ("xmlns:rs".toList, RS_NS)] : Dict Str).all (fun kv => isTreeAtt kv.1) = true := by decide
      simp only [treeNames, hr, ha, Bool.true_and, treeNamesList_iff]
      exact fun e he => (hall e he).1
    · have ha : distinct (dkeys ([(sXmlns, SITEMAP_NS), ("xmlns:rs".toList, RS_NS)] : Dict Str)) = true := by decide
      simp only [distinctAtts, ha, Bool.true_and, distinctAttsList_iff]
      exact fun e he => (hall e he).2

theorem sitemapTails_legal (s : Sitemap) : ∀ d t, (sitemapTails s d t).all isXmlChar = true := by
  intro d t
  unfold sitemapTails
  split
  · decide
  · rfl

theorem encodingName_ok {enc : Str} (h : EncodingName enc) : encodingOk enc = true := by
  simp only [encodingOk, List.all_eq_true]; exact h

end Resync
