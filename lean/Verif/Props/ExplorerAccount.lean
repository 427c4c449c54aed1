import Verif.Props.Explorer
import Verif.Proofs.ExplorerAccount
/-
C88: what the explorer says about a document.
-/

namespace Resync
open Py Resync.Spec

theorem visit_display {w : ExpWorld} {c : DiscCfg} {inputs : List Str} {pre post : List Visit} {v : Visit} {e : Ending}
    (h : explore w c inputs = .ok (pre ++ v :: post, e)) : ∃ n, v.shown = display w n v.xr := by
  unfold explore at h
  cases hs : explorerStarts w c with
  | error x => rw [hs] at h; simp at h
  | ok starts =>
    rw [hs] at h
    simp only [Except.ok.injEq] at h
    cases starts with
    | nil => exact absurd rfl (explorerStarts_ne hs)
    | cons s ss =>
      rw [exploreStarts_cons] at h
      obtain ⟨n', hist', inputs', -, -, -, h4⟩ := at_visit w v post e (s :: ss) pre 0 0 [s] inputs
        (by simpa using h) rfl (by simp)
      exact ⟨n', h4⟩

/-- C88. Whenever a document is shown, the first line gives its kind and the number of its entries.  There is a warning exactly if
certain kinds were expected and it is of none of these.  Each link among the options has its line, and no other.  (Documents where a
link has no target are not parsed, so the line for this is never printed.)  For the entries there is one line each, in the order of the document, with the URI as written there; and if the document
has more entries than are shown there is a line with the number of the others. -/
theorem C88_account (w : ExpWorld) (n : Nat) (xr : XResource) (o : Dict Resource) (cap : Str)
    (h : display w n xr = .summary o cap) : ∃ doc index, DocumentAt w n xr.uri doc index ∧
      (displayText w n xr).head? = some (.parsed cap doc.resources.length) ∧
      (∀ kinds, .expectedKind kinds ∈ displayText w n xr ↔ xr.caps = some (.kinds kinds) ∧ cap ∉ kinds) ∧
      (∀ key rel uri, .link key rel uri ∈ displayText w n xr ↔ (key, rel) ∈ linkKeys ∧ LinksTo doc.ln rel uri) ∧
      (displayText w n xr).filterMap (fun | .entry k uri => some (k, uri) | _ => none)
        = ((if doc.resources.length ≤ 21 then doc.resources else doc.resources.take 20).zipIdx 1).map (fun p => (p.2, p.1.uri)) ∧
      (∀ k, .notShowing k ∈ displayText w n xr ↔ 21 < doc.resources.length ∧ k = doc.resources.length - 20) := by
  obtain ⟨doc, index, created, root, h1, h2, h3, h4⟩ := displayText_summary h
  have hres : xr.caps ≠ some .resource := by
    obtain ⟨_, _, _, _, h, -⟩ := display_summary h
    exact h
  obtain ⟨k1, k2, k3, k4⟩ := summaryText_ok h3 (xr.caps.map Caps.list)
  rw [h4, k4]
  -- a line is in one of the parts
  have hparts : ∀ x : SumLine, x ∈ (summaryText doc index (xr.caps.map Caps.list) xr.uri).1 ↔
      x ∈ headText cap doc.resources.length (xr.caps.map Caps.list) ∨
      x ∈ (docLinkText doc.ln xr.uri "describedby".toList ['d']).1 ∨ x ∈ (docLinkText doc.ln xr.uri "up".toList ['u']).1 ∨
      x ∈ (docLinkText doc.ln xr.uri "index".toList ['i']).1 ∨
      (∃ p ∈ (doc.resources.take (toShow doc.resources.length)).zipIdx 0, x ∈ entryLines xr.uri (allowedEntries cap) p.2 p.1) ∨
      (¬ doc.resources.length ≤ 21 ∧ x = .notShowing (doc.resources.length - 20)) := by
    intro x
    rw [k4, List.mem_append, List.mem_append, List.mem_append, List.mem_append, List.mem_append, List.mem_flatMap]
    by_cases hl : doc.resources.length ≤ 21 <;> simp [hl]
  rw [← k4]
  refine ⟨doc, index, ⟨root, created, h1, h2⟩, by rw [k4]; rfl, ?_, ?_, ?_, ?_⟩
  · intro kinds
    rw [hparts, mem_headText, mem_docLinkText k1, mem_docLinkText k2, mem_docLinkText k3]
    constructor
    · rintro ((h | ⟨ks, h, h', h''⟩ | ⟨-, h⟩) | h | h | h | ⟨p, -, h⟩ | ⟨-, h⟩)
      · cases h
      · cases h''
        refine ⟨?_, h'⟩
        cases hc : xr.caps with
        | none => rw [hc] at h; cases h
        | some cs =>
          rw [hc] at h
          cases cs with
          | resource => exact absurd hc hres
          | kinds l => cases h; rfl
      · cases h
      · rcases h with ⟨_, _, _, h⟩ | ⟨_, _, _, _, h⟩ | ⟨_, _, _, _, _, _, _, h⟩ <;> cases h
      · rcases h with ⟨_, _, _, h⟩ | ⟨_, _, _, _, h⟩ | ⟨_, _, _, _, _, _, _, h⟩ <;> cases h
      · rcases h with ⟨_, _, _, h⟩ | ⟨_, _, _, _, h⟩ | ⟨_, _, _, _, _, _, _, h⟩ <;> cases h
      · rcases entryLines_class h with h | ⟨_, h⟩ | ⟨_, _, h⟩ | ⟨_, h⟩ <;> cases h
      · cases h
    · rintro ⟨h, h'⟩
      exact .inl (.inr (.inl ⟨kinds, by rw [h]; rfl, h', rfl⟩))
  · intro key rel uri
    rw [hparts, mem_headText, mem_docLinkText k1, mem_docLinkText k2, mem_docLinkText k3]
    constructor
    · rintro ((h | ⟨ks, h, h', h''⟩ | ⟨-, h⟩) | h | h | h | ⟨p, -, h⟩ | ⟨-, h⟩)
      · cases h
      · cases h''
      · cases h
      · rcases h with ⟨_, _, _, h⟩ | ⟨l, u, e1, e2, h⟩ | ⟨_, _, _, _, _, _, _, h⟩
        · cases h
        · cases h; exact ⟨by decide, l, e1, e2⟩
        · cases h
      · rcases h with ⟨_, _, _, h⟩ | ⟨l, u, e1, e2, h⟩ | ⟨_, _, _, _, _, _, _, h⟩
        · cases h
        · cases h; exact ⟨by decide, l, e1, e2⟩
        · cases h
      · rcases h with ⟨_, _, _, h⟩ | ⟨l, u, e1, e2, h⟩ | ⟨_, _, _, _, _, _, _, h⟩
        · cases h
        · cases h; exact ⟨by decide, l, e1, e2⟩
        · cases h
      · rcases entryLines_class h with h | ⟨_, h⟩ | ⟨_, _, h⟩ | ⟨_, h⟩ <;> cases h
      · cases h
    · rintro ⟨hk, l, e1, e2⟩
      simp only [linkKeys, List.mem_cons, Prod.mk.injEq, List.not_mem_nil, or_false] at hk
      rcases hk with ⟨rfl, rfl⟩ | ⟨rfl, rfl⟩ | ⟨rfl, rfl⟩
      · exact .inr (.inl (.inr (.inl ⟨l, uri, e1, e2, rfl⟩)))
      · exact .inr (.inr (.inl (.inr (.inl ⟨l, uri, e1, e2, rfl⟩))))
      · exact .inr (.inr (.inr (.inl (.inr (.inl ⟨l, uri, e1, e2, rfl⟩)))))
  · have hlink : ∀ (rel key : Str), (docLinkText doc.ln xr.uri rel key).2 = true →
        (docLinkText doc.ln xr.uri rel key).1.filterMap SumLine.isEntry = [] := by
      intro rel key hk
      refine filterMap_none (fun x hx => ?_)
      rcases (mem_docLinkText hk).mp hx with ⟨_, _, _, rfl⟩ | ⟨_, _, _, _, rfl⟩ | ⟨_, _, _, _, _, _, _, rfl⟩ <;> rfl
    show (summaryText doc index (xr.caps.map Caps.list) xr.uri).1.filterMap SumLine.isEntry = _
    rw [k4, List.filterMap_append, List.filterMap_append, List.filterMap_append, List.filterMap_append, List.filterMap_append,
      hlink _ _ k1, hlink _ _ k2, hlink _ _ k3, entries_isEntry,
      filterMap_none (fun x hx => by
        rcases mem_headText.mp hx with rfl | ⟨_, _, _, rfl⟩ | ⟨_, rfl⟩ <;> rfl),
      filterMap_none (l := if doc.resources.length ≤ 21 then [] else _) (fun x hx => by
        split at hx
        · cases hx
        · rw [List.mem_singleton.mp hx]; rfl),
      List.append_nil, List.nil_append, List.nil_append, List.nil_append, List.nil_append, Nat.zero_add]
    congr 2
    unfold toShow
    by_cases hl : 21 < doc.resources.length
    · rw [if_pos hl, if_neg (by omega)]
    · rw [if_neg hl, if_pos (by omega), List.take_length]
  · intro k
    rw [hparts, mem_headText, mem_docLinkText k1, mem_docLinkText k2, mem_docLinkText k3]
    constructor
    · rintro ((h | ⟨ks, h, h', h''⟩ | ⟨-, h⟩) | h | h | h | ⟨p, -, h⟩ | ⟨h', h⟩)
      · cases h
      · cases h''
      · cases h
      · rcases h with ⟨_, _, _, h⟩ | ⟨_, _, _, _, h⟩ | ⟨_, _, _, _, _, _, _, h⟩ <;> cases h
      · rcases h with ⟨_, _, _, h⟩ | ⟨_, _, _, _, h⟩ | ⟨_, _, _, _, _, _, _, h⟩ <;> cases h
      · rcases h with ⟨_, _, _, h⟩ | ⟨_, _, _, _, h⟩ | ⟨_, _, _, _, _, _, _, h⟩ <;> cases h
      · rcases entryLines_class h with h | ⟨_, h⟩ | ⟨_, _, h⟩ | ⟨_, h⟩ <;> cases h
      · cases h
        exact ⟨by omega, rfl⟩
    · rintro ⟨h, rfl⟩
      exact .inr (.inr (.inr (.inr (.inr ⟨by omega, rfl⟩))))

theorem documentAt_unique {w : ExpWorld} {n : Nat} {uri : Str} {d d' : Cont (List Resource)} {i i' : Bool}
    (h : DocumentAt w n uri d i) (h' : DocumentAt w n uri d' i') : d = d' ∧ i = i' := by
  obtain ⟨root, cr, h1, h2⟩ := h
  obtain ⟨root', cr', h1', h2'⟩ := h'
  rw [h1] at h1'
  cases h1'
  rw [h2] at h2'
  cases h2'
  exact ⟨rfl, rfl⟩

theorem flatMap_split {α β : Type} (f : α → List β) : ∀ (l : List α) (i : Nat) (h : i < l.length),
    l.flatMap f = (l.take i).flatMap f ++ f l[i] ++ (l.drop (i + 1)).flatMap f := by
  intro l
  induction l with
  | nil => intro i h; simp at h
  | cons a t ih =>
    intro i h
    cases i with
    | zero => simp
    | succ i => simp [ih i (by simpa using h), List.append_assoc]

/-- C88 (entries). The line of an entry is followed by the URI that the option has, if that is not what the document says, and by a
remark on its kind (KindRemark) if there is something to say; nothing else comes before the line of the next entry. -/
theorem C88_entries (w : ExpWorld) (n : Nat) (xr : XResource) (o : Dict Resource) (cap : Str) (doc : Cont (List Resource))
    (index : Bool) (h : display w n xr = .summary o cap) (hdoc : DocumentAt w n xr.uri doc index) (hcap : '\n' ∉ cap)
    (k : Nat) (l : Resource) (hl : Listed doc.resources k l) :
    ∃ before r remark after, displayText w n xr
        = before ++ (.entry (k + 1) l.uri :: (if r.uri ≠ l.uri then [.expanded r.uri] else []) ++ remark) ++ after ∧
      dget o (natStr (k + 1)) = some r ∧ KindRemark cap l.capability remark ∧
      (after = [] ∨ (∃ uri, after.head? = some (.entry (k + 2) uri)) ∨ ∃ m, after = [.notShowing m]) := by
  obtain ⟨d, i, created, root, h1, h2, h3, h4⟩ := displayText_summary h
  obtain ⟨rfl, rfl⟩ := documentAt_unique hdoc ⟨root, created, h1, h2⟩
  obtain ⟨-, -, -, k4⟩ := summaryText_ok h3 (xr.caps.map Caps.list)
  obtain ⟨-, o1, o2, o3, l1, l2, l3, he⟩ := showSummary_steps h3
  have hget := entryOptions_get _ _ _ _ he
  obtain ⟨hk, hlk⟩ : ∃ hk : k < (doc.resources.take (toShow doc.resources.length)).length,
        (doc.resources.take (toShow doc.resources.length))[k] = l := by
    obtain ⟨hl1, hlt⟩ := hl
    obtain ⟨hk, hl1⟩ := List.getElem?_eq_some_iff.mp hl1
    refine ⟨?_, by rw [List.getElem_take]; exact hl1⟩
    rw [List.length_take]
    unfold toShow
    split <;> omega
  obtain ⟨r', g1, g2⟩ := (hget (natStr (k + 1))).1 k hk (by rw [Nat.zero_add])
  rw [hlk] at g2
  have gj := (entryOption_spec g2).1
  generalize hshow : doc.resources.take (toShow doc.resources.length) = rs at *
  have hz : k < (rs.zipIdx 0).length := by simpa using hk
  have hzk : (rs.zipIdx 0)[k] = (l, k) := by simp [hlk]
  have hex : (expandText xr.uri l.uri).getD [] = if r'.uri ≠ l.uri then [.expanded r'.uri] else [] := by
    unfold expandText
    rw [gj]
    rfl
  rw [h4, k4, flatMap_split _ _ k hz, hzk]
  refine ⟨headText cap doc.resources.length (xr.caps.map Caps.list) ++ (docLinkText doc.ln xr.uri "describedby".toList ['d']).1 ++
      (docLinkText doc.ln xr.uri "up".toList ['u']).1 ++ (docLinkText doc.ln xr.uri "index".toList ['i']).1 ++
      ((rs.zipIdx 0).take k).flatMap (fun p => entryLines xr.uri (allowedEntries cap) p.2 p.1), r',
      kindText (allowedEntries cap) l.capability,
      ((rs.zipIdx 0).drop (k + 1)).flatMap (fun p => entryLines xr.uri (allowedEntries cap) p.2 p.1) ++
        (if doc.resources.length ≤ 21 then [] else [.notShowing (doc.resources.length - 20)]), ?_, g1, kindText_remark hcap _, ?_⟩
  · rw [← hex]
    simp only [entryLines, List.append_assoc]
  · by_cases hlast : k + 1 < (rs.zipIdx 0).length
    · right; left
      rw [List.drop_eq_getElem_cons hlast, List.flatMap_cons]
      have : (rs.zipIdx 0)[k + 1] = (rs[k + 1]'(by simpa using hlast), k + 1) := by simp
      rw [this]
      exact ⟨_, rfl⟩
    · rw [List.drop_eq_nil_of_le (by omega), List.flatMap_nil, List.nil_append]
      split
      · exact .inl rfl
      · exact .inr (.inr ⟨_, rfl⟩)

/-- C88 (kinds), the part that holds: a document is said to be of unknown kind exactly if it is of none of the kinds of the framework.
Missing: the index of source descriptions (C88_unknown_violated), and "descriptionoindex", which is taken for it. -/
theorem C88_unknown_partial (w : ExpWorld) (n : Nat) (xr : XResource) (o : Dict Resource) (cap k : Str)
    (h : display w n xr = .summary o cap) (h1 : cap ≠ "descriptionindex".toList) (h2 : cap ≠ "descriptionoindex".toList) :
    .unknownKind k ∈ displayText w n xr ↔ k = cap ∧ cap ∉ frameworkKinds := by
  obtain ⟨doc, index, created, root, -, -, h3, h4⟩ := displayText_summary h
  obtain ⟨k1, k2, k3, k4⟩ := summaryText_ok h3 (xr.caps.map Caps.list)
  have hk : cap ∉ knownDocuments ↔ cap ∉ frameworkKinds := by
    apply not_congr
    exact ⟨fun hm => (show ∀ x ∈ knownDocuments, x ≠ "descriptionoindex".toList → x ∈ frameworkKinds by decide) cap hm h2,
      fun hm => (show ∀ x ∈ frameworkKinds, x ≠ "descriptionindex".toList → x ∈ knownDocuments by decide) cap hm h1⟩
  rw [h4, k4, List.mem_append, List.mem_append, List.mem_append, List.mem_append, List.mem_append, List.mem_flatMap, mem_headText,
    mem_docLinkText k1, mem_docLinkText k2, mem_docLinkText k3]
  constructor
  · rintro ((h | ⟨ks, h, h', h''⟩ | ⟨h', h⟩) | h | h | h | ⟨p, -, h⟩ | h)
    · cases h
    · cases h''
    · cases h; exact ⟨rfl, hk.mp h'⟩
    · rcases h with ⟨_, _, _, h⟩ | ⟨_, _, _, _, h⟩ | ⟨_, _, _, _, _, _, _, h⟩ <;> cases h
    · rcases h with ⟨_, _, _, h⟩ | ⟨_, _, _, _, h⟩ | ⟨_, _, _, _, _, _, _, h⟩ <;> cases h
    · rcases h with ⟨_, _, _, h⟩ | ⟨_, _, _, _, h⟩ | ⟨_, _, _, _, _, _, _, h⟩ <;> cases h
    · rcases entryLines_class h with h | ⟨_, h⟩ | ⟨_, _, h⟩ | ⟨_, h⟩ <;> cases h
    · split at h
      · cases h
      · cases List.mem_singleton.mp h
  · rintro ⟨rfl, h⟩
    exact .inl (.inr (.inr ⟨hk.mpr h, rfl⟩))

/-- C88 (announced kinds), the part that holds. After following an option, the explorer warns about the document it finds there exactly
if the option was for a document of one kind and this is of another; or if the option says nothing about the kind and it is not one of
those that the document it was found in may list.  Missing: for the links up and to the index this last is not what is to be expected
(C88_up_violated). -/
theorem C88_announced_partial (w : ExpWorld) (c : DiscCfg) (inputs more : List Str) (vs : List Visit) (v : Visit) (key : Str)
    (r : Resource) (o : Dict Resource) (cap : Str) (h : explore w c inputs = .ok (vs ++ [v], .eof)) (hv : v.shown = .summary o cap)
    (hk : dget o key = some r) (hcap : '\n' ∉ cap) (ht : datetimeToStr? r.timestamp false ≠ none) :
    ∃ v' post e n, explore w c (inputs ++ key :: more) = .ok (vs ++ { v with answer := some (.follow key r) } :: v' :: post, e) ∧
      v'.shown = display w n v'.xr ∧
      ∀ o' cap', v'.shown = .summary o' cap' →
        ((∃ kinds, .expectedKind kinds ∈ displayText w n v'.xr) ↔
          (∃ k, r.capability = some k ∧ cap' ≠ k) ∨ (r.capability = none ∧ ¬ MayList cap cap')) := by
  rcases explore_follow (key := key) (r := r) more h (by rw [hv]; exact hk) with ⟨v', post, e, n, x, h1, h2, h3, h4, h5⟩ | ⟨h1, h2⟩
  · refine ⟨v', post, e, n, h1, h4, ?_⟩
    intro o' cap' hs
    rw [h4] at hs
    obtain ⟨doc, index, -, -, hexp, -⟩ := C88_account w n v'.xr o' cap' hs
    have hres : v'.xr.caps ≠ some .resource := by
      obtain ⟨_, _, _, _, h, -⟩ := display_summary hs
      exact h
    obtain ⟨lm, -, rfl⟩ := nextResource_some h2
    have hcaps : v'.xr.caps = some (nextCaps (some cap) r) := by rw [h3, hv]; rfl
    simp only [hexp, hcaps, Option.some.injEq]
    rw [hcaps] at hres
    unfold nextCaps at hres ⊢
    cases hc : r.capability with
    | none =>
      rw [hc] at hres
      simp only [Option.getD_some] at hres ⊢
      split
      · rename_i h6
        rw [if_pos h6] at hres
        exact absurd rfl hres
      · simp only [Caps.kinds.injEq, exists_eq_left', mem_allowedEntries hcap]
        simp
    | some k =>
      rw [hc] at hres
      simp only at hres ⊢
      split
      · rename_i h6
        rw [if_pos h6] at hres
        exact absurd rfl hres
      · simp
  · exact absurd (nextResource_none h2) ht

/-! ### Concrete cases -/

namespace ExplorerExample

/-- a capability list with an up link, and entries with a suitable kind, another one, and none -/
def caplist2 : Elem := .mk (smTag "urlset") [] none [ln "up" "description.xml",
  md "capabilitylist", url "rl.xml" [md "resourcelist"], url "http://a/cl2.xml" [md "capabilitylist"], url "http://a/x.xml" []]
def descr : Elem := .mk (smTag "urlset") [] none [md "description", url "http://a/cl.xml" []]
def descrIndex : Elem := .mk (smTag "sitemapindex") [] none [md "description"]

def web2 : ExpWorld := { docAt := fun _ u =>
  if u = "http://a/cl.xml".toList then some caplist2
  else if u = "http://a/description.xml".toList then some descr
  else if u = "http://a/index.xml".toList then some descrIndex else none }

end ExplorerExample
open ExplorerExample

/-- C88_account and C88_entries: what is printed about this capability list -/
example : displayText web2 0 { uri := "http://a/cl.xml".toList, caps := some (.kinds ["resourcelist".toList]) } =
    [.parsed "capabilitylist".toList 3, .expectedKind ["resourcelist".toList],
     .link "u".toList "up".toList "description.xml".toList, .expanded "http://a/description.xml".toList,
     .entry 1 "rl.xml".toList, .expanded "http://a/rl.xml".toList, .kind "resourcelist".toList none,
     .entry 2 "http://a/cl2.xml".toList, .kind "capabilitylist".toList (some offeredByCapabilityList),
     .entry 3 "http://a/x.xml".toList] := by
  decide +kernel

example : ∃ o, display web2 0 { uri := "http://a/cl.xml".toList } = .summary o "capabilitylist".toList := ⟨_, rfl⟩

/-- only one kind is possible in a source description -/
example : displayText web2 0 { uri := "http://a/description.xml".toList } =
    [.parsed "description".toList 1, .entry 1 "http://a/cl.xml".toList, .shouldBe "capabilitylist".toList] := by
  decide +kernel

example : MayList "resourcelist-archiveindex".toList "resourcelist-archive".toList := .inl ⟨rfl, by decide, by decide⟩
example : MayList "resourcelist-archive".toList "resourcelist".toList := .inr (.inl ⟨rfl, by decide⟩)

/-- C88_announced_partial applies: from the description to the capability list, no warning; the first of these is the up link -/
example : ∃ vs v o r, explore web2 (cfg "http://a/description.xml") [] = .ok (vs ++ [v], .eof) ∧
    v.shown = .summary o "description".toList ∧ dget o "1".toList = some r ∧ r.capability = some "capabilitylist".toList ∧
    datetimeToStr? r.timestamp false ≠ none := by
  refine ⟨[], _, _, _, rfl, rfl, rfl, ?_⟩
  decide +kernel

/-- C88 fails: an index of source descriptions is called unknown. -/
theorem C88_unknown_violated : ∃ w xr o, display w 0 xr = .summary o "descriptionindex".toList ∧
    "descriptionindex".toList ∈ frameworkKinds ∧ .unknownKind "descriptionindex".toList ∈ displayText w 0 xr := by
  refine ⟨web2, { uri := "http://a/index.xml".toList }, _, rfl, by decide, ?_⟩
  decide +kernel

/-- C88 fails: following the link up from a capability list to the source description that lists it, one is told that something else was
expected. -/
theorem C88_up_violated : ∃ w v1 v2, explore w (cfg "http://a/cl.xml") ["u".toList] = .ok ([v1, v2], .eof) ∧
    v2.xr.uri = "http://a/description.xml".toList ∧ (∃ o, v2.shown = .summary o "description".toList) ∧
    MayList "description".toList "capabilitylist".toList ∧
    .expectedKind offeredByCapabilityList ∈ displayText w 1 v2.xr := by
  refine ⟨web2, _, _, rfl, ?_, ⟨_, rfl⟩, .inr (.inr (.inl ⟨rfl, rfl⟩)), ?_⟩
  · decide +kernel
  · decide +kernel

end Resync
