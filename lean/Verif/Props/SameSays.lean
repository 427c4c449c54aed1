import Verif.Props.Sitemap

/-!
# C103: what a document says counts, not how it is written

Two documents say the same (`SameDoc`) if their root elements have the same name, and for the entries, the metadata and the links, each taken
in order by themselves, they say the same: same values of the attributes that the ResourceSync format has, same texts of loc and
lastmod.  The order of attributes, other attributes, other elements, the order of metadata and links among each other, of the parts of an
entry, the texts of other elements and the attributes of the root play no role.
-/

namespace Resync
open Py Resync.Spec

namespace Spec

/-- the names of the attributes of rs:md -/
def mdNames (v10 : Bool) : List Str :=
  ["at".toList, "capability".toList, "change".toList] ++ (if v10 then [] else ["datetime".toList]) ++
  ["completed".toList, "from".toList, "hash".toList, "length".toList, "path".toList, "type".toList, "until".toList]

/-- the names of the attributes of rs:ln -/
def lnNames : List Str :=
  ["hash".toList, "href".toList, "length".toList, "modified".toList, "path".toList, "rel".toList, "pri".toList, "type".toList]

/-- the same values for these attributes -/
def SameAtts (names : List Str) (a b : Elem) : Prop := ∀ k ∈ names, dget a.attrib k = dget b.attrib k

/-- two entries that say the same -/
structure SameEntry (v10 : Bool) (a b : Elem) : Prop where
  loc : (a.findall (smName "loc")).map Elem.text = (b.findall (smName "loc")).map Elem.text
  lastmod : (a.findall (smName "lastmod")).map Elem.text = (b.findall (smName "lastmod")).map Elem.text
  md : List.Forall₂ (SameAtts (mdNames v10)) (a.findall (rsName "md")) (b.findall (rsName "md"))
  ln : List.Forall₂ (SameAtts lnNames) (a.findall (rsName "ln")) (b.findall (rsName "ln"))

/-- metadata and links come before the entries -/
def PreambleFirst (entry : Str) (root : Elem) : Prop :=
  root.children.Pairwise (fun a b => a.tag = entry → b.tag ≠ rsName "md" ∧ b.tag ≠ rsName "ln")

/-- two documents that say the same -/
structure SameDoc (v10 : Bool) (a b : Elem) : Prop where
  tag : a.tag = b.tag
  md : List.Forall₂ (SameAtts (mdNames v10)) (a.findall (rsName "md")) (b.findall (rsName "md"))
  ln : List.Forall₂ (SameAtts lnNames) (a.findall (rsName "ln")) (b.findall (rsName "ln"))
  entries : ∀ name, name = smName "url" ∨ name = smName "sitemap" →
    List.Forall₂ (SameEntry v10) (a.findall name) (b.findall name) ∧ (PreambleFirst name a ↔ PreambleFirst name b)

end Spec

/-! ### Elements -/

theorem grabAtts_same {keys names : List Str} {a b : Elem} (h : SameAtts names a b) (hk : ∀ k ∈ keys, xmlAttName k ∈ names) :
    grabAtts keys a.attrib = grabAtts keys b.attrib := by
  unfold grabAtts
  induction keys with
  | nil => rfl
  | cons k t ih =>
    have h1 := h _ (hk k (by simp))
    have h2 := ih (fun x hx => hk x (by simp [hx]))
    simp only [List.filterMap_cons, h1, h2]

theorem mdFromEtree_same {s : Sitemap} {a b : Elem} (h : SameAtts (mdNames s.spec_1_0) a b) : mdFromEtree s a = mdFromEtree s b := by
  have hk : ∀ k ∈ mdAttKeys s, xmlAttName k ∈ mdNames s.spec_1_0 := by
    unfold mdAttKeys
    cases s.spec_1_0 <;> decide
  unfold mdFromEtree
  rw [grabAtts_same h hk]

theorem lnFromEtree_same {a b : Elem} (h : SameAtts lnNames a b) : lnFromEtree a = lnFromEtree b := by
  have hk : ∀ k ∈ lnAttKeys, xmlAttName k ∈ lnNames := by decide
  unfold lnFromEtree
  rw [grabAtts_same h hk]

theorem lnList_same {a b : List Elem} (h : List.Forall₂ (SameAtts lnNames) a b) : lnList a = lnList b := by
  induction h with
  | nil => rfl
  | cons h _ ih => simp only [lnList, lnFromEtree_same h, ih]

theorem locText_same {a b : Elem} (h : (a.findall (smName "loc")).map Elem.text = (b.findall (smName "loc")).map Elem.text) :
    locText a = locText b := by
  unfold locText
  rw [show smTag "loc" = smName "loc" from rfl]
  revert h
  generalize a.findall (smName "loc") = x
  generalize b.findall (smName "loc") = y
  intro h
  rcases x with _ | ⟨x, _ | ⟨x', xs⟩⟩ <;> rcases y with _ | ⟨y, _ | ⟨y', ys⟩⟩ <;> simp_all

theorem lastmodStep_same {a b : Elem} (h : (a.findall (smName "lastmod")).map Elem.text = (b.findall (smName "lastmod")).map Elem.text)
    (r : Resource) : lastmodStep a r = lastmodStep b r := by
  unfold lastmodStep
  rw [show smTag "lastmod" = smName "lastmod" from rfl]
  revert h
  generalize a.findall (smName "lastmod") = x
  generalize b.findall (smName "lastmod") = y
  intro h
  rcases x with _ | ⟨x, _ | ⟨x', xs⟩⟩ <;> rcases y with _ | ⟨y, _ | ⟨y', ys⟩⟩ <;> simp_all

theorem mdStep_same {s : Sitemap} {a b : Elem}
    (h : List.Forall₂ (SameAtts (mdNames s.spec_1_0)) (a.findall (rsName "md")) (b.findall (rsName "md"))) (r : Resource) :
    mdStep s a r = mdStep s b r := by
  unfold mdStep
  rw [show rsTag "md" = rsName "md" from rfl]
  revert h
  generalize a.findall (rsName "md") = x
  generalize b.findall (rsName "md") = y
  intro h
  cases h with
  | nil => rfl
  | cons h t =>
    cases t with
    | nil => simp only [mdFromEtree_same h]
    | cons _ _ => rfl

theorem lnStep_same {a b : Elem} (h : List.Forall₂ (SameAtts lnNames) (a.findall (rsName "ln")) (b.findall (rsName "ln"))) (r : Resource) :
    lnStep a r = lnStep b r := by
  unfold lnStep
  rw [show rsTag "ln" = rsName "ln" from rfl]
  revert h
  generalize a.findall (rsName "ln") = x
  generalize b.findall (rsName "ln") = y
  intro h
  have := lnList_same h
  cases h with
  | nil => rfl
  | cons h t => simp only [this]

theorem resourceFromEtree_same {s : Sitemap} {a b : Elem} (h : SameEntry s.spec_1_0 a b) : resourceFromEtree s a = resourceFromEtree s b := by
  unfold resourceFromEtree
  rw [locText_same h.loc]
  simp only [lastmodStep_same h.lastmod, mdStep_same h.md, lnStep_same h.ln]

/-! ### The loop over the document: only the three lists count -/

/-- the entries added one after the other -/
def entriesLoop {σ : Type} (s : Sitemap) (add : σ → Resource → Except SmErr σ) : List Elem → ParseSt σ → Except SmErr (ParseSt σ)
  | [], st => .ok st
  | e :: t, st => do
    let r ← resourceFromEtree s e
    let rs ← add st.cont.resources r
    entriesLoop s add t { st with cont := { st.cont with resources := rs }, in_preamble := false, created := st.created + 1 }

/-- the metadata of the preamble -/
def mdLoop (s : Sitemap) : List Elem → Bool → Dict Str → Except SmErr (Dict Str × Bool)
  | [], seen, md => .ok (md, seen)
  | e :: t, seen, _ => if seen then .error .parse else do
    let md ← mdFromEtree s e
    mdLoop s t true md

theorem entriesLoop_same {σ : Type} {s : Sitemap} {add : σ → Resource → Except SmErr σ} {a b : List Elem}
    (h : List.Forall₂ (SameEntry s.spec_1_0) a b) : ∀ st, entriesLoop s add a st = entriesLoop s add b st := by
  induction h with
  | nil => intro st; rfl
  | cons h _ ih => intro st; simp only [entriesLoop, resourceFromEtree_same h, ih]

theorem mdLoop_same {s : Sitemap} {a b : List Elem} (h : List.Forall₂ (SameAtts (mdNames s.spec_1_0)) a b) :
    ∀ seen md, mdLoop s a seen md = mdLoop s b seen md := by
  induction h with
  | nil => intro seen md; rfl
  | cons h _ ih => intro seen md; simp only [mdLoop, mdFromEtree_same h, ih]

theorem filter_tag_cons (e : Elem) (t : List Elem) (name : Str) :
    (e :: t).filter (fun c => c.tag = name) = if e.tag = name then e :: t.filter (fun c => c.tag = name) else t.filter (fun c => c.tag = name) := by
  by_cases h : e.tag = name <;> simp [h]

theorem parseLoop_after {σ : Type} (s : Sitemap) (add : σ → Resource → Except SmErr σ) (tag : Str) (h1 : tag ≠ rsTag "md") (h2 : tag ≠ rsTag "ln")
    (cs : List Elem) : ∀ (st st' : ParseSt σ), st.in_preamble = false →
    (parseLoop s add tag cs st = .ok st' ↔
      (∀ c ∈ cs, c.tag ≠ rsTag "md" ∧ c.tag ≠ rsTag "ln") ∧ entriesLoop s add (cs.filter (fun c => c.tag = tag)) st = .ok st') := by
  induction cs with
  | nil => intro st st' _; simp [parseLoop, entriesLoop]
  | cons e t ih =>
    intro st st' hp
    simp only [parseLoop, List.forall_mem_cons, filter_tag_cons]
    unfold parseStep
    by_cases ht : e.tag = tag
    · simp only [ht, if_true, entriesLoop, bind_ok_iff, epure, ne_eq, h1, h2, not_false_eq_true, and_self, true_and]
      constructor
      · rintro ⟨st1, ⟨r, hr, rs, hrs, e1⟩, h⟩
        cases e1
        obtain ⟨ha, hb⟩ := (ih _ _ rfl).mp h
        exact ⟨ha, r, hr, rs, hrs, hb⟩
      · rintro ⟨ha, r, hr, rs, hrs, hb⟩
        exact ⟨_, ⟨r, hr, rs, hrs, rfl⟩, (ih _ _ rfl).mpr ⟨ha, hb⟩⟩
    · simp only [ht, if_false, hp]
      by_cases hm : e.tag = rsTag "md"
      · simp [hm, ebind_err]
      · by_cases hl : e.tag = rsTag "ln"
        · simp [hl, ebind_err]
        · simp only [hm, hl, if_false, ebind_ok, ne_eq, not_false_eq_true, and_self, true_and]
          exact ih st st' hp

theorem parseLoop_pre {σ : Type} (s : Sitemap) (add : σ → Resource → Except SmErr σ) (tag : Str) (h1 : tag ≠ rsTag "md") (h2 : tag ≠ rsTag "ln")
    (cs : List Elem) : ∀ (st st' : ParseSt σ), st.in_preamble = true →
    (parseLoop s add tag cs st = .ok st' ↔
      cs.Pairwise (fun a b => a.tag = tag → b.tag ≠ rsTag "md" ∧ b.tag ≠ rsTag "ln") ∧
      ∃ md seen ls, mdLoop s (cs.filter (fun c => c.tag = rsTag "md")) st.seen_md st.cont.md = .ok (md, seen) ∧
        lnList (cs.filter (fun c => c.tag = rsTag "ln")) = .ok ls ∧
        entriesLoop s add (cs.filter (fun c => c.tag = tag))
          { st with cont := { st.cont with md := md, ln := st.cont.ln ++ ls }, seen_md := seen } = .ok st') := by
  have h3 : rsTag "md" ≠ rsTag "ln" := by decide
  induction cs with
  | nil =>
    intro st st' _
    simp only [parseLoop, List.filter_nil, mdLoop, lnList, entriesLoop, List.Pairwise.nil, true_and, Except.ok.injEq, Prod.mk.injEq]
    constructor
    · rintro rfl; exact ⟨_, _, [], ⟨rfl, rfl⟩, rfl, by simp⟩
    · rintro ⟨md, seen, ls, ⟨rfl, rfl⟩, rfl, h⟩; simpa using h
  | cons e t ih =>
    rintro ⟨cont, _, seen0, created⟩ st' ⟨⟩
    simp only [parseLoop, List.pairwise_cons, filter_tag_cons]
    unfold parseStep
    by_cases ht : e.tag = tag
    · simp only [ht, if_true, h1, h2, if_false, entriesLoop, bind_ok_iff, epure, forall_const]
      constructor
      · rintro ⟨st1, ⟨r, hr, rs, hrs, e1⟩, h⟩
        cases e1
        obtain ⟨ha, hb⟩ := (parseLoop_after s add tag h1 h2 t _ _ rfl).mp h
        have e1 : t.filter (fun c => c.tag = rsTag "md") = [] := by
          rw [List.filter_eq_nil_iff]; intro c hc; simpa using (ha c hc).1
        have e2 : t.filter (fun c => c.tag = rsTag "ln") = [] := by
          rw [List.filter_eq_nil_iff]; intro c hc; simpa using (ha c hc).2
        refine ⟨⟨ha, ?_⟩, cont.md, seen0, [], ?_, ?_, r, hr, rs, hrs, ?_⟩
        · exact List.pairwise_of_forall_mem_list (fun a ha' b hb' _ => ha b hb')
        · rw [e1]; rfl
        · rw [e2]; rfl
        · simpa using hb
      · rintro ⟨⟨ha, -⟩, md, seen, ls, hm, hl, r, hr, rs, hrs, hb⟩
        have e1 : t.filter (fun c => c.tag = rsTag "md") = [] := by
          rw [List.filter_eq_nil_iff]; intro c hc; simpa using (ha c hc).1
        have e2 : t.filter (fun c => c.tag = rsTag "ln") = [] := by
          rw [List.filter_eq_nil_iff]; intro c hc; simpa using (ha c hc).2
        rw [e1] at hm
        rw [e2] at hl
        cases hm
        cases hl
        exact ⟨_, ⟨r, hr, rs, hrs, rfl⟩, (parseLoop_after s add tag h1 h2 t _ _ rfl).mpr ⟨ha, by simpa using hb⟩⟩
    · simp only [ht, if_false, if_true, false_implies, implies_true, true_and]
      by_cases hm : e.tag = rsTag "md"
      · simp only [hm, if_true, h3, if_false, mdLoop]
        cases seen0 with
        | true => simp [ebind_err]
        | false =>
          simp only [Bool.false_eq_true, if_false, bind_ok_iff, epure]
          constructor
          · rintro ⟨st1, ⟨md, hmd, e1⟩, h⟩
            cases e1
            obtain ⟨ha, md', seen', ls, hb, hc, hd⟩ := (ih _ _ rfl).mp h
            exact ⟨ha, md', seen', ls, ⟨md, hmd, hb⟩, hc, hd⟩
          · rintro ⟨ha, md', seen', ls, ⟨md, hmd, hb⟩, hc, hd⟩
            exact ⟨_, ⟨md, hmd, rfl⟩, (ih _ _ rfl).mpr ⟨ha, md', seen', ls, hb, hc, hd⟩⟩
      · by_cases hl : e.tag = rsTag "ln"
        · simp only [hl, if_true, if_false, h3.symm, lnList, bind_ok_iff, epure]
          constructor
          · rintro ⟨st1, ⟨l, hll, e1⟩, h⟩
            cases e1
            obtain ⟨ha, md', seen', ls, hb, hc, hd⟩ := (ih _ _ rfl).mp h
            exact ⟨ha, md', seen', l :: ls, hb, ⟨l, hll, ls, hc, rfl⟩, by simpa using hd⟩
          · rintro ⟨ha, md', seen', ls', hb, ⟨l, hll, ls, hc, e1⟩, hd⟩
            cases e1
            exact ⟨_, ⟨l, hll, rfl⟩, (ih _ _ rfl).mpr ⟨ha, md', seen', ls, hb, hc, by simpa using hd⟩⟩
        · simp only [hm, hl, if_false, ebind_ok]
          exact ih ⟨cont, true, seen0, created⟩ st' rfl

/-- Reading gives the same for two documents that say the same, whatever container is read into and whatever is expected: one is read
successfully exactly if the other is, with the same result. -/
theorem C103_says {σ : Type} (s : Sitemap) (add : σ → Resource → Except SmErr σ) (c : Cont σ) (a b : Elem) (h : SameDoc s.spec_1_0 a b)
    (capability : Option Str) (sitemapindex : Option Bool) (x : Cont σ × Bool × Nat) :
    parseXml s add c a capability sitemapindex = .ok x ↔ parseXml s add c b capability sitemapindex = .ok x := by
  have hk : rootKind a sitemapindex = rootKind b sitemapindex := by unfold rootKind; rw [h.tag]
  unfold parseXml
  rw [hk]
  simp only [bind_ok_iff, epure]
  have key : ∀ (idx : Bool) (st : ParseSt σ), parseLoop s add (if idx = true then smTag "sitemap" else smTag "url") a.children { cont := c } = .ok st ↔
      parseLoop s add (if idx = true then smTag "sitemap" else smTag "url") b.children { cont := c } = .ok st := by
    intro idx st
    have t1 : (if idx = true then smTag "sitemap" else smTag "url") ≠ rsTag "md" := by cases idx <;> decide
    have t2 : (if idx = true then smTag "sitemap" else smTag "url") ≠ rsTag "ln" := by cases idx <;> decide
    rw [parseLoop_pre s add _ t1 t2 _ _ _ rfl, parseLoop_pre s add _ t1 t2 _ _ _ rfl]
    have he := h.entries (if idx = true then smTag "sitemap" else smTag "url") (by cases idx; exact .inl rfl; exact .inr rfl)
    have e1 := mdLoop_same (s := s) h.md
    have e2 := lnList_same h.ln
    have e3 := entriesLoop_same (s := s) (add := add) he.1
    simp only [Elem.findall] at e1 e2 e3
    rw [show rsTag "md" = rsName "md" from rfl, show rsTag "ln" = rsName "ln" from rfl]
    simp only [e1, e2, e3]
    exact and_congr_left (fun _ => he.2)
  constructor
  · rintro ⟨idx, hi, st, hst, rest⟩
    exact ⟨idx, hi, st, (key idx st).mp hst, rest⟩
  · rintro ⟨idx, hi, st, hst, rest⟩
    exact ⟨idx, hi, st, (key idx st).mpr hst, rest⟩

/-! A document, and another one that says the same -/

namespace SaysExample

def a : Elem := .mk (smName "urlset") [] none
  [.mk (rsName "ln") [("rel".toList, "up".toList), ("href".toList, "http://a.org/c".toList)] none [],
   .mk (rsName "md") [("capability".toList, "resourcelist".toList), ("at".toList, "2013-01-03T09:00:00Z".toList)] none [],
   .mk (smName "url") [] none
     [.mk (smName "loc") [] (some "http://a.org/1".toList) [], .mk (smName "lastmod") [] (some "2013-01-02".toList) [],
      .mk (rsName "md") [("length".toList, "5".toList), ("type".toList, "text/plain".toList)] none []]]

def b : Elem := .mk (smName "urlset") [("version".toList, "2".toList)] (some "\n".toList)
  [.mk (rsName "md") [("at".toList, "2013-01-03T09:00:00Z".toList), ("capability".toList, "resourcelist".toList), ("x".toList, "y".toList)] none [],
   .mk (smName "other") [] (some "z".toList) [],
   .mk (rsName "ln") [("href".toList, "http://a.org/c".toList), ("rel".toList, "up".toList)] none [],
   .mk (smName "url") [("id".toList, "q".toList)] (some " ".toList)
     [.mk (rsName "md") [("type".toList, "text/plain".toList), ("length".toList, "5".toList)] none [],
      .mk "{http://v.org}video".toList [] none [.mk (smName "loc") [] none []],
      .mk (smName "lastmod") [] (some "2013-01-02".toList) [], .mk (smName "loc") [] (some "http://a.org/1".toList) []]]

theorem same : SameDoc false a b where
  tag := rfl
  md := .cons (by unfold SameAtts; decide) .nil
  ln := .cons (by unfold SameAtts; decide) .nil
  entries := by
    rintro name (rfl | rfl)
    · refine ⟨.cons ⟨by decide, by decide, .cons (by unfold SameAtts; decide) .nil, .nil⟩ .nil, ?_⟩
      exact iff_of_true (by unfold PreambleFirst; decide) (by unfold PreambleFirst; decide)
    · refine ⟨.nil, ?_⟩
      exact iff_of_true (by unfold PreambleFirst; decide) (by unfold PreambleFirst; decide)

example : (parseXml {} listAdd { resources := [] } a none none).toOption.map (fun x => x.1.resources) =
      some [{ uri := "http://a.org/1".toList, timestamp := some 1357084800, length := some 5, mime_type := some "text/plain".toList }] ∧
    (parseXml {} listAdd { resources := [] } b none none).toOption.map (fun x => x.1.resources) =
      some [{ uri := "http://a.org/1".toList, timestamp := some 1357084800, length := some 5, mime_type := some "text/plain".toList }] := by
  decide +kernel

end SaysExample

/-- White space around a URI or a datetime means nothing in the schema of sitemaps (the types anyURI and dateTime collapse it), but here
it becomes part of the URI, and a datetime with it is refused, with a ValueError. -/
theorem C103_space_violated :
    ∃ (doc : Str → Str → Elem),
      (∀ loc lastmod, doc loc lastmod = .mk (smName "urlset") [] none [.mk (smName "url") [] none
        [.mk (smName "loc") [] (some loc) [], .mk (smName "lastmod") [] (some lastmod) []]]) ∧
      (parseXml {} listAdd { resources := [] } (doc "http://a.org/1".toList "2013-01-02".toList) none none).toOption.map
        (fun x => x.1.resources.map Resource.uri) = some ["http://a.org/1".toList] ∧
      (parseXml {} listAdd { resources := [] } (doc "\n  http://a.org/1\n".toList "2013-01-02".toList) none none).toOption.map
        (fun x => x.1.resources.map Resource.uri) = some ["\n  http://a.org/1\n".toList] ∧
      parseXml {} listAdd { resources := [] } (doc "http://a.org/1".toList " 2013-01-02".toList) none none = .error .value :=
  ⟨fun loc lastmod => .mk (smName "urlset") [] none [.mk (smName "url") [] none
        [.mk (smName "loc") [] (some loc) [], .mk (smName "lastmod") [] (some lastmod) []]],
    fun _ _ => rfl, by decide +kernel, by decide +kernel, by rfl⟩

end Resync
