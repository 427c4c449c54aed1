import Verif.Proofs.SitemapDoc
/-
C33–C37: reading and writing sitemap documents.
-/

namespace Resync
open Py Resync.Spec

/-! ### C33: resource metadata survives serialisation -/

/-- the tree of element `e` inside a document written by resources_as_xml and parsed again -/
def roundTripElem (e : Elem) : Option Elem :=
  reparseElem "http://www.sitemaps.org/schemas/sitemap/0.9".toList "http://www.openarchives.org/rs/terms/".toList e

/-- Every resource that the format can express can be written (as url or as sitemap element), the
written element can be parsed, and what is read back carries the same uri, timestamp, length, hashes,
change, datetime, path, mime type, capability and links.  What is missing from the full claim: the
at/completed/from/until times, see `C33_times_violated`. -/
theorem C33_round_trip_partial (pretty : Bool) (r : Resource) (h : ResOk r) (name : Str)
    (hn : name = "url".toList ∨ name = "sitemap".toList) :
    ∃ e e' r', resourceEtreeElement { pretty_xml := pretty } r name = .ok e ∧ roundTripElem e = some e' ∧
      resourceFromEtree { pretty_xml := pretty } e' = .ok r' ∧ SameInfo r r' := by
  have hq : ∃ q, qualify SITEMAP_NS RS_NS name = some q := by
    rcases hn with rfl | rfl
    · exact ⟨smTag "url", by decide⟩
    · exact ⟨smTag "sitemap", by decide⟩
  obtain ⟨q, hq⟩ := hq
  obtain ⟨e, e', r', h1, h2, -, h4, h5, -⟩ := resource_round_trip { pretty_xml := pretty } r h name q hq
  refine ⟨e, e', r', h1, h2, h4, ⟨h5.uri, ?_, ?_, h5.length, h5.mime_type, h5.md5, h5.sha1, h5.sha256, h5.change,
    h5.path, h5.capability, h5.ln⟩⟩
  · have := h5.timestamp; simpa using this
  · have := h5.ts_datetime; simpa using this

/-- The same for every setting of the version and of add_lastmod: see `Recorded`. -/
theorem C33_round_trip_settings_partial (s : Sitemap) (r : Resource) (h : ResOk r) (name : Str)
    (hn : name = "url".toList ∨ name = "sitemap".toList) :
    ∃ e e' r', resourceEtreeElement s r name = .ok e ∧ roundTripElem e = some e' ∧
      resourceFromEtree s e' = .ok r' ∧ Recorded s.spec_1_0 s.add_lastmod r r' := by
  have hq : ∃ q, qualify SITEMAP_NS RS_NS name = some q := by
    rcases hn with rfl | rfl
    · exact ⟨smTag "url", by decide⟩
    · exact ⟨smTag "sitemap", by decide⟩
  obtain ⟨q, hq⟩ := hq
  obtain ⟨e, e', r', h1, h2, -, h4, h5, -⟩ := resource_round_trip s r h name q hq
  exact ⟨e, e', r', h1, h2, h4, h5⟩

/-- The times at, completed, from and until of a resource are never read back, although they are
written: for every resource that has one of them the round trip loses it. -/
theorem C33_times_violated (s : Sitemap) (r : Resource) (h : ResOk r) (name : Str)
    (hn : name = "url".toList ∨ name = "sitemap".toList)
    (ht : r.ts_at ≠ none ∨ r.ts_completed ≠ none ∨ r.ts_from ≠ none ∨ r.ts_until ≠ none) :
    ∃ e e' r', resourceEtreeElement s r name = .ok e ∧ roundTripElem e = some e' ∧
      resourceFromEtree s e' = .ok r' ∧
      ¬ (r'.ts_at = r.ts_at ∧ r'.ts_completed = r.ts_completed ∧ r'.ts_from = r.ts_from ∧ r'.ts_until = r.ts_until) := by
  have hq : ∃ q, qualify SITEMAP_NS RS_NS name = some q := by
    rcases hn with rfl | rfl
    · exact ⟨smTag "url", by decide⟩
    · exact ⟨smTag "sitemap", by decide⟩
  obtain ⟨q, hq⟩ := hq
  obtain ⟨e, e', r', h1, h2, -, h4, -, t1, t2, t3, t4⟩ := resource_round_trip s r h name q hq
  refine ⟨e, e', r', h1, h2, h4, ?_⟩
  rintro ⟨a, b, c, d⟩
  rw [t1] at a; rw [t2] at b; rw [t3] at c; rw [t4] at d
  rcases ht with x | x | x | x
  · exact x a.symm
  · exact x b.symm
  · exact x c.symm
  · exact x d.symm

/-- a resource using every field, for the examples -/
def exRes : Resource where
  uri := "http://example.com/a&b".toList
  timestamp := some ((1000000500000 : Int) / 1000000)
  length := some 12
  mime_type := some "text/html; charset=\"x\"".toList
  md5 := some "abc".toList
  sha256 := some "de:f".toList
  change := some "updated".toList
  ts_datetime := some ((1000000700000 : Int) / 1000000)
  path := some "/res/a b".toList
  ln := some [[("href".toList, "http://example.com/c".toList), ("rel".toList, "duplicate".toList), ("pri".toList, "5".toList)]]
  ts_at := some ((1000000500000 : Int) / 1000000)

theorem xmlOk_lit (x : Str) (h : x.all isXmlChar = true) : XmlOk x := fun c hc => List.all_eq_true.mp h c hc

theorem exLink_ok : LinkOk [("href".toList, "http://example.com/c".toList), ("rel".toList, "duplicate".toList),
    ("pri".toList, "5".toList)] where
  keys_nodup := by decide
  keys := by decide
  href := by decide
  rel := by decide
  chars := by
    intro k v hv
    simp only [dget] at hv
    split at hv
    · cases hv; exact xmlOk_lit _ (by decide)
    · split at hv
      · cases hv; exact xmlOk_lit _ (by decide)
      · split at hv
        · cases hv; exact xmlOk_lit _ (by decide)
        · cases hv
  length := by
    intro v hv
    have : dget [("href".toList, "http://example.com/c".toList), ("rel".toList, "duplicate".toList),
      ("pri".toList, "5".toList)] "length".toList = none := by decide
    rw [this] at hv; cases hv
  pri := by
    intro v hv
    have : dget [("href".toList, "http://example.com/c".toList), ("rel".toList, "duplicate".toList),
      ("pri".toList, "5".toList)] "pri".toList = some "5".toList := by decide
    rw [this] at hv; cases hv
    exact ⟨5, by decide, by decide, by decide⟩

theorem exRes_ok : ResOk exRes where
  uri_ne := by decide
  uri := xmlOk_lit _ (by decide)
  uri_cr := by decide
  change := .inr (.inr (.inl rfl))
  timestamp := by intro t ht; cases ht; exact ⟨1000000500000, by decide, by decide, rfl⟩
  ts_datetime := by intro t ht; cases ht; exact ⟨1000000700000, by decide, by decide, rfl⟩
  ts_at := by intro t ht; cases ht; exact ⟨1000000500000, by decide, by decide, rfl⟩
  ts_completed := by intro t ht; cases ht
  ts_from := by intro t ht; cases ht
  ts_until := by intro t ht; cases ht
  mime_type := by intro t ht; cases ht; exact xmlOk_lit _ (by decide)
  path := by intro t ht; cases ht; exact xmlOk_lit _ (by decide)
  capability := by intro t ht; cases ht
  md5 := by intro t ht; cases ht; exact ⟨xmlOk_lit _ (by decide), by unfold NoSpace; decide⟩
  sha1 := by intro t ht; cases ht
  sha256 := by intro t ht; cases ht; exact ⟨xmlOk_lit _ (by decide), by unfold NoSpace; decide⟩
  ln := by
    intro ls hls; cases hls
    intro l hl
    rw [List.mem_singleton.mp hl]
    exact exLink_ok

/-- the hypotheses are met by a resource using every kind of field -/
example : ∃ e e' r', resourceEtreeElement {} exRes "url".toList = .ok e ∧ roundTripElem e = some e' ∧
    resourceFromEtree {} e' = .ok r' ∧ SameInfo exRes r' :=
  C33_round_trip_partial false exRes exRes_ok _ (.inl rfl)

example : exRes.ts_at ≠ none := Option.some_ne_none _

/-! ### C34: a whole document -/

/-- Writing a document (sitemap or sitemapindex) for any list of expressible resources with any
expressible top-level metadata and links, and parsing the text again into an empty container, gives
the same entries in the same order, the same metadata and the same links, and reports the right
number of entries; for any capability the metadata states, and for any expected kind of document.
(The times that C33 loses excepted.) -/
theorem C34_round_trip_partial (s : Sitemap) (md : Dict Str) (ln : List Link) (rs : List Resource) (index : Bool)
    (hmd : MdOk (mdAttKeys s) md) (hln : ∀ l ∈ ln, LinkOk l) (hrs : ∀ r ∈ rs, ResOk r)
    (cap : Option Str) (hcap : ∀ c, cap = some c → dget md "capability".toList = some c)
    (want : Option Bool) (hwant : want = none ∨ want = some index) :
    ∃ t t' c, resourcesAsXml s md ln rs index = .ok t ∧ reparse t = some t' ∧
      parseXml s listAdd { resources := [] } t' cap want = .ok (c, index, rs.length) ∧
      List.Forall₂ (Recorded s.spec_1_0 s.add_lastmod) rs c.resources ∧ SameMap md c.md ∧ SameLinks ln c.ln := by
  obtain ⟨t, t', rs', h1, h2, h3, h4⟩ := doc_round_trip s md ln rs index hmd hln hrs
  have fold : ∀ (l acc : List Resource), l.foldlM listAdd acc = .ok (acc ++ l) := by
    intro l
    induction l with
    | nil => intro acc; simp [epure]
    | cons a t ih => intro acc; rw [List.foldlM_cons]; simp only [listAdd, ebind_ok]; rw [ih]; simp
  obtain ⟨c, h5, h6, h7, h8⟩ := h4 listAdd [] rs' (fold rs' []) cap hcap want hwant
  exact ⟨t, t', c, h1, h2, h5, h6 ▸ h3, h7, h8⟩

/-- the hypotheses are met by a change list with metadata, a link and an entry with every field -/
example : ∃ t t' c, resourcesAsXml {} [("capability".toList, "changelist".toList)]
      [[("href".toList, "http://example.com/c".toList), ("rel".toList, "duplicate".toList), ("pri".toList, "5".toList)]]
      [exRes, exRes] false = .ok t ∧ reparse t = some t' ∧
      parseXml {} listAdd { resources := [] } t' (some "changelist".toList) (some false) = .ok (c, false, 2) ∧
      List.Forall₂ (Recorded false false) [exRes, exRes] c.resources ∧
      SameMap [("capability".toList, "changelist".toList)] c.md ∧
      SameLinks [[("href".toList, "http://example.com/c".toList), ("rel".toList, "duplicate".toList),
        ("pri".toList, "5".toList)]] c.ln := by
  refine C34_round_trip_partial {} _ _ _ false ?_ ?_ ?_ (some "changelist".toList) ?_ _ (.inr rfl)
  · refine ⟨by decide, by decide, ?_, by unfold ValidChange; decide, ?_⟩
    rotate_left
    · intro v hv
      have : dget [("capability".toList, "changelist".toList)] "length".toList = none := by decide
      rw [this] at hv; cases hv
    intro k v hv
    simp only [dget] at hv
    split at hv
    · cases hv; exact xmlOk_lit _ (by decide)
    · cases hv
  · intro l hl; rw [List.mem_singleton.mp hl]; exact exLink_ok
  · intro r hr
    simp only [List.mem_cons, List.not_mem_nil, or_false, or_self] at hr
    rw [hr]; exact exRes_ok
  · intro c hc; cases hc; decide

/-- C34 fails for lists whose entries have one of the times that are written and not read (see `C33_times_violated`), such as the lists
of a source description. -/
theorem C34_violated : ∃ (r : Resource) (t t' : Elem) (c : Cont (List Resource)), ResOk r ∧
    resourcesAsXml {} [] [] [r] false = .ok t ∧ reparse t = some t' ∧
    parseXml {} listAdd { resources := [] } t' none none = .ok (c, false, 1) ∧ c.resources.map (·.ts_at) ≠ [r.ts_at] := by
  obtain ⟨t, t', c, h1, h2, h3, -⟩ := C34_round_trip_partial {} [] [] [exRes] false
    ⟨by decide, by decide, (fun k v hv => by cases hv), .inl rfl, (fun v hv => by cases hv)⟩ (by simp)
    (by intro r hr; rw [List.mem_singleton.mp hr]; exact exRes_ok) none (by intro c hc; cases hc) none (.inl rfl)
  refine ⟨exRes, t, t', c, exRes_ok, h1, h2, h3, ?_⟩
  have key : (match resourcesAsXml {} [] [] [exRes] false with
    | .ok t => match reparse t with
      | some t' => match parseXml {} listAdd { resources := [] } t' none none with
        | .ok (c, _, _) => decide (c.resources.map (·.ts_at) ≠ [exRes.ts_at])
        | .error _ => true
      | none => true
    | .error _ => true) = true := by decide +kernel
  rw [h1] at key
  dsimp only at key
  rw [h2] at key
  dsimp only at key
  rw [h3] at key
  exact of_decide_eq_true key

/-! ### C35: structurally bad documents are rejected -/

theorem parseXml_none {σ : Type} (s : Sitemap) (add : σ → Resource → Except SmErr σ) (c : Cont σ) (root : Elem)
    (want : Option Bool) (x : Cont σ × Bool × Nat) :
    parseXml s add c root none want = .ok x ↔ ∃ idx st, rootKind root want = .ok idx ∧
      parseLoop s add (if idx then smTag "sitemap" else smTag "url") root.children { cont := c } = .ok st ∧
      x = (st.cont, idx, st.created) := by
  simp only [parseXml, bind_ok_iff, checkCapability, epure]
  constructor
  · rintro ⟨idx, h1, st, h2, _, h3, h4⟩
    cases h3
    exact ⟨idx, st, h1, h2, (Except.ok.inj h4).symm⟩
  · rintro ⟨idx, st, h1, h2, rfl⟩
    exact ⟨idx, h1, st, h2, _, rfl, rfl⟩

theorem rootKind_ok (root : Elem) (want : Option Bool) (idx : Bool) :
    rootKind root want = .ok idx ↔
      root.tag = smName (if idx then "sitemapindex" else "urlset") ∧ (want = none ∨ want = some idx) := by
  have h1 : smTag "urlset" ≠ smTag "sitemapindex" := by decide
  unfold rootKind
  cases idx with
  | false =>
    show _ ↔ root.tag = smTag "urlset" ∧ _
    by_cases hr : root.tag = smTag "urlset"
    · rw [if_pos hr]
      rcases want with _ | _ | _ <;> simp [hr]
    · rw [if_neg hr]
      constructor
      · intro h
        split at h
        · split at h <;> cases h
        · cases h
      · intro h; exact absurd h.1 hr
  | true =>
    show _ ↔ root.tag = smTag "sitemapindex" ∧ _
    by_cases hr : root.tag = smTag "sitemapindex"
    · have hne : ¬ smTag "sitemapindex" = smTag "urlset" := fun h => h1 h.symm
      rw [hr, if_neg hne, if_pos rfl]
      rcases want with _ | _ | _ <;> simp
    · constructor
      · intro h
        split at h
        · split at h <;> cases h
        · cases h
      · intro h; exact absurd h.1 hr

theorem loopOk_docOk (s : Sitemap) (root : Elem) (idx : Bool) :
    (root.tag = smName (if idx then "sitemapindex" else "urlset") ∧
      LoopOk s (if idx then smTag "sitemap" else smTag "url") true false root.children) ↔
    DocOk (fun t => (strToDatetime t).isSome) s.spec_1_0 idx root := by
  have ht : (if idx then smTag "sitemap" else smTag "url") = smName (if idx then "sitemap" else "url") := by
    cases idx <;> rfl
  rw [ht]
  have mem : ∀ (e : Elem) (t : Str), e ∈ root.findall t ↔ e ∈ root.children ∧ e.tag = t := by
    intro e t; simp [Elem.findall]
  constructor
  · rintro ⟨h0, h⟩
    refine ⟨h0, h.one, ?_, ?_, h.order, ?_⟩
    · intro m hm; rw [mem] at hm; exact h.md m hm.1 hm.2
    · intro m hm; rw [mem] at hm; exact h.ln m hm.1 hm.2
    · intro m hm; rw [mem] at hm; exact h.entries m hm.1 hm.2
  · intro h
    refine ⟨h.root_tag, ⟨?_, ?_, ?_, h.md_one, by simp, h.preamble⟩⟩
    · intro e h1 h2; exact h.entries e ((mem _ _).mpr ⟨h1, h2⟩)
    · intro e h1 h2; exact h.md e ((mem _ _).mpr ⟨h1, h2⟩)
    · intro e h1 h2; exact h.ln e ((mem _ _).mpr ⟨h1, h2⟩)

/-- Parsing succeeds only for well-formed documents of the requested kind, whatever container the
entries are added to, whatever it already holds and whatever capability is expected. -/
theorem C35_rejected {σ : Type} (s : Sitemap) (add : σ → Resource → Except SmErr σ) (c c' : Cont σ) (root : Elem)
    (cap : Option Str) (want : Option Bool) (idx : Bool) (n : Nat)
    (h : parseXml s add c root cap want = .ok (c', idx, n)) :
    DocOk (fun t => (strToDatetime t).isSome) s.spec_1_0 idx root ∧ (want = none ∨ want = some idx) := by
  simp only [parseXml, bind_ok_iff, epure] at h
  obtain ⟨i, h1, st, h2, md, h3, h4⟩ := h
  cases h4
  obtain ⟨a, b⟩ := (rootKind_ok root want idx).mp h1
  have t1 : (if idx then smTag "sitemap" else smTag "url") ≠ rsTag "md" := by cases idx <;> decide
  have t2 : (if idx then smTag "sitemap" else smTag "url") ≠ rsTag "ln" := by cases idx <;> decide
  have hu := parseLoop_unit s add _ root.children _ _ { cont := { resources := () } } h2 rfl rfl
  have := (parseLoop_isOk s _ (fun _ _ => ⟨(), rfl⟩) _ t1 t2 root.children _).mp hu
  exact ⟨(loopOk_docOk s root idx).mp ⟨a, this⟩, b⟩

/-- and it does succeed for all of them: nothing well formed is rejected -/
theorem C35_accepted_iff (s : Sitemap) (c : Cont (List Resource)) (root : Elem) (want : Option Bool) :
    (∃ x, parseXml s listAdd c root none want = .ok x) ↔
      ∃ idx, DocOk (fun t => (strToDatetime t).isSome) s.spec_1_0 idx root ∧ (want = none ∨ want = some idx) := by
  constructor
  · rintro ⟨⟨c', idx, n⟩, h⟩
    exact ⟨idx, C35_rejected s listAdd c c' root none want idx n h⟩
  · rintro ⟨idx, h, hw⟩
    have t1 : (if idx then smTag "sitemap" else smTag "url") ≠ rsTag "md" := by cases idx <;> decide
    have t2 : (if idx then smTag "sitemap" else smTag "url") ≠ rsTag "ln" := by cases idx <;> decide
    obtain ⟨h0, hl⟩ := (loopOk_docOk s root idx).mpr h
    obtain ⟨st, hst⟩ := (parseLoop_isOk s listAdd (fun c r => ⟨_, rfl⟩) _ t1 t2 root.children
      { cont := c }).mpr hl
    exact ⟨_, (parseXml_none s listAdd c root want _).mpr ⟨idx, st, (rootKind_ok root want idx).mpr ⟨h0, hw⟩, hst, rfl⟩⟩

/-- a small well-formed document -/
def exDoc (tail : List Elem) : Elem :=
  .mk (smName "urlset") [] none ([.mk (rsName "md") [("capability".toList, "resourcelist".toList)] none [],
    .mk (smName "url") [] none [.mk (smName "loc") [] (some "http://example.com/1".toList) [],
      .mk (smName "lastmod") [] (some "2001-02-03".toList) []]] ++ tail)

example : ∃ x, parseXml {} listAdd { resources := [] } (exDoc []) none (some false) = .ok x := ⟨_, rfl⟩
example : parseXml {} listAdd { resources := [] } (exDoc [.mk (rsName "md") [] none []]) none none = .error .parse := by
  rfl

/-! ### C36: capability -/

/-- what a document says about its capability -/
def docCapability (root : Elem) : Option Str :=
  (root.findall (rsName "md")).head?.bind (fun m => dget m.attrib "capability".toList)

/-- If reading for capability `cap` succeeds, the list read has that capability. -/
theorem C36_capability {σ : Type} (s : Sitemap) (add : σ → Resource → Except SmErr σ) (c c' : Cont σ) (root : Elem)
    (cap : Str) (want : Option Bool) (idx : Bool) (n : Nat)
    (h : parseXml s add c root (some cap) want = .ok (c', idx, n)) : dget c'.md "capability".toList = some cap := by
  simp only [parseXml, bind_ok_iff, epure] at h
  obtain ⟨i, -, st, -, md, h3, h4⟩ := h
  cases h4
  simp only [checkCapability] at h3
  split at h3
  · rename_i c' hc
    split at h3
    · rename_i he
      cases h3
      rw [← he]; exact hc
    · cases h3
  · split at h3
    · rename_i he
      cases h3
      rw [he]
      show dget (dset _ kCapability _) kCapability = _
      rw [dget_dset, if_pos rfl]
    · cases h3

theorem parsed_capability {σ : Type} (s : Sitemap) (add : σ → Resource → Except SmErr σ) (c c' : Cont σ) (root : Elem)
    (want : Option Bool) (idx : Bool) (n : Nat) (h : parseXml s add c root none want = .ok (c', idx, n))
    (hc : dget c.md "capability".toList = none) : dget c'.md "capability".toList = docCapability root := by
  obtain ⟨i, st, -, h2, h3⟩ := (parseXml_none s add c root want _).mp h
  cases h3
  have t1 : (if idx then smTag "sitemap" else smTag "url") ≠ rsTag "md" := by cases idx <;> decide
  have hd : docCapability root = ((root.children.filter (fun c => decide (c.tag = rsTag "md"))).head?.bind
    (fun m => dget m.attrib "capability".toList)) := rfl
  rw [hd]
  rcases parseLoop_md s add _ t1 root.children _ _ h2 with ⟨a, b⟩ | ⟨m, rest, a, -, -, b⟩
  · rw [a, b]; exact hc
  · rw [a]
    have := mdFromEtree_get b kCapability
    rw [if_neg (by decide), if_pos (mem_mdAttKeys s).1] at this
    exact this

/-- For a list that has no capability yet: a document is accepted for capability `cap` exactly if it is
otherwise acceptable and states `cap`, or states none and `cap` is resourcelist. -/
theorem C36_accepted_iff {σ : Type} (s : Sitemap) (add : σ → Resource → Except SmErr σ) (c : Cont σ) (root : Elem)
    (cap : Str) (want : Option Bool) (hc : dget c.md "capability".toList = none) :
    (∃ x, parseXml s add c root (some cap) want = .ok x) ↔
      (∃ x, parseXml s add c root none want = .ok x) ∧
      (docCapability root = some cap ∨ (docCapability root = none ∧ cap = "resourcelist".toList)) := by
  have key : ∀ c' idx n, parseXml s add c root none want = .ok (c', idx, n) →
      ((∃ x, parseXml s add c root (some cap) want = .ok x) ↔ ∃ md, checkCapability (some cap) c'.md = .ok md) := by
    intro c' idx n h
    obtain ⟨i, st, h1, h2, h3⟩ := (parseXml_none s add c root want _).mp h
    cases h3
    simp only [parseXml, h1, h2, ebind_ok, bind_isOk, epure]
    exact ⟨fun ⟨md, a, _⟩ => ⟨md, a⟩, fun ⟨md, a⟩ => ⟨md, a, _, rfl⟩⟩
  have chk : ∀ c' idx n, parseXml s add c root none want = .ok (c', idx, n) →
      ((∃ md, checkCapability (some cap) c'.md = .ok md) ↔
        (docCapability root = some cap ∨ (docCapability root = none ∧ cap = "resourcelist".toList))) := by
    intro c' idx n h
    have hp := parsed_capability s add c c' root want idx n h hc
    have hp' : dget c'.md kCapability = docCapability root := hp
    simp only [checkCapability, hp']
    cases docCapability root with
    | some d =>
      by_cases hd : d = cap
      · simp [hd]
      · simp [hd]
    | none =>
      by_cases hd : cap = "resourcelist".toList
      · rw [if_pos hd]; simp only [reduceCtorEq, false_or, true_and, hd, iff_true]; exact ⟨_, rfl⟩
      · rw [if_neg hd]; simp only [reduceCtorEq, false_or, true_and, exists_false, false_iff]; exact hd
  constructor
  · intro h
    have hn : ∃ x, parseXml s add c root none want = .ok x := by
      obtain ⟨x, h⟩ := h
      simp only [parseXml, bind_ok_iff, epure] at h
      obtain ⟨i, h1, st, h2, -⟩ := h
      exact ⟨_, (parseXml_none s add c root want _).mpr ⟨i, st, h1, h2, rfl⟩⟩
    obtain ⟨⟨c', idx, n⟩, hx⟩ := hn
    exact ⟨⟨_, hx⟩, (chk _ _ _ hx).mp ((key _ _ _ hx).mp h)⟩
  · rintro ⟨⟨⟨c', idx, n⟩, hx⟩, h⟩
    exact (key _ _ _ hx).mpr ((chk _ _ _ hx).mpr h)

example : ∃ x, parseXml {} listAdd { resources := [] } (exDoc []) (some "resourcelist".toList) none = .ok x := ⟨_, rfl⟩
example : parseXml {} listAdd { resources := [] } (exDoc []) (some "changelist".toList) none = .error .parse := by rfl
example : docCapability (exDoc []) = some "resourcelist".toList := by rfl

/-- A list object that already has a capability (for instance because it has been written) accepts a
document that states none, although it is not a resource list. -/
theorem C36_reused_list_violated :
    ∃ (c : Cont (List Resource)) (root : Elem), docCapability root = none ∧
      ∃ x, parseXml {} listAdd c root (some "changelist".toList) (some false) = .ok x := by
  refine ⟨{ resources := [], md := [("capability".toList, "changelist".toList)] }, .mk (smName "urlset") [] none [],
    by rfl, _, rfl⟩

/-! ### C37: entries in document order -/

/-- One resource per url (or sitemap) element of the document, in document order, each with the
location of its element, is added to the container; their number is reported. -/
theorem C37_order {σ : Type} (s : Sitemap) (add : σ → Resource → Except SmErr σ) (c c' : Cont σ) (root : Elem)
    (cap : Option Str) (want : Option Bool) (idx : Bool) (n : Nat)
    (h : parseXml s add c root cap want = .ok (c', idx, n)) :
    ∃ rs, List.Forall₂ (fun e r => resourceFromEtree s e = .ok r ∧
          ∃ l, e.findall (smName "loc") = [l] ∧ l.text = some r.uri)
        (root.findall (smName (if idx then "sitemap" else "url"))) rs ∧
      rs.foldlM add c.resources = .ok c'.resources ∧ n = rs.length := by
  simp only [parseXml, bind_ok_iff, epure] at h
  obtain ⟨i, h1, st, h2, md, h3, h4⟩ := h
  cases h4
  obtain ⟨rs, a, b, d⟩ := parseLoop_entries s add _ root.children _ _ h2
  have ht : (if idx then smTag "sitemap" else smTag "url") = smName (if idx then "sitemap" else "url") := by
    cases idx <;> rfl
  rw [ht] at a
  refine ⟨rs, ?_, b, by simpa using d⟩
  exact a.imp (fun e r hr => ⟨hr, resourceFromEtree_uri hr⟩)

/-- for a plain list: the uris are the locations, in document order -/
theorem C37_uris (s : Sitemap) (c c' : Cont (List Resource)) (root : Elem) (cap : Option Str) (want : Option Bool)
    (idx : Bool) (n : Nat) (h : parseXml s listAdd c root cap want = .ok (c', idx, n)) :
    c'.resources.map (fun r => some (some r.uri)) = c.resources.map (fun r => some (some r.uri)) ++
      (root.findall (smName (if idx then "sitemap" else "url"))).map
        (fun e => (e.findall (smName "loc")).head?.map Elem.text) := by
  obtain ⟨rs, a, b, -⟩ := C37_order s listAdd c c' root cap want idx n h
  have fold : ∀ (l acc x : List Resource), l.foldlM listAdd acc = .ok x → x = acc ++ l := by
    intro l
    induction l with
    | nil => intro acc x h; cases h; simp
    | cons a t ih =>
      intro acc x h
      rw [List.foldlM_cons] at h; simp only [listAdd, ebind_ok] at h
      rw [ih _ _ h]; simp
  rw [fold _ _ _ b, List.map_append]
  congr 1
  clear b
  generalize root.findall (smName (if idx then "sitemap" else "url")) = es at a
  induction a with
  | nil => rfl
  | cons hh _ ih =>
    obtain ⟨-, l, h1, h2⟩ := hh
    simp only [List.map_cons, List.cons.injEq]
    refine ⟨?_, ih⟩
    rw [h1]; simp [h2]

/-- Elements that are not understood, at top level or inside entries, never influence the result:
removing them all gives the same outcome, success or failure. -/
theorem C37_unknown_ignored {σ : Type} (s : Sitemap) (add : σ → Resource → Except SmErr σ) (c : Cont σ) (root : Elem)
    (cap : Option Str) (idx : Bool) (hr : root.tag = smName (if idx then "sitemapindex" else "urlset"))
    (want : Option Bool) :
    parseXml s add c (stripUnknown idx root) cap want = parseXml s add c root cap want := by
  cases root with
  | mk t a x ch =>
    have hr : t = smName (if idx then "sitemapindex" else "urlset") := hr
    subst hr
    have hk : ∀ y, rootKind (.mk (smName (if idx then "sitemapindex" else "urlset")) a x y) want =
        if want = none ∨ want = some idx then .ok idx else .error .index := by
      intro y
      by_cases hw : want = none ∨ want = some idx
      · rw [if_pos hw]; exact (rootKind_ok _ want idx).mpr ⟨rfl, hw⟩
      · rw [if_neg hw]
        have h1 : smTag "sitemapindex" ≠ smTag "urlset" := by decide
        unfold rootKind
        cases idx with
        | false =>
          show (if smTag "urlset" = smTag "urlset" then _ else _) = _
          rcases want with _ | _ | _ <;> simp_all
        | true =>
          show (if smTag "sitemapindex" = smTag "urlset" then _ else _) = _
          rw [if_neg h1]
          show (if smTag "sitemapindex" = smTag "sitemapindex" then _ else _) = _
          rcases want with _ | _ | _ <;> simp_all
    have ht : (if idx then smTag "sitemap" else smTag "url") = smName (if idx then "sitemap" else "url") := by
      cases idx <;> rfl
    have hs : stripUnknown idx (.mk (smName (if idx then "sitemapindex" else "urlset")) a x ch) =
        .mk (smName (if idx then "sitemapindex" else "urlset")) a x
          ((ch.map (fun c => if c.tag = smName (if idx then "sitemap" else "url") then
            keepKnown [smName "loc", smName "lastmod", rsName "md", rsName "ln"] c else c)).filter
            (fun c => decide (c.tag ∈ [smName (if idx then "sitemap" else "url"), rsTag "md", rsTag "ln"]))) := rfl
    rw [hs]
    simp only [parseXml, hk]
    by_cases hw : want = none ∨ want = some idx
    · rw [if_pos hw]
      simp only [ebind_ok, Elem.children, ht]
      generalize smName (if idx then "sitemap" else "url") = tg
      congr 1
      rw [parseLoop_filter]
      apply parseLoop_map
      · intro e
        by_cases he : e.tag = tg
        · rw [if_pos he]; exact keepKnown_tag _ _
        · rw [if_neg he]
      · intro e he; rw [if_neg he]
      · intro e
        by_cases he : e.tag = tg
        · rw [if_pos he]
          apply resourceFromEtree_congr <;> (apply findall_keepKnown; decide)
        · rw [if_neg he]
    · rw [if_neg hw]; rfl

example : ∃ c, parseXml {} listAdd { resources := [] } (exDoc [.mk "{x}y".toList [] none [],
    .mk (smName "url") [] none [.mk (smName "loc") [] (some "http://example.com/2".toList) []]]) none (some false) =
    .ok (c, false, 2) ∧ c.resources.map (·.uri) = ["http://example.com/1".toList, "http://example.com/2".toList] :=
  ⟨_, rfl, rfl⟩

end Resync
