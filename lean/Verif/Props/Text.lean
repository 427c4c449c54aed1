import Verif.Proofs.SitemapText
import Verif.Proofs.SitemapDoc
import Verif.Props.Sitemap
import Verif.Props.ListIndex
/-
C95, C96: documents as text — what is written can be read again, and what was cut off cannot.
-/

namespace Resync
open Py Resync.Spec

/-! ### C95: texts -/

/-- The text of a document, read as XML, is the tree that the document stands for — whatever the URIs, paths, digests, metadata
values and link values contain, and also when that makes the document unreadable (characters that XML does not allow). -/
theorem C95_text_is_document {s : Sitemap} {enc : Str} (henc : EncodingName enc) {md : Dict Str} {ln : List Link} {rs : List Resource} {index : Bool}
    (hmd : AttNames md) (hln : ∀ l ∈ ln, AttNames l) (hrs : ∀ l ∈ EntryLinks rs, AttNames l) {t : Elem} {text : Str}
    (ht : resourcesAsXml s md ln rs index = .ok t) (htext : documentText s enc md ln rs index = .ok text) : readXml text = reparse t := by
  obtain ⟨h1, h2, h3, h4⟩ := resourcesAsXml_tree ht hmd hln hrs
  rw [documentText, ht, ebind_ok] at htext
  cases htext
  exact readXml_writeXml (encodingName_ok henc) (sitemapTails_legal s) h2 h1 h3 h4

theorem attNames_of_linkOk {l : Link} (h : LinkOk l) : AttNames l := by
  intro k hk
  have := h.keys k hk
  have hd : ∀ k ∈ ["hash".toList, "href".toList, "length".toList, "modified".toList, "path".toList, "rel".toList, "pri".toList,
    "mime_type".toList], isXmlName k = true := by decide
  exact hd k this

theorem attNames_of_mdOk {s : Sitemap} {md : Dict Str} (h : MdOk (mdAttKeys s) md) : AttNames md :=
  fun k hk => mdAttKeys_names s k (h.keys_known k hk)

/-- Writing a document as text and parsing the text gives the same entries in the same order, the same metadata and the same
links, for any resources, metadata and links that the format can express, with and without pretty printing, for every name of an
encoding, for any capability that the metadata states and any expected kind of document. -/
theorem C95_round_trip (s : Sitemap) (enc : Str) (henc : EncodingName enc) (md : Dict Str) (ln : List Link) (rs : List Resource) (index : Bool)
    (hmd : MdOk (mdAttKeys s) md) (hln : ∀ l ∈ ln, LinkOk l) (hrs : ∀ r ∈ rs, ResOk r)
    (cap : Option Str) (hcap : ∀ c, cap = some c → dget md "capability".toList = some c)
    (want : Option Bool) (hwant : want = none ∨ want = some index) :
    ∃ text c, documentText s enc md ln rs index = .ok text ∧
      parseText s listAdd { resources := [] } text cap want = .ok (c, index, rs.length) ∧
      List.Forall₂ (Recorded s.spec_1_0 s.add_lastmod) rs c.resources ∧ SameMap md c.md ∧ SameLinks ln c.ln := by
  obtain ⟨t, t', c, h1, h2, h3, h4, h5, h6⟩ := C34_round_trip_partial s md ln rs index hmd hln hrs cap hcap want hwant
  have hd : documentText s enc md ln rs index = .ok (writeXml enc (sitemapTails s) t) := by rw [documentText, h1, ebind_ok]; rfl
  refine ⟨_, c, hd, ?_, h4, h5, h6⟩
  have hlinks : ∀ l ∈ EntryLinks rs, AttNames l := by
    intro l hl
    obtain ⟨r, hr, hl⟩ := List.mem_flatMap.mp hl
    cases he : r.ln with
    | none => rw [he] at hl; simp at hl
    | some ls => rw [he] at hl; exact attNames_of_linkOk ((hrs r hr).ln ls he l hl)
  have := C95_text_is_document henc (attNames_of_mdOk hmd) (fun l hl => attNames_of_linkOk (hln l hl)) hlinks h1 hd
  rw [parseText, this, h2]
  dsimp only
  rw [h3]

theorem writeList_append (tails : Nat → Str → Str) (d : Nat) (a b : List Elem) : writeList tails d (a ++ b) = writeList tails d a ++ writeList tails d b := by
  induction a with
  | nil => simp [writeList]
  | cons e t ih => simp only [List.cons_append, writeList, ih, List.append_assoc]

/-- The text of a list is a beginning that does not depend on the entries, the entries as `resource_as_xml` gives them one after
the other, and `</urlset>`. -/
theorem C95_entries (s : Sitemap) (enc : Str) (md : Dict Str) (ln : List Link) :
    ∃ head, ∀ rs text, rs ≠ [] → documentText s enc md ln rs false = .ok text →
      ∃ snippets, List.Forall₂ (fun r x => resourceAsXml s r = .ok x) rs snippets ∧ text = head ++ snippets.flatten ++ "</urlset>".toList := by
  refine ⟨xmlDecl enc ++ ('<' :: ("urlset".toList ++ (([(sXmlns, SITEMAP_NS), ("xmlns:rs".toList, RS_NS)] : Dict Str).flatMap attText ++
    '>' :: (escText ((if s.pretty_xml then some "\n".toList else none).getD []) ++
      writeList (sitemapTails s) 1 (ln.flatMap (elementWithAtts "rs:ln".toList) ++ elementWithAtts "rs:md".toList md))))), ?_⟩
  intro rs text hne h
  unfold documentText resourcesAsXml at h
  dsimp only at h
  simp only [Bool.false_eq_true, if_false] at h
  cases h1 : resourceElements s "url".toList rs with
  | error x => rw [h1] at h; cases h
  | ok es =>
    rw [h1, ebind_ok, epure, ebind_ok] at h
    have hes : ∃ snippets, List.Forall₂ (fun r x => resourceAsXml s r = .ok x) rs snippets ∧ writeList (sitemapTails s) 1 es = snippets.flatten := by
      clear h hne
      induction rs generalizing es with
      | nil => cases h1; exact ⟨[], .nil, by simp [writeList]⟩
      | cons r t ih =>
        rw [resourceElements] at h1
        cases h2 : resourceEtreeElement s r "url".toList with
        | error x => rw [h2] at h1; cases h1
        | ok e =>
          rw [h2, ebind_ok] at h1
          cases h3 : resourceElements s "url".toList t with
          | error x => rw [h3] at h1; cases h1
          | ok es' =>
            rw [h3, ebind_ok] at h1
            cases h1
            obtain ⟨sn, h4, h5⟩ := ih es' h3
            refine ⟨_ :: sn, .cons (by rw [resourceAsXml, h2, ebind_ok]; rfl) h4, ?_⟩
            rw [writeList, h5, List.flatten_cons, List.append_assoc]
    have hes0 : es ≠ [] := by
      rintro rfl
      cases rs with
      | nil => exact hne rfl
      | cons r t =>
        rw [resourceElements] at h1
        cases h2 : resourceEtreeElement s r "url".toList with
        | error x => rw [h2] at h1; cases h1
        | ok e =>
          rw [h2, ebind_ok] at h1
          cases h3 : resourceElements s "url".toList t with
          | error x => rw [h3] at h1; cases h1
          | ok es' => rw [h3, ebind_ok] at h1; cases h1
    obtain ⟨sn, h4, h5⟩ := hes
    refine ⟨sn, h4, ?_⟩
    cases h
    rw [writeXml, writeElem, if_neg, writeList_append, h5]
    · simp only [List.append_assoc, List.cons_append, Nat.zero_add]
      rfl
    · simp [hes0]

/-- two entries with characters that XML marks up with, pretty printed -/
def exTexts : List Resource :=
  [{ uri := "http://example.com/a?b=1&c=<2>".toList, path := some "a \"b\".txt".toList },
   { uri := "http://example.com/</loc></url>".toList, ln := some [[("rel".toList, "duplicate".toList), ("href".toList, "http://example.org/'x'".toList)]] }]

/-- the text itself: markup in values is escaped, attributes are sorted -/
example : documentText { pretty_xml := true } "utf-8".toList [("capability".toList, "resourcelist".toList)] [] exTexts false = .ok
    ("<?xml version='1.0' encoding='utf-8'?>\n" ++
     "<urlset xmlns=\"http://www.sitemaps.org/schemas/sitemap/0.9\" xmlns:rs=\"http://www.openarchives.org/rs/terms/\">\n" ++
     "<rs:md capability=\"resourcelist\" />\n" ++
     "<url><loc>http://example.com/a?b=1&amp;c=&lt;2&gt;</loc><rs:md path=\"a &quot;b&quot;.txt\" /></url>\n" ++
     "<url><loc>http://example.com/&lt;/loc&gt;&lt;/url&gt;</loc><rs:ln href=\"http://example.org/'x'\" rel=\"duplicate\" />\n</url>\n" ++
     "</urlset>").toList := by decide +kernel

example : EncodingName "utf-8".toList ∧ AttNames [("capability".toList, "resourcelist".toList)] ∧ (∀ l ∈ EntryLinks exTexts, AttNames l) := by
  unfold EncodingName AttNames; decide

/-- and it is read back -/
example : (match documentText { pretty_xml := true } "utf-8".toList [("capability".toList, "resourcelist".toList)] [] exTexts false with
    | .ok text => (match parseText {} listAdd { resources := [] } text (some "resourcelist".toList) (some false) with
      | .ok (c, _, n) => (c.resources.map (·.uri), c.resources.map (·.path), n)
      | .error _ => ([], [], 0))
    | .error _ => ([], [], 0)) =
    (["http://example.com/a?b=1&c=<2>".toList, "http://example.com/</loc></url>".toList], [some "a \"b\".txt".toList, none], 2) := by
  decide +kernel

/-- the hypotheses of `C95_round_trip` are met by the change list of C34 -/
example : ∃ text c, documentText {} "UTF-8".toList [("capability".toList, "changelist".toList)]
      [[("href".toList, "http://example.com/c".toList), ("rel".toList, "duplicate".toList), ("pri".toList, "5".toList)]]
      [exRes, exRes] false = .ok text ∧
      parseText {} listAdd { resources := [] } text (some "changelist".toList) (some false) = .ok (c, false, 2) ∧
      List.Forall₂ (Recorded false false) [exRes, exRes] c.resources ∧
      SameMap [("capability".toList, "changelist".toList)] c.md ∧
      SameLinks [[("href".toList, "http://example.com/c".toList), ("rel".toList, "duplicate".toList),
        ("pri".toList, "5".toList)]] c.ln := by
  refine C95_round_trip {} "UTF-8".toList ?_ _ _ _ false ?_ ?_ ?_ (some "changelist".toList) ?_ _ (.inr rfl)
  · unfold EncodingName; decide
  · refine ⟨by decide, by decide, ?_, by unfold ValidChange; decide, ?_⟩
    rotate_left
    · intro v hv
      have : dget [("capability".toList, "changelist".toList)] "length".toList = none := by decide
      rw [this] at hv; cases hv
    intro k v hv
    simp only [dget] at hv
    split at hv
    · cases hv; exact xmlOk_lit _ (by decide)
    · cases hv
  · intro l hl; rw [List.mem_singleton.mp hl]; exact exLink_ok
  · intro r hr
    simp only [List.mem_cons, List.not_mem_nil, or_false, or_self] at hr
    rw [hr]; exact exRes_ok
  · intro c hc; cases hc; decide

/-- a character that XML does not allow: the document is written, and cannot be read -/
example : ∃ text, documentText {} "utf-8".toList [] [] [{ uri := "http://example.com/\u0001".toList }] false = .ok text ∧ readXml text = none :=
  ⟨_, rfl, by decide +kernel⟩

/-! ### C96: texts cut off -/

/-- **A document cut off anywhere is refused**: no proper beginning of the text of a document can be read as XML, so parsing it
fails and nothing is added — whatever the document is and wherever it ends. -/
theorem C96_cut_off {s : Sitemap} {enc : Str} (henc : EncodingName enc) {md : Dict Str} {ln : List Link} {rs : List Resource} {index : Bool}
    (hmd : AttNames md) (hln : ∀ l ∈ ln, AttNames l) (hrs : ∀ l ∈ EntryLinks rs, AttNames l) {text p : Str}
    (htext : documentText s enc md ln rs index = .ok text) (hp : CutOff p text)
    {σ : Type} (s' : Sitemap) (add : σ → Resource → Except SmErr σ) (c : Cont σ) (cap : Option Str) (want : Option Bool) :
    parseText s' add c p cap want = .error .notXml := by
  obtain ⟨q, hq, h⟩ := hp
  cases ht : resourcesAsXml s md ln rs index with
  | error e => rw [documentText, ht] at htext; cases htext
  | ok t =>
    obtain ⟨h1, h2, -, -⟩ := resourcesAsXml_tree ht hmd hln hrs
    rw [documentText, ht, ebind_ok] at htext
    cases htext
    have hr := readRaw_cut (encodingName_ok henc) (sitemapTails s) (treeNames_namesOk t h1 h2) h hq
    have : readXml p = none := by rw [readXml, hr]; rfl
    rw [parseText, this]

/-- Reading does not depend on what follows: when a text and a beginning of it can both be read, they are the same document. -/
theorem C96_no_other_document {p text : Str} (hp : p <+: text) {t t' : Elem} (h : readXml p = some t) (h' : readXml text = some t') : t = t' := by
  obtain ⟨q, rfl⟩ := hp
  unfold readXml at h h'
  cases h1 : readRaw p with
  | none => rw [h1] at h; cases h
  | some e =>
    cases h2 : readRaw (p ++ q) with
    | none => rw [h2] at h'; cases h'
    | some e' =>
      have := readRaw_prefix h1 h2
      subst this
      rw [h1] at h
      rw [h2] at h'
      rw [h] at h'
      cases h'
      rfl

/-- Files: what can be read from a file is nothing unless the file is complete, and then it is the document — so the crash
points of C32 are what they look like to a reader. -/
theorem C96_files {s : Sitemap} {enc : Str} (henc : EncodingName enc) {st : Option FileState} {content : Option Str}
    (h : Holds (writeXml enc (sitemapTails s))
      (fun doc => ∃ md ln rs index, AttNames md ∧ (∀ l ∈ ln, AttNames l) ∧ (∀ l ∈ EntryLinks rs, AttNames l) ∧
        resourcesAsXml s md ln rs index = .ok doc) st content) :
    content.bind readXml = fileDoc st := by
  cases h with
  | missing => rfl
  | part doc p hd hc =>
    obtain ⟨md, ln, rs, index, a1, a2, a3, a4⟩ := hd
    obtain ⟨q, hq, hw⟩ := hc
    obtain ⟨h1, h2, -, -⟩ := resourcesAsXml_tree a4 a1 a2 a3
    have hr := readRaw_cut (encodingName_ok henc) (sitemapTails s) (treeNames_namesOk doc h1 h2) hw hq
    show readXml p = none
    rw [readXml, hr]; rfl
  | whole doc hd =>
    obtain ⟨md, ln, rs, index, a1, a2, a3, a4⟩ := hd
    obtain ⟨h1, h2, h3, h4⟩ := resourcesAsXml_tree a4 a1 a2 a3
    exact readXml_writeXml (encodingName_ok henc) (sitemapTails_legal s) h2 h1 h3 h4

theorem runFs_reader (fs : Str → Option FileState) (pre : List FsEff) (f : Str) :
    fileDoc (runFs fs pre f) = fileDoc (fs f) ∨ fileDoc (runFs fs pre f) = none ∨
      ∃ doc, FsEff.finish f doc ∈ pre ∧ fileDoc (runFs fs pre f) = reparse doc := by
  induction pre generalizing fs with
  | nil => exact .inl rfl
  | cons e t ih =>
    cases e with
    | openW g =>
      rcases ih (fun h => if h = g then some .incomplete else fs h) with h | h | ⟨doc, h1, h2⟩
      · rw [runFs, h]
        by_cases hg : f = g
        · right; left; rw [if_pos hg]; rfl
        · left; rw [if_neg hg]
      · exact .inr (.inl h)
      · exact .inr (.inr ⟨doc, by simp [h1], h2⟩)
    | finish g d =>
      rcases ih (fun h => if h = g then some (.complete d) else fs h) with h | h | ⟨doc, h1, h2⟩
      · rw [runFs, h]
        by_cases hg : f = g
        · right; right; rw [if_pos hg, hg]; exact ⟨d, by simp, rfl⟩
        · left; rw [if_neg hg]
      · exact .inr (.inl h)
      · exact .inr (.inr ⟨doc, by simp [h1], h2⟩)

/-- Crash points: while documents are being written (any events `pre` so far), what a reader gets from a file is what was there
before, nothing (an error), or a document that was completely written — never a part of one. -/
theorem C96_crash {s : Sitemap} {enc : Str} (henc : EncodingName enc) (fs : Str → Option FileState) (pre : List FsEff) (disk : Str → Option Str)
    (hdisk : ∀ f, Holds (writeXml enc (sitemapTails s))
      (fun doc => ∃ md ln rs index, AttNames md ∧ (∀ l ∈ ln, AttNames l) ∧ (∀ l ∈ EntryLinks rs, AttNames l) ∧
        resourcesAsXml s md ln rs index = .ok doc) (runFs fs pre f) (disk f)) (f : Str) :
    (disk f).bind readXml = fileDoc (fs f) ∨ (disk f).bind readXml = none ∨
      ∃ doc, FsEff.finish f doc ∈ pre ∧ (disk f).bind readXml = reparse doc := by
  rw [C96_files henc (hdisk f)]
  exact runFs_reader fs pre f

/-- a text cut off in the middle of an entry, and one cut off before the last character -/
example : CutOff "<?xml version='1.0' encoding='utf-8'?>\n<urlset xmlns=\"http://www.sitemaps.org/schemas/sitemap/0.9\" xmlns:rs=\"http://www.openarchives.org/rs/terms/\"><url><loc>http://exam".toList
    "<?xml version='1.0' encoding='utf-8'?>\n<urlset xmlns=\"http://www.sitemaps.org/schemas/sitemap/0.9\" xmlns:rs=\"http://www.openarchives.org/rs/terms/\"><url><loc>http://example.com/</loc></url></urlset>".toList ∧
    documentText {} "utf-8".toList [] [] [{ uri := "http://example.com/".toList }] false = .ok
      "<?xml version='1.0' encoding='utf-8'?>\n<urlset xmlns=\"http://www.sitemaps.org/schemas/sitemap/0.9\" xmlns:rs=\"http://www.openarchives.org/rs/terms/\"><url><loc>http://example.com/</loc></url></urlset>".toList :=
  ⟨⟨"ple.com/</loc></url></urlset>".toList, by decide, by decide +kernel⟩, by decide +kernel⟩

/-- The hypothesis on the file is needed only for texts that the code writes: a text with more after the root can be cut off there. -/
example : CutOff "<a />".toList "<a /><!-- end -->".toList ∧ (readXml "<a />".toList).isSome = true ∧ (readXml "<a /><!-- end -->".toList).isSome = true :=
  ⟨⟨"<!-- end -->".toList, by decide, by decide +kernel⟩, by decide +kernel, by decide +kernel⟩

end Resync
