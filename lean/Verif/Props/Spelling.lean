import Verif.Proofs.XmlGrammar
import Verif.Props.Prefixes
import Verif.Props.SameSays
/-
C103 on texts: the ways of writing a document.
-/

namespace Resync
open Py Resync.Spec

/-- A text is a way of writing a tree (names with their prefixes): its characters are characters of XML, and by the grammar of XML (Spec/Xml),
the ends of lines normalised, it stands for the tree. -/
structure Spells (text : Str) (e : Elem) : Prop where
  legal : ∀ c ∈ text, isXmlChar c = true
  grammar : DocText e (normalizeEol text)

theorem spells_iff (text : Str) (e : Elem) : readRaw text = some e ↔ Spells text e := by
  rw [readRaw_iff, List.all_eq_true]
  exact ⟨fun h => ⟨h.1, h.2⟩, fun h => ⟨h.legal, h.grammar⟩⟩

/-- A text stands for at most one tree. -/
theorem Spells.unique {text : Str} {e e' : Elem} (h : Spells text e) (h' : Spells text e') : e = e' := by
  have h1 := (spells_iff text e).mpr h
  rw [(spells_iff text e').mpr h'] at h1
  cases h1; rfl

/-- C103, on texts.  Two ways of writing the same tree are read alike, whatever white space there is in the tags, whichever quotes are used, however
characters are referred to or quoted as CDATA, whether an empty element has one tag or two, whatever comments and processing instructions there are, and
whichever ends of lines. -/
theorem C103_spelling {σ : Type} (s : Sitemap) (add : σ → Resource → Except SmErr σ) (c : Cont σ) {text text' : Str} {e : Elem} (h : Spells text e)
    (h' : Spells text' e) (capability : Option Str) (sitemapindex : Option Bool) :
    parseText s add c text capability sitemapindex = parseText s add c text' capability sitemapindex := by
  have h1 : readXml text = readXml text' := by
    unfold readXml
    rw [(spells_iff text e).mpr h, (spells_iff text' e).mpr h']
  unfold parseText
  rw [h1]

/-- C103, what is no XML.  A text that is not a way of writing a tree is refused, whatever is expected. -/
theorem C103_no_document {σ : Type} (s : Sitemap) (add : σ → Resource → Except SmErr σ) (c : Cont σ) {text : Str} (h : ∀ e, ¬ Spells text e)
    (capability : Option Str) (sitemapindex : Option Bool) : parseText s add c text capability sitemapindex = .error .notXml := by
  have h1 : readXml text = none := by
    unfold readXml
    cases hr : readRaw text with
    | none => rfl
    | some e => exact absurd ((spells_iff text e).mp hr) (h e)
  unfold parseText
  rw [h1]

/-- the namespace that need not be declared -/
def xmlNamespace : NsEnv := [("xml".toList, "http://www.w3.org/XML/1998/namespace".toList)]

/-- C103, altogether.  Two texts for trees which, the prefixes replaced by what they stand for, say the same, are read alike. -/
theorem C103_texts {σ : Type} (s : Sitemap) (add : σ → Resource → Except SmErr σ) (c : Cont σ) {text text' : Str} {e e' d d' : Elem} (h : Spells text e)
    (h' : Spells text' e') (hd : resolveElem xmlNamespace e = some d) (hd' : resolveElem xmlNamespace e' = some d') (hsame : SameDoc s.spec_1_0 d d')
    (capability : Option Str) (sitemapindex : Option Bool) (x : Cont σ × Bool × Nat) :
    parseText s add c text capability sitemapindex = .ok x ↔ parseText s add c text' capability sitemapindex = .ok x := by
  have h1 : readXml text = some d := by
    unfold readXml
    rw [(spells_iff text e).mpr h, Option.bind_some]
    exact hd
  have h2 : readXml text' = some d' := by
    unfold readXml
    rw [(spells_iff text' e').mpr h', Option.bind_some]
    exact hd'
  have h3 := C103_says s add c d d' hsame capability sitemapindex x
  unfold parseText
  rw [h1, h2]
  dsimp only
  revert h3
  cases parseXml s add c d capability sitemapindex <;> cases parseXml s add c d' capability sitemapindex <;> simp

namespace SpellingExample

/-- by hand: `<a  b = '1' />` -/
example : Spells "<a  b = '1' />".toList (.mk ['a'] [(['b'], ['1'])] none []) where
  legal := by decide
  grammar := ⟨[], _, [], rfl, .nil,
    .empty (tag := ['a']) (ta := "  b = '1'".toList) (sp := [' ']) ⟨'a', [], rfl, by decide, by simp⟩
      (.cons (sp := "  ".toList) (k := ['b']) (s1 := " ".toList) (s2 := " ".toList) (q := '\'') (t := ['1']) (by decide) (by unfold XmlSpace; decide)
        ⟨'b', [], rfl, by decide, by simp⟩ (by unfold XmlSpace; decide) (by unfold XmlSpace; decide) (.inr rfl)
        (.char (by decide) (by decide) (by decide) (by unfold XmlSpace; decide) .nil) .nil) (by decide) (by unfold XmlSpace; decide), .nil⟩

/-- the same document, written in another way -/
def other : Str := "\r\n<!-- a - b --><urlset\r\n  xmlns = 'http://www.sitemaps.org/schemas/sitemap/0.9' xmlns:rs=\"http://www.openarchives.org/rs/terms/\" ><rs:md capability='resource&#x6c;ist' ></rs:md ><url ><loc><![CDATA[http:/]]>/<?x?>a.org&#47;<!---->1</loc ><rs:md length='5'></rs:md></url></urlset><?end?>\n".toList

theorem one : Spells PrefixExample.a PrefixExample.t := (spells_iff _ _).mp (PrefixExample.reads_eq (by decide +kernel))
theorem two : Spells other PrefixExample.t := (spells_iff _ _).mp (PrefixExample.reads_eq (by decide +kernel))

example (c : Cont (List Resource)) : parseText {} listAdd c PrefixExample.a none none = parseText {} listAdd c other none none :=
  C103_spelling {} listAdd c one two none none

/-- the end tag is missing -/
example : ∀ e, ¬ Spells "<urlset>".toList e := by
  intro e h
  have := (spells_iff _ _).mpr h
  have h2 : readRaw "<urlset>".toList = none := by
    have : (readRaw "<urlset>".toList).isNone = true := by decide +kernel
    exact Option.isNone_iff_eq_none.mp this
  rw [h2] at this
  cases this

end SpellingExample

end Resync
