import Verif.Model.Sitemap
import Verif.Py.XmlText
/-
Model of the texts of documents (resync/sitemap.py): the serialisation at the end of resources_as_xml, resource_as_xml, and the
parsing of a text at the beginning of parse_xml.  The trees are those of `Verif/Model/Sitemap.lean`; the writer and the parser are
the library's (`Verif/Py/XmlText.lean`).
-/

namespace Resync
open Py

/-- sitemap.py 281-283, 453-454: the text after an element when `pretty_xml` is set.  resource_etree_element sets it on the entries,
add_element_with_atts_to_etree on every element it adds unless `add_return=False` (the `<rs:md>` of an entry, sitemap.py 276).
The children of the root have depth 1; entries have `<rs:ln>` children with a return and others without. -/
def sitemapTails (s : Sitemap) (depth : Nat) (tag : Str) : Str :=
  if s.pretty_xml && (depth == 1 || tag == "rs:ln".toList) then "\n".toList else []

/-- sitemap.py 137-148: the text that resources_as_xml returns, or writes to its file handle.  `encoding` is the name in the XML
declaration: the library takes it from the file handle (`utf-8` when a string is asked for). -/
def documentText (s : Sitemap) (encoding : Str) (md : Dict Str) (ln : List Link) (rs : List Resource) (sitemapindex : Bool) :
    Except SmErr Str := do
  let root ← resourcesAsXml s md ln rs sitemapindex
  return writeXml encoding (sitemapTails s) root

/-- sitemap.py 286-294 (resource_as_xml): the entry of one resource, without XML declaration.  `tostring` writes the tail too. -/
def resourceAsXml (s : Sitemap) (r : Resource) : Except SmErr Str := do
  let e ← resourceEtreeElement s r "url".toList
  return writeElem (sitemapTails s) 1 e ++ escText (sitemapTails s 1 e.tag)

/-- Exceptions of reading a text. -/
inductive TextErr
  /-- xml.etree.ElementTree.ParseError -/
  | notXml
  | doc (e : SmErr)
deriving DecidableEq, Repr

/-- sitemap.py 178-179 and what follows: parse_xml with a file handle that gives the text `text`. -/
def parseText {σ : Type} (s : Sitemap) (add : σ → Resource → Except SmErr σ) (c : Cont σ) (text : Str) (capability : Option Str)
    (sitemapindex : Option Bool) : Except TextErr (Cont σ × Bool × Nat) :=
  match readXml text with
  | none => .error .notXml
  | some root =>
    match parseXml s add c root capability sitemapindex with
    | .error e => .error (.doc e)
    | .ok x => .ok x

end Resync
