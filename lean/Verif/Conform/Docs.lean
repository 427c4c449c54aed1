import Verif.Model.Kinds
import Verif.Model.SitemapText
import Verif.Model.Container
import Verif.Model.ResourceLinks
/-
Helpers for comparing documents as the project's tests do (tests/testlib/testcase_with_xml_comparison.py): white space between
elements and the order of attributes do not count.
-/

namespace Resync.Conform
open Py

/-- text with its white space made one space, unless it is white space only -/
def realText : Option Str → Option Str
  | some t => if t.all isWs then none else some (join [' '] (splitWs t))
  | none => none

/-- attributes in order, white space in values made one space -/
def realAtts (a : Dict Str) : Dict Str := (sortItems a).map (fun kv => (kv.1, join [' '] (splitWs kv.2)))

mutual
/-- the same element, up to the order of attributes and white space -/
def sameElem : Nat → Elem → Elem → Bool
  | 0, _, _ => false
  | n + 1, .mk t a x c, .mk t' a' x' c' =>
    decide (t = t') && decide (realAtts a = realAtts a') && decide (realText x = realText x') && sameElems n c c'
def sameElems : Nat → List Elem → List Elem → Bool
  | 0, _, _ => false
  | _ + 1, [], [] => true
  | n + 1, e :: t, e' :: t' => sameElem n e e' && sameElems n t t'
  | _ + 1, _, _ => false
end

/-- the text written for a document -/
def textOfDoc : Except LbErr Elem → Option Str
  | .ok e => some (writeXml "UTF-8".toList (sitemapTails {}) e)
  | .error _ => none

/-- the text of a document against an expected one: both are read and compared -/
def sameDoc (expected : Str) (got : Option Str) : Bool :=
  match readXml expected, got.bind readXml with
  | some e, some g => sameElem 100 e g
  | _, _ => false

/-- an object of a class with its header (md, links) and entries, written -/
def built (k : Kind) (s : Sitemap) (hdr : Container) (sitemapindex : Bool) (rs : Except ResErr (List Resource)) : Option Str :=
  match rs with
  | .error _ => none
  | .ok rs =>
    match DocList.addAll { k.new s hdr.ln none none with md := writtenMd hdr.md, sitemapindex := sitemapindex } rs with
    | .error _ => none
    | .ok l => textOfDoc l.asXml

/-- the same for an object with another capability name or with `resources_class=ResourceListOrdered` (entries as they were added) -/
def builtOrdered (capability : Str) (s : Sitemap) (hdr : Container) (sitemapindex : Bool) (rs : Except ResErr (List Resource)) :
    Option Str :=
  match rs with
  | .error _ => none
  | .ok rs =>
    let l : LBI := { resources := rs, md := writtenMd hdr.md, ln := hdr.ln, capability_name := some capability,
                     sitemapindex := sitemapindex, sitemap := s }
    textOfDoc (l.asXml false "/tmp/sitemap.xml".toList)

end Resync.Conform
