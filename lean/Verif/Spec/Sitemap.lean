import Verif.Py.Xml
import Verif.Py.Num
import Verif.Model.Resource
import Verif.Spec.Resource
/-
Specification vocabulary for documents (C31–C37): which values a sitemap document can carry, and
when two resources carry the same information.  Shares with the model only the record `Resource` and
the library types.
-/

namespace Resync.Spec
open Py

/-- the two dictionaries have the same entries -/
def SameMap (a b : Dict Str) : Prop := ∀ k, dget a k = dget b k

/-- same links in the same order -/
def SameLinks (a b : List (Dict Str)) : Prop := List.Forall₂ SameMap a b

/-- characters that XML 1.0 allows -/
def XmlOk (s : Str) : Prop := ∀ c ∈ s, isXmlChar c = true

/-- `q` is a whole number of microseconds in the years 1 to 9999 -/
def MicroTime (q : Rat) : Prop :=
  ∃ n : Int, -62135596800000000 ≤ n ∧ n < 253402300800000000 ∧ q = (n : Rat) / 1000000

/-- a link that the ResourceSync format can express -/
structure LinkOk (l : Dict Str) : Prop where
  keys_nodup : (dkeys l).Nodup
  keys : ∀ k ∈ dkeys l, k ∈ ["hash".toList, "href".toList, "length".toList, "modified".toList,
    "path".toList, "rel".toList, "pri".toList, "mime_type".toList]
  href : (dget l "href".toList).isSome
  rel : (dget l "rel".toList).isSome
  chars : ∀ k v, dget l k = some v → XmlOk v
  length : ∀ v, dget l "length".toList = some v → ∃ n : Int, v = intStr n
  pri : ∀ v, dget l "pri".toList = some v → ∃ n : Int, 1 ≤ n ∧ n ≤ 999999 ∧ v = intStr n

/-- top-level metadata that the format can express (`keys` depends on the version) -/
structure MdOk (keys : List Str) (md : Dict Str) : Prop where
  keys_nodup : (dkeys md).Nodup
  keys_known : ∀ k ∈ dkeys md, k ∈ keys
  chars : ∀ k v, dget md k = some v → XmlOk v
  change : ValidChange (dget md "change".toList)
  length : ∀ v, dget md "length".toList = some v → ∃ n : Int, v = intStr n

/-- a resource that the format can express: legal characters, digests without white space, a valid
change type, times of microsecond resolution -/
structure ResOk (r : Resource) : Prop where
  uri_ne : r.uri ≠ []
  uri : XmlOk r.uri
  uri_cr : '\r' ∉ r.uri
  change : ValidChange r.change
  timestamp : ∀ t, r.timestamp = some t → MicroTime t
  ts_datetime : ∀ t, r.ts_datetime = some t → MicroTime t
  ts_at : ∀ t, r.ts_at = some t → MicroTime t
  ts_completed : ∀ t, r.ts_completed = some t → MicroTime t
  ts_from : ∀ t, r.ts_from = some t → MicroTime t
  ts_until : ∀ t, r.ts_until = some t → MicroTime t
  mime_type : ∀ v, r.mime_type = some v → XmlOk v
  path : ∀ v, r.path = some v → XmlOk v
  capability : ∀ v, r.capability = some v → XmlOk v
  md5 : ∀ v, r.md5 = some v → XmlOk v ∧ NoSpace v
  sha1 : ∀ v, r.sha1 = some v → XmlOk v ∧ NoSpace v
  sha256 : ∀ v, r.sha256 = some v → XmlOk v ∧ NoSpace v
  ln : ∀ ls, r.ln = some ls → ∀ l ∈ ls, LinkOk l

/-- `b` carries what a document of version 1.1 records about `a` -/
structure SameInfo (a b : Resource) : Prop where
  uri : b.uri = a.uri
  timestamp : b.timestamp = a.timestamp
  ts_datetime : b.ts_datetime = a.ts_datetime
  length : b.length = a.length
  mime_type : b.mime_type = a.mime_type
  md5 : b.md5 = a.md5
  sha1 : b.sha1 = a.sha1
  sha256 : b.sha256 = a.sha256
  change : b.change = a.change
  path : b.path = a.path
  capability : b.capability = a.capability
  ln : SameLinks (a.ln.getD []) (b.ln.getD [])

end Resync.Spec

namespace Resync.Spec
open Py

/-- `b` carries what a document records about `a`.  In version 1.0 the change time (`ts_datetime`)
is not recorded separately, and it stands in for a missing modification time, as it does in
version 1.1 with the add_lastmod option.  The other times of an entry are not read (C34). -/
structure Recorded (v10 addLastmod : Bool) (a b : Resource) : Prop where
  uri : b.uri = a.uri
  timestamp : b.timestamp =
    if a.timestamp = none ∧ (v10 = true ∨ addLastmod = true) then a.ts_datetime else a.timestamp
  ts_datetime : b.ts_datetime = if v10 = true then none else a.ts_datetime
  length : b.length = a.length
  mime_type : b.mime_type = a.mime_type
  md5 : b.md5 = a.md5
  sha1 : b.sha1 = a.sha1
  sha256 : b.sha256 = a.sha256
  change : b.change = a.change
  path : b.path = a.path
  capability : b.capability = a.capability
  ln : SameLinks (a.ln.getD []) (b.ln.getD [])
  lost : b.ts_at = none ∧ b.ts_completed = none ∧ b.ts_from = none ∧ b.ts_until = none

end Resync.Spec

/-! ### Well-formed documents (C35–C37), after parsing: tags are `{namespace}name` -/

namespace Resync.Spec
open Py

def smName (l : String) : Str := '{' :: ("http://www.sitemaps.org/schemas/sitemap/0.9".toList ++ '}' :: l.toList)
def rsName (l : String) : Str := '{' :: ("http://www.openarchives.org/rs/terms/".toList ++ '}' :: l.toList)

/-- the attributes of an rs:md element are well formed -/
structure MdElemOk (e : Elem) : Prop where
  change : ∀ v, dget e.attrib "change".toList = some v →
    v = "created".toList ∨ v = "updated".toList ∨ v = "deleted".toList
  length : ∀ v, dget e.attrib "length".toList = some v → (pyInt v).isSome

/-- the attributes of an rs:ln element are well formed -/
structure LnElemOk (e : Elem) : Prop where
  href : (dget e.attrib "href".toList).isSome
  rel : (dget e.attrib "rel".toList).isSome
  length : ∀ v, dget e.attrib "length".toList = some v → (pyInt v).isSome
  pri : ∀ v, dget e.attrib "pri".toList = some v → ∃ n, pyInt v = some n ∧ 1 ≤ n ∧ n ≤ 999999

/-- A well-formed url or sitemap element.  `dateOk` says which strings are datetimes; the datetime
attribute is only looked at from version 1.1 on. -/
structure EntryOk (dateOk : Str → Prop) (v10 : Bool) (e : Elem) : Prop where
  loc : ∃ l t, e.findall (smName "loc") = [l] ∧ l.text = some t ∧ t ≠ []
  lastmod_one : (e.findall (smName "lastmod")).length ≤ 1
  lastmod : ∀ l ∈ e.findall (smName "lastmod"), ∀ t, l.text = some t → dateOk t
  md_one : (e.findall (rsName "md")).length ≤ 1
  md : ∀ m ∈ e.findall (rsName "md"), MdElemOk m
  datetime : v10 = false → ∀ m ∈ e.findall (rsName "md"), ∀ t, dget m.attrib "datetime".toList = some t → dateOk t
  ln : ∀ l ∈ e.findall (rsName "ln"), LnElemOk l

/-- A well-formed document when `index` says whether it is a sitemapindex. -/
structure DocOk (dateOk : Str → Prop) (v10 : Bool) (index : Bool) (root : Elem) : Prop where
  root_tag : root.tag = smName (if index then "sitemapindex" else "urlset")
  md_one : (root.findall (rsName "md")).length ≤ 1
  md : ∀ m ∈ root.findall (rsName "md"), MdElemOk m
  ln : ∀ l ∈ root.findall (rsName "ln"), LnElemOk l
  preamble : root.children.Pairwise (fun a b => a.tag = smName (if index then "sitemap" else "url") →
    b.tag ≠ rsName "md" ∧ b.tag ≠ rsName "ln")
  entries : ∀ e ∈ root.findall (smName (if index then "sitemap" else "url")), EntryOk dateOk v10 e

/-- the element without children whose tag is not in `known` -/
def keepKnown (known : List Str) : Elem → Elem
  | .mk t a x ch => .mk t a x (ch.filter (fun c => decide (c.tag ∈ known)))

/-- the document without elements that are not understood, at top level and inside entries -/
def stripUnknown (index : Bool) : Elem → Elem
  | .mk t a x ch => keepKnown [smName (if index then "sitemap" else "url"), rsName "md", rsName "ln"]
      (.mk t a x (ch.map (fun c =>
        if c.tag = smName (if index then "sitemap" else "url") then
          keepKnown [smName "loc", smName "lastmod", rsName "md", rsName "ln"] c
        else c)))

end Resync.Spec
