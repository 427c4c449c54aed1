import Verif.Model.Resource
import Verif.Model.ResourceLinks
import Verif.Model.Listing
/-
What /repo/tests/test_resource.py expects of resource.py, checked of the model: tests of the model, not proofs of properties.
`repr` and assigning anything but a string to `hash` are not modelled.
-/

namespace Resync.Conform.Resources
open Py

def errOf {α : Type} : Except ResErr α → Option ResErr
  | .ok _ => none
  | .error e => some e
def val {α : Type} : Except ResErr α → Option α
  | .ok x => some x
  | .error _ => none

-- test01_init
example : errOf (Resource.new {}) = some .value := by decide +kernel
example : errOf (Resource.new { timestamp := some 12 }) = some .value := by decide +kernel
def r1 : Resource :=
  { uri := "a".toList, timestamp := some 0, length := some 123, md5 := some "aaa".toList, sha1 := some "bbb".toList,
    sha256 := some "ccc".toList, mime_type := some "text/plain".toList, change := some "updated".toList, ts_datetime := some 1000,
    path := some "/a/b/c".toList, ln := some [[("x".toList, "y".toList)]], ts_at := some 2000, ts_completed := some 3000,
    ts_from := some 4000, ts_until := some 5000 }
example : val (Resource.new
  { uri := some "a".toList, timestamp := some 0, length := some 123, md5 := some "aaa".toList, sha1 := some "bbb".toList,
    sha256 := some "ccc".toList, mime_type := some "text/plain".toList, change := some "updated".toList, ts_datetime := some 1000,
    path := some "/a/b/c".toList, ln := some [[("x".toList, "y".toList)]], ts_at := some 2000, ts_completed := some 3000,
    ts_from := some 4000, ts_until := some 5000 }) = some r1 := by decide +kernel
example : val (Resource.new { resource := some r1 }) = some r1 := by decide +kernel

-- test02_equal
def a : Resource := { uri := "a".toList }
def at_ (s : String) : Option Resource := val (Resource.new { uri := some "a".toList, lastmod := some s.toList })
def sameAs (x y : Option Resource) : Bool :=
  match x with
  | some x => x.eq y
  | none => false
example : a.eq (some a) = true := by decide +kernel
example : sameAs (some { a with timestamp := some 1234 }) (some { a with timestamp := some 1234 }) = true := by decide +kernel
example : ["2012", "2012-01", "2012-01-01", "2012-01-01T00:00Z", "2012-01-01T00:00:00Z", "2012-01-01T00:00:00.000000Z",
    "2012-01-01T00:00:00.000000000000Z", "2012-01-01T00:00:00.00+00:00", "2012-01-01T00:00:00.00-00:00",
    "2012-01-01T02:00:00.00-02:00", "2011-12-31T23:00:00.00+01:00"].all
  (fun s => sameAs (at_ "2012-01-01T00:00:00Z") (at_ s)) = true := by decide +kernel
example : sameAs (at_ "2012-01-02T01:02:03Z") (at_ "2012-01-02T01:02:03.99Z") = true := by decide +kernel
example : (at_ "2012-01-02T01:02:03Z").map Resource.timestamp ≠ (at_ "2012-01-02T01:02:03.99Z").map Resource.timestamp := by
  decide +kernel
example : sameAs (at_ "2012-01-11") (at_ "2012-01-22") = false := by decide +kernel
example : a.eq (some { uri := "b".toList }) = false := by decide +kernel
def b1 : Resource := { a with length := some 1234, md5 := some "3006f84272f2653a6cf5".toList, sha1 := some "3be0".toList,
                              sha256 := some "f410".toList }
example : ({ a with length := some 1234 } : Resource).eq (some { a with length := some 4321 }) = false := by decide +kernel
example : ({ a with length := some 1234 } : Resource).eq (some { a with length := none }) = true := by decide +kernel
example : b1.eq (some { b1 with md5 := some "3006f84272f2653a0000".toList }) = false := by decide +kernel
example : b1.eq (some { b1 with sha1 := some "555".toList }) = false := by decide +kernel
example : b1.eq (some { b1 with sha256 := some "fab".toList }) = false := by decide +kernel
example : b1.eq (some b1) = true := by decide +kernel

-- test04_bad_lastmod
example : ["bad_lastmod", "", "2012-13-01", "2012-12-32", "2012-11-01T10:10:60", "2012-11-01T10:10:59.9x", "2012-11-01T01:01:01",
    "2012-11-01 01:01:01Z", "2012-11-01T01:01:01+0000", "2012-11-01T01:01:01-1000"].all
  (fun s => (a.step (.setLastmod (some s.toList))).2 == some .value) = true := by decide +kernel

-- test05_lastmod_roundtrips, test10, test11
def after (op : Option Str → ResOp) (f : Resource → Option Rat) (s : String) : Option (Option Str) :=
  datetimeToStr? (f (a.step (op (some s.toList))).1) false
example : ["2012-03-14", "2012-03-14T00:00:00+00:00", "2012-03-14T00:00:00-00:00"].all
  (fun s => after .setLastmod Resource.timestamp s == some (some "2012-03-14T00:00:00Z".toList)) = true := by decide +kernel
example : after .setLastmod Resource.timestamp "2012-03-14T18:37:36Z" = some (some "2012-03-14T18:37:36Z".toList) := by decide +kernel
example : ["2013-03-14", "2013-03-14T00:00:00+00:00", "2013-03-14T00:00:00-00:00"].all
  (fun s => after .setMdAt Resource.ts_at s == some (some "2013-03-14T00:00:00Z".toList)) = true := by decide +kernel
example : after .setMdAt Resource.ts_at "2013-03-14T18:37:36Z" = some (some "2013-03-14T18:37:36Z".toList) := by decide +kernel
example : ["2013-04-14", "2013-04-14T00:00:00+00:00", "2013-04-14T00:00:00-00:00"].all
  (fun s => after .setMdCompleted Resource.ts_completed s == some (some "2013-04-14T00:00:00Z".toList)) = true := by decide +kernel

-- test08_hash
example : ({ a with md5 := some "some_md5".toList, sha1 := some "some_sha1".toList, sha256 := some "some_sha256".toList } : Resource).hash
  = some ("md5:some_md5 ".toList ++ "sha-1:some_sha1 ".toList ++ "sha-256:some_sha256".toList) := by decide +kernel
def hashed (r : Resource) (s : String) : Resource × Option ResErr := r.setHash (some s.toList)
example : ((hashed a "md5:ddd").1.md5, (hashed a "md5:ddd").1.sha1) = (some "ddd".toList, none) := by decide +kernel
example : ((hashed (hashed a "md5:ddd").1 "sha-1:eee").1.md5, (hashed (hashed a "md5:ddd").1 "sha-1:eee").1.sha1)
  = (none, some "eee".toList) := by decide +kernel
example : (fun r : Resource => (r.md5, r.sha1, r.sha256)) (hashed a "md5:fff sha-1:eee sha-256:ggg").1
  = (some "fff".toList, some "eee".toList, some "ggg".toList) := by decide +kernel
example : ["no-colon", "md5:aaa md5:bbb", "sha999:aaa"].all (fun s => (hashed a s).2 == some .value) = true := by decide +kernel

-- test09_changetypeerror
example : a.change = none := by decide +kernel
example : (a.setChange (some sDeleted)).1.change = some "deleted".toList := by decide +kernel
example : errOf (Resource.new { uri := some "a".toList, change := some "bad".toList }) = some .changeType := by decide +kernel

-- test12_timevalues
def tv : ResArgs :=
  { uri := some "tv".toList, lastmod := some "2000-01-01".toList, md_at := some "2000-01-02".toList,
    md_completed := some "2000-01-03".toList, md_from := some "2000-01-04".toList, md_until := some "2000-01-05".toList }
example : (val (Resource.new tv)).map
    (fun r => [r.timestamp, r.ts_at, r.ts_completed, r.ts_from, r.ts_until].map (fun t => datetimeToStr? t false))
  = some (["2000-01-01T00:00:00Z", "2000-01-02T00:00:00Z", "2000-01-03T00:00:00Z", "2000-01-04T00:00:00Z", "2000-01-05T00:00:00Z"].map
      (fun s => some (some s.toList))) := by decide +kernel

-- test13_mime_type, test14_datetime
example : (val (Resource.new { uri := some "tv1".toList, mime_type := some "text/plain".toList })).map Resource.mime_type
  = some (some "text/plain".toList) := by decide +kernel
example : (({ a with mime_type := some "text/plain".toList } : Resource).step (.setMimeType none)).1.mime_type = none := by decide +kernel
example : (val (Resource.new { uri := some "dt2".toList, datetime := some "2000-01-04T00:00:00Z".toList })).map
    (fun r => datetimeToStr? r.ts_datetime false) = some (some (some "2000-01-04T00:00:00Z".toList)) := by decide +kernel

-- test15_link
def ln (rel href : String) : Link := [("rel".toList, rel.toList), ("href".toList, href.toList)]
def l1 : Resource := a.linkSet "up".toList "uri:up".toList
def l2 : Resource := l1.linkSet "down".toList "uri:down".toList
def l3 : Resource := l2.linkSet "up".toList "uri:up2".toList
def l4 : Resource := l3.linkAdd "up".toList "uri:up3".toList
example : (a.link "up".toList, val (a.linkHref "up".toList)) = (none, some none) := by decide +kernel
example : (l1.link "up".toList, val (l1.linkHref "up".toList)) = (some (ln "up" "uri:up"), some (some "uri:up".toList)) := by
  decide +kernel
example : (l2.link "down".toList, val (l2.linkHref "down".toList)) = (some (ln "down" "uri:down"), some (some "uri:down".toList)) := by
  decide +kernel
example : l3.link "up".toList = some (ln "up" "uri:up2") := by decide +kernel
example : l4.link "up".toList = some (ln "up" "uri:up2") := by decide +kernel
example : l4.ln = some [ln "up" "uri:up2", ln "down" "uri:down", ln "up" "uri:up3"] := by decide +kernel

-- test16_specific_links
def named : Resource :=
  (((a.setNamed .describedby "uri:db".toList).setNamed .up "uri:up".toList).setNamed .index "uri:index".toList).setNamed .contents
    "uri:ct".toList
example : ([.describedby, .up, .index, .contents] : List NamedLink).map (fun k => val (named.named k))
  = ["uri:db", "uri:up", "uri:index", "uri:ct"].map (fun s => some (some s.toList)) := by decide +kernel

-- test17_basename
example : ["http://example.org/any/complex/path/file", "http://example.org/any/complex/path/", "http://example.org"].map
    (fun s => ({ a with uri := s.toList } : Resource).basename) = [some "file".toList, some [], some []] := by decide +kernel

-- test06_str, test18_str
example : (at_ "2012-01-01").bind Resource.str = some "[ a | 2012-01-01T00:00:00Z | None | None ]".toList := by decide +kernel
def u : Resource := { uri := "uri:a".toList }
example : u.str = some "[ uri:a | None | None | None ]".toList := by decide +kernel
example : ({ u with timestamp := some 0, length := some 999 } : Resource).str
  = some "[ uri:a | 1970-01-01T00:00:00Z | 999 | None ]".toList := by decide +kernel
example : ({ u with timestamp := some 0, length := some 999, sha256 := some "abcdef123".toList } : Resource).str
  = some "[ uri:a | 1970-01-01T00:00:00Z | 999 | abcdef123 ]".toList := by decide +kernel
example : ({ u with change := some sUpdated, ts_datetime := some 3661 } : Resource).str
  = some "[ uri:a | None | None | None | updated @ 1970-01-01T01:01:01Z ]".toList := by decide +kernel
example : ({ u with path := some "/a/b/c".toList } : Resource).str = some "[ uri:a | None | None | None | /a/b/c ]".toList := by
  decide +kernel

end Resync.Conform.Resources
