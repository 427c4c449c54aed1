import Verif.Conform.Docs
import Verif.Model.ResourceList
import Verif.Model.ChangeList
import Verif.Model.CapabilityList
import Verif.Model.ClientUtils
import Verif.Model.Hashes
/-
What the following tests of the project expect, checked of the model: tests of the model, not proofs of properties.
test_resource_list.py, test_change_list.py, test_capability_list.py, test_resource_container.py, test_resource_set.py,
test_client_utils.py, test_source_description.py, test_resource_dump.py, test_resource_dump_manifest.py, test_change_dump.py.
-/

namespace Resync.Conform.Lists
open Py

def res (uri : String) (timestamp : Option Rat := none) (length : Option Int := none) (change : Option Str := none) : Resource :=
  { uri := uri.toList, timestamp := timestamp, length := length, change := change }

def rl (l : List Resource) : Dict Resource := (dictAddAll [] l false).1
def heap (dst src : Dict Resource) : Heap := fun i => if i = 0 then { dict := dst } else { dict := src }

def uris (d : Dict Resource) : Option (List Str) :=
  match iterAll d with
  | .ok l => some (l.map Resource.uri)
  | .error _ => none

/-- `dst.compare(src)` as the URIs of (same, changed, deleted, added) -/
def cmp (dst src : List Resource) : Option (List (Option (List Str))) :=
  match compare (heap (rl dst) (rl src)) 0 1 with
  | .ok (_, c) => some [uris c.same, uris c.updated, uris c.deleted, uris c.created]
  | .error _ => none

def us (l : List String) : Option (List Str) := some (l.map String.toList)

/-! test_resource_list.py -/

example : cmp [res "a" (some 1), res "b" (some 2)] [res "a" (some 1), res "b" (some 2)]
  = some [us ["a", "b"], us [], us [], us []] := by decide +kernel
example : cmp [res "a" (some 3), res "b" (some 4)] [res "a" (some 1), res "b" (some 2)]
  = some [us [], us ["a", "b"], us [], us []] := by decide +kernel
example : cmp [res "a" (some 1), res "b" (some 2), res "c" (some 3), res "d" (some 4)] [res "a" (some 1), res "b" (some 2)]
  = some [us ["a", "b"], us [], us ["c", "d"], us []] := by decide +kernel
example : cmp [res "a" (some 1), res "c" (some 3)] [res "a" (some 1), res "b" (some 2), res "c" (some 3), res "d" (some 4)]
  = some [us ["a", "c"], us [], us [], us ["b", "d"]] := by decide +kernel
-- test05_add
example : dictAdd (rl [res "a" none (some 1)]) (res "a" none (some 1)) false = .error .dupe := by decide +kernel
example : dictAdd (rl [res "a" none (some 1), res "b" none (some 2)]) (res "b" none (some 2)) false = .error .dupe := by
  decide +kernel
example : (dictAddAll (rl [res "a" none (some 1), res "b" none (some 2)]) [res "a" none (some 10)] true).2 = none := by decide +kernel
example : ((dictAddAll (rl [res "a" none (some 1), res "b" none (some 2)]) [res "a" none (some 10)] true).1).length = 2 := by
  decide +kernel
example : (dget (dictAddAll (rl [res "a" none (some 1), res "b" none (some 2)]) [res "a" none (some 10)] true).1 "a".toList).map
    Resource.length = some (some 10) := by decide +kernel
-- test07_hashes
example : listHashes [] = [] := by decide
example : listHashes [res "a", res "b"] = [] := by decide +kernel
example : listHashes [{ res "a" with md5 := some "aabbcc".toList }, res "b"] = ["md5".toList] := by decide +kernel
example : listHashes [{ res "a" with md5 := some "aabbcc".toList },
    { res "b" with sha1 := some "ddeeff".toList, sha256 := some "hhiijj".toList }] = ["md5".toList, "sha-1".toList, "sha-256".toList] := by
  decide +kernel
-- test08_iter
example : uris (rl [res "a" (some 1), res "b" (some 2), res "c" (some 3), res "d" (some 4)]) = us ["a", "b", "c", "d"] := by
  decide +kernel
-- test09_resource_list_ordered
example : (iterOrdered (rl [res "a" (some 1), res "d" (some 4), res "c" (some 3)])).map Resource.uri
  = ["a".toList, "d".toList, "c".toList] := by decide +kernel
example : dictAdd (rl [res "a" (some 1), res "d" (some 4), res "c" (some 3)]) (res "a" (some 11)) false = .error .dupe := by
  decide +kernel
example : (dget (dictAddAll (rl [res "a" (some 1), res "d" (some 4), res "c" (some 3)]) [res "a" (some 11)] true).1 "a".toList).map
    Resource.timestamp = some (some 11) := by decide +kernel

/-- whether a text occurs in another one -/
def has (p : Str) : Str → Bool
  | [] => p.isEmpty
  | c :: t => p.isPrefixOf (c :: t) || has p t

/-- `as_xml` of an object of class `k` holding `rs` with header metadata `md` and links -/
def xmlOf (k : Kind) (md : Dict (Option Str)) (ln : List Link) (rs : List Resource) : Option Str :=
  built k {} { md := md, ln := ln } false (.ok rs)

def showsAll (ps : List Str) : Option Str → Bool
  | none => false
  | some t => ps.all (fun p => has p t)

/-- `l = K(); l.parse(fh=StringIO(xml))` -/
def read (k : Kind) (text : Str) : Option (Except LbErr DocList) := (readXml text).map (k.new {} [] none none).parse

def fails (e : SmErr) : Option (Except LbErr DocList) → Bool
  | some (.error (.sm e')) => decide (e = e')
  | _ => false

def docUris (l : DocList) : Option (List Str) :=
  match l.iter with
  | .ok rs => some (rs.map Resource.uri)
  | .error _ => none

/-- reading succeeds, giving these URIs (in the order of iteration) and these metadata values -/
def reads (uris : List Str) (md : List (Str × Option Str)) : Option (Except LbErr DocList) → Bool
  | some (.ok l) => decide (docUris l = some uris) && md.all (fun kv => decide (dget l.md kv.1 = kv.2))
  | _ => false

example : showsAll [List.flatten ["<rs:md cap".toList, "ability=\"r".toList, "esourcelis".toList, "t\"".toList], List.flatten ["<url><loc>".toList, "a</loc><la".toList, "stmod>1970".toList, "-01-01T00:".toList, "00:01Z</la".toList, "stmod></ur".toList, "l>".toList]] (xmlOf .resourceList [] [] [res "a" (some 1), res "b" (some 2)]) = true := by decide +kernel
def t1 : Str := List.flatten ["<?xml vers".toList, "ion='1.0' ".toList, "encoding='".toList, "UTF-8'?>\n<".toList, "urlset xml".toList, "ns=\"http:/".toList, "/www.sitem".toList, "aps.org/sc".toList, "hemas/site".toList, "map/0.9\" x".toList, "mlns:rs=\"h".toList, "ttp://www.".toList, "openarchiv".toList, "es.org/rs/".toList, "terms/\"><r".toList, "s:md at=\"2".toList, "013-08-07\"".toList, " capabilit".toList, "y=\"resourc".toList, "elist\" com".toList, "pleted=\"20".toList, "13-08-08\" ".toList, "/><url><lo".toList, "c>/tmp/rs_".toList, "test/src/f".toList, "ile_a</loc".toList, "><lastmod>".toList, "2012-03-14".toList, "T18:37:36Z".toList, "</lastmod>".toList, "<rs:md cha".toList, "nge=\"updat".toList, "ed\" length".toList, "=\"12\" /></".toList, "url><url><".toList, "loc>/tmp/r".toList, "s_test/src".toList, "/file_b</l".toList, "oc><lastmo".toList, "d>2012-03-".toList, "14T18:37:3".toList, "6Z</lastmo".toList, "d><rs:md l".toList, "ength=\"32\"".toList, " /></url><".toList, "/urlset>".toList]
example : reads [List.flatten ["/tmp/rs_te".toList, "st/src/fil".toList, "e_a".toList], List.flatten ["/tmp/rs_te".toList, "st/src/fil".toList, "e_b".toList]] [("capability".toList, some ("resourcelist".toList)), ("md_at".toList, some ("2013-08-07".toList)), ("md_completed".toList, some ("2013-08-08".toList))] (read .resourceList t1) = true := by decide +kernel
def t2 : Str := List.flatten ["<?xml vers".toList, "ion='1.0' ".toList, "encoding='".toList, "UTF-8'?>\n<".toList, "urlset xml".toList, "ns=\"http:/".toList, "/www.sitem".toList, "aps.org/sc".toList, "hemas/site".toList, "map/0.9\"><".toList, "url><loc>h".toList, "ttp://exam".toList, "ple.com/re".toList, "s1</loc><l".toList, "astmod>201".toList, "2-03-14T18".toList, ":37:36Z</l".toList, "astmod></u".toList, "rl></urlse".toList, "t>".toList]
example : reads [List.flatten ["http://exa".toList, "mple.com/r".toList, "es1".toList]] [("capability".toList, some ("resourcelist".toList)), ("from".toList, none)] (read .resourceList t2) = true := by decide +kernel
def t3 : Str := List.flatten ["<?xml vers".toList, "ion='1.0' ".toList, "encoding='".toList, "UTF-8'?>\n<".toList, "urlset xml".toList, "ns=\"http:/".toList, "/www.sitem".toList, "aps.org/sc".toList, "hemas/site".toList, "map/0.9\" x".toList, "mlns:rs=\"h".toList, "ttp://www.".toList, "openarchiv".toList, "es.org/rs/".toList, "terms/\"><r".toList, "s:md capab".toList, "ility=\"bad".toList, "_capabilit".toList, "y\" from=\"2".toList, "013-01-01\"".toList, "/><url><lo".toList, "c>http://e".toList, "xample.com".toList, "/bad_res_1".toList, "</loc><las".toList, "tmod>2012-".toList, "03-14T18:3".toList, "7:36Z</las".toList, "tmod></url".toList, "></urlset>".toList]
example : fails .parse (read .resourceList t3) = true := by decide +kernel

/-! test_change_list.py -/

def changed (u : String) (ts : Rat) (c : String) : Resource := res u (some ts) none (some c.toList)

example : (addIfChanged [] (changed "a" 1 "updated")).toOption.map List.length = some 1 := by decide +kernel
example : addIfChanged [changed "a" 1 "updated"] (res "c" (some 3)) = .error .changeType := by decide +kernel
example : (clAddAll [] [changed "a" 1 "updated", changed "b" 1 "created", changed "c" 1 "deleted", changed "a" 2 "deleted",
    changed "b" 2 "updated"]).1.length = 5 := by decide +kernel
example : (clAddAll [] [res "a" none (some 1) (some sCreated), res "b" none (some 2) (some sCreated),
    res "a" none (some 10) (some sCreated)]).1.length = 3 := by decide +kernel
example : (clAddAll [] [changed "a" 1 "created", changed "b" 2 "created", changed "c" 3 "created", changed "d" 4 "created"]).1.map
    Resource.uri = ["a".toList, "b".toList, "c".toList, "d".toList] := by decide +kernel
-- test06_add_changed_resources
def changes1 : List Resource := (addChangedResources [] (some sCreated) [changed "a" 1 "created", changed "d" 4 "created"]).1
example : changes1.map (fun r => (r.uri, r.timestamp, r.change))
  = [("a".toList, some 1, some sCreated), ("d".toList, some 4, some sCreated)] := by decide +kernel
def changes2 : List Resource := (addChangedResources changes1 (some sUpdated) [changed "a" 5 "created", changed "b" 6 "created"]).1
example : changes2.length = 4 := by decide +kernel
example : ((dictAddAll [] changes2 true).1.map (fun kv => (kv.1, kv.2.timestamp, kv.2.change)))
  = [("a".toList, some 5, some sUpdated), ("d".toList, some 4, some sCreated), ("b".toList, some 6, some sUpdated)] := by
  decide +kernel

example : showsAll [List.flatten ["<rs:md cap".toList, "ability=\"c".toList, "hangelist\"".toList], List.flatten ["from=\"1970".toList, "-01-01T00:".toList, "00:00Z\"".toList], List.flatten ["<url><loc>".toList, "a</loc><la".toList, "stmod>1970".toList, "-01-01T00:".toList, "00:01Z</la".toList, "stmod>".toList]] (xmlOf .changeList [("md_from".toList, some (List.flatten ["1970-01-01".toList, "T00:00:00Z".toList]))] [] [changed "a" 1 "updated", changed "b" 2 "updated"]) = true := by decide +kernel
def t4 : Str := List.flatten ["<?xml vers".toList, "ion='1.0' ".toList, "encoding='".toList, "UTF-8'?>\n<".toList, "urlset xml".toList, "ns=\"http:/".toList, "/www.sitem".toList, "aps.org/sc".toList, "hemas/site".toList, "map/0.9\" x".toList, "mlns:rs=\"h".toList, "ttp://www.".toList, "openarchiv".toList, "es.org/rs/".toList, "terms/\"><r".toList, "s:md capab".toList, "ility=\"cha".toList, "ngelist\" f".toList, "rom=\"2013-".toList, "01-01\"/><u".toList, "rl><loc>/t".toList, "mp/rs_test".toList, "/src/file_".toList, "a</loc><la".toList, "stmod>2012".toList, "-03-14T18:".toList, "37:36Z</la".toList, "stmod><rs:".toList, "md change=".toList, "\"updated\" ".toList, "length=\"12".toList, "\" /></url>".toList, "<url><loc>".toList, "/tmp/rs_te".toList, "st/src/fil".toList, "e_b</loc><".toList, "lastmod>20".toList, "12-03-14T1".toList, "8:37:36Z</".toList, "lastmod><r".toList, "s:md chang".toList, "e=\"deleted".toList, "\" length=\"".toList, "32\" /></ur".toList, "l></urlset".toList, ">".toList]
example : reads [List.flatten ["/tmp/rs_te".toList, "st/src/fil".toList, "e_a".toList], List.flatten ["/tmp/rs_te".toList, "st/src/fil".toList, "e_b".toList]] [("capability".toList, some ("changelist".toList)), ("md_from".toList, some ("2013-01-01".toList))] (read .changeList t4) = true := by decide +kernel
def t5 : Str := List.flatten ["<?xml vers".toList, "ion='1.0' ".toList, "encoding='".toList, "UTF-8'?>\n<".toList, "urlset xml".toList, "ns=\"http:/".toList, "/www.sitem".toList, "aps.org/sc".toList, "hemas/site".toList, "map/0.9\" x".toList, "mlns:rs=\"h".toList, "ttp://www.".toList, "openarchiv".toList, "es.org/rs/".toList, "terms/\"><u".toList, "rl><loc>ht".toList, "tp://examp".toList, "le.com/res".toList, "1</loc><la".toList, "stmod>2012".toList, "-03-14T18:".toList, "37:36Z</la".toList, "stmod><rs:".toList, "md change=".toList, "\"updated\"/".toList, "></url></u".toList, "rlset>".toList]
example : fails .parse (read .changeList t5) = true := by decide +kernel
def t6 : Str := List.flatten ["<?xml vers".toList, "ion='1.0' ".toList, "encoding='".toList, "UTF-8'?>\n<".toList, "urlset xml".toList, "ns=\"http:/".toList, "/www.sitem".toList, "aps.org/sc".toList, "hemas/site".toList, "map/0.9\" x".toList, "mlns:rs=\"h".toList, "ttp://www.".toList, "openarchiv".toList, "es.org/rs/".toList, "terms/\"><r".toList, "s:md capab".toList, "ility=\"bad".toList, "_capabilit".toList, "y\" from=\"2".toList, "013-01-01\"".toList, "/><url><lo".toList, "c>http://e".toList, "xample.com".toList, "/bad_res_1".toList, "</loc><las".toList, "tmod>2012-".toList, "03-14T18:3".toList, "7:36Z</las".toList, "tmod><rs:m".toList, "d change=\"".toList, "updated\"/>".toList, "</url></ur".toList, "lset>".toList]
example : fails .parse (read .changeList t6) = true := by decide +kernel
-- test11_prune_updates_before
def pruned (cl : List Resource) (t : Rat) (v : String) : Option (List Str) :=
  match pruneUpdatesBefore cl t v.toList with
  | (l, .ok _) => some (l.map Resource.uri)
  | (_, .error _) => none
def dt (u : String) (t : Rat) : Resource := { uri := u.toList, ts_datetime := some t }
example : pruned [res "a" (some 1), res "b" (some 2), res "c" (some 3), res "d" (some 4)] 3 "1.0" = us ["c", "d"] := by decide +kernel
example : pruned [res "c" (some 3), res "d" (some 4), res "a" (some 1), res "b" (some 2), res "e" (some 1000)] (7/2) "1.0"
  = us ["d", "e"] := by decide +kernel
example : pruned [res "d" (some 4), res "e" (some 1000), dt "nt_1_0" 123] (7/2) "1.0" = none := by decide +kernel
example : pruned [dt "aa" 1, dt "bb" 2, dt "cc" 3] 3 "1.1" = us ["cc"] := by decide +kernel
example : pruned [dt "cc" 3, dt "aa" 1, dt "bb" 2, dt "ee" 1000] (7/2) "1.1" = us ["ee"] := by decide +kernel
example : pruned [dt "ee" 1000, res "nt_1_1" (some 456)] (7/2) "1.1" = none := by decide +kernel

/-! test_capability_list.py -/

example : (dictAdd [] (res "http://example.org/r1") false).toOption.map List.length = some 1 := by decide +kernel
example : dictAdd (rl [res "http://example.org/r1"]) (res "http://example.org/r1") false = .error .dupe := by decide +kernel
example : (dictAddAll [] [res "http://example.org/r1", res "http://example.org/r1"] true).1.length = 1 := by decide +kernel
example : (rl [res "http://example.org/r1", res "http://example.org/r2"]).length = 2 := by decide +kernel
def cap (u c : String) : Resource := { uri := u.toList, capability := some c.toList }

def t7 : Str := List.flatten ["<?xml vers".toList, "ion='1.0' ".toList, "encoding='".toList, "UTF-8'?>\n<".toList, "urlset xml".toList, "ns=\"http:/".toList, "/www.sitem".toList, "aps.org/sc".toList, "hemas/site".toList, "map/0.9\" x".toList, "mlns:rs=\"h".toList, "ttp://www.".toList, "openarchiv".toList, "es.org/rs/".toList, "terms/\"><r".toList, "s:md capab".toList, "ility=\"cap".toList, "abilitylis".toList, "t\" from=\"2".toList, "013-02-07T".toList, "22:39:00\" ".toList, "/><url><lo".toList, "c>http://e".toList, "xample.org".toList, "/resourcel".toList, "ist.xml</l".toList, "oc><rs:md ".toList, "capability".toList, "=\"resource".toList, "list\" /></".toList, "url></urls".toList, "et>".toList]
example : decide (xmlOf .capabilityList [("from".toList, some (List.flatten ["2013-02-07".toList, "T22:39:00".toList]))] [] [cap "http://example.org/resourcelist.xml" "resourcelist"] = some t7) = true := by decide +kernel
example : showsAll [List.flatten ["<loc>rl.xm".toList, "l</loc><rs".toList, ":md capabi".toList, "lity=\"reso".toList, "urcelist\" ".toList, "/>".toList], List.flatten ["<loc>cl.xm".toList, "l</loc><rs".toList, ":md capabi".toList, "lity=\"chan".toList, "gelist\" />".toList]] (xmlOf .capabilityList [] [] [cap "rl.xml" "resourcelist", cap "cl.xml" "changelist"]) = true := by decide +kernel
example : (addCapability [] "http://example.org/resourcelist.xml".toList (some "resourcelist".toList)).toOption
  = some [("http://example.org/resourcelist.xml".toList, cap "http://example.org/resourcelist.xml" "resourcelist")] := by decide +kernel
def caps (l : DocList) : Option (List (Option Str)) :=
  match l.iter with
  | .ok rs => some (rs.map Resource.capability)
  | .error _ => none

example : reads [List.flatten ["http://exa".toList, "mple.org/r".toList, "esourcelis".toList, "t.xml".toList]] [("capability".toList, some (List.flatten ["capability".toList, "list".toList]))] (read .capabilityList t7) = true := by decide +kernel
example : (match read .capabilityList t7 with | some (.ok l) => decide (caps l = some [some "resourcelist".toList]) | _ => false) = true := by decide +kernel

/-! test_resource_container.py -/

-- test04_prune_dupes
example : (pruneDupes [changed "a" 1 "created", changed "b" 2 "created", changed "c" 3 "updated", changed "d" 4 "deleted",
    changed "a" 4 "updated", changed "b" 4 "deleted", changed "b" 5 "created", changed "b" 6 "deleted", changed "c" 7 "deleted",
    changed "d" 8 "created"]).1.map (fun r => (r.uri, r.change))
  = [("a".toList, some sUpdated), ("c".toList, some sDeleted), ("d".toList, some sCreated)] := by decide +kernel
-- test05_from_until
example : (({} : Container).mdFrom, ({} : Container).mdUntil) = (none, none) := by decide +kernel
example : ((({} : Container).setMdFrom (.text "ftime".toList) 0).bind (·.setMdUntil (.text "utime".toList) 0)).map
    (fun c => (c.mdFrom, c.mdUntil)) = some (some "ftime".toList, some "utime".toList) := by decide +kernel
example : ((({} : Container).setMdFrom (.text "ftime".toList) 0).map (fun c => { c with md := dset c.md kMdFrom (some "ftime2".toList) })).map
    Container.mdFrom = some (some "ftime2".toList) := by decide +kernel
-- test06_source_description .. test08_up
def isOk {α : Type} [DecidableEq α] (x : Except ResErr α) (v : α) : Bool :=
  match x with
  | .ok w => decide (w = v)
  | .error _ => false
example : isOk ({} : Container).up none = true := by decide +kernel
example : isOk (({} : Container).setUp "well-known".toList).up (some "well-known".toList) = true := by decide +kernel
example : isOk ((({} : Container).setUp "well-known".toList).setUp "well-known2".toList).up (some "well-known2".toList) = true := by
  decide +kernel
example : ((({} : Container).setUp "well-known2".toList).link "up".toList).bind (fun l => dget l sHref) = some "well-known2".toList := by
  decide +kernel
example : isOk ({} : Container).describedby none = true := by decide +kernel
example : isOk (({} : Container).setDescribedby "db_uri".toList).describedby (some "db_uri".toList) = true := by decide +kernel
-- test09_capability
example : ({} : Container).capability = none := by decide +kernel
example : (({} : Container).setCapability (some "fixit".toList)).capability = some "fixit".toList := by decide +kernel
-- test10_link_set
example : ({} : Container).link "alink".toList = none := by decide +kernel
def linked : Container := ({} : Container).linkSet "alink".toList "uri:l".toList
  [("extra1".toList, "one".toList), ("extra2".toList, "two".toList)]
example : linked.link "alink".toList = some [("rel".toList, "alink".toList), ("href".toList, "uri:l".toList),
    ("extra1".toList, "one".toList), ("extra2".toList, "two".toList)] := by decide +kernel
example : (linked.linkSet "alink".toList "uri:new".toList [("extra1".toList, "1".toList)]).link "alink".toList
  = some [("rel".toList, "alink".toList), ("href".toList, "uri:new".toList), ("extra1".toList, "1".toList),
      ("extra2".toList, "two".toList)] := by decide +kernel
-- test11_index
example : isOk ({} : Container).index none = true := by decide +kernel
example : isOk (({} : Container).setIndex "uri:i".toList).index (some "uri:i".toList) = true := by decide +kernel
-- test12_str_datetime_now
example : ((strDatetimeNow (.text "now".toList) 0).map Option.isSome) = some true := by decide +kernel
example : strDatetimeNow (.number 0) 7 = some (some "1970-01-01T00:00:00Z".toList) := by decide +kernel
example : strDatetimeNow (.text "2020-12-24T16:01:00Z".toList) 7 = some (some "2020-12-24T16:01:00Z".toList) := by decide +kernel

/-! test_resource_set.py -/

example : ((rl []).length, (rl [res "a"]).length, (rl [res "a", res "b"]).length, (rl [res "a", res "b", res "c"]).length)
  = (0, 1, 2, 3) := by decide +kernel
example : uris (rl [res "a2", res "a3", res "a1"]) = us ["a1", "a2", "a3"] := by decide +kernel
example : dictAdd (rl [res "a"]) (res "a") false = .error .dupe := by decide +kernel

/-! test_client_utils.py -/

def link (l : String) : Option (List (Str × Str)) :=
  match parseLink l.toList with
  | .ok d => some (sortItems d)
  | .error _ => none
def kv (l : List (String × String)) : Option (List (Str × Str)) := some (l.map (fun p => (p.1.toList, p.2.toList)))
def links (l : List String) : Option (List (List (Str × Str))) :=
  match parseLinks (some (l.map String.toList)) with
  | .ok ds => some (ds.map sortItems)
  | .error _ => none
example : countTrueArgs [] = 0 := by decide
example : countTrueArgs [true] = 1 := by decide
example : countTrueArgs [false] = 0 := by decide
example : countTrueArgs [false, true, true, true] = 3 := by decide
example : links [] = some [] := by decide +kernel
example : links ["u,h"] = (kv [("href", "h"), ("rel", "u")]).map (fun x => [x]) := by decide +kernel
example : links ["u,h", "v,i"] = (kv [("href", "h"), ("rel", "u")]).bind (fun x => (kv [("href", "i"), ("rel", "v")]).map
    (fun y => [x, y])) := by decide +kernel
example : links ["x", "x"] = none := by decide +kernel
example : links ["u"] = none := by decide +kernel
example : links ["u,h", "u"] = none := by decide +kernel
example : link "u,h" = kv [("href", "h"), ("rel", "u")] := by decide +kernel
example : link "u,h,a=b" = kv [("a", "b"), ("href", "h"), ("rel", "u")] := by decide +kernel
example : link "u,h,a=b,c=d" = kv [("a", "b"), ("c", "d"), ("href", "h"), ("rel", "u")] := by decide +kernel
example : link "u,h,a=b,a=d" = kv [("a", "d"), ("href", "h"), ("rel", "u")] := by decide +kernel
example : (["", "u", "u,", "u,h,,", "u,h,a", "u,h,a=", "u,h,a=b,=c"].map link).all (fun x => x.isNone) = true := by decide +kernel
def capabilities (l : String) : Option (List (Str × Str)) :=
  match parseCapabilities l.toList with
  | .ok d => some d
  | .error _ => none
example : capabilities "a=" = kv [("a", "")] := by decide +kernel
example : capabilities "a=b,c=" = kv [("a", "b"), ("c", "")] := by decide +kernel
example : capabilities "a" = none := by decide +kernel
example : capabilities "a=b," = none := by decide +kernel
example : parseCapabilityLists "a,b".toList = ["a".toList, "b".toList] := by decide +kernel

/-! test_source_description.py -/

def about : List Link := (({} : Container).setDescribedby "http://example.org/about".toList).ln

def t8 : Str := List.flatten ["<?xml vers".toList, "ion='1.0' ".toList, "encoding='".toList, "UTF-8'?>\n<".toList, "urlset xml".toList, "ns=\"http:/".toList, "/www.sitem".toList, "aps.org/sc".toList, "hemas/site".toList, "map/0.9\" x".toList, "mlns:rs=\"h".toList, "ttp://www.".toList, "openarchiv".toList, "es.org/rs/".toList, "terms/\"><r".toList, "s:ln href=".toList, "\"http://ex".toList, "ample.org/".toList, "about\" rel".toList, "=\"describe".toList, "dby\" /><rs".toList, ":md capabi".toList, "lity=\"desc".toList, "ription\" /".toList, "></urlset>".toList]
example : decide (xmlOf .sourceDescription [("md_at".toList, none)] about [] = some t8) = true := by decide +kernel
def t9 : Str := List.flatten ["<?xml vers".toList, "ion='1.0' ".toList, "encoding='".toList, "UTF-8'?>\n<".toList, "urlset xml".toList, "ns=\"http:/".toList, "/www.sitem".toList, "aps.org/sc".toList, "hemas/site".toList, "map/0.9\" x".toList, "mlns:rs=\"h".toList, "ttp://www.".toList, "openarchiv".toList, "es.org/rs/".toList, "terms/\"><r".toList, "s:ln href=".toList, "\"http://ex".toList, "ample.org/".toList, "about\" rel".toList, "=\"describe".toList, "dby\" /><rs".toList, ":md capabi".toList, "lity=\"desc".toList, "ription\" /".toList, "><url><loc".toList, ">http://ex".toList, "ample.org/".toList, "ds1/cl.xml".toList, "</loc><rs:".toList, "md capabil".toList, "ity=\"capab".toList, "ilitylist\"".toList, " /></url><".toList, "/urlset>".toList]
example : decide (xmlOf .sourceDescription [("md_at".toList, none)] about [cap "http://example.org/ds1/cl.xml" "capabilitylist"] = some t9) = true := by decide +kernel
def t10 : Str := List.flatten ["<?xml vers".toList, "ion='1.0' ".toList, "encoding='".toList, "UTF-8'?>\n<".toList, "urlset xml".toList, "ns=\"http:/".toList, "/www.sitem".toList, "aps.org/sc".toList, "hemas/site".toList, "map/0.9\" x".toList, "mlns:rs=\"h".toList, "ttp://www.".toList, "openarchiv".toList, "es.org/rs/".toList, "terms/\"><r".toList, "s:ln href=".toList, "\"http://ex".toList, "ample.org/".toList, "about\" rel".toList, "=\"describe".toList, "dby\" /><rs".toList, ":md capabi".toList, "lity=\"desc".toList, "ription\" /".toList, "><url><loc".toList, ">http://ex".toList, "ample.org/".toList, "ds1/cl.xml".toList, "</loc><rs:".toList, "md capabil".toList, "ity=\"capab".toList, "ilitylist\"".toList, " /></url><".toList, "url><loc>h".toList, "ttp://exam".toList, "ple.org/ds".toList, "2/cl.xml</".toList, "loc><rs:md".toList, " capabilit".toList, "y=\"capabil".toList, "itylist\" /".toList, "></url><ur".toList, "l><loc>htt".toList, "p://exampl".toList, "e.org/ds3/".toList, "cl.xml</lo".toList, "c><rs:md c".toList, "apability=".toList, "\"capabilit".toList, "ylist\" /><".toList, "/url></url".toList, "set>".toList]
example : decide (xmlOf .sourceDescription [] about [cap "http://example.org/ds1/cl.xml" "capabilitylist", cap "http://example.org/ds2/cl.xml" "capabilitylist", cap "http://example.org/ds3/cl.xml" "capabilitylist"] = some t10) = true := by decide +kernel
example : reads [List.flatten ["http://exa".toList, "mple.org/d".toList, "s1/cl.xml".toList], List.flatten ["http://exa".toList, "mple.org/d".toList, "s2/cl.xml".toList], List.flatten ["http://exa".toList, "mple.org/d".toList, "s3/cl.xml".toList]] [("capability".toList, some ("description".toList))] (read .sourceDescription t10) = true := by decide +kernel
example : (match read .sourceDescription t10 with | some (.ok l) => isOk (hrefOf (findLink l.ln "describedby".toList)) (some "http://example.org/about".toList) && decide (caps l = some [some "capabilitylist".toList, some "capabilitylist".toList, some "capabilitylist".toList]) | _ => false) = true := by decide +kernel
example : uris (rl [res "http://example.org/u1", res "http://example.org/u2", res "http://example.org/u3"]) = us ["http://example.org/u1", "http://example.org/u2", "http://example.org/u3"] := by decide +kernel

/-! test_resource_dump.py -/

example : showsAll [List.flatten ["<rs:md cap".toList, "ability=\"r".toList, "esourcedum".toList, "p\"".toList], List.flatten ["<url><loc>".toList, "a.zip</loc".toList, "><lastmod>".toList, "1970-01-01".toList, "T00:00:01Z".toList, "</lastmod>".toList, "</url>".toList]] (xmlOf .resourceDump [] [] [res "a.zip" (some 1), res "b.zip" (some 2)]) = true := by decide +kernel
def t11 : Str := List.flatten ["<?xml vers".toList, "ion='1.0' ".toList, "encoding='".toList, "UTF-8'?>\n<".toList, "urlset xml".toList, "ns=\"http:/".toList, "/www.sitem".toList, "aps.org/sc".toList, "hemas/site".toList, "map/0.9\" x".toList, "mlns:rs=\"h".toList, "ttp://www.".toList, "openarchiv".toList, "es.org/rs/".toList, "terms/\"><r".toList, "s:md capab".toList, "ility=\"res".toList, "ourcedump\"".toList, " at=\"2013-".toList, "01-01\"/><u".toList, "rl><loc>ht".toList, "tp://examp".toList, "le.com/a.z".toList, "ip</loc><l".toList, "astmod>201".toList, "2-03-14T18".toList, ":37:36Z</l".toList, "astmod><rs".toList, ":md length".toList, "=\"12345\" /".toList, "></url><ur".toList, "l><loc>htt".toList, "p://exampl".toList, "e.com/b.zi".toList, "p</loc><la".toList, "stmod>2012".toList, "-03-14T18:".toList, "37:36Z</la".toList, "stmod><rs:".toList, "md length=".toList, "\"56789\" />".toList, "</url></ur".toList, "lset>".toList]
example : reads [List.flatten ["http://exa".toList, "mple.com/a".toList, ".zip".toList], List.flatten ["http://exa".toList, "mple.com/b".toList, ".zip".toList]] [("capability".toList, some ("resourcedump".toList)), ("md_at".toList, some ("2013-01-01".toList))] (read .resourceDump t11) = true := by decide +kernel
def t12 : Str := List.flatten ["<?xml vers".toList, "ion='1.0' ".toList, "encoding='".toList, "UTF-8'?>\n<".toList, "urlset xml".toList, "ns=\"http:/".toList, "/www.sitem".toList, "aps.org/sc".toList, "hemas/site".toList, "map/0.9\" x".toList, "mlns:rs=\"h".toList, "ttp://www.".toList, "openarchiv".toList, "es.org/rs/".toList, "terms/\"><r".toList, "s:md from=".toList, "\"2013-01-0".toList, "1\"/><url><".toList, "loc>http:/".toList, "/example.c".toList, "om/a.zip</".toList, "loc><lastm".toList, "od>2012-03".toList, "-14T18:37:".toList, "36Z</lastm".toList, "od><rs:md ".toList, "length=\"12".toList, "345\" /></u".toList, "rl><url><l".toList, "oc>http://".toList, "example.co".toList, "m/b.zip</l".toList, "oc><lastmo".toList, "d>2012-03-".toList, "14T18:37:3".toList, "6Z</lastmo".toList, "d><rs:md l".toList, "ength=\"567".toList, "89\" /></ur".toList, "l></urlset".toList, ">".toList]
example : fails .parse (read .resourceDump t12) = true := by decide +kernel
def t13 : Str := List.flatten ["<?xml vers".toList, "ion='1.0' ".toList, "encoding='".toList, "UTF-8'?>\n<".toList, "urlset xml".toList, "ns=\"http:/".toList, "/www.sitem".toList, "aps.org/sc".toList, "hemas/site".toList, "map/0.9\" x".toList, "mlns:rs=\"h".toList, "ttp://www.".toList, "openarchiv".toList, "es.org/rs/".toList, "terms/\"><r".toList, "s:md capab".toList, "ility=\"bad".toList, "_capabilit".toList, "y\" from=\"2".toList, "013-01-01\"".toList, "/><url><lo".toList, "c>http://e".toList, "xample.com".toList, "/bad_res_1".toList, "</loc><las".toList, "tmod>2012-".toList, "03-14T18:3".toList, "7:36Z</las".toList, "tmod></url".toList, "></urlset>".toList]
example : fails .parse (read .resourceDump t13) = true := by decide +kernel

/-! test_resource_dump_manifest.py -/

example : showsAll [List.flatten ["<rs:md cap".toList, "ability=\"r".toList, "esourcedum".toList, "p-manifest".toList, "\"".toList], List.flatten ["<url><loc>".toList, "a.zip</loc".toList, "><lastmod>".toList, "1970-01-01".toList, "T00:00:01Z".toList, "</lastmod>".toList, "</url>".toList]] (xmlOf .resourceDumpManifest [] [] [res "a.zip" (some 1), res "b.zip" (some 2)]) = true := by decide +kernel
def t14 : Str := List.flatten ["<?xml vers".toList, "ion='1.0' ".toList, "encoding='".toList, "UTF-8'?>\n<".toList, "urlset xml".toList, "ns=\"http:/".toList, "/www.sitem".toList, "aps.org/sc".toList, "hemas/site".toList, "map/0.9\" x".toList, "mlns:rs=\"h".toList, "ttp://www.".toList, "openarchiv".toList, "es.org/rs/".toList, "terms/\"><r".toList, "s:md capab".toList, "ility=\"res".toList, "ourcedump-".toList, "manifest\" ".toList, "at=\"2013-0".toList, "8-08\"/><ur".toList, "l><loc>htt".toList, "p://exampl".toList, "e.com/res1".toList, "</loc><las".toList, "tmod>2012-".toList, "03-14T18:3".toList, "7:36Z</las".toList, "tmod><rs:m".toList, "d length=\"".toList, "12\" path=\"".toList, "/res1\" /><".toList, "/url><url>".toList, "<loc>http:".toList, "//example.".toList, "com/res2</".toList, "loc><lastm".toList, "od>2012-03".toList, "-14T18:37:".toList, "36Z</lastm".toList, "od><rs:md ".toList, "length=\"32".toList, "\" path=\"/r".toList, "es2\"/></ur".toList, "l></urlset".toList, ">".toList]
example : reads [List.flatten ["http://exa".toList, "mple.com/r".toList, "es1".toList], List.flatten ["http://exa".toList, "mple.com/r".toList, "es2".toList]] [("capability".toList, some (List.flatten ["resourcedu".toList, "mp-manifes".toList, "t".toList])), ("md_at".toList, some ("2013-08-08".toList))] (read .resourceDumpManifest t14) = true := by decide +kernel
def t15 : Str := List.flatten ["<?xml vers".toList, "ion='1.0' ".toList, "encoding='".toList, "UTF-8'?>\n<".toList, "urlset xml".toList, "ns=\"http:/".toList, "/www.sitem".toList, "aps.org/sc".toList, "hemas/site".toList, "map/0.9\" x".toList, "mlns:rs=\"h".toList, "ttp://www.".toList, "openarchiv".toList, "es.org/rs/".toList, "terms/\"><r".toList, "s:md from=".toList, "\"2013-01-0".toList, "1\"/><url><".toList, "loc>http:/".toList, "/example.c".toList, "om/res1</l".toList, "oc><lastmo".toList, "d>2012-03-".toList, "14T18:37:3".toList, "6Z</lastmo".toList, "d><rs:md l".toList, "ength=\"12\"".toList, " path=\"/re".toList, "s1\" /></ur".toList, "l><url><lo".toList, "c>http://e".toList, "xample.com".toList, "/res2</loc".toList, "><lastmod>".toList, "2012-03-14".toList, "T18:37:36Z".toList, "</lastmod>".toList, "<rs:md len".toList, "gth=\"32\" p".toList, "ath=\"/res2".toList, "\"/></url><".toList, "/urlset>".toList]
example : fails .parse (read .resourceDumpManifest t15) = true := by decide +kernel
def t16 : Str := List.flatten ["<?xml vers".toList, "ion='1.0' ".toList, "encoding='".toList, "UTF-8'?>\n<".toList, "urlset xml".toList, "ns=\"http:/".toList, "/www.sitem".toList, "aps.org/sc".toList, "hemas/site".toList, "map/0.9\" x".toList, "mlns:rs=\"h".toList, "ttp://www.".toList, "openarchiv".toList, "es.org/rs/".toList, "terms/\"><r".toList, "s:md capab".toList, "ility=\"bad".toList, "_capabilit".toList, "y\" from=\"2".toList, "013-01-01\"".toList, "/><url><lo".toList, "c>http://e".toList, "xample.com".toList, "/bad_res_1".toList, "</loc><las".toList, "tmod>2012-".toList, "03-14T18:3".toList, "7:36Z</las".toList, "tmod></url".toList, "></urlset>".toList]
example : fails .parse (read .resourceDumpManifest t16) = true := by decide +kernel

/-! test_change_dump.py -/

example : showsAll [List.flatten ["<rs:md cap".toList, "ability=\"c".toList, "hangedump\"".toList], List.flatten ["<url><loc>".toList, "a.zip</loc".toList, "><lastmod>".toList, "1970-01-01".toList, "T00:00:01Z".toList, "</lastmod>".toList, "</url>".toList]] (xmlOf .changeDump [] [] [res "a.zip" (some 1), res "b.zip" (some 2)]) = true := by decide +kernel
def t17 : Str := List.flatten ["<?xml vers".toList, "ion='1.0' ".toList, "encoding='".toList, "UTF-8'?>\n<".toList, "urlset xml".toList, "ns=\"http:/".toList, "/www.sitem".toList, "aps.org/sc".toList, "hemas/site".toList, "map/0.9\" x".toList, "mlns:rs=\"h".toList, "ttp://www.".toList, "openarchiv".toList, "es.org/rs/".toList, "terms/\"><r".toList, "s:md capab".toList, "ility=\"cha".toList, "ngedump\" f".toList, "rom=\"2013-".toList, "01-01\"/><u".toList, "rl><loc>ht".toList, "tp://examp".toList, "le.com/a.z".toList, "ip</loc><l".toList, "astmod>201".toList, "2-03-14T18".toList, ":37:36Z</l".toList, "astmod><rs".toList, ":md length".toList, "=\"12345\" /".toList, "></url><ur".toList, "l><loc>htt".toList, "p://exampl".toList, "e.com/b.zi".toList, "p</loc><la".toList, "stmod>2012".toList, "-03-14T18:".toList, "37:36Z</la".toList, "stmod><rs:".toList, "md length=".toList, "\"56789\" />".toList, "</url></ur".toList, "lset>".toList]
example : reads [List.flatten ["http://exa".toList, "mple.com/a".toList, ".zip".toList], List.flatten ["http://exa".toList, "mple.com/b".toList, ".zip".toList]] [("capability".toList, some ("changedump".toList)), ("md_from".toList, some ("2013-01-01".toList))] (read .changeDump t17) = true := by decide +kernel
def t18 : Str := List.flatten ["<?xml vers".toList, "ion='1.0' ".toList, "encoding='".toList, "UTF-8'?>\n<".toList, "urlset xml".toList, "ns=\"http:/".toList, "/www.sitem".toList, "aps.org/sc".toList, "hemas/site".toList, "map/0.9\" x".toList, "mlns:rs=\"h".toList, "ttp://www.".toList, "openarchiv".toList, "es.org/rs/".toList, "terms/\"><r".toList, "s:md at=\"2".toList, "013-01-01\"".toList, "/><url><lo".toList, "c>http://e".toList, "xample.com".toList, "/a.zip</lo".toList, "c><lastmod".toList, ">2012-03-1".toList, "4T18:37:36".toList, "Z</lastmod".toList, "><rs:md le".toList, "ngth=\"1234".toList, "5\" /></url".toList, "><url><loc".toList, ">http://ex".toList, "ample.com/".toList, "b.zip</loc".toList, "><lastmod>".toList, "2012-03-14".toList, "T18:37:36Z".toList, "</lastmod>".toList, "<rs:md len".toList, "gth=\"56789".toList, "\" /></url>".toList, "</urlset>".toList]
example : fails .parse (read .changeDump t18) = true := by decide +kernel
def t19 : Str := List.flatten ["<?xml vers".toList, "ion='1.0' ".toList, "encoding='".toList, "UTF-8'?>\n<".toList, "urlset xml".toList, "ns=\"http:/".toList, "/www.sitem".toList, "aps.org/sc".toList, "hemas/site".toList, "map/0.9\" x".toList, "mlns:rs=\"h".toList, "ttp://www.".toList, "openarchiv".toList, "es.org/rs/".toList, "terms/\"><r".toList, "s:md capab".toList, "ility=\"bad".toList, "_capabilit".toList, "y\" from=\"2".toList, "013-01-01\"".toList, "/><url><lo".toList, "c>http://e".toList, "xample.com".toList, "/bad_res_1".toList, "</loc><las".toList, "tmod>2012-".toList, "03-14T18:3".toList, "7:36Z</las".toList, "tmod></url".toList, "></urlset>".toList]
example : fails .parse (read .changeDump t19) = true := by decide +kernel

end Resync.Conform.Lists
