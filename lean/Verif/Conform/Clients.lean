import Verif.Conform.Docs
import Verif.Props.ClientExample
import Verif.Model.ClientStatus
import Verif.Model.ClientWrite
import Verif.Model.Listing
import Verif.Model.ExplorerText
import Verif.Model.Scripts
/-
What the following tests of the project expect, checked of the model: tests of the model, not proofs of properties.
test_client.py, test_dump.py, test_explorer.py, test_resource_list_builder.py, test_hashes.py, test_client_state.py, as far as they
are about what is modelled.
-/

namespace Resync.Conform.Clients
open Py

def noUw : Char → Bool := fun _ => false
def maps (l : List String) : Mapper :=
  match Mapper.parse noUw (l.map String.toList) true with
  | .ok m => m
  | .error _ => []
def okIs {ε α : Type} (p : α → Bool) : Except ε α → Bool
  | .ok x => p x
  | .error _ => false
def errIs {ε α : Type} [DecidableEq ε] (e : ε) : Except ε α → Bool
  | .ok _ => false
  | .error e' => decide (e = e')

/-! test_client.py -/

-- test03_sitemap_uri
def c3 : DiscCfg := { mapper := maps ["http://example.org/c", "/tmp/not_there_at_all"] }
example : okIs (· == "http://example.org/c/abcd1".toList) (c3.sitemapUri "abcd1".toList) = true := by decide +kernel
example : okIs (· == "/abcd2".toList) (c3.sitemapUri "/abcd2".toList) = true := by decide +kernel
example : okIs (· == "scheme:/abcd3".toList) (c3.sitemapUri "scheme:/abcd3".toList) = true := by decide +kernel

def rlClient : Str := List.flatten ["<?xml vers".toList, "ion=\"1.0\" ".toList, "encoding=\"".toList, "UTF-8\"?>\n<".toList, "urlset xml".toList, "ns=\"http:/".toList, "/www.sitem".toList, "aps.org/sc".toList, "hemas/site".toList, "map/0.9\"\n ".toList, "       xml".toList, "ns:rs=\"htt".toList, "p://www.op".toList, "enarchives".toList, ".org/rs/te".toList, "rms/\">\n  <".toList, "rs:ln rel=".toList, "\"up\"\n     ".toList, "    href=\"".toList, "http://loc".toList, "alhost:999".toList, "9/dir1/cap".toList, "s1.xml\"/>\n".toList, "  <rs:md c".toList, "apability=".toList, "\"resourcel".toList, "ist\"\n     ".toList, "    modifi".toList, "ed=\"2013-0".toList, "1-03T15:00".toList, ":00Z\"/>\n  ".toList, "<url>\n    ".toList, "  <loc>htt".toList, "p://localh".toList, "ost:9999/d".toList, "ir1/resour".toList, "ce1</loc>\n".toList, "  </url>\n ".toList, " <url>\n   ".toList, "   <loc>ht".toList, "tp://local".toList, "host:9999/".toList, "dir1/resou".toList, "rce2</loc>".toList, "\n  </url>\n".toList, "  <url>\n  ".toList, "    <loc>h".toList, "ttp://loca".toList, "lhost:9999".toList, "/dir1/reso".toList, "urce3</loc".toList, ">\n  </url>".toList, "\n</urlset>".toList, "\n".toList]
def wk1 : Str := List.flatten ["<?xml vers".toList, "ion=\"1.0\" ".toList, "encoding=\"".toList, "UTF-8\"?>\n<".toList, "urlset xml".toList, "ns=\"http:/".toList, "/www.sitem".toList, "aps.org/sc".toList, "hemas/site".toList, "map/0.9\"\n ".toList, "       xml".toList, "ns:rs=\"htt".toList, "p://www.op".toList, "enarchives".toList, ".org/rs/te".toList, "rms/\">\n  <".toList, "rs:ln rel=".toList, "\"described".toList, "by\"\n      ".toList, "   href=\"h".toList, "ttp://resy".toList, "nc.library".toList, ".cornell.e".toList, "du/\"/>\n  <".toList, "rs:md capa".toList, "bility=\"de".toList, "scription\"".toList, "/>\n  <url>".toList, "\n    <loc>".toList, "../data/ca".toList, "pabilityli".toList, "st.xml</lo".toList, "c>\n    <rs".toList, ":md capabi".toList, "lity=\"capa".toList, "bilitylist".toList, "\"/>\n  </ur".toList, "l>\n</urlse".toList, "t>\n".toList]
def cap1 : Str := List.flatten ["<?xml vers".toList, "ion=\"1.0\" ".toList, "encoding=\"".toList, "UTF-8\"?>\n<".toList, "urlset xml".toList, "ns=\"http:/".toList, "/www.sitem".toList, "aps.org/sc".toList, "hemas/site".toList, "map/0.9\"\n ".toList, "       xml".toList, "ns:rs=\"htt".toList, "p://www.op".toList, "enarchives".toList, ".org/rs/te".toList, "rms/\">\n  <".toList, "rs:md capa".toList, "bility=\"ca".toList, "pabilityli".toList, "st\"/>\n  <u".toList, "rl>\n    <l".toList, "oc>resourc".toList, "elist.xml<".toList, "/loc>\n    ".toList, "<rs:md cap".toList, "ability=\"r".toList, "esourcelis".toList, "t\"/>\n  </u".toList, "rl>\n</urls".toList, "et>\n".toList]
def rl1 : Str := List.flatten ["<?xml vers".toList, "ion=\"1.0\" ".toList, "encoding=\"".toList, "UTF-8\"?>\n<".toList, "urlset xml".toList, "ns=\"http:/".toList, "/www.sitem".toList, "aps.org/sc".toList, "hemas/site".toList, "map/0.9\"\n ".toList, "       xml".toList, "ns:rs=\"htt".toList, "p://www.op".toList, "enarchives".toList, ".org/rs/te".toList, "rms/\">\n  <".toList, "rs:ln rel=".toList, "\"up\" href=".toList, "\"find1\"/>\n".toList, "  <rs:md c".toList, "apability=".toList, "\"resourcel".toList, "ist\"\n     ".toList, "    modifi".toList, "ed=\"2017-0".toList, "4-11T11:22".toList, ":33Z\"/>\n  ".toList, "<url>\n    ".toList, "  <loc>a_r".toList, "esource</l".toList, "oc>\n      ".toList, "<lastmod>2".toList, "017-05-28T".toList, "00:00:00Z<".toList, "/lastmod>\n".toList, "  </url>\n<".toList, "/urlset>\n".toList]
def rl2 : Str := List.flatten ["<?xml vers".toList, "ion=\"1.0\" ".toList, "encoding=\"".toList, "UTF-8\"?>\n<".toList, "urlset xml".toList, "ns=\"http:/".toList, "/www.sitem".toList, "aps.org/sc".toList, "hemas/site".toList, "map/0.9\"\n ".toList, "       xml".toList, "ns:rs=\"htt".toList, "p://www.op".toList, "enarchives".toList, ".org/rs/te".toList, "rms/\">\n  <".toList, "rs:ln rel=".toList, "\"up\" href=".toList, "\"find2\"/>\n".toList, "  <rs:md c".toList, "apability=".toList, "\"resourcel".toList, "ist\"\n     ".toList, "    modifi".toList, "ed=\"2017-0".toList, "4-11T11:22".toList, ":33Z\"/>\n  ".toList, "<url>\n    ".toList, "  <loc>a_r".toList, "esource</l".toList, "oc>\n      ".toList, "<lastmod>2".toList, "017-05-28T".toList, "00:00:00Z<".toList, "/lastmod>\n".toList, "  </url>\n<".toList, "/urlset>\n".toList]
def rl3 : Str := List.flatten ["<?xml vers".toList, "ion=\"1.0\" ".toList, "encoding=\"".toList, "UTF-8\"?>\n<".toList, "urlset xml".toList, "ns=\"http:/".toList, "/www.sitem".toList, "aps.org/sc".toList, "hemas/site".toList, "map/0.9\"\n ".toList, "       xml".toList, "ns:rs=\"htt".toList, "p://www.op".toList, "enarchives".toList, ".org/rs/te".toList, "rms/\">\n  <".toList, "rs:ln rel=".toList, "\"up\" href=".toList, "\"find3\"/>\n".toList, "  <rs:md c".toList, "apability=".toList, "\"resourcel".toList, "ist\"\n     ".toList, "    modifi".toList, "ed=\"2017-0".toList, "4-11T11:22".toList, ":33Z\"/>\n  ".toList, "<url>\n    ".toList, "  <loc>a_r".toList, "esource</l".toList, "oc>\n      ".toList, "<lastmod>2".toList, "017-05-28T".toList, "00:00:00Z<".toList, "/lastmod>\n".toList, "  </url>\n<".toList, "/urlset>\n".toList]
def ex1 : Str := List.flatten ["<?xml vers".toList, "ion=\"1.0\" ".toList, "encoding=\"".toList, "UTF-8\"?>\n<".toList, "urlset xml".toList, "ns=\"http:/".toList, "/www.sitem".toList, "aps.org/sc".toList, "hemas/site".toList, "map/0.9\"\n ".toList, "       xml".toList, "ns:rs=\"htt".toList, "p://www.op".toList, "enarchives".toList, ".org/rs/te".toList, "rms/\">\n  <".toList, "rs:md capa".toList, "bility=\"re".toList, "sourcelist".toList, "\"\n        ".toList, " at=\"2013-".toList, "01-03T09:0".toList, "0:00Z\"/>\n ".toList, " <url>\n   ".toList, "   <loc>ht".toList, "tp://examp".toList, "le.com/res".toList, "1</loc>\n  ".toList, "</url>\n  <".toList, "url>\n     ".toList, " <loc>http".toList, "://example".toList, ".com/res2<".toList, "/loc>\n  </".toList, "url>\n</url".toList, "set>\n".toList]
def caps1 : Str := List.flatten ["<?xml vers".toList, "ion=\"1.0\" ".toList, "encoding=\"".toList, "UTF-8\"?>\n<".toList, "urlset xml".toList, "ns=\"http:/".toList, "/www.sitem".toList, "aps.org/sc".toList, "hemas/site".toList, "map/0.9\"\n ".toList, "       xml".toList, "ns:rs=\"htt".toList, "p://www.op".toList, "enarchives".toList, ".org/rs/te".toList, "rms/\">\n  <".toList, "rs:ln rel=".toList, "\"described".toList, "by\"\n      ".toList, "   href=\"d".toList, "ataset1/in".toList, "fo_about_s".toList, "ource.html".toList, "\"/>\n  <rs:".toList, "md capabil".toList, "ity=\"capab".toList, "ilitylist\"".toList, "\n         ".toList, "modified=\"".toList, "2013-01-02".toList, "T14:00:00Z".toList, "\"/>\n  <url".toList, ">\n      <l".toList, "oc>dataset".toList, "1/resource".toList, "list.xml</".toList, "loc>\n     ".toList, " <rs:md ca".toList, "pability=\"".toList, "resourceli".toList, "st\"/>\n  </".toList, "url>\n  <ur".toList, "l>\n      <".toList, "loc>datase".toList, "t1/resourc".toList, "edump.xml<".toList, "/loc>\n    ".toList, "  <rs:md c".toList, "apability=".toList, "\"resourced".toList, "ump\"/>\n  <".toList, "/url>\n  <u".toList, "rl>\n      ".toList, "<loc>datas".toList, "et1/change".toList, "list.xml</".toList, "loc>\n     ".toList, " <rs:md ca".toList, "pability=\"".toList, "changelist".toList, "\"/>\n  </ur".toList, "l>\n  <url>".toList, "\n      <lo".toList, "c>dataset1".toList, "/changedum".toList, "p.xml</loc".toList, ">\n      <r".toList, "s:md capab".toList, "ility=\"cha".toList, "ngedump\"/>".toList, "\n  </url>\n".toList, "</urlset>\n".toList]

/-- documents at given places -/
def docsAt (l : List (String × Str)) (u : Str) : Option Elem := ((l.map (fun p => (p.1.toList, p.2))).lookup u).bind readXml

-- test04_read_resource_list
def src4 : Sources := Sources.ofDocs (docsAt [("tests/testdata/client/dir1/resourcelist.xml", rlClient)]) [] true noUw
example : okIs (fun d : Dict Resource => d.length == 3) (readResourceList src4 "tests/testdata/client/dir1/resourcelist.xml".toList).2
  = true := by decide +kernel
example : errIs .error (readResourceList src4 "DOES_NOT_EXIST".toList).2 = true := by decide +kernel

-- test05_find_resource_list: files below tests/testdata/find, and the same over HTTP
def files5 (base : String) : List (String × Str) :=
  [(base ++ "find1/.well-known/resourcesync", wk1), (base ++ "find1/data/capabilitylist.xml", cap1),
   (base ++ "find1/data/resourcelist.xml", rl1), (base ++ "find2/resourcelist.xml", rl2), (base ++ "find3/sitemap.xml", rl3)]
/-- the list is found, and this was the last document read -/
def found (docs : List (String × Str)) (src : String) (last : String) : Bool :=
  let m := maps [src, "xxx"]
  let r := findResourceList (Sources.ofDocs (docsAt docs) m true noUw) { mapper := m }
  okIs (fun d : Dict Resource => d.length == 1) r.2 && decide (r.1.getLast? = some (.rl last.toList))
example : found (files5 "t/") "t/find1" "t/find1/data/resourcelist.xml" = true := by decide +kernel
example : found (files5 "t/") "t/find2" "t/find2/resourcelist.xml" = true := by decide +kernel
example : found (files5 "t/") "t/find3" "t/find3/sitemap.xml" = true := by decide +kernel
example : found (files5 "http://l:9/") "http://l:9/find1" "http://l:9/find1/data/resourcelist.xml" = true := by decide +kernel
example : found (files5 "http://l:9/") "http://l:9/find2" "http://l:9/find2/resourcelist.xml" = true := by decide +kernel
example : found (files5 "http://l:9/") "http://l:9/find3" "http://l:9/find3/sitemap.xml" = true := by decide +kernel
-- the server's root is find1, the source is http://localhost:9999/data
example : found [("http://l:9/.well-known/resourcesync", wk1), ("http://l:9/data/capabilitylist.xml", cap1),
    ("http://l:9/data/resourcelist.xml", rl1)] "http://l:9/data" "http://l:9/data/resourcelist.xml" = true := by decide +kernel
-- the server's root is find3, the source is http://localhost:9999/data/data1
example : found [("http://l:9/sitemap.xml", rl3)] "http://l:9/data/data1" "http://l:9/sitemap.xml" = true := by decide +kernel

-- test01, test02: no mapping, no source
def env (docs : List (String × Str)) (m : Mapper) (bodies : List (String × Bytes)) : Env :=
  { ClientExample.env [] [] [] with
    sources := Sources.ofDocs (docsAt docs) m true noUw
    serve := fun _ u => match (bodies.map (fun p => (p.1.toList, p.2))).lookup u with
      | some b => .body b none
      | none => .fail .io
    cwd := [] }
def st : St := { world := { fs := [(["tmp".toList], .dir)] } }
example : errIs .fatal (baselineOrAudit (env [] [] []) { disc := { mapper := [] } } false false st).2 = true := by decide +kernel
example : errIs .fatal (baselineOrAudit (env [] (maps ["http://example.org/bbb", "/tmp/this_does_not_exist"]) [])
    { disc := { mapper := maps ["http://example.org/bbb", "/tmp/this_does_not_exist"] } } false false st).2 = true := by decide +kernel

-- test10_baseline_or_audit
def m10 : Mapper := maps ["http://localhost:9999/dir1", "/tmp/dst_dir1"]
def env10 : Env := env [("http://localhost:9999/dir1/resourcelist.xml", rlClient)] m10
  [("http://localhost:9999/dir1/resource1", List.replicate 16 1), ("http://localhost:9999/dir1/resource2", List.replicate 26 2),
   ("http://localhost:9999/dir1/resource3", List.replicate 24 3)]
def has (p : Str) : Str → Bool
  | [] => p.isEmpty
  | c :: t => p.isPrefixOf (c :: t) || has p t
def reports (r : St × Except ClientErr Unit × List Str) (words : List String) : Bool :=
  match r.2.1, r.2.2.getLast? with
  | .ok (), some line => words.all (fun w => has w.toList line)
  | _, _ => false
example : reports (baselineReport env10 { disc := { mapper := m10 } } false true st) ["NOT IN SYNC", "to create=3"] = true := by decide +kernel
example : reports (baselineReport env10 { disc := { mapper := m10 } } false false st) [" SYNCED", "created=3"] = true := by decide +kernel

-- test18_update_resource
def c18 (dryrun ignore : Bool) : ClientCfg := { disc := { mapper := [] }, dryrun := dryrun, ignore_failures := ignore }
def env18 : Env := env [] [] [("http://l/ex", List.replicate 355 7)]
def file18 : Str := "/tmp/dir/resource2".toList
def resource (u : String) (t : Option Rat := none) (n : Option Int := none) : Resource :=
  { uri := u.toList, timestamp := t, length := n }
example : okIs (· == 0) (updateResource env18 (c18 true false) st (resource "http://example.org/dir/2") file18).2 = true := by decide +kernel
example : errIs .fatal (updateResource env18 (c18 false false) st (resource "http://l/i_do_not_exist") file18).2 = true := by
  decide +kernel
example : okIs (· == 0) (updateResource env18 (c18 false true) st (resource "http://l/i_do_not_exist") file18).2 = true := by
  decide +kernel
example : okIs (· == 1) (updateResource env18 (c18 false false) st (resource "http://l/ex" (some 10) (some 355)) file18).2 = true := by
  decide +kernel
example : okIs (· == 1) (updateResource env18 (c18 false false) st (resource "http://l/ex" (some 10) (some 111)) file18).2 = true := by
  decide +kernel

-- test19_delete_resource
def st19 : St := { world := { fs := [(["tmp".toList], .dir)] }, last_timestamp := 5 }
def st19f : St := { world := { fs := [(["tmp".toList], .dir), (["tmp".toList, "r1".toList], .file [1] 3)] }, last_timestamp := 10 }
def del (dryrun allow : Bool) (s : St) (t : Option Rat) : Nat × Rat × Bool :=
  let r := deleteResource env18 (c18 dryrun false) allow s (resource "http://example.org/1" t) "/tmp/r1".toList
  (r.2, r.1.last_timestamp, (r.1.world.fs.get ["tmp".toList, "r1".toList]).isSome)
example : del false false st19 none = (0, 5, false) := by decide +kernel
example : del false false st19 (some 10) = (0, 10, false) := by decide +kernel
example : del true true st19f (some 10) = (0, 10, true) := by decide +kernel
example : del false true st19 (some 10) = (0, 10, false) := by decide +kernel
example : del false true st19f (some 10) = (1, 10, false) := by decide +kernel

-- test20_parse_document
example : okIs (· == ("resourcelist".toList, 2)) (parseDocument (docsAt [("ex1", ex1)]) "ex1".toList) = true := by decide +kernel
example : errIs .fatal (parseDocument (docsAt []) "/does_not_exist".toList) = true := by decide +kernel
example : okIs (fun r => r.2.announced == some 1 && r.2.lines.map Prod.fst == [0]) (parseVerbose (docsAt [("ex1", ex1)]) "ex1".toList (some 1))
  = true := by decide +kernel

-- test40_write_resource_list_mappings, test41_write_resource_list_path
def fileOf (name : String) (size : Nat) (t : Rat) : FNode :=
  .file name.toList false (some { mtime := t, size := size, content := some (List.replicate size 0) })
def dir1 : FNode := .dir "dir1".toList true [fileOf "file_b" 45 1000000000, fileOf "file_a" 20 1343236426]
def dir2 : FNode := .dir "dir2".toList true [fileOf "file_x" 63 1000000000]
def disk : Disk where
  resolve p := if p = "tests/testdata/dir1".toList then some dir1
    else if p = "tests/testdata/dir2".toList then some dir2
    else if p = "tests/testdata/dir1/file_a".toList then some (fileOf "file_a" 20 1343236426)
    else if p = "tests/testdata".toList ∨ p = "tests/testdata/".toList then some (.dir "testdata".toList true [dir2, dir1])
    else none
  islink _ := false
def wenv : WriteEnv :=
  { lib := exLib, disk := disk, scan_start := "2020-01-01T00:00:00Z".toList, scan_end := "2020-01-01T00:00:01Z".toList,
    stat := { mtime := fun _ => 0, md5 := fun _ => [] }, docAt := docsAt [("ex1", ex1)] }
/-- the text printed -/
def printed (r : Output × Except WriteErr Unit) : Str :=
  match r.2, r.1.printed with
  | .ok (), some e => writeXml "UTF-8".toList (sitemapTails {}) e
  | _, _ => []
def shows (words : List Str) (t : Str) : Bool := words.all (fun w => has w t)
def c40 : WriteCfg := { mapper := maps ["http://example.org/d1=tests/testdata/dir1", "http://example.org/d2=tests/testdata/dir2"] }
example : shows ["capability=\"resourcelist\"".toList, "<url><loc>http://example.org/d1/file_a</loc>".toList,
    "<url><loc>http://example.org/d1/file_b</loc>".toList, "<url><loc>http://example.org/d2/file_x</loc>".toList]
  (printed (writeResourceList c40 wenv none none none false)) = true := by decide +kernel
def c41 : WriteCfg := { mapper := maps ["http://example.org/", "tests/testdata/"] }
def out41 : Str := printed (writeResourceList c41 wenv (some "tests/testdata/dir1".toList) none
  (some [[("rel".toList, "uri_c".toList), ("href".toList, "uri_d".toList)]]) false)
example : (shows ["capability=\"resourcelist\"".toList, "<url><loc>http://example.org/dir1/file_a</loc>".toList,
    "<url><loc>http://example.org/dir1/file_b</loc>".toList, "rel=\"uri_c\"".toList, "href=\"uri_d\"".toList] out41
  && !has "http://example.org/dir2/file_x".toList out41) = true := by decide +kernel
example : shows ["<url><loc>http://example.org/dir1/file_a</loc><lastmod>".toList, "<rs:md length=\"20\" /></url>".toList] out41 = true := by
  decide +kernel

-- test45_write_change_list
example : shows ["<rs:md capability=\"changelist\"".toList]
  (printed (writeChangeList { mapper := [] } wenv none none "ex1".toList (some "ex1".toList) false none false)) = true := by decide +kernel
example : shows ["<rs:md capability=\"changelist\"".toList,
    "<url><loc>http://example.com/res1</loc>".toList ++ "<rs:md change=\"deleted\" /></url>".toList]
  (printed (writeChangeList c41 wenv (some "tests/testdata/dir1".toList) none "ex1".toList none false none false)) = true := by decide +kernel

-- test46_write_capability_list, test47_write_source_description
example : shows ["<urlset ".toList, "<rs:md capability=\"capabilitylist\" />".toList, "<url><loc>uri_a</loc><rs:md capability=\"a\"".toList,
    "<url><loc>uri_b</loc><rs:md capability=\"b\"".toList]
  (printed (writeCapabilityList (some [("a".toList, "uri_a".toList), ("b".toList, "uri_b".toList)]) none none)) = true := by decide +kernel
example : shows ["<urlset ".toList, "<rs:md capability=\"description\" />".toList,
    "<url><loc>a</loc><rs:md capability=\"capabilitylist\" /></url>".toList, "<url><loc>b</loc><rs:md capability=\"capabilitylist\" /></url>".toList]
  (printed (writeSourceDescription wenv (some ["a".toList, "b".toList, "c".toList]) none none)) = true := by decide +kernel

-- test49_read_reference_resource_list
example : okIs (fun d : Dict Resource => d.length == 2) (readReference { mapper := [] } wenv "ex1".toList) = true := by decide +kernel

-- test50_log_status
example : logStatus true false false none 0 0 0 0 = "Status:         IN SYNC (created=0, updated=0, deleted=0)".toList := by decide +kernel
example : logStatus true false false none 123 456 789 0 = "Status:         IN SYNC (created=123, updated=456, deleted=789)".toList := by
  decide +kernel
example : logStatus true true false none 0 0 0 0 = "Status:      NO CHANGES (created=0, updated=0, deleted=0)".toList := by decide +kernel
example : logStatus true false true none 0 0 0 0 = "Status:         IN SYNC (to create=0, to update=0, to delete=0)".toList := by
  decide +kernel
example : logStatus false false true none 0 0 0 0 = "Status:     NOT IN SYNC (to create=0, to update=0, to delete=0)".toList := by
  decide +kernel
example : logStatus false false false none 0 0 0 1 = "Status:     PART SYNCED (created=0, updated=0, to delete (--delete)=1)".toList := by
  decide +kernel
example : logStatus false true false none 0 0 0 1 = "Status:    PART APPLIED (created=0, updated=0, to delete (--delete)=1)".toList := by
  decide +kernel
example : logStatus false false false none 0 0 0 0 = "Status:          SYNCED (created=0, updated=0, deleted=0)".toList := by decide +kernel

/-! test_dump.py -/

def sizes : List (String × Int) :=
  [("tests/testdata/a", 7), ("tests/testdata/b", 21), ("t/a", 9), ("t/b", 1116), ("t/c", 32), ("t/d", 13), ("t/e", 20), ("t/f", 1625),
   ("t/g", 8), ("t/h", 19), ("t/i", 5), ("t/j", 9), ("t/k", 1632), ("t/l", 6)]
def getsize (p : Str) : Option Int := (sizes.map (fun x => (x.1.toList, x.2))).lookup p
def withPath (u : String) (n : Option Int) (p : Option String) : Resource :=
  { uri := u.toList, length := n, path := p.map String.toList }
def ab : List Resource :=
  [withPath "http://ex.org/a" (some 7) (some "tests/testdata/a"), withPath "http://ex.org/b" (some 21) (some "tests/testdata/b")]
-- test00, test01: the manifest and two files
example : okIs (fun p : Package => p.members.length == 2) (writeZip "/".toList (some "tests/testdata".toList) "d.zip".toList ab) = true := by
  decide +kernel
-- test02_dump_check_files
example : okIs (fun x : Option Str × Int => x.2 == 28) (checkFiles {} true true getsize ab none 0).2 = true := by decide +kernel
-- test03_dump_multi_file_max_size, test04
def aToL : List Resource :=
  ["a", "b", "c", "d", "e", "f", "g", "h", "i", "j", "k", "l"].map (fun c => withPath ("http://ex.org/" ++ c) none (some ("t/" ++ c)))
/-- the files written and the names in each -/
def zips (cfg : DumpCfg) : List (Str × List Str) :=
  (writeDump cfg "/".toList getsize aToL "base".toList false).1.filterMap (fun e => match e with
    | .package p => some (p.file, p.members.map Prod.fst)
    | _ => none)
example : zips { max_files := 4 } = [("base00000.zip".toList, ["a".toList, "b".toList, "c".toList, "d".toList]),
    ("base00001.zip".toList, ["e".toList, "f".toList, "g".toList, "h".toList]),
    ("base00002.zip".toList, ["i".toList, "j".toList, "k".toList, "l".toList])] := by decide +kernel
example : okIs (· == 3) (writeDump { max_files := 4 } "/".toList getsize aToL "base".toList).2 = true := by decide +kernel
example : zips { max_size := 2000 } =
    [("base00000.zip".toList, ["a".toList, "b".toList, "c".toList, "d".toList, "e".toList, "f".toList]),
     ("base00001.zip".toList, ["g".toList, "h".toList, "i".toList, "j".toList, "k".toList, "l".toList])] := by decide +kernel
example : okIs (· == 2) (writeDump { max_size := 2000 } "/".toList getsize aToL "base".toList).2 = true := by decide +kernel
-- test10_no_path, test11_bad_size
example : errIs .noPath (checkFiles {} true true getsize
    [withPath "http://ex.org/a" (some 7) (some "tests/testdata/a"), withPath "http://ex.org/b" (some 21) none] none 0).2 = true := by
  decide +kernel
example : okIs (fun _ => true) (checkFiles {} true false getsize [withPath "http://ex.org/a" (some 9999) (some "tests/testdata/a")]
    none 0).2 = true := by decide +kernel
example : errIs .size (checkFiles {} true true getsize [withPath "http://ex.org/a" (some 9999) (some "tests/testdata/a")] none 0).2
  = true := by decide +kernel

/-! test_explorer.py -/

def w : ExpWorld where
  docAt _ := docsAt [("tests/testdata/explore1/caps1.xml", caps1)]
  stat _ u := if u = "tests/testdata/dir1/file_a".toList then some (20, 1343236426) else none
-- test04_explore, test05_explore_uri
def run4 : Option (List Visit × Ending) :=
  match explore w { mapper := [], sitemap_name := some "tests/testdata/explore1/caps1.xml".toList } [['q']] with
  | .ok r => some r
  | .error _ => none
example : run4.map Prod.snd = some .quit := by decide +kernel
example : (displayText w 0 { uri := "tests/testdata/explore1/caps1.xml".toList }).head? = some (.parsed "capabilitylist".toList 4) := by
  decide +kernel
-- test06_explore_show_summary
example : (summaryText { resources := [] } false none []).1.head? = some (.parsed "(unknown capability)".toList 0) := by decide +kernel
def two : Cont (List Resource) := { resources := [resource "uri:changelist", resource "uri:resourcelist"] }
example : (summaryText two false (some []) []).1.head? = some (.parsed "(unknown capability)".toList 2) := by decide +kernel
example : (summaryText two false (some []) []).1.filter (fun l => match l with | .entry _ _ => true | _ => false)
  = [.entry 1 "uri:changelist".toList, .entry 2 "uri:resourcelist".toList] := by decide +kernel
-- test07_explore_show_head, test08_head_on_file
def head (u : String) (n : Option Int) : Option HeadReport := showHead noUw (w.stat 0 u.toList) u.toList (some { content_length := n })
example : (head "tests/testdata/dir1/file_a" (some 20)).map (fun h => (h.status, h.headers.head?))
  = some ("200".toList, some ("content-length".toList, .num 20, .matchesExpected)) := by decide +kernel
example : (head "tests/testdata/dir1/file_a" (some 99)).map (fun h => h.headers.head?)
  = some (some ("content-length".toList, .num 20, .expected (.num 99))) := by decide +kernel
example : head "tests/testdata/does_not_exist" none = some { status := "404".toList } := by decide +kernel
-- test09_allowed_entries
example : allowedEntries "capabilitylistindex".toList = [] := by decide +kernel
example : allowedEntries "resourcelistindex".toList = ["resourcelist".toList] := by decide +kernel
example : allowedEntries "changelist-archive".toList = ["changelist".toList] := by decide +kernel
example : allowedEntries "description".toList = ["capabilitylist".toList] := by decide +kernel
example : (allowedEntries "capabilitylist".toList).length = 8 := by decide +kernel
example : allowedEntries "unknown".toList = [] := by decide +kernel
-- test10_expand_relative_uri
example : expandText "https://example.org/ctx".toList "abc".toList = some [.expanded "https://example.org/abc".toList] := by decide +kernel

/-! test_resource_list_builder.py -/

def mt : Mapper := maps ["http://example.org/t", "tests/testdata/dir1"]
def scan (b : Builder) (paths : Option (List String)) : Option (List Resource) :=
  match b.fromDisk exLib disk [] (paths.map (fun l => l.map String.toList)) with
  | .ok d => (iterAll d).toOption
  | .error _ => none
def fa : Resource := { uri := "http://example.org/t/file_a".toList, timestamp := strToDatetime "2012-07-25T17:13:46Z".toList, length := some 20 }
def fb : Resource := { uri := "http://example.org/t/file_b".toList, timestamp := strToDatetime "2001-09-09T01:46:40Z".toList, length := some 45 }
-- test01_simple_scan .. test04_data (the digests are those of the library)
example : scan (Builder.new mt none true false) none = some [fa, fb] := by decide +kernel
example : scan (Builder.new mt none false false) none = some [{ fa with length := none }, { fb with length := none }] := by decide +kernel
example : scan (Builder.new mt (some ["md5".toList]) true false) none
  = some [{ fa with md5 := some (exLib.md5 (List.replicate 20 0)) }, { fb with md5 := some (exLib.md5 (List.replicate 45 0)) }] := by
  decide +kernel
example : (scan (Builder.new mt none true true) none).map (fun l => l.map Resource.path)
  = some [some "tests/testdata/dir1/file_a".toList, some "tests/testdata/dir1/file_b".toList] := by decide +kernel
-- test05_from_disk_paths
def mt2 : Mapper := maps ["http://example.org/t", "tests/testdata"]
example : scan (Builder.new mt none true false) (some []) = some [] := by decide +kernel
example : (scan (Builder.new mt none true false) (some ["tests/testdata/dir1"])).map List.length = some 2 := by decide +kernel
example : (scan (Builder.new mt2 none true true) (some ["tests/testdata/dir1"])).map List.length = some 2 := by decide +kernel
example : (scan (Builder.new mt2 none true true) (some ["tests/testdata/dir1", "tests/testdata/dir2"])).map List.length = some 3 := by
  decide +kernel
example : scan (Builder.new mt2 none true true) (some ["tests/testdata/dir1/file_a"])
  = some [{ fa with uri := "http://example.org/t/dir1/file_a".toList, path := some "tests/testdata/dir1/file_a".toList }] := by
  decide +kernel
-- test06_odd_file_names: names are taken as they are
def odd : Disk where
  resolve _ := some (.dir "odd".toList true [fileOf "not_odd.txt" 1 0, fileOf "with&ampersand.txt" 1 0, fileOf "with spaces.txt" 1 0,
    fileOf "Pi\u006e\u0303a_Colada.txt" 1 0])
  islink _ := false
example : okIs (fun d => ["x:/not_odd.txt", "x:/with&ampersand.txt", "x:/with spaces.txt", "x:/Pi\u006e\u0303a_Colada.txt"].all
    (fun u => (dget d u.toList).isSome) && (dget d "x:/Pi\u00f1a_Colada.txt".toList).isNone)
  ((Builder.new (maps ["x:", "tests/testdata/odd_file_names"]) none true false).fromDisk exLib odd []
    (some ["tests/testdata/odd_file_names".toList])) = true := by decide +kernel
-- test11_compile_excludes (its patterns have escapes, which are outside the model), test12_exclude
def excluding (l : List String) : Option Builder :=
  match compileExcludes (l.map String.toList) with
  | .ok ex => some { Builder.new mt none true false with excludes := ex }
  | .error _ => none
example : ((excluding ["bbb", "a+b"]).map (fun b => b.excludes.length)) = some 2 := by decide +kernel
example : ((excluding [".*frog.*"]).map (fun b => (b.exclude "a frog".toList, b.exclude "toad".toList))) = some (true, false) := by
  decide +kernel
-- test13_from_disk_add_path: directories left out
def find : Disk where
  resolve _ := some (.dir "find".toList true [.dir "find1".toList true [fileOf "a" 1 0], .dir "find2".toList true [fileOf "resourcelist.xml" 1 0],
    .dir "find3".toList true [fileOf "sitemap.xml" 1 0, .dir "data".toList true [fileOf "res.txt" 1 0]]])
  islink _ := false
example : okIs (fun n : Nat => n == 1) (match excluding ["find1", "find3"] with
  | some b => ({ b with mapper := maps ["http://example.org/", "tests"] }.addPath exLib find [] "tests/testdata/find".toList).map List.length
  | none => .error .value) = true := by decide +kernel
-- test14_add_file
def b14 : Option Builder := (excluding [".*ro"]).map (fun b => { b with mapper := maps ["http://example.org/", "tests"] })
def st14 : Stat := { mtime := 0, size := 1, content := some [1] }
def add14 (file : String) (islink : Bool) (s : Option Stat) (symlinks : Bool) : Option (Except BuildErr (Dict Resource)) :=
  b14.map (fun b => { b with include_symlinks := symlinks }.addFile exLib [] none file.toList islink s)
example : (add14 "frog" false (some st14) false).any (okIs (fun d : Dict Resource => d.isEmpty)) = true := by decide +kernel
example : (add14 "i-dont-exist" false none false).any (fun r => match r with | .error (.map _) => true | _ => false) = true := by decide +kernel
example : (add14 "tests/i-dont-exist" false none false).any (okIs (fun d : Dict Resource => d.isEmpty)) = true := by decide +kernel
example : (add14 "tests/testdata/symlink/dir2/a_file.txt" true (some st14) false).any (okIs (fun d : Dict Resource => d.isEmpty)) = true := by
  decide +kernel
example : (add14 "tests/testdata/symlink/dir2/a_file.txt" true (some st14) true).any (okIs (fun d : Dict Resource => d.length == 1)) = true := by
  decide +kernel

/-! test_hashes.py -/

def hashed (l : List String) : Option (Option Str × Option Str × Option Str) :=
  match HashObj.new (l.map String.toList) (some (some [1, 2])) with
  | .ok o => some (o.md5 exLib, o.sha1 exLib, o.sha256 exLib)
  | .error _ => none
def dig : Option Str := some (bytesText [1, 2])
example : hashed ["md5", "sha-1"] = some (dig, dig, none) := by decide +kernel
example : hashed ["sha-256", "sha-1"] = some (none, dig, dig) := by decide +kernel
example : hashed ["sha-256"] = some (none, none, dig) := by decide +kernel
example : hashed ["md5", "xyz"] = none := by decide +kernel

/-! test_client_state.py -/

def site : Str := "https://this.site/".toList
def setTo (t : Option Rat) (f : Option Str) : Option Str :=
  match setState ratFt f site t with
  | .ok g => g
  | .error _ => none
def stateOf (f : Option Str) : Option (Option Rat) :=
  match getState ratFt f site with
  | .ok t => some t
  | .error _ => none
example : stateOf none = some none := by decide +kernel
example : stateOf (setTo (some 123) none) = some (some 123) := by decide +kernel
example : stateOf (setTo (some 456) (setTo (some 123) none)) = some (some 456) := by decide +kernel
example : stateOf (setTo none (setTo (some 456) (setTo (some 123) none))) = some none := by decide +kernel

end Resync.Conform.Clients
