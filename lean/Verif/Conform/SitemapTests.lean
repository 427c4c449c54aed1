import Verif.Conform.Docs
/-
What /repo/tests/test_sitemap.py expects of sitemap.py, checked of the model on the same texts: tests of the model, not proofs of
properties.
-/

namespace Resync.Conform.SitemapTests
open Py

/-- `Sitemap().parse_xml(fh, sitemapindex=…)` -/
def parsed (text : Str) (sitemapindex : Option Bool := none) (old : List Resource := []) :
    Except TextErr (List Resource × Dict Str × Bool × Nat) :=
  match parseText {} listAdd { resources := old } text none sitemapindex with
  | .error e => .error e
  | .ok (c, b, n) => .ok (c.resources, c.md, b, n)

/-- `parse(fh)` and then a function of the root -/
def onRoot {α : Type} (text : Str) (f : Elem → Except SmErr α) : Except TextErr α :=
  match readXml text with
  | none => .error .notXml
  | some e => match f e with
    | .error e => .error (.doc e)
    | .ok x => .ok x

def failsWith {α : Type} (e : TextErr) : Except TextErr α → Bool
  | .error e' => decide (e = e')
  | .ok _ => false

/-- what is said of the parsed document -/
def gives {α : Type} (p : α → Bool) : Except TextErr α → Bool
  | .error _ => false
  | .ok x => p x

def uris (l : List Resource) : List Str := l.map Resource.uri


/-! test_10_parse_xml -/

def text0 : Str := List.flatten ["<?xml vers".toList, "ion='1.0' ".toList, "encoding='".toList, "UTF-8'?>\n<".toList, "urlset xml".toList, "ns=\"http:/".toList, "/www.sitem".toList, "aps.org/sc".toList, "hemas/site".toList, "map/0.9\" x".toList, "mlns:rs=\"h".toList, "ttp://www.".toList, "openarchiv".toList, "es.org/rs/".toList, "terms/\"><u".toList, "rl><loc>ht".toList, "tp://e.com".toList, "/a</loc><l".toList, "astmod>201".toList, "2-03-14T18".toList, ":37:36Z</l".toList, "astmod><rs".toList, ":md hash=\"".toList, "md5:Q2hlY2".toList, "sgSW50ZWdy".toList, "aXR5IQ==\" ".toList, "length=\"12".toList, "\" /></url>".toList, "</urlset>".toList]
example : gives (fun x => decide (x.1 = [{ uri := "http://e.com/a".toList, timestamp := strToDatetime "2012-03-14T18:37:36Z".toList, length := some 12, md5 := some "Q2hlY2sgSW50ZWdyaXR5IQ==".toList }]) && !x.2.2.1 && x.2.2.2 == 1) (parsed text0) = true := by decide +kernel
def text1 : Str := List.flatten ["<?xml vers".toList, "ion='1.0' ".toList, "encoding='".toList, "UTF-8'?>\n<".toList, "urlset xml".toList, "ns=\"http:/".toList, "/www.sitem".toList, "aps.org/sc".toList, "hemas/site".toList, "map/0.9\" x".toList, "mlns:rs=\"h".toList, "ttp://www.".toList, "openarchiv".toList, "es.org/rs/".toList, "terms/\"><u".toList, "rl><loc>/t".toList, "mp/rs_test".toList, "/src/file_".toList, "a</loc><la".toList, "stmod>2012".toList, "-03-14T18:".toList, "37:36Z</la".toList, "stmod><rs:".toList, "md length=".toList, "\"12\" /></u".toList, "rl><url><l".toList, "oc>/tmp/rs".toList, "_test/src/".toList, "file_b</lo".toList, "c><lastmod".toList, ">2012-03-1".toList, "4T18:37:36".toList, "Z</lastmod".toList, "><rs:md le".toList, "ngth=\"32\" ".toList, "/></url></".toList, "urlset>".toList]
example : gives (fun x => !x.2.2.1 && x.2.2.2 == 2) (parsed text1) = true := by decide +kernel

/-! test_11_parse_xml_error -/

def text2 : Str := List.flatten ["<?xml vers".toList, "ion='1.0' ".toList, "encoding='".toList, "UTF-8'?>\n<".toList, "urlset xml".toList, "ns=\"http:/".toList, "/www.sitem".toList, "aps.org/sc".toList, "hemas/site".toList, "map/0.9\" x".toList, "mlns:rs=\"h".toList, "ttp://www.".toList, "openarchiv".toList, "es.org/rs/".toList, "terms/\"></".toList, "urlset>".toList]
example : failsWith (.doc .index) (parsed text2 (some true)) = true := by decide +kernel
def text3 : Str := List.flatten ["<?xml vers".toList, "ion='1.0' ".toList, "encoding='".toList, "UTF-8'?>\n<".toList, "urlset xml".toList, "ns=\"http:/".toList, "/www.sitem".toList, "aps.org/sc".toList, "hemas/site".toList, "map/0.9\" x".toList, "mlns:rs=\"h".toList, "ttp://www.".toList, "openarchiv".toList, "es.org/rs/".toList, "terms/\"><u".toList, "rl><loc>/m".toList, "ouse</loc>".toList, "<lastmod>2".toList, "020-12-21T".toList, "00:00:00Z<".toList, "/lastmod><".toList, "rs:md leng".toList, "th=\"12\" />".toList, "</url><url".toList, "><loc>/mou".toList, "se</loc><l".toList, "astmod>202".toList, "0-12-21T00".toList, ":00:00Z</l".toList, "astmod><rs".toList, ":md length".toList, "=\"12\" /></".toList, "url></urls".toList, "et>".toList]
example : gives (fun x => x.1.length == 2) (parsed text3) = true := by decide +kernel
def text4 : Str := List.flatten ["<?xml vers".toList, "ion='1.0' ".toList, "encoding='".toList, "UTF-8'?>\n<".toList, "urlset xml".toList, "ns=\"http:/".toList, "/www.sitem".toList, "aps.org/sc".toList, "hemas/site".toList, "map/0.9\" x".toList, "mlns:rs=\"h".toList, "ttp://www.".toList, "openarchiv".toList, "es.org/rs/".toList, "terms/\"><u".toList, "rl><loc>/f".toList, "rog</loc><".toList, "lastmod>20".toList, "20-12-21T0".toList, "0:01:00Z</".toList, "lastmod><r".toList, "s:md lengt".toList, "h=\"5\" /></".toList, "url><rs:md".toList, " capabilit".toList, "y=\"resourc".toList, "elist\"/><u".toList, "rl><loc>/t".toList, "oad</loc><".toList, "lastmod>20".toList, "20-12-21T0".toList, "0:02:00Z</".toList, "lastmod><r".toList, "s:md lengt".toList, "h=\"8\" /></".toList, "url></urls".toList, "et>".toList]
example : failsWith (.doc .parse) (parsed text4) = true := by decide +kernel
def text5 : Str := List.flatten ["<?xml vers".toList, "ion='1.0' ".toList, "encoding='".toList, "UTF-8'?>\n<".toList, "urlset xml".toList, "ns=\"http:/".toList, "/www.sitem".toList, "aps.org/sc".toList, "hemas/site".toList, "map/0.9\" x".toList, "mlns:rs=\"h".toList, "ttp://www.".toList, "openarchiv".toList, "es.org/rs/".toList, "terms/\"><u".toList, "rl><loc>/w".toList, "ills</loc>".toList, "<lastmod>2".toList, "020-12-21T".toList, "00:01:00Z<".toList, "/lastmod><".toList, "rs:md leng".toList, "th=\"5\" /><".toList, "/url><rs:l".toList, "n rel=\"up\"".toList, " href=\"htt".toList, "p://exampl".toList, "e.com/reso".toList, "urcesync_d".toList, "escription".toList, ".xml\"/></u".toList, "rlset>".toList]
example : failsWith (.doc .parse) (parsed text5) = true := by decide +kernel
def text6 : Str := List.flatten ["<?xml vers".toList, "ion='1.0' ".toList, "encoding='".toList, "UTF-8'?>\n<".toList, "urlset xml".toList, "ns=\"http:/".toList, "/www.sitem".toList, "aps.org/sc".toList, "hemas/site".toList, "map/0.9\" x".toList, "mlns:rs=\"h".toList, "ttp://www.".toList, "openarchiv".toList, "es.org/rs/".toList, "terms/\"><j".toList, "unk1>beetl".toList, "e</junk1><".toList, "rs:md capa".toList, "bility=\"re".toList, "sourcelist".toList, "\"/><junk2>".toList, "fly</junk2".toList, "><url><loc".toList, ">/whale</l".toList, "oc><lastmo".toList, "d>2020-12-".toList, "21T00:01:0".toList, "0Z</lastmo".toList, "d><rs:md l".toList, "ength=\"5\" ".toList, "/></url><j".toList, "unk3>ant</".toList, "junk3></ur".toList, "lset>".toList]
example : gives (fun x => x.1.length == 1) (parsed text6) = true := by decide +kernel

/-! test_12_parse_multi_loc -/

def text7 : Str := List.flatten ["<?xml vers".toList, "ion='1.0' ".toList, "encoding='".toList, "UTF-8'?>\n<".toList, "urlset xml".toList, "ns=\"http:/".toList, "/www.sitem".toList, "aps.org/sc".toList, "hemas/site".toList, "map/0.9\" x".toList, "mlns:rs=\"h".toList, "ttp://www.".toList, "openarchiv".toList, "es.org/rs/".toList, "terms/\"><u".toList, "rl><loc>/t".toList, "mp/rs_test".toList, "/src/file_".toList, "a</loc><lo".toList, "c>/tmp/rs_".toList, "test/src/f".toList, "ile_b</loc".toList, "><lastmod>".toList, "2012-03-14".toList, "T18:37:36Z".toList, "</lastmod>".toList, "</url></ur".toList, "lset>".toList]
example : failsWith (.doc .parse) (parsed text7) = true := by decide +kernel
def text8 : Str := List.flatten ["<?xml vers".toList, "ion='1.0' ".toList, "encoding='".toList, "UTF-8'?>\n<".toList, "urlset xml".toList, "ns=\"http:/".toList, "/www.sitem".toList, "aps.org/sc".toList, "hemas/site".toList, "map/0.9\" x".toList, "mlns:rs=\"h".toList, "ttp://www.".toList, "openarchiv".toList, "es.org/rs/".toList, "terms/\"><u".toList, "rl><loc></".toList, "loc><lastm".toList, "od>2012-03".toList, "-14T18:37:".toList, "36Z</lastm".toList, "od></url><".toList, "/urlset>".toList]
example : failsWith (.doc .parse) (parsed text8) = true := by decide +kernel
def text9 : Str := List.flatten ["<?xml vers".toList, "ion='1.0' ".toList, "encoding='".toList, "UTF-8'?>\n<".toList, "urlset xml".toList, "ns=\"http:/".toList, "/www.sitem".toList, "aps.org/sc".toList, "hemas/site".toList, "map/0.9\" x".toList, "mlns:rs=\"h".toList, "ttp://www.".toList, "openarchiv".toList, "es.org/rs/".toList, "terms/\"><u".toList, "rl><loc at".toList, "t=\"value\"/".toList, "><lastmod>".toList, "2012-03-14".toList, "T18:37:36Z".toList, "</lastmod>".toList, "</url></ur".toList, "lset>".toList]
example : failsWith (.doc .parse) (parsed text9) = true := by decide +kernel

/-! test_13_parse_multi_lastmod -/

def text10 : Str := List.flatten ["<?xml vers".toList, "ion='1.0' ".toList, "encoding='".toList, "UTF-8'?>\n<".toList, "urlset xml".toList, "ns=\"http:/".toList, "/www.sitem".toList, "aps.org/sc".toList, "hemas/site".toList, "map/0.9\" x".toList, "mlns:rs=\"h".toList, "ttp://www.".toList, "openarchiv".toList, "es.org/rs/".toList, "terms/\"><u".toList, "rl><loc>ur".toList, "i:a</loc><".toList, "lastmod>20".toList, "13-01-01</".toList, "lastmod><l".toList, "astmod>201".toList, "3-01-02</l".toList, "astmod></u".toList, "rl></urlse".toList, "t>".toList]
example : failsWith (.doc .parse) (parsed text10) = true := by decide +kernel
def text11 : Str := List.flatten ["<?xml vers".toList, "ion='1.0' ".toList, "encoding='".toList, "UTF-8'?>\n<".toList, "urlset xml".toList, "ns=\"http:/".toList, "/www.sitem".toList, "aps.org/sc".toList, "hemas/site".toList, "map/0.9\" x".toList, "mlns:rs=\"h".toList, "ttp://www.".toList, "openarchiv".toList, "es.org/rs/".toList, "terms/\"><u".toList, "rl><loc>ur".toList, "i:a</loc><".toList, "lastmod></".toList, "lastmod></".toList, "url></urls".toList, "et>".toList]
example : gives (fun x => decide (x.1.map Resource.timestamp = [none]) && x.2.2.2 == 1) (parsed text11) = true := by decide +kernel
def text12 : Str := List.flatten ["<?xml vers".toList, "ion='1.0' ".toList, "encoding='".toList, "UTF-8'?>\n<".toList, "urlset xml".toList, "ns=\"http:/".toList, "/www.sitem".toList, "aps.org/sc".toList, "hemas/site".toList, "map/0.9\" x".toList, "mlns:rs=\"h".toList, "ttp://www.".toList, "openarchiv".toList, "es.org/rs/".toList, "terms/\"><u".toList, "rl><loc>ur".toList, "i:a</loc><".toList, "lastmod at".toList, "t=\"value\"/".toList, "></url></u".toList, "rlset>".toList]
example : gives (fun x => decide (x.1.map Resource.timestamp = [none]) && x.2.2.2 == 1) (parsed text12) = true := by decide +kernel

/-! test_14_parse_multi -/

def text13 : Str := List.flatten ["<?xml vers".toList, "ion='1.0' ".toList, "encoding='".toList, "UTF-8'?>\n<".toList, "urlset xml".toList, "ns=\"http:/".toList, "/www.sitem".toList, "aps.org/sc".toList, "hemas/site".toList, "map/0.9\" x".toList, "mlns:rs=\"h".toList, "ttp://www.".toList, "openarchiv".toList, "es.org/rs/".toList, "terms/\"><r".toList, "s:md capab".toList, "ility=\"res".toList, "ourcelist\"".toList, "/><rs:md c".toList, "apability=".toList, "\"resourcel".toList, "ist\"/><url".toList, "><loc>uri:".toList, "a</loc></u".toList, "rl></urlse".toList, "t>".toList]
example : failsWith (.doc .parse) (parsed text13) = true := by decide +kernel

/-! test_15_parse_illformed -/

def text14 : Str := "not xml".toList
example : failsWith .notXml (parsed text14) = true := by decide +kernel
def text15 : Str := List.flatten ["<urlset><u".toList, "rl>somethi".toList, "ng</urlset".toList, ">".toList]
example : failsWith .notXml (parsed text15) = true := by decide +kernel

/-! test_16_parse_valid_xml_but_other -/

def text16 : Str := List.flatten ["<urlset xm".toList, "lns=\"http:".toList, "//example.".toList, "org/other_".toList, "namespace\"".toList, "> </urlset".toList, ">".toList]
example : failsWith (.doc .parse) (parsed text16) = true := by decide +kernel
def text17 : Str := List.flatten ["<other xml".toList, "ns=\"http:/".toList, "/www.sitem".toList, "aps.org/sc".toList, "hemas/site".toList, "map/0.9\"> ".toList, "</other>".toList]
example : failsWith (.doc .parse) (parsed text17) = true := by decide +kernel

/-! test_17_parse_sitemapindex_as_sitemap -/

def text18 : Str := List.flatten ["<sitemapin".toList, "dex xmlns=".toList, "\"http://ww".toList, "w.sitemaps".toList, ".org/schem".toList, "as/sitemap".toList, "/0.9\"> </s".toList, "itemapinde".toList, "x>".toList]
example : failsWith (.doc .index) (parsed text18 (some false)) = true := by decide +kernel

/-! test_18_parse_with_rs_ln_on_resource -/

def text19 : Str := List.flatten ["<?xml vers".toList, "ion='1.0' ".toList, "encoding='".toList, "UTF-8'?>\n<".toList, "urlset xml".toList, "ns=\"http:/".toList, "/www.sitem".toList, "aps.org/sc".toList, "hemas/site".toList, "map/0.9\" x".toList, "mlns:rs=\"h".toList, "ttp://www.".toList, "openarchiv".toList, "es.org/rs/".toList, "terms/\"><r".toList, "s:md capab".toList, "ility=\"res".toList, "ourcelist\"".toList, "/><url>  <".toList, "loc>http:/".toList, "/example.c".toList, "om/file_a<".toList, "/loc><last".toList, "mod>2012-0".toList, "3-14T18:37".toList, ":36Z</last".toList, "mod>  <rs:".toList, "md hash=\"m".toList, "d5:r2d2\" l".toList, "ength=\"123".toList, "45\" />  <r".toList, "s:ln rel=\"".toList, "duplicate\"".toList, " href=\"htt".toList, "p://mirror".toList, "1.example.".toList, "com/res1\" ".toList, "modified=\"".toList, "2013-01-02".toList, "\" pri=\"1\" ".toList, "/>  <rs:ln".toList, " rel=\"num2".toList, "\" href=\"ht".toList, "tp://m2.ex".toList, "ample.com/".toList, "res1\"/>  <".toList, "rs:ln rel=".toList, "\"num3\" hre".toList, "f=\"http://".toList, "m3.example".toList, ".com/res1\"".toList, "/></url><u".toList, "rl>  <loc>".toList, "http://exa".toList, "mple.com/f".toList, "ile_b</loc".toList, "><lastmod>".toList, "2012-03-14".toList, "T18:37:36Z".toList, "</lastmod>".toList, "  <rs:md l".toList, "ength=\"32\"".toList, " /></url><".toList, "/urlset>".toList]
example : gives (fun x => decide (uris x.1 = ["http://example.com/file_a".toList, "http://example.com/file_b".toList]) && !x.2.2.1 && x.2.2.2 == 2 &&
    decide ((x.1.filterMap Resource.ln).map (fun (l : List Link) => l.map (fun d => [dget d "rel".toList, dget d "href".toList, dget d "modified".toList, dget d "pri".toList])) =
      [[[some "duplicate".toList, some "http://mirror1.example.com/res1".toList, some "2013-01-02".toList, some "1".toList],
        [some "num2".toList, some "http://m2.example.com/res1".toList, none, none],
        [some "num3".toList, some "http://m3.example.com/res1".toList, none, none]]])) (parsed text19) = true := by decide +kernel

/-! test_19_parse_with_bad_rs_ln -/

def text20 : Str := List.flatten ["<?xml vers".toList, "ion='1.0' ".toList, "encoding='".toList, "UTF-8'?>\n<".toList, "urlset xml".toList, "ns=\"http:/".toList, "/www.sitem".toList, "aps.org/sc".toList, "hemas/site".toList, "map/0.9\" x".toList, "mlns:rs=\"h".toList, "ttp://www.".toList, "openarchiv".toList, "es.org/rs/".toList, "terms/\"><r".toList, "s:md capab".toList, "ility=\"res".toList, "ourcelist\"".toList, "/><url><lo".toList, "c>http://e".toList, "xample.com".toList, "/file_a</l".toList, "oc><rs:ln ".toList, "rel=\"dupli".toList, "cate\"/></u".toList, "rl></urlse".toList, "t>".toList]
example : failsWith (.doc .parse) (parsed text20) = true := by decide +kernel
def text21 : Str := List.flatten ["<?xml vers".toList, "ion='1.0' ".toList, "encoding='".toList, "UTF-8'?>\n<".toList, "urlset xml".toList, "ns=\"http:/".toList, "/www.sitem".toList, "aps.org/sc".toList, "hemas/site".toList, "map/0.9\" x".toList, "mlns:rs=\"h".toList, "ttp://www.".toList, "openarchiv".toList, "es.org/rs/".toList, "terms/\"><r".toList, "s:md capab".toList, "ility=\"res".toList, "ourcelist\"".toList, "/><url><lo".toList, "c>http://e".toList, "xample.com".toList, "/file_a</l".toList, "oc><rs:ln ".toList, "href=\"http".toList, "://example".toList, ".com/\"/></".toList, "url></urls".toList, "et>".toList]
example : failsWith (.doc .parse) (parsed text21) = true := by decide +kernel
def text22 : Str := List.flatten ["<?xml vers".toList, "ion='1.0' ".toList, "encoding='".toList, "UTF-8'?>\n<".toList, "urlset xml".toList, "ns=\"http:/".toList, "/www.sitem".toList, "aps.org/sc".toList, "hemas/site".toList, "map/0.9\" x".toList, "mlns:rs=\"h".toList, "ttp://www.".toList, "openarchiv".toList, "es.org/rs/".toList, "terms/\"><r".toList, "s:md capab".toList, "ility=\"res".toList, "ourcelist\"".toList, "/><url><lo".toList, "c>http://e".toList, "xample.com".toList, "/file_a</l".toList, "oc><rs:ln ".toList, "rel=\"dupli".toList, "cate\" href".toList, "=\"http://e".toList, "xample.com".toList, "/\" length=".toList, "\"a\"/></url".toList, "></urlset>".toList]
example : failsWith (.doc .parse) (parsed text22) = true := by decide +kernel
def text23 : Str := List.flatten ["<?xml vers".toList, "ion='1.0' ".toList, "encoding='".toList, "UTF-8'?>\n<".toList, "urlset xml".toList, "ns=\"http:/".toList, "/www.sitem".toList, "aps.org/sc".toList, "hemas/site".toList, "map/0.9\" x".toList, "mlns:rs=\"h".toList, "ttp://www.".toList, "openarchiv".toList, "es.org/rs/".toList, "terms/\"><r".toList, "s:md capab".toList, "ility=\"res".toList, "ourcelist\"".toList, "/><url><lo".toList, "c>http://e".toList, "xample.com".toList, "/file_a</l".toList, "oc><rs:ln ".toList, "rel=\"dupli".toList, "cate\" href".toList, "=\"http://e".toList, "xample.com".toList, "/\" pri=\"ff".toList, "f\"/></url>".toList, "</urlset>".toList]
example : failsWith (.doc .parse) (parsed text23) = true := by decide +kernel
def text24 : Str := List.flatten ["<?xml vers".toList, "ion='1.0' ".toList, "encoding='".toList, "UTF-8'?>\n<".toList, "urlset xml".toList, "ns=\"http:/".toList, "/www.sitem".toList, "aps.org/sc".toList, "hemas/site".toList, "map/0.9\" x".toList, "mlns:rs=\"h".toList, "ttp://www.".toList, "openarchiv".toList, "es.org/rs/".toList, "terms/\"><r".toList, "s:md capab".toList, "ility=\"res".toList, "ourcelist\"".toList, "/><url><lo".toList, "c>http://e".toList, "xample.com".toList, "/file_a</l".toList, "oc><rs:ln ".toList, "rel=\"dupli".toList, "cate\" href".toList, "=\"http://e".toList, "xample.com".toList, "/\" pri=\"0\"".toList, "/></url></".toList, "urlset>".toList]
example : failsWith (.doc .parse) (parsed text24) = true := by decide +kernel
def text25 : Str := List.flatten ["<?xml vers".toList, "ion='1.0' ".toList, "encoding='".toList, "UTF-8'?>\n<".toList, "urlset xml".toList, "ns=\"http:/".toList, "/www.sitem".toList, "aps.org/sc".toList, "hemas/site".toList, "map/0.9\" x".toList, "mlns:rs=\"h".toList, "ttp://www.".toList, "openarchiv".toList, "es.org/rs/".toList, "terms/\"><r".toList, "s:md capab".toList, "ility=\"res".toList, "ourcelist\"".toList, "/><url><lo".toList, "c>http://e".toList, "xample.com".toList, "/file_a</l".toList, "oc><rs:ln ".toList, "rel=\"dupli".toList, "cate\" href".toList, "=\"http://e".toList, "xample.com".toList, "/\" pri=\"10".toList, "00000\"/></".toList, "url></urls".toList, "et>".toList]
example : failsWith (.doc .parse) (parsed text25) = true := by decide +kernel
def text26 : Str := List.flatten ["<?xml vers".toList, "ion='1.0' ".toList, "encoding='".toList, "UTF-8'?>\n<".toList, "urlset xml".toList, "ns=\"http:/".toList, "/www.sitem".toList, "aps.org/sc".toList, "hemas/site".toList, "map/0.9\" x".toList, "mlns:rs=\"h".toList, "ttp://www.".toList, "openarchiv".toList, "es.org/rs/".toList, "terms/\"><r".toList, "s:md capab".toList, "ility=\"res".toList, "ourcelist\"".toList, "/><url><lo".toList, "c>http://e".toList, "xample.com".toList, "/file_a</l".toList, "oc><rs:ln ".toList, "rel=\"dupli".toList, "cate\" href".toList, "=\"http://e".toList, "xample.com".toList, "/\" length=".toList, "\"12345\" pr".toList, "i=\"1\" othe".toList, "r=\"whateve".toList, "r\"/></url>".toList, "</urlset>".toList]
example : gives (fun x => x.1.length == 1) (parsed text26) = true := by decide +kernel

/-! test_20_parse_sitemapindex_empty -/

def text27 : Str := List.flatten ["<sitemapin".toList, "dex xmlns=".toList, "\"http://ww".toList, "w.sitemaps".toList, ".org/schem".toList, "as/sitemap".toList, "/0.9\"> </s".toList, "itemapinde".toList, "x>".toList]
example : gives (fun x => x.1.length == 0 && x.2.2.1) (parsed text27 (some true)) = true := by decide +kernel

/-! test_21_parse_sitemapindex -/

def text28 : Str := List.flatten ["<sitemapin".toList, "dex xmlns=".toList, "\"http://ww".toList, "w.sitemaps".toList, ".org/schem".toList, "as/sitemap".toList, "/0.9\"><sit".toList, "emap><loc>".toList, "aaa</loc><".toList, "/sitemap><".toList, "sitemap><l".toList, "oc>bbb</lo".toList, "c></sitema".toList, "p></sitema".toList, "pindex>".toList]
example : gives (fun x => decide (uris x.1 = ["aaa".toList, "bbb".toList])) (parsed text28 (some true)) = true := by decide +kernel
def text29 : Str := List.flatten ["<sitemapin".toList, "dex xmlns=".toList, "\"http://ww".toList, "w.sitemaps".toList, ".org/schem".toList, "as/sitemap".toList, "/0.9\"><sit".toList, "emap><loc>".toList, "cc</loc></".toList, "sitemap><s".toList, "itemap><lo".toList, "c>dd</loc>".toList, "</sitemap>".toList, "</sitemapi".toList, "ndex>".toList]
example : gives (fun x => decide (uris x.1 = ["aaa".toList, "bbb".toList, "cc".toList, "dd".toList]) && x.2.2.1)
    (parsed text29 none [{ uri := "aaa".toList }, { uri := "bbb".toList }]) = true := by decide +kernel

/-! test_30_parse_change_list -/

def text30 : Str := List.flatten ["<?xml vers".toList, "ion='1.0' ".toList, "encoding='".toList, "UTF-8'?>\n<".toList, "urlset xml".toList, "ns=\"http:/".toList, "/www.sitem".toList, "aps.org/sc".toList, "hemas/site".toList, "map/0.9\" x".toList, "mlns:rs=\"h".toList, "ttp://www.".toList, "openarchiv".toList, "es.org/rs/".toList, "terms/\"><u".toList, "rl><loc>/t".toList, "mp/rs_test".toList, "/src/file_".toList, "a</loc><la".toList, "stmod>2012".toList, "-03-14T18:".toList, "37:36Z</la".toList, "stmod><rs:".toList, "md change=".toList, "\"updated\" ".toList, "length=\"12".toList, "\" /></url>".toList, "<url><loc>".toList, "/tmp/rs_te".toList, "st/src/fil".toList, "e_b</loc><".toList, "lastmod>20".toList, "12-03-14T1".toList, "8:37:36Z</".toList, "lastmod><r".toList, "s:md lengt".toList, "h=\"32\" /><".toList, "/url></url".toList, "set>".toList]
example : gives (fun x => decide (x.1.map (fun r => (r.uri, r.change)) = [("/tmp/rs_test/src/file_a".toList, some "updated".toList), ("/tmp/rs_test/src/file_b".toList, none)]) && x.2.2.2 == 2) (parsed text30) = true := by decide +kernel

/-! test_31_resource_from_etree -/

def text31 : Str := List.flatten ["<?xml vers".toList, "ion='1.0' ".toList, "encoding='".toList, "UTF-8'?>\n<".toList, "url xmlns=".toList, "\"http://ww".toList, "w.sitemaps".toList, ".org/schem".toList, "as/sitemap".toList, "/0.9\" xmln".toList, "s:rs=\"http".toList, "://www.ope".toList, "narchives.".toList, "org/rs/ter".toList, "ms/\"><loc>".toList, "a_name</lo".toList, "c>\n<loc>an".toList, "other_name".toList, "_oops</loc".toList, ">\n</url>".toList]
example : failsWith (.doc .parse) (onRoot text31 (resourceFromEtree {})) = true := by decide +kernel
def text32 : Str := List.flatten ["<?xml vers".toList, "ion='1.0' ".toList, "encoding='".toList, "UTF-8'?>\n<".toList, "url xmlns=".toList, "\"http://ww".toList, "w.sitemaps".toList, ".org/schem".toList, "as/sitemap".toList, "/0.9\" xmln".toList, "s:rs=\"http".toList, "://www.ope".toList, "narchives.".toList, "org/rs/ter".toList, "ms/\"><no_l".toList, "oc_element".toList, " />\n</url>".toList]
example : failsWith (.doc .parse) (onRoot text32 (resourceFromEtree {})) = true := by decide +kernel
def text33 : Str := List.flatten ["<?xml vers".toList, "ion='1.0' ".toList, "encoding='".toList, "UTF-8'?>\n<".toList, "url xmlns=".toList, "\"http://ww".toList, "w.sitemaps".toList, ".org/schem".toList, "as/sitemap".toList, "/0.9\" xmln".toList, "s:rs=\"http".toList, "://www.ope".toList, "narchives.".toList, "org/rs/ter".toList, "ms/\"><loc>".toList, "a_name</lo".toList, "c>\n<rs:md ".toList, "type=\"text".toList, "/plain\" />".toList, "\n<rs:md so".toList, "mething=\"1".toList, "23\" />\n</u".toList, "rl>".toList]
example : failsWith (.doc .parse) (onRoot text33 (resourceFromEtree {})) = true := by decide +kernel
def text34 : Str := List.flatten ["<?xml vers".toList, "ion='1.0' ".toList, "encoding='".toList, "UTF-8'?>\n<".toList, "url xmlns=".toList, "\"http://ww".toList, "w.sitemaps".toList, ".org/schem".toList, "as/sitemap".toList, "/0.9\" xmln".toList, "s:rs=\"http".toList, "://www.ope".toList, "narchives.".toList, "org/rs/ter".toList, "ms/\"><loc>".toList, "a_name</lo".toList, "c>\n<rs:md ".toList, "hash=\"UNKN".toList, "OWN-TYPE:b".toList, "lah\" />\n</".toList, "url>".toList]
example : gives (fun r => decide (r.md5 = none ∧ r.sha1 = none ∧ r.sha256 = none)) (onRoot text34 (resourceFromEtree {})) = true := by decide +kernel

/-! test_32_md_from_etree -/

def text35 : Str := List.flatten ["<?xml vers".toList, "ion='1.0' ".toList, "encoding='".toList, "UTF-8'?>\n<".toList, "rs:md xmln".toList, "s:rs=\"http".toList, "://www.ope".toList, "narchives.".toList, "org/rs/ter".toList, "ms/\" capab".toList, "ility=\"WHY".toList, "\" />\n".toList]
example : gives (fun _ => true) (onRoot text35 (mdFromEtree {})) = true := by decide +kernel
def text36 : Str := List.flatten ["<?xml vers".toList, "ion='1.0' ".toList, "encoding='".toList, "UTF-8'?>\n<".toList, "rs:md xmln".toList, "s:rs=\"http".toList, "://www.ope".toList, "narchives.".toList, "org/rs/ter".toList, "ms/\" chang".toList, "e=\"BAD\" />".toList, "\n".toList]
example : failsWith (.doc .parse) (onRoot text36 (mdFromEtree {})) = true := by decide +kernel
def text37 : Str := List.flatten ["<?xml vers".toList, "ion='1.0' ".toList, "encoding='".toList, "UTF-8'?>\n<".toList, "rs:md xmln".toList, "s:rs=\"http".toList, "://www.ope".toList, "narchives.".toList, "org/rs/ter".toList, "ms/\" lengt".toList, "h=\"short\" ".toList, "/>\n".toList]
example : failsWith (.doc .parse) (onRoot text37 (mdFromEtree {})) = true := by decide +kernel

/-! test_01_resource_str … test_04_resource_str -/

/-- `Sitemap(…).resource_as_xml(r)` -/
def written (s : Sitemap) (r : Except ResErr Resource) : Option Str :=
  match r with
  | .error _ => none
  | .ok r => match resourceAsXml s r with
    | .error _ => none
    | .ok t => some t

example : written {} (Resource.new { uri := some "a3".toList, lastmod := some "2012-01-11T01:02:03Z".toList }) = some (List.flatten ["<url><loc>".toList, "a3</loc><l".toList, "astmod>201".toList, "2-01-11T01".toList, ":02:03Z</l".toList, "astmod></u".toList, "rl>".toList]) := by decide +kernel
example : written { spec_1_0 := true } (Resource.new { uri := some "a3".toList, lastmod := some "2012-01-11T01:02:03Z".toList }) = some (List.flatten ["<url><loc>".toList, "a3</loc><l".toList, "astmod>201".toList, "2-01-11T01".toList, ":02:03Z</l".toList, "astmod></u".toList, "rl>".toList]) := by decide +kernel
example : written { add_lastmod := true } (Resource.new { uri := some "a3".toList, lastmod := some "2012-01-11T01:02:03Z".toList }) = some (List.flatten ["<url><loc>".toList, "a3</loc><l".toList, "astmod>201".toList, "2-01-11T01".toList, ":02:03Z</l".toList, "astmod></u".toList, "rl>".toList]) := by decide +kernel
example : written {} (Resource.new { uri := some "aardvark".toList, datetime := some "2012-01-11T04:05:06Z".toList }) = some (List.flatten ["<url><loc>".toList, "aardvark</".toList, "loc><rs:md".toList, " datetime=".toList, "\"2012-01-1".toList, "1T04:05:06".toList, "Z\" /></url".toList, ">".toList]) := by decide +kernel
example : written { spec_1_0 := true } (Resource.new { uri := some "aardvark".toList, datetime := some "2012-01-11T04:05:06Z".toList }) = some (List.flatten ["<url><loc>".toList, "aardvark</".toList, "loc><lastm".toList, "od>2012-01".toList, "-11T04:05:".toList, "06Z</lastm".toList, "od></url>".toList]) := by decide +kernel
example : written { add_lastmod := true } (Resource.new { uri := some "aardvark".toList, datetime := some "2012-01-11T04:05:06Z".toList }) = some (List.flatten ["<url><loc>".toList, "aardvark</".toList, "loc><lastm".toList, "od>2012-01".toList, "-11T04:05:".toList, "06Z</lastm".toList, "od><rs:md ".toList, "datetime=\"".toList, "2012-01-11".toList, "T04:05:06Z".toList, "\" /></url>".toList]) := by decide +kernel
example : written {} (Resource.new { uri := some "3b".toList, timestamp := some (12341 / 10), length := some 9999, md5 := some "ab54de".toList }) = some (List.flatten ["<url><loc>".toList, "3b</loc><l".toList, "astmod>197".toList, "0-01-01T00".toList, ":20:34.100".toList, "000Z</last".toList, "mod><rs:md".toList, " hash=\"md5".toList, ":ab54de\" l".toList, "ength=\"999".toList, "9\" /></url".toList, ">".toList]) := by decide +kernel
example : written {} (Resource.new { uri := some "3c".toList, datetime := some "2013-01-02T13:00:00Z".toList }) = some (List.flatten ["<url><loc>".toList, "3c</loc><r".toList, "s:md datet".toList, "ime=\"2013-".toList, "01-02T13:0".toList, "0:00Z\" /><".toList, "/url>".toList]) := by decide +kernel
example : written {} (Resource.new { uri := some "03hashes".toList, timestamp := some (12341 / 10), md5 := some "aaa".toList, sha1 := some "bbb".toList }) = some (List.flatten ["<url><loc>".toList, "03hashes</".toList, "loc><lastm".toList, "od>1970-01".toList, "-01T00:20:".toList, "34.100000Z".toList, "</lastmod>".toList, "<rs:md has".toList, "h=\"md5:aaa".toList, " sha-1:bbb".toList, "\" /></url>".toList]) := by decide +kernel
example : written {} (Resource.new { uri := some "03hashes".toList, timestamp := some (12341 / 10), md5 := some "aaa".toList, sha1 := some "bbb".toList, sha256 := some "ccc".toList }) = some (List.flatten ["<url><loc>".toList, "03hashes</".toList, "loc><lastm".toList, "od>1970-01".toList, "-01T00:20:".toList, "34.100000Z".toList, "</lastmod>".toList, "<rs:md has".toList, "h=\"md5:aaa".toList, " sha-1:bbb".toList, " sha-256:c".toList, "cc\" /></ur".toList, "l>".toList]) := by decide +kernel
example : written {} (Resource.new { uri := some "03hashes".toList, timestamp := some (12341 / 10), md5 := some "aaa".toList, sha1 := none, sha256 := some "ccc".toList }) = some (List.flatten ["<url><loc>".toList, "03hashes</".toList, "loc><lastm".toList, "od>1970-01".toList, "-01T00:20:".toList, "34.100000Z".toList, "</lastmod>".toList, "<rs:md has".toList, "h=\"md5:aaa".toList, " sha-256:c".toList, "cc\" /></ur".toList, "l>".toList]) := by decide +kernel
example : written {} (Resource.new { uri := some "4a".toList, lastmod := some "2013-01-02".toList, length := some 9999, md5 := some "ab54de".toList, ln := some [[("rel".toList, "duplicate".toList), ("pri".toList, "1".toList), ("href".toList, "http://mirror1.example.com/res1".toList), ("modified".toList, "2013-01-02T18:00:00Z".toList)]] }) = some (List.flatten ["<url><loc>".toList, "4a</loc><l".toList, "astmod>201".toList, "3-01-02T00".toList, ":00:00Z</l".toList, "astmod><rs".toList, ":md hash=\"".toList, "md5:ab54de".toList, "\" length=\"".toList, "9999\" /><r".toList, "s:ln href=".toList, "\"http://mi".toList, "rror1.exam".toList, "ple.com/re".toList, "s1\" modifi".toList, "ed=\"2013-0".toList, "1-02T18:00".toList, ":00Z\" pri=".toList, "\"1\" rel=\"d".toList, "uplicate\" ".toList, "/></url>".toList]) := by decide +kernel
example : written {} (Resource.new { uri := some "4a".toList, lastmod := some "2013-01-02".toList, length := some 9999, md5 := some "ab54de".toList, ln := some [[("rel".toList, "duplicate".toList), ("pri".toList, "1".toList), ("href".toList, "http://mirror1.example.com/res1".toList), ("modified".toList, "2013-01-02T18:00:00Z".toList)], [("rel".toList, "num2".toList)], [("rel".toList, "num3".toList)]] }) = some (List.flatten ["<url><loc>".toList, "4a</loc><l".toList, "astmod>201".toList, "3-01-02T00".toList, ":00:00Z</l".toList, "astmod><rs".toList, ":md hash=\"".toList, "md5:ab54de".toList, "\" length=\"".toList, "9999\" /><r".toList, "s:ln href=".toList, "\"http://mi".toList, "rror1.exam".toList, "ple.com/re".toList, "s1\" modifi".toList, "ed=\"2013-0".toList, "1-02T18:00".toList, ":00Z\" pri=".toList, "\"1\" rel=\"d".toList, "uplicate\" ".toList, "/><rs:ln r".toList, "el=\"num2\" ".toList, "/><rs:ln r".toList, "el=\"num3\" ".toList, "/></url>".toList]) := by decide +kernel

/-! test_07_print, test_09_print_from_iter -/

def threeRes : Except ResErr (List Resource) := do
  return [← Resource.new { uri := some "a".toList, lastmod := some "2001-01-01".toList, length := some 1234 },
    ← Resource.new { uri := some "b".toList, lastmod := some "2002-02-02".toList, length := some 56789 },
    ← Resource.new { uri := some "c".toList, lastmod := some "2003-03-03".toList, length := some 0 }]

def writtenDoc (md : Dict Str) (rs : Except ResErr (List Resource)) : Option Str :=
  match rs with
  | .error _ => none
  | .ok rs => match documentText {} "UTF-8".toList md [] rs false with
    | .error _ => none
    | .ok t => some t

example : writtenDoc [("capability".toList, "resourcelist".toList)] threeRes = some (List.flatten ["<?xml vers".toList, "ion='1.0' ".toList, "encoding='".toList, "UTF-8'?>\n<".toList, "urlset xml".toList, "ns=\"http:/".toList, "/www.sitem".toList, "aps.org/sc".toList, "hemas/site".toList, "map/0.9\" x".toList, "mlns:rs=\"h".toList, "ttp://www.".toList, "openarchiv".toList, "es.org/rs/".toList, "terms/\"><r".toList, "s:md capab".toList, "ility=\"res".toList, "ourcelist\"".toList, " /><url><l".toList, "oc>a</loc>".toList, "<lastmod>2".toList, "001-01-01T".toList, "00:00:00Z<".toList, "/lastmod><".toList, "rs:md leng".toList, "th=\"1234\" ".toList, "/></url><u".toList, "rl><loc>b<".toList, "/loc><last".toList, "mod>2002-0".toList, "2-02T00:00".toList, ":00Z</last".toList, "mod><rs:md".toList, " length=\"5".toList, "6789\" /></".toList, "url><url><".toList, "loc>c</loc".toList, "><lastmod>".toList, "2003-03-03".toList, "T00:00:00Z".toList, "</lastmod>".toList, "<rs:md len".toList, "gth=\"0\" />".toList, "</url></ur".toList, "lset>".toList]) := by decide +kernel
example : writtenDoc [] (threeRes.map (List.take 2)) = some (List.flatten ["<?xml vers".toList, "ion='1.0' ".toList, "encoding='".toList, "UTF-8'?>\n<".toList, "urlset xml".toList, "ns=\"http:/".toList, "/www.sitem".toList, "aps.org/sc".toList, "hemas/site".toList, "map/0.9\" x".toList, "mlns:rs=\"h".toList, "ttp://www.".toList, "openarchiv".toList, "es.org/rs/".toList, "terms/\"><u".toList, "rl><loc>a<".toList, "/loc><last".toList, "mod>2001-0".toList, "1-01T00:00".toList, ":00Z</last".toList, "mod><rs:md".toList, " length=\"1".toList, "234\" /></u".toList, "rl><url><l".toList, "oc>b</loc>".toList, "<lastmod>2".toList, "002-02-02T".toList, "00:00:00Z<".toList, "/lastmod><".toList, "rs:md leng".toList, "th=\"56789\"".toList, " /></url><".toList, "/urlset>".toList]) := by decide +kernel

end Resync.Conform.SitemapTests
