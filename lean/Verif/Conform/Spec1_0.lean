import Verif.Conform.Docs
/-
The documents that /repo/tests/test_examples_from_spec_v1_0.py builds and the examples of the specification that it compares them
with, checked of the model (documents that are no other than those of version 1.1 are left out): tests of the model, not proofs of properties.
-/

namespace Resync.Conform.Spec1_0
open Py

def doc_archives_ex_3_1 : Str := List.flatten [
  "<?xml vers".toList, "ion=\"1.0\" ".toList, "encoding=\"".toList, "UTF-8\"?>\n<".toList, "urlset xml".toList, "ns=\"http:/".toList, "/www.sitem".toList,
  "aps.org/sc".toList, "hemas/site".toList, "map/0.9\"\n ".toList, "       xml".toList, "ns:rs=\"htt".toList, "p://www.op".toList, "enarchives".toList,
  ".org/rs/te".toList, "rms/\">\n  <".toList, "rs:ln rel=".toList, "\"up\"\n     ".toList, "    href=\"".toList, "http://exa".toList, "mple.com/d".toList,
  "ataset1/ca".toList, "pabilityli".toList, "st.xml\"/>\n".toList, "  <rs:md c".toList, "apability=".toList, "\"resourcel".toList, "ist-archiv".toList,
  "e\"/>\n  <ur".toList, "l>\n      <".toList, "loc>http:/".toList, "/example.c".toList, "om/resourc".toList, "elist1.xml".toList, "</loc>\n   ".toList,
  "   <rs:md ".toList, "at=\"2012-1".toList, "1-03T09:00".toList, ":00Z\"/>\n  ".toList, "</url>\n  <".toList, "url>\n     ".toList, " <loc>http".toList,
  "://example".toList, ".com/resou".toList, "rcelist2.x".toList, "ml</loc>\n ".toList, "     <rs:m".toList, "d at=\"2012".toList, "-12-03T09:".toList,
  "00:00Z\"/>\n".toList, "  </url>\n ".toList, " <url>\n   ".toList, "   <loc>ht".toList, "tp://examp".toList, "le.com/res".toList, "ourcelist3".toList,
  ".xml</loc>".toList, "\n      <rs".toList, ":md at=\"20".toList, "13-01-03T0".toList, "9:00:00Z\"/".toList, ">\n  </url>".toList, "\n</urlset>".toList,
  "\n".toList]
def doc_archives_ex_3_2 : Str := List.flatten [
  "<?xml vers".toList, "ion=\"1.0\" ".toList, "encoding=\"".toList, "UTF-8\"?>\n<".toList, "sitemapind".toList, "ex xmlns=\"".toList, "http://www".toList,
  ".sitemaps.".toList, "org/schema".toList, "s/sitemap/".toList, "0.9\"\n     ".toList, "   xmlns:r".toList, "s=\"http://".toList, "www.openar".toList,
  "chives.org".toList, "/rs/terms/".toList, "\">\n  <rs:l".toList, "n rel=\"up\"".toList, "\n         ".toList, "href=\"http".toList, "://example".toList,
  ".com/datas".toList, "et1/capabi".toList, "litylist.x".toList, "ml\"/>\n  <r".toList, "s:md capab".toList, "ility=\"res".toList, "ourcelist-".toList,
  "archive\"/>".toList, "\n  <sitema".toList, "p>\n      <".toList, "loc>http:/".toList, "/example.c".toList, "om/resourc".toList, "elistarchi".toList,
  "ve00001.xm".toList, "l</loc>\n  ".toList, "</sitemap>".toList, "\n  <sitema".toList, "p>\n      <".toList, "loc>http:/".toList, "/example.c".toList,
  "om/resourc".toList, "elistarchi".toList, "ve00002.xm".toList, "l</loc>\n  ".toList, "</sitemap>".toList, "\n</sitemap".toList, "index>\n".toList]
def doc_archives_ex_4_1 : Str := List.flatten [
  "<?xml vers".toList, "ion=\"1.0\" ".toList, "encoding=\"".toList, "UTF-8\"?>\n<".toList, "urlset xml".toList, "ns=\"http:/".toList, "/www.sitem".toList,
  "aps.org/sc".toList, "hemas/site".toList, "map/0.9\"\n ".toList, "       xml".toList, "ns:rs=\"htt".toList, "p://www.op".toList, "enarchives".toList,
  ".org/rs/te".toList, "rms/\">\n  <".toList, "rs:ln rel=".toList, "\"up\"\n     ".toList, "    href=\"".toList, "http://exa".toList, "mple.com/d".toList,
  "ataset1/ca".toList, "pabilityli".toList, "st.xml\"/>\n".toList, "  <rs:md c".toList, "apability=".toList, "\"resourced".toList, "ump-archiv".toList,
  "e\"/>\n  <ur".toList, "l>\n      <".toList, "loc>http:/".toList, "/example.c".toList, "om/resourc".toList, "edump1.xml".toList, "</loc>\n   ".toList,
  "   <lastmo".toList, "d>2012-11-".toList, "03T09:05:4".toList, "2Z</lastmo".toList, "d>\n      <".toList, "rs:md at=\"".toList, "2012-11-03".toList,
  "T09:00:00Z".toList, "\"\n        ".toList, "     compl".toList, "eted=\"2012".toList, "-11-03T09:".toList, "05:01Z\"/>\n".toList, "  </url>\n ".toList,
  " <url>\n   ".toList, "   <loc>ht".toList, "tp://examp".toList, "le.com/res".toList, "ourcedump2".toList, ".xml</loc>".toList, "\n      <la".toList,
  "stmod>2012".toList, "-12-03T09:".toList, "06:12Z</la".toList, "stmod>\n   ".toList, "   <rs:md ".toList, "at=\"2012-1".toList, "2-03T09:00".toList,
  ":00Z\"\n    ".toList, "         c".toList, "ompleted=\"".toList, "2012-12-03".toList, "T09:05:17Z".toList, "\"/>\n  </ur".toList, "l>\n</urlse".toList,
  "t>\n".toList]
def doc_archives_ex_5_1 : Str := List.flatten [
  "<?xml vers".toList, "ion=\"1.0\" ".toList, "encoding=\"".toList, "UTF-8\"?>\n<".toList, "urlset xml".toList, "ns=\"http:/".toList, "/www.sitem".toList,
  "aps.org/sc".toList, "hemas/site".toList, "map/0.9\"\n ".toList, "       xml".toList, "ns:rs=\"htt".toList, "p://www.op".toList, "enarchives".toList,
  ".org/rs/te".toList, "rms/\">\n  <".toList, "rs:ln rel=".toList, "\"up\"\n     ".toList, "    href=\"".toList, "http://exa".toList, "mple.com/d".toList,
  "ataset1/ca".toList, "pabilityli".toList, "st.xml\"/>\n".toList, "  <rs:md c".toList, "apability=".toList, "\"changelis".toList, "t-archive\"".toList,
  "/>\n  <url>".toList, "\n      <lo".toList, "c>http://e".toList, "xample.com".toList, "/changelis".toList, "t1.xml</lo".toList, "c>\n      <".toList,
  "rs:md from".toList, "=\"2013-01-".toList, "01T09:00:0".toList, "0Z\"\n      ".toList, "       unt".toList, "il=\"2013-0".toList, "1-02T09:00".toList,
  ":00Z\"/>\n  ".toList, "</url>\n  <".toList, "url>\n     ".toList, " <loc>http".toList, "://example".toList, ".com/chang".toList, "elist2.xml".toList,
  "</loc>\n   ".toList, "   <rs:md ".toList, "from=\"2013".toList, "-01-02T09:".toList, "00:00Z\"\n  ".toList, "          ".toList, " until=\"20".toList,
  "13-01-03T0".toList, "9:00:00Z\"/".toList, ">\n  </url>".toList, "\n  <url>\n ".toList, "     <loc>".toList, "http://exa".toList, "mple.com/c".toList,
  "hangelist3".toList, ".xml</loc>".toList, "\n      <rs".toList, ":md from=\"".toList, "2013-01-03".toList, "T09:00:00Z".toList, "\"\n        ".toList,
  "     until".toList, "=\"2013-01-".toList, "04T09:00:0".toList, "0Z\"/>\n  </".toList, "url>\n</url".toList, "set>\n".toList]
def doc_archives_ex_6_1 : Str := List.flatten [
  "<?xml vers".toList, "ion=\"1.0\" ".toList, "encoding=\"".toList, "UTF-8\"?>\n<".toList, "urlset xml".toList, "ns=\"http:/".toList, "/www.sitem".toList,
  "aps.org/sc".toList, "hemas/site".toList, "map/0.9\"\n ".toList, "       xml".toList, "ns:rs=\"htt".toList, "p://www.op".toList, "enarchives".toList,
  ".org/rs/te".toList, "rms/\">\n  <".toList, "rs:ln rel=".toList, "\"up\"\n     ".toList, "    href=\"".toList, "http://exa".toList, "mple.com/d".toList,
  "ataset1/ca".toList, "pabilityli".toList, "st.xml\"/>\n".toList, "  <rs:md c".toList, "apability=".toList, "\"changedum".toList, "p-archive\"".toList,
  "/>\n  <url>".toList, "\n      <lo".toList, "c>http://e".toList, "xample.com".toList, "/changedum".toList, "p-w1.xml</".toList, "loc>\n     ".toList,
  " <lastmod>".toList, "2012-12-20".toList, "T09:02:43Z".toList, "</lastmod>".toList, "\n      <rs".toList, ":md from=\"".toList, "2012-01-13".toList,
  "T09:00:00Z".toList, "\"\n        ".toList, "     until".toList, "=\"2013-01-".toList, "20T09:00:0".toList, "0Z\"/>\n  </".toList, "url>\n  <ur".toList,
  "l>\n      <".toList, "loc>http:/".toList, "/example.c".toList, "om/changed".toList, "ump-w2.xml".toList, "</loc>\n   ".toList, "   <lastmo".toList,
  "d>2012-12-".toList, "27T09:01:5".toList, "7Z</lastmo".toList, "d>\n      <".toList, "rs:md from".toList, "=\"2012-01-".toList, "20T09:00:0".toList,
  "0Z\"\n      ".toList, "       unt".toList, "il=\"2013-0".toList, "1-27T09:00".toList, ":00Z\"/>\n  ".toList, "</url>\n</u".toList, "rlset>\n".toList]
def doc_resourcesync_ex_19 : Str := List.flatten [
  "<?xml vers".toList, "ion=\"1.0\" ".toList, "encoding=\"".toList, "UTF-8\"?>\n<".toList, "urlset xml".toList, "ns=\"http:/".toList, "/www.sitem".toList,
  "aps.org/sc".toList, "hemas/site".toList, "map/0.9\"\n ".toList, "       xml".toList, "ns:rs=\"htt".toList, "p://www.op".toList, "enarchives".toList,
  ".org/rs/te".toList, "rms/\">\n  <".toList, "rs:ln rel=".toList, "\"up\"\n     ".toList, "    href=\"".toList, "http://exa".toList, "mple.com/d".toList,
  "ataset1/ca".toList, "pabilityli".toList, "st.xml\"/>\n".toList, "  <rs:md c".toList, "apability=".toList, "\"changelis".toList, "t\"\n       ".toList,
  "  from=\"20".toList, "13-01-03T0".toList, "0:00:00Z\"/".toList, ">\n  <url>\n".toList, "      <loc".toList, ">http://ex".toList, "ample.com/".toList,
  "res1.html<".toList, "/loc>\n    ".toList, "  <lastmod".toList, ">2013-01-0".toList, "3T11:00:00".toList, "Z</lastmod".toList, ">\n      <r".toList,
  "s:md chang".toList, "e=\"created".toList, "\"/>\n  </ur".toList, "l>\n  <url>".toList, "\n      <lo".toList, "c>http://e".toList, "xample.com".toList,
  "/res2.pdf<".toList, "/loc>\n    ".toList, "  <lastmod".toList, ">2013-01-0".toList, "3T13:00:00".toList, "Z</lastmod".toList, ">\n      <r".toList,
  "s:md chang".toList, "e=\"updated".toList, "\"/>\n  </ur".toList, "l>\n  <url>".toList, "\n      <lo".toList, "c>http://e".toList, "xample.com".toList,
  "/res3.tiff".toList, "</loc>\n   ".toList, "   <lastmo".toList, "d>2013-01-".toList, "03T18:00:0".toList, "0Z</lastmo".toList, "d>\n      <".toList,
  "rs:md chan".toList, "ge=\"delete".toList, "d\"/>\n  </u".toList, "rl>\n  <url".toList, ">\n      <l".toList, "oc>http://".toList, "example.co".toList,
  "m/res2.pdf".toList, "</loc>\n   ".toList, "   <lastmo".toList, "d>2013-01-".toList, "03T21:00:0".toList, "0Z</lastmo".toList, "d>\n      <".toList,
  "rs:md chan".toList, "ge=\"update".toList, "d\"/>\n  </u".toList, "rl>\n</urls".toList, "et>\n".toList]
def doc_resourcesync_ex_20 : Str := List.flatten [
  "<?xml vers".toList, "ion=\"1.0\" ".toList, "encoding=\"".toList, "UTF-8\"?>\n<".toList, "sitemapind".toList, "ex xmlns=\"".toList, "http://www".toList,
  ".sitemaps.".toList, "org/schema".toList, "s/sitemap/".toList, "0.9\"\n     ".toList, "   xmlns:r".toList, "s=\"http://".toList, "www.openar".toList,
  "chives.org".toList, "/rs/terms/".toList, "\">\n  <rs:l".toList, "n rel=\"up\"".toList, "\n         ".toList, "href=\"http".toList, "://example".toList,
  ".com/datas".toList, "et1/capabi".toList, "litylist.x".toList, "ml\"/>\n  <r".toList, "s:md capab".toList, "ility=\"cha".toList, "ngelist\"\n ".toList,
  "        fr".toList, "om=\"2013-0".toList, "1-01T00:00".toList, ":00Z\"/>\n  ".toList, "<sitemap>\n".toList, "      <loc".toList, ">http://ex".toList,
  "ample.com/".toList, "20130101-c".toList, "hangelist.".toList, "xml</loc>\n".toList, "      <rs:".toList, "md from=\"2".toList, "013-01-01T".toList,
  "00:00:00Z\"".toList, " \n        ".toList, "     until".toList, "=\"2013-01-".toList, "02T00:00:0".toList, "0Z\"/>\n  </".toList, "sitemap>\n ".toList,
  " <sitemap>".toList, "\n      <lo".toList, "c>http://e".toList, "xample.com".toList, "/20130102-".toList, "changelist".toList, ".xml</loc>".toList,
  "\n      <rs".toList, ":md from=\"".toList, "2013-01-02".toList, "T00:00:00Z".toList, "\" \n       ".toList, "      unti".toList, "l=\"2013-01".toList,
  "-03T00:00:".toList, "00Z\"/>\n  <".toList, "/sitemap>\n".toList, "  <sitemap".toList, ">\n      <l".toList, "oc>http://".toList, "example.co".toList,
  "m/20130103".toList, "-changelis".toList, "t.xml</loc".toList, ">\n      <r".toList, "s:md from=".toList, "\"2013-01-0".toList, "3T00:00:00".toList,
  "Z\"/>\n  </s".toList, "itemap>\n</".toList, "sitemapind".toList, "ex>\n".toList]
def doc_resourcesync_ex_21 : Str := List.flatten [
  "<?xml vers".toList, "ion=\"1.0\" ".toList, "encoding=\"".toList, "UTF-8\"?>\n<".toList, "urlset xml".toList, "ns=\"http:/".toList, "/www.sitem".toList,
  "aps.org/sc".toList, "hemas/site".toList, "map/0.9\"\n ".toList, "       xml".toList, "ns:rs=\"htt".toList, "p://www.op".toList, "enarchives".toList,
  ".org/rs/te".toList, "rms/\">\n  <".toList, "rs:ln rel=".toList, "\"up\"\n     ".toList, "    href=\"".toList, "http://exa".toList, "mple.com/d".toList,
  "ataset1/ca".toList, "pabilityli".toList, "st.xml\"/>\n".toList, "  <rs:ln r".toList, "el=\"index\"".toList, "\n         ".toList, "href=\"http".toList,
  "://example".toList, ".com/datas".toList, "et1/change".toList, "list.xml\"/".toList, ">\n  <rs:md".toList, " capabilit".toList, "y=\"changel".toList,
  "ist\"\n     ".toList, "    from=\"".toList, "2013-01-02".toList, "T00:00:00Z".toList, "\"\n        ".toList, " until=\"20".toList, "13-01-03T0".toList,
  "0:00:00Z\"/".toList, ">\n  <url>\n".toList, "      <loc".toList, ">http://ex".toList, "ample.com/".toList, "res7.html<".toList, "/loc>\n    ".toList,
  "  <lastmod".toList, ">2013-01-0".toList, "2T12:00:00".toList, "Z</lastmod".toList, ">\n      <r".toList, "s:md chang".toList, "e=\"created".toList,
  "\"/>\n  </ur".toList, "l>\n  <url>".toList, "\n      <lo".toList, "c>http://e".toList, "xample.com".toList, "/res9.pdf<".toList, "/loc>\n    ".toList,
  "  <lastmod".toList, ">2013-01-0".toList, "2T13:00:00".toList, "Z</lastmod".toList, ">\n      <r".toList, "s:md chang".toList, "e=\"updated".toList,
  "\"/>\n  </ur".toList, "l>\n  <url>".toList, "\n      <lo".toList, "c>http://e".toList, "xample.com".toList, "/res5.tiff".toList, "</loc>\n   ".toList,
  "   <lastmo".toList, "d>2013-01-".toList, "02T19:00:0".toList, "0Z</lastmo".toList, "d>\n      <".toList, "rs:md chan".toList, "ge=\"delete".toList,
  "d\"/>\n  </u".toList, "rl>\n  <url".toList, ">\n      <l".toList, "oc>http://".toList, "example.co".toList, "m/res7.htm".toList, "l</loc>\n  ".toList,
  "    <lastm".toList, "od>2013-01".toList, "-02T20:00:".toList, "00Z</lastm".toList, "od>\n      ".toList, "<rs:md cha".toList, "nge=\"updat".toList,
  "ed\"/>\n  </".toList, "url>\n</url".toList, "set>\n".toList]
def doc_resourcesync_ex_22 : Str := List.flatten [
  "<?xml vers".toList, "ion=\"1.0\" ".toList, "encoding=\"".toList, "UTF-8\"?>\n<".toList, "urlset xml".toList, "ns=\"http:/".toList, "/www.sitem".toList,
  "aps.org/sc".toList, "hemas/site".toList, "map/0.9\"\n ".toList, "       xml".toList, "ns:rs=\"htt".toList, "p://www.op".toList, "enarchives".toList,
  ".org/rs/te".toList, "rms/\">\n  <".toList, "rs:ln rel=".toList, "\"up\"\n     ".toList, "    href=\"".toList, "http://exa".toList, "mple.com/d".toList,
  "ataset1/ca".toList, "pabilityli".toList, "st.xml\"/>\n".toList, "  <rs:md c".toList, "apability=".toList, "\"changedum".toList, "p\"\n       ".toList,
  "  from=\"20".toList, "13-01-01T0".toList, "0:00:00Z\"/".toList, ">\n  <url>\n".toList, "      <loc".toList, ">http://ex".toList, "ample.com/".toList,
  "20130101-c".toList, "hangedump.".toList, "zip</loc>\n".toList, "      <las".toList, "tmod>2013-".toList, "01-01T23:5".toList, "9:59Z</las".toList,
  "tmod>\n    ".toList, "  <rs:md t".toList, "ype=\"appli".toList, "cation/zip".toList, "\" \n       ".toList, "      leng".toList, "th=\"3109\"\n".toList,
  "          ".toList, "   from=\"2".toList, "013-01-01T".toList, "00:00:00Z\"".toList, "\n         ".toList, "    until=".toList, "\"2013-01-0".toList,
  "2T00:00:00".toList, "Z\"/>      ".toList, "     \n    ".toList, "  <rs:ln r".toList, "el=\"conten".toList, "ts\"\n      ".toList, "       hre".toList,
  "f=\"http://".toList, "example.co".toList, "m/20130101".toList, "-changedum".toList, "p-manifest".toList, ".xml\"\n    ".toList, "         t".toList,
  "ype=\"appli".toList, "cation/xml".toList, "\"/>\n  </ur".toList, "l>\n  <url>".toList, "\n      <lo".toList, "c>http://e".toList, "xample.com".toList,
  "/20130102-".toList, "changedump".toList, ".zip</loc>".toList, "\n      <la".toList, "stmod>2013".toList, "-01-02T23:".toList, "59:59Z</la".toList,
  "stmod>\n   ".toList, "   <rs:md ".toList, "type=\"appl".toList, "ication/zi".toList, "p\"\n       ".toList, "      leng".toList, "th=\"6629\"\n".toList,
  "          ".toList, "   from=\"2".toList, "013-01-02T".toList, "00:00:00Z\"".toList, "\n         ".toList, "    until=".toList, "\"2013-01-0".toList,
  "3T00:00:00".toList, "Z\"/>\n     ".toList, " <rs:ln re".toList, "l=\"content".toList, "s\"\n       ".toList, "      href".toList, "=\"http://e".toList,
  "xample.com".toList, "/20130102-".toList, "changedump".toList, "-manifest.".toList, "xml\"\n     ".toList, "        ty".toList, "pe=\"applic".toList,
  "ation/xml\"".toList, "/>\n  </url".toList, ">\n  <url>\n".toList, "      <loc".toList, ">http://ex".toList, "ample.com/".toList, "20130103-c".toList,
  "hangedump.".toList, "zip</loc>\n".toList, "      <las".toList, "tmod>2013-".toList, "01-03T23:5".toList, "9:59Z</las".toList, "tmod>\n    ".toList,
  "  <rs:md t".toList, "ype=\"appli".toList, "cation/zip".toList, "\"\n        ".toList, "     lengt".toList, "h=\"8124\"\n ".toList, "          ".toList,
  "  from=\"20".toList, "13-01-03T0".toList, "0:00:00Z\"\n".toList, "          ".toList, "   until=\"".toList, "2013-01-04".toList, "T00:00:00Z".toList,
  "\"/>\n      ".toList, "<rs:ln rel".toList, "=\"contents".toList, "\"\n        ".toList, "     href=".toList, "\"http://ex".toList, "ample.com/".toList,
  "20130103-c".toList, "hangedump-".toList, "manifest.x".toList, "ml\"\n      ".toList, "       typ".toList, "e=\"applica".toList, "tion/xml\"/".toList,
  ">\n  </url>".toList, "\n</urlset>".toList, "\n".toList]
def doc_resourcesync_ex_23 : Str := List.flatten [
  "<?xml vers".toList, "ion=\"1.0\" ".toList, "encoding=\"".toList, "UTF-8\"?>\n<".toList, "urlset xml".toList, "ns=\"http:/".toList, "/www.sitem".toList,
  "aps.org/sc".toList, "hemas/site".toList, "map/0.9\"\n ".toList, "       xml".toList, "ns:rs=\"htt".toList, "p://www.op".toList, "enarchives".toList,
  ".org/rs/te".toList, "rms/\">\n  <".toList, "rs:ln rel=".toList, "\"up\"\n     ".toList, "    href=\"".toList, "http://exa".toList, "mple.com/d".toList,
  "ataset1/ca".toList, "pabilityli".toList, "st.xml\"/>\n".toList, "  <rs:md c".toList, "apability=".toList, "\"changedum".toList, "p-manifest".toList,
  "\"\n        ".toList, " from=\"201".toList, "3-01-02T00".toList, ":00:00Z\"\n ".toList, "        un".toList, "til=\"2013-".toList, "01-03T00:0".toList,
  "0:00Z\"/>\n ".toList, " <url>\n   ".toList, "   <loc>ht".toList, "tp://examp".toList, "le.com/res".toList, "7.html</lo".toList, "c>\n      <".toList,
  "lastmod>20".toList, "13-01-02T1".toList, "2:00:00Z</".toList, "lastmod>\n ".toList, "     <rs:m".toList, "d change=\"".toList, "created\"\n ".toList,
  "          ".toList, "  hash=\"md".toList, "5:1c1b0e26".toList, "4fa9b7e1e9".toList, "aa6f9db8d6".toList, "362b\"\n    ".toList, "         l".toList,
  "ength=\"433".toList, "9\"\n       ".toList, "      type".toList, "=\"text/htm".toList, "l\"\n       ".toList, "      path".toList, "=\"/changes".toList,
  "/res7.html".toList, "\"/>\n  </ur".toList, "l>\n  <url>".toList, "\n      <lo".toList, "c>http://e".toList, "xample.com".toList, "/res9.pdf<".toList,
  "/loc>\n    ".toList, "  <lastmod".toList, ">2013-01-0".toList, "2T13:00:00".toList, "Z</lastmod".toList, ">\n      <r".toList, "s:md chang".toList,
  "e=\"updated".toList, "\"\n        ".toList, "     hash=".toList, "\"md5:f9066".toList, "10c3d4aa74".toList, "5cb2b986f2".toList, "5b37c5a\"\n ".toList,
  "          ".toList, "  length=\"".toList, "38297\"\n   ".toList, "          ".toList, "type=\"appl".toList, "ication/pd".toList, "f\"\n       ".toList,
  "      path".toList, "=\"/changes".toList, "/res9.pdf\"".toList, "/>\n  </url".toList, ">\n  <url>\n".toList, "      <loc".toList, ">http://ex".toList,
  "ample.com/".toList, "res5.tiff<".toList, "/loc>\n    ".toList, "  <lastmod".toList, ">2013-01-0".toList, "2T19:00:00".toList, "Z</lastmod".toList,
  ">\n      <r".toList, "s:md chang".toList, "e=\"deleted".toList, "\"/>\n  </ur".toList, "l>\n  <url>".toList, "\n      <lo".toList, "c>http://e".toList,
  "xample.com".toList, "/res7.html".toList, "</loc>\n   ".toList, "   <lastmo".toList, "d>2013-01-".toList, "02T20:00:0".toList, "0Z</lastmo".toList,
  "d>\n       ".toList, "     <rs:m".toList, "d change=\"".toList, "updated\"\n ".toList, "          ".toList, "  hash=\"md".toList, "5:09886470".toList,
  "82c8bc5177".toList, "8894a48ec3".toList, "b576\"\n    ".toList, "         l".toList, "ength=\"542".toList, "6\"\n       ".toList, "      type".toList,
  "=\"text/htm".toList, "l\"\n       ".toList, "      path".toList, "=\"/changes".toList, "/res7-v2.h".toList, "tml\"/>\n  <".toList, "/url>\n</ur".toList,
  "lset>\n".toList]
def doc_resourcesync_ex_26 : Str := List.flatten [
  "<?xml vers".toList, "ion=\"1.0\" ".toList, "encoding=\"".toList, "UTF-8\"?>\n<".toList, "urlset xml".toList, "ns=\"http:/".toList, "/www.sitem".toList,
  "aps.org/sc".toList, "hemas/site".toList, "map/0.9\"\n ".toList, "       xml".toList, "ns:rs=\"htt".toList, "p://www.op".toList, "enarchives".toList,
  ".org/rs/te".toList, "rms/\">\n  <".toList, "rs:ln rel=".toList, "\"up\"\n     ".toList, "    href=\"".toList, "http://exa".toList, "mple.com/d".toList,
  "ataset1/ca".toList, "pabilityli".toList, "st.xml\"/>\n".toList, "  <rs:md c".toList, "apability=".toList, "\"changelis".toList, "t\"\n       ".toList,
  "  from=\"20".toList, "13-01-03T0".toList, "0:00:00Z\"/".toList, ">\n  <url>\n".toList, "      <loc".toList, ">http://ex".toList, "ample.com/".toList,
  "res1.html<".toList, "/loc>\n    ".toList, "  <lastmod".toList, ">2013-01-0".toList, "3T18:00:00".toList, "Z</lastmod".toList, ">\n      <r".toList,
  "s:md chang".toList, "e=\"updated".toList, "\"\n        ".toList, "     hash=".toList, "\"md5:1584a".toList, "bdf8ebdc98".toList, "02ac0c6a74".toList,
  "02c03b6\"\n ".toList, "          ".toList, "  length=\"".toList, "8876\"/>\n  ".toList, "    <rs:ln".toList, " rel=\"cano".toList, "nical\"\n   ".toList,
  "          ".toList, "href=\"http".toList, "://example".toList, ".com/res1\"".toList, "\n         ".toList, "    modifi".toList, "ed=\"2013-0".toList,
  "1-03T18:00".toList, ":00Z\"/>\n  ".toList, "</url>\n</u".toList, "rlset>\n".toList]
def doc_resourcesync_ex_3 : Str := List.flatten [
  "<?xml vers".toList, "ion=\"1.0\" ".toList, "encoding=\"".toList, "UTF-8\"?>\n<".toList, "urlset xml".toList, "ns=\"http:/".toList, "/www.sitem".toList,
  "aps.org/sc".toList, "hemas/site".toList, "map/0.9\"\n ".toList, "       xml".toList, "ns:rs=\"htt".toList, "p://www.op".toList, "enarchives".toList,
  ".org/rs/te".toList, "rms/\">\n  <".toList, "rs:md capa".toList, "bility=\"ch".toList, "angelist\"\n".toList, "         f".toList, "rom=\"2013-".toList,
  "01-02T00:0".toList, "0:00Z\"\n   ".toList, "      unti".toList, "l=\"2013-01".toList, "-03T00:00:".toList, "00Z\"/>\n  <".toList, "url>\n     ".toList,
  " <loc>http".toList, "://example".toList, ".com/res2.".toList, "pdf</loc>\n".toList, "      <las".toList, "tmod>2013-".toList, "01-02T13:0".toList,
  "0:00Z</las".toList, "tmod>\n    ".toList, "  <rs:md c".toList, "hange=\"upd".toList, "ated\"/>\n  ".toList, "</url>\n  <".toList, "url>\n     ".toList,
  " <loc>http".toList, "://example".toList, ".com/res3.".toList, "tiff</loc>".toList, "\n      <la".toList, "stmod>2013".toList, "-01-02T18:".toList,
  "00:00Z</la".toList, "stmod>\n   ".toList, "   <rs:md ".toList, "change=\"de".toList, "leted\"/>\n ".toList, " </url>\n</".toList, "urlset>\n".toList]

/-- test_build_ex_03 -/
example : sameDoc doc_resourcesync_ex_3 (built .changeList { spec_1_0 := true } ((((({} : Container).setMdFrom (.text ("2013-01-02".toList ++ "T00:00:00Z".toList)) 0).getD {}).setMdUntil (.text ("2013-01-03".toList ++ "T00:00:00Z".toList)) 0).getD {}) false (do
    let e1 ← Resource.new { uri := some ("http://exa".toList ++ "mple.com/r".toList ++ "es2.pdf".toList), lastmod := some ("2013-01-02".toList ++ "T13:00:00Z".toList), change := some "updated".toList }
    let e2 ← Resource.new { uri := some ("http://exa".toList ++ "mple.com/r".toList ++ "es3.tiff".toList), lastmod := some ("2013-01-02".toList ++ "T18:00:00Z".toList), change := some "deleted".toList }
    return [e1, e2])) = true := by decide +kernel

/-- test_build_ex_19 -/
example : sameDoc doc_resourcesync_ex_19 (built .changeList { spec_1_0 := true } (((({} : Container).setUp ("http://exa".toList ++ "mple.com/d".toList ++ "ataset1/ca".toList ++ "pabilityli".toList ++ "st.xml".toList)).setMdFrom (.text ("2013-01-03".toList ++ "T00:00:00Z".toList)) 0).getD {}) false (do
    let e1 ← Resource.new { uri := some ("http://exa".toList ++ "mple.com/r".toList ++ "es1.html".toList), lastmod := some ("2013-01-03".toList ++ "T11:00:00Z".toList), change := some "created".toList }
    let e2 ← Resource.new { uri := some ("http://exa".toList ++ "mple.com/r".toList ++ "es2.pdf".toList), lastmod := some ("2013-01-03".toList ++ "T13:00:00Z".toList), change := some "updated".toList }
    let e3 ← Resource.new { uri := some ("http://exa".toList ++ "mple.com/r".toList ++ "es3.tiff".toList), lastmod := some ("2013-01-03".toList ++ "T18:00:00Z".toList), change := some "deleted".toList }
    let e4 ← Resource.new { uri := some ("http://exa".toList ++ "mple.com/r".toList ++ "es2.pdf".toList), lastmod := some ("2013-01-03".toList ++ "T21:00:00Z".toList), change := some "updated".toList }
    return [e1, e2, e3, e4])) = true := by decide +kernel

/-- test_build_ex_20 -/
example : sameDoc doc_resourcesync_ex_20 (builtOrdered ((some "changelist".toList).getD (Kind.capability .changeListArchive)) { spec_1_0 := true } (((({} : Container).setUp ("http://exa".toList ++ "mple.com/d".toList ++ "ataset1/ca".toList ++ "pabilityli".toList ++ "st.xml".toList)).setMdFrom (.text ("2013-01-01".toList ++ "T00:00:00Z".toList)) 0).getD {}) true (do
    let e1 ← Resource.new { uri := some ("http://exa".toList ++ "mple.com/2".toList ++ "0130101-ch".toList ++ "angelist.x".toList ++ "ml".toList), md_from := some ("2013-01-01".toList ++ "T00:00:00Z".toList), md_until := some ("2013-01-02".toList ++ "T00:00:00Z".toList) }
    let e2 ← Resource.new { uri := some ("http://exa".toList ++ "mple.com/2".toList ++ "0130102-ch".toList ++ "angelist.x".toList ++ "ml".toList), md_from := some ("2013-01-02".toList ++ "T00:00:00Z".toList), md_until := some ("2013-01-03".toList ++ "T00:00:00Z".toList) }
    let e3 ← Resource.new { uri := some ("http://exa".toList ++ "mple.com/2".toList ++ "0130103-ch".toList ++ "angelist.x".toList ++ "ml".toList), md_from := some ("2013-01-03".toList ++ "T00:00:00Z".toList) }
    return [e1, e2, e3])) = true := by decide +kernel

/-- test_build_ex_21 -/
example : sameDoc doc_resourcesync_ex_21 (built .changeList { spec_1_0 := true } ((((((({} : Container).setUp ("http://exa".toList ++ "mple.com/d".toList ++ "ataset1/ca".toList ++ "pabilityli".toList ++ "st.xml".toList)).setIndex ("http://exa".toList ++ "mple.com/d".toList ++ "ataset1/ch".toList ++ "angelist.x".toList ++ "ml".toList)).setMdFrom (.text ("2013-01-02".toList ++ "T00:00:00Z".toList)) 0).getD {}).setMdUntil (.text ("2013-01-03".toList ++ "T00:00:00Z".toList)) 0).getD {}) false (do
    let e1 ← Resource.new { uri := some ("http://exa".toList ++ "mple.com/r".toList ++ "es7.html".toList), lastmod := some ("2013-01-02".toList ++ "T12:00:00Z".toList), change := some "created".toList }
    let e2 ← Resource.new { uri := some ("http://exa".toList ++ "mple.com/r".toList ++ "es9.pdf".toList), lastmod := some ("2013-01-02".toList ++ "T13:00:00Z".toList), change := some "updated".toList }
    let e3 ← Resource.new { uri := some ("http://exa".toList ++ "mple.com/r".toList ++ "es5.tiff".toList), lastmod := some ("2013-01-02".toList ++ "T19:00:00Z".toList), change := some "deleted".toList }
    let e4 ← Resource.new { uri := some ("http://exa".toList ++ "mple.com/r".toList ++ "es7.html".toList), lastmod := some ("2013-01-02".toList ++ "T20:00:00Z".toList), change := some "updated".toList }
    return [e1, e2, e3, e4])) = true := by decide +kernel

/-- test_build_ex_22 -/
example : sameDoc doc_resourcesync_ex_22 (built .changeDump { spec_1_0 := true } (((({} : Container).setUp ("http://exa".toList ++ "mple.com/d".toList ++ "ataset1/ca".toList ++ "pabilityli".toList ++ "st.xml".toList)).setMdFrom (.text ("2013-01-01".toList ++ "T00:00:00Z".toList)) 0).getD {}) false (do
    let z1 ← Resource.new { uri := some ("http://exa".toList ++ "mple.com/2".toList ++ "0130101-ch".toList ++ "angedump.z".toList ++ "ip".toList), lastmod := some ("2013-01-01".toList ++ "T23:59:59Z".toList), length := some 3109, md_from := some ("2013-01-01".toList ++ "T00:00:00Z".toList), md_until := some ("2013-01-02".toList ++ "T00:00:00Z".toList), mime_type := some ("applicatio".toList ++ "n/zip".toList) }
    let z1 := z1.setNamed .contents ("http://exa".toList ++ "mple.com/2".toList ++ "0130101-ch".toList ++ "angedump-m".toList ++ "anifest.xm".toList ++ "l".toList)
    let z2 ← Resource.new { uri := some ("http://exa".toList ++ "mple.com/2".toList ++ "0130102-ch".toList ++ "angedump.z".toList ++ "ip".toList), lastmod := some ("2013-01-02".toList ++ "T23:59:59Z".toList), length := some 6629, md_from := some ("2013-01-02".toList ++ "T00:00:00Z".toList), md_until := some ("2013-01-03".toList ++ "T00:00:00Z".toList), mime_type := some ("applicatio".toList ++ "n/zip".toList) }
    let z2 := z2.setNamed .contents ("http://exa".toList ++ "mple.com/2".toList ++ "0130102-ch".toList ++ "angedump-m".toList ++ "anifest.xm".toList ++ "l".toList)
    let z3 ← Resource.new { uri := some ("http://exa".toList ++ "mple.com/2".toList ++ "0130103-ch".toList ++ "angedump.z".toList ++ "ip".toList), lastmod := some ("2013-01-03".toList ++ "T23:59:59Z".toList), length := some 8124, md_from := some ("2013-01-03".toList ++ "T00:00:00Z".toList), md_until := some ("2013-01-04".toList ++ "T00:00:00Z".toList), mime_type := some ("applicatio".toList ++ "n/zip".toList) }
    let z3 := z3.setNamed .contents ("http://exa".toList ++ "mple.com/2".toList ++ "0130103-ch".toList ++ "angedump-m".toList ++ "anifest.xm".toList ++ "l".toList)
    return [z1, z2, z3])) = true := by decide +kernel

/-- test_build_ex_23 -/
example : sameDoc doc_resourcesync_ex_23 (built .changeDumpManifest { spec_1_0 := true } (((((({} : Container).setUp ("http://exa".toList ++ "mple.com/d".toList ++ "ataset1/ca".toList ++ "pabilityli".toList ++ "st.xml".toList)).setMdFrom (.text ("2013-01-02".toList ++ "T00:00:00Z".toList)) 0).getD {}).setMdUntil (.text ("2013-01-03".toList ++ "T00:00:00Z".toList)) 0).getD {}) false (do
    let e1 ← Resource.new { uri := some ("http://exa".toList ++ "mple.com/r".toList ++ "es7.html".toList), lastmod := some ("2013-01-02".toList ++ "T12:00:00Z".toList), change := some "created".toList, md5 := some ("1c1b0e264f".toList ++ "a9b7e1e9aa".toList ++ "6f9db8d636".toList ++ "2b".toList), length := some 4339, mime_type := some "text/html".toList, path := some ("/changes/r".toList ++ "es7.html".toList) }
    let e2 ← Resource.new { uri := some ("http://exa".toList ++ "mple.com/r".toList ++ "es9.pdf".toList), lastmod := some ("2013-01-02".toList ++ "T13:00:00Z".toList), change := some "updated".toList, md5 := some ("f906610c3d".toList ++ "4aa745cb2b".toList ++ "986f25b37c".toList ++ "5a".toList), length := some 38297, mime_type := some ("applicatio".toList ++ "n/pdf".toList), path := some ("/changes/r".toList ++ "es9.pdf".toList) }
    let e3 ← Resource.new { uri := some ("http://exa".toList ++ "mple.com/r".toList ++ "es5.tiff".toList), lastmod := some ("2013-01-02".toList ++ "T19:00:00Z".toList), change := some "deleted".toList }
    let e4 ← Resource.new { uri := some ("http://exa".toList ++ "mple.com/r".toList ++ "es7.html".toList), lastmod := some ("2013-01-02".toList ++ "T20:00:00Z".toList), change := some "updated".toList, md5 := some ("0988647082".toList ++ "c8bc517788".toList ++ "94a48ec3b5".toList ++ "76".toList), length := some 5426, mime_type := some "text/html".toList, path := some ("/changes/r".toList ++ "es7-v2.htm".toList ++ "l".toList) }
    return [e1, e2, e3, e4])) = true := by decide +kernel

/-- test_build_ex_26 -/
example : sameDoc doc_resourcesync_ex_26 (built .changeList { spec_1_0 := true } (((({} : Container).setUp ("http://exa".toList ++ "mple.com/d".toList ++ "ataset1/ca".toList ++ "pabilityli".toList ++ "st.xml".toList)).setMdFrom (.text ("2013-01-03".toList ++ "T00:00:00Z".toList)) 0).getD {}) false (do
    let c1 ← Resource.new { uri := some ("http://exa".toList ++ "mple.com/r".toList ++ "es1.html".toList), lastmod := some ("2013-01-03".toList ++ "T18:00:00Z".toList), change := some "updated".toList, md5 := some ("1584abdf8e".toList ++ "bdc9802ac0".toList ++ "c6a7402c03".toList ++ "b6".toList), length := some 8876 }
    let c1 := c1.linkSet "canonical".toList ("http://exa".toList ++ "mple.com/r".toList ++ "es1".toList) true [("modified".toList, ("2013-01-03".toList ++ "T18:00:00Z".toList))]
    return [c1])) = true := by decide +kernel

/-- test_build_archives_ex_3_1 -/
example : sameDoc doc_archives_ex_3_1 (built .resourceListArchive { spec_1_0 := true } (({} : Container).setUp ("http://exa".toList ++ "mple.com/d".toList ++ "ataset1/ca".toList ++ "pabilityli".toList ++ "st.xml".toList)) false (do
    let e1 ← Resource.new { uri := some ("http://exa".toList ++ "mple.com/r".toList ++ "esourcelis".toList ++ "t1.xml".toList), md_at := some ("2012-11-03".toList ++ "T09:00:00Z".toList) }
    let e2 ← Resource.new { uri := some ("http://exa".toList ++ "mple.com/r".toList ++ "esourcelis".toList ++ "t2.xml".toList), md_at := some ("2012-12-03".toList ++ "T09:00:00Z".toList) }
    let e3 ← Resource.new { uri := some ("http://exa".toList ++ "mple.com/r".toList ++ "esourcelis".toList ++ "t3.xml".toList), md_at := some ("2013-01-03".toList ++ "T09:00:00Z".toList) }
    return [e1, e2, e3])) = true := by decide +kernel

/-- test_build_archives_ex_3_2 -/
example : sameDoc doc_archives_ex_3_2 (built .resourceListArchive { spec_1_0 := true } (({} : Container).setUp ("http://exa".toList ++ "mple.com/d".toList ++ "ataset1/ca".toList ++ "pabilityli".toList ++ "st.xml".toList)) true (do
    let e1 ← Resource.new { uri := some ("http://exa".toList ++ "mple.com/r".toList ++ "esourcelis".toList ++ "tarchive00".toList ++ "001.xml".toList) }
    let e2 ← Resource.new { uri := some ("http://exa".toList ++ "mple.com/r".toList ++ "esourcelis".toList ++ "tarchive00".toList ++ "002.xml".toList) }
    return [e1, e2])) = true := by decide +kernel

/-- test_build_archives_ex_4_1 -/
example : sameDoc doc_archives_ex_4_1 (built .resourceDumpArchive { spec_1_0 := true } (({} : Container).setUp ("http://exa".toList ++ "mple.com/d".toList ++ "ataset1/ca".toList ++ "pabilityli".toList ++ "st.xml".toList)) false (do
    let e1 ← Resource.new { uri := some ("http://exa".toList ++ "mple.com/r".toList ++ "esourcedum".toList ++ "p1.xml".toList), lastmod := some ("2012-11-03".toList ++ "T09:05:42Z".toList), md_at := some ("2012-11-03".toList ++ "T09:00:00Z".toList), md_completed := some ("2012-11-03".toList ++ "T09:05:01Z".toList) }
    let e2 ← Resource.new { uri := some ("http://exa".toList ++ "mple.com/r".toList ++ "esourcedum".toList ++ "p2.xml".toList), lastmod := some ("2012-12-03".toList ++ "T09:06:12Z".toList), md_at := some ("2012-12-03".toList ++ "T09:00:00Z".toList), md_completed := some ("2012-12-03".toList ++ "T09:05:17Z".toList) }
    return [e1, e2])) = true := by decide +kernel

/-- test_build_archives_ex_5_1 -/
example : sameDoc doc_archives_ex_5_1 (built .changeListArchive { spec_1_0 := true } (({} : Container).setUp ("http://exa".toList ++ "mple.com/d".toList ++ "ataset1/ca".toList ++ "pabilityli".toList ++ "st.xml".toList)) false (do
    let e1 ← Resource.new { uri := some ("http://exa".toList ++ "mple.com/c".toList ++ "hangelist1".toList ++ ".xml".toList), md_from := some ("2013-01-01".toList ++ "T09:00:00Z".toList), md_until := some ("2013-01-02".toList ++ "T09:00:00Z".toList) }
    let e2 ← Resource.new { uri := some ("http://exa".toList ++ "mple.com/c".toList ++ "hangelist2".toList ++ ".xml".toList), md_from := some ("2013-01-02".toList ++ "T09:00:00Z".toList), md_until := some ("2013-01-03".toList ++ "T09:00:00Z".toList) }
    let e3 ← Resource.new { uri := some ("http://exa".toList ++ "mple.com/c".toList ++ "hangelist3".toList ++ ".xml".toList), md_from := some ("2013-01-03".toList ++ "T09:00:00Z".toList), md_until := some ("2013-01-04".toList ++ "T09:00:00Z".toList) }
    return [e1, e2, e3])) = true := by decide +kernel

/-- test_build_archives_ex_6_1 -/
example : sameDoc doc_archives_ex_6_1 (built .changeDumpArchive { spec_1_0 := true } (({} : Container).setUp ("http://exa".toList ++ "mple.com/d".toList ++ "ataset1/ca".toList ++ "pabilityli".toList ++ "st.xml".toList)) false (do
    let e1 ← Resource.new { uri := some ("http://exa".toList ++ "mple.com/c".toList ++ "hangedump-".toList ++ "w1.xml".toList), lastmod := some ("2012-12-20".toList ++ "T09:02:43Z".toList), md_from := some ("2012-01-13".toList ++ "T09:00:00Z".toList), md_until := some ("2013-01-20".toList ++ "T09:00:00Z".toList) }
    let e2 ← Resource.new { uri := some ("http://exa".toList ++ "mple.com/c".toList ++ "hangedump-".toList ++ "w2.xml".toList), lastmod := some ("2012-12-27".toList ++ "T09:01:57Z".toList), md_from := some ("2012-01-20".toList ++ "T09:00:00Z".toList), md_until := some ("2013-01-27".toList ++ "T09:00:00Z".toList) }
    return [e1, e2])) = true := by decide +kernel

end Resync.Conform.Spec1_0
