import Verif.Conform.Docs
/-
The documents that /repo/tests/test_examples_from_spec_v1_1.py builds and the examples of the specification that it compares them
with, checked of the model: tests of the model, not proofs of properties.
-/

namespace Resync.Conform.Spec1_1
open Py

def doc_resourcesync_ex_1 : Str := List.flatten [
  "<?xml vers".toList, "ion=\"1.0\" ".toList, "encoding=\"".toList, "UTF-8\"?>\n<".toList, "urlset xml".toList, "ns=\"http:/".toList, "/www.sitem".toList,
  "aps.org/sc".toList, "hemas/site".toList, "map/0.9\"\n ".toList, "       xml".toList, "ns:rs=\"htt".toList, "p://www.op".toList, "enarchives".toList,
  ".org/rs/te".toList, "rms/\">\n  <".toList, "rs:md capa".toList, "bility=\"re".toList, "sourcelist".toList, "\"\n        ".toList, " at=\"2013-".toList,
  "01-03T09:0".toList, "0:00Z\"/>\n ".toList, " <url>\n   ".toList, "   <loc>ht".toList, "tp://examp".toList, "le.com/res".toList, "1</loc>\n  ".toList,
  "</url>\n  <".toList, "url>\n     ".toList, " <loc>http".toList, "://example".toList, ".com/res2<".toList, "/loc>\n  </".toList, "url>\n</url".toList,
  "set>\n".toList]
def doc_resourcesync_ex_12 : Str := List.flatten [
  "<?xml vers".toList, "ion=\"1.0\" ".toList, "encoding=\"".toList, "UTF-8\"?>\n<".toList, "urlset xml".toList, "ns=\"http:/".toList, "/www.sitem".toList,
  "aps.org/sc".toList, "hemas/site".toList, "map/0.9\"\n ".toList, "       xml".toList, "ns:rs=\"htt".toList, "p://www.op".toList, "enarchives".toList,
  ".org/rs/te".toList, "rms/\">\n  <".toList, "rs:ln rel=".toList, "\"described".toList, "by\"\n      ".toList, "   href=\"h".toList, "ttp://exam".toList,
  "ple.com/in".toList, "fo_about_s".toList, "ource.xml\"".toList, "/>\n  <rs:m".toList, "d capabili".toList, "ty=\"descri".toList, "ption\"/>\n ".toList,
  " <url>\n   ".toList, "   <loc>ht".toList, "tp://examp".toList, "le.com/cap".toList, "abilitylis".toList, "t1.xml</lo".toList, "c>\n      <".toList,
  "rs:md capa".toList, "bility=\"ca".toList, "pabilityli".toList, "st\"/>\n    ".toList, "  <rs:ln r".toList, "el=\"descri".toList, "bedby\"\n   ".toList,
  "          ".toList, "href=\"http".toList, "://example".toList, ".com/info_".toList, "about_set1".toList, "_of_resour".toList, "ces.xml\"/>".toList,
  "\n  </url>\n".toList, "  <url>\n  ".toList, "    <loc>h".toList, "ttp://exam".toList, "ple.com/ca".toList, "pabilityli".toList, "st2.xml</l".toList,
  "oc>\n      ".toList, "<rs:md cap".toList, "ability=\"c".toList, "apabilityl".toList, "ist\"/>\n   ".toList, "   <rs:ln ".toList, "rel=\"descr".toList,
  "ibedby\"\n  ".toList, "          ".toList, " href=\"htt".toList, "p://exampl".toList, "e.com/info".toList, "_about_set".toList, "2_of_resou".toList,
  "rces.xml\"/".toList, ">\n  </url>".toList, "\n  <url>\n ".toList, "     <loc>".toList, "http://exa".toList, "mple.com/c".toList, "apabilityl".toList,
  "ist3.xml</".toList, "loc>\n     ".toList, " <rs:md ca".toList, "pability=\"".toList, "capability".toList, "list\"/>\n  ".toList, "    <rs:ln".toList,
  " rel=\"desc".toList, "ribedby\"\n ".toList, "          ".toList, "  href=\"ht".toList, "tp://examp".toList, "le.com/inf".toList, "o_about_se".toList,
  "t3_of_reso".toList, "urces.xml\"".toList, "/>\n  </url".toList, ">\n</urlset".toList, ">\n".toList]
def doc_resourcesync_ex_13 : Str := List.flatten [
  "<?xml vers".toList, "ion=\"1.0\" ".toList, "encoding=\"".toList, "UTF-8\"?>\n<".toList, "urlset xml".toList, "ns=\"http:/".toList, "/www.sitem".toList,
  "aps.org/sc".toList, "hemas/site".toList, "map/0.9\"\n ".toList, "       xml".toList, "ns:rs=\"htt".toList, "p://www.op".toList, "enarchives".toList,
  ".org/rs/te".toList, "rms/\">\n  <".toList, "rs:ln rel=".toList, "\"described".toList, "by\"\n      ".toList, "   href=\"h".toList, "ttp://exam".toList,
  "ple.com/in".toList, "fo_about_s".toList, "et1_of_res".toList, "ources.xml".toList, "\"/>\n  <rs:".toList, "ln rel=\"up".toList, "\"\n        ".toList,
  " href=\"htt".toList, "p://exampl".toList, "e.com/reso".toList, "urcesync_d".toList, "escription".toList, ".xml\"/>\n  ".toList, "<rs:md cap".toList,
  "ability=\"c".toList, "apabilityl".toList, "ist\"/>\n  <".toList, "url>\n     ".toList, " <loc>http".toList, "://example".toList, ".com/datas".toList,
  "et1/resour".toList, "celist.xml".toList, "</loc>\n   ".toList, "   <rs:md ".toList, "capability".toList, "=\"resource".toList, "list\"/>\n  ".toList,
  "</url>\n  <".toList, "url>\n     ".toList, " <loc>http".toList, "://example".toList, ".com/datas".toList, "et1/resour".toList, "cedump.xml".toList,
  "</loc>\n   ".toList, "   <rs:md ".toList, "capability".toList, "=\"resource".toList, "dump\"/>\n  ".toList, "</url>\n  <".toList, "url>\n     ".toList,
  " <loc>http".toList, "://example".toList, ".com/datas".toList, "et1/change".toList, "list.xml</".toList, "loc>\n     ".toList, " <rs:md ca".toList,
  "pability=\"".toList, "changelist".toList, "\"/>\n  </ur".toList, "l>\n  <url>".toList, "\n      <lo".toList, "c>http://e".toList, "xample.com".toList,
  "/dataset1/".toList, "changedump".toList, ".xml</loc>".toList, "\n      <rs".toList, ":md capabi".toList, "lity=\"chan".toList, "gedump\"/>\n".toList,
  "  </url>\n<".toList, "/urlset>\n".toList]
def doc_resourcesync_ex_14 : Str := List.flatten [
  "<?xml vers".toList, "ion=\"1.0\" ".toList, "encoding=\"".toList, "UTF-8\"?>\n<".toList, "urlset xml".toList, "ns=\"http:/".toList, "/www.sitem".toList,
  "aps.org/sc".toList, "hemas/site".toList, "map/0.9\"\n ".toList, "       xml".toList, "ns:rs=\"htt".toList, "p://www.op".toList, "enarchives".toList,
  ".org/rs/te".toList, "rms/\">\n  <".toList, "rs:ln rel=".toList, "\"up\"\n     ".toList, "    href=\"".toList, "http://exa".toList, "mple.com/d".toList,
  "ataset1/ca".toList, "pabilityli".toList, "st.xml\"/>\n".toList, "  <rs:md c".toList, "apability=".toList, "\"resourcel".toList, "ist\"\n     ".toList,
  "    at=\"20".toList, "13-01-03T0".toList, "9:00:00Z\"\n".toList, "         c".toList, "ompleted=\"".toList, "2013-01-03".toList, "T09:01:00Z".toList,
  "\"/>\n  <url".toList, ">\n      <l".toList, "oc>http://".toList, "example.co".toList, "m/res1</lo".toList, "c>\n      <".toList, "lastmod>20".toList,
  "13-01-02T1".toList, "3:00:00Z</".toList, "lastmod>\n ".toList, "     <rs:m".toList, "d hash=\"md".toList, "5:1584abdf".toList, "8ebdc9802a".toList,
  "c0c6a7402c".toList, "03b6\"\n    ".toList, "         l".toList, "ength=\"887".toList, "6\"\n       ".toList, "      type".toList, "=\"text/htm".toList,
  "l\"/>\n  </u".toList, "rl>\n  <url".toList, ">\n      <l".toList, "oc>http://".toList, "example.co".toList, "m/res2</lo".toList, "c>\n      <".toList,
  "lastmod>20".toList, "13-01-02T1".toList, "4:00:00Z</".toList, "lastmod>\n ".toList, "     <rs:m".toList, "d hash=\"md".toList, "5:1e0d5cb8".toList,
  "ef6ba40c99".toList, "b14c0237be".toList, "735e \n    ".toList, "          ".toList, "     sha-2".toList, "56:854f612".toList, "90e2e197a1".toList,
  "1bc91063af".toList, "ce22e43f8c".toList, "cc65523705".toList, "0ace766adc".toList, "68dc784\"\n ".toList, "          ".toList, "  length=\"".toList,
  "14599\"\n   ".toList, "          ".toList, "type=\"appl".toList, "ication/pd".toList, "f\"/>\n  </u".toList, "rl>\n</urls".toList, "et>\n".toList]
def doc_resourcesync_ex_15 : Str := List.flatten [
  "<?xml vers".toList, "ion=\"1.0\" ".toList, "encoding=\"".toList, "UTF-8\"?>\n<".toList, "sitemapind".toList, "ex xmlns=\"".toList, "http://www".toList,
  ".sitemaps.".toList, "org/schema".toList, "s/sitemap/".toList, "0.9\"\n     ".toList, "         x".toList, "mlns:rs=\"h".toList, "ttp://www.".toList,
  "openarchiv".toList, "es.org/rs/".toList, "terms/\">\n ".toList, " <rs:ln re".toList, "l=\"up\"\n   ".toList, "      href".toList, "=\"http://e".toList,
  "xample.com".toList, "/dataset1/".toList, "capability".toList, "list.xml\"/".toList, ">\n  <rs:md".toList, " capabilit".toList, "y=\"resourc".toList,
  "elist\"\n   ".toList, "      at=\"".toList, "2013-01-03".toList, "T09:00:00Z".toList, "\"\n        ".toList, " completed".toList, "=\"2013-01-".toList,
  "03T09:10:0".toList, "0Z\"/>\n  <s".toList, "itemap>\n  ".toList, "    <loc>h".toList, "ttp://exam".toList, "ple.com/re".toList, "sourcelist".toList,
  "1.xml</loc".toList, ">\n      <r".toList, "s:md at=\"2".toList, "013-01-03T".toList, "09:00:00Z\"".toList, "/>\n  </sit".toList, "emap>\n  <s".toList,
  "itemap>\n  ".toList, "    <loc>h".toList, "ttp://exam".toList, "ple.com/re".toList, "sourcelist".toList, "2.xml</loc".toList, ">\n      <r".toList,
  "s:md at=\"2".toList, "013-01-03T".toList, "09:03:00Z\"".toList, "/>\n  </sit".toList, "emap>\n  <s".toList, "itemap>\n  ".toList, "    <loc>h".toList,
  "ttp://exam".toList, "ple.com/re".toList, "sourcelist".toList, "3.xml</loc".toList, ">\n      <r".toList, "s:md at=\"2".toList, "013-01-03T".toList,
  "09:07:00Z\"".toList, "/>\n  </sit".toList, "emap>\n</si".toList, "temapindex".toList, ">\n".toList]
def doc_resourcesync_ex_16 : Str := List.flatten [
  "<?xml vers".toList, "ion=\"1.0\" ".toList, "encoding=\"".toList, "UTF-8\"?>\n<".toList, "urlset xml".toList, "ns=\"http:/".toList, "/www.sitem".toList,
  "aps.org/sc".toList, "hemas/site".toList, "map/0.9\"\n ".toList, "       xml".toList, "ns:rs=\"htt".toList, "p://www.op".toList, "enarchives".toList,
  ".org/rs/te".toList, "rms/\">\n  <".toList, "rs:ln rel=".toList, "\"up\"\n     ".toList, "    href=\"".toList, "http://exa".toList, "mple.com/d".toList,
  "ataset1/ca".toList, "pabilityli".toList, "st.xml\"/>\n".toList, "  <rs:ln r".toList, "el=\"index\"".toList, "\n         ".toList, "href=\"http".toList,
  "://example".toList, ".com/datas".toList, "et1/resour".toList, "celist-ind".toList, "ex.xml\"/>\n".toList, "  <rs:md c".toList, "apability=".toList,
  "\"resourcel".toList, "ist\"\n     ".toList, "    at=\"20".toList, "13-01-03T0".toList, "9:00:00Z\"/".toList, ">\n  <url>\n".toList, "      <loc".toList,
  ">http://ex".toList, "ample.com/".toList, "res3</loc>".toList, "\n      <rs".toList, ":md hash=\"".toList, "md5:1584ab".toList, "df8ebdc980".toList,
  "2ac0c6a740".toList, "2c8753\"\n  ".toList, "          ".toList, " length=\"4".toList, "385\"\n     ".toList, "        ty".toList, "pe=\"applic".toList,
  "ation/pdf\"".toList, "/>\n  </url".toList, ">\n  <url>\n".toList, "      <loc".toList, ">http://ex".toList, "ample.com/".toList, "res4</loc>".toList,
  "\n      <rs".toList, ":md hash=\"".toList, "md5:4556ab".toList, "df8ebdc980".toList, "2ac0c6a740".toList, "2c9881\"\n  ".toList, "          ".toList,
  " length=\"8".toList, "83\"\n      ".toList, "       typ".toList, "e=\"image/p".toList, "ng\"/>\n  </".toList, "url>\n</url".toList, "set>\n".toList]
def doc_resourcesync_ex_17 : Str := List.flatten [
  "<?xml vers".toList, "ion=\"1.0\" ".toList, "encoding=\"".toList, "UTF-8\"?>\n<".toList, "urlset xml".toList, "ns=\"http:/".toList, "/www.sitem".toList,
  "aps.org/sc".toList, "hemas/site".toList, "map/0.9\"\n ".toList, "       xml".toList, "ns:rs=\"htt".toList, "p://www.op".toList, "enarchives".toList,
  ".org/rs/te".toList, "rms/\">\n  <".toList, "rs:ln rel=".toList, "\"up\"\n     ".toList, "    href=\"".toList, "http://exa".toList, "mple.com/d".toList,
  "ataset1/ca".toList, "pabilityli".toList, "st.xml\"/>\n".toList, "  <rs:md c".toList, "apability=".toList, "\"resourced".toList, "ump\"\n     ".toList,
  "    at=\"20".toList, "13-01-03T0".toList, "9:00:00Z\"\n".toList, "         c".toList, "ompleted=\"".toList, "2013-01-03".toList, "T09:04:00Z".toList,
  "\"/>\n  <url".toList, ">\n      <l".toList, "oc>http://".toList, "example.co".toList, "m/resource".toList, "dump-part1".toList, ".zip</loc>".toList,
  "\n      <rs".toList, ":md type=\"".toList, "applicatio".toList, "n/zip\"\n   ".toList, "          ".toList, "length=\"47".toList, "65\"\n      ".toList,
  "       at=".toList, "\"2013-01-0".toList, "3T09:00:00".toList, "Z\"\n       ".toList, "      comp".toList, "leted=\"201".toList, "3-01-03T09".toList,
  ":02:00Z\"/>".toList, "\n      <rs".toList, ":ln rel=\"c".toList, "ontents\"\n ".toList, "          ".toList, "  href=\"ht".toList, "tp://examp".toList,
  "le.com/res".toList, "ourcedump_".toList, "manifest-p".toList, "art1.xml\"\n".toList, "          ".toList, "   type=\"a".toList, "pplication".toList,
  "/xml\"/>\n  ".toList, "</url>\n  <".toList, "url>\n     ".toList, " <loc>http".toList, "://example".toList, ".com/resou".toList, "rcedump-pa".toList,
  "rt2.zip</l".toList, "oc>\n      ".toList, "<rs:md typ".toList, "e=\"applica".toList, "tion/zip\"\n".toList, "          ".toList, "   length=".toList,
  "\"9875\"\n   ".toList, "          ".toList, "at=\"2013-0".toList, "1-03T09:01".toList, ":00Z\"\n    ".toList, "         c".toList, "ompleted=\"".toList,
  "2013-01-03".toList, "T09:03:00Z".toList, "\"/>\n      ".toList, "<rs:ln rel".toList, "=\"contents".toList, "\"\n        ".toList, "     href=".toList,
  "\"http://ex".toList, "ample.com/".toList, "resourcedu".toList, "mp_manifes".toList, "t-part2.xm".toList, "l\"\n       ".toList, "      type".toList,
  "=\"applicat".toList, "ion/xml\"/>".toList, "\n  </url>\n".toList, "  <url>\n  ".toList, "    <loc>h".toList, "ttp://exam".toList, "ple.com/re".toList,
  "sourcedump".toList, "-part3.zip".toList, "</loc>\n   ".toList, "   <rs:md ".toList, "type=\"appl".toList, "ication/zi".toList, "p\"\n       ".toList,
  "      leng".toList, "th=\"2298\"\n".toList, "          ".toList, "   at=\"201".toList, "3-01-03T09".toList, ":03:00Z\"\n ".toList, "          ".toList,
  "  complete".toList, "d=\"2013-01".toList, "-03T09:04:".toList, "00Z\"/>\n   ".toList, "   <rs:ln ".toList, "rel=\"conte".toList, "nts\"\n     ".toList,
  "        hr".toList, "ef=\"http:/".toList, "/example.c".toList, "om/resourc".toList, "edump_mani".toList, "fest-part3".toList, ".xml\"\n    ".toList,
  "         t".toList, "ype=\"appli".toList, "cation/xml".toList, "\"/>\n  </ur".toList, "l>\n</urlse".toList, "t>\n".toList]
def doc_resourcesync_ex_18 : Str := List.flatten [
  "<?xml vers".toList, "ion=\"1.0\" ".toList, "encoding=\"".toList, "UTF-8\"?>\n<".toList, "urlset xml".toList, "ns=\"http:/".toList, "/www.sitem".toList,
  "aps.org/sc".toList, "hemas/site".toList, "map/0.9\"\n ".toList, "       xml".toList, "ns:rs=\"htt".toList, "p://www.op".toList, "enarchives".toList,
  ".org/rs/te".toList, "rms/\">\n  <".toList, "rs:ln rel=".toList, "\"up\"\n     ".toList, "    href=\"".toList, "http://exa".toList, "mple.com/d".toList,
  "ataset1/ca".toList, "pabilityli".toList, "st.xml\"/>\n".toList, "  <rs:md c".toList, "apability=".toList, "\"resourced".toList, "ump-manife".toList,
  "st\"\n      ".toList, "   at=\"201".toList, "3-01-03T09".toList, ":00:00Z\"\n ".toList, "        co".toList, "mpleted=\"2".toList, "013-01-03T".toList,
  "09:02:00Z\"".toList, "/>\n  <url>".toList, "\n      <lo".toList, "c>http://e".toList, "xample.com".toList, "/res1</loc".toList, ">\n      <l".toList,
  "astmod>201".toList, "3-01-02T13".toList, ":00:00Z</l".toList, "astmod>\n  ".toList, "    <rs:md".toList, " hash=\"md5".toList, ":1584abdf8".toList,
  "ebdc9802ac".toList, "0c6a7402c0".toList, "3b6\"\n     ".toList, "        le".toList, "ngth=\"8876".toList, "\"\n        ".toList, "     type=".toList,
  "\"text/html".toList, "\"\n        ".toList, "     path=".toList, "\"/resource".toList, "s/res1\"/>\n".toList, "  </url>\n ".toList, " <url>\n   ".toList,
  "   <loc>ht".toList, "tp://examp".toList, "le.com/res".toList, "2</loc>\n  ".toList, "    <lastm".toList, "od>2013-01".toList, "-02T14:00:".toList,
  "00Z</lastm".toList, "od>\n      ".toList, "<rs:md has".toList, "h=\"md5:1e0".toList, "d5cb8ef6ba".toList, "40c99b14c0".toList, "237be735e\n".toList,
  "          ".toList, "         s".toList, "ha-256:854".toList, "f61290e2e1".toList, "97a11bc910".toList, "63afce22e4".toList, "3f8ccc6552".toList,
  "37050ace76".toList, "6adc68dc78".toList, "4\"\n       ".toList, "      leng".toList, "th=\"14599\"".toList, "\n         ".toList, "    type=\"".toList,
  "applicatio".toList, "n/pdf\"\n   ".toList, "          ".toList, "path=\"/res".toList, "ources/res".toList, "2\"/>\n  </u".toList, "rl>\n</urls".toList,
  "et>\n".toList]
def doc_resourcesync_ex_19 : Str := List.flatten [
  "<?xml vers".toList, "ion=\"1.0\" ".toList, "encoding=\"".toList, "UTF-8\"?>\n<".toList, "urlset xml".toList, "ns=\"http:/".toList, "/www.sitem".toList,
  "aps.org/sc".toList, "hemas/site".toList, "map/0.9\"\n ".toList, "       xml".toList, "ns:rs=\"htt".toList, "p://www.op".toList, "enarchives".toList,
  ".org/rs/te".toList, "rms/\">\n  <".toList, "rs:ln rel=".toList, "\"up\"\n     ".toList, "    href=\"".toList, "http://exa".toList, "mple.com/d".toList,
  "ataset1/ca".toList, "pabilityli".toList, "st.xml\"/>\n".toList, "  <rs:md c".toList, "apability=".toList, "\"changelis".toList, "t\"\n       ".toList,
  "  from=\"20".toList, "13-01-03T0".toList, "0:00:00Z\"/".toList, ">\n  <url>\n".toList, "      <loc".toList, ">http://ex".toList, "ample.com/".toList,
  "res1.html<".toList, "/loc>\n    ".toList, "  <lastmod".toList, ">2000-01-0".toList, "1T01:01:00".toList, "Z</lastmod".toList, ">\n      <r".toList,
  "s:md chang".toList, "e=\"created".toList, "\" datetime".toList, "=\"2013-01-".toList, "03T11:00:0".toList, "0Z\"/>\n  </".toList, "url>\n  <ur".toList,
  "l>\n      <".toList, "loc>http:/".toList, "/example.c".toList, "om/res2.pd".toList, "f</loc>\n  ".toList, "    <lastm".toList, "od>2013-01".toList,
  "-03T13:00:".toList, "00Z</lastm".toList, "od>\n      ".toList, "<rs:md cha".toList, "nge=\"updat".toList, "ed\" dateti".toList, "me=\"2013-0".toList,
  "1-03T13:00".toList, ":00Z\"/>\n  ".toList, "</url>\n  <".toList, "url>\n     ".toList, " <loc>http".toList, "://example".toList, ".com/res3.".toList,
  "tiff</loc>".toList, "\n      <rs".toList, ":md change".toList, "=\"deleted\"".toList, " datetime=".toList, "\"2013-01-0".toList, "3T18:00:00".toList,
  "Z\"/>\n  </u".toList, "rl>\n  <url".toList, ">\n      <l".toList, "oc>http://".toList, "example.co".toList, "m/res2.pdf".toList, "</loc>\n   ".toList,
  "   <rs:md ".toList, "change=\"up".toList, "dated\"/>\n ".toList, " </url>\n</".toList, "urlset>\n".toList]
def doc_resourcesync_ex_2 : Str := List.flatten [
  "<?xml vers".toList, "ion=\"1.0\" ".toList, "encoding=\"".toList, "UTF-8\"?>\n<".toList, "urlset xml".toList, "ns=\"http:/".toList, "/www.sitem".toList,
  "aps.org/sc".toList, "hemas/site".toList, "map/0.9\"\n ".toList, "       xml".toList, "ns:rs=\"htt".toList, "p://www.op".toList, "enarchives".toList,
  ".org/rs/te".toList, "rms/\">\n  <".toList, "rs:md capa".toList, "bility=\"re".toList, "sourcelist".toList, "\"\n        ".toList, " at=\"2013-".toList,
  "01-03T09:0".toList, "0:00Z\"/>\n ".toList, " <url>\n   ".toList, "   <loc>ht".toList, "tp://examp".toList, "le.com/res".toList, "1</loc>\n  ".toList,
  "    <lastm".toList, "od>2013-01".toList, "-02T13:00:".toList, "00Z</lastm".toList, "od>\n      ".toList, "<rs:md has".toList, "h=\"md5:158".toList,
  "4abdf8ebdc".toList, "9802ac0c6a".toList, "7402c03b6\"".toList, "/>\n  </url".toList, ">\n  <url>\n".toList, "      <loc".toList, ">http://ex".toList,
  "ample.com/".toList, "res2</loc>".toList, "\n      <la".toList, "stmod>2013".toList, "-01-02T14:".toList, "00:00Z</la".toList, "stmod>\n   ".toList,
  "   <rs:md ".toList, "hash=\"md5:".toList, "1e0d5cb8ef".toList, "6ba40c99b1".toList, "4c0237be73".toList, "5e\"/>\n    ".toList, "  <rs:ln r".toList,
  "el=\"duplic".toList, "ate\"\n     ".toList, "        hr".toList, "ef=\"http:/".toList, "/mirror.ex".toList, "ample.com/".toList, "res2\"/>\n  ".toList,
  "</url>\n</u".toList, "rlset>\n".toList]
def doc_resourcesync_ex_20 : Str := List.flatten [
  "<?xml vers".toList, "ion=\"1.0\" ".toList, "encoding=\"".toList, "UTF-8\"?>\n<".toList, "sitemapind".toList, "ex xmlns=\"".toList, "http://www".toList,
  ".sitemaps.".toList, "org/schema".toList, "s/sitemap/".toList, "0.9\"\n     ".toList, "   xmlns:r".toList, "s=\"http://".toList, "www.openar".toList,
  "chives.org".toList, "/rs/terms/".toList, "\">\n  <rs:l".toList, "n rel=\"up\"".toList, "\n         ".toList, "href=\"http".toList, "://example".toList,
  ".com/datas".toList, "et1/capabi".toList, "litylist.x".toList, "ml\"/>\n  <r".toList, "s:md capab".toList, "ility=\"cha".toList, "ngelist\"\n ".toList,
  "        fr".toList, "om=\"2013-0".toList, "1-01T00:00".toList, ":00Z\"/>\n  ".toList, "<sitemap>\n".toList, "      <loc".toList, ">http://ex".toList,
  "ample.com/".toList, "20130101-c".toList, "hangelist.".toList, "xml</loc>\n".toList, "      <rs:".toList, "md from=\"2".toList, "013-01-01T".toList,
  "00:00:00Z\"".toList, " \n        ".toList, "     until".toList, "=\"2013-01-".toList, "02T00:00:0".toList, "0Z\"/>\n  </".toList, "sitemap>\n ".toList,
  " <sitemap>".toList, "\n      <lo".toList, "c>http://e".toList, "xample.com".toList, "/20130102-".toList, "changelist".toList, ".xml</loc>".toList,
  "\n      <rs".toList, ":md from=\"".toList, "2013-01-02".toList, "T00:00:00Z".toList, "\" \n       ".toList, "      unti".toList, "l=\"2013-01".toList,
  "-03T00:00:".toList, "00Z\"/>\n  <".toList, "/sitemap>\n".toList, "  <sitemap".toList, ">\n      <l".toList, "oc>http://".toList, "example.co".toList,
  "m/20130103".toList, "-changelis".toList, "t.xml</loc".toList, ">\n      <r".toList, "s:md from=".toList, "\"2013-01-0".toList, "3T00:00:00".toList,
  "Z\"/>\n  </s".toList, "itemap>\n</".toList, "sitemapind".toList, "ex>\n".toList]
def doc_resourcesync_ex_21 : Str := List.flatten [
  "<?xml vers".toList, "ion=\"1.0\" ".toList, "encoding=\"".toList, "UTF-8\"?>\n<".toList, "urlset xml".toList, "ns=\"http:/".toList, "/www.sitem".toList,
  "aps.org/sc".toList, "hemas/site".toList, "map/0.9\"\n ".toList, "       xml".toList, "ns:rs=\"htt".toList, "p://www.op".toList, "enarchives".toList,
  ".org/rs/te".toList, "rms/\">\n  <".toList, "rs:ln rel=".toList, "\"up\"\n     ".toList, "    href=\"".toList, "http://exa".toList, "mple.com/d".toList,
  "ataset1/ca".toList, "pabilityli".toList, "st.xml\"/>\n".toList, "  <rs:ln r".toList, "el=\"index\"".toList, "\n         ".toList, "href=\"http".toList,
  "://example".toList, ".com/datas".toList, "et1/change".toList, "list.xml\"/".toList, ">\n  <rs:md".toList, " capabilit".toList, "y=\"changel".toList,
  "ist\"\n     ".toList, "    from=\"".toList, "2013-01-02".toList, "T00:00:00Z".toList, "\"\n        ".toList, " until=\"20".toList, "13-01-03T0".toList,
  "0:00:00Z\"/".toList, ">\n  <url>\n".toList, "      <loc".toList, ">http://ex".toList, "ample.com/".toList, "res7.html<".toList, "/loc>\n    ".toList,
  "  <rs:md c".toList, "hange=\"cre".toList, "ated\" date".toList, "time=\"2013".toList, "-01-02T12:".toList, "00:00Z\"/>\n".toList, "  </url>\n ".toList,
  " <url>\n   ".toList, "   <loc>ht".toList, "tp://examp".toList, "le.com/res".toList, "9.pdf</loc".toList, ">\n      <r".toList, "s:md chang".toList,
  "e=\"updated".toList, "\" datetime".toList, "=\"2013-01-".toList, "02T13:00:0".toList, "0Z\"/>\n  </".toList, "url>\n  <ur".toList, "l>\n      <".toList,
  "loc>http:/".toList, "/example.c".toList, "om/res5.ti".toList, "ff</loc>\n ".toList, "     <rs:m".toList, "d change=\"".toList, "deleted\" d".toList,
  "atetime=\"2".toList, "013-01-02T".toList, "19:00:00Z\"".toList, "/>\n  </url".toList, ">\n  <url>\n".toList, "      <loc".toList, ">http://ex".toList,
  "ample.com/".toList, "res7.html<".toList, "/loc>\n    ".toList, "  <rs:md c".toList, "hange=\"upd".toList, "ated\" date".toList, "time=\"2013".toList,
  "-01-02T20:".toList, "00:00Z\"/>\n".toList, "  </url>\n<".toList, "/urlset>\n".toList]
def doc_resourcesync_ex_22 : Str := List.flatten [
  "<?xml vers".toList, "ion=\"1.0\" ".toList, "encoding=\"".toList, "UTF-8\"?>\n<".toList, "urlset xml".toList, "ns=\"http:/".toList, "/www.sitem".toList,
  "aps.org/sc".toList, "hemas/site".toList, "map/0.9\"\n ".toList, "       xml".toList, "ns:rs=\"htt".toList, "p://www.op".toList, "enarchives".toList,
  ".org/rs/te".toList, "rms/\">\n  <".toList, "rs:ln rel=".toList, "\"up\"\n     ".toList, "    href=\"".toList, "http://exa".toList, "mple.com/d".toList,
  "ataset1/ca".toList, "pabilityli".toList, "st.xml\"/>\n".toList, "  <rs:md c".toList, "apability=".toList, "\"changedum".toList, "p\"\n       ".toList,
  "  from=\"20".toList, "13-01-01T0".toList, "0:00:00Z\"/".toList, ">\n  <url>\n".toList, "      <loc".toList, ">http://ex".toList, "ample.com/".toList,
  "20130101-c".toList, "hangedump.".toList, "zip</loc>\n".toList, "      <las".toList, "tmod>2013-".toList, "01-01T23:5".toList, "9:59Z</las".toList,
  "tmod>\n    ".toList, "  <rs:md t".toList, "ype=\"appli".toList, "cation/zip".toList, "\" \n       ".toList, "      leng".toList, "th=\"3109\"\n".toList,
  "          ".toList, "   from=\"2".toList, "013-01-01T".toList, "00:00:00Z\"".toList, "\n         ".toList, "    until=".toList, "\"2013-01-0".toList,
  "2T00:00:00".toList, "Z\"/>      ".toList, "     \n    ".toList, "  <rs:ln r".toList, "el=\"conten".toList, "ts\"\n      ".toList, "       hre".toList,
  "f=\"http://".toList, "example.co".toList, "m/20130101".toList, "-changedum".toList, "p-manifest".toList, ".xml\"\n    ".toList, "         t".toList,
  "ype=\"appli".toList, "cation/xml".toList, "\"/>\n  </ur".toList, "l>\n  <url>".toList, "\n      <lo".toList, "c>http://e".toList, "xample.com".toList,
  "/20130102-".toList, "changedump".toList, ".zip</loc>".toList, "\n      <la".toList, "stmod>2013".toList, "-01-02T23:".toList, "59:59Z</la".toList,
  "stmod>\n   ".toList, "   <rs:md ".toList, "type=\"appl".toList, "ication/zi".toList, "p\"\n       ".toList, "      leng".toList, "th=\"6629\"\n".toList,
  "          ".toList, "   from=\"2".toList, "013-01-02T".toList, "00:00:00Z\"".toList, "\n         ".toList, "    until=".toList, "\"2013-01-0".toList,
  "3T00:00:00".toList, "Z\"/>\n     ".toList, " <rs:ln re".toList, "l=\"content".toList, "s\"\n       ".toList, "      href".toList, "=\"http://e".toList,
  "xample.com".toList, "/20130102-".toList, "changedump".toList, "-manifest.".toList, "xml\"\n     ".toList, "        ty".toList, "pe=\"applic".toList,
  "ation/xml\"".toList, "/>\n  </url".toList, ">\n  <url>\n".toList, "      <loc".toList, ">http://ex".toList, "ample.com/".toList, "20130103-c".toList,
  "hangedump.".toList, "zip</loc>\n".toList, "      <las".toList, "tmod>2013-".toList, "01-03T23:5".toList, "9:59Z</las".toList, "tmod>\n    ".toList,
  "  <rs:md t".toList, "ype=\"appli".toList, "cation/zip".toList, "\"\n        ".toList, "     lengt".toList, "h=\"8124\"\n ".toList, "          ".toList,
  "  from=\"20".toList, "13-01-03T0".toList, "0:00:00Z\"\n".toList, "          ".toList, "   until=\"".toList, "2013-01-04".toList, "T00:00:00Z".toList,
  "\"/>\n      ".toList, "<rs:ln rel".toList, "=\"contents".toList, "\"\n        ".toList, "     href=".toList, "\"http://ex".toList, "ample.com/".toList,
  "20130103-c".toList, "hangedump-".toList, "manifest.x".toList, "ml\"\n      ".toList, "       typ".toList, "e=\"applica".toList, "tion/xml\"/".toList,
  ">\n  </url>".toList, "\n</urlset>".toList, "\n".toList]
def doc_resourcesync_ex_23 : Str := List.flatten [
  "<?xml vers".toList, "ion=\"1.0\" ".toList, "encoding=\"".toList, "UTF-8\"?>\n<".toList, "urlset xml".toList, "ns=\"http:/".toList, "/www.sitem".toList,
  "aps.org/sc".toList, "hemas/site".toList, "map/0.9\"\n ".toList, "       xml".toList, "ns:rs=\"htt".toList, "p://www.op".toList, "enarchives".toList,
  ".org/rs/te".toList, "rms/\">\n  <".toList, "rs:ln rel=".toList, "\"up\"\n     ".toList, "    href=\"".toList, "http://exa".toList, "mple.com/d".toList,
  "ataset1/ca".toList, "pabilityli".toList, "st.xml\"/>\n".toList, "  <rs:md c".toList, "apability=".toList, "\"changedum".toList, "p-manifest".toList,
  "\"\n        ".toList, " from=\"201".toList, "3-01-02T00".toList, ":00:00Z\"\n ".toList, "        un".toList, "til=\"2013-".toList, "01-03T00:0".toList,
  "0:00Z\"/>\n ".toList, " <url>\n   ".toList, "   <loc>ht".toList, "tp://examp".toList, "le.com/res".toList, "7.html</lo".toList, "c>\n      <".toList,
  "lastmod>20".toList, "13-01-02T1".toList, "2:00:00Z</".toList, "lastmod>\n ".toList, "     <rs:m".toList, "d change=\"".toList, "created\"\n ".toList,
  "          ".toList, "  datetime".toList, "=\"2013-01-".toList, "02T12:00:0".toList, "0Z\"\n      ".toList, "       has".toList, "h=\"md5:1c1".toList,
  "b0e264fa9b".toList, "7e1e9aa6f9".toList, "db8d6362b\"".toList, "\n         ".toList, "    length".toList, "=\"4339\"\n  ".toList, "          ".toList,
  " type=\"tex".toList, "t/html\"\n  ".toList, "          ".toList, " path=\"/ch".toList, "anges/res7".toList, ".html\"/>\n ".toList, " </url>\n  ".toList,
  "<url>\n    ".toList, "  <loc>htt".toList, "p://exampl".toList, "e.com/res9".toList, ".pdf</loc>".toList, "\n      <la".toList, "stmod>2013".toList,
  "-01-02T13:".toList, "00:00Z</la".toList, "stmod>\n   ".toList, "   <rs:md ".toList, "change=\"up".toList, "dated\"\n   ".toList, "          ".toList,
  "datetime=\"".toList, "2013-01-02".toList, "T13:00:00Z".toList, "\"\n        ".toList, "     hash=".toList, "\"md5:f9066".toList, "10c3d4aa74".toList,
  "5cb2b986f2".toList, "5b37c5a\"\n ".toList, "          ".toList, "  length=\"".toList, "38297\"\n   ".toList, "          ".toList, "type=\"appl".toList,
  "ication/pd".toList, "f\"\n       ".toList, "      path".toList, "=\"/changes".toList, "/res9.pdf\"".toList, "/>\n  </url".toList, ">\n  <url>\n".toList,
  "      <loc".toList, ">http://ex".toList, "ample.com/".toList, "res5.tiff<".toList, "/loc>\n    ".toList, "  <rs:md c".toList, "hange=\"del".toList,
  "eted\"\n    ".toList, "         d".toList, "atetime=\"2".toList, "013-01-02T".toList, "19:00:00Z\"".toList, "/>\n\n  </ur".toList, "l>\n  <url>".toList,
  "\n      <lo".toList, "c>http://e".toList, "xample.com".toList, "/res7.html".toList, "</loc>\n   ".toList, "   <lastmo".toList, "d>2013-01-".toList,
  "02T20:00:0".toList, "0Z</lastmo".toList, "d>\n      <".toList, "rs:md chan".toList, "ge=\"update".toList, "d\"\n       ".toList, "      date".toList,
  "time=\"2013".toList, "-01-02T20:".toList, "00:00Z\"\n  ".toList, "          ".toList, " hash=\"md5".toList, ":098864708".toList, "2c8bc51778".toList,
  "894a48ec3b".toList, "576\"\n     ".toList, "        le".toList, "ngth=\"5426".toList, "\"\n        ".toList, "     type=".toList, "\"text/html".toList,
  "\"\n        ".toList, "     path=".toList, "\"/changes/".toList, "res7-v2.ht".toList, "ml\"/>\n  </".toList, "url>\n</url".toList, "set>\n".toList]
def doc_resourcesync_ex_24 : Str := List.flatten [
  "<?xml vers".toList, "ion=\"1.0\" ".toList, "encoding=\"".toList, "UTF-8\"?>\n<".toList, "urlset xml".toList, "ns=\"http:/".toList, "/www.sitem".toList,
  "aps.org/sc".toList, "hemas/site".toList, "map/0.9\"\n ".toList, "       xml".toList, "ns:rs=\"htt".toList, "p://www.op".toList, "enarchives".toList,
  ".org/rs/te".toList, "rms/\">\n  <".toList, "rs:ln rel=".toList, "\"up\"\n     ".toList, "    href=\"".toList, "http://exa".toList, "mple.com/d".toList,
  "ataset1/ca".toList, "pabilityli".toList, "st.xml\"/>\n".toList, "  <rs:md c".toList, "apability=".toList, "\"changelis".toList, "t\"\n       ".toList,
  "  from=\"20".toList, "13-01-03T0".toList, "0:00:00Z\"/".toList, ">\n  <url>\n".toList, "      <loc".toList, ">http://ex".toList, "ample.com/".toList,
  "res1</loc>".toList, "\n      <la".toList, "stmod>2013".toList, "-01-03T18:".toList, "00:00Z</la".toList, "stmod>\n   ".toList, "   <rs:md ".toList,
  "change=\"up".toList, "dated\"\n   ".toList, "          ".toList, "hash=\"md5:".toList, "1584abdf8e".toList, "bdc9802ac0".toList, "c6a7402c03".toList,
  "b6\"\n      ".toList, "       len".toList, "gth=\"8876\"".toList, "\n         ".toList, "    type=\"".toList, "text/html\"".toList, "/>\n      <".toList,
  "rs:ln rel=".toList, "\"duplicate".toList, "\"\n        ".toList, "     pri=\"".toList, "1\"\n       ".toList, "      href".toList, "=\"http://m".toList,
  "irror1.exa".toList, "mple.com/r".toList, "es1\"\n     ".toList, "        mo".toList, "dified=\"20".toList, "13-01-03T1".toList, "8:00:00Z\"/".toList,
  ">\n      <r".toList, "s:ln rel=\"".toList, "duplicate\"".toList, "\n         ".toList, "    pri=\"2".toList, "\"\n        ".toList, "     href=".toList,
  "\"http://mi".toList, "rror2.exam".toList, "ple.com/re".toList, "s1\"\n      ".toList, "       mod".toList, "ified=\"201".toList, "3-01-03T18".toList,
  ":00:00Z\"/>".toList, "\n      <rs".toList, ":ln rel=\"d".toList, "uplicate\"\n".toList, "          ".toList, "   pri=\"3\"".toList, "\n         ".toList,
  "    href=\"".toList, "gsiftp://g".toList, "ridftp.exa".toList, "mple.com/r".toList, "es1\"\n     ".toList, "        mo".toList, "dified=\"20".toList,
  "13-01-03T1".toList, "8:00:23Z\"/".toList, ">\n  </url>".toList, "\n</urlset>".toList, "\n".toList]
def doc_resourcesync_ex_25 : Str := List.flatten [
  "<?xml vers".toList, "ion=\"1.0\" ".toList, "encoding=\"".toList, "UTF-8\"?>\n<".toList, "urlset xml".toList, "ns=\"http:/".toList, "/www.sitem".toList,
  "aps.org/sc".toList, "hemas/site".toList, "map/0.9\"\n ".toList, "       xml".toList, "ns:rs=\"htt".toList, "p://www.op".toList, "enarchives".toList,
  ".org/rs/te".toList, "rms/\">\n  <".toList, "rs:ln rel=".toList, "\"up\"\n     ".toList, "    href=\"".toList, "http://exa".toList, "mple.com/d".toList,
  "ataset1/ca".toList, "pabilityli".toList, "st.xml\"/>\n".toList, "  <rs:md c".toList, "apability=".toList, "\"changelis".toList, "t\"\n       ".toList,
  "  from=\"20".toList, "13-01-03T1".toList, "1:00:00Z\"/".toList, ">\n  <url>\n".toList, "      <loc".toList, ">http://ex".toList, "ample.com/".toList,
  "res1</loc>".toList, "\n      <rs".toList, ":md change".toList, "=\"updated\"".toList, "\n         ".toList, "    dateti".toList, "me=\"2013-0".toList,
  "1-03T18:00".toList, ":00Z\"/>\n  ".toList, "    <rs:ln".toList, " rel=\"alte".toList, "rnate\"\n   ".toList, "          ".toList, "href=\"http".toList,
  "://example".toList, ".com/res1.".toList, "html\"\n    ".toList, "         t".toList, "ype=\"text/".toList, "html\"/>\n  ".toList, "    <rs:ln".toList,
  " rel=\"alte".toList, "rnate\"\n   ".toList, "          ".toList, "href=\"http".toList, "://example".toList, ".com/res1.".toList, "pdf\"\n     ".toList,
  "        ty".toList, "pe=\"applic".toList, "ation/pdf\"".toList, "/>\n  </url".toList, ">\n</urlset".toList, ">\n".toList]
def doc_resourcesync_ex_26 : Str := List.flatten [
  "<?xml vers".toList, "ion=\"1.0\" ".toList, "encoding=\"".toList, "UTF-8\"?>\n<".toList, "urlset xml".toList, "ns=\"http:/".toList, "/www.sitem".toList,
  "aps.org/sc".toList, "hemas/site".toList, "map/0.9\"\n ".toList, "       xml".toList, "ns:rs=\"htt".toList, "p://www.op".toList, "enarchives".toList,
  ".org/rs/te".toList, "rms/\">\n  <".toList, "rs:ln rel=".toList, "\"up\"\n     ".toList, "    href=\"".toList, "http://exa".toList, "mple.com/d".toList,
  "ataset1/ca".toList, "pabilityli".toList, "st.xml\"/>\n".toList, "  <rs:md c".toList, "apability=".toList, "\"changelis".toList, "t\"\n       ".toList,
  "  from=\"20".toList, "13-01-03T0".toList, "0:00:00Z\"/".toList, ">\n  <url>\n".toList, "      <loc".toList, ">http://ex".toList, "ample.com/".toList,
  "res1.html<".toList, "/loc>\n    ".toList, "  <rs:md c".toList, "hange=\"upd".toList, "ated\"\n    ".toList, "         d".toList, "atetime=\"2".toList,
  "013-01-03T".toList, "18:00:00Z\"".toList, "\n         ".toList, "    hash=\"".toList, "md5:1584ab".toList, "df8ebdc980".toList, "2ac0c6a740".toList,
  "2c03b6\"\n  ".toList, "          ".toList, " length=\"8".toList, "876\"/>\n   ".toList, "   <rs:ln ".toList, "rel=\"canon".toList, "ical\"\n    ".toList,
  "         h".toList, "ref=\"http:".toList, "//example.".toList, "com/res1\"\n".toList, "          ".toList, "   modifie".toList, "d=\"2013-01".toList,
  "-03T18:00:".toList, "00Z\"/>\n  <".toList, "/url>\n</ur".toList, "lset>\n".toList]
def doc_resourcesync_ex_27 : Str := List.flatten [
  "<?xml vers".toList, "ion=\"1.0\" ".toList, "encoding=\"".toList, "UTF-8\"?>\n<".toList, "urlset xml".toList, "ns=\"http:/".toList, "/www.sitem".toList,
  "aps.org/sc".toList, "hemas/site".toList, "map/0.9\"\n ".toList, "       xml".toList, "ns:rs=\"htt".toList, "p://www.op".toList, "enarchives".toList,
  ".org/rs/te".toList, "rms/\">\n  <".toList, "rs:ln rel=".toList, "\"up\"\n     ".toList, "    href=\"".toList, "http://exa".toList, "mple.com/d".toList,
  "ataset1/ca".toList, "pabilityli".toList, "st.xml\"/>\n".toList, "  <rs:md c".toList, "apability=".toList, "\"changelis".toList, "t\"\n       ".toList,
  "  from=\"20".toList, "13-01-03T0".toList, "0:00:00Z\"/".toList, ">\n  <url>\n".toList, "      <loc".toList, ">http://ex".toList, "ample.com/".toList,
  "res4</loc>".toList, "\n      <rs".toList, ":md change".toList, "=\"updated\"".toList, "\n         ".toList, "    hash=\"".toList, "sha-256:f4".toList,
  "OxZX_x_DFG".toList, "FDgghgdfb6".toList, "rtSx-iosjf".toList, "6735432nkl".toList, "j\"\n       ".toList, "      leng".toList, "th=\"56778\"".toList,
  "\n         ".toList, "    type=\"".toList, "applicatio".toList, "n/json\"/>\n".toList, "      <rs:".toList, "ln rel=\"ht".toList, "tp://www.o".toList,
  "penarchive".toList, "s.org/rs/t".toList, "erms/patch".toList, "\"\n        ".toList, "     href=".toList, "\"http://ex".toList, "ample.com/".toList,
  "res4-json-".toList, "patch\"\n   ".toList, "          ".toList, "hash=\"sha-".toList, "256:y66dER".toList, "_t_HWEIKpe".toList, "sdkeb7rtSc".toList,
  "-ippjf9823".toList, "742opld\"\n ".toList, "          ".toList, "  length=\"".toList, "73\"\n      ".toList, "       typ".toList, "e=\"applica".toList,
  "tion/json-".toList, "patch\"/>\n ".toList, " </url>\n  ".toList, "<url>\n    ".toList, "  <loc>htt".toList, "p://exampl".toList, "e.com/res5".toList,
  "-full.tiff".toList, "</loc>\n   ".toList, "   <rs:md ".toList, "change=\"up".toList, "dated\"\n   ".toList, "          ".toList, "hash=\"sha-".toList,
  "256:f4OxZX".toList, "_x_FO5LcGB".toList, "SKHWXfwtSx".toList, "-j1ncoSt3S".toList, "ABJtkGk\"\n ".toList, "          ".toList, "  length=\"".toList,
  "9788456778".toList, "\"\n        ".toList, "     type=".toList, "\"image/tif".toList, "f\"/>\n     ".toList, " <rs:ln re".toList, "l=\"http://".toList,
  "www.openar".toList, "chives.org".toList, "/rs/terms/".toList, "patch\"\n   ".toList, "          ".toList, "href=\"http".toList, "://example".toList,
  ".com/res5-".toList, "diff\"\n    ".toList, "         h".toList, "ash=\"sha-2".toList, "56:h986gT_".toList, "t_87HTkjHY".toList, "E76G558hY-".toList,
  "jdfgy76t55".toList, "sadJUYT\"\n ".toList, "          ".toList, "  length=\"".toList, "4533\"\n    ".toList, "         t".toList, "ype=\"appli".toList,
  "cation/x-t".toList, "iff-diff\"/".toList, ">\n  </url>".toList, "\n</urlset>".toList, "\n".toList]
def doc_resourcesync_ex_28 : Str := List.flatten [
  "<?xml vers".toList, "ion=\"1.0\" ".toList, "encoding=\"".toList, "UTF-8\"?>\n<".toList, "urlset xml".toList, "ns=\"http:/".toList, "/www.sitem".toList,
  "aps.org/sc".toList, "hemas/site".toList, "map/0.9\"\n ".toList, "       xml".toList, "ns:rs=\"htt".toList, "p://www.op".toList, "enarchives".toList,
  ".org/rs/te".toList, "rms/\">\n  <".toList, "rs:ln rel=".toList, "\"up\"\n     ".toList, "    href=\"".toList, "http://exa".toList, "mple.com/d".toList,
  "ataset1/ca".toList, "pabilityli".toList, "st.xml\"/>\n".toList, "  <rs:md c".toList, "apability=".toList, "\"changelis".toList, "t\"\n       ".toList,
  "  from=\"20".toList, "13-01-03T0".toList, "0:00:00Z\"/".toList, ">\n  <url>\n".toList, "      <loc".toList, ">http://ex".toList, "ample.com/".toList,
  "res2.pdf</".toList, "loc>\n     ".toList, " <rs:md ch".toList, "ange=\"upda".toList, "ted\"\n     ".toList, "        da".toList, "tetime=\"20".toList,
  "13-01-03T1".toList, "8:00:00Z\"\n".toList, "          ".toList, "   hash=\"m".toList, "d5:1584abd".toList, "f8ebdc9802".toList, "ac0c6a7402".toList,
  "c03b6\"\n   ".toList, "          ".toList, "length=\"88".toList, "76\"\n      ".toList, "       typ".toList, "e=\"applica".toList, "tion/pdf\"/".toList,
  ">\n      <r".toList, "s:ln rel=\"".toList, "describedb".toList, "y\"\n       ".toList, "      href".toList, "=\"http://e".toList, "xample.com".toList,
  "/res2_dubl".toList, "in-core_me".toList, "tadata.xml".toList, "\"\n        ".toList, "     type=".toList, "\"applicati".toList, "on/xml\"/>\n".toList,
  "  </url>\n ".toList, " <url>\n   ".toList, "   <loc>ht".toList, "tp://examp".toList, "le.com/res".toList, "2_dublin-c".toList, "ore_metada".toList,
  "ta.xml</lo".toList, "c>\n      <".toList, "rs:md chan".toList, "ge=\"update".toList, "d\"\n       ".toList, "      date".toList, "time=\"2013".toList,
  "-01-03T19:".toList, "00:00Z\"\n  ".toList, "          ".toList, " type=\"app".toList, "lication/x".toList, "ml\"/>\n    ".toList, "  <rs:ln r".toList,
  "el=\"descri".toList, "bes\"\n     ".toList, "        hr".toList, "ef=\"http:/".toList, "/example.c".toList, "om/res2.pd".toList, "f\"\n       ".toList,
  "      hash".toList, "=\"md5:1584".toList, "abdf8ebdc9".toList, "802ac0c6a7".toList, "402c03b6\"\n".toList, "          ".toList, "   length=".toList,
  "\"8876\"\n   ".toList, "          ".toList, "type=\"appl".toList, "ication/pd".toList, "f\"/>\n     ".toList, " <rs:ln re".toList, "l=\"profile".toList,
  "\"\n        ".toList, "     href=".toList, "\"http://pu".toList, "rl.org/dc/".toList, "elements/1".toList, ".1/\"/>\n  <".toList, "/url>\n</ur".toList,
  "lset>\n".toList]
def doc_resourcesync_ex_29 : Str := List.flatten [
  "<?xml vers".toList, "ion=\"1.0\" ".toList, "encoding=\"".toList, "UTF-8\"?>\n<".toList, "urlset xml".toList, "ns=\"http:/".toList, "/www.sitem".toList,
  "aps.org/sc".toList, "hemas/site".toList, "map/0.9\"\n ".toList, "       xml".toList, "ns:rs=\"htt".toList, "p://www.op".toList, "enarchives".toList,
  ".org/rs/te".toList, "rms/\">\n  <".toList, "rs:ln rel=".toList, "\"up\"\n     ".toList, "    href=\"".toList, "http://exa".toList, "mple.com/d".toList,
  "ataset1/ca".toList, "pabilityli".toList, "st.xml\"/>\n".toList, "  <rs:md c".toList, "apability=".toList, "\"changelis".toList, "t\"\n       ".toList,
  "  from=\"20".toList, "13-01-03T0".toList, "0:00:00Z\"/".toList, ">\n  <url>\n".toList, "      <loc".toList, ">http://ex".toList, "ample.com/".toList,
  "res1</loc>".toList, "\n      <la".toList, "stmod>2013".toList, "-01-03T18:".toList, "00:00Z</la".toList, "stmod>\n   ".toList, "   <rs:md ".toList,
  "hash=\"md5:".toList, "1584abdf8e".toList, "bdc9802ac0".toList, "c6a7402c03".toList, "b6\"\n      ".toList, "       len".toList, "gth=\"8876\"".toList,
  "\n         ".toList, "    type=\"".toList, "text/html\"".toList, "\n         ".toList, "    change".toList, "=\"updated\"".toList, "/>\n      <".toList,
  "rs:ln rel=".toList, "\"memento\"\n".toList, "          ".toList, "   href=\"h".toList, "ttp://exam".toList, "ple.com/20".toList, "1301030700".toList,
  "00/res1\"\n ".toList, "          ".toList, "  modified".toList, "=\"2013-01-".toList, "02T18:00:0".toList, "0Z\"\n      ".toList, "       has".toList,
  "h=\"md5:158".toList, "4abdf8ebdc".toList, "9802ac0c6a".toList, "7402c03b6\"".toList, "\n         ".toList, "    length".toList, "=\"8876\"\n  ".toList,
  "          ".toList, " type=\"tex".toList, "t/html\"/>\n".toList, "      <rs:".toList, "ln rel=\"ti".toList, "megate\"\n  ".toList, "          ".toList,
  " href=\"htt".toList, "p://exampl".toList, "e.com/time".toList, "gate/http:".toList, "//example.".toList, "com/res1\"/".toList, ">\n      <r".toList,
  "s:ln rel=\"".toList, "timemap\"\n ".toList, "          ".toList, "  href=\"ht".toList, "tp://examp".toList, "le.com/tim".toList, "emap/http:".toList,
  "//example.".toList, "com/res1\"\n".toList, "          ".toList, "   type=\"a".toList, "pplication".toList, "/link-form".toList, "at\"/>\n  </".toList,
  "url>\n</url".toList, "set>\n".toList]
def doc_resourcesync_ex_3 : Str := List.flatten [
  "<?xml vers".toList, "ion=\"1.0\" ".toList, "encoding=\"".toList, "UTF-8\"?>\n<".toList, "urlset xml".toList, "ns=\"http:/".toList, "/www.sitem".toList,
  "aps.org/sc".toList, "hemas/site".toList, "map/0.9\"\n ".toList, "       xml".toList, "ns:rs=\"htt".toList, "p://www.op".toList, "enarchives".toList,
  ".org/rs/te".toList, "rms/\">\n  <".toList, "rs:md capa".toList, "bility=\"ch".toList, "angelist\"\n".toList, "         f".toList, "rom=\"2013-".toList,
  "01-02T00:0".toList, "0:00Z\"\n   ".toList, "      unti".toList, "l=\"2013-01".toList, "-03T00:00:".toList, "00Z\"/>\n  <".toList, "url>\n     ".toList,
  " <loc>http".toList, "://example".toList, ".com/res1.".toList, "pdf</loc>\n".toList, "      <las".toList, "tmod>2013-".toList, "01-02T13:0".toList,
  "0:00Z</las".toList, "tmod>\n    ".toList, "  <rs:md c".toList, "hange=\"upd".toList, "ated\" date".toList, "time=\"2013".toList, "-01-02T13:".toList,
  "00:00Z\"/>\n".toList, "  </url>\n ".toList, " <url>\n   ".toList, "   <loc>ht".toList, "tp://examp".toList, "le.com/res".toList, "2.pdf</loc".toList,
  ">\n      <r".toList, "s:md chang".toList, "e=\"deleted".toList, "\" datetime".toList, "=\"2013-01-".toList, "02T14:00:0".toList, "0Z\"/>\n  </".toList,
  "url>\n  <ur".toList, "l>\n      <".toList, "loc>http:/".toList, "/example.c".toList, "om/res3.ti".toList, "ff</loc>\n ".toList, "     <last".toList,
  "mod>2011-0".toList, "1-01T00:00".toList, ":00Z</last".toList, "mod>\n     ".toList, " <rs:md ch".toList, "ange=\"crea".toList, "ted\" datet".toList,
  "ime=\"2013-".toList, "01-02T15:0".toList, "0:00Z\"/>\n ".toList, " </url>\n</".toList, "urlset>\n".toList]
def doc_resourcesync_ex_30 : Str := List.flatten [
  "<?xml vers".toList, "ion=\"1.0\" ".toList, "encoding=\"".toList, "UTF-8\"?>\n<".toList, "urlset xml".toList, "ns=\"http:/".toList, "/www.sitem".toList,
  "aps.org/sc".toList, "hemas/site".toList, "map/0.9\"\n ".toList, "       xml".toList, "ns:rs=\"htt".toList, "p://www.op".toList, "enarchives".toList,
  ".org/rs/te".toList, "rms/\">\n  <".toList, "rs:ln rel=".toList, "\"up\"\n     ".toList, "    href=\"".toList, "http://exa".toList, "mple.com/d".toList,
  "ataset1/ca".toList, "pabilityli".toList, "st.xml\"/>\n".toList, "  <rs:md c".toList, "apability=".toList, "\"changelis".toList, "t\"\n       ".toList,
  "  from=\"20".toList, "13-01-03T0".toList, "0:00:00Z\"/".toList, ">\n  <url>\n".toList, "      <loc".toList, ">http://ex".toList, "ample.com/".toList,
  "res1</loc>".toList, "\n      <rs".toList, ":md hash=\"".toList, "md5:1584ab".toList, "df8ebdc980".toList, "2ac0c6a740".toList, "2c03b6\"\n  ".toList,
  "          ".toList, " length=\"8".toList, "876\"\n     ".toList, "        ty".toList, "pe=\"text/h".toList, "tml\"\n     ".toList, "        ch".toList,
  "ange=\"upda".toList, "ted\"/>\n   ".toList, "   <rs:ln ".toList, "rel=\"colle".toList, "ction\"\n   ".toList, "          ".toList, "href=\"http".toList,
  "://example".toList, ".com/aggre".toList, "gation/060".toList, "1007\"/>\n  ".toList, "</url>\n</u".toList, "rlset>\n".toList]
def doc_resourcesync_ex_31 : Str := List.flatten [
  "<?xml vers".toList, "ion=\"1.0\" ".toList, "encoding=\"".toList, "UTF-8\"?>\n<".toList, "urlset xml".toList, "ns=\"http:/".toList, "/www.sitem".toList,
  "aps.org/sc".toList, "hemas/site".toList, "map/0.9\"\n ".toList, "       xml".toList, "ns:rs=\"htt".toList, "p://www.op".toList, "enarchives".toList,
  ".org/rs/te".toList, "rms/\">\n  <".toList, "rs:ln rel=".toList, "\"up\"\n     ".toList, "    href=\"".toList, "http://exa".toList, "mple.com/d".toList,
  "ataset1/ca".toList, "pabilityli".toList, "st.xml\"/>\n".toList, "  <rs:md c".toList, "apability=".toList, "\"changelis".toList, "t\"\n       ".toList,
  "  from=\"20".toList, "13-01-03T0".toList, "0:00:00Z\"/".toList, ">\n  <url>\n".toList, "      <loc".toList, ">http://or".toList, "iginal.exa".toList,
  "mple.com/r".toList, "es1.html</".toList, "loc>\n     ".toList, " <lastmod>".toList, "2013-01-03".toList, "T07:00:00Z".toList, "</lastmod>".toList,
  "\n      <rs".toList, ":md hash=\"".toList, "md5:1584ab".toList, "df8ebdc980".toList, "2ac0c6a740".toList, "2c03b6\"\n  ".toList, "          ".toList,
  " length=\"8".toList, "876\"\n     ".toList, "        ty".toList, "pe=\"text/h".toList, "tml\"\n     ".toList, "        ch".toList, "ange=\"upda".toList,
  "ted\"/>\n  <".toList, "/url>\n</ur".toList, "lset>\n".toList]
def doc_resourcesync_ex_32 : Str := List.flatten [
  "<?xml vers".toList, "ion=\"1.0\" ".toList, "encoding=\"".toList, "UTF-8\"?>\n<".toList, "urlset xml".toList, "ns=\"http:/".toList, "/www.sitem".toList,
  "aps.org/sc".toList, "hemas/site".toList, "map/0.9\"\n ".toList, "       xml".toList, "ns:rs=\"htt".toList, "p://www.op".toList, "enarchives".toList,
  ".org/rs/te".toList, "rms/\">\n  <".toList, "rs:ln rel=".toList, "\"up\"\n     ".toList, "    href=\"".toList, "http://agg".toList, "regator1.e".toList,
  "xample.com".toList, "/dataset1/".toList, "capability".toList, "list.xml\"/".toList, ">\n  <rs:md".toList, " capabilit".toList, "y=\"changel".toList,
  "ist\"\n     ".toList, "    from=\"".toList, "2013-01-03".toList, "T11:00:00Z".toList, "\"/>\n  <url".toList, ">\n      <l".toList, "oc>http://".toList,
  "aggregator".toList, "1.example.".toList, "com/res1.h".toList, "tml</loc>\n".toList, "      <las".toList, "tmod>2013-".toList, "01-03T20:0".toList,
  "0:00Z</las".toList, "tmod>\n    ".toList, "  <rs:md h".toList, "ash=\"md5:1".toList, "584abdf8eb".toList, "dc9802ac0c".toList, "6a7402c03b".toList,
  "6\"\n       ".toList, "      leng".toList, "th=\"8876\"\n".toList, "          ".toList, "   type=\"t".toList, "ext/html\"\n".toList, "          ".toList,
  "   change=".toList, "\"updated\"/".toList, ">\n      <r".toList, "s:ln rel=\"".toList, "via\"\n     ".toList, "        hr".toList, "ef=\"http:/".toList,
  "/original.".toList, "example.co".toList, "m/res1.htm".toList, "l\"\n       ".toList, "      modi".toList, "fied=\"2013".toList, "-01-03T07:".toList,
  "00:00Z\"\n  ".toList, "          ".toList, " hash=\"md5".toList, ":1584abdf8".toList, "ebdc9802ac".toList, "0c6a7402c0".toList, "3b6\"\n     ".toList,
  "        le".toList, "ngth=\"8876".toList, "\"\n        ".toList, "     type=".toList, "\"text/html".toList, "\"/>\n  </ur".toList, "l>\n</urlse".toList,
  "t>\n".toList]
def doc_resourcesync_ex_33 : Str := List.flatten [
  "<?xml vers".toList, "ion=\"1.0\" ".toList, "encoding=\"".toList, "UTF-8\"?>\n<".toList, "urlset xml".toList, "ns=\"http:/".toList, "/www.sitem".toList,
  "aps.org/sc".toList, "hemas/site".toList, "map/0.9\"\n ".toList, "       xml".toList, "ns:rs=\"htt".toList, "p://www.op".toList, "enarchives".toList,
  ".org/rs/te".toList, "rms/\">\n  <".toList, "rs:ln rel=".toList, "\"up\"\n     ".toList, "    href=\"".toList, "http://agg".toList, "regator2.e".toList,
  "xample.com".toList, "/dataset1/".toList, "capability".toList, "list.xml\"/".toList, ">\n  <rs:md".toList, " capabilit".toList, "y=\"changel".toList,
  "ist\"\n     ".toList, "    from=\"".toList, "2013-01-03".toList, "T12:00:00Z".toList, "\"/>\n  <url".toList, ">\n      <l".toList, "oc>http://".toList,
  "aggregator".toList, "2.example.".toList, "com/res1.h".toList, "tml</loc>\n".toList, "      <las".toList, "tmod>2013-".toList, "01-04T09:0".toList,
  "0:00Z</las".toList, "tmod>\n    ".toList, "  <rs:md h".toList, "ash=\"md5:1".toList, "584abdf8eb".toList, "dc9802ac0c".toList, "6a7402c03b".toList,
  "6\"\n       ".toList, "      leng".toList, "th=\"8876\"\n".toList, "          ".toList, "   type=\"t".toList, "ext/html\"\n".toList, "          ".toList,
  "   change=".toList, "\"updated\"/".toList, ">\n      <r".toList, "s:ln rel=\"".toList, "via\"\n     ".toList, "        hr".toList, "ef=\"http:/".toList,
  "/original.".toList, "example.co".toList, "m/res1.htm".toList, "l\"\n       ".toList, "      modi".toList, "fied=\"2013".toList, "-01-03T07:".toList,
  "00:00Z\"\n  ".toList, "          ".toList, " hash=\"md5".toList, ":1584abdf8".toList, "ebdc9802ac".toList, "0c6a7402c0".toList, "3b6\"\n     ".toList,
  "        le".toList, "ngth=\"8876".toList, "\"\n        ".toList, "     type=".toList, "\"text/html".toList, "\"/>\n  </ur".toList, "l>\n</urlse".toList,
  "t>\n".toList]
def doc_resourcesync_ex_4 : Str := List.flatten [
  "<?xml vers".toList, "ion=\"1.0\" ".toList, "encoding=\"".toList, "UTF-8\"?>\n<".toList, "urlset xml".toList, "ns=\"http:/".toList, "/www.sitem".toList,
  "aps.org/sc".toList, "hemas/site".toList, "map/0.9\"\n ".toList, "       xml".toList, "ns:rs=\"htt".toList, "p://www.op".toList, "enarchives".toList,
  ".org/rs/te".toList, "rms/\">\n  <".toList, "rs:md capa".toList, "bility=\"re".toList, "sourcedump".toList, "\"\n        ".toList, " at=\"2013-".toList,
  "01-03T09:0".toList, "0:00Z\"/>\n ".toList, " <url>\n   ".toList, "   <loc>ht".toList, "tp://examp".toList, "le.com/res".toList, "ourcedump.".toList,
  "zip</loc>\n".toList, "  </url>\n<".toList, "/urlset>\n".toList]
def doc_resourcesync_ex_5 : Str := List.flatten [
  "<?xml vers".toList, "ion=\"1.0\" ".toList, "encoding=\"".toList, "UTF-8\"?>\n<".toList, "urlset xml".toList, "ns=\"http:/".toList, "/www.sitem".toList,
  "aps.org/sc".toList, "hemas/site".toList, "map/0.9\"\n ".toList, "       xml".toList, "ns:rs=\"htt".toList, "p://www.op".toList, "enarchives".toList,
  ".org/rs/te".toList, "rms/\">\n  <".toList, "rs:md capa".toList, "bility=\"re".toList, "sourcedump".toList, "-manifest\"".toList, "\n         ".toList,
  "at=\"2013-0".toList, "1-03T09:00".toList, ":00Z\"/>\n  ".toList, "<url>\n    ".toList, "  <loc>htt".toList, "p://exampl".toList, "e.com/res1".toList,
  "</loc>\n   ".toList, "   <rs:md ".toList, "hash=\"md5:".toList, "1584abdf8e".toList, "bdc9802ac0".toList, "c6a7402c03".toList, "b6\"\n      ".toList,
  "       pat".toList, "h=\"/resour".toList, "ces/res1\"/".toList, ">\n  </url>".toList, "\n  <url>\n ".toList, "     <loc>".toList, "http://exa".toList,
  "mple.com/r".toList, "es2</loc>\n".toList, "      <rs:".toList, "md hash=\"m".toList, "d5:1e0d5cb".toList, "8ef6ba40c9".toList, "9b14c0237b".toList,
  "e735e\"\n   ".toList, "          ".toList, "path=\"/res".toList, "ources/res".toList, "2\"/>\n  </u".toList, "rl>\n</urls".toList, "et>\n".toList]
def doc_resourcesync_ex_6 : Str := List.flatten [
  "<?xml vers".toList, "ion=\"1.0\" ".toList, "encoding=\"".toList, "UTF-8\"?>\n<".toList, "urlset xml".toList, "ns=\"http:/".toList, "/www.sitem".toList,
  "aps.org/sc".toList, "hemas/site".toList, "map/0.9\"\n ".toList, "       xml".toList, "ns:rs=\"htt".toList, "p://www.op".toList, "enarchives".toList,
  ".org/rs/te".toList, "rms/\">\n  <".toList, "rs:ln rel=".toList, "\"described".toList, "by\"\n      ".toList, "   href=\"h".toList, "ttp://exam".toList,
  "ple.com/in".toList, "fo_about_s".toList, "et1_of_res".toList, "ources.xml".toList, "\"/>\n  <rs:".toList, "ln rel=\"up".toList, "\"\n        ".toList,
  " href=\"htt".toList, "p://exampl".toList, "e.com/reso".toList, "urcesync_d".toList, "escription".toList, ".xml\"/>\n  ".toList, "<rs:md cap".toList,
  "ability=\"c".toList, "apabilityl".toList, "ist\"/>\n  <".toList, "url>\n     ".toList, " <loc>http".toList, "://example".toList, ".com/datas".toList,
  "et1/resour".toList, "celist.xml".toList, "</loc>\n   ".toList, "   <rs:md ".toList, "capability".toList, "=\"resource".toList, "list\"/>\n  ".toList,
  "</url>\n  <".toList, "url>\n     ".toList, " <loc>http".toList, "://example".toList, ".com/datas".toList, "et1/resour".toList, "cedump.xml".toList,
  "</loc>\n   ".toList, "   <rs:md ".toList, "capability".toList, "=\"resource".toList, "dump\"/>\n  ".toList, "</url>\n  <".toList, "url>\n     ".toList,
  " <loc>http".toList, "://example".toList, ".com/datas".toList, "et1/change".toList, "list.xml</".toList, "loc>\n     ".toList, " <rs:md ca".toList,
  "pability=\"".toList, "changelist".toList, "\"/>\n  </ur".toList, "l>\n</urlse".toList, "t>\n".toList]
def doc_resourcesync_ex_7 : Str := List.flatten [
  "<?xml vers".toList, "ion=\"1.0\" ".toList, "encoding=\"".toList, "UTF-8\"?>\n<".toList, "urlset xml".toList, "ns=\"http:/".toList, "/www.sitem".toList,
  "aps.org/sc".toList, "hemas/site".toList, "map/0.9\"\n ".toList, "       xml".toList, "ns:rs=\"htt".toList, "p://www.op".toList, "enarchives".toList,
  ".org/rs/te".toList, "rms/\">\n  <".toList, "rs:ln rel=".toList, "\"described".toList, "by\"\n      ".toList, "   href=\"h".toList, "ttp://exam".toList,
  "ple.com/in".toList, "fo-about-s".toList, "ource.xml\"".toList, "/>\n  <rs:m".toList, "d capabili".toList, "ty=\"descri".toList, "ption\"/>\n ".toList,
  " <url>\n   ".toList, "   <loc>ht".toList, "tp://examp".toList, "le.com/dat".toList, "aset1/capa".toList, "bilitylist".toList, ".xml</loc>".toList,
  "\n      <rs".toList, ":md capabi".toList, "lity=\"capa".toList, "bilitylist".toList, "\"/>\n      ".toList, "<rs:ln rel".toList, "=\"describe".toList,
  "dby\"\n     ".toList, "        hr".toList, "ef=\"http:/".toList, "/example.c".toList, "om/info_ab".toList, "out_set1_o".toList, "f_resource".toList,
  "s.xml\"/>\n ".toList, " </url>\n</".toList, "urlset>\n".toList]
def doc_resourcesync_ex_8 : Str := List.flatten [
  "<?xml vers".toList, "ion=\"1.0\" ".toList, "encoding=\"".toList, "UTF-8\"?>\n<".toList, "sitemapind".toList, "ex xmlns=\"".toList, "http://www".toList,
  ".sitemaps.".toList, "org/schema".toList, "s/sitemap/".toList, "0.9\"\n     ".toList, "         x".toList, "mlns:rs=\"h".toList, "ttp://www.".toList,
  "openarchiv".toList, "es.org/rs/".toList, "terms/\">\n ".toList, " <rs:md ca".toList, "pability=\"".toList, "resourceli".toList, "st\"\n      ".toList,
  "   at=\"201".toList, "3-01-03T09".toList, ":00:00Z\"/>".toList, "\n  <sitema".toList, "p>\n      <".toList, "loc>http:/".toList, "/example.c".toList,
  "om/resourc".toList, "elist-part".toList, "1.xml</loc".toList, ">\n  </site".toList, "map>\n  <si".toList, "temap>\n   ".toList, "   <loc>ht".toList,
  "tp://examp".toList, "le.com/res".toList, "ourcelist-".toList, "part2.xml<".toList, "/loc>\n  </".toList, "sitemap>\n<".toList, "/sitemapin".toList,
  "dex>\n".toList]

/-- test_build_ex_01 -/
example : sameDoc doc_resourcesync_ex_1 (built .resourceList {} ((({} : Container).setMdAt (.text ("2013-01-03".toList ++ "T09:00:00Z".toList)) 0).getD {}) false (do
    let e1 ← Resource.new { uri := some ("http://exa".toList ++ "mple.com/r".toList ++ "es1".toList) }
    let e2 ← Resource.new { uri := some ("http://exa".toList ++ "mple.com/r".toList ++ "es2".toList) }
    return [e1, e2])) = true := by decide +kernel

/-- test_build_ex_02 -/
example : sameDoc doc_resourcesync_ex_2 (built .resourceList {} ((({} : Container).setMdAt (.text ("2013-01-03".toList ++ "T09:00:00Z".toList)) 0).getD {}) false (do
    let e1 ← Resource.new { uri := some ("http://exa".toList ++ "mple.com/r".toList ++ "es1".toList), lastmod := some ("2013-01-02".toList ++ "T13:00:00Z".toList), md5 := some ("1584abdf8e".toList ++ "bdc9802ac0".toList ++ "c6a7402c03".toList ++ "b6".toList) }
    let r2 ← Resource.new { uri := some ("http://exa".toList ++ "mple.com/r".toList ++ "es2".toList), lastmod := some ("2013-01-02".toList ++ "T14:00:00Z".toList), md5 := some ("1e0d5cb8ef".toList ++ "6ba40c99b1".toList ++ "4c0237be73".toList ++ "5e".toList) }
    let r2 := r2.linkSet "duplicate".toList ("http://mir".toList ++ "ror.exampl".toList ++ "e.com/res2".toList) false []
    return [e1, r2])) = true := by decide +kernel

/-- test_build_ex_03 -/
example : sameDoc doc_resourcesync_ex_3 (built .changeList {} ((((({} : Container).setMdFrom (.text ("2013-01-02".toList ++ "T00:00:00Z".toList)) 0).getD {}).setMdUntil (.text ("2013-01-03".toList ++ "T00:00:00Z".toList)) 0).getD {}) false (do
    let e1 ← Resource.new { uri := some ("http://exa".toList ++ "mple.com/r".toList ++ "es1.pdf".toList), lastmod := some ("2013-01-02".toList ++ "T13:00:00Z".toList), change := some "updated".toList, datetime := some ("2013-01-02".toList ++ "T13:00:00Z".toList) }
    let e2 ← Resource.new { uri := some ("http://exa".toList ++ "mple.com/r".toList ++ "es2.pdf".toList), change := some "deleted".toList, datetime := some ("2013-01-02".toList ++ "T14:00:00Z".toList) }
    let e3 ← Resource.new { uri := some ("http://exa".toList ++ "mple.com/r".toList ++ "es3.tiff".toList), lastmod := some ("2011-01-01".toList ++ "T00:00:00Z".toList), change := some "created".toList, datetime := some ("2013-01-02".toList ++ "T15:00:00Z".toList) }
    return [e1, e2, e3])) = true := by decide +kernel

/-- test_build_ex_04 -/
example : sameDoc doc_resourcesync_ex_4 (built .resourceDump {} ((({} : Container).setMdAt (.text ("2013-01-03".toList ++ "T09:00:00Z".toList)) 0).getD {}) false (do
    let e1 ← Resource.new { uri := some ("http://exa".toList ++ "mple.com/r".toList ++ "esourcedum".toList ++ "p.zip".toList) }
    return [e1])) = true := by decide +kernel

/-- test_build_ex_05 -/
example : sameDoc doc_resourcesync_ex_5 (built .resourceDumpManifest {} ((({} : Container).setMdAt (.text ("2013-01-03".toList ++ "T09:00:00Z".toList)) 0).getD {}) false (do
    let e1 ← Resource.new { uri := some ("http://exa".toList ++ "mple.com/r".toList ++ "es1".toList), md5 := some ("1584abdf8e".toList ++ "bdc9802ac0".toList ++ "c6a7402c03".toList ++ "b6".toList), path := some ("/resources".toList ++ "/res1".toList) }
    let e2 ← Resource.new { uri := some ("http://exa".toList ++ "mple.com/r".toList ++ "es2".toList), md5 := some ("1e0d5cb8ef".toList ++ "6ba40c99b1".toList ++ "4c0237be73".toList ++ "5e".toList), path := some ("/resources".toList ++ "/res2".toList) }
    return [e1, e2])) = true := by decide +kernel

/-- test_build_ex_06 -/
example : sameDoc doc_resourcesync_ex_6 (built .capabilityList {} ((({} : Container).setDescribedby ("http://exa".toList ++ "mple.com/i".toList ++ "nfo_about_".toList ++ "set1_of_re".toList ++ "sources.xm".toList ++ "l".toList)).setUp ("http://exa".toList ++ "mple.com/r".toList ++ "esourcesyn".toList ++ "c_descript".toList ++ "ion.xml".toList)) false (do
    let e1 ← Resource.new { uri := some ("http://exa".toList ++ "mple.com/d".toList ++ "ataset1/re".toList ++ "sourcelist".toList ++ ".xml".toList), capability := some ("resourceli".toList ++ "st".toList) }
    let e2 ← Resource.new { uri := some ("http://exa".toList ++ "mple.com/d".toList ++ "ataset1/re".toList ++ "sourcedump".toList ++ ".xml".toList), capability := some ("resourcedu".toList ++ "mp".toList) }
    let e3 ← Resource.new { uri := some ("http://exa".toList ++ "mple.com/d".toList ++ "ataset1/ch".toList ++ "angelist.x".toList ++ "ml".toList), capability := some "changelist".toList }
    return [e1, e2, e3])) = true := by decide +kernel

/-- test_build_ex_07 -/
example : sameDoc doc_resourcesync_ex_7 (built .sourceDescription {} (({} : Container).setDescribedby ("http://exa".toList ++ "mple.com/i".toList ++ "nfo-about-".toList ++ "source.xml".toList)) false (do
    let r ← Resource.new { uri := some ("http://exa".toList ++ "mple.com/d".toList ++ "ataset1/ca".toList ++ "pabilityli".toList ++ "st.xml".toList), capability := some ("capability".toList ++ "list".toList) }
    let r := r.linkSet ("describedb".toList ++ "y".toList) ("http://exa".toList ++ "mple.com/i".toList ++ "nfo_about_".toList ++ "set1_of_re".toList ++ "sources.xm".toList ++ "l".toList) false []
    return [r])) = true := by decide +kernel

/-- test_build_ex_08 -/
example : sameDoc doc_resourcesync_ex_8 (built .resourceList {} ((({} : Container).setMdAt (.text ("2013-01-03".toList ++ "T09:00:00Z".toList)) 0).getD {}) true (do
    let e1 ← Resource.new { uri := some ("http://exa".toList ++ "mple.com/r".toList ++ "esourcelis".toList ++ "t-part1.xm".toList ++ "l".toList) }
    let e2 ← Resource.new { uri := some ("http://exa".toList ++ "mple.com/r".toList ++ "esourcelis".toList ++ "t-part2.xm".toList ++ "l".toList) }
    return [e1, e2])) = true := by decide +kernel

/-- test_build_ex_12 -/
example : sameDoc doc_resourcesync_ex_12 (built .sourceDescription {} (({} : Container).setDescribedby ("http://exa".toList ++ "mple.com/i".toList ++ "nfo_about_".toList ++ "source.xml".toList)) false (do
    let e1 ← Resource.new { uri := some ("http://exa".toList ++ "mple.com/c".toList ++ "apabilityl".toList ++ "ist1.xml".toList), capability := some (Kind.capability .capabilityList) }
    let e1 := e1.linkSet "describedby".toList ("http://exa".toList ++ "mple.com/i".toList ++ "nfo_about_".toList ++ "set1_of_re".toList ++ "sources.xm".toList ++ "l".toList)
    let e2 ← Resource.new { uri := some ("http://exa".toList ++ "mple.com/c".toList ++ "apabilityl".toList ++ "ist2.xml".toList), capability := some (Kind.capability .capabilityList) }
    let e2 := e2.linkSet "describedby".toList ("http://exa".toList ++ "mple.com/i".toList ++ "nfo_about_".toList ++ "set2_of_re".toList ++ "sources.xm".toList ++ "l".toList)
    let e3 ← Resource.new { uri := some ("http://exa".toList ++ "mple.com/c".toList ++ "apabilityl".toList ++ "ist3.xml".toList), capability := some (Kind.capability .capabilityList) }
    let e3 := e3.linkSet "describedby".toList ("http://exa".toList ++ "mple.com/i".toList ++ "nfo_about_".toList ++ "set3_of_re".toList ++ "sources.xm".toList ++ "l".toList)
    return [e1, e2, e3])) = true := by decide +kernel

/-- test_build_ex_13 -/
example : sameDoc doc_resourcesync_ex_13 (built .capabilityList {} ((({} : Container).setDescribedby ("http://exa".toList ++ "mple.com/i".toList ++ "nfo_about_".toList ++ "set1_of_re".toList ++ "sources.xm".toList ++ "l".toList)).setUp ("http://exa".toList ++ "mple.com/r".toList ++ "esourcesyn".toList ++ "c_descript".toList ++ "ion.xml".toList)) false (do
    let e1 ← Resource.new { uri := some ("http://exa".toList ++ "mple.com/d".toList ++ "ataset1/re".toList ++ "sourcelist".toList ++ ".xml".toList), capability := some (Kind.capability .resourceList) }
    let e2 ← Resource.new { uri := some ("http://exa".toList ++ "mple.com/d".toList ++ "ataset1/re".toList ++ "sourcedump".toList ++ ".xml".toList), capability := some (Kind.capability .resourceDump) }
    let e3 ← Resource.new { uri := some ("http://exa".toList ++ "mple.com/d".toList ++ "ataset1/ch".toList ++ "angelist.x".toList ++ "ml".toList), capability := some (Kind.capability .changeList) }
    let e4 ← Resource.new { uri := some ("http://exa".toList ++ "mple.com/d".toList ++ "ataset1/ch".toList ++ "angedump.x".toList ++ "ml".toList), capability := some (Kind.capability .changeDump) }
    return [e1, e2, e3, e4])) = true := by decide +kernel

/-- test_build_ex_14 -/
example : sameDoc doc_resourcesync_ex_14 (built .resourceList {} (((((({} : Container).setUp ("http://exa".toList ++ "mple.com/d".toList ++ "ataset1/ca".toList ++ "pabilityli".toList ++ "st.xml".toList)).setMdAt (.text ("2013-01-03".toList ++ "T09:00:00Z".toList)) 0).getD {}).setMdCompleted (.text ("2013-01-03".toList ++ "T09:01:00Z".toList)) 0).getD {}) false (do
    let e1 ← Resource.new { uri := some ("http://exa".toList ++ "mple.com/r".toList ++ "es1".toList), lastmod := some ("2013-01-02".toList ++ "T13:00:00Z".toList), md5 := some ("1584abdf8e".toList ++ "bdc9802ac0".toList ++ "c6a7402c03".toList ++ "b6".toList), length := some 8876, mime_type := some "text/html".toList }
    let e2 ← Resource.new { uri := some ("http://exa".toList ++ "mple.com/r".toList ++ "es2".toList), lastmod := some ("2013-01-02".toList ++ "T14:00:00Z".toList), md5 := some ("1e0d5cb8ef".toList ++ "6ba40c99b1".toList ++ "4c0237be73".toList ++ "5e".toList), sha256 := some ("854f61290e".toList ++ "2e197a11bc".toList ++ "91063afce2".toList ++ "2e43f8ccc6".toList ++ "55237050ac".toList ++ "e766adc68d".toList ++ "c784".toList), length := some 14599, mime_type := some ("applicatio".toList ++ "n/pdf".toList) }
    return [e1, e2])) = true := by decide +kernel

/-- test_build_ex_15 -/
example : sameDoc doc_resourcesync_ex_15 (builtOrdered (none.getD (Kind.capability .resourceList)) {} (((((({} : Container).setUp ("http://exa".toList ++ "mple.com/d".toList ++ "ataset1/ca".toList ++ "pabilityli".toList ++ "st.xml".toList)).setMdAt (.text ("2013-01-03".toList ++ "T09:00:00Z".toList)) 0).getD {}).setMdCompleted (.text ("2013-01-03".toList ++ "T09:10:00Z".toList)) 0).getD {}) true (do
    let e1 ← Resource.new { uri := some ("http://exa".toList ++ "mple.com/r".toList ++ "esourcelis".toList ++ "t1.xml".toList), md_at := some ("2013-01-03".toList ++ "T09:00:00Z".toList) }
    let e2 ← Resource.new { uri := some ("http://exa".toList ++ "mple.com/r".toList ++ "esourcelis".toList ++ "t2.xml".toList), md_at := some ("2013-01-03".toList ++ "T09:03:00Z".toList) }
    let e3 ← Resource.new { uri := some ("http://exa".toList ++ "mple.com/r".toList ++ "esourcelis".toList ++ "t3.xml".toList), md_at := some ("2013-01-03".toList ++ "T09:07:00Z".toList) }
    return [e1, e2, e3])) = true := by decide +kernel

/-- test_build_ex_16 -/
example : sameDoc doc_resourcesync_ex_16 (built .resourceList {} ((((({} : Container).setUp ("http://exa".toList ++ "mple.com/d".toList ++ "ataset1/ca".toList ++ "pabilityli".toList ++ "st.xml".toList)).setIndex ("http://exa".toList ++ "mple.com/d".toList ++ "ataset1/re".toList ++ "sourcelist".toList ++ "-index.xml".toList)).setMdAt (.text ("2013-01-03".toList ++ "T09:00:00Z".toList)) 0).getD {}) false (do
    let e1 ← Resource.new { uri := some ("http://exa".toList ++ "mple.com/r".toList ++ "es3".toList), md5 := some ("1584abdf8e".toList ++ "bdc9802ac0".toList ++ "c6a7402c87".toList ++ "53".toList), length := some 4385, mime_type := some ("applicatio".toList ++ "n/pdf".toList) }
    let e2 ← Resource.new { uri := some ("http://exa".toList ++ "mple.com/r".toList ++ "es4".toList), md5 := some ("4556abdf8e".toList ++ "bdc9802ac0".toList ++ "c6a7402c98".toList ++ "81".toList), length := some 883, mime_type := some "image/png".toList }
    return [e1, e2])) = true := by decide +kernel

/-- test_build_ex_17 -/
example : sameDoc doc_resourcesync_ex_17 (built .resourceDump {} (((((({} : Container).setUp ("http://exa".toList ++ "mple.com/d".toList ++ "ataset1/ca".toList ++ "pabilityli".toList ++ "st.xml".toList)).setMdAt (.text ("2013-01-03".toList ++ "T09:00:00Z".toList)) 0).getD {}).setMdCompleted (.text ("2013-01-03".toList ++ "T09:04:00Z".toList)) 0).getD {}) false (do
    let z1 ← Resource.new { uri := some ("http://exa".toList ++ "mple.com/r".toList ++ "esourcedum".toList ++ "p-part1.zi".toList ++ "p".toList), mime_type := some ("applicatio".toList ++ "n/zip".toList), length := some 4765, md_at := some ("2013-01-03".toList ++ "T09:00:00Z".toList), md_completed := some ("2013-01-03".toList ++ "T09:02:00Z".toList) }
    let z1 := z1.linkSet "contents".toList ("http://exa".toList ++ "mple.com/r".toList ++ "esourcedum".toList ++ "p_manifest".toList ++ "-part1.xml".toList) false [("mime_type".toList, ("applicatio".toList ++ "n/xml".toList))]
    let z2 ← Resource.new { uri := some ("http://exa".toList ++ "mple.com/r".toList ++ "esourcedum".toList ++ "p-part2.zi".toList ++ "p".toList), mime_type := some ("applicatio".toList ++ "n/zip".toList), length := some 9875, md_at := some ("2013-01-03".toList ++ "T09:01:00Z".toList), md_completed := some ("2013-01-03".toList ++ "T09:03:00Z".toList) }
    let z2 := z2.linkSet "contents".toList ("http://exa".toList ++ "mple.com/r".toList ++ "esourcedum".toList ++ "p_manifest".toList ++ "-part2.xml".toList) false [("mime_type".toList, ("applicatio".toList ++ "n/xml".toList))]
    let z3 ← Resource.new { uri := some ("http://exa".toList ++ "mple.com/r".toList ++ "esourcedum".toList ++ "p-part3.zi".toList ++ "p".toList), mime_type := some ("applicatio".toList ++ "n/zip".toList), length := some 2298, md_at := some ("2013-01-03".toList ++ "T09:03:00Z".toList), md_completed := some ("2013-01-03".toList ++ "T09:04:00Z".toList) }
    let z3 := z3.linkSet "contents".toList ("http://exa".toList ++ "mple.com/r".toList ++ "esourcedum".toList ++ "p_manifest".toList ++ "-part3.xml".toList) false [("mime_type".toList, ("applicatio".toList ++ "n/xml".toList))]
    return [z1, z2, z3])) = true := by decide +kernel

/-- test_build_ex_18 -/
example : sameDoc doc_resourcesync_ex_18 (built .resourceDumpManifest {} (((((({} : Container).setUp ("http://exa".toList ++ "mple.com/d".toList ++ "ataset1/ca".toList ++ "pabilityli".toList ++ "st.xml".toList)).setMdAt (.text ("2013-01-03".toList ++ "T09:00:00Z".toList)) 0).getD {}).setMdCompleted (.text ("2013-01-03".toList ++ "T09:02:00Z".toList)) 0).getD {}) false (do
    let e1 ← Resource.new { uri := some ("http://exa".toList ++ "mple.com/r".toList ++ "es1".toList), lastmod := some ("2013-01-02".toList ++ "T13:00:00Z".toList), md5 := some ("1584abdf8e".toList ++ "bdc9802ac0".toList ++ "c6a7402c03".toList ++ "b6".toList), length := some 8876, mime_type := some "text/html".toList, path := some ("/resources".toList ++ "/res1".toList) }
    let e2 ← Resource.new { uri := some ("http://exa".toList ++ "mple.com/r".toList ++ "es2".toList), lastmod := some ("2013-01-02".toList ++ "T14:00:00Z".toList), md5 := some ("1e0d5cb8ef".toList ++ "6ba40c99b1".toList ++ "4c0237be73".toList ++ "5e".toList), sha256 := some ("854f61290e".toList ++ "2e197a11bc".toList ++ "91063afce2".toList ++ "2e43f8ccc6".toList ++ "55237050ac".toList ++ "e766adc68d".toList ++ "c784".toList), length := some 14599, mime_type := some ("applicatio".toList ++ "n/pdf".toList), path := some ("/resources".toList ++ "/res2".toList) }
    return [e1, e2])) = true := by decide +kernel

/-- test_build_ex_19 -/
example : sameDoc doc_resourcesync_ex_19 (built .changeList {} (((({} : Container).setUp ("http://exa".toList ++ "mple.com/d".toList ++ "ataset1/ca".toList ++ "pabilityli".toList ++ "st.xml".toList)).setMdFrom (.text ("2013-01-03".toList ++ "T00:00:00Z".toList)) 0).getD {}) false (do
    let e1 ← Resource.new { uri := some ("http://exa".toList ++ "mple.com/r".toList ++ "es1.html".toList), lastmod := some ("2000-01-01".toList ++ "T01:01:00Z".toList), change := some "created".toList, datetime := some ("2013-01-03".toList ++ "T11:00:00Z".toList) }
    let e2 ← Resource.new { uri := some ("http://exa".toList ++ "mple.com/r".toList ++ "es2.pdf".toList), lastmod := some ("2013-01-03".toList ++ "T13:00:00Z".toList), change := some "updated".toList, datetime := some ("2013-01-03".toList ++ "T13:00:00Z".toList) }
    let e3 ← Resource.new { uri := some ("http://exa".toList ++ "mple.com/r".toList ++ "es3.tiff".toList), change := some "deleted".toList, datetime := some ("2013-01-03".toList ++ "T18:00:00Z".toList) }
    let e4 ← Resource.new { uri := some ("http://exa".toList ++ "mple.com/r".toList ++ "es2.pdf".toList), change := some "updated".toList }
    return [e1, e2, e3, e4])) = true := by decide +kernel

/-- test_build_ex_20 -/
example : sameDoc doc_resourcesync_ex_20 (builtOrdered ((some "changelist".toList).getD (Kind.capability .changeListArchive)) {} (((({} : Container).setUp ("http://exa".toList ++ "mple.com/d".toList ++ "ataset1/ca".toList ++ "pabilityli".toList ++ "st.xml".toList)).setMdFrom (.text ("2013-01-01".toList ++ "T00:00:00Z".toList)) 0).getD {}) true (do
    let e1 ← Resource.new { uri := some ("http://exa".toList ++ "mple.com/2".toList ++ "0130101-ch".toList ++ "angelist.x".toList ++ "ml".toList), md_from := some ("2013-01-01".toList ++ "T00:00:00Z".toList), md_until := some ("2013-01-02".toList ++ "T00:00:00Z".toList) }
    let e2 ← Resource.new { uri := some ("http://exa".toList ++ "mple.com/2".toList ++ "0130102-ch".toList ++ "angelist.x".toList ++ "ml".toList), md_from := some ("2013-01-02".toList ++ "T00:00:00Z".toList), md_until := some ("2013-01-03".toList ++ "T00:00:00Z".toList) }
    let e3 ← Resource.new { uri := some ("http://exa".toList ++ "mple.com/2".toList ++ "0130103-ch".toList ++ "angelist.x".toList ++ "ml".toList), md_from := some ("2013-01-03".toList ++ "T00:00:00Z".toList) }
    return [e1, e2, e3])) = true := by decide +kernel

/-- test_build_ex_21 -/
example : sameDoc doc_resourcesync_ex_21 (built .changeList {} ((((((({} : Container).setUp ("http://exa".toList ++ "mple.com/d".toList ++ "ataset1/ca".toList ++ "pabilityli".toList ++ "st.xml".toList)).setIndex ("http://exa".toList ++ "mple.com/d".toList ++ "ataset1/ch".toList ++ "angelist.x".toList ++ "ml".toList)).setMdFrom (.text ("2013-01-02".toList ++ "T00:00:00Z".toList)) 0).getD {}).setMdUntil (.text ("2013-01-03".toList ++ "T00:00:00Z".toList)) 0).getD {}) false (do
    let e1 ← Resource.new { uri := some ("http://exa".toList ++ "mple.com/r".toList ++ "es7.html".toList), change := some "created".toList, datetime := some ("2013-01-02".toList ++ "T12:00:00Z".toList) }
    let e2 ← Resource.new { uri := some ("http://exa".toList ++ "mple.com/r".toList ++ "es9.pdf".toList), change := some "updated".toList, datetime := some ("2013-01-02".toList ++ "T13:00:00Z".toList) }
    let e3 ← Resource.new { uri := some ("http://exa".toList ++ "mple.com/r".toList ++ "es5.tiff".toList), change := some "deleted".toList, datetime := some ("2013-01-02".toList ++ "T19:00:00Z".toList) }
    let e4 ← Resource.new { uri := some ("http://exa".toList ++ "mple.com/r".toList ++ "es7.html".toList), change := some "updated".toList, datetime := some ("2013-01-02".toList ++ "T20:00:00Z".toList) }
    return [e1, e2, e3, e4])) = true := by decide +kernel

/-- test_build_ex_22 -/
example : sameDoc doc_resourcesync_ex_22 (built .changeDump {} (((({} : Container).setUp ("http://exa".toList ++ "mple.com/d".toList ++ "ataset1/ca".toList ++ "pabilityli".toList ++ "st.xml".toList)).setMdFrom (.text ("2013-01-01".toList ++ "T00:00:00Z".toList)) 0).getD {}) false (do
    let z1 ← Resource.new { uri := some ("http://exa".toList ++ "mple.com/2".toList ++ "0130101-ch".toList ++ "angedump.z".toList ++ "ip".toList), lastmod := some ("2013-01-01".toList ++ "T23:59:59Z".toList), length := some 3109, md_from := some ("2013-01-01".toList ++ "T00:00:00Z".toList), md_until := some ("2013-01-02".toList ++ "T00:00:00Z".toList), mime_type := some ("applicatio".toList ++ "n/zip".toList) }
    let z1 := z1.setNamed .contents ("http://exa".toList ++ "mple.com/2".toList ++ "0130101-ch".toList ++ "angedump-m".toList ++ "anifest.xm".toList ++ "l".toList)
    let z2 ← Resource.new { uri := some ("http://exa".toList ++ "mple.com/2".toList ++ "0130102-ch".toList ++ "angedump.z".toList ++ "ip".toList), lastmod := some ("2013-01-02".toList ++ "T23:59:59Z".toList), length := some 6629, md_from := some ("2013-01-02".toList ++ "T00:00:00Z".toList), md_until := some ("2013-01-03".toList ++ "T00:00:00Z".toList), mime_type := some ("applicatio".toList ++ "n/zip".toList) }
    let z2 := z2.setNamed .contents ("http://exa".toList ++ "mple.com/2".toList ++ "0130102-ch".toList ++ "angedump-m".toList ++ "anifest.xm".toList ++ "l".toList)
    let z3 ← Resource.new { uri := some ("http://exa".toList ++ "mple.com/2".toList ++ "0130103-ch".toList ++ "angedump.z".toList ++ "ip".toList), lastmod := some ("2013-01-03".toList ++ "T23:59:59Z".toList), length := some 8124, md_from := some ("2013-01-03".toList ++ "T00:00:00Z".toList), md_until := some ("2013-01-04".toList ++ "T00:00:00Z".toList), mime_type := some ("applicatio".toList ++ "n/zip".toList) }
    let z3 := z3.setNamed .contents ("http://exa".toList ++ "mple.com/2".toList ++ "0130103-ch".toList ++ "angedump-m".toList ++ "anifest.xm".toList ++ "l".toList)
    return [z1, z2, z3])) = true := by decide +kernel

/-- test_build_ex_23 -/
example : sameDoc doc_resourcesync_ex_23 (built .changeDumpManifest {} (((((({} : Container).setUp ("http://exa".toList ++ "mple.com/d".toList ++ "ataset1/ca".toList ++ "pabilityli".toList ++ "st.xml".toList)).setMdFrom (.text ("2013-01-02".toList ++ "T00:00:00Z".toList)) 0).getD {}).setMdUntil (.text ("2013-01-03".toList ++ "T00:00:00Z".toList)) 0).getD {}) false (do
    let e1 ← Resource.new { uri := some ("http://exa".toList ++ "mple.com/r".toList ++ "es7.html".toList), lastmod := some ("2013-01-02".toList ++ "T12:00:00Z".toList), change := some "created".toList, datetime := some ("2013-01-02".toList ++ "T12:00:00Z".toList), md5 := some ("1c1b0e264f".toList ++ "a9b7e1e9aa".toList ++ "6f9db8d636".toList ++ "2b".toList), length := some 4339, mime_type := some "text/html".toList, path := some ("/changes/r".toList ++ "es7.html".toList) }
    let e2 ← Resource.new { uri := some ("http://exa".toList ++ "mple.com/r".toList ++ "es9.pdf".toList), lastmod := some ("2013-01-02".toList ++ "T13:00:00Z".toList), change := some "updated".toList, datetime := some ("2013-01-02".toList ++ "T13:00:00Z".toList), md5 := some ("f906610c3d".toList ++ "4aa745cb2b".toList ++ "986f25b37c".toList ++ "5a".toList), length := some 38297, mime_type := some ("applicatio".toList ++ "n/pdf".toList), path := some ("/changes/r".toList ++ "es9.pdf".toList) }
    let e3 ← Resource.new { uri := some ("http://exa".toList ++ "mple.com/r".toList ++ "es5.tiff".toList), change := some "deleted".toList, datetime := some ("2013-01-02".toList ++ "T19:00:00Z".toList) }
    let e4 ← Resource.new { uri := some ("http://exa".toList ++ "mple.com/r".toList ++ "es7.html".toList), lastmod := some ("2013-01-02".toList ++ "T20:00:00Z".toList), change := some "updated".toList, datetime := some ("2013-01-02".toList ++ "T20:00:00Z".toList), md5 := some ("0988647082".toList ++ "c8bc517788".toList ++ "94a48ec3b5".toList ++ "76".toList), length := some 5426, mime_type := some "text/html".toList, path := some ("/changes/r".toList ++ "es7-v2.htm".toList ++ "l".toList) }
    return [e1, e2, e3, e4])) = true := by decide +kernel

/-- test_build_ex_24 -/
example : sameDoc doc_resourcesync_ex_24 (built .changeList {} (((({} : Container).setUp ("http://exa".toList ++ "mple.com/d".toList ++ "ataset1/ca".toList ++ "pabilityli".toList ++ "st.xml".toList)).setMdFrom (.text ("2013-01-03".toList ++ "T00:00:00Z".toList)) 0).getD {}) false (do
    let c1 ← Resource.new { uri := some ("http://exa".toList ++ "mple.com/r".toList ++ "es1".toList), lastmod := some ("2013-01-03".toList ++ "T18:00:00Z".toList), change := some "updated".toList, md5 := some ("1584abdf8e".toList ++ "bdc9802ac0".toList ++ "c6a7402c03".toList ++ "b6".toList), length := some 8876, mime_type := some "text/html".toList }
    let c1 := c1.linkSet "duplicate".toList ("http://mir".toList ++ "ror1.examp".toList ++ "le.com/res".toList ++ "1".toList) false [("pri".toList, "1".toList), ("modified".toList, ("2013-01-03".toList ++ "T18:00:00Z".toList))]
    let c1 := c1.linkSet "duplicate".toList ("http://mir".toList ++ "ror2.examp".toList ++ "le.com/res".toList ++ "1".toList) true [("pri".toList, "2".toList), ("modified".toList, ("2013-01-03".toList ++ "T18:00:00Z".toList))]
    let c1 := c1.linkSet "duplicate".toList ("gsiftp://g".toList ++ "ridftp.exa".toList ++ "mple.com/r".toList ++ "es1".toList) true [("pri".toList, "3".toList), ("modified".toList, ("2013-01-03".toList ++ "T18:00:23Z".toList))]
    return [c1])) = true := by decide +kernel

/-- test_build_ex_25 -/
example : sameDoc doc_resourcesync_ex_25 (built .changeList {} (((({} : Container).setUp ("http://exa".toList ++ "mple.com/d".toList ++ "ataset1/ca".toList ++ "pabilityli".toList ++ "st.xml".toList)).setMdFrom (.text ("2013-01-03".toList ++ "T11:00:00Z".toList)) 0).getD {}) false (do
    let c1 ← Resource.new { uri := some ("http://exa".toList ++ "mple.com/r".toList ++ "es1".toList), change := some "updated".toList, datetime := some ("2013-01-03".toList ++ "T18:00:00Z".toList) }
    let c1 := c1.linkSet "alternate".toList ("http://exa".toList ++ "mple.com/r".toList ++ "es1.html".toList) true [("type".toList, "text/html".toList)]
    let c1 := c1.linkSet "alternate".toList ("http://exa".toList ++ "mple.com/r".toList ++ "es1.pdf".toList) true [("type".toList, ("applicatio".toList ++ "n/pdf".toList))]
    return [c1])) = true := by decide +kernel

/-- test_build_ex_26 -/
example : sameDoc doc_resourcesync_ex_26 (built .changeList {} (((({} : Container).setUp ("http://exa".toList ++ "mple.com/d".toList ++ "ataset1/ca".toList ++ "pabilityli".toList ++ "st.xml".toList)).setMdFrom (.text ("2013-01-03".toList ++ "T00:00:00Z".toList)) 0).getD {}) false (do
    let c1 ← Resource.new { uri := some ("http://exa".toList ++ "mple.com/r".toList ++ "es1.html".toList), change := some "updated".toList, datetime := some ("2013-01-03".toList ++ "T18:00:00Z".toList), md5 := some ("1584abdf8e".toList ++ "bdc9802ac0".toList ++ "c6a7402c03".toList ++ "b6".toList), length := some 8876 }
    let c1 := c1.linkSet "canonical".toList ("http://exa".toList ++ "mple.com/r".toList ++ "es1".toList) true [("modified".toList, ("2013-01-03".toList ++ "T18:00:00Z".toList))]
    return [c1])) = true := by decide +kernel

/-- test_build_ex_27 -/
example : sameDoc doc_resourcesync_ex_27 (built .changeList {} (((({} : Container).setUp ("http://exa".toList ++ "mple.com/d".toList ++ "ataset1/ca".toList ++ "pabilityli".toList ++ "st.xml".toList)).setMdFrom (.text ("2013-01-03".toList ++ "T00:00:00Z".toList)) 0).getD {}) false (do
    let c1 ← Resource.new { uri := some ("http://exa".toList ++ "mple.com/r".toList ++ "es4".toList), change := some "updated".toList, sha256 := some ("f4OxZX_x_D".toList ++ "FGFDgghgdf".toList ++ "b6rtSx-ios".toList ++ "jf6735432n".toList ++ "klj".toList), length := some 56778, mime_type := some ("applicatio".toList ++ "n/json".toList) }
    let c1 := c1.linkSet ("http://www".toList ++ ".openarchi".toList ++ "ves.org/rs".toList ++ "/terms/pat".toList ++ "ch".toList) ("http://exa".toList ++ "mple.com/r".toList ++ "es4-json-p".toList ++ "atch".toList) false [("hash".toList, ("sha-256:y6".toList ++ "6dER_t_HWE".toList ++ "IKpesdkeb7".toList ++ "rtSc-ippjf".toList ++ "9823742opl".toList ++ "d".toList)), ("length".toList, "73".toList), ("type".toList, ("applicatio".toList ++ "n/json-pat".toList ++ "ch".toList))]
    let c2 ← Resource.new { uri := some ("http://exa".toList ++ "mple.com/r".toList ++ "es5-full.t".toList ++ "iff".toList), change := some "updated".toList, sha256 := some ("f4OxZX_x_F".toList ++ "O5LcGBSKHW".toList ++ "XfwtSx-j1n".toList ++ "coSt3SABJt".toList ++ "kGk".toList), length := some 9788456778, mime_type := some "image/tiff".toList }
    let c2 := c2.linkSet ("http://www".toList ++ ".openarchi".toList ++ "ves.org/rs".toList ++ "/terms/pat".toList ++ "ch".toList) ("http://exa".toList ++ "mple.com/r".toList ++ "es5-diff".toList) false [("hash".toList, ("sha-256:h9".toList ++ "86gT_t_87H".toList ++ "TkjHYE76G5".toList ++ "58hY-jdfgy".toList ++ "76t55sadJU".toList ++ "YT".toList)), ("length".toList, "4533".toList), ("type".toList, ("applicatio".toList ++ "n/x-tiff-d".toList ++ "iff".toList))]
    return [c1, c2])) = true := by decide +kernel

/-- test_build_ex_28 -/
example : sameDoc doc_resourcesync_ex_28 (built .changeList {} (((({} : Container).setUp ("http://exa".toList ++ "mple.com/d".toList ++ "ataset1/ca".toList ++ "pabilityli".toList ++ "st.xml".toList)).setMdFrom (.text ("2013-01-03".toList ++ "T00:00:00Z".toList)) 0).getD {}) false (do
    let c1 ← Resource.new { uri := some ("http://exa".toList ++ "mple.com/r".toList ++ "es2.pdf".toList), change := some "updated".toList, datetime := some ("2013-01-03".toList ++ "T18:00:00Z".toList), md5 := some ("1584abdf8e".toList ++ "bdc9802ac0".toList ++ "c6a7402c03".toList ++ "b6".toList), length := some 8876, mime_type := some ("applicatio".toList ++ "n/pdf".toList) }
    let c1 := c1.linkSet ("describedb".toList ++ "y".toList) ("http://exa".toList ++ "mple.com/r".toList ++ "es2_dublin".toList ++ "-core_meta".toList ++ "data.xml".toList) false [("type".toList, ("applicatio".toList ++ "n/xml".toList))]
    let c2 ← Resource.new { uri := some ("http://exa".toList ++ "mple.com/r".toList ++ "es2_dublin".toList ++ "-core_meta".toList ++ "data.xml".toList), change := some "updated".toList, datetime := some ("2013-01-03".toList ++ "T19:00:00Z".toList), mime_type := some ("applicatio".toList ++ "n/xml".toList) }
    let c2 := c2.linkSet "describes".toList ("http://exa".toList ++ "mple.com/r".toList ++ "es2.pdf".toList) false [("hash".toList, ("md5:1584ab".toList ++ "df8ebdc980".toList ++ "2ac0c6a740".toList ++ "2c03b6".toList)), ("length".toList, "8876".toList), ("type".toList, ("applicatio".toList ++ "n/pdf".toList))]
    let c2 := c2.linkSet "profile".toList ("http://pur".toList ++ "l.org/dc/e".toList ++ "lements/1.".toList ++ "1/".toList) false []
    return [c1, c2])) = true := by decide +kernel

/-- test_build_ex_29 -/
example : sameDoc doc_resourcesync_ex_29 (built .changeList {} (((({} : Container).setUp ("http://exa".toList ++ "mple.com/d".toList ++ "ataset1/ca".toList ++ "pabilityli".toList ++ "st.xml".toList)).setMdFrom (.text ("2013-01-03".toList ++ "T00:00:00Z".toList)) 0).getD {}) false (do
    let c1 ← Resource.new { uri := some ("http://exa".toList ++ "mple.com/r".toList ++ "es1".toList), lastmod := some ("2013-01-03".toList ++ "T18:00:00Z".toList), change := some "updated".toList, md5 := some ("1584abdf8e".toList ++ "bdc9802ac0".toList ++ "c6a7402c03".toList ++ "b6".toList), length := some 8876, mime_type := some "text/html".toList }
    let c1 := c1.linkSet "memento".toList ("http://exa".toList ++ "mple.com/2".toList ++ "0130103070".toList ++ "000/res1".toList) true [("modified".toList, ("2013-01-02".toList ++ "T18:00:00Z".toList)), ("hash".toList, ("md5:1584ab".toList ++ "df8ebdc980".toList ++ "2ac0c6a740".toList ++ "2c03b6".toList)), ("length".toList, "8876".toList), ("type".toList, "text/html".toList)]
    let c1 := c1.linkSet "timegate".toList ("http://exa".toList ++ "mple.com/t".toList ++ "imegate/ht".toList ++ "tp://examp".toList ++ "le.com/res".toList ++ "1".toList) true []
    let c1 := c1.linkSet "timemap".toList ("http://exa".toList ++ "mple.com/t".toList ++ "imemap/htt".toList ++ "p://exampl".toList ++ "e.com/res1".toList) true [("type".toList, ("applicatio".toList ++ "n/link-for".toList ++ "mat".toList))]
    return [c1])) = true := by decide +kernel

/-- test_build_ex_30 -/
example : sameDoc doc_resourcesync_ex_30 (built .changeList {} (((({} : Container).setUp ("http://exa".toList ++ "mple.com/d".toList ++ "ataset1/ca".toList ++ "pabilityli".toList ++ "st.xml".toList)).setMdFrom (.text ("2013-01-03".toList ++ "T00:00:00Z".toList)) 0).getD {}) false (do
    let c1 ← Resource.new { uri := some ("http://exa".toList ++ "mple.com/r".toList ++ "es1".toList), change := some "updated".toList, md5 := some ("1584abdf8e".toList ++ "bdc9802ac0".toList ++ "c6a7402c03".toList ++ "b6".toList), length := some 8876, mime_type := some "text/html".toList }
    let c1 := c1.linkSet "collection".toList ("http://exa".toList ++ "mple.com/a".toList ++ "ggregation".toList ++ "/0601007".toList) true []
    return [c1])) = true := by decide +kernel

/-- test_build_ex_31 -/
example : sameDoc doc_resourcesync_ex_31 (built .changeList {} (((({} : Container).setUp ("http://exa".toList ++ "mple.com/d".toList ++ "ataset1/ca".toList ++ "pabilityli".toList ++ "st.xml".toList)).setMdFrom (.text ("2013-01-03".toList ++ "T00:00:00Z".toList)) 0).getD {}) false (do
    let c1 ← Resource.new { uri := some ("http://ori".toList ++ "ginal.exam".toList ++ "ple.com/re".toList ++ "s1.html".toList), lastmod := some ("2013-01-03".toList ++ "T07:00:00Z".toList), change := some "updated".toList, md5 := some ("1584abdf8e".toList ++ "bdc9802ac0".toList ++ "c6a7402c03".toList ++ "b6".toList), length := some 8876, mime_type := some "text/html".toList }
    return [c1])) = true := by decide +kernel

/-- test_build_ex_32 -/
example : sameDoc doc_resourcesync_ex_32 (built .changeList {} (((({} : Container).setUp ("http://agg".toList ++ "regator1.e".toList ++ "xample.com".toList ++ "/dataset1/".toList ++ "capability".toList ++ "list.xml".toList)).setMdFrom (.text ("2013-01-03".toList ++ "T11:00:00Z".toList)) 0).getD {}) false (do
    let c1 ← Resource.new { uri := some ("http://agg".toList ++ "regator1.e".toList ++ "xample.com".toList ++ "/res1.html".toList), lastmod := some ("2013-01-03".toList ++ "T20:00:00Z".toList), change := some "updated".toList, md5 := some ("1584abdf8e".toList ++ "bdc9802ac0".toList ++ "c6a7402c03".toList ++ "b6".toList), length := some 8876, mime_type := some "text/html".toList }
    let c1 := c1.linkSet "via".toList ("http://ori".toList ++ "ginal.exam".toList ++ "ple.com/re".toList ++ "s1.html".toList) true [("modified".toList, ("2013-01-03".toList ++ "T07:00:00Z".toList)), ("hash".toList, ("md5:1584ab".toList ++ "df8ebdc980".toList ++ "2ac0c6a740".toList ++ "2c03b6".toList)), ("length".toList, "8876".toList), ("type".toList, "text/html".toList)]
    return [c1])) = true := by decide +kernel

/-- test_build_ex_33 -/
example : sameDoc doc_resourcesync_ex_33 (built .changeList {} (((({} : Container).setUp ("http://agg".toList ++ "regator2.e".toList ++ "xample.com".toList ++ "/dataset1/".toList ++ "capability".toList ++ "list.xml".toList)).setMdFrom (.text ("2013-01-03".toList ++ "T12:00:00Z".toList)) 0).getD {}) false (do
    let c1 ← Resource.new { uri := some ("http://agg".toList ++ "regator2.e".toList ++ "xample.com".toList ++ "/res1.html".toList), lastmod := some ("2013-01-04".toList ++ "T09:00:00Z".toList), change := some "updated".toList, md5 := some ("1584abdf8e".toList ++ "bdc9802ac0".toList ++ "c6a7402c03".toList ++ "b6".toList), length := some 8876, mime_type := some "text/html".toList }
    let c1 := c1.linkSet "via".toList ("http://ori".toList ++ "ginal.exam".toList ++ "ple.com/re".toList ++ "s1.html".toList) true [("modified".toList, ("2013-01-03".toList ++ "T07:00:00Z".toList)), ("hash".toList, ("md5:1584ab".toList ++ "df8ebdc980".toList ++ "2ac0c6a740".toList ++ "2c03b6".toList)), ("length".toList, "8876".toList), ("type".toList, "text/html".toList)]
    return [c1])) = true := by decide +kernel

end Resync.Conform.Spec1_1
