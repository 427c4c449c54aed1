import Verif.Model.Mapper
import Verif.Model.UrlAuthority
/-
What /repo/tests/test_mapper.py and /repo/tests/test_url_authority.py expect of mapper.py and url_authority.py, checked of the
model: these are tests of the model, not proofs of properties.
-/

namespace Resync.Conform
open Py

def isMapErr {α : Type} : Except MapErr α → Bool
  | .error .mapper => true
  | _ => false

/-- `Mapper(mappings)`, no other letters than the ASCII ones -/
def mkMapper (l : List String) (d : Bool := false) : Except MapErr Mapper :=
  Mapper.parse (fun _ => false) (l.map String.toList) d

/-- `Mapper(l).src_to_dst(u)` -/
def s2d (l : List String) (u : String) : Except MapErr Str := (mkMapper l).bind (fun m => m.srcToDst u.toList)
/-- `Mapper(l).dst_to_src(u)` -/
def d2s (l : List String) (u : String) : Except MapErr Str := (mkMapper l).bind (fun m => m.dstToSrc u.toList)
/-- `UrlAuthority(u, strict).has_authority_over(v)` -/
def auth (u : Option String) (strict : Bool) (v : String) : Option Bool :=
  (UrlAuthority.new (u.map String.toList) strict).bind (fun a => a.hasAuthorityOver v.toList)

/-! test00_mapper_creation -/

example : mkMapper ["http://e.org/p/", "/tmp/q/"] = .ok [⟨"http://e.org/p".toList, "/tmp/q".toList⟩] := by decide +kernel
example : mkMapper ["http://e.org/p", "/tmp/q"] = mkMapper ["http://e.org/p/", "/tmp/q/"] := by decide +kernel
example : mkMapper ["http://e.org/p/=/tmp/q/"] = mkMapper ["http://e.org/p/", "/tmp/q/"] := by decide +kernel
example : (mkMapper ["http://e.org/p/=/tmp/q/", "http://e.org/r/=/tmp/s/"]).map List.length = .ok 2 := by decide +kernel
example : (mkMapper ["http://e.org/r/=/tmp/s/", "http://e.org/p/=/tmp/q/"]).map List.length = .ok 2 := by decide +kernel
example : mkMapper ["http://e.org/p/=/tmp/q/", "http://e.org/r/=/tmp/s/"] ≠
    mkMapper ["http://e.org/r/=/tmp/s/", "http://e.org/p/=/tmp/q/"] := by decide +kernel
example : isMapErr (mkMapper ["a=b=c"]) = true := by decide +kernel
example : isMapErr (mkMapper ["a=b=c=d"]) = true := by decide +kernel
example : isMapErr (mkMapper ["a=b", "a=c"]) = true := by decide +kernel
example : isMapErr (mkMapper ["x=z", "y=z"]) = true := by decide +kernel


/-! TestMapper.test01_mapper_src_to_dst -/

example : s2d ["http://e.org/p/", "/tmp/q/"] "http://e.org/p/" = .ok "/tmp/q/".toList := by decide +kernel
example : s2d ["http://e.org/p/", "/tmp/q/"] "http://e.org/p/aa" = .ok "/tmp/q/aa".toList := by decide +kernel
example : s2d ["http://e.org/p/", "/tmp/q/"] "http://e.org/p/aa/bb" = .ok "/tmp/q/aa/bb".toList := by decide +kernel
example : s2d ["http://e.org/p/", "/tmp/q/"] "http://e.org/p/aa/bb/" = .ok "/tmp/q/aa/bb/".toList := by decide +kernel
example : s2d ["http://e.org/p/", "/tmp/q/"] "http://e.org/p" = .ok "/tmp/q/".toList := by decide +kernel
example : isMapErr (s2d ["http://e.org/p/", "/tmp/q/"] "http://e.org/pa") = true := by decide +kernel
example : isMapErr (s2d ["http://e.org/p/", "/tmp/q/"] "nomatch") = true := by decide +kernel

/-! TestMapper.test02_mapper_dst_to_src -/

example : d2s ["http://e.org/p/", "/tmp/q/"] "/tmp/q/" = .ok "http://e.org/p/".toList := by decide +kernel
example : d2s ["http://e.org/p/", "/tmp/q/"] "/tmp/q/bb" = .ok "http://e.org/p/bb".toList := by decide +kernel
example : d2s ["http://e.org/p/", "/tmp/q/"] "/tmp/q/bb/cc" = .ok "http://e.org/p/bb/cc".toList := by decide +kernel
example : d2s ["http://e.org/p/", "/tmp/q/"] "/tmp/q" = .ok "http://e.org/p/".toList := by decide +kernel
example : isMapErr (d2s ["http://e.org/p/", "/tmp/q/"] "/tmp/qa") = true := by decide +kernel
example : isMapErr (d2s ["http://e.org/p/", "/tmp/q/"] "nomatch") = true := by decide +kernel

/-! TestMapper.test03_mapper2_src_to_dst -/

example : s2d ["http://e.org/p=/tmp/q", "http://e.org/r=/tmp/s"] "http://e.org/p/" = .ok "/tmp/q/".toList := by decide +kernel
example : s2d ["http://e.org/p=/tmp/q", "http://e.org/r=/tmp/s"] "http://e.org/p/aa" = .ok "/tmp/q/aa".toList := by decide +kernel
example : s2d ["http://e.org/p=/tmp/q", "http://e.org/r=/tmp/s"] "http://e.org/r/" = .ok "/tmp/s/".toList := by decide +kernel
example : s2d ["http://e.org/p=/tmp/q", "http://e.org/r=/tmp/s"] "http://e.org/r/aa" = .ok "/tmp/s/aa".toList := by decide +kernel

/-! TestMapper.test04_mapper2_dst_to_src -/

example : d2s ["http://e.org/p=/tmp/q", "http://e.org/r=/tmp/s"] "/tmp/q/" = .ok "http://e.org/p/".toList := by decide +kernel
example : d2s ["http://e.org/p=/tmp/q", "http://e.org/r=/tmp/s"] "/tmp/q/bb" = .ok "http://e.org/p/bb".toList := by decide +kernel
example : d2s ["http://e.org/p=/tmp/q", "http://e.org/r=/tmp/s"] "/tmp/s/" = .ok "http://e.org/r/".toList := by decide +kernel
example : d2s ["http://e.org/p=/tmp/q", "http://e.org/r=/tmp/s"] "/tmp/s/bb" = .ok "http://e.org/r/bb".toList := by decide +kernel

/-! TestMapper.test05_path_from_uri -/

example : pathFromUri (fun _ => false) "a_file".toList = .ok "a_file".toList := by decide +kernel
example : pathFromUri (fun _ => false) "some_path/a_file".toList = .ok "some_path/a_file".toList := by decide +kernel
example : pathFromUri (fun _ => false) "http://localhost/p".toList = .ok "localhost_p".toList := by decide +kernel
example : pathFromUri (fun _ => false) "http://localhost:8888/p".toList = .ok "localhost_8888_p".toList := by decide +kernel
example : pathFromUri (fun _ => false) "https://localhost:8888/p".toList = .ok "localhost_8888_p".toList := by decide +kernel
example : pathFromUri (fun _ => false) "http://example.com".toList = .ok "example.com".toList := by decide +kernel
example : pathFromUri (fun _ => false) "http://example.com/".toList = .ok "example.com".toList := by decide +kernel
example : pathFromUri (fun _ => false) "http://example.com/ex1".toList = .ok "example.com_ex1".toList := by decide +kernel
example : pathFromUri (fun _ => false) "http://example.com/ex1/".toList = .ok "example.com_ex1".toList := by decide +kernel

/-! TestMapper.test06_mapper_unsafe -/

example : (mkMapper ["http://example.com/=/tmp/a"] false).bind Mapper.isUnsafe = .ok false := by decide +kernel
example : (mkMapper ["http://example.com/=http://example.com/"] false).bind Mapper.isUnsafe = .ok false := by decide +kernel
example : (mkMapper ["http://example.com/"] true).bind Mapper.isUnsafe = .ok false := by decide +kernel
example : (mkMapper ["/tmp/a"] true).bind Mapper.isUnsafe = .ok true := by decide +kernel
example : (mkMapper ["http://example.com/=/tmp/a", "/tmp/a=/tmp"] false).bind Mapper.isUnsafe = .ok true := by decide +kernel

/-! TestMapper.test07_default_src_uri -/

example : (mkMapper ["a=b"]).bind Mapper.defaultSrcUri = .ok "a".toList := by decide +kernel
example : (mkMapper ["a=b", "b=c"]).bind Mapper.defaultSrcUri = .ok "a".toList := by decide +kernel
example : isMapErr (Mapper.defaultSrcUri []) = true := by decide +kernel

/-! TestMap.test01_map_unsafe -/

example : (Map.new "http://example.com/".toList "path".toList).isUnsafe = .ok false := by decide +kernel
example : (Map.new "http://example.com/".toList "http://example.com/".toList).isUnsafe = .ok false := by decide +kernel
example : (Map.new "a".toList "b".toList).isUnsafe = .ok false := by decide +kernel
example : (Map.new "path/a".toList "path/b".toList).isUnsafe = .ok false := by decide +kernel
example : (Map.new "path".toList "path".toList).isUnsafe = .ok true := by decide +kernel
example : (Map.new "path/a".toList "path".toList).isUnsafe = .ok true := by decide +kernel
example : (Map.new "path".toList "path/b".toList).isUnsafe = .ok true := by decide +kernel

/-! TestMap.test02_dst_to_src -/

example : (Map.new "uri:a/b".toList "path/c".toList).dstToSrc "path/c/file".toList = .ok (some "uri:a/b/file".toList) := by decide +kernel
example : (Map.new "uri:a/b".toList "path/c".toList).dstToSrc "path/c/file/".toList = .ok (some "uri:a/b/file/".toList) := by decide +kernel
example : (Map.new "uri:a/b".toList "path/c".toList).dstToSrc "path/c".toList = .ok (some "uri:a/b/".toList) := by decide +kernel
example : (Map.new "uri:a/b".toList "path/c".toList).dstToSrc "path/c/".toList = .ok (some "uri:a/b/".toList) := by decide +kernel
example : (Map.new "uri:a/b".toList "path/c".toList).dstToSrc "path/cliff".toList = .ok (none) := by decide +kernel
example : (Map.new "uri:a/b/".toList "path/c/".toList).dstToSrc "path/c".toList = .ok (some "uri:a/b/".toList) := by decide +kernel
example : (Map.new "uri:a/b/".toList "path/c/".toList).dstToSrc "path/c/".toList = .ok (some "uri:a/b/".toList) := by decide +kernel
example : (Map.new "uri:a/b/".toList "path/c/".toList).dstToSrc "path/cliff".toList = .ok (none) := by decide +kernel
example : (Map.new "uri:a/b/".toList "path/c/".toList).dstToSrc "c/file".toList = .ok (none) := by decide +kernel
example : (Map.new "uri:a/b/".toList "path/c/".toList).dstToSrc "".toList = .ok (none) := by decide +kernel

/-! TestMap.test03_src_to_dst -/

example : (Map.new "uri:x/".toList "/tmp/gg/".toList).srcToDst "uri:other".toList = .ok (none) := by decide +kernel
example : (Map.new "uri:x/".toList "/tmp/gg/".toList).srcToDst "uri:x".toList = .ok (some "/tmp/gg/".toList) := by decide +kernel
example : (Map.new "uri:x/".toList "/tmp/gg/".toList).srcToDst "uri:x/".toList = .ok (some "/tmp/gg/".toList) := by decide +kernel
example : (Map.new "uri:x/".toList "/tmp/gg/".toList).srcToDst "uri:x/lizard".toList = .ok (some "/tmp/gg/lizard".toList) := by decide +kernel
example : (Map.new "uri:x/".toList "/tmp/gg/".toList).srcToDst "uri:x/lizard/".toList = .ok (some "/tmp/gg/lizard/".toList) := by decide +kernel

/-! TestUrlAuthority.test01_strict_authority -/

example : auth (some "http://example.org/sitemap.xml") true "http://example.org/sitemap.xml" = some true := by decide +kernel
example : auth (some "http://example.org/sitemap.xml") true "http://example.org/sitemap.xml?anything" = some true := by decide +kernel
example : auth (some "http://example.org/sitemap.xml") true "http://example.org/sitemap.xml#frag" = some true := by decide +kernel
example : auth (some "http://example.org/sitemap.xml") true "http://example.org/same_level" = some true := by decide +kernel
example : auth (some "http://example.org/sitemap.xml") true "http://example.org/one/deeper" = some true := by decide +kernel
example : auth (some "http://example.org/sitemap.xml") true "http://example.org/one/two/deeper" = some true := by decide +kernel
example : auth (some "http://example.org/sitemap.xml") true "http://example.org/" = some true := by decide +kernel
example : auth (some "http://example.org/sitemap.xml") true "http://sub.example.org/subdomain" = some true := by decide +kernel
example : auth (some "http://example.org/sitemap.xml") true "http://sub.sub.example.org/subsubdomain" = some true := by decide +kernel

/-! TestUrlAuthority.test02_strict_no_authority -/

example : auth (some "http://example.org/dir/sitemap.xml") true "http://example.org/sitemap.xml" = some false := by decide +kernel
example : auth (some "http://example.org/dir/sitemap.xml") true "http://sub.example.org/sitemap.xml" = some false := by decide +kernel
example : auth (some "http://example.org/dir/sitemap.xml") true "https://example.org/dir/sitemap.xml" = some false := by decide +kernel
example : auth (some "http://example.org/dir/sitemap.xml") true "unknown://example.org/dir/sitemap.xml" = some false := by decide +kernel

/-! TestUrlAuthority.test03_strict_domains -/

example : auth (some "http://a.example.org/sitemap.xml") true "http://a.example.org/sitemap.xml" = some true := by decide +kernel
example : auth (some "http://a.example.org/sitemap.xml") true "http://sub.a.example.org/sitemap.xml" = some true := by decide +kernel
example : auth (some "http://a.example.org/sitemap.xml") true "http://b.example.org/sitemap.xml" = some false := by decide +kernel
example : auth (some "http://a.example.org/sitemap.xml") true "http://sub.b.example.org/sitemap.xml" = some false := by decide +kernel

/-! TestUrlAuthority.test04_lax_authority -/

example : auth (some "http://example.org/dir/sitemap.xml") false "http://example.org/sitemap.xml" = some true := by decide +kernel
example : auth (some "http://example.org/dir/sitemap.xml") false "http://example.org/sitemap.xml?anything" = some true := by decide +kernel
example : auth (some "http://example.org/dir/sitemap.xml") false "http://example.org/sitemap.xml#frag" = some true := by decide +kernel
example : auth (some "http://example.org/dir/sitemap.xml") false "http://example.org/dir/same_level" = some true := by decide +kernel
example : auth (some "http://example.org/dir/sitemap.xml") false "http://example.org/dir/one/deeper" = some true := by decide +kernel
example : auth (some "http://example.org/dir/sitemap.xml") false "http://example.org/dir/one/two/deeper" = some true := by decide +kernel
example : auth (some "http://example.org/dir/sitemap.xml") false "http://example.org/shallower" = some true := by decide +kernel
example : auth (some "http://example.org/dir/sitemap.xml") false "http://example.org/" = some true := by decide +kernel
example : auth (some "http://example.org/dir/sitemap.xml") false "http://sub.example.org/subdomain" = some true := by decide +kernel
example : auth (some "http://example.org/dir/sitemap.xml") false "http://sub.sub.example.org/subsubdomain" = some true := by decide +kernel

/-! TestUrlAuthority.test05_lax_no_authority -/

example : auth (some "http://example.org/dir/sitemap.xml") false "http://other.org/sitemap.xml" = some false := by decide +kernel
example : auth (some "http://example.org/dir/sitemap.xml") false "unknown://example.org/dir/sitemap.xml" = some false := by decide +kernel

/-! TestUrlAuthority.test06_lax_domains -/

example : auth (some "http://a.example.org/sitemap.xml") false "http://a.example.org/sitemap.xml" = some true := by decide +kernel
example : auth (some "http://a.example.org/sitemap.xml") false "http://sub.a.example.org/sitemap.xml" = some true := by decide +kernel
example : auth (some "http://a.example.org/sitemap.xml") false "http://b.example.org/sitemap.xml" = some false := by decide +kernel
example : auth (some "http://a.example.org/sitemap.xml") false "http://sub.b.example.org/sitemap.xml" = some false := by decide +kernel

/-! TestUrlAuthority.test07_no_init_data -/

example : (UrlAuthority.new none false).map UrlAuthority.master_scheme = some "none".toList := by decide +kernel
example : auth none false "http://a.example.org/sitemap.xml" = some false := by decide +kernel
example : auth none false "http://sub.a.example.org/sitemap.xml" = some false := by decide +kernel

end Resync.Conform
