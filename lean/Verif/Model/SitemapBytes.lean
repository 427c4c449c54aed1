import Verif.Model.SitemapText
import Verif.Py.Utf8
import Verif.Model.Hashes
/-
Model of documents as bytes: text files opened for writing by list_base.py and list_base_with_index.py, and what the XML parser makes of the bytes it
gets from url_or_file_open.  Only for UTF-8: files are opened without naming an encoding (the locale's is used, and declared in the
document), and the parser goes by the declaration.
-/

namespace Resync
open Py

/-- list_base.py 143-146, list_base_with_index.py 325-329, 338-353: `fh = open(basename, 'w')`, `resources_as_xml(..., fh=fh)`, `fh.close()`: the
bytes that are in the file afterwards -/
def documentBytes (s : Sitemap) (encoding : Str) (md : Dict Str) (ln : List Link) (rs : List Resource) (sitemapindex : Bool) :
    Except SmErr Bytes := do
  let text ← documentText s encoding md ln rs sitemapindex
  return utf8Encode text

/-- sitemap.py 178-179: `etree = parse(fh)` where `fh` gives bytes: bytes that are not UTF-8 are refused like a text that is not XML -/
def readBytes (b : Bytes) : Option Elem := (utf8Decode b).bind readXml

/-- sitemap.py 150-246 `parse_xml` of bytes -/
def parseBytes {σ : Type} (s : Sitemap) (add : σ → Resource → Except SmErr σ) (c : Cont σ) (b : Bytes) (capability : Option Str)
    (sitemapindex : Option Bool) : Except TextErr (Cont σ × Bool × Nat) :=
  match utf8Decode b with
  | none => .error .notXml
  | some text => parseText s add c text capability sitemapindex

end Resync
