import Verif.Py.Url
import Verif.Py.ConfigParser
import Verif.Py.Utf8
import Verif.Py.XmlText
/-
The file that `urllib.request.urlopen` opens for a URL of the scheme file (CPython 3.11, urllib/parse.py and urllib/request.py, on
POSIX).
-/

namespace Py

/-- urllib.parse.unwrap -/
def unwrapUrl (url : Str) : Str :=
  let u := strip url
  let u := if u.head? = some '<' ∧ u.getLast? = some '>' then strip (u.drop 1).dropLast else u
  if "URL:".toList <+: u then strip (u.drop 4) else u

/-- urllib.parse._splittag: what is before the last '#' -/
def splitTag (u : Str) : Str :=
  if '#' ∈ u then ((u.reverse.dropWhile (· != '#')).drop 1).reverse else u

/-- urllib.parse._splittype: `([^/:]+):(.*)`, the scheme in lower case (ASCII letters; other letters become none of the letters of
'file', 'http', ...) -/
def splitType (u : Str) : Option (Str × Str) :=
  let w := u.takeWhile (fun c => c != '/' && c != ':')
  if w ≠ [] ∧ (u.drop w.length).head? = some ':' then some (w.map lowerAscii, u.drop (w.length + 1)) else none

/-- urllib.parse._splithost: `//([^/#?]*)(.*)`; without a host part the first component is empty -/
def splitHost (u : Str) : Str × Str :=
  if "//".toList <+: u then
    let r := u.drop 2
    let host := r.takeWhile (fun c => c != '/' && c != '#' && c != '?')
    let path := r.drop host.length
    (host, if path ≠ [] ∧ path.head? ≠ some '/' then '/' :: path else path)
  else ([], u)

/-- the byte of two hexadecimal digits -/
def hexByte (a b : Char) : Option UInt8 :=
  match hexDigit a, hexDigit b with
  | some x, some y => some (UInt8.ofNat (16 * x + y))
  | _, _ => none

/-- urllib.parse.unquote_to_bytes, of a text of ASCII characters -/
def unquoteBytes : Str → List UInt8
  | [] => []
  | c :: t =>
    if c = '%' then
      match t with
      | a :: b :: t' => match hexByte a b with
        | some x => x :: unquoteBytes t'
        | none => utf8Char c ++ unquoteBytes (a :: b :: t')
      | t' => utf8Char c ++ unquoteBytes t'
    else utf8Char c ++ unquoteBytes t

/-- The loop of urllib.parse.unquote: each run of ASCII characters (collected in `run`) is unquoted and decoded by `dec`,
bytes.decode('utf-8', 'replace'); other characters are kept. -/
def unquoteRuns (dec : List UInt8 → Str) (run : Str) : Str → Str
  | [] => dec (unquoteBytes run)
  | c :: t => if c.toNat < 128 then unquoteRuns dec (run ++ [c]) t else dec (unquoteBytes run) ++ c :: unquoteRuns dec [] t

/-- urllib.parse.unquote -/
def unquote (dec : List UInt8 → Str) (s : Str) : Str := if '%' ∈ s then unquoteRuns dec [] s else s

/-- The file that urlopen(url) opens: Request.full_url and _parse, FileHandler.file_open and open_local_file, url2pathname (which is
unquote).  `none`: the URL is not one of the scheme file, or it names another host.  Simplification: of the names of this
machine only localhost is known. -/
def fileOfUrl (dec : List UInt8 → Str) (url : Str) : Option Str :=
  match splitType (splitTag (unwrapUrl url)) with
  | none => none
  | some (scheme, rest) =>
    if scheme = "file".toList then
      let (host, selector) := splitHost rest
      let host := unquote dec host
      if host = [] ∨ host = "localhost".toList then some (unquote dec selector) else none
    else none

end Py
