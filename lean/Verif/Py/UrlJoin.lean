import Verif.Py.Url
/-
`urllib.parse.urlsplit`, `urlunsplit`, `urlunparse` and `urljoin` (CPython 3.11 `urllib/parse.py`).  Trusted library model;
the same simplification as in Url.lean.
-/

namespace Py

/-- `urlparse(url, scheme)`: the scheme given stands in for a missing one -/
def urlparseD (url dflt : Str) : Option Url :=
  let u := urlClean url
  let s := splitScheme u
  let scheme := if s.1 = [] then dflt else s.1
  let n := splitNetloc s.2
  if n.1.contains '[' != n.1.contains ']' then none
  else
    let f := cut '#' n.2
    let q := cut '?' f.1
    let p := if usesParams.contains scheme && q.1.contains ';' then splitParams q.1 else (q.1, [])
    some { scheme := scheme, netloc := n.1, path := p.1, params := p.2, query := q.2, fragment := f.2 }

def usesRelative : List Str :=
  ["", "ftp", "http", "gopher", "nntp", "imap", "wais", "file", "https", "shttp", "mms", "prospero", "rtsp", "rtsps",
   "rtspu", "sftp", "svn", "svn+ssh", "ws", "wss"].map String.toList

def usesNetloc : List Str :=
  ["", "ftp", "http", "gopher", "nntp", "telnet", "imap", "wais", "file", "mms", "https", "shttp", "snews", "prospero",
   "rtsp", "rtsps", "rtspu", "rsync", "svn", "svn+ssh", "sftp", "nfs", "git", "git+ssh", "ws", "wss"].map String.toList

/-- `urlunsplit` -/
def urlunsplit (scheme netloc path query fragment : Str) : Str :=
  let u := if netloc ≠ [] ∨ (scheme ≠ [] ∧ scheme ∈ usesNetloc) ∨ path.take 2 = "//".toList then
      let p := if path ≠ [] ∧ path.head? ≠ some '/' then '/' :: path else path
      "//".toList ++ netloc ++ p
    else path
  let u := if scheme ≠ [] then scheme ++ ':' :: u else u
  let u := if query ≠ [] then u ++ '?' :: query else u
  if fragment ≠ [] then u ++ '#' :: fragment else u

/-- `urlunparse` -/
def urlunparse (u : Url) : Str :=
  let path := if u.params ≠ [] then u.path ++ ';' :: u.params else u.path
  urlunsplit u.scheme u.netloc path u.query u.fragment

/-- `segments[1:-1] = filter(None, segments[1:-1])` -/
def filterMiddle : List Str → List Str
  | [] => []
  | [a] => [a]
  | a :: b :: t => a :: (((b :: t).dropLast).filter (· ≠ [])) ++ [(b :: t).getLast (by simp)]

/-- the loop building `resolved_path` -/
def resolveSegs (segments : List Str) : List Str :=
  segments.foldl (fun acc seg =>
    if seg = "..".toList then acc.dropLast else if seg = ".".toList then acc else acc ++ [seg]) []

/-- `urljoin(base, url)`; `none` is the ValueError of urlparse -/
def urljoin (base url : Str) : Option Str :=
  if base = [] then some url
  else if url = [] then some base
  else
    match urlparseD base [] with
    | none => none
    | some b =>
      match urlparseD url b.scheme with
      | none => none
      | some u =>
        if u.scheme ≠ b.scheme ∨ u.scheme ∉ usesRelative then some url
        else if u.scheme ∈ usesNetloc ∧ u.netloc ≠ [] then some (urlunparse u)
        else
          let netloc := if u.scheme ∈ usesNetloc then b.netloc else u.netloc
          if u.path = [] ∧ u.params = [] then
            let query := if u.query = [] then b.query else u.query
            some (urlunparse { u with netloc := netloc, path := b.path, params := b.params, query := query })
          else
            let bp := splitOn '/' b.path
            let bp := if bp.getLast? ≠ some [] then bp.dropLast else bp
            let segments := if u.path.head? = some '/' then splitOn '/' u.path
              else filterMiddle (bp ++ splitOn '/' u.path)
            let resolved := resolveSegs segments
            let resolved := if segments.getLast? = some ".".toList ∨ segments.getLast? = some "..".toList then
              resolved ++ [[]] else resolved
            let path := join ['/'] resolved
            some (urlunparse { u with netloc := netloc, path := if path = [] then ['/'] else path })

/-- `urlunsplit([parts[0], parts[1], '', '', ''])` of `parts = urlsplit(url)` -/
def urlHost (url : Str) : Option Str :=
  match urlparse url with
  | none => none
  | some u => some (urlunsplit u.scheme u.netloc [] [] [])

end Py
