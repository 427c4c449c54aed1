import Verif.Py.Str
/-
`urllib.parse.urlparse` (CPython 3.11 `urllib/parse.py` 376-507).  Trusted library model.

Simplification: the extra validity checks on bracketed IPv6 hosts (`_check_bracketed_host`)
and on non-ASCII netlocs (`_checknetloc`) are not modelled; such netlocs are accepted.
-/

namespace Py

/-- The six components. -/
structure Url where
  scheme : Str
  netloc : Str
  path : Str
  params : Str
  query : Str
  fragment : Str
deriving DecidableEq, Repr

def isAsciiAlpha (c : Char) : Bool :=
  (decide ('a'.toNat ≤ c.toNat) && decide (c.toNat ≤ 'z'.toNat)) ||
  (decide ('A'.toNat ≤ c.toNat) && decide (c.toNat ≤ 'Z'.toNat))

/-- `scheme_chars` -/
def isSchemeChar (c : Char) : Bool :=
  isAsciiAlpha c || isDigit c || c == '+' || c == '-' || c == '.'

/-- ASCII lower-casing (scheme characters are ASCII). -/
def lowerAscii (c : Char) : Char :=
  if decide ('A'.toNat ≤ c.toNat) && decide (c.toNat ≤ 'Z'.toNat) then Char.ofNat (c.toNat + 32)
  else c

def usesParams : List Str :=
  ["", "ftp", "hdl", "prospero", "http", "imap", "https", "shttp", "rtsp", "rtsps", "rtspu",
   "sip", "sips", "mms", "sftp", "tel"].map String.toList

/-- drop leading C0 controls and spaces, remove tab, CR, LF -/
def urlClean (s : Str) : Str :=
  (s.dropWhile (fun c => decide (c.toNat ≤ 32))).filter
    (fun c => c != '\t' && c != '\r' && c != '\n')

/-- scheme splitting: `(scheme, rest)` -/
def splitScheme (u : Str) : Str × Str :=
  match split1 ':' u with
  | (pre, some post) =>
    match pre with
    | [] => ([], u)
    | c :: _ =>
      if isAsciiAlpha c && pre.all isSchemeChar then (pre.map lowerAscii, post) else ([], u)
  | (_, none) => ([], u)

/-- netloc splitting: `(netloc, rest)` -/
def splitNetloc (u : Str) : Str × Str :=
  match u with
  | '/' :: '/' :: r =>
    (r.takeWhile (fun c => c != '/' && c != '?' && c != '#'),
     r.dropWhile (fun c => c != '/' && c != '?' && c != '#'))
  | _ => ([], u)

/-- `s.split(c,1)` with a default of the empty string for the second part -/
def cut (c : Char) (s : Str) : Str × Str :=
  match split1 c s with
  | (a, some b) => (a, b)
  | (a, none) => (a, [])

/-- `_splitparams`; only the last path segment is searched for ';' -/
def splitParams (u : Str) : Str × Str :=
  let last := (u.reverse.takeWhile (· != '/')).reverse
  let head := (u.reverse.dropWhile (· != '/')).reverse
  let r := cut ';' last
  (head ++ r.1, r.2)

/-- `urlparse(url)`; `none` is `ValueError("Invalid IPv6 URL")` -/
def urlparse (url : Str) : Option Url :=
  let u := urlClean url
  let s := splitScheme u
  let n := splitNetloc s.2
  if n.1.contains '[' != n.1.contains ']' then none
  else
    let f := cut '#' n.2
    let q := cut '?' f.1
    let p := if usesParams.contains s.1 && q.1.contains ';' then splitParams q.1 else (q.1, [])
    some { scheme := s.1, netloc := n.1, path := p.1, params := p.2, query := q.2, fragment := f.2 }

end Py
