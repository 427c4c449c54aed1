import Verif.Py.Regex
import Verif.Py.Posix
import Verif.Py.Url
/-
Model of /repo/resync/mapper.py.
-/

namespace Resync
open Py

/-- Exceptions of mapper.py: `MapperError`, `re.error` for a base which is not a valid pattern,
`ValueError` from `urlparse`; `outside` is not a Python exception: the base uses `re` syntax
which the regex model does not cover. -/
inductive MapErr where
  | mapper
  | reError
  | valueError
  | outside
deriving DecidableEq, Repr

def MapErr.ofRe : ReErr → MapErr
  | .bad => .reError
  | .outside => .outside

/-- mapper.py 155-161: a `Map` object. -/
structure Map where
  src_uri : Str
  dst_path : Str
deriving DecidableEq, Repr

/-- the pattern `(.*)/+$` of mapper.py 165 -/
def slashRe : Re := .cat (.grp 1 (.star .dot)) (.cat (.plus (.lit '/')) .eos)

/-- mapper.py 163-168 `Map.strip_trailing_slashes` -/
def stripTrailingSlashes (path : Str) : Str :=
  match slashRe.matchStart path with
  | none => path
  | some m => (m.group 1).getD []   -- group 1 always participates

/-- mapper.py 155-161 `Map.__init__` -/
def Map.new (src dst : Str) : Map := ⟨stripTrailingSlashes src, stripTrailingSlashes dst⟩

/-- The text appended to the base in mapper.py 181 and 198. -/
def tailPattern : Str := "(/.*)?$".toList

/-- mapper.py 181-187 and 198-204, which are the same code with the two attributes swapped:
`re.match(base + "(/.*)?$", s)`, then `repl + (group(1) or '/')`. -/
def translate (base repl s : Str) : Except MapErr (Option Str) :=
  match compile (base ++ tailPattern) with
  | .error e => .error (.ofRe e)
  | .ok r =>
    match r.matchStart s with
    | none => .ok none
    | some m =>
      match m.group 1 with
      | none => .ok (some (repl ++ ['/']))
      | some rel => .ok (some (repl ++ rel))

/-- mapper.py 170-187 `Map.dst_to_src` -/
def Map.dstToSrc (m : Map) (dst_file : Str) : Except MapErr (Option Str) :=
  translate m.dst_path m.src_uri dst_file

/-- mapper.py 189-204 `Map.src_to_dst` -/
def Map.srcToDst (m : Map) (src_uri : Str) : Except MapErr (Option Str) :=
  translate m.src_uri m.dst_path src_uri

/-- mapper.py 206-218 `Map.unsafe` -/
def Map.isUnsafe (m : Map) : Except MapErr Bool :=
  match urlparse m.src_uri with
  | none => .error .valueError
  | some u =>
    if u.scheme ≠ [] then .ok false
    else
      let s := normpath m.src_uri
      let d := normpath m.dst_path
      let lcp := commonPrefix s d
      .ok (decide (s = lcp) || decide (d = lcp))

/-- mapper.py 13-24: a `Mapper` object is its list of maps. -/
abbrev Mapper := List Map

/-- mapper.py 122-136 `Mapper.path_from_uri`.  `uw` says which non-ASCII characters `\w` matches. -/
def isWordAscii (c : Char) : Bool := isAsciiAlpha c || isDigit c || c == '_'

/-- `\w` -/
def isWord (uw : Char → Bool) (c : Char) : Bool :=
  if c.toNat < 128 then isWordAscii c else uw c

/-- `re.sub(r'__+', '_', s)`: collapse runs of underscores -/
def collapseUnderscores : Str → Str
  | [] => []
  | [c] => [c]
  | c :: d :: t =>
    if c = '_' ∧ d = '_' then collapseUnderscores (d :: t)
    else c :: collapseUnderscores (d :: t)

def isUnderscoreDot (c : Char) : Bool := c == '_' || c == '.'

/-- `re.sub(r'[_\.]+$', '', s)`.  No newline is left in `s` at this point (newline is not a word
character), so `$` is the end of the string. -/
def stripEnd (s : Str) : Str := (s.reverse.dropWhile isUnderscoreDot).reverse

/-- `re.sub(r'^[_\.]+', '', s)` -/
def stripStart (s : Str) : Str := s.dropWhile isUnderscoreDot

/-- mapper.py 122-136 `Mapper.path_from_uri` -/
def pathFromUri (uw : Char → Bool) (uri : Str) : Except MapErr Str :=
  match urlparse uri with
  | none => .error .valueError
  | some u =>
    if u.netloc = [] then .ok uri
    else
      let path := join ['/'] [u.netloc, u.path]
      let path := path.map (fun c => if isWord uw c || c == '-' || c == '.' then c else '_')
      let path := collapseUnderscores path
      let path := stripEnd path
      let path := stripStart path
      .ok path

/-- mapper.py 58-77: the loop over `URI=path` arguments, starting with the mappings so far. -/
def parseEntries : Mapper → List Str → Except MapErr Mapper
  | ms, [] => .ok ms
  | ms, mapping :: rest =>
    match splitOn '=' mapping with
    | [src_uri, dst_path] =>
      -- 66-76: the two tests are made map by map; either raises MapperError
      if ms.any (fun m => decide (src_uri = m.src_uri) || decide (dst_path = m.dst_path)) then
        .error .mapper
      else parseEntries (ms ++ [Map.new src_uri dst_path]) rest
    | _ => .error .mapper

/-- mapper.py 30-77 `Mapper.parse` (on a fresh Mapper) -/
def Mapper.parse (uw : Char → Bool) (mappings : List Str) (use_default_path : Bool) :
    Except MapErr Mapper :=
  match mappings with
  | [a] =>
    if use_default_path ∧ ¬ a.contains '=' then
      match pathFromUri uw a with
      | .ok path => .ok [Map.new a path]
      | .error e => .error e
    else parseEntries [] mappings
  | [a, b] =>
    if ¬ a.contains '=' ∧ ¬ b.contains '=' then .ok [Map.new a b]
    else parseEntries [] mappings
  | _ => parseEntries [] mappings

/-- mapper.py 79-86 -/
def Mapper.defaultSrcUri : Mapper → Except MapErr Str
  | m :: _ => .ok m.src_uri
  | [] => .error .mapper

/-- mapper.py 88-98 `Mapper.unsafe` -/
def Mapper.isUnsafe : Mapper → Except MapErr Bool
  | [] => .ok false
  | m :: ms =>
    match m.isUnsafe with
    | .error e => .error e
    | .ok true => .ok true
    | .ok false => Mapper.isUnsafe ms

/-- mapper.py 100-109 `Mapper.dst_to_src` -/
def Mapper.dstToSrc : Mapper → Str → Except MapErr Str
  | [], _ => .error .mapper
  | m :: ms, f =>
    match m.dstToSrc f with
    | .error e => .error e
    | .ok (some u) => .ok u
    | .ok none => Mapper.dstToSrc ms f

/-- mapper.py 111-120 `Mapper.src_to_dst` -/
def Mapper.srcToDst : Mapper → Str → Except MapErr Str
  | [], _ => .error .mapper
  | m :: ms, u =>
    match m.srcToDst u with
    | .error e => .error e
    | .ok (some p) => .ok p
    | .ok none => Mapper.srcToDst ms u

end Resync
