import Verif.Py.Str
/-
`os.path` on POSIX (CPython 3.11 `posixpath.py`, `genericpath.py`), the functions the
code of /repo/resync uses.  Trusted library model.
-/

namespace Py

/-- text after the last '/' (`posixpath.basename`) -/
def basename (p : Str) : Str := (p.reverse.takeWhile (· != '/')).reverse

/-- text up to and including the last '/' -/
def headSlash (p : Str) : Str := (p.reverse.dropWhile (· != '/')).reverse

/-- `s.rstrip('/')` -/
def rstripSlash (p : Str) : Str := (p.reverse.dropWhile (· == '/')).reverse

/-- `posixpath.dirname` -/
def dirname (p : Str) : Str :=
  let head := headSlash p
  if head.all (· == '/') then head else rstripSlash head

/-- `posixpath.join(a, b)` -/
def pathJoin (a b : Str) : Str :=
  if startsWith b ['/'] then b
  else if a = [] ∨ endsWith a ['/'] then a ++ b
  else a ++ '/' :: b

/-- `posixpath.join(*parts)` for a non-empty argument list -/
def pathJoinAll : List Str → Str
  | [] => []
  | a :: t => t.foldl pathJoin a

/-- the loop of `posixpath.normpath`; `acc` is `new_comps` reversed, `abs` is
`initial_slashes != 0` -/
def normComps (abs : Bool) : List Str → List Str → List Str
  | acc, [] => acc.reverse
  | acc, c :: cs =>
    if c = [] ∨ c = ['.'] then normComps abs acc cs
    else if c ≠ ['.', '.'] ∨ (abs = false ∧ acc = []) ∨ acc.head? = some ['.', '.'] then
      normComps abs (c :: acc) cs
    else
      normComps abs acc.tail cs

/-- number of leading slashes `normpath` keeps -/
def initialSlashes (p : Str) : Nat :=
  match p with
  | '/' :: '/' :: '/' :: _ => 1
  | '/' :: '/' :: _ => 2
  | '/' :: _ => 1
  | _ => 0

/-- `posixpath.normpath` -/
def normpath (p : Str) : Str :=
  if p = [] then ['.']
  else
    let n := initialSlashes p
    let comps := normComps (n != 0) [] (splitOn '/' p)
    let path := List.replicate n '/' ++ join ['/'] comps
    if path = [] then ['.'] else path

/-- `posixpath.abspath`, with the current directory as a parameter -/
def abspath (cwd p : Str) : Str :=
  if startsWith p ['/'] then normpath p else normpath (pathJoin cwd p)

/-- `genericpath.commonprefix([a, b])` on two sequences -/
def commonPrefix {α : Type} [DecidableEq α] : List α → List α → List α
  | a :: as, b :: bs => if a = b then a :: commonPrefix as bs else []
  | _, _ => []

/-- `[x for x in s.split('/') if x]` -/
def pathParts (s : Str) : List Str := (splitOn '/' s).filter (· ≠ [])

/-- `posixpath.relpath(path, start)`, with the current directory as a parameter.
The empty path (a `ValueError`) is `none`. -/
def relpath (cwd path start : Str) : Option Str :=
  if path = [] then none
  else
    let sl := pathParts (abspath cwd start)
    let pl := pathParts (abspath cwd path)
    let i := (commonPrefix sl pl).length
    let rel := List.replicate (sl.length - i) ['.', '.'] ++ pl.drop i
    some (if rel = [] then ['.'] else pathJoinAll rel)

end Py
