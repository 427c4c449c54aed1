import Verif.Model.Mapper
/-
Model of /repo/resync/url_or_file_open.py.
-/

namespace Resync
open Py

/-- url_or_file_open.py 10-15: the module's globals.  The delay is a number of seconds (kept abstract as a natural number
of ticks; only whether it is None and which value was set matters). -/
structure OpenConfig where
  num_requests : Nat := 0
  bearer_token : Option Str := none
  delay : Option Nat := none
deriving DecidableEq, Repr

/-- url_or_file_open.py 18-21 `set_url_or_file_open_config` for the two keys in use, and a call of url_or_file_open -/
inductive OpenOp
  | setToken (t : Option Str)
  | setDelay (d : Option Nat)
  | open (uri : Str)
deriving DecidableEq, Repr

/-- What the outside sees of one call: the sleep before the request, the URL given to urlopen, the Authorization header
(the User-Agent header is constant and left out) -/
structure Request where
  slept : Option Nat
  url : Str
  authorization : Option Str
deriving DecidableEq, Repr

/-- re.match(r'\w+:', uri) -/
def hasScheme (uw : Char → Bool) (uri : Str) : Bool :=
  let w := uri.takeWhile (isWord uw)
  !w.isEmpty && (uri.drop w.length).head? == some ':'

/-- url_or_file_open.py 33-34 -/
def openUrl (uw : Char → Bool) (uri : Str) : Str :=
  if hasScheme uw uri then uri else "file:".toList ++ uri

/-- url_or_file_open.py 24-49 `url_or_file_open` -/
def urlOrFileOpen (uw : Char → Bool) (c : OpenConfig) (uri : Str) : OpenConfig × Request :=
  let url := openUrl uw uri
  let auth := c.bearer_token.map (fun t => "Bearer ".toList ++ t)
  let slept := if c.num_requests ≠ 0 ∧ c.delay.isSome ∧ ¬ (startsWith url "file:".toList) then c.delay else none
  ({ c with num_requests := c.num_requests + 1 }, { slept := slept, url := url, authorization := auth })

/-- one operation of a program -/
def openStep (uw : Char → Bool) (s : OpenConfig × List Request) : OpenOp → OpenConfig × List Request
  | .setToken t => ({ s.1 with bearer_token := t }, s.2)
  | .setDelay d => ({ s.1 with delay := d }, s.2)
  | .open uri => let r := urlOrFileOpen uw s.1 uri; (r.1, s.2 ++ [r.2])

/-- a program run from the start of the process -/
def runOpen (uw : Char → Bool) (ops : List OpenOp) : OpenConfig × List Request := ops.foldl (openStep uw) ({}, [])

end Resync
