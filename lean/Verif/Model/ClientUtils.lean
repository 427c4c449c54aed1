import Verif.Py.Dict
/-
Model of the option parsing of /repo/resync/client_utils.py.
-/

namespace Resync
open Py

/-- The exceptions: ClientFatalError -/
inductive OptErr
  | fatal
deriving DecidableEq, Repr

/-- `(k, v) = term.split('=')`: ValueError (turned into ClientFatalError) unless there are exactly two parts -/
def splitPair (term : Str) : Option (Str × Str) :=
  match splitOn '=' term with
  | [k, v] => some (k, v)
  | _ => none

/-- client_utils.py 124-130: the loop over the attribute terms -/
def linkTerms : Dict Str → List Str → Except OptErr (Dict Str)
  | atts, [] => .ok atts
  | atts, term :: rest =>
    match splitPair term with
    | none => .error .fatal
    | some (k, v) => if k = [] ∨ v = [] then .error .fatal else linkTerms (dset atts k v) rest

/-- client_utils.py 110-137 `parse_link` -/
def parseLink (link_str : Str) : Except OptErr (Dict Str) :=
  match splitOn ',' link_str with
  | rel :: href :: segs =>
    if href = [] then .error .fatal
    else linkTerms [("rel".toList, rel), ("href".toList, href)] segs
  | _ => .error .fatal

/-- client_utils.py 99-106: the loop of `parse_links` -/
def parseLinksAux : List Str → Except OptErr (List (Dict Str))
  | [] => .ok []
  | l :: ls =>
    match parseLink l with
    | .error e => .error e
    | .ok a =>
      match parseLinksAux ls with
      | .error e => .error e
      | .ok as => .ok (a :: as)

/-- client_utils.py 93-107 `parse_links` -/
def parseLinks : Option (List Str) → Except OptErr (List (Dict Str))
  | none => .ok []
  | some ls => parseLinksAux ls

/-- client_utils.py 147-150: the loop of `parse_capabilities` -/
def capTerms : Dict Str → List Str → Except OptErr (Dict Str)
  | caps, [] => .ok caps
  | caps, term :: rest =>
    match splitPair term with
    | none => .error .fatal
    | some (k, v) => capTerms (dset caps k v) rest

/-- client_utils.py 140-155 `parse_capabilities` -/
def parseCapabilities (caps_str : Str) : Except OptErr (Dict Str) := capTerms [] (splitOn ',' caps_str)

/-- client_utils.py 158-163 `parse_capability_lists` -/
def parseCapabilityLists (cls_str : Str) : List Str := splitOn ',' cls_str

/-- client_utils.py 84-90 `count_true_args` -/
def countTrueArgs : List Bool → Nat
  | [] => 0
  | a :: t => (if a then 1 else 0) + countTrueArgs t

end Resync
