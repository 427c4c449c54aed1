import Verif.Model.ListIndex
/-
Model of /repo/resync/capability_list.py (CapabilitySet, CapabilityList), resource_set.py and source_description.py.

Simplification: the iterator keeps its position in an attribute of the set; here an iteration runs to the end (or to the
point where its caller stops) without another one starting in between.
-/

namespace Resync
open Py

/-- The index built by CapabilitySet.__iter__: capability (None allowed) to URIs, in insertion order -/
abbrev CapIndex := List (Option Str × List Str)

/-- capability_list.py 42-44: `if cap not in uris: uris[cap] = []; uris[cap].append(uri)` -/
def CapIndex.addUri : CapIndex → Option Str → Str → CapIndex
  | [], cap, uri => [(cap, [uri])]
  | (c, us) :: t, cap, uri => if c = cap then (c, us ++ [uri]) :: t else (c, us) :: CapIndex.addUri t cap uri

/-- capability_list.py 38-44 -/
def capIndex (d : Dict Resource) : CapIndex :=
  d.foldl (fun idx (p : Str × Resource) => CapIndex.addUri idx p.2.capability p.1) []

/-- capability_list.py 26-29 -/
def capOrder : List Str :=
  ["resourcelist".toList, "resourcedump".toList, "changelist".toList, "changedump".toList,
   "resourcelist-archive".toList, "resourcedump-archive".toList, "changelist-archive".toList,
   "changedump-archive".toList]

/-- capability_list.py 46-50: emit the known capabilities and delete them from the index -/
def capKnown : List Str → CapIndex → List Str × CapIndex
  | [], idx => ([], idx)
  | cap :: rest, idx =>
    match idx.lookup (some cap) with
    | some us =>
      let r := capKnown rest (idx.filter (fun p => p.1 ≠ some cap))
      (sortStr us ++ r.1, r.2)
    | none => capKnown rest idx

/-- capability_list.py 31-56: the URIs in iteration order -/
def capUris (d : Dict Resource) : List Str :=
  let r := capKnown capOrder (capIndex d)
  r.1 ++ r.2.flatMap (fun p => sortStr p.2)

/-- capability_list.py 31-64: the resources an iteration yields -/
def capIter (d : Dict Resource) : List Resource := (capUris d).filterMap (dget d)

/-- capability_list.py 121-129 `capability_info` -/
def capabilityInfo (d : Dict Resource) (name : Option Str) : Option Resource :=
  (capIter d).find? (fun r => r.capability == name)

/-- capability_list.py 117-119 `has_capability` -/
def hasCapability (d : Dict Resource) (name : Option Str) : Bool := (capabilityInfo d name).isSome

/-- capability_list.py 101-115 `add_capability` of a name and URI; the `capability` argument (an object) is reduced to
its name and URI by the caller -/
def addCapability (d : Dict Resource) (uri : Str) (name : Option Str) : Except ListErr (Dict Resource) :=
  dictAdd d { uri := uri, capability := name } false

end Resync
