import Verif.Model.ClientWrite
/-
Model of the listings of entries that --verbose asks for: /repo/resync/client.py parse_document and read_reference_resource_list, and
of the text for a resource, /repo/resync/resource.py `__str__`.
-/

namespace Resync
open Py

/-- `str(x)` of a string or None -/
def strOpt (x : Option Str) : Str := x.getD "None".toList

/-- resource.py 484-485: the first hash that is neither None nor empty, otherwise sha256 as it is -/
def Resource.someHash (r : Resource) : Option Str :=
  match r.md5 with
  | some (c :: t) => some (c :: t)
  | _ =>
    match r.sha1 with
    | some (c :: t) => some (c :: t)
    | _ => r.sha256

/-- resource.py 477-494 `__str__`; `none` is the exception for a time that lies outside the years 1 to 9999 -/
def Resource.str (r : Resource) : Option Str :=
  match datetimeToStr? r.timestamp false with
  | none => none
  | some lastmod =>
    let s := [r.uri, strOpt lastmod, strOpt (r.length.map intStr), strOpt r.someHash]
    let tail (ch : List Str) : Str :=
      "[ ".toList ++ join " | ".toList (s ++ ch ++ (match r.path with | none => [] | some p => [p])) ++ " ]".toList
    match r.change with
    | none => some (tail [])
    | some c =>
      match datetimeToStr? r.ts_datetime false with
      | none => none
      | some none => some (tail [c])
      | some (some d) => some (tail [c ++ " @ ".toList ++ d])

/-- client.py 640-644 and 780-784: how many entries to show -/
def entriesToShow (max_sitemap_entries : Option Nat) : Nat :=
  match max_sitemap_entries with
  | some (n + 1) => n + 1
  | _ => 100

/-- client.py 649-653 and 789-793: the loop, `n` entries having been printed.  Printed are the number and the text of each entry; the
second component is false if the text of an entry raises. -/
def listEntries (to_show : Nat) : Nat → List Resource → List (Nat × Str) × Bool
  | _, [] => ([], true)
  | n, r :: t =>
    match r.str with
    | none => ([], false)
    | some s =>
      if to_show ≤ n + 1 then ([(n, s)], true)
      else
        let rest := listEntries to_show (n + 1) t
        ((n, s) :: rest.1, rest.2)

/-- client.py 639-653: what parse_document prints with `verbose` after the first line; `announced` is the number in "Showing first %d
entries sorted by URI" -/
structure EntryListing where
  announced : Option Nat
  lines : List (Nat × Str)
  complete : Bool
deriving DecidableEq, Repr

/-- client.py 639-653, 779-793 -/
def verboseListing (max_sitemap_entries : Option Nat) (entries : List Resource) : EntryListing :=
  let to_show := entriesToShow max_sitemap_entries
  let l := listEntries to_show 0 entries
  { announced := if entries.length > to_show then some to_show else none, lines := l.1, complete := l.2 }

/-- client.py 622-653 `parse_document` with `verbose`.  The entries are in the order of the document: `list` is a ResourceContainer,
whose `resources` is a list (resource_container.py 64-69 `__iter__`). -/
def parseVerbose (docAt : Str → Option Elem) (sitemap : Str) (max_sitemap_entries : Option Nat) :
    Except WriteErr ((Str × Nat) × EntryListing) :=
  match docAt sitemap with
  | none => .error .fatal
  | some root =>
    match parseXml {} listAdd { resources := [] } root none none with
    | .error e => .error (.lb (.sm e))
    | .ok (c, _, _) =>
      .ok (((dget c.md kCapability).getD "(unknown capability)".toList, c.resources.length),
        verboseListing max_sitemap_entries c.resources)

end Resync
