import Verif.Model.Explorer
/-
Model of what /repo/resync/explorer.py prints about a document (`explore_show_summary` and `expand_relative_uri`).  A printed line is
a value of `SumLine`, with the values that are put into the text; the wording is not modelled.  `verbose` is off.
-/

namespace Resync
open Py

/-- The lines printed by explorer.py 202-268, 340-342 -/
inductive SumLine
  /-- "Parsed %s document with %d entries:" -/
  | parsed (capability : Str) (entries : Nat)
  /-- "WARNING - expected a %s document" -/
  | expectedKind (kinds : List Str)
  /-- "WARNING - unknown %s document type" -/
  | unknownKind (capability : Str)
  /-- "[%s] rel='...' link to %s" -/
  | link (key rel uri : Str)
  /-- "WARNING - ... link with no href, ignoring" -/
  | noHref (rel : Str)
  /-- "  WARNING - expanded relative URI to %s" -/
  | expanded (full : Str)
  /-- "(not showing remaining %d entries)" -/
  | notShowing (k : Nat)
  /-- "[%d] %s" -/
  | entry (n : Nat) (uri : Str)
  /-- "  %s", with " (EXPECTED ... or ...)" if there is a list -/
  | kind (capability : Str) (expected : Option (List Str))
  /-- "  capability not specified, should be %s" -/
  | shouldBe (capability : Str)
deriving DecidableEq, Repr

/-- explorer.py 207-211 -/
def knownDocuments : List Str :=
  ["description".toList, "descriptionoindex".toList, "capabilitylist".toList,
   "resourcelist".toList, "resourcelistindex".toList, "changelist".toList, "changelistindex".toList,
   "resourcedump".toList, "resourcedumpindex".toList, "changedump".toList, "changedumpindex".toList,
   "resourcelist-archive".toList, "resourcedump-archive".toList, "changelist-archive".toList, "changedump-archive".toList]

/-- explorer.py 202-212.  (`expected` is a list here: for 'resource' there is no summary.) -/
def headText (capability : Str) (entries : Nat) (expected : Option (List Str)) : List SumLine :=
  [.parsed capability entries] ++
  (match expected with
   | none => []
   | some kinds => if capability ∈ kinds then [] else [.expectedKind kinds]) ++
  (if capability ∈ knownDocuments then [] else [.unknownKind capability])

/-- explorer.py 334-343 `expand_relative_uri`: what is printed; `none` is the ValueError of urljoin -/
def expandText (context uri : Str) : Option (List SumLine) :=
  match urljoin context uri with
  | none => none
  | some full => some (if full ≠ uri then [.expanded full] else [])

/-- explorer.py 221-229, 230-238, 239-247: printed lines, and whether it goes on -/
def docLinkText (ln : List Link) (context rel key : Str) : List SumLine × Bool :=
  match findLink ln rel with
  | none => ([], true)
  | some l =>
    match dget l sHref with
    | none => ([.noHref rel], true)
    | some uri =>
      match expandText context uri with
      | none => ([.link key rel uri], false)
      | some t => (.link key rel uri :: t, true)

/-- explorer.py 260-268 -/
def kindText (entry_caps : List Str) (capability : Option Str) : List SumLine :=
  match capability, entry_caps with
  | some c, _ => [.kind c (if c ∈ entry_caps then none else some entry_caps)]
  | none, [c] => [.shouldBe c]
  | none, _ => []

/-- explorer.py 249-268: the loop over the listed resources; `n` have been shown -/
def entriesText (context : Str) (entry_caps : List Str) (to_show num_entries : Nat) : Nat → List Resource → List SumLine × Bool
  | _, [] => ([], true)
  | n, r :: t =>
    if to_show ≤ n then ([.notShowing (num_entries - n)], true)
    else
      match expandText context r.uri with
      | none => ([.entry (n + 1) r.uri], false)
      | some e =>
        let rest := entriesText context entry_caps to_show num_entries (n + 1) t
        (.entry (n + 1) r.uri :: e ++ kindText entry_caps r.capability ++ rest.1, rest.2)

/-- go on with `b` if `a` did not raise -/
def andThen (a b : List SumLine × Bool) : List SumLine × Bool := if a.2 then (a.1 ++ b.1, b.2) else a

/-- explorer.py 180-269 `explore_show_summary`: the printed lines, and whether it comes to its end -/
def summaryText (c : Cont (List Resource)) (index : Bool) (expected : Option (List Str)) (context : Str) : List SumLine × Bool :=
  let capability := summaryCapability c.md index
  let n := c.resources.length
  andThen (headText capability n expected, true)
    (andThen (docLinkText c.ln context "describedby".toList ['d'])
      (andThen (docLinkText c.ln context "up".toList ['u'])
        (andThen (docLinkText c.ln context "index".toList ['i'])
          (entriesText context (allowedEntries capability) (toShow n) n 0 c.resources))))

/-- `caps` as explore_show_summary gets it, explorer.py 129-133 -/
def Caps.list : Caps → List Str
  | .resource => []
  | .kinds l => l

/-- What is printed about a document, explorer.py 125-133: nothing if it cannot be read and parsed, or is not to be -/
def displayText (w : ExpWorld) (n : Nat) (xr : XResource) : List SumLine :=
  if xr.caps = some .resource then []
  else
    match w.docAt n xr.uri with
    | none => []
    | some root =>
      match parseXml {} listAdd ({ resources := [] } : Cont (List Resource)) root none none with
      | .error _ => []
      | .ok (c, parsed_index, _) => (summaryText c parsed_index (xr.caps.map Caps.list) xr.uri).1

end Resync
