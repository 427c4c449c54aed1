import Verif.Model.Discovery
/-
Model of /repo/resync/explorer.py (class Explorer): the interactive exploration of a source.

What the user types is a finite list of lines; running out of lines is the EOFError of input(), which nothing catches.  The
printed text is not modelled except for what the user can choose (the options), whether back is offered, and the HEAD report.
Simplifications: `verbose` is off; `fake_input` (used by the tests) is not set.
-/

namespace Resync
open Py

/-- `acceptable_capabilities` of an XResource other than None: the string 'resource' or a list, explorer.py 351-353 -/
inductive Caps
  | resource
  | kinds (l : List Str)
deriving DecidableEq, Repr

/-- `checks` of an XResource, explorer.py 158, 170-176: a dict with up to three keys -/
structure Checks where
  content_length : Option Int := none
  last_modified : Option Str := none
  content_type : Option Str := none
deriving DecidableEq, Repr

/-- explorer.py 346-364 `XResource`; no caller gives a context, and `urljoin(None, uri)` is `uri` -/
structure XResource where
  uri : Str
  caps : Option Caps := none
  checks : Option Checks := none
deriving DecidableEq, Repr

/-- the pattern `(.+)index$` of explorer.py 317 -/
def indexRe : Re := .seq ([.grp 1 (.plus .dot)] ++ "index".toList.map .lit ++ [.eos])

/-- the pattern `(.+)\-archive$` of explorer.py 318 -/
def archiveRe : Re := .seq ([.grp 1 (.plus .dot)] ++ "-archive".toList.map .lit ++ [.eos])

/-- explorer.py 328-331 -/
def capabilityListEntries : List Str :=
  ["resourcelist".toList, "resourcedump".toList, "changelist".toList, "changedump".toList,
   "resourcelist-archive".toList, "resourcedump-archive".toList, "changelist-archive".toList, "changedump-archive".toList]

/-- explorer.py 311-332 `allowed_entries` (group 1 always participates) -/
def allowedEntries (capability : Str) : List Str :=
  if capability = "capabilitylistindex".toList then []
  else
    match indexRe.matchStart capability with
    | some m => [(m.group 1).getD []]
    | none =>
      match archiveRe.matchStart capability with
      | some m => [(m.group 1).getD []]
      | none =>
        if capability = "description".toList then ["capabilitylist".toList]
        else if capability = "capabilitylist".toList then capabilityListEntries
        else []

/-- explorer.py 221-229, 230-238, 239-247 and 334-343 `expand_relative_uri`: the option for one of the document's own links; `none` is the ValueError of urljoin.
An empty dict is false, so it is no link. -/
def linkOption (ln : List Link) (context : Str) (rel key : Str) (capability : Option Str) (options : Dict Resource) :
    Option (Dict Resource) :=
  match findLink ln rel with
  | none => some options
  | some l =>
    match dget l sHref with
    | none => some options
    | some uri =>
      match urljoin context uri with
      | none => none
      | some full => some (dset options key { uri := full, capability := capability })

/-- explorer.py 254-268, with 334-343 `expand_relative_uri`: what becomes of one listed resource -/
def entryOption (context : Str) (entry_caps : List Str) (r : Resource) : Option Resource :=
  match urljoin context r.uri with
  | none => none
  | some full =>
    let r := { r with uri := full }
    match r.capability, entry_caps with
    | none, [c] => some { r with capability := some c }
    | _, _ => some r

/-- explorer.py 249-268: the loop over the listed resources (the ones to be shown); `n` is the number of the last option -/
def entryOptions (context : Str) (entry_caps : List Str) : Nat → List Resource → Dict Resource → Option (Dict Resource)
  | _, [], options => some options
  | n, r :: t, options =>
    match entryOption context entry_caps r with
    | none => none
    | some r => entryOptions context entry_caps (n + 1) t (dset options (natStr (n + 1)) r)

/-- explorer.py 197-201 -/
def summaryCapability (md : Dict Str) (index : Bool) : Str :=
  (dget md kCapability).getD "(unknown capability)".toList ++ (if index then "index".toList else [])

/-- explorer.py 213-215 -/
def toShow (num_entries : Nat) : Nat := if 21 < num_entries then 20 else num_entries

/-- explorer.py 180-269 `explore_show_summary`: options and capability -/
def showSummary (c : Cont (List Resource)) (index : Bool) (context : Str) : Option (Dict Resource × Str) :=
  let capability := summaryCapability c.md index
  let entry_caps := allowedEntries capability
  match linkOption c.ln context "describedby".toList ['d'] (some "resource".toList) [] with
  | none => none
  | some o =>
    match linkOption c.ln context "up".toList ['u'] none o with
    | none => none
    | some o =>
      match linkOption c.ln context "index".toList ['i'] none o with
      | none => none
      | some o =>
        match entryOptions context entry_caps 0 (c.resources.take (toShow c.resources.length)) o with
        | none => none
        | some o => some (o, capability)

/-- A header value of the mocked response of a local file: a size or a time -/
inductive HeaderVal
  | num (n : Int)
  | text (s : Str)
deriving DecidableEq, Repr

/-- explorer.py 292-298: what is printed after a header -/
inductive Verdict
  | noCheck
  | matchesExpected
  | expected (v : HeaderVal)
deriving DecidableEq, Repr

/-- What explore_show_head prints after "HEAD uri" -/
structure HeadReport where
  status : Str
  headers : List (Str × HeaderVal × Verdict) := []
deriving DecidableEq, Repr

/-- explorer.py 292-298 -/
def verdict (value : HeaderVal) : Option HeaderVal → Verdict
  | none => .noCheck
  | some v => if value = v then .matchesExpected else .expected v

/-- explorer.py 301-309 `head_on_file` and 286-299; `stat` is `some (size, mtime)` when `os.path.isfile`.  The result is `none` when
datetime_to_str raises.  Neither 'lastmod', 'content-type' nor 'etag' are among the headers of a local file. -/
def headOnFile (stat : Option (Int × Rat)) (checks : Option Checks) : Option HeadReport :=
  match stat with
  | none => some { status := "404".toList }
  | some (size, mtime) =>
    match datetimeToStr mtime false with
    | none => none
    | some lm => some {
        status := "200".toList
        headers := [
          ("content-length".toList, .num size, verdict (.num size) ((checks.bind (·.content_length)).map .num)),
          ("last-modified".toList, .text lm, verdict (.text lm) ((checks.bind (·.last_modified)).map .text))] }

/-- explorer.py 271-299 `explore_show_head`.  For a URI the response's `code` is an integer and not a function, so that line 281
raises TypeError if opening the URI does not raise before. -/
def showHead (uw : Char → Bool) (stat : Option (Int × Rat)) (uri : Str) (checks : Option Checks) : Option HeadReport :=
  if hasScheme uw uri then none else headOnFile stat checks

/-- What the world offers while exploring: documents and local files as found at the n-th visit. -/
structure ExpWorld where
  /-- what opening and parsing the XML at a URI or path gives; `none`: some exception -/
  docAt : Nat → Str → Option Elem
  /-- size and mtime of a local file -/
  stat : Nat → Str → Option (Int × Rat) := fun _ _ => none
  isdir : Str → Bool := fun _ => false
  uw : Char → Bool := fun _ => false

/-- What the user gets to see of a document, explorer.py 123-137 -/
inductive Shown
  /-- "Cannot read" or "Cannot parse" -/
  | failed
  | head (h : HeadReport)
  | summary (options : Dict Resource) (capability : Str)
deriving DecidableEq, Repr

/-- explorer.py 125-137 -/
def display (w : ExpWorld) (n : Nat) (xr : XResource) : Shown :=
  if xr.caps = some .resource then
    match showHead w.uw (w.stat n xr.uri) xr.uri xr.checks with
    | none => .failed
    | some h => .head h
  else
    match w.docAt n xr.uri with
    | none => .failed
    | some root =>
      match parseXml {} listAdd ({ resources := [] } : Cont (List Resource)) root none none with
      | .error _ => .failed
      | .ok (c, parsed_index, _) =>
        match showSummary c parsed_index xr.uri with
        | none => .failed
        | some (o, cap) => .summary o cap

/-- the local variables `options` and `capability` after explorer.py 137 -/
def Shown.options : Shown → Dict Resource
  | .summary o _ => o
  | _ => []

def Shown.capability : Shown → Option Str
  | .summary _ c => some c
  | _ => none

/-- The line of input that ends the loop of explorer.py 141-154 -/
inductive Answer
  | follow (key : Str) (r : Resource)
  | quit
  | back
deriving DecidableEq, Repr

/-- explorer.py 141-154: ask until the answer makes sense.  Result: the answer and the lines not yet read; `none`: EOFError -/
def ask (options : Dict Resource) : List Str → Option (Answer × List Str)
  | [] => none
  | inp :: rest =>
    match dget options inp with
    | some r => some (.follow inp r, rest)
    | none =>
      if inp = ['q'] then some (.quit, rest)
      else if inp = ['b'] then some (.back, rest)
      else ask options rest

/-- explorer.py 161-162 -/
def listKinds : List Str := ["resourcelist".toList, "changelist".toList, "resourcedump".toList, "changedump".toList]

/-- explorer.py 160-169: what is expected of the chosen resource.  (`capability` is never None when there are options.) -/
def nextCaps (capability : Option Str) (r : Resource) : Caps :=
  match r.capability with
  | none => if capability.getD [] ∈ listKinds then .resource else .kinds (allowedEntries (capability.getD []))
  | some c => if c = "resource".toList then .resource else .kinds [c]

/-- explorer.py 158-178: the next XResource; `none` is the exception of `r.lastmod` -/
def nextResource (capability : Option Str) (r : Resource) : Option XResource :=
  match datetimeToStr? r.timestamp false with
  | none => none
  | some lm => some {
      uri := r.uri
      caps := some (nextCaps capability r)
      checks := some { content_length := r.length, last_modified := lm, content_type := r.mime_type } }

/-- One call of explore_uri, as the user sees it -/
structure Visit where
  xr : XResource
  show_back : Bool
  shown : Shown
  /-- the accepted line; `none`: the input ended -/
  answer : Option Answer
deriving DecidableEq, Repr

/-- How exploring ends -/
inductive Ending
  /-- ExplorerQuit, or no starting point left: "resync-explorer done" is printed -/
  | quit
  | done
  /-- EOFError of input() -/
  | eof
  /-- exception of `r.lastmod` -/
  | crash
deriving DecidableEq, Repr

/-- How explore_uri (explorer.py 114-178) returns -/
inductive Step
  | follow (xr : XResource) (rest : List Str)
  | back (rest : List Str)
  | stop (e : Ending)
deriving DecidableEq, Repr

/-- explorer.py 114-178 `explore_uri` -/
def exploreUri (w : ExpWorld) (n : Nat) (xr : XResource) (show_back : Bool) (inputs : List Str) : Visit × Step :=
  let shown := display w n xr
  match ask shown.options inputs with
  | none => (⟨xr, show_back, shown, none⟩, .stop .eof)
  | some (a, rest) =>
    (⟨xr, show_back, shown, some a⟩,
      match a with
      | .quit => .stop .quit
      | .back => .back rest
      | .follow _ r =>
        match nextResource shown.capability r with
        | none => .stop .crash
        | some x => .follow x rest)

/-- explorer.py 102-109: the loop over the history (innermost document first).  Every turn reads at least one line, so `fuel` larger
than the number of lines never runs out.  Result: the visits, and either the end or the lines not yet read. -/
def historyLoop (w : ExpWorld) : Nat → Nat → List XResource → List Str → List Visit × (Ending ⊕ List Str)
  | 0, _, _, inputs => ([], .inr inputs)
  | _ + 1, _, [], inputs => ([], .inr inputs)
  | fuel + 1, n, xr :: history, inputs =>
    let s := exploreUri w n xr (!history.isEmpty) inputs
    match s.2 with
    | .stop e => ([s.1], .inl e)
    | .back rest =>
      let t := historyLoop w fuel (n + 1) history rest
      (s.1 :: t.1, t.2)
    | .follow x rest =>
      let t := historyLoop w fuel (n + 1) (x :: xr :: history) rest
      (s.1 :: t.1, t.2)

/-- explorer.py 97-112: each starting point with a fresh history -/
def exploreStarts (w : ExpWorld) : Nat → List XResource → List Str → List Visit × Ending
  | _, [], _ => ([], .done)
  | n, start :: starts, inputs =>
    let h := historyLoop w (inputs.length + 1) n [start] inputs
    match h.2 with
    | .inl e => (h.1, e)
    | .inr rest =>
      let t := exploreStarts w (n + h.1.length) starts rest
      (h.1 ++ t.1, t.2)

/-- explorer.py 61-62 -/
def likelyNames : List Str :=
  ["resourcesync".toList, "capabilities.xml".toList, "resourcelist.xml".toList, "changelist.xml".toList]

/-- explorer.py 48-94: where to start -/
def explorerStarts (w : ExpWorld) (c : DiscCfg) : Except ClientErr (List XResource) :=
  match c.sitemap_name with
  | some n => .ok [{ uri := n }]
  | none =>
    match c.mapper.defaultSrcUri with
    | .error _ => .error .fatal
    | .ok uri =>
      match urlparse uri with
      | none => .error .uncaught
      | some u =>
        if u.scheme = [] ∧ u.netloc = [] then
          if w.isdir u.path then
            let files := (likelyNames.map (pathJoin u.path)).filter (fun f => (w.stat 0 f).isSome)
            if files = [] then .error .fatal else .ok (files.map (fun f => { uri := f }))
          else .ok [{ uri := u.path }]
        else
          let well_known : XResource := {
            uri := urlunparse ⟨u.scheme, u.netloc, "/.well-known/resourcesync".toList, [], [], []⟩
            caps := some (.kinds ["capabilitylist".toList, "capabilitylistindex".toList]) }
          if u.path = [] then .ok [well_known] else .ok [{ uri := uri }, well_known]

/-- explorer.py 39-112 `explore` -/
def explore (w : ExpWorld) (c : DiscCfg) (inputs : List Str) : Except ClientErr (List Visit × Ending) :=
  match explorerStarts w c with
  | .error e => .error e
  | .ok starts => .ok (exploreStarts w 0 starts inputs)

end Resync
