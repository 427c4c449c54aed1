import Verif.Py.UrlJoin
import Verif.Model.CapabilityList
import Verif.Model.UrlOpen
/-
Model of the source discovery of /repo/resync/client.py (lines 77-201).
-/

namespace Resync
open Py

/-- Exceptions leaving a Client method: ClientError, ClientFatalError, and any other class, which no caller catches.
ClientError and ClientFatalError are both direct subclasses of Exception. -/
inductive ClientErr
  | error
  | fatal
  | uncaught
deriving DecidableEq, Repr

/-- What the documents of the world say.  `none`: reading the document raised some exception (absent, not XML, wrong
capability, ...).  A document is known by the URI or path given to read(); the same document is found however often it is
read.  Only the entries matter for the client. -/
structure Sources where
  resourceList : Str → Option (Dict Resource)
  sourceDescription : Str → Option (Dict Resource)
  capabilityList : Str → Option (Dict Resource)

/-- `list.read(uri=uri)` of list_base.py 92-112 for a list of capability `cap` without index support, CapabilityList -/
def readPlain (docAt : Str → Option Elem) (cap : Str) (uri : Str) : Option (Dict Resource) :=
  match docAt uri with
  | none => none
  | some root =>
    match parseXml {} rlAdd ({ resources := [] } : Cont (Dict Resource)) root (some cap) (some false) with
    | .ok (c, _, _) => some c.resources
    | .error _ => none

/-- The same for SourceDescription, which goes through ListBaseWithIndex.read: an index cannot be read since
ResourceSet has no `uris` method (AttributeError) -/
def readDescription (docAt : Str → Option Elem) (uri : Str) : Option (Dict Resource) :=
  match docAt uri with
  | none => none
  | some root =>
    match parseXml {} rlAdd ({ resources := [] } : Cont (Dict Resource)) root (some "description".toList) none with
    | .ok (c, parsed_index, _) => if parsed_index then none else some c.resources
    | .error _ => none

/-- The sources given by a collection of XML documents -/
def Sources.ofDocs (docAt : Str → Option Elem) (mapper : Mapper) (allow_multifile : Bool) (uw : Char → Bool) : Sources where
  resourceList uri :=
    match readList { allow_multifile := allow_multifile, mapper := some mapper, uw := uw, docAt := docAt }
        { resources := [] } uri with
    | .ok c => some c.resources
    | .error _ => none
  sourceDescription := readDescription docAt
  capabilityList := readPlain docAt "capabilitylist".toList

/-- The settings of a Client that discovery uses, client.py 46-72 -/
structure DiscCfg where
  mapper : Mapper
  sitemap_name : Option Str := none
  capability_list_uri : Option Str := none
  resource_list_name : Str := "resourcelist.xml".toList
  uw : Char → Bool := fun _ => false

/-- client.py 77-87 `sitemap_uri` -/
def DiscCfg.sitemapUri (c : DiscCfg) (basename : Str) : Except ClientErr Str :=
  if hasScheme c.uw basename then .ok basename
  else if startsWith basename ['/'] then .ok basename
  else
    match c.mapper.defaultSrcUri with
    | .ok b => .ok (b ++ '/' :: basename)
    | .error _ => .error .uncaught

/-- client.py 89-94 `sitemap` -/
def DiscCfg.sitemap (c : DiscCfg) : Except ClientErr Str :=
  match c.sitemap_name with
  | some n => .ok n
  | none => c.sitemapUri c.resource_list_name

/-- A document read -/
inductive ReadOp
  | rl (uri : Str)
  | sd (uri : Str)
  | cl (uri : Str)
deriving DecidableEq, Repr

/-- A result together with the documents read on the way -/
abbrev Found (α : Type) := List ReadOp × Except ClientErr α

/-- client.py 96-107 `read_resource_list` -/
def readResourceList (s : Sources) (uri : Str) : Found (Dict Resource) :=
  match s.resourceList uri with
  | some d => ([.rl uri], .ok d)
  | none => ([.rl uri], .error .error)

/-- client.py 138-158 `find_resource_list_from_capability_list` -/
def findFromCapabilityList (s : Sources) (uri : Str) : Found Str :=
  match s.capabilityList uri with
  | none => ([.cl uri], .error .error)
  | some cl =>
    match capabilityInfo cl (some "resourcelist".toList) with
    | none => ([.cl uri], .error .fatal)
    | some r =>
      match urljoin uri r.uri with
      | none => ([.cl uri], .error .uncaught)
      | some u => ([.cl uri], .ok u)

/-- client.py 109-136 `find_resource_list_from_source_description` -/
def findFromSourceDescription (s : Sources) (uri : Str) : Found Str :=
  match s.sourceDescription uri with
  | none => ([.sd uri], .error .error)
  | some sd =>
    match (listing' sd) with
    | [r] =>
      match urljoin uri r.uri with
      | none => ([.sd uri], .error .uncaught)
      | some u => let f := findFromCapabilityList s u; (.sd uri :: f.1, f.2)
    | _ => ([.sd uri], .error .fatal)
where
  /-- resource_set.py 19-30: iteration in URI order; `first` is the head -/
  listing' (d : Dict Resource) : List Resource := (sortStr (dkeys d)).filterMap (dget d)

/-- `rluri = find(...); return self.read_resource_list(rluri)` -/
def thenRead (s : Sources) (f : Found Str) : Found (Dict Resource) :=
  match f.2 with
  | .error e => (f.1, .error e)
  | .ok u => let r := readResourceList s u; (f.1 ++ r.1, r.2)

/-- client.py 183-190 and 192-199: `for ... try ... return ... except ClientError` followed by what comes after the loop -/
def tryEach (attempt : Str → Found (Dict Resource)) : List Str → Found (Dict Resource) → Found (Dict Resource)
  | [], after => after
  | u :: rest, after =>
    let r := attempt u
    match r.2 with
    | .error .error => let t := tryEach attempt rest after; (r.1 ++ t.1, t.2)
    | _ => r

/-- `uri.lstrip('file:///')` -/
def stripFile (uri : Str) : Str := lstripChars "file:///".toList uri

/-- client.py 160-201 `find_resource_list` -/
def findResourceList (s : Sources) (c : DiscCfg) : Found (Dict Resource) :=
  match c.sitemap_name with
  | some n => readResourceList s n
  | none =>
    match c.capability_list_uri with
    | some u => thenRead s (findFromCapabilityList s u)
    | none =>
      match c.sitemap with
      | .error e => ([], .error e)
      | .ok sm =>
        match urlHost sm with
        | none => ([], .error .uncaught)
        | some host =>
          let wk := ".well-known/resourcesync".toList
          match urljoin sm wk, urljoin host wk with
          | some d1, some d2 =>
            tryEach (fun u => thenRead s (findFromSourceDescription s (stripFile u))) [d1, d2]
              (match urljoin sm "resourcelist.xml".toList, urljoin sm "sitemap.xml".toList,
                  urljoin host "sitemap.xml".toList with
              | some l1, some l2, some l3 =>
                tryEach (fun u => readResourceList s (stripFile u)) [l1, l2, l3] ([], .error .fatal)
              | _, _, _ => ([], .error .uncaught))
          | _, _ => ([], .error .uncaught)

end Resync
