import Verif.Model.Resource
import Verif.Py.Num
import Verif.Py.Xml
/-
Model of /repo/resync/sitemap.py (class Sitemap) on element trees.

Simplifications: dictionary values which the code converts with int() are kept as their decimal
strings (`str(int(v))`) in the md and ln dictionaries; log messages are dropped; when parse_xml
raises, the partially filled container is not described; resource_class is Resource.
-/

namespace Resync
open Py

/-- Exceptions of sitemap.py and of what it calls. -/
inductive SmErr
  /-- SitemapParseError -/
  | parse
  /-- SitemapIndexError -/
  | index
  /-- ValueError / OverflowError of the datetime functions -/
  | value
  /-- ChangeTypeError -/
  | changeType
  /-- ResourceListDupeError and alike raised by the container's add() -/
  | dupe
deriving DecidableEq, Repr

/-- sitemap.py 13 -/
def SITEMAP_NS : Str := "http://www.sitemaps.org/schemas/sitemap/0.9".toList
/-- sitemap.py 14 -/
def RS_NS : Str := "http://www.openarchives.org/rs/terms/".toList

/-- sitemap.py 80-103: settings of a Sitemap object. -/
structure Sitemap where
  spec_1_0 : Bool := false
  add_lastmod : Bool := false
  pretty_xml : Bool := false

/-- `'{' + SITEMAP_NS + '}' + name` -/
def smTag (name : String) : Str := '{' :: (SITEMAP_NS ++ '}' :: name.toList)
/-- `'{' + RS_NS + '}' + name` -/
def rsTag (name : String) : Str := '{' :: (RS_NS ++ '}' :: name.toList)

def kMdAt : Str := "md_at".toList
def kCapability : Str := "capability".toList
def kChange : Str := "change".toList
def kDatetime : Str := "datetime".toList
def kMdCompleted : Str := "md_completed".toList
def kMdFrom : Str := "md_from".toList
def kHash : Str := "hash".toList
def kLength : Str := "length".toList
def kPath : Str := "path".toList
def kMimeType : Str := "mime_type".toList
def kMdUntil : Str := "md_until".toList
def kModified : Str := "modified".toList
def kPri : Str := "pri".toList

/-- sitemap.py 92-103 `md_att_keys` -/
def mdAttKeys (s : Sitemap) : List Str :=
  [kMdAt, kCapability, kChange] ++ (if s.spec_1_0 then [] else [kDatetime]) ++
  [kMdCompleted, kMdFrom, kHash, kLength, kPath, kMimeType, kMdUntil]

/-- sitemap.py 16-22, 466-474 `_xml_att_name` -/
def xmlAttName (att : Str) : Str :=
  if att = kMimeType then "type".toList
  else if att = kMdAt then "at".toList
  else if att = kMdCompleted then "completed".toList
  else if att = kMdFrom then "from".toList
  else if att = kMdUntil then "until".toList
  else att

/-- `sorted(d.items())` for a dict with string keys -/
def sortItems (d : Dict Str) : Dict Str :=
  (sortStr (dkeys d)).filterMap (fun k => (dget d k).map (fun v => (k, v)))

/-- sitemap.py 446-450: renamed attributes -/
def xmlAtts (atts : Dict Str) : Dict Str := atts.foldl (fun d kv => dset d (xmlAttName kv.1) kv.2) []

/-- sitemap.py 438-464 `add_element_with_atts_to_etree`: the elements appended (none or one). -/
def elementWithAtts (name : Str) (atts : Dict Str) : List Elem :=
  if (xmlAtts atts).length > 0 then [.mk name (sortItems (xmlAtts atts)) none []] else []

/-- A datetime property of Resource (resource.py 182-267): `datetime_to_str(ts)`. -/
def dateAttr (ts : Option Rat) : Except SmErr (Option Str) :=
  match ts with
  | none => .ok none
  | some t =>
    match datetimeToStr t false with
    | none => .error .value
    | some s => .ok (some s)

/-- sitemap.py 273-275: `getattr(resource, att, None)` as a string. -/
def resourceAttr (r : Resource) (att : Str) : Except SmErr (Option Str) :=
  if att = kMdAt then dateAttr r.ts_at
  else if att = kCapability then .ok r.capability
  else if att = kChange then .ok r.change
  else if att = kDatetime then dateAttr r.ts_datetime
  else if att = kMdCompleted then dateAttr r.ts_completed
  else if att = kMdFrom then dateAttr r.ts_from
  else if att = kHash then .ok r.hash
  else if att = kLength then .ok (r.length.map intStr)
  else if att = kPath then .ok r.path
  else if att = kMimeType then .ok r.mime_type
  else if att = kMdUntil then dateAttr r.ts_until
  else .ok none

/-- sitemap.py 271-275: the loop collecting `md_atts`. -/
def mdAtts (r : Resource) : List Str → Except SmErr (Dict Str)
  | [] => .ok []
  | k :: t => do
    let v ← resourceAttr r k
    let rest ← mdAtts r t
    match v with
    | none => return rest
    | some s => return (k, s) :: rest

/-- sitemap.py 261-270: the text of the lastmod element, if there is to be one. -/
def lastmodText (s : Sitemap) (r : Resource) : Except SmErr (Option Str) := do
  let lm ← dateAttr r.timestamp
  match lm with
  | some lm => return some lm
  | none => if s.spec_1_0 || s.add_lastmod then dateAttr r.ts_datetime else return none

/-- sitemap.py 250-284 `resource_etree_element` -/
def resourceEtreeElement (s : Sitemap) (r : Resource) (element_name : Str) : Except SmErr Elem := do
  let lm ← lastmodText s r
  let md_atts ← mdAtts r (mdAttKeys s)
  return .mk element_name [] none
    ([.mk "loc".toList [] (some r.uri) []] ++
     (match lm with | some t => [.mk "lastmod".toList [] (some t) []] | none => []) ++
     elementWithAtts "rs:md".toList md_atts ++
     ((r.ln.getD []).flatMap (elementWithAtts "rs:ln".toList)))

/-- the loop of sitemap.py 133-135 -/
def resourceElements (s : Sitemap) (item : Str) : List Resource → Except SmErr (List Elem)
  | [] => .ok []
  | r :: t => do
    let e ← resourceEtreeElement s r item
    let es ← resourceElements s item t
    return e :: es

/-- sitemap.py 107-148 `resources_as_xml`: the tree which is then serialised. -/
def resourcesAsXml (s : Sitemap) (md : Dict Str) (ln : List Link) (rs : List Resource)
    (sitemapindex : Bool) : Except SmErr Elem := do
  let root := if sitemapindex then "sitemapindex".toList else "urlset".toList
  let item := if sitemapindex then "sitemap".toList else "url".toList
  let es ← resourceElements s item rs
  return .mk root [(sXmlns, SITEMAP_NS), ("xmlns:rs".toList, RS_NS)]
    (if s.pretty_xml then some "\n".toList else none)
    (ln.flatMap (elementWithAtts "rs:ln".toList) ++ elementWithAtts "rs:md".toList md ++ es)

/-! ### Parsing -/

/-- sitemap.py 371-375, 401-406: grab all understood attributes -/
def grabAtts (keys : List Str) (attrib : Dict Str) : Dict Str :=
  keys.filterMap (fun k => (dget attrib (xmlAttName k)).map (fun v => (k, v)))

/-- an integer-valued entry is converted with int(), or SitemapParseError -/
def convInt (d : Dict Str) (k : Str) : Except SmErr (Dict Str) :=
  match dget d k with
  | none => .ok d
  | some v =>
    match pyInt v with
    | none => .error .parse
    | some n => .ok (dset d k (intStr n))

/-- sitemap.py 381-382 -/
def checkMdChange (md : Dict Str) : Except SmErr Unit :=
  match dget md kChange with
  | none => .ok ()
  | some c => if c ∈ [sCreated, sUpdated, sDeleted] then .ok () else .error .parse

/-- sitemap.py 360-390 `md_from_etree` -/
def mdFromEtree (s : Sitemap) (e : Elem) : Except SmErr (Dict Str) := do
  let md := grabAtts (mdAttKeys s) e.attrib
  checkMdChange md
  convInt md kLength

/-- sitemap.py 401-402 -/
def lnAttKeys : List Str := [kHash, sHref, kLength, kModified, kPath, sRel, kPri, kMimeType]

/-- sitemap.py 422-433: `pri` must be a number between 1 and 999999 -/
def checkPri (ln : Dict Str) : Except SmErr (Dict Str) :=
  match dget ln kPri with
  | none => .ok ln
  | some v =>
    match pyInt v with
    | none => .error .parse
    | some n => if n < 1 ∨ n > 999999 then .error .parse else .ok (dset ln kPri (intStr n))

/-- sitemap.py 408-414 -/
def checkLinkAtts (ln : Dict Str) : Except SmErr Unit :=
  if (dget ln sHref).isNone then .error .parse
  else if (dget ln sRel).isNone then .error .parse
  else .ok ()

/-- sitemap.py 392-434 `ln_from_etree` -/
def lnFromEtree (e : Elem) : Except SmErr Link := do
  let ln := grabAtts lnAttKeys e.attrib
  checkLinkAtts ln
  let ln ← convInt ln kLength
  checkPri ln

/-- a list of rs:ln elements -/
def lnList : List Elem → Except SmErr (List Link)
  | [] => .ok []
  | e :: t => do
    let l ← lnFromEtree e
    let ls ← lnList t
    return l :: ls

/-- sitemap.py 312-323: the one non-empty loc -/
def locText (e : Elem) : Except SmErr Str :=
  match e.findall (smTag "loc") with
  | [l] =>
    match l.text with
    | none => .error .parse
    | some t => if t = [] then .error .parse else .ok t
  | _ => .error .parse

/-- sitemap.py 327-332 -/
def lastmodStep (e : Elem) (r : Resource) : Except SmErr Resource :=
  match e.findall (smTag "lastmod") with
  | [] => .ok r
  | [l] =>
    match strToDatetime? l.text with
    | none => .error .value
    | some t => .ok { r with timestamp := t }
  | _ => .error .parse

/-- sitemap.py 342-346 for `capability`: `if att in md: setattr(resource, att, md[att])` -/
def putCapability (r : Resource) : Option Str → Resource
  | some v => { r with capability := some v }
  | none => r

/-- sitemap.py 342-346 for `change`, through the property setter -/
def putChange (r : Resource) : Option Str → Except SmErr Resource
  | some v =>
    match r.setChange (some v) with
    | (r, none) => .ok r
    | (_, some _) => .error .changeType
  | none => .ok r

/-- sitemap.py 342-346 for `datetime`, through the property setter -/
def putDatetime (r : Resource) : Option Str → Except SmErr Resource
  | some v =>
    match strToDatetime v with
    | some t => .ok { r with ts_datetime := some t }
    | none => .error .value
  | none => .ok r

/-- sitemap.py 342-346 for `length` -/
def putLength (r : Resource) : Option Str → Resource
  | some v => { r with length := pyInt v }
  | none => r

/-- sitemap.py 342-346 for `path` -/
def putPath (r : Resource) : Option Str → Resource
  | some v => { r with path := some v }
  | none => r

/-- sitemap.py 342-346 for `mime_type` -/
def putMimeType (r : Resource) : Option Str → Resource
  | some v => { r with mime_type := some v }
  | none => r

/-- sitemap.py 347-351: a ValueError is only logged; what was stored before it stays -/
def putHash (r : Resource) : Option Str → Resource
  | some v => (r.setHash (some v)).1
  | none => r

/-- sitemap.py 342-351: copy md attributes to the Resource. -/
def applyMd (md : Dict Str) (r : Resource) : Except SmErr Resource := do
  let r ← putChange (putCapability r (dget md kCapability)) (dget md kChange)
  let r ← putDatetime r (dget md kDatetime)
  return putHash (putMimeType (putPath (putLength r (dget md kLength)) (dget md kPath)) (dget md kMimeType))
    (dget md kHash)

/-- sitemap.py 334-351 -/
def mdStep (s : Sitemap) (e : Elem) (r : Resource) : Except SmErr Resource :=
  match e.findall (rsTag "md") with
  | [] => .ok r
  | [m] => do
    let md ← mdFromEtree s m
    applyMd md r
  | _ => .error .parse

/-- sitemap.py 353-357 -/
def lnStep (e : Elem) (r : Resource) : Except SmErr Resource :=
  match e.findall (rsTag "ln") with
  | [] => .ok r
  | l => do
    let ls ← lnList l
    return { r with ln := some ls }

/-- sitemap.py 296-358 `resource_from_etree` -/
def resourceFromEtree (s : Sitemap) (e : Elem) : Except SmErr Resource := do
  let loc ← locText e
  let r ← lastmodStep e { uri := loc }
  let r ← mdStep s e r
  lnStep e r

/-- The part of a ResourceContainer that parse_xml changes; `σ` is the type of its `resources`. -/
structure Cont (σ : Type) where
  resources : σ
  md : Dict Str := []
  ln : List Link := []

/-- state of the loop sitemap.py 203-231 -/
structure ParseSt (σ : Type) where
  cont : Cont σ
  in_preamble : Bool := true
  seen_md : Bool := false
  created : Nat := 0

/-- sitemap.py 206-231: one element below the root. `add` is the container's add(). -/
def parseStep {σ : Type} (s : Sitemap) (add : σ → Resource → Except SmErr σ) (resource_tag : Str)
    (st : ParseSt σ) (e : Elem) : Except SmErr (ParseSt σ) :=
  if e.tag = resource_tag then do
    let r ← resourceFromEtree s e
    let rs ← add st.cont.resources r
    return { st with cont := { st.cont with resources := rs }, in_preamble := false, created := st.created + 1 }
  else if e.tag = rsTag "md" then
    if st.in_preamble then
      if st.seen_md then .error .parse
      else do
        let md ← mdFromEtree s e
        return { st with cont := { st.cont with md := md }, seen_md := true }
    else .error .parse
  else if e.tag = rsTag "ln" then
    if st.in_preamble then do
      let l ← lnFromEtree e
      return { st with cont := { st.cont with ln := st.cont.ln ++ [l] } }
    else .error .parse
  else .ok st

/-- sitemap.py 206-231: the loop -/
def parseLoop {σ : Type} (s : Sitemap) (add : σ → Resource → Except SmErr σ) (resource_tag : Str) :
    List Elem → ParseSt σ → Except SmErr (ParseSt σ)
  | [], st => .ok st
  | e :: t, st => do
    let st ← parseStep s add resource_tag st e
    parseLoop s add resource_tag t st

/-- sitemap.py 185-200: kind of document (`parsed_index`), checked against what is wanted. -/
def rootKind (root : Elem) (sitemapindex : Option Bool) : Except SmErr Bool :=
  if root.tag = smTag "urlset" then
    (if sitemapindex = some true then .error .index else .ok false)
  else if root.tag = smTag "sitemapindex" then
    (if sitemapindex = some false then .error .index else .ok true)
  else .error .parse

/-- sitemap.py 233-244: the md dictionary after checking the capability -/
def checkCapability (capability : Option Str) (md : Dict Str) : Except SmErr (Dict Str) :=
  match capability with
  | none => .ok md
  | some c =>
    match dget md kCapability with
    | some c' => if c' = c then .ok md else .error .parse
    | none =>
      if c = "resourcelist".toList then .ok (dset md kCapability "resourcelist".toList)
      else .error .parse

/-- sitemap.py 152-246 `parse_xml` on a parsed tree: the container, `parsed_index` and
`resources_created`. -/
def parseXml {σ : Type} (s : Sitemap) (add : σ → Resource → Except SmErr σ) (c : Cont σ) (root : Elem)
    (capability : Option Str) (sitemapindex : Option Bool) : Except SmErr (Cont σ × Bool × Nat) := do
  let parsed_index ← rootKind root sitemapindex
  let tag := if parsed_index then smTag "sitemap" else smTag "url"
  let st ← parseLoop s add tag root.children { cont := c }
  let md ← checkCapability capability st.cont.md
  return ({ st.cont with md := md }, parsed_index, st.created)

/-- `add` of ResourceContainer, resource_container.py 193-202 -/
def listAdd (l : List Resource) (r : Resource) : Except SmErr (List Resource) := .ok (l ++ [r])

end Resync
