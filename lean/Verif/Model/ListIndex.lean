import Verif.Model.Sitemap
import Verif.Model.Mapper
import Verif.Model.ResourceList
import Verif.Model.UrlAuthority
/-
Model of /repo/resync/list_base_with_index.py: lists split over several sitemaps with a sitemapindex.

Simplifications: `resources` is the sequence that iterating over self.resources delivers (only one
iteration is under way at a time here); files hold document trees; opening a file for writing empties
it, and the document is there once it has been closed; the division in requires_multifile is exact
(the code divides floats); counters and log messages are left out.
-/

namespace Resync
open Py

/-- Exceptions of list_base_with_index.py and of what it calls. -/
inductive LbErr
  /-- ListBaseIndexError -/
  | index
  /-- exceptions of the sitemap reader and writer -/
  | sm (e : SmErr)
  /-- TypeError: comparison with None -/
  | type
  /-- AttributeError: no mapper -/
  | attr
  /-- IOError -/
  | io
  /-- ZeroDivisionError -/
  | zeroDiv
  /-- MapperError that is not caught, ValueError of urlparse, re.error -/
  | other
  /-- not a Python exception: the loop bound of the model was too small (shown never to happen) -/
  | fuel
deriving DecidableEq, Repr

/-- list_base_with_index.py 50-75: the object, as far as writing is concerned. -/
structure LBI where
  resources : List Resource
  count : Option Nat := none
  md : Dict Str := []
  ln : List Link := []
  capability_name : Option Str := some "unknown".toList
  allow_multifile : Bool := true
  mapper : Option Mapper := none
  max_sitemap_entries : Option Nat := some 50000
  sitemapindex : Bool := false
  sitemap : Sitemap := {}

/-- list_base.py 64-77 `__len__` -/
def LBI.len (l : LBI) : Nat := l.count.getD l.resources.length

/-- resource_container.py 184-191 `default_capability` -/
def defaultCapability (md : Dict Str) (capability_name : Option Str) : Dict Str :=
  match dget md kCapability, capability_name with
  | none, some c => dset md kCapability c
  | _, _ => md

/-- `chunk.index = uri`, resource_container.py 127-152 -/
def sIndex : Str := "index".toList
def setIndexLink (ln : List Link) (uri : Str) : List Link := linkSetList ln sIndex uri false []

/-- The links of the index while the chunks are written: `ln=list(self.ln)` copies the list but not the
links in it (lines 312, 376), so that an index link that was there is changed for all. -/
def sharedIndexLink (ln : List Link) (uri : Str) : List Link :=
  if (findLink ln sIndex).isSome then setIndexLink ln uri else ln

/-- list_base_with_index.py 379-383: take from the iterator until the chunk is full. -/
def chunkLoop (max : Nat) : List Resource → List Resource → List Resource × List Resource
  | chunk, [] => (chunk, [])
  | chunk, r :: it =>
    if (chunk ++ [r]).length ≥ max then (chunk ++ [r], it) else chunkLoop max (chunk ++ [r]) it

/-- list_base_with_index.py 364-389 `get_resources_chunk`: the chunk's entries, the next item, and
the rest of the iterator. -/
def getResourcesChunk (max : Option Nat) (it : List Resource) (first : Option Resource) :
    Except LbErr (List Resource × Option Resource × List Resource) :=
  match max, it with
  | none, _ :: _ => .error .type
  | none, [] => .ok (first.toList, none, [])
  | some m, it =>
    match chunkLoop m first.toList it with
    | (chunk, []) => .ok (chunk, none, [])
    | (chunk, n :: rest) => .ok (chunk, some n, rest)

/-- list_base_with_index.py 391-408 `part_name` -/
def partName (basename : Str) (part_number : Nat) : Str :=
  if endsWith basename ".xml".toList then basename.take (basename.length - 4) ++ natPad 5 part_number ++ ".xml".toList
  else basename ++ natPad 5 part_number ++ ".xml".toList

/-- What happens to files, in order. -/
inductive FsEff
  /-- `open(file, 'w')`: the file is now empty -/
  | openW (file : Str)
  /-- the document has been written and the file closed -/
  | finish (file : Str) (doc : Elem)

/-- What write() learns from the file system about a file it has just written. -/
structure StatEnv where
  mtime : Str → Rat
  md5 : Str → Str

/-- `self.mapper.dst_to_src(file)` with MapperError turned into ListBaseIndexError (306-310, 321-325) -/
def mapFile (m : Option Mapper) (file : Str) : Except LbErr Str :=
  match m with
  | none => .error .attr
  | some m =>
    match m.dstToSrc file with
    | .ok u => .ok u
    | .error .mapper => .error .index
    | .error _ => .error .other

/-- open a file, serialise into it, close it -/
def writeDoc (file : Str) (doc : Except SmErr Elem) : List FsEff × Except LbErr Unit :=
  match doc with
  | .error e => ([.openW file], .error (.sm e))
  | .ok t => ([.openW file, .finish file t], .ok ())

/-- list_base_with_index.py 315-340: the loop writing the components; `index` are the entries of the
index so far.  `fuel` bounds the number of rounds. -/
def writeParts (l : LBI) (env : StatEnv) (basename index_uri : Str) :
    Nat → List Resource → Option Resource → List Resource → List Resource → List FsEff × Except LbErr (List Resource)
  | 0, _, _, _, _ => ([], .error .fuel)
  | n + 1, chunk, nxt, it, index =>
    if chunk = [] then ([], .ok index)
    else
      let file := partName basename index.length
      match mapFile l.mapper file with
      | .error e => ([], .error e)
      | .ok uri =>
        match writeDoc file (resourcesAsXml l.sitemap (defaultCapability l.md l.capability_name)
            (setIndexLink l.ln index_uri) chunk false) with
        | (effs, .error e) => (effs, .error e)
        | (effs, .ok ()) =>
          match getResourcesChunk l.max_sitemap_entries it nxt with
          | .error e => (effs, .error e)
          | .ok (chunk', nxt', it') =>
            let r : Resource := { uri := uri, timestamp := some (env.mtime file), md5 := some (env.md5 file) }
            match writeParts l env basename index_uri n chunk' nxt' it' (index ++ [r]) with
            | (effs', res) => (effs ++ effs', res)

/-- list_base_with_index.py 276-354 `write`: what happens to files and how it ends. -/
def LBI.write (l : LBI) (env : StatEnv) (basename : Str) : List FsEff × Except LbErr Unit :=
  match getResourcesChunk l.max_sitemap_entries l.resources none with
  | .error e => ([], .error e)
  | .ok (chunk, some nxt, it) =>
    if ¬ l.allow_multifile then ([], .error .index)
    else
      match mapFile l.mapper basename with
      | .error e => ([], .error e)
      | .ok index_uri =>
        match writeParts l env basename index_uri (l.resources.length + 1) chunk (some nxt) it [] with
        | (effs, .error e) => (effs, .error e)
        | (effs, .ok index) =>
          match writeDoc basename (resourcesAsXml l.sitemap (defaultCapability l.md l.capability_name)
              (sharedIndexLink l.ln index_uri) index true) with
          | (effs', res) => (effs ++ effs', res)
  | .ok (chunk, none, _) =>
    writeDoc basename (resourcesAsXml l.sitemap (defaultCapability l.md l.capability_name) l.ln chunk l.sitemapindex)

/-- list_base_with_index.py 188-197 `requires_multifile`: `none` is False. -/
def LBI.requiresMultifile (l : LBI) : Except LbErr (Option Nat) :=
  match l.max_sitemap_entries with
  | none => .ok none
  | some m =>
    if l.len ≤ m then .ok none
    else if m = 0 then .error .zeroDiv
    else .ok (some ((l.len + m - 1) / m))

/-- list_base_with_index.py 246-274 `as_xml_part` -/
def LBI.asXmlPart (l : LBI) (basename : Str) (part_number : Nat) : Except LbErr Elem := do
  match ← l.requiresMultifile, l.max_sitemap_entries with
  | some _, some m =>
    let start := part_number * m
    if start > l.len then .error .index
    else
      let stop := if start + m > l.len then l.len else start + m
      match resourcesAsXml l.sitemap (defaultCapability [] l.capability_name) (setIndexLink [] basename)
          ((l.resources.drop start).take (stop - start)) false with
      | .ok t => .ok t
      | .error e => .error (.sm e)
  | _, _ => .error .index

/-- list_base_with_index.py 220-244 `as_xml_index`; ListBase() has the default sitemap settings. -/
def LBI.asXmlIndex (l : LBI) (basename : Str) : Except LbErr Elem := do
  match ← l.requiresMultifile with
  | none => .error .index
  | some n =>
    match resourcesAsXml {} (defaultCapability [] l.capability_name) []
        ((List.range n).map (fun i => { uri := partName basename i : Resource })) true with
    | .ok t => .ok t
    | .error e => .error (.sm e)

/-- list_base_with_index.py 199-218 `as_xml` -/
def LBI.asXml (l : LBI) (allow_multifile : Bool) (basename : Str) : Except LbErr Elem := do
  match ← l.requiresMultifile with
  | none =>
    match resourcesAsXml l.sitemap (defaultCapability l.md l.capability_name) l.ln l.resources l.sitemapindex with
    | .ok t => .ok t
    | .error e => .error (.sm e)
  | some _ => if allow_multifile then l.asXmlIndex basename else .error .index

/-! ### Reading -/

/-- `re.match(r'\w{3,4}:', uri)`; `uw` says which non-ASCII characters `\w` matches -/
def schemeMatch34 (uw : Char → Bool) (uri : Str) : Bool :=
  match uri with
  | a :: b :: c :: ':' :: _ => isWord uw a && isWord uw b && isWord uw c
  | a :: b :: c :: d :: ':' :: _ => isWord uw a && isWord uw b && isWord uw c && isWord uw d
  | _ => false

/-- list_base_with_index.py 410-416 `is_file_uri` -/
def isFileUri (uw : Char → Bool) (uri : Str) : Bool :=
  startsWith uri "file:".toList || !schemeMatch34 uw uri

/-- The settings of a reading ListBaseWithIndex, and its surroundings: `docAt` is what opening a URI
or path and parsing the XML gives (`none`: IOError). -/
structure ReadCfg where
  sitemap : Sitemap := {}
  capability_name : Option Str := some "resourcelist".toList
  allow_multifile : Bool := true
  check_url_authority : Bool := false
  mapper : Option Mapper := none
  uw : Char → Bool := fun _ => false
  docAt : Str → Option Elem

/-- `ResourceList.add` as parse_xml uses it -/
def rlAdd (d : Dict Resource) (r : Resource) : Except SmErr (Dict Resource) :=
  match dictAdd d r false with
  | .ok d => .ok d
  | .error _ => .error .dupe

def liftSm {α : Type} : Except SmErr α → Except LbErr α
  | .ok a => .ok a
  | .error e => .error (.sm e)

/-- list_base_with_index.py 145-161: where a component is read from -/
def componentLocation (cfg : ReadCfg) (sitemapindex_uri sitemap_uri : Str) (sitemapindex_is_file : Bool) :
    Except LbErr Str :=
  if sitemapindex_is_file then
    if ¬ isFileUri cfg.uw sitemap_uri then
      match cfg.mapper with
      | none => .error .attr
      | some m =>
        match m.srcToDst sitemap_uri with
        | .ok p => .ok p
        | .error _ => .error .other
    else if cfg.check_url_authority then
      match (UrlAuthority.new (some sitemapindex_uri) false).bind (fun a => a.hasAuthorityOver sitemap_uri) with
      | some true => .ok sitemap_uri
      | some false => .error .index
      | none => .error .other
    else .ok sitemap_uri
  else .ok sitemap_uri

/-- list_base_with_index.py 140-184 `read_component_sitemap` -/
def readComponent (cfg : ReadCfg) (sitemapindex_uri : Str) (sitemapindex_is_file : Bool) (d : Dict Resource)
    (sitemap_uri : Str) : Except LbErr (Dict Resource) := do
  let loc ← componentLocation cfg sitemapindex_uri sitemap_uri sitemapindex_is_file
  match cfg.docAt loc with
  | none => .error .index
  | some root =>
    let (component, _, _) ← liftSm (parseXml cfg.sitemap listAdd { resources := [] } root none (some false))
    component.resources.foldlM (fun d r => liftSm (rlAdd d r)) d

/-- list_base_with_index.py 79-138 `read` into a ResourceList holding `c`; with index_only the entries of an index are
left in the list as they are. -/
def readList (cfg : ReadCfg) (c : Cont (Dict Resource)) (uri : Str) (index_only : Bool := false) :
    Except LbErr (Cont (Dict Resource)) :=
  match cfg.docAt uri with
  | none => .error .io
  | some root => do
    let (c, parsed_index, _) ← liftSm (parseXml cfg.sitemap rlAdd c root cfg.capability_name none)
    if parsed_index then
      if ¬ cfg.allow_multifile then .error .index
      else if index_only then return c
      else
        let d ← (dictUris c.resources).foldlM (readComponent cfg uri (isFileUri cfg.uw uri)) []
        return { c with resources := d }
    else return c

end Resync
