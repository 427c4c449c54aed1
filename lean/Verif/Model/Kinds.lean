import Verif.Model.CapabilityList
import Verif.Model.Scripts
/-
Model of the classes of documents: the constructors of resource_list.py, resource_dump.py, resource_dump_manifest.py,
change_list.py, change_dump.py, change_dump_manifest.py, capability_list.py, source_description.py and archives.py, with
`add`, iteration, `as_xml`, `parse` and `read` as each class has them.

Simplifications: the values of `md` are strings (the `from` of a SourceDescription, which is None, is not written);
`resources`, `count` and `resources_class` keep their defaults; iterations run to the end with no other one in between.
-/

namespace Resync
open Py

/-- The classes -/
inductive Kind
  | resourceList | resourceDump | resourceDumpManifest
  | changeList | changeDump | changeDumpManifest
  | capabilityList | sourceDescription
  | resourceListArchive | resourceDumpArchive | changeListArchive | changeDumpArchive
deriving DecidableEq, Repr

/-- The capability_name that the constructor sets: resource_list.py 142-157, resource_dump.py 26-33,
resource_dump_manifest.py 23-30, change_list.py 27-36, change_dump.py 24-35, change_dump_manifest.py 25-36,
capability_list.py 76-85, source_description.py 39-50, archives.py 21-31, 50-58, 37-44, 64-72 -/
def Kind.capability : Kind → Str
  | .resourceList => "resourcelist".toList
  | .resourceDump => "resourcedump".toList
  | .resourceDumpManifest => "resourcedump-manifest".toList
  | .changeList => "changelist".toList
  | .changeDump => "changedump".toList
  | .changeDumpManifest => "changedump-manifest".toList
  | .capabilityList => "capabilitylist".toList
  | .sourceDescription => "description".toList
  | .resourceListArchive => "resourcelist-archive".toList
  | .resourceDumpArchive => "resourcedump-archive".toList
  | .changeListArchive => "changelist-archive".toList
  | .changeDumpArchive => "changedump-archive".toList

/-- The subclasses of ResourceList; they keep their entries in a ResourceListDict -/
def Kind.isResourceList : Kind → Bool
  | .resourceList | .resourceDump | .resourceDumpManifest | .changeDump => true
  | _ => false

/-- ChangeList and its subclass -/
def Kind.isChangeList : Kind → Bool
  | .changeList | .changeDumpManifest => true
  | _ => false

/-- What is in `resources`: a dictionary (ResourceListDict, ResourceSet, CapabilitySet) or a list -/
inductive Entries
  | dict (d : Dict Resource)
  | list (l : List Resource)

/-- the class that an object of the kind creates for its entries: ResourceListDict for resource_list.py 142-157 and its
subclasses, ResourceSet for source_description.py 39-50, CapabilitySet for capability_list.py 76-85, list for the others
(list_base_with_index.py 50-57) -/
def Kind.noEntries : Kind → Entries
  | .capabilityList | .sourceDescription => .dict []
  | k => if k.isResourceList then .dict [] else .list []

/-- An object of one of the classes, list_base.py 45-58 and list_base_with_index.py 50-75 -/
structure DocList where
  kind : Kind
  entries : Entries
  md : Dict Str := []
  ln : List Link := []
  sitemap : Sitemap := {}
  allow_multifile : Bool := true
  mapper : Option Mapper := none
  max_sitemap_entries : Option Nat := some 50000
  sitemapindex : Bool := false

/-- The constructors, called with `spec_version`/`add_lastmod`, `ln`, `mapper` and `allow_multifile`.  Only that of ResourceList hands
`allow_multifile` on (resource_list.py 152); those of its subclasses and of ChangeDumpManifest take it and drop it; the
others do not take it. -/
def Kind.new (k : Kind) (s : Sitemap) (ln : List Link) (mapper : Option Mapper) (allow_multifile : Option Bool) : DocList where
  kind := k
  entries := k.noEntries
  ln := ln
  sitemap := s
  mapper := mapper
  allow_multifile := if k = .resourceList then allow_multifile.getD true else true

/-- `add` of one resource: resource_list.py 159-169, capability_list.py 87-99 and source_description.py 52-62 (with
replace=False), change_list.py 38-55, resource_container.py 193-202 -/
def Kind.addTo (k : Kind) : Entries → Resource → Except SmErr Entries
  | .dict d, r =>
    match rlAdd d r with
    | .ok d => .ok (.dict d)
    | .error e => .error e
  | .list l, r =>
    match (if k.isChangeList then clAdd l r else listAdd l r) with
    | .ok l => .ok (.list l)
    | .error e => .error e

/-- `add` of an iterable, all of it accepted -/
def DocList.addAll (l : DocList) (rs : List Resource) : Except SmErr DocList :=
  match rs.foldlM l.kind.addTo l.entries with
  | .ok es => .ok { l with entries := es }
  | .error e => .error e

/-- list_base.py 60-62 `__iter__`, run to the end: by URI for ResourceListDict and ResourceSet, capability_list.py 31-64
for CapabilitySet -/
def DocList.iter (l : DocList) : Except ListErr (List Resource) :=
  match l.entries with
  | .list rs => .ok rs
  | .dict d => if l.kind = .capabilityList then .ok (capIter d) else iterAll d

/-- the object as `Model/ListIndex` has it, with the entries in the order of iteration -/
def DocList.obj (l : DocList) (rs : List Resource) : LBI :=
  { resources := rs, md := l.md, ln := l.ln, capability_name := some l.kind.capability, mapper := l.mapper,
    allow_multifile := l.allow_multifile, max_sitemap_entries := l.max_sitemap_entries, sitemapindex := l.sitemapindex,
    sitemap := l.sitemap }

/-- `as_xml()`: list_base.py 127-135 for CapabilityList, list_base_with_index.py 198-218 for the others -/
def DocList.asXml (l : DocList) : Except LbErr Elem :=
  match l.iter with
  | .error _ => .error .other
  | .ok rs =>
    if l.kind = .capabilityList then
      liftSm (resourcesAsXml l.sitemap (defaultCapability l.md (some l.kind.capability)) l.ln rs l.sitemapindex)
    else (l.obj rs).asXml false "/tmp/sitemap.xml".toList

/-- `write(basename)`: list_base.py 137-146 for CapabilityList, list_base_with_index.py 276-354 for the others, resource_dump.py
35-42 hands on to it -/
def DocList.write (l : DocList) (env : StatEnv) (basename : Str) : List FsEff × Except LbErr Unit :=
  match l.iter with
  | .error _ => ([], .error .other)
  | .ok rs =>
    if l.kind = .capabilityList then
      writeDoc basename (resourcesAsXml l.sitemap (defaultCapability l.md (some l.kind.capability)) l.ln rs l.sitemapindex)
    else (l.obj rs).write env basename

/-- list_base_with_index.py 356-360 `index_as_xml` -/
def DocList.indexAsXml (l : DocList) : Except LbErr Elem :=
  match l.iter with
  | .error _ => .error .other
  | .ok rs => liftSm (resourcesAsXml l.sitemap (defaultCapability l.md (some l.kind.capability)) l.ln rs true)

/-- list_base.py 89-123 `parse` of a document -/
def DocList.parse (l : DocList) (doc : Elem) : Except LbErr DocList :=
  match parseXml l.sitemap l.kind.addTo { resources := l.entries, md := l.md, ln := l.ln } doc (some l.kind.capability) (some false) with
  | .error e => .error (.sm e)
  | .ok (c, _, _) => .ok { l with entries := c.resources, md := c.md, ln := c.ln }

/-- `read(uri, index_only)`: list_base.py 81-87 for CapabilityList (which takes no index_only; its failure to open is a
plain Exception), list_base_with_index.py 79-138 for the others.  The entries of an index are sorted by
`sitemaps.uris()`, which only ResourceListDict has (AttributeError for a list or a ResourceSet). -/
def DocList.read (l : DocList) (docAt : Str → Option Elem) (uw : Char → Bool) (uri : Str) (index_only : Bool := false) :
    Except LbErr DocList :=
  match docAt uri with
  | none => .error .io
  | some root =>
    if l.kind = .capabilityList then l.parse root
    else
      match parseXml l.sitemap l.kind.addTo { resources := l.entries, md := l.md, ln := l.ln } root (some l.kind.capability) none with
      | .error e => .error (.sm e)
      | .ok (c, false, _) => .ok { l with entries := c.resources, md := c.md, ln := c.ln }
      | .ok (c, true, _) =>
        if ¬ l.allow_multifile then .error .index
        else if index_only then .ok { l with entries := c.resources, md := c.md, ln := c.ln, sitemapindex := true }
        else
          match l.kind.isResourceList, c.resources with
          | true, .dict sitemaps =>
            match (dictUris sitemaps).foldlM (readComponent
                { sitemap := l.sitemap, capability_name := some l.kind.capability, mapper := l.mapper, uw := uw, docAt := docAt }
                uri (isFileUri uw uri)) [] with
            | .error e => .error e
            | .ok d => .ok { l with entries := .dict d, md := c.md, ln := c.ln }
          | _, _ => .error .attr

end Resync
