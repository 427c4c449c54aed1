import Verif.Model.W3CDatetime
import Verif.Py.Dict
import Verif.Py.Url
import Verif.Py.Posix
/-
Model of /repo/resync/resource.py (class Resource).

Simplifications: the object is a value (a copy made by the constructor shares its `ln` list with the
original in the code, here it does not); a length is an integer; `uri` cannot be assigned `None` after construction; "extra" attributes
other than the ones the package itself uses are not stored.
-/

namespace Resync
open Py

/-- One link: a Python dict of strings (`rel`, `href`, and any others). -/
abbrev Link := Dict Str

/-- resource.py 56-91: the attributes (slots and the ones kept in `_extra`). -/
structure Resource where
  uri : Str
  timestamp : Option Rat := none
  length : Option Int := none
  mime_type : Option Str := none
  md5 : Option Str := none
  sha1 : Option Str := none
  sha256 : Option Str := none
  change : Option Str := none
  ts_datetime : Option Rat := none
  path : Option Str := none
  ln : Option (List Link) := none
  capability : Option Str := none
  ts_at : Option Rat := none
  ts_completed : Option Rat := none
  ts_from : Option Rat := none
  ts_until : Option Rat := none
deriving DecidableEq, Repr

/-- Exceptions raised by Resource methods. -/
inductive ResErr
  /-- `ChangeTypeError` -/
  | changeType
  /-- `ValueError` (bad datetime, no URI, bad hash string) -/
  | value
  /-- `KeyError` (a link without href) -/
  | key
deriving DecidableEq, Repr

def sCreated : Str := "created".toList
def sUpdated : Str := "updated".toList
def sDeleted : Str := "deleted".toList
def sRel : Str := "rel".toList
def sHref : Str := "href".toList

/-- resource.py 60 `CHANGE_TYPES` -/
def CHANGE_TYPES : List Str := [sCreated, sUpdated, sDeleted]

/-- resource.py 151-167 `__setattr__('change', v)`: the object afterwards and the exception. -/
def Resource.setChange (r : Resource) (v : Option Str) : Resource × Option ResErr :=
  match v with
  | none => ({ r with change := none }, none)
  | some c => if c ∉ CHANGE_TYPES then (r, some .changeType) else ({ r with change := some c }, none)

/-- w3c_datetime.str_to_datetime on an optional argument (76-77): outer `none` is ValueError. -/
def strToDatetime? : Option Str → Option (Option Rat)
  | none => some none
  | some s => (strToDatetime s).map some

/-- resource.py 62-72: the constructor's arguments. -/
structure ResArgs where
  uri : Option Str := none
  timestamp : Option Rat := none
  length : Option Int := none
  mime_type : Option Str := none
  md5 : Option Str := none
  sha1 : Option Str := none
  sha256 : Option Str := none
  change : Option Str := none
  ts_datetime : Option Rat := none
  path : Option Str := none
  ln : Option (List Link) := none
  capability : Option Str := none
  ts_at : Option Rat := none
  ts_completed : Option Rat := none
  ts_from : Option Rat := none
  ts_until : Option Rat := none
  lastmod : Option Str := none
  datetime : Option Str := none
  md_at : Option Str := none
  md_completed : Option Str := none
  md_from : Option Str := none
  md_until : Option Str := none
  resource : Option Resource := none

/-- `if x is not None: self.x = x` for the two sources of a value. -/
def pick {α : Type} (arg old : Option α) : Option α :=
  match arg with
  | some v => some v
  | none => old

/-- resource.py 134-146: a datetime-string argument overrides, or raises ValueError. -/
def pickDate (arg : Option Str) (old : Option Rat) : Except ResErr (Option Rat) :=
  match arg with
  | none => .ok old
  | some s =>
    match strToDatetime s with
    | none => .error .value
    | some t => .ok (some t)

/-- resource.py 158-161: the check made when `change` is assigned. -/
def checkChange (v : Option Str) : Except ResErr Unit :=
  match v with
  | some c => if c ∉ CHANGE_TYPES then .error .changeType else .ok ()
  | none => .ok ()

/-- resource.py 62-149 `__init__`.  The copied object's attributes are taken first, explicit
arguments override, datetime strings override again, and a missing URI is an error. -/
def Resource.new (a : ResArgs) : Except ResErr Resource := do
  let old (α : Type) (f : Resource → Option α) : Option α := a.resource.bind f
  -- 94-100 copying, including the check of `change` in `__setattr__`
  checkChange (old Str (·.change))
  -- 116-117
  checkChange a.change
  let timestamp ← pickDate a.lastmod (pick a.timestamp (old Rat (·.timestamp)))
  let ts_datetime ← pickDate a.datetime (pick a.ts_datetime (old Rat (·.ts_datetime)))
  let ts_at ← pickDate a.md_at (pick a.ts_at (old Rat (·.ts_at)))
  let ts_completed ← pickDate a.md_completed (pick a.ts_completed (old Rat (·.ts_completed)))
  let ts_from ← pickDate a.md_from (pick a.ts_from (old Rat (·.ts_from)))
  let ts_until ← pickDate a.md_until (pick a.ts_until (old Rat (·.ts_until)))
  match pick a.uri (a.resource.map (·.uri)) with
  | none => throw .value
  | some uri =>
    return {
      uri := uri
      timestamp := timestamp
      length := pick a.length (old Int (·.length))
      mime_type := pick a.mime_type (old Str (·.mime_type))
      md5 := pick a.md5 (old Str (·.md5))
      sha1 := pick a.sha1 (old Str (·.sha1))
      sha256 := pick a.sha256 (old Str (·.sha256))
      change := pick a.change (old Str (·.change))
      ts_datetime := ts_datetime
      path := pick a.path (old Str (·.path))
      ln := pick a.ln (old (List Link) (·.ln))
      capability := pick a.capability (old Str (·.capability))
      ts_at := ts_at
      ts_completed := ts_completed
      ts_from := ts_from
      ts_until := ts_until }

/-- resource.py 280-297 the `hash` property. -/
def Resource.hash (r : Resource) : Option Str :=
  let hashvals :=
    (match r.md5 with | some v => ["md5:".toList ++ v] | none => []) ++
    (match r.sha1 with | some v => ["sha-1:".toList ++ v] | none => []) ++
    (match r.sha256 with | some v => ["sha-256:".toList ++ v] | none => [])
  if hashvals.length > 0 then some (join " ".toList hashvals) else none

def sMd5 : Str := "md5".toList
def sSha1 : Str := "sha-1".toList
def sSha256 : Str := "sha-256".toList

/-- resource.py 314-327: the loop of the `hash` setter. `seen` is `hash_seen`, `errs` whether
`errors` is non-empty.  An entry without ':' raises ValueError at once (tuple unpacking). -/
def hashLoop : List Str → List Str → Bool → Resource → Resource × Option ResErr
  | [], _, errs, r => (r, if errs then some .value else none)
  | entry :: rest, seen, errs, r =>
    match split1 ':' entry with
    | (_, none) => (r, some .value)
    | (hash_type, some value) =>
      if hash_type ∈ seen then hashLoop rest seen true r
      else if hash_type = sMd5 then hashLoop rest (hash_type :: seen) errs { r with md5 := some value }
      else if hash_type = sSha1 then hashLoop rest (hash_type :: seen) errs { r with sha1 := some value }
      else if hash_type = sSha256 then hashLoop rest (hash_type :: seen) errs { r with sha256 := some value }
      else hashLoop rest (hash_type :: seen) true r

/-- resource.py 299-329 `hash` setter, called through `__setattr__`: the object afterwards and the
exception.  For `None`, `.split()` raises AttributeError, which `__setattr__` (165-167) turns into
an extra attribute – the digests have been cleared by then and no exception escapes. -/
def Resource.setHash (r : Resource) (hashes_str : Option Str) : Resource × Option ResErr :=
  let r0 := { r with md5 := none, sha1 := none, sha256 := none }
  match hashes_str with
  | none => (r0, none)
  | some s => hashLoop (splitWs s) [] false r0

/-- resource.py 331-342 / resource_container.py 120-125: first link with the given rel. -/
def findLink (ln : List Link) (rel : Str) : Option Link := ln.find? (fun l => dget l sRel = some rel)

/-- resource.py 331-342 `link` -/
def Resource.link (r : Resource) (rel : Str) : Option Link :=
  match r.ln with
  | none => none
  | some ln => findLink ln rel

/-- `None if link is None else link['href']` with KeyError when the link has no href. -/
def hrefOf : Option Link → Except ResErr (Option Str)
  | none => .ok none
  | some l =>
    match dget l sHref with
    | none => .error .key
    | some h => .ok (some h)

/-- resource.py 344-347 `link_href` -/
def Resource.linkHref (r : Resource) (rel : Str) : Except ResErr (Option Str) := hrefOf (r.link rel)

/-- resource.py 374-375: `for k in atts: link[k] = atts[k]` -/
def addAtts (l : Link) (atts : List (Str × Str)) : Link := atts.foldl (fun l kv => dset l kv.1 kv.2) l

/-- in-place update of the first link with the given rel -/
def updateFirst (ln : List Link) (rel : Str) (f : Link → Link) : List Link :=
  match ln with
  | [] => []
  | l :: t => if dget l sRel = some rel then f l :: t else l :: updateFirst t rel f

/-- resource.py 361-375 on the list of links. -/
def linkSetList (ln : List Link) (rel href : Str) (allow_duplicates : Bool) (atts : List (Str × Str)) :
    List Link :=
  if (findLink ln rel).isSome ∧ ¬ allow_duplicates then
    updateFirst ln rel (fun l => addAtts (dset l sHref href) atts)
  else ln ++ [addAtts [(sRel, rel), (sHref, href)] atts]

/-- resource.py 349-375 `link_set` -/
def Resource.linkSet (r : Resource) (rel href : Str) (allow_duplicates : Bool := false)
    (atts : List (Str × Str) := []) : Resource :=
  { r with ln := some (linkSetList (r.ln.getD []) rel href allow_duplicates atts) }

/-- resource.py 377-382 `link_add` -/
def Resource.linkAdd (r : Resource) (rel href : Str) (atts : List (Str × Str) := []) : Resource :=
  r.linkSet rel href true atts

/-- resource.py 427-434 `basename`; `none` is urlparse's ValueError -/
def Resource.basename (r : Resource) : Option Str :=
  (urlparse r.uri).map (fun u => Py.basename u.path)

/-- `a is not None and b is not None and a != b` -/
def bothDiffer {α : Type} [DecidableEq α] (a b : Option α) : Bool :=
  match a, b with
  | some x, some y => decide (x ≠ y)
  | _, _ => false

/-- Python's `abs` on the rationals standing for floats. -/
def pyAbs (x : Rat) : Rat := if x < 0 then -x else x

/-- resource.py 457-462: the timestamps give proof of inequality -/
def timesDiffer (a b : Option Rat) (delta : Rat) : Bool :=
  match a, b with
  | none, none => false
  | some x, some y => decide (delta ≤ pyAbs (x - y))
  | _, _ => true

/-- resource.py 443-475 `equal` -/
def Resource.equal (self : Resource) (other : Option Resource) (delta : Rat := 0) : Bool :=
  match other with
  | none => false
  | some o =>
    if self.uri ≠ o.uri then false
    else if timesDiffer self.timestamp o.timestamp delta then false
    else if bothDiffer self.md5 o.md5 then false
    else if bothDiffer self.sha1 o.sha1 then false
    else if bothDiffer self.sha256 o.sha256 then false
    else if bothDiffer self.length o.length then false
    else true

/-- resource.py 436-441 `__eq__` -/
def Resource.eq (self : Resource) (other : Option Resource) : Bool := self.equal other 1

/-- Attribute assignments and link operations on an existing Resource (the public ways of changing
one). -/
inductive ResOp
  | setChange (v : Option Str)
  | setUri (v : Str)
  | setTimestamp (v : Option Rat)
  | setLength (v : Option Int)
  | setMimeType (v : Option Str)
  | setMd5 (v : Option Str)
  | setSha1 (v : Option Str)
  | setSha256 (v : Option Str)
  | setTsDatetime (v : Option Rat)
  | setPath (v : Option Str)
  | setLn (v : Option (List Link))
  | setCapability (v : Option Str)
  | setTsAt (v : Option Rat)
  | setTsCompleted (v : Option Rat)
  | setTsFrom (v : Option Rat)
  | setTsUntil (v : Option Rat)
  | setLastmod (v : Option Str)
  | setDatetime (v : Option Str)
  | setMdAt (v : Option Str)
  | setMdCompleted (v : Option Str)
  | setMdFrom (v : Option Str)
  | setMdUntil (v : Option Str)
  | setHash (v : Option Str)
  | linkSet (rel href : Str) (allow_duplicates : Bool) (atts : List (Str × Str))
  /-- any attribute name the class does not know: stored in `_extra`, 165-174 -/
  | setExtra (name : Str)

/-- property setters taking a W3C datetime string, resource.py 187-190 and alike -/
def setDate (r : Resource) (s : Option Str) (f : Option Rat → Resource) : Resource × Option ResErr :=
  match strToDatetime? s with
  | none => (r, some .value)
  | some t => (f t, none)

/-- resource.py 151-425: one assignment / link operation: object afterwards and exception. -/
def Resource.step (r : Resource) : ResOp → Resource × Option ResErr
  | .setChange v => r.setChange v
  | .setUri v => ({ r with uri := v }, none)
  | .setTimestamp v => ({ r with timestamp := v }, none)
  | .setLength v => ({ r with length := v }, none)
  | .setMimeType v => ({ r with mime_type := v }, none)
  | .setMd5 v => ({ r with md5 := v }, none)
  | .setSha1 v => ({ r with sha1 := v }, none)
  | .setSha256 v => ({ r with sha256 := v }, none)
  | .setTsDatetime v => ({ r with ts_datetime := v }, none)
  | .setPath v => ({ r with path := v }, none)
  | .setLn v => ({ r with ln := v }, none)
  | .setCapability v => ({ r with capability := v }, none)
  | .setTsAt v => ({ r with ts_at := v }, none)
  | .setTsCompleted v => ({ r with ts_completed := v }, none)
  | .setTsFrom v => ({ r with ts_from := v }, none)
  | .setTsUntil v => ({ r with ts_until := v }, none)
  | .setLastmod s => setDate r s (fun t => { r with timestamp := t })
  | .setDatetime s => setDate r s (fun t => { r with ts_datetime := t })
  | .setMdAt s => setDate r s (fun t => { r with ts_at := t })
  | .setMdCompleted s => setDate r s (fun t => { r with ts_completed := t })
  | .setMdFrom s => setDate r s (fun t => { r with ts_from := t })
  | .setMdUntil s => setDate r s (fun t => { r with ts_until := t })
  | .setHash s => r.setHash s
  | .linkSet rel href dup atts => (r.linkSet rel href dup atts, none)
  | .setExtra _ => (r, none)

end Resync
