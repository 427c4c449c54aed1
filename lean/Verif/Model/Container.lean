import Verif.Model.ListIndex
/-
Model of the data part of /repo/resync/resource_container.py: top-level metadata and links with their
accessors, and of list_base.py `as_xml`.

Simplifications: values of `md` are strings or None; hrefs are strings; a time argument is None, a
string or a number (other types would make datetime_to_str raise); `time.time()` is an argument
(`clock`).
-/

namespace Resync
open Py

/-- resource_container.py 55-62: md, ln, resources and capability_name of a container -/
structure Container where
  resources : List Resource := []
  md : Dict (Option Str) := []
  ln : List Link := []
  capability_name : Option Str := none

/-- the values that the setters of the time attributes take -/
inductive TimeArg
  | none
  | text (s : Str)
  | number (t : Rat)

/-- resource_container.py 17-30 `_str_datetime_now`; the result `none` is the exception of
`datetime_to_str` (w3c_datetime.py 17-38) for times outside the years 1 to 9999 -/
def strDatetimeNow (x : TimeArg) (clock : Rat) : Option (Option Str) :=
  match x with
  | .text s => if s = "now".toList then datetimeToStr? (some clock) false else some (some s)
  | .none => datetimeToStr? none false
  | .number t => datetimeToStr? (some t) false

/-- `self.md.get(key)` -/
def Container.mdGet (c : Container) (key : Str) : Option Str := (dget c.md key).join

/-- resource_container.py 75-78 `capability` -/
def Container.capability (c : Container) : Option Str := c.mdGet kCapability
/-- resource_container.py 80-82, the setter of `capability` -/
def Container.setCapability (c : Container) (v : Option Str) : Container :=
  { c with md := dset c.md kCapability v }

/-- resource_container.py 84-87 `md_from` -/
def Container.mdFrom (c : Container) : Option Str := c.mdGet kMdFrom
/-- resource_container.py 89-91, the setter of `md_from` -/
def Container.setMdFrom (c : Container) (v : TimeArg) (clock : Rat) : Option Container :=
  (strDatetimeNow v clock).map (fun s => { c with md := dset c.md kMdFrom s })

/-- resource_container.py 93-96 `md_until` -/
def Container.mdUntil (c : Container) : Option Str := c.mdGet kMdUntil
/-- resource_container.py 98-100, the setter of `md_until` -/
def Container.setMdUntil (c : Container) (v : TimeArg) (clock : Rat) : Option Container :=
  (strDatetimeNow v clock).map (fun s => { c with md := dset c.md kMdUntil s })

/-- resource_container.py 102-105 `md_at` -/
def Container.mdAt (c : Container) : Option Str := c.mdGet kMdAt
/-- resource_container.py 107-109, the setter of `md_at` -/
def Container.setMdAt (c : Container) (v : TimeArg) (clock : Rat) : Option Container :=
  (strDatetimeNow v clock).map (fun s => { c with md := dset c.md kMdAt s })

/-- resource_container.py 111-114 `md_completed` -/
def Container.mdCompleted (c : Container) : Option Str := c.mdGet kMdCompleted
/-- resource_container.py 116-118, the setter of `md_completed` -/
def Container.setMdCompleted (c : Container) (v : TimeArg) (clock : Rat) : Option Container :=
  (strDatetimeNow v clock).map (fun s => { c with md := dset c.md kMdCompleted s })

/-- resource_container.py 120-125 `link` -/
def Container.link (c : Container) (rel : Str) : Option Link := findLink c.ln rel
/-- resource_container.py 127-132 `link_href` -/
def Container.linkHref (c : Container) (rel : Str) : Except ResErr (Option Str) := hrefOf (c.link rel)
/-- resource_container.py 134-153 `link_set` -/
def Container.linkSet (c : Container) (rel href : Str) (atts : List (Str × Str)) : Container :=
  { c with ln := linkSetList c.ln rel href false atts }

/-- resource_container.py 155-158 `describedby` -/
def Container.describedby (c : Container) : Except ResErr (Option Str) := c.linkHref "describedby".toList
/-- resource_container.py 160-163, the setter of `describedby` -/
def Container.setDescribedby (c : Container) (uri : Str) : Container := c.linkSet "describedby".toList uri []
/-- resource_container.py 165-168 `up` -/
def Container.up (c : Container) : Except ResErr (Option Str) := c.linkHref "up".toList
/-- resource_container.py 170-173, the setter of `up` -/
def Container.setUp (c : Container) (uri : Str) : Container := c.linkSet "up".toList uri []
/-- resource_container.py 175-178 `index` -/
def Container.index (c : Container) : Except ResErr (Option Str) := c.linkHref "index".toList
/-- resource_container.py 180-183, the setter of `index` -/
def Container.setIndex (c : Container) (uri : Str) : Container := c.linkSet "index".toList uri []

/-- resource_container.py 185-192 `default_capability`: only if the key is missing -/
def Container.defaultCap (c : Container) : Container :=
  match dget c.md kCapability, c.capability_name with
  | none, some n => { c with md := dset c.md kCapability (some n) }
  | _, _ => c

/-- resource_container.py 204-209 `uris` -/
def Container.uris (c : Container) : List Str := c.resources.map (·.uri)

/-- sitemap.py 446-450: attributes that are None are left out -/
def writtenMd (md : Dict (Option Str)) : Dict Str :=
  md.filterMap (fun kv => kv.2.map (fun v => (kv.1, v)))

/-- list_base.py 127-135 `as_xml` (and the text that `write`, 137-146, puts in the file) -/
def Container.asXml (s : Sitemap) (c : Container) (sitemapindex : Bool) : Except SmErr Elem :=
  let c := c.defaultCap
  resourcesAsXml s (writtenMd c.md) c.ln c.resources sitemapindex

/-- the container that a reader has after parsing: what `parse_xml` sets (sitemap.py 203-244) -/
def Container.ofCont (c : Cont (List Resource)) (capability_name : Option Str) : Container where
  resources := c.resources
  md := c.md.map (fun kv => (kv.1, some kv.2))
  ln := c.ln
  capability_name := capability_name

end Resync
