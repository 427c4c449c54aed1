import Verif.Model.ListIndex
/-
Lists whose resources are a generator.
-/

namespace Resync
open Py

/-- list_base.py 45-58, 64-73: a list made with a generator for `resources`.  In `l.resources` are the items the generator has still to
give: whoever iterates over the list takes them away. -/
structure GenList where
  l : LBI

/-- list_base_with_index.py 188-197 with list_base.py 64-77: `len()` of a generator is a TypeError, so there must be a `count` if there is a
limit -/
def GenList.requiresMultifile (g : GenList) : Except LbErr (Option Nat) :=
  match g.l.max_sitemap_entries, g.l.count with
  | some _, none => .error .type
  | _, _ => g.l.requiresMultifile

/-- list_base_with_index.py 199-218 and list_base.py 127-135 `as_xml`, and the list afterwards.  What is left after an exception is not
modelled. -/
def GenList.asXml (g : GenList) (allow_multifile : Bool) (basename : Str) : Except LbErr (Elem × GenList) := do
  match ← g.requiresMultifile with
  | none =>
    let md := defaultCapability g.l.md g.l.capability_name
    match resourcesAsXml g.l.sitemap md g.l.ln g.l.resources g.l.sitemapindex with
    | .ok t => .ok (t, ⟨{ g.l with md := md, resources := [] }⟩)
    | .error e => .error (.sm e)
  | some _ =>
    if allow_multifile then
      match g.l.asXmlIndex basename with
      | .ok t => .ok (t, g)
      | .error e => .error e
    else .error .index

/-- list_base_with_index.py 246-274 `as_xml_part`: `itertools.islice(self.resources, start, stop)` (line 269) takes the first `start` items
the generator has still to give and throws them away, and then those up to `stop`. -/
def GenList.asXmlPart (g : GenList) (basename : Str) (part_number : Nat) : Except LbErr (Elem × GenList) := do
  match ← g.requiresMultifile, g.l.max_sitemap_entries with
  | some _, some m =>
    let start := part_number * m
    if start > g.l.len then .error .index
    else
      let stop := if start + m > g.l.len then g.l.len else start + m
      match resourcesAsXml g.l.sitemap (defaultCapability [] g.l.capability_name) (setIndexLink [] basename)
          ((g.l.resources.drop start).take (stop - start)) false with
      | .ok t => .ok (t, ⟨{ g.l with resources := g.l.resources.drop stop }⟩)
      | .error e => .error (.sm e)
  | _, _ => .error .index

/-- list_base_with_index.py 276-354 `write`, which iterates once (line 293).  That an index link of the list itself may change (C94) is
left out of the list afterwards. -/
def GenList.write (g : GenList) (env : StatEnv) (basename : Str) : List FsEff × Except LbErr GenList :=
  match g.l.write env basename with
  | (effs, .ok ()) => (effs, .ok ⟨{ g.l with resources := [] }⟩)
  | (effs, .error e) => (effs, .error e)

/-- the components one after the other, from number `i` on, `k` of them -/
def GenList.partsFrom (g : GenList) (basename : Str) (i : Nat) : Nat → Except LbErr (List Elem)
  | 0 => .ok []
  | k + 1 =>
    match g.asXmlPart basename i with
    | .error e => .error e
    | .ok (t, g') =>
      match g'.partsFrom basename (i + 1) k with
      | .error e => .error e
      | .ok ts => .ok (t :: ts)

end Resync
