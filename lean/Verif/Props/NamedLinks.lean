import Verif.Props.LinkHref
import Verif.Props.Resource
import Verif.Model.ResourceLinks
/-!
# C20: the links with a property of their own (describedby, up, index, contents)
-/

namespace Resync
open Py

theorem setNamed_eq (r : Resource) (n : NamedLink) (uri : Str) :
    ∃ atts, AttsOk atts ∧ r.setNamed n uri = r.linkSet n.rel uri false atts := by
  cases n
  · exact ⟨[], by unfold AttsOk; decide, rfl⟩
  · exact ⟨[], by unfold AttsOk; decide, rfl⟩
  · exact ⟨[], by unfold AttsOk; decide, rfl⟩
  · exact ⟨_, by unfold AttsOk; decide, rfl⟩

/-- After `r.up = uri` (or `describedby`, `index`, `contents`) reading the property gives `uri`, and so does `link_href` of the rel of
that name; the other three properties and all other links are as before, and so is every other attribute of the resource. -/
theorem C20_named_links (r : Resource) (n : NamedLink) (uri : Str) :
    (r.setNamed n uri).named n = .ok (some uri) ∧
    (∀ m, m ≠ n → (r.setNamed n uri).named m = r.named m) ∧
    (∀ rel, rel ≠ n.rel → (r.setNamed n uri).link rel = r.link rel) ∧
    { r.setNamed n uri with ln := r.ln } = r := by
  obtain ⟨atts, ha, h⟩ := setNamed_eq r n uri
  rw [h]
  obtain ⟨h1, h2, -⟩ := C20_link_set r n.rel uri atts ha
  refine ⟨h1, ?_, h2, rfl⟩
  intro m hm
  have hne : m.rel ≠ n.rel := by
    revert hm
    cases m <;> cases n <;> decide
  simp only [Resource.named, Resource.linkHref, h2 m.rel hne]

/-- The properties read the links with these rels. -/
theorem C20_named_rels (r : Resource) :
    r.named .describedby = r.linkHref "describedby".toList ∧ r.named .up = r.linkHref "up".toList ∧
    r.named .index = r.linkHref "index".toList ∧ r.named .contents = r.linkHref "contents".toList :=
  ⟨rfl, rfl, rfl, rfl⟩

/-- `r.contents = uri` says that what is there is XML. -/
theorem C20_contents_type (r : Resource) (uri : Str) :
    ∃ l, (r.setNamed .contents uri).link "contents".toList = some l ∧ dget l "href".toList = some uri ∧
      dget l "type".toList = some "application/xml".toList := by
  obtain ⟨l, hl, ht⟩ := C20_link_set_attribute r "contents".toList uri "type".toList "application/xml".toList (by decide)
  refine ⟨l, hl, ?_, ht⟩
  have h1 := (C20_named_links r .contents uri).1
  have h2 : hrefOf ((r.setNamed .contents uri).link "contents".toList) = .ok (some uri) := h1
  have hl' : (r.setNamed .contents uri).link "contents".toList = some l := hl
  rw [hl'] at h2
  have : hrefOf (some l) = (match dget l sHref with | none => .error .key | some h => .ok (some h)) := rfl
  rw [this] at h2
  have hs : "href".toList = sHref := rfl
  rw [hs]
  cases hd : dget l sHref with
  | none => rw [hd] at h2; cases h2
  | some x => rw [hd] at h2; injection h2

/-- tests/test_resource.py test16: not vacuous, all four on one resource -/
example :
    let r := (((({ uri := "laughing".toList } : Resource).setNamed .describedby "uri:db".toList).setNamed .up "uri:up".toList).setNamed
      .index "uri:index".toList).setNamed .contents "uri:ct".toList
    r.named .describedby = .ok (some "uri:db".toList) ∧ r.named .up = .ok (some "uri:up".toList) ∧
    r.named .index = .ok (some "uri:index".toList) ∧ r.named .contents = .ok (some "uri:ct".toList) ∧
    (r.ln.getD []).length = 4 := by decide

end Resync
