import Verif.Proofs.Resource
import Verif.Model.Container

/-!
# C20: what link_href gives

`link_href(rel)` is the href of the first link with this rel, None if there is no such link, and a KeyError if that link has no href.
-/

namespace Resync
open Py

/-- `l` is the first of the links with this rel -/
def FirstLink (ln : List Link) (rel : Str) (l : Link) : Prop :=
  ∃ pre post, ln = pre ++ l :: post ∧ dget l "rel".toList = some rel ∧ ∀ x ∈ pre, dget x "rel".toList ≠ some rel

theorem findLink_first (ln : List Link) (rel : Str) (l : Link) : findLink ln rel = some l ↔ FirstLink ln rel l := by
  unfold findLink FirstLink
  rw [List.find?_eq_some_iff_append]
  constructor
  · rintro ⟨h1, as, bs, h2, h3⟩
    refine ⟨as, bs, h2, of_decide_eq_true h1, fun x hx hr => ?_⟩
    have := h3 x hx
    rw [decide_eq_true (p := dget x sRel = some rel) hr] at this
    cases this
  · rintro ⟨as, bs, h2, h1, h3⟩
    refine ⟨decide_eq_true h1, as, bs, h2, fun x hx => ?_⟩
    rw [decide_eq_false (p := dget x sRel = some rel) (h3 x hx)]
    rfl

theorem findLink_none (ln : List Link) (rel : Str) : findLink ln rel = none ↔ ∀ l ∈ ln, dget l "rel".toList ≠ some rel := by
  unfold findLink
  rw [List.find?_eq_none]
  exact ⟨fun h l hl hr => h l hl (decide_eq_true hr), fun h l hl hr => h l hl (of_decide_eq_true hr)⟩

theorem hrefOf_cases (ln : List Link) (rel : Str) :
    (∀ h, hrefOf (findLink ln rel) = .ok (some h) ↔ ∃ l, FirstLink ln rel l ∧ dget l "href".toList = some h) ∧
    (hrefOf (findLink ln rel) = .ok none ↔ ∀ l ∈ ln, dget l "rel".toList ≠ some rel) ∧
    (∀ e, hrefOf (findLink ln rel) = .error e ↔ e = .key ∧ ∃ l, FirstLink ln rel l ∧ dget l "href".toList = none) := by
  rw [← findLink_none]
  simp only [← findLink_first]
  cases findLink ln rel with
  | none => simp [hrefOf]
  | some l =>
    have hs : hrefOf (some l) = (match dget l "href".toList with | none => .error .key | some h => .ok (some h)) := rfl
    simp only [Option.some.injEq, exists_eq_left', reduceCtorEq, iff_false]
    rw [hs]
    cases h : dget l "href".toList with
    | none => simp [eq_comm]
    | some v => simp

/-- `link_href(rel)` of a resource (a resource without links is like one with an empty list of links) -/
theorem C20_link_href (r : Resource) (rel : Str) :
    (∀ h, r.linkHref rel = .ok (some h) ↔ ∃ l, FirstLink (r.ln.getD []) rel l ∧ dget l "href".toList = some h) ∧
    (r.linkHref rel = .ok none ↔ ∀ l ∈ r.ln.getD [], dget l "rel".toList ≠ some rel) ∧
    (∀ e, r.linkHref rel = .error e ↔ e = .key ∧ ∃ l, FirstLink (r.ln.getD []) rel l ∧ dget l "href".toList = none) := by
  have h : r.linkHref rel = hrefOf (findLink (r.ln.getD []) rel) := by
    unfold Resource.linkHref Resource.link
    cases r.ln <;> rfl
  rw [h]
  exact hrefOf_cases _ rel

/-- `link_href(rel)` of a list -/
theorem C20_list_link_href (c : Container) (rel : Str) :
    (∀ h, c.linkHref rel = .ok (some h) ↔ ∃ l, FirstLink c.ln rel l ∧ dget l "href".toList = some h) ∧
    (c.linkHref rel = .ok none ↔ ∀ l ∈ c.ln, dget l "rel".toList ≠ some rel) ∧
    (∀ e, c.linkHref rel = .error e ↔ e = .key ∧ ∃ l, FirstLink c.ln rel l ∧ dget l "href".toList = none) :=
  hrefOf_cases _ rel

example : let r : Resource := { uri := "u".toList, ln := some [[("rel".toList, "up".toList), ("href".toList, "a".toList)],
      [("rel".toList, "up".toList), ("href".toList, "b".toList)], [("rel".toList, "self".toList)]] }
    r.linkHref "up".toList = .ok (some "a".toList) ∧ r.linkHref "self".toList = .error .key ∧ r.linkHref "index".toList = .ok none := by
  decide

end Resync
