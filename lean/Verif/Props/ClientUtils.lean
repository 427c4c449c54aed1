import Verif.Model.ClientUtils
import Verif.Proofs.Dict
import Verif.Proofs.Path
/-
C64: option strings.
-/

namespace Resync
open Py

/-- `k=v` -/
def pairText (p : Str × Str) : Str := p.1 ++ '=' :: p.2

theorem splitPair_iff (t : Str) (p : Str × Str) :
    splitPair t = some p ↔ t = pairText p ∧ '=' ∉ p.1 ∧ '=' ∉ p.2 := by
  obtain ⟨k, v⟩ := p
  unfold splitPair pairText
  constructor
  · intro h
    split at h
    · rename_i k' v' e
      simp only [Option.some.injEq, Prod.mk.injEq] at h
      obtain ⟨rfl, rfl⟩ := h
      have hj := join_splitOn '=' t
      rw [e] at hj
      refine ⟨by rw [← hj]; simp [join], ?_, ?_⟩
      · exact not_mem_of_mem_splitOn (s := t) (by rw [e]; simp)
      · exact not_mem_of_mem_splitOn (s := t) (by rw [e]; simp)
    · cases h
  · rintro ⟨rfl, h1, h2⟩
    rw [splitOn_append_sep, splitOn_of_not_mem h1, splitOn_of_not_mem h2]
    rfl

theorem linkTerms_iff (terms : List Str) : ∀ (atts r : Dict Str), linkTerms atts terms = .ok r ↔
    ∃ ps : List (Str × Str), terms = ps.map pairText ∧
      (∀ p ∈ ps, p.1 ≠ [] ∧ p.2 ≠ [] ∧ '=' ∉ p.1 ∧ '=' ∉ p.2) ∧ r = ps.foldl (fun d p => dset d p.1 p.2) atts := by
  induction terms with
  | nil =>
    intro atts r
    simp only [linkTerms, Except.ok.injEq]
    constructor
    · rintro rfl; exact ⟨[], rfl, by simp, rfl⟩
    · rintro ⟨ps, h, -, rfl⟩
      have := List.map_eq_nil_iff.mp h.symm
      subst this; rfl
  | cons t ts ih =>
    intro atts r
    simp only [linkTerms]
    constructor
    · intro h
      cases hp : splitPair t with
      | none => rw [hp] at h; cases h
      | some p =>
        rw [hp] at h
        simp only at h
        by_cases he : p.1 = [] ∨ p.2 = []
        · rw [if_pos he] at h; cases h
        · rw [if_neg he] at h
          rw [not_or] at he
          obtain ⟨ps, e1, e2, e3⟩ := (ih _ _).mp h
          have hs := (splitPair_iff t p).mp hp
          refine ⟨p :: ps, by rw [List.map_cons, ← hs.1, e1], ?_, e3⟩
          intro q hq
          rcases List.mem_cons.mp hq with rfl | hq
          · exact ⟨he.1, he.2, hs.2⟩
          · exact e2 q hq
    · rintro ⟨ps, e1, e2, e3⟩
      cases ps with
      | nil => simp at e1
      | cons p ps =>
        simp only [List.map_cons, List.cons.injEq] at e1
        have hp := e2 p (by simp)
        rw [(splitPair_iff t p).mpr ⟨e1.1, hp.2.2⟩]
        simp only
        rw [if_neg (by rw [not_or]; exact ⟨hp.1, hp.2.1⟩)]
        exact (ih _ _).mpr ⟨ps, e1.2, fun q hq => e2 q (by simp [hq]), e3⟩

/-- the option text with this rel, href and attributes -/
def linkText (rel href : Str) (ps : List (Str × Str)) : Str := join [','] (rel :: href :: ps.map pairText)

/-- C64.  parse_link succeeds exactly for texts `rel,href,k=v,...` with a non-empty href and non-empty keys and values
without '='; the attributes are rel, href and the given ones (a later one replaces an earlier one of the same name).
Everything else is rejected. -/
theorem C64_link_iff (s : Str) (atts : Dict Str) : parseLink s = .ok atts ↔
    ∃ rel href ps, s = linkText rel href ps ∧ ',' ∉ rel ∧ ',' ∉ href ∧ href ≠ [] ∧
      (∀ p ∈ ps, p.1 ≠ [] ∧ p.2 ≠ [] ∧ '=' ∉ p.1 ∧ '=' ∉ p.2 ∧ ',' ∉ p.1 ∧ ',' ∉ p.2) ∧
      atts = ps.foldl (fun d p => dset d p.1 p.2) [("rel".toList, rel), ("href".toList, href)] := by
  unfold parseLink
  constructor
  · intro h
    split at h
    · rename_i rel href segs e
      by_cases hh : href = []
      · rw [if_pos hh] at h; cases h
      · rw [if_neg hh] at h
        obtain ⟨ps, e1, e2, e3⟩ := (linkTerms_iff _ _ _).mp h
        have hm : ∀ x ∈ rel :: href :: segs, ',' ∉ x := fun x hx => not_mem_of_mem_splitOn (s := s) (by rw [e]; exact hx)
        refine ⟨rel, href, ps, ?_, hm rel (by simp), hm href (by simp), hh, ?_, e3⟩
        · rw [linkText, ← e1, ← e, join_splitOn]
        · intro p hp
          have h2 := e2 p hp
          have : ',' ∉ pairText p := hm _ (by
            rw [e1]; simp only [List.mem_cons]
            exact .inr (.inr (List.mem_map_of_mem hp)))
          simp only [pairText, List.mem_append, List.mem_cons, not_or] at this
          exact ⟨h2.1, h2.2.1, h2.2.2.1, h2.2.2.2, this.1, this.2.2⟩
    · cases h
  · rintro ⟨rel, href, ps, rfl, h1, h2, h3, h4, h5⟩
    rw [linkText, splitOn_join (by simp)]
    · simp only
      rw [if_neg h3]
      exact (linkTerms_iff _ _ _).mpr ⟨ps, rfl, fun p hp => ⟨(h4 p hp).1, (h4 p hp).2.1, (h4 p hp).2.2.1, (h4 p hp).2.2.2.1⟩, h5⟩
    · intro x hx
      simp only [List.mem_cons, List.mem_map] at hx
      rcases hx with rfl | rfl | ⟨p, hp, rfl⟩
      · exact h1
      · exact h2
      · have := h4 p hp
        simp only [pairText, List.mem_append, List.mem_cons, not_or]
        exact ⟨this.2.2.2.2.1, by decide, this.2.2.2.2.2⟩

theorem foldl_dset_distinct (ps : List (Str × Str)) : ∀ d : Dict Str, (ps.map Prod.fst).Nodup →
    (∀ p ∈ ps, p.1 ∉ dkeys d) → ps.foldl (fun d p => dset d p.1 p.2) d = d ++ ps := by
  induction ps with
  | nil => intro d _ _; simp
  | cons p ps ih =>
    intro d hn hd
    simp only [List.map_cons, List.nodup_cons] at hn
    rw [List.foldl_cons, dset_absent _ _ _ (hd p (by simp)), ih _ hn.2]
    · simp
    · intro q hq
      simp only [dkeys, List.map_append, List.map_cons, List.map_nil, List.mem_append, List.mem_singleton, not_or]
      refine ⟨hd q (by simp [hq]), ?_⟩
      intro e
      exact hn.1 (e ▸ List.mem_map_of_mem hq)

/-- C64.  With attribute names that are all different, and not rel or href, the result is exactly what the text says. -/
theorem C64_link (rel href : Str) (ps : List (Str × Str)) (h1 : ',' ∉ rel) (h2 : ',' ∉ href) (h3 : href ≠ [])
    (h4 : ∀ p ∈ ps, p.1 ≠ [] ∧ p.2 ≠ [] ∧ '=' ∉ p.1 ∧ '=' ∉ p.2 ∧ ',' ∉ p.1 ∧ ',' ∉ p.2)
    (h5 : ("rel".toList :: "href".toList :: ps.map Prod.fst).Nodup) :
    parseLink (linkText rel href ps) = .ok (("rel".toList, rel) :: ("href".toList, href) :: ps) := by
  refine (C64_link_iff _ _).mpr ⟨rel, href, ps, rfl, h1, h2, h3, h4, ?_⟩
  simp only [List.nodup_cons, List.mem_cons, not_or] at h5
  rw [foldl_dset_distinct _ _ h5.2.2]
  · rfl
  · intro p hp
    simp only [dkeys, List.map_cons, List.map_nil, List.mem_cons, List.not_mem_nil, or_false, not_or]
    exact ⟨fun e => h5.1.2 (e ▸ List.mem_map_of_mem hp), fun e => h5.2.1 (e ▸ List.mem_map_of_mem hp)⟩

example : parseLink "describedby,http://e.org/d,type=text/xml,pri=1".toList =
    .ok [("rel".toList, "describedby".toList), ("href".toList, "http://e.org/d".toList),
      ("type".toList, "text/xml".toList), ("pri".toList, "1".toList)] := by decide

/-- C64 fails in two corners: an attribute named href (or rel) silently replaces the given one, and an empty rel is
accepted. -/
theorem C64_violated :
    parseLink "up,http://a/,href=http://b/".toList = .ok [("rel".toList, "up".toList), ("href".toList, "http://b/".toList)] ∧
    parseLink ",http://a/".toList = .ok [("rel".toList, []), ("href".toList, "http://a/".toList)] := by decide

theorem capTerms_iff (terms : List Str) : ∀ (caps r : Dict Str), capTerms caps terms = .ok r ↔
    ∃ ps : List (Str × Str), terms = ps.map pairText ∧ (∀ p ∈ ps, '=' ∉ p.1 ∧ '=' ∉ p.2) ∧
      r = ps.foldl (fun d p => dset d p.1 p.2) caps := by
  induction terms with
  | nil =>
    intro atts r
    simp only [capTerms, Except.ok.injEq]
    constructor
    · rintro rfl; exact ⟨[], rfl, by simp, rfl⟩
    · rintro ⟨ps, h, -, rfl⟩
      have := List.map_eq_nil_iff.mp h.symm
      subst this; rfl
  | cons t ts ih =>
    intro atts r
    simp only [capTerms]
    constructor
    · intro h
      cases hp : splitPair t with
      | none => rw [hp] at h; cases h
      | some p =>
        rw [hp] at h
        obtain ⟨ps, e1, e2, e3⟩ := (ih _ _).mp h
        have hs := (splitPair_iff t p).mp hp
        refine ⟨p :: ps, by rw [List.map_cons, ← hs.1, e1], ?_, e3⟩
        intro q hq
        rcases List.mem_cons.mp hq with rfl | hq
        · exact hs.2
        · exact e2 q hq
    · rintro ⟨ps, e1, e2, e3⟩
      cases ps with
      | nil => simp at e1
      | cons p ps =>
        simp only [List.map_cons, List.cons.injEq] at e1
        rw [(splitPair_iff t p).mpr ⟨e1.1, e2 p (by simp)⟩]
        exact (ih _ _).mpr ⟨ps, e1.2, fun q hq => e2 q (by simp [hq]), e3⟩

/-- C64.  parse_capabilities succeeds exactly for texts `name=uri,...` (at least one pair, no further '='), and gives
these pairs, a later one replacing an earlier one of the same name.  Everything else is rejected. -/
theorem C64_capabilities_iff (s : Str) (caps : Dict Str) : parseCapabilities s = .ok caps ↔
    ∃ ps : List (Str × Str), ps ≠ [] ∧ s = join [','] (ps.map pairText) ∧
      (∀ p ∈ ps, '=' ∉ p.1 ∧ '=' ∉ p.2 ∧ ',' ∉ p.1 ∧ ',' ∉ p.2) ∧ caps = ps.foldl (fun d p => dset d p.1 p.2) [] := by
  unfold parseCapabilities
  rw [capTerms_iff]
  constructor
  · rintro ⟨ps, e1, e2, e3⟩
    refine ⟨ps, ?_, by rw [← e1, join_splitOn], ?_, e3⟩
    · rintro rfl
      exact splitOn_ne_nil ',' s e1
    · intro p hp
      have : ',' ∉ pairText p := not_mem_of_mem_splitOn (s := s) (by rw [e1]; exact List.mem_map_of_mem hp)
      simp only [pairText, List.mem_append, List.mem_cons, not_or] at this
      exact ⟨(e2 p hp).1, (e2 p hp).2, this.1, this.2.2⟩
  · rintro ⟨ps, h1, rfl, h3, h4⟩
    refine ⟨ps, ?_, fun p hp => ⟨(h3 p hp).1, (h3 p hp).2.1⟩, h4⟩
    refine splitOn_join (by simpa using h1) ?_
    intro x hx
    obtain ⟨p, hp, rfl⟩ := List.mem_map.mp hx
    simp only [pairText, List.mem_append, List.mem_cons, not_or]
    exact ⟨(h3 p hp).2.2.1, by decide, (h3 p hp).2.2.2⟩

/-- C64.  With names that are all different the result is exactly the given pairs. -/
theorem C64_capabilities (ps : List (Str × Str)) (h1 : ps ≠ [])
    (h2 : ∀ p ∈ ps, '=' ∉ p.1 ∧ '=' ∉ p.2 ∧ ',' ∉ p.1 ∧ ',' ∉ p.2) (h3 : (ps.map Prod.fst).Nodup) :
    parseCapabilities (join [','] (ps.map pairText)) = .ok ps := by
  refine (C64_capabilities_iff _ _).mpr ⟨ps, h1, rfl, h2, ?_⟩
  rw [foldl_dset_distinct _ _ h3 (by simp [dkeys])]
  rfl

example : parseCapabilities "resourcelist=http://h/r.xml,changelist=http://h/c.xml".toList =
    .ok [("resourcelist".toList, "http://h/r.xml".toList), ("changelist".toList, "http://h/c.xml".toList)] := by decide
example : parseCapabilities "resourcelist=http://h/r.xml?a=b".toList = .error .fatal := by decide

/-- C64.  parse_links gives one set of attributes per option, in order, and fails if one of them fails. -/
theorem C64_links_iff (ls : List Str) (rs : List (Dict Str)) :
    parseLinks (some ls) = .ok rs ↔ List.Forall₂ (fun l r => parseLink l = .ok r) ls rs := by
  change parseLinksAux ls = _ ↔ _
  induction ls generalizing rs with
  | nil =>
    simp only [parseLinksAux, Except.ok.injEq]
    constructor
    · rintro rfl; exact .nil
    · intro h; cases h; rfl
  | cons l ls ih =>
    simp only [parseLinksAux]
    constructor
    · intro h
      cases hl : parseLink l with
      | error e => rw [hl] at h; cases h
      | ok a =>
        rw [hl] at h
        simp only at h
        cases hr : parseLinksAux ls with
        | error e => rw [hr] at h; cases h
        | ok as =>
          rw [hr] at h
          cases h
          exact .cons hl ((ih _).mp hr)
    · intro h
      cases h with
      | cons h1 h2 => rw [h1, (ih _).mpr h2]

example : parseLinks (some ["up,http://a/".toList, "next,b".toList]) = .ok [[("rel".toList, "up".toList),
    ("href".toList, "http://a/".toList)], [("rel".toList, "next".toList), ("href".toList, "b".toList)]] := by decide

/-- C64.  count_true_args gives the number of its arguments that are True, however many there are. -/
theorem C64_count_true (args : List Bool) : countTrueArgs args = args.count true := by
  induction args with
  | nil => rfl
  | cons a t ih => cases a <;> simp [countTrueArgs, ih, Nat.add_comm]

example : countTrueArgs [true, false, true, true] = 3 := by decide

end Resync
