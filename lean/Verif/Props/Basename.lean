import Verif.Proofs.Url
import Verif.Model.Resource

/-!
# C104: the basename of a resource

`resource.basename` is the last part of the path of the URI, without query and fragment.
-/

namespace Resync
open Py Resync.Spec

namespace Spec

/-- a query, a fragment, both or nothing -/
def UrlTail (s : Str) : Prop := (s = [] ∨ ∃ t, s = '?' :: t ∨ s = '#' :: t) ∧ noneOf "\t\r\n".toList s

end Spec

theorem cut_append_hash {path tail : Str} (hp : '#' ∉ path) : (cut '#' (path ++ tail)).1 = path ++ (cut '#' tail).1 := by
  induction path with
  | nil => rfl
  | cons x t ih =>
    have hx : x ≠ '#' := fun e => hp (by simp [e])
    have := ih (fun e => hp (by simp [e]))
    unfold cut at this ⊢
    rw [List.cons_append, split1]
    simp only [hx, if_false]
    rcases hs : split1 '#' (t ++ tail) with ⟨a, _ | b⟩ <;> rw [hs] at this <;> simp only at this ⊢ <;> rw [this] <;> rfl

theorem urlparse_tail {scheme host path tail : Str} (hs : SchemeName scheme) (hh : HostName host)
    (hp : PlainPath path) (hp0 : ∃ t, path = '/' :: t) (ht : UrlTail tail) :
    ∃ u, urlparse (scheme ++ "://".toList ++ host ++ path ++ tail) = some u ∧ u.path = path := by
  obtain ⟨⟨c0, t0, rfl, hc0⟩, hall⟩ := hs
  have e3 : "://".toList = [':', '/', '/'] := by decide
  have hclean : urlClean ((c0 :: t0) ++ "://".toList ++ host ++ path ++ tail) =
      (c0 :: t0) ++ "://".toList ++ host ++ path ++ tail := by
    have h0 := schemeChar_facts c0 (hall c0 (by simp))
    unfold urlClean
    have hd : List.dropWhile (fun c : Char => decide (c.toNat ≤ 32)) ((c0 :: t0) ++ "://".toList ++ host ++ path ++ tail)
        = (c0 :: t0) ++ "://".toList ++ host ++ path ++ tail := by
      simp only [List.cons_append, List.dropWhile_cons]
      rw [if_neg (by simpa using h0.2.2.2.1)]
    rw [hd, List.filter_eq_self]
    intro c hc
    simp only [List.mem_append, e3] at hc
    have : c ≠ '\t' ∧ c ≠ '\r' ∧ c ≠ '\n' := by
      rcases hc with (((hc | hc) | hc) | hc) | hc
      · have := schemeChar_facts c (hall c hc); exact ⟨this.2.2.2.2.1, this.2.2.2.2.2.1, this.2.2.2.2.2.2⟩
      · revert hc; revert c; decide
      · have := hh c hc
        refine ⟨?_, ?_, ?_⟩ <;> rintro rfl <;> exact this (by decide)
      · have := hp c hc
        refine ⟨?_, ?_, ?_⟩ <;> rintro rfl <;> exact this (by decide)
      · have := ht.2 c hc
        refine ⟨?_, ?_, ?_⟩ <;> rintro rfl <;> exact this (by decide)
    simp [this]
  have hcolon : ':' ∉ (c0 :: t0) := fun hm => (schemeChar_facts ':' (hall _ hm)).2.2.1 rfl
  have hsch : splitScheme ((c0 :: t0) ++ "://".toList ++ host ++ path ++ tail) =
      (c0 :: t0, '/' :: '/' :: (host ++ (path ++ tail))) := by
    have hsp : split1 ':' ((c0 :: t0) ++ "://".toList ++ host ++ path ++ tail) =
        (c0 :: t0, some ('/' :: '/' :: (host ++ (path ++ tail)))) := by
      have := split1_append (c := ':') (a := c0 :: t0) (b := '/' :: '/' :: (host ++ (path ++ tail))) hcolon
      rw [← this]; simp [e3]
    unfold splitScheme
    rw [hsp]
    have h1 : isAsciiAlpha c0 = true := alphaChar_facts c0 hc0
    have h2 : (c0 :: t0).all isSchemeChar = true := by
      rw [List.all_eq_true]; intro c hc; exact (schemeChar_facts c (hall c hc)).1
    have h3 : (c0 :: t0).map lowerAscii = c0 :: t0 := by
      conv => rhs; rw [← List.map_id (c0 :: t0)]
      apply List.map_congr_left
      intro c hc; exact (schemeChar_facts c (hall c hc)).2.1
    simp only [h1, h2, Bool.and_self, if_true, h3]
  have hnl : splitNetloc ('/' :: '/' :: (host ++ (path ++ tail))) = (host, path ++ tail) := by
    have hhost : ∀ c ∈ host, (c != '/' && c != '?' && c != '#') = true := by
      intro c hc
      have := hh c hc
      simp only [Bool.and_eq_true, bne_iff_ne]
      refine ⟨⟨?_, ?_⟩, ?_⟩ <;> rintro rfl <;> exact this (by decide)
    simp only [splitNetloc]
    rw [List.takeWhile_append_of_pos hhost, List.dropWhile_append_of_pos hhost]
    obtain ⟨t, rfl⟩ := hp0
    simp
  have hb1 : host.contains '[' = false := by
    rw [List.contains_eq_mem]; simp; intro h; exact hh _ h (by decide)
  have hb2 : host.contains ']' = false := by
    rw [List.contains_eq_mem]; simp; intro h; exact hh _ h (by decide)
  have hf : (cut '?' (cut '#' (path ++ tail)).1).1 = path := by
    rw [cut_append_hash (fun h => hp _ h (by decide))]
    have hq : '?' ∉ path := fun h => hp _ h (by decide)
    rcases ht.1 with rfl | ⟨t, rfl | rfl⟩
    · rw [show (cut '#' []).1 = [] from rfl, List.append_nil, cut_none hq]
    · have : (cut '#' ('?' :: t)).1 = '?' :: (cut '#' t).1 := by
        unfold cut
        rw [split1, if_neg (by decide)]
        rcases split1 '#' t with ⟨a, _ | b⟩ <;> rfl
      rw [this]
      unfold cut
      rw [split1_append hq]
    · have : (cut '#' ('#' :: t)).1 = [] := by
        unfold cut
        rw [split1, if_pos rfl]
      rw [this, List.append_nil, cut_none hq]
  have hsc : path.contains ';' = false := by
    rw [List.contains_eq_mem]; simp; intro h; exact hp _ h (by decide)
  unfold urlparse
  simp only [hclean, hsch, hnl, hb1, hb2, bne_self_eq_false, Bool.false_eq_true, if_false, hf, hsc, Bool.and_false]
  exact ⟨_, rfl, rfl⟩

theorem basename_append {dir name : Str} (h : '/' ∉ name) : Py.basename (dir ++ '/' :: name) = name := by
  unfold Py.basename
  rw [List.reverse_append, List.reverse_cons, List.append_assoc, List.takeWhile_append_of_pos]
  · simp
  · intro c hc
    simp only [bne_iff_ne]
    rintro rfl
    exact h (by simpa using hc)

/-- For a resource with the URI scheme://host/dir…/name, possibly followed by a query or a fragment, `basename` is the name (empty if the
URI ends in a slash). -/
theorem C104_basename (r : Resource) (scheme host dir name tail : Str) (hs : SchemeName scheme) (hh : HostName host)
    (hd : DirName dir) (hdp : PlainPath dir) (hn : PlainPath name) (hn' : '/' ∉ name) (ht : UrlTail tail)
    (hr : r.uri = webUrl scheme host dir name ++ tail) : r.basename = some name := by
  have hp : PlainPath (dir ++ '/' :: name) := by
    intro c hc
    rw [List.mem_append, List.mem_cons] at hc
    rcases hc with hc | rfl | hc
    · exact hdp c hc
    · decide
    · exact hn c hc
  have hp0 : ∃ t, dir ++ '/' :: name = '/' :: t := by
    rcases hd with rfl | ⟨t, rfl⟩
    · exact ⟨_, rfl⟩
    · exact ⟨_, rfl⟩
  obtain ⟨u, hu, hup⟩ := urlparse_tail hs hh hp hp0 ht
  unfold Resource.basename
  rw [hr, webUrl, List.append_assoc _ dir, hu, Option.map_some, hup, basename_append hn']

example : ({ uri := "http://example.com/resource/1?x=/y#z".toList } : Resource).basename = some "1".toList ∧
    SchemeName "http".toList ∧ HostName "example.com".toList ∧ DirName "/resource".toList ∧ PlainPath "/resource".toList ∧
    PlainPath "1".toList ∧ UrlTail "?x=/y#z".toList := by
  refine ⟨by decide +kernel, ⟨⟨'h', "ttp".toList, rfl, by decide⟩, by decide⟩, by unfold HostName noneOf; decide, .inr ⟨_, rfl⟩,
    by unfold PlainPath noneOf; decide, by unfold PlainPath noneOf; decide, .inr ⟨"x=/y#z".toList, .inl rfl⟩, by unfold noneOf; decide⟩

end Resync
