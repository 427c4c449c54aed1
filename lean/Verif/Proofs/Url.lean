import Verif.Py.Url
import Verif.Spec.Url
import Verif.Proofs.Path
/- Lemmas about `urlparse`. -/

namespace Py
open Resync.Spec

theorem split1_append {c : Char} {a b : Str} (h : c ∉ a) : split1 c (a ++ c :: b) = (a, some b) := by
  induction a with
  | nil => simp [split1]
  | cons x t ih =>
    have hx : x ≠ c := fun e => h (by simp [e])
    have ht : c ∉ t := fun e => h (by simp [e])
    simp [split1, hx, ih ht]

theorem split1_none {c : Char} {a : Str} (h : c ∉ a) : split1 c a = (a, none) := by
  induction a with
  | nil => simp [split1]
  | cons x t ih =>
    have hx : x ≠ c := fun e => h (by simp [e])
    have ht : c ∉ t := fun e => h (by simp [e])
    simp [split1, hx, ih ht]

theorem cut_none {c : Char} {a : Str} (h : c ∉ a) : cut c a = (a, []) := by
  simp [cut, split1_none h]

theorem schemeChar_facts : ∀ c ∈ "abcdefghijklmnopqrstuvwxyz0123456789+-.".toList,
    isSchemeChar c = true ∧ lowerAscii c = c ∧ c ≠ ':' ∧ ¬ c.toNat ≤ 32 ∧ c ≠ '\t' ∧ c ≠ '\r' ∧ c ≠ '\n' := by
  decide

theorem alphaChar_facts : ∀ c ∈ "abcdefghijklmnopqrstuvwxyz".toList, isAsciiAlpha c = true := by
  decide

theorem urlparse_webUrl {scheme host path : Str} (hs : SchemeName scheme) (hh : HostName host)
    (hp : PlainPath path) (hp0 : path = [] ∨ ∃ t, path = '/' :: t) :
    urlparse (scheme ++ "://".toList ++ host ++ path) = some ⟨scheme, host, path, [], [], []⟩ := by
  obtain ⟨⟨c0, t0, rfl, hc0⟩, hall⟩ := hs
  have e3 : "://".toList = [':', '/', '/'] := by decide
  -- cleaning does nothing
  have hclean : urlClean ((c0 :: t0) ++ "://".toList ++ host ++ path) =
      (c0 :: t0) ++ "://".toList ++ host ++ path := by
    have h0 := schemeChar_facts c0 (hall c0 (by simp))
    unfold urlClean
    have hd : List.dropWhile (fun c : Char => decide (c.toNat ≤ 32)) ((c0 :: t0) ++ "://".toList ++ host ++ path)
        = (c0 :: t0) ++ "://".toList ++ host ++ path := by
      simp only [List.cons_append, List.dropWhile_cons]
      rw [if_neg (by simpa using h0.2.2.2.1)]
    rw [hd, List.filter_eq_self]
    intro c hc
    simp only [List.mem_append, e3] at hc
    have : c ≠ '\t' ∧ c ≠ '\r' ∧ c ≠ '\n' := by
      rcases hc with ((hc | hc) | hc) | hc
      · have := schemeChar_facts c (hall c hc); exact ⟨this.2.2.2.2.1, this.2.2.2.2.2.1, this.2.2.2.2.2.2⟩
      · revert hc; revert c; decide
      · have := hh c hc
        refine ⟨?_, ?_, ?_⟩ <;> rintro rfl <;> exact this (by decide)
      · have := hp c hc
        refine ⟨?_, ?_, ?_⟩ <;> rintro rfl <;> exact this (by decide)
    simp [this]
  have hcolon : ':' ∉ (c0 :: t0) := fun hm => (schemeChar_facts ':' (hall _ hm)).2.2.1 rfl
  have hsch : splitScheme ((c0 :: t0) ++ "://".toList ++ host ++ path) =
      (c0 :: t0, '/' :: '/' :: (host ++ path)) := by
    have hsp : split1 ':' ((c0 :: t0) ++ "://".toList ++ host ++ path) =
        (c0 :: t0, some ('/' :: '/' :: (host ++ path))) := by
      have := split1_append (c := ':') (a := c0 :: t0) (b := '/' :: '/' :: (host ++ path)) hcolon
      rw [← this]; simp [e3]
    unfold splitScheme
    rw [hsp]
    have h1 : isAsciiAlpha c0 = true := alphaChar_facts c0 hc0
    have h2 : (c0 :: t0).all isSchemeChar = true := by
      rw [List.all_eq_true]; intro c hc; exact (schemeChar_facts c (hall c hc)).1
    have h3 : (c0 :: t0).map lowerAscii = c0 :: t0 := by
      conv => rhs; rw [← List.map_id (c0 :: t0)]
      apply List.map_congr_left
      intro c hc; exact (schemeChar_facts c (hall c hc)).2.1
    simp only [h1, h2, Bool.and_self, if_true, h3]
  have hnl : splitNetloc ('/' :: '/' :: (host ++ path)) = (host, path) := by
    have hhost : ∀ c ∈ host, (c != '/' && c != '?' && c != '#') = true := by
      intro c hc
      have := hh c hc
      simp only [Bool.and_eq_true, bne_iff_ne]
      refine ⟨⟨?_, ?_⟩, ?_⟩ <;> rintro rfl <;> exact this (by decide)
    simp only [splitNetloc]
    rw [List.takeWhile_append_of_pos hhost, List.dropWhile_append_of_pos hhost]
    rcases hp0 with rfl | ⟨t, rfl⟩ <;> simp
  have hb1 : host.contains '[' = false := by
    rw [List.contains_eq_mem]; simp; intro h; exact hh _ h (by decide)
  have hb2 : host.contains ']' = false := by
    rw [List.contains_eq_mem]; simp; intro h; exact hh _ h (by decide)
  have hq : cut '#' path = (path, []) := cut_none (fun h => hp _ h (by decide))
  have hq2 : cut '?' path = (path, []) := cut_none (fun h => hp _ h (by decide))
  have hsc : path.contains ';' = false := by
    rw [List.contains_eq_mem]; simp; intro h; exact hp _ h (by decide)
  unfold urlparse
  simp only [hclean, hsch, hnl, hb1, hb2, hq, hq2, hsc, Bool.and_false]
  simp

theorem dropWhile_bne_append {c : Char} {a : Str} (b : Str) (h : c ∉ a) :
    List.dropWhile (· != c) (a ++ c :: b) = c :: b := by
  rw [List.dropWhile_append_of_pos (by intro x hx; simp; rintro rfl; exact h hx)]
  simp

/-- directory part of `dir ++ "/" ++ file` -/
theorem dirname_append {dir file : Str} (hf : '/' ∉ file) (hd : ∀ u, dir ≠ u ++ ['/']) (hne : dir ≠ []) :
    dirname (dir ++ '/' :: file) = dir := by
  have hh : headSlash (dir ++ '/' :: file) = dir ++ ['/'] := by
    unfold headSlash
    simp only [List.reverse_append, List.reverse_cons, List.append_assoc, List.singleton_append]
    rw [dropWhile_bne_append _ (by simpa using hf)]
    simp
  obtain ⟨init, l, rfl⟩ : ∃ i l, dir = i ++ [l] :=
    ⟨dir.dropLast, dir.getLast hne, (List.dropLast_concat_getLast hne).symm⟩
  have hl : l ≠ '/' := by rintro rfl; exact hd init rfl
  unfold dirname
  rw [hh]
  have : ((init ++ [l] ++ ['/']).all fun x => x == '/') = false := by
    rw [List.all_eq_false]; exact ⟨l, by simp, by simpa using hl⟩
  simp only [this]
  simp [rstripSlash, hl]

/-- directory part of a file in the root directory -/
theorem dirname_root {file : Str} (hf : '/' ∉ file) : dirname ('/' :: file) = ['/'] := by
  have hh : headSlash ('/' :: file) = ['/'] := by
    unfold headSlash
    have := dropWhile_bne_append (c := '/') (a := file.reverse) [] (by simpa using hf)
    simp only [List.reverse_cons]; rw [this]; simp
  simp [dirname, hh]

end Py
