import Verif.Py.Posix
import Verif.Spec.Path
/- Lemmas about splitting, joining and normalising paths. -/

namespace Py
open Resync.Spec

theorem splitOn_ne_nil (c : Char) (s : Str) : splitOn c s ≠ [] := by
  cases s with
  | nil => simp [splitOn]
  | cons x xs =>
    simp only [splitOn]
    split
    · simp
    · split <;> simp

theorem splitOn_append_sep (c : Char) (a b : Str) :
    splitOn c (a ++ c :: b) = splitOn c a ++ splitOn c b := by
  induction a with
  | nil => simp [splitOn]
  | cons x xs ih =>
    simp only [List.cons_append, splitOn]
    split
    · simp [ih]
    · rw [ih]
      cases h : splitOn c xs with
      | nil => exact absurd h (splitOn_ne_nil c xs)
      | cons y ys => simp

theorem splitOn_of_not_mem {c : Char} {s : Str} (h : c ∉ s) : splitOn c s = [s] := by
  induction s with
  | nil => simp [splitOn]
  | cons x xs ih =>
    have hx : x ≠ c := fun e => h (by simp [e])
    have hxs : c ∉ xs := fun e => h (by simp [e])
    simp [splitOn, hx, ih hxs]

theorem not_mem_of_mem_splitOn {c : Char} {s p : Str} (h : p ∈ splitOn c s) : c ∉ p := by
  induction s generalizing p with
  | nil => simp [splitOn] at h; simp [h]
  | cons x xs ih =>
    simp only [splitOn] at h
    split at h
    · rcases List.mem_cons.mp h with rfl | h
      · simp
      · exact ih h
    · rename_i hx
      split at h
      · rename_i y ys hy
        rcases List.mem_cons.mp h with rfl | h
        · have := ih (p := y) (by simp [hy])
          simp only [List.mem_cons, not_or]
          exact ⟨fun e => hx e.symm, this⟩
        · exact ih (by simp [hy, h])
      · simp at h; subst h; simp; exact fun e => hx e.symm

theorem join_splitOn (c : Char) (s : Str) : join [c] (splitOn c s) = s := by
  induction s with
  | nil => simp [splitOn, join]
  | cons x xs ih =>
    simp only [splitOn]
    split
    · rename_i hx
      subst hx
      cases h : splitOn x xs with
      | nil => exact absurd h (splitOn_ne_nil x xs)
      | cons y ys => rw [h] at ih; simp [join, ih]
    · cases h : splitOn c xs with
      | nil => exact absurd h (splitOn_ne_nil c xs)
      | cons y ys =>
        rw [h] at ih
        cases ys with
        | nil => simp [join] at ih ⊢; exact ih
        | cons z zs => simp [join] at ih ⊢; exact ih

theorem splitOn_join {c : Char} {l : List Str} (hl : l ≠ []) (h : ∀ p ∈ l, c ∉ p) :
    splitOn c (join [c] l) = l := by
  induction l with
  | nil => exact absurd rfl hl
  | cons a t ih =>
    cases t with
    | nil => simp [join, splitOn_of_not_mem (h a (by simp))]
    | cons b u =>
      have e : join [c] (a :: b :: u) = a ++ c :: join [c] (b :: u) := by simp [join]
      rw [e, splitOn_append_sep, splitOn_of_not_mem (h a (by simp)),
        ih (by simp) (fun p hp => h p (by simp [hp]))]
      simp

theorem walkFrom_append (cur a b : List Str) :
    walkFrom cur (a ++ b) = walkFrom (walkFrom cur a) b := by
  induction a generalizing cur with
  | nil => simp [walkFrom]
  | cons x t ih =>
    simp only [List.cons_append, walkFrom]
    split
    · exact ih _
    · split <;> exact ih _

/-- components which are names -/
def Names (l : List Str) : Prop := ∀ c ∈ l, c ≠ [] ∧ c ≠ ['.'] ∧ c ≠ ['.', '.']

theorem walkFrom_names (cur : List Str) {l : List Str} (h : Names l) :
    walkFrom cur l = cur ++ l := by
  induction l generalizing cur with
  | nil => simp [walkFrom]
  | cons x t ih =>
    obtain ⟨h1, h2, h3⟩ := h x (by simp)
    have ht : Names t := fun c hc => h c (by simp [hc])
    simp [walkFrom, h1, h2, h3, ih _ ht]

theorem walkFrom_noDotDot (cur : List Str) {l : List Str} (h : ['.', '.'] ∉ l) :
    cur <+: walkFrom cur l := by
  induction l generalizing cur with
  | nil => simp [walkFrom]
  | cons x t ih =>
    have hx : x ≠ ['.', '.'] := fun e => h (by simp [e])
    have ht : ['.', '.'] ∉ t := fun e => h (by simp [e])
    simp only [walkFrom]
    split
    · exact ih _ ht
    · exact (List.prefix_append cur [x]).trans (ih _ ht)

theorem location_append (cwd : List Str) (d t : Str) :
    location cwd (d ++ '/' :: t) = walkFrom (location cwd (d ++ ['/'])) (splitOn '/' t) := by
  have hs : splitOn '/' (d ++ ['/']) = splitOn '/' d ++ [[]] := by
    rw [splitOn_append_sep]; simp [splitOn]
  have key : ∀ cur, walkFrom cur (splitOn '/' (d ++ '/' :: t)) =
      walkFrom (walkFrom cur (splitOn '/' (d ++ ['/']))) (splitOn '/' t) := by
    intro cur
    rw [splitOn_append_sep, hs, walkFrom_append, walkFrom_append]
    simp [walkFrom]
  cases d with
  | nil => simp only [List.nil_append, location]; exact key []
  | cons x xs =>
    by_cases hx : x = '/'
    · subst hx; simp only [List.cons_append, location]; exact key []
    · simp only [location]
      split <;> split <;> simp_all

/-! ### normpath -/

theorem normComps_walk (abs : Bool) (cwd acc cs : List Str)
    (hcwd : abs = true → cwd = [])
    (hacc : ∀ c ∈ acc, c ≠ [] ∧ c ≠ ['.']) (habs : abs = true → ['.', '.'] ∉ acc) :
    walkFrom cwd (normComps abs acc cs) = walkFrom (walkFrom cwd acc.reverse) cs := by
  induction cs generalizing acc with
  | nil => simp [normComps, walkFrom]
  | cons c cs ih =>
    simp only [normComps]
    by_cases h1 : c = [] ∨ c = ['.']
    · rw [if_pos h1, ih acc hacc habs]
      simp [walkFrom, h1]
    · rw [if_neg h1]
      have h1' : c ≠ [] ∧ c ≠ ['.'] := by simpa using h1
      by_cases h2 : c ≠ ['.', '.'] ∨ (abs = false ∧ acc = []) ∨ acc.head? = some ['.', '.']
      · rw [if_pos h2]
        rw [ih (c :: acc)]
        · simp only [List.reverse_cons, walkFrom_append]
          conv => rhs; rw [walkFrom]
          simp [walkFrom, h1]
          split <;> simp
        · simpa using ⟨h1', hacc⟩
        · intro ha
          simp only [List.mem_cons, not_or]
          refine ⟨?_, habs ha⟩
          rcases h2 with h2 | ⟨h2, _⟩ | h2
          · exact fun e => h2 e.symm
          · simp [ha] at h2
          · exact absurd (List.mem_of_head? h2) (habs ha)
      · rw [if_neg h2]
        simp only [not_or, not_and, ne_eq, Decidable.not_not] at h2
        obtain ⟨rfl, h3, h4⟩ := h2
        cases acc with
        | nil =>
          have ha : abs = true := by
            cases abs
            · exact absurd rfl (h3 rfl)
            · rfl
          rw [List.tail_nil, ih [] (by simp) (by simp)]
          simp [walkFrom, hcwd ha]
        | cons a t =>
          have ha1 := hacc a (by simp)
          have ha2 : a ≠ ['.', '.'] := by simpa using h4
          rw [List.tail_cons, ih t (fun c hc => hacc c (by simp [hc]))
            (fun ha => fun e => habs ha (by simp [e]))]
          simp only [List.reverse_cons, walkFrom_append]
          conv => rhs; rw [walkFrom]
          simp [walkFrom, ha1, ha2]

theorem normComps_abs_names (acc cs : List Str) (hacc : Names acc) :
    Names (normComps true acc cs) := by
  induction cs generalizing acc with
  | nil => simpa [normComps, Names] using hacc
  | cons c cs ih =>
    simp only [normComps]
    split
    · exact ih acc hacc
    · rename_i h1
      split
      · rename_i h2
        apply ih
        intro d hd
        rcases List.mem_cons.mp hd with rfl | hd
        · refine ⟨fun e => h1 (.inl e), fun e => h1 (.inr e), ?_⟩
          rcases h2 with h2 | h2 | h2
          · exact h2
          · simp at h2
          · exact absurd rfl (hacc _ (List.mem_of_head? h2)).2.2
        · exact hacc d hd
      · exact ih _ (fun d hd => hacc d (List.mem_of_mem_tail hd))

theorem normComps_noDotDot (abs : Bool) (acc cs : List Str) (hacc : Names acc)
    (h : ['.', '.'] ∉ cs) : Names (normComps abs acc cs) := by
  induction cs generalizing acc with
  | nil => simpa [normComps, Names] using hacc
  | cons c cs ih =>
    have hc : c ≠ ['.', '.'] := fun e => h (by simp [e])
    have hcs : ['.', '.'] ∉ cs := fun e => h (by simp [e])
    simp only [normComps]
    split
    · exact ih acc hacc hcs
    · rename_i h1
      rw [if_pos (Or.inl hc)]
      refine ih _ ?_ hcs
      intro d hd
      rcases List.mem_cons.mp hd with rfl | hd
      · exact ⟨fun e => h1 (.inl e), fun e => h1 (.inr e), hc⟩
      · exact hacc d hd

theorem join_prefix {a b : List Str} (h : a <+: b) : join ['/'] a <+: join ['/'] b := by
  induction a generalizing b with
  | nil => simp [join]
  | cons x t ih =>
    cases b with
    | nil => simp at h
    | cons y u =>
      obtain ⟨rfl, hp⟩ := List.cons_prefix_cons.mp h
      cases t with
      | nil =>
        cases u with
        | nil => simp [join]
        | cons z v => simp [join]
      | cons p q =>
        cases u with
        | nil => simp at hp
        | cons z v =>
          have := ih hp
          simp only [join, List.append_assoc]
          exact (List.prefix_append_right_inj _).mpr ((List.prefix_append_right_inj _).mpr this)

theorem commonPrefix_of_prefix {α : Type} [DecidableEq α] {a b : List α} (h : a <+: b) :
    commonPrefix a b = a := by
  induction a generalizing b with
  | nil => cases b <;> rfl
  | cons x t ih =>
    cases b with
    | nil => simp at h
    | cons y u =>
      obtain ⟨rfl, hp⟩ := List.cons_prefix_cons.mp h
      simp [commonPrefix, ih hp]

theorem commonPrefix_comm {α : Type} [DecidableEq α] (a b : List α) :
    commonPrefix a b = commonPrefix b a := by
  induction a generalizing b with
  | nil => cases b <;> rfl
  | cons x t ih =>
    cases b with
    | nil => rfl
    | cons y u =>
      simp only [commonPrefix]
      by_cases h : x = y
      · subst h; simp [ih]
      · have h' : ¬ y = x := fun e => h e.symm
        simp [h, h']

theorem commonPrefix_eq_left {α : Type} [DecidableEq α] {a b : List α} :
    a = commonPrefix a b ↔ a <+: b := by
  constructor
  · intro h
    induction a generalizing b with
    | nil => simp
    | cons x t ih =>
      cases b with
      | nil => simp [commonPrefix] at h
      | cons y u =>
        simp only [commonPrefix] at h
        split at h
        · rename_i e
          subst e
          exact List.cons_prefix_cons.mpr ⟨rfl, ih (List.cons.inj h).2⟩
        · simp at h
  · intro h; exact (commonPrefix_of_prefix h).symm

/-- an absolute path normalises to slashes plus its location -/
theorem normpath_abs {p : Str} (cwd : List Str) (h : initialSlashes p ≠ 0) :
    normpath p = List.replicate (initialSlashes p) '/' ++ join ['/'] (location cwd p) := by
  have hp : p ≠ [] := by rintro rfl; simp [initialSlashes] at h
  have hstart : ∃ t, p = '/' :: t := by
    cases p with
    | nil => exact absurd rfl hp
    | cons c t =>
      by_cases hc : c = '/'
      · exact ⟨t, by rw [hc]⟩
      · exfalso; apply h
        unfold initialSlashes
        split <;> simp_all
  obtain ⟨t, rfl⟩ := hstart
  have hb : (initialSlashes ('/' :: t) != 0) = true := by simp [h]
  have hn := normComps_abs_names [] (splitOn '/' ('/' :: t)) (by simp [Names])
  have hw := normComps_walk true [] [] (splitOn '/' ('/' :: t)) (by simp) (by simp) (by simp)
  rw [walkFrom_names [] hn] at hw
  simp only [List.nil_append, List.reverse_nil] at hw
  have hl : normComps true [] (splitOn '/' ('/' :: t)) = location cwd ('/' :: t) := by
    rw [hw]; simp [location, walkFrom]
  unfold normpath
  rw [if_neg hp]
  simp only [hb, hl]
  rw [if_neg]
  intro e
  have := congrArg List.length e
  simp at this
  exact h this.1

/-- a relative path without '..' which is not the current directory -/
theorem normpath_rel {p : Str} (cwd : List Str) (h : initialSlashes p = 0)
    (hd : ['.', '.'] ∉ splitOn '/' p) :
    ∃ ns, location cwd p = cwd ++ ns ∧ (ns ≠ [] → normpath p = join ['/'] ns) := by
  have hn := normComps_noDotDot false [] (splitOn '/' p) (by simp [Names]) hd
  have hw := normComps_walk false cwd [] (splitOn '/' p) (by simp) (by simp) (by simp)
  rw [walkFrom_names cwd hn] at hw
  have hnot : ∀ t, p ≠ '/' :: t := by
    rintro t rfl
    revert h
    unfold initialSlashes
    split <;> simp_all
  have hloc : location cwd p = walkFrom cwd (splitOn '/' p) := by
    unfold location
    split
    · rename_i t; exact absurd rfl (hnot t)
    · rfl
  refine ⟨normComps false [] (splitOn '/' p), ?_, ?_⟩
  · rw [hloc, hw]; simp [walkFrom]
  · intro hne
    have hp : p ≠ [] := by
      rintro rfl
      apply hne
      simp [splitOn, normComps]
    unfold normpath
    rw [if_neg hp]
    simp only [h]
    have : join ['/'] (normComps false [] (splitOn '/' p)) ≠ [] := by
      cases hh : normComps false [] (splitOn '/' p) with
      | nil => exact absurd hh hne
      | cons a t =>
        have ha : a ≠ [] := (hn a (by simp [hh])).1
        cases t <;> simp [join, ha]
    simp [this]

end Py
