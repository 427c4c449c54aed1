import Verif.Py.Regex
import Verif.Proofs.Regex
/-
Declarative meaning of the regex model and the proof that the backtracking matcher finds
exactly the declared matches.
-/

namespace Py

abbrev Caps := List (Nat × Str)

/-- Iteration: non-empty matches, and at most one empty one at the end.  `R pos u rest caps caps'`: at position `pos`, consuming `u`
with `rest` remaining turns the captures `caps` into `caps'`. -/
inductive StarRel (R : Nat → Str → Str → Caps → Caps → Prop) : Nat → Str → Str → Caps → Caps → Prop
  | stop (k : Nat) (rest : Str) (c : Caps) : StarRel R k [] rest c c
  | empty {k : Nat} {rest : Str} {c c1 : Caps} : R k [] rest c c1 → StarRel R k [] rest c c1
  | step {k : Nat} {u v rest : Str} {c c1 c2 : Caps} : u ≠ [] → R k u (v ++ rest) c c1 →
      StarRel R (k + u.length) v rest c1 c2 → StarRel R k (u ++ v) rest c c2

/-- Declarative matching. -/
def Re.Rel : Re → Nat → Str → Str → Caps → Caps → Prop
  | .eps, _, u, _, c, c' => u = [] ∧ c' = c
  | .chr p, _, u, _, c, c' => (∃ x, u = [x] ∧ p x = true) ∧ c' = c
  | .cat a b, k, u, rest, c, c' =>
    ∃ u1 u2 c1, u = u1 ++ u2 ∧ a.Rel k u1 (u2 ++ rest) c c1 ∧ b.Rel (k + u1.length) u2 rest c1 c'
  | .alt a b, k, u, rest, c, c' => a.Rel k u rest c c' ∨ b.Rel k u rest c c'
  | .star a, k, u, rest, c, c' => StarRel a.Rel k u rest c c'
  | .opt a, k, u, rest, c, c' => a.Rel k u rest c c' ∨ (u = [] ∧ c' = c)
  | .grp n a, k, u, rest, c, c' => ∃ c1, a.Rel k u rest c c1 ∧ c' = (n, u) :: c1
  | .bos, k, u, _, c, c' => u = [] ∧ k = 0 ∧ c' = c
  | .eos, _, u, rest, c, c' => u = [] ∧ (rest = [] ∨ rest = ['\n']) ∧ c' = c

/-- what membership in a matcher's result list should mean -/
def Sound (f : MSt → List MSt) (R : Nat → Str → Str → Caps → Caps → Prop) : Prop :=
  ∀ k s c st', st' ∈ f ⟨k, s, c⟩ ↔
    ∃ u, s = u ++ st'.rest ∧ st'.pos = k + u.length ∧ R k u st'.rest c st'.caps

theorem starIter_sound {f : MSt → List MSt} {R : Nat → Str → Str → Caps → Caps → Prop}
    (h : Sound f R) (n : Nat) : ∀ k s c st', s.length ≤ n →
      (st' ∈ starIter f n ⟨k, s, c⟩ ↔
        ∃ u, s = u ++ st'.rest ∧ st'.pos = k + u.length ∧ StarRel R k u st'.rest c st'.caps) := by
  induction n with
  | zero =>
    intro k s c st' hl
    have : s = [] := List.length_eq_zero_iff.mp (by omega)
    subst this
    simp only [starIter, List.mem_append, List.mem_singleton]
    constructor
    · rintro (hm | rfl)
      · obtain ⟨u, hs, hpos, hr⟩ := (h k [] c st').mp hm
        have hu := (List.append_eq_nil_iff.mp hs.symm).1
        subst hu
        exact ⟨[], hs, hpos, .empty hr⟩
      · exact ⟨[], rfl, rfl, .stop ..⟩
    · rintro ⟨u, hs, hpos, hr⟩
      have hs' := hs.symm
      rw [List.append_eq_nil_iff] at hs'
      obtain ⟨rfl, hrest⟩ := hs'
      generalize hu : ([] : Str) = u at hr
      cases hr with
      | stop =>
        right
        obtain ⟨p, r, c'⟩ := st'
        simp at hrest hpos
        subst hrest hpos
        rfl
      | empty h1 => left; exact (h k [] c st').mpr ⟨[], hs, hpos, h1⟩
      | step hne _ _ => exfalso; rw [eq_comm, List.append_eq_nil_iff] at hu; exact hne hu.1
  | succ n ih =>
    intro k s c st' hl
    simp only [starIter, List.mem_append, List.mem_flatMap, List.mem_singleton]
    constructor
    · rintro (⟨st1, hm, hin⟩ | rfl)
      · obtain ⟨u, hs, hpos, hr⟩ := (h k s c st1).mp hm
        obtain ⟨k1, s1, c1⟩ := st1
        simp only at hs hpos hr hin
        subst hpos
        split at hin
        · rename_i hlt
          have hl1 : s1.length ≤ n := by omega
          obtain ⟨v, hv, hp, hr2⟩ := (ih (k + u.length) s1 c1 st' hl1).mp hin
          subst hv
          refine ⟨u ++ v, by simp [hs], by simp [hp]; omega, ?_⟩
          refine .step ?_ hr hr2
          rintro rfl
          simp [hs] at hlt
        · rename_i hlt
          rw [List.mem_singleton] at hin
          subst hin
          have hu : u = [] := by
            apply List.length_eq_zero_iff.mp
            simp [hs] at hlt
            simpa using hlt
          subst hu
          exact ⟨[], hs, rfl, .empty hr⟩
      · exact ⟨[], rfl, rfl, .stop ..⟩
    · rintro ⟨u, hs, hpos, hr⟩
      generalize hu : u = u' at hr
      cases hr with
      | stop =>
        right
        subst hu
        obtain ⟨p, r, c'⟩ := st'
        simp at hs hpos
        subst hs hpos; rfl
      | empty h1 =>
        left
        subst hu
        refine ⟨st', (h k s c st').mpr ⟨[], hs, hpos, h1⟩, ?_⟩
        simp at hs
        subst hs
        simp
      | @step _ u1 v _ _ c1 _ hne h1 h2 =>
        left
        subst hu
        have hlen : 0 < u1.length := List.length_pos_iff.mpr hne
        refine ⟨⟨k + u1.length, v ++ st'.rest, c1⟩, (h k s c _).mpr ⟨u1, by simp [hs], rfl, h1⟩, ?_⟩
        rw [if_pos (by simp [hs]; omega)]
        apply (ih _ _ _ st' ?_).mpr
        · exact ⟨v, rfl, by simp [hpos]; omega, h2⟩
        · simp [hs] at hl ⊢; omega

/-- The matcher finds exactly the declared matches. -/
theorem mem_m (r : Re) : Sound r.m r.Rel := by
  induction r with
  | eps =>
    intro k s c st'
    simp only [Re.m, Re.Rel, List.mem_singleton]
    constructor
    · rintro rfl; exact ⟨[], rfl, rfl, rfl, rfl⟩
    · rintro ⟨u, hs, hp, rfl, hc⟩
      obtain ⟨p, r, c'⟩ := st'; simp at hs hp hc; subst hs hp hc; rfl
  | chr p =>
    intro k s c st'
    cases s with
    | nil =>
      simp only [Re.m, Re.Rel, List.not_mem_nil, false_iff]
      rintro ⟨u, hs, _, ⟨x, rfl, _⟩, _⟩
      simp at hs
    | cons x t =>
      rw [chr_m_cons]
      simp only [Re.Rel]
      constructor
      · intro h
        split at h
        · rename_i hp
          simp at h; subst h
          exact ⟨[x], rfl, rfl, ⟨x, rfl, hp⟩, rfl⟩
        · simp at h
      · rintro ⟨u, hs, hp, ⟨y, rfl, hy⟩, hc⟩
        obtain ⟨p', r, c'⟩ := st'
        simp at hs hp hc
        obtain ⟨rfl, rfl⟩ := hs
        subst hp hc
        simp [hy]
  | cat a b iha ihb =>
    intro k s c st'
    simp only [Re.m, Re.Rel, List.mem_flatMap]
    constructor
    · rintro ⟨⟨k1, s1, c1⟩, h1, h2⟩
      obtain ⟨u1, hs, hp, hr⟩ := (iha k s c _).mp h1
      obtain ⟨u2, hs2, hp2, hr2⟩ := (ihb k1 s1 c1 _).mp h2
      simp only at hs hp hr
      subst hs hp hs2
      exact ⟨u1 ++ u2, by simp, by simp [hp2]; omega, u1, u2, c1, rfl, hr, hr2⟩
    · rintro ⟨u, hs, hp, u1, u2, c1, rfl, hr1, hr2⟩
      refine ⟨⟨k + u1.length, u2 ++ st'.rest, c1⟩, (iha k s c _).mpr ⟨u1, by simp [hs], rfl, hr1⟩, ?_⟩
      exact (ihb _ _ _ _).mpr ⟨u2, rfl, by simp [hp]; omega, hr2⟩
  | alt a b iha ihb =>
    intro k s c st'
    simp only [Re.m, Re.Rel, List.mem_append]
    rw [iha k s c st', ihb k s c st']
    constructor
    · rintro (⟨u, h1, h2, h3⟩ | ⟨u, h1, h2, h3⟩)
      · exact ⟨u, h1, h2, .inl h3⟩
      · exact ⟨u, h1, h2, .inr h3⟩
    · rintro ⟨u, h1, h2, h3 | h3⟩
      · exact .inl ⟨u, h1, h2, h3⟩
      · exact .inr ⟨u, h1, h2, h3⟩
  | star a iha =>
    intro k s c st'
    exact starIter_sound iha s.length k s c st' (Nat.le_refl _)
  | opt a iha =>
    intro k s c st'
    simp only [Re.m, Re.Rel, List.mem_append, List.mem_singleton]
    rw [iha k s c st']
    constructor
    · rintro (⟨u, h1, h2, h3⟩ | rfl)
      · exact ⟨u, h1, h2, .inl h3⟩
      · exact ⟨[], rfl, rfl, .inr ⟨rfl, rfl⟩⟩
    · rintro ⟨u, h1, h2, h3 | ⟨rfl, h3⟩⟩
      · exact .inl ⟨u, h1, h2, h3⟩
      · right
        obtain ⟨p, r, c'⟩ := st'; simp at h1 h2 h3; subst h1 h2 h3; rfl
  | grp n a iha =>
    intro k s c st'
    simp only [Re.m, Re.Rel, List.mem_map]
    constructor
    · rintro ⟨st1, h1, rfl⟩
      obtain ⟨u, hs, hp, hr⟩ := (iha k s c _).mp h1
      refine ⟨u, hs, hp, st1.caps, hr, ?_⟩
      simp only [hs, List.length_append, Nat.add_sub_cancel]
      simp
    · rintro ⟨u, hs, hp, c1, hr, hc⟩
      refine ⟨⟨st'.pos, st'.rest, c1⟩, (iha k s c _).mpr ⟨u, hs, hp, hr⟩, ?_⟩
      obtain ⟨p, r, c'⟩ := st'
      simp only at hs hc
      subst hs hc
      simp
  | bos =>
    intro k s c st'
    simp only [Re.m, Re.Rel]
    constructor
    · intro h
      split at h
      · rename_i hk
        simp at h; subst h; exact ⟨[], rfl, rfl, rfl, hk, rfl⟩
      · simp at h
    · rintro ⟨u, hs, hp, rfl, hk, hc⟩
      obtain ⟨p, r, c'⟩ := st'; simp at hs hp hc; subst hs hp hc; simp [hk]
  | eos =>
    intro k s c st'
    simp only [Re.m, Re.Rel]
    constructor
    · intro h
      split at h
      · rename_i hk
        simp at h; subst h; exact ⟨[], rfl, rfl, rfl, hk, rfl⟩
      · simp at h
    · rintro ⟨u, hs, hp, rfl, hk, hc⟩
      obtain ⟨p, r, c'⟩ := st'; simp at hs hp hc; subst hs hp hc; simp [hk]

/-- A successful `re.match` is a declared match. -/
theorem matchStart_sound {r : Re} {s : Str} {st : MSt} (h : r.matchStart s = some st) :
    ∃ u, s = u ++ st.rest ∧ st.pos = u.length ∧ r.Rel 0 u st.rest [] st.caps := by
  have := List.mem_of_head? h
  simpa using (mem_m r 0 s [] st).mp this

/-- If there is a declared match then `re.match` succeeds. -/
theorem matchStart_complete {r : Re} {s u rest : Str} {c : Caps} (hs : s = u ++ rest)
    (h : r.Rel 0 u rest [] c) : ∃ st, r.matchStart s = some st := by
  have hm := (mem_m r 0 s [] ⟨u.length, rest, c⟩).mpr ⟨u, hs, by simp, h⟩
  cases hh : (r.m ⟨0, s, []⟩) with
  | nil => rw [hh] at hm; simp at hm
  | cons a t => exact ⟨a, by simp [Re.matchStart, hh]⟩

/-- `p*` consumes exactly runs of characters satisfying `p`. -/
theorem star_chr_rel (p : Char → Bool) (k : Nat) (u rest : Str) (c c' : Caps) :
    (Re.star (.chr p)).Rel k u rest c c' ↔ (∀ x ∈ u, p x = true) ∧ c' = c := by
  show StarRel (Re.chr p).Rel k u rest c c' ↔ _
  constructor
  · intro h
    induction h with
    | stop => simp
    | empty h1 =>
      obtain ⟨⟨x, hx, _⟩, _⟩ := h1
      exact absurd hx (by simp)
    | step hne h1 _ ih =>
      obtain ⟨⟨x, rfl, hx⟩, rfl⟩ := h1
      exact ⟨by simpa [hx] using ih.1, ih.2⟩
  · rintro ⟨h, rfl⟩
    induction u generalizing k with
    | nil => exact .stop ..
    | cons x t ih =>
      have : StarRel (Re.chr p).Rel k ([x] ++ t) rest c' c' := by
        refine .step (by simp) ⟨⟨x, rfl, h x (by simp)⟩, rfl⟩ (ih _ (fun y hy => h y (by simp [hy])))
      simpa using this

end Py
