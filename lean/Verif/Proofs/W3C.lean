import Mathlib.Data.List.Forall2
import Mathlib.Tactic.Tauto
import Mathlib.Tactic.IntervalCases
import Verif.Model.W3CDatetime
import Verif.Spec.W3C
import Verif.Proofs.RegexRel
import Verif.Proofs.Calendar
/- Lemmas about the datetime parser. -/

namespace Resync
open Py Resync.Spec

theorem seqChr_rel (ps : List (Char → Bool)) (k : Nat) (u rest : Str) (c c' : Caps) :
    (Re.seq (ps.map Re.chr)).Rel k u rest c c' ↔
      List.Forall₂ (fun p x => p x = true) ps u ∧ c' = c := by
  induction ps generalizing k u c with
  | nil => simp [Re.seq, Re.Rel]
  | cons p t ih =>
    simp only [List.map_cons, Re.seq, Re.Rel, ih, List.forall₂_cons_left_iff]
    constructor
    · rintro ⟨u1, u2, c1, rfl, ⟨⟨x, rfl, hx⟩, rfl⟩, h2, rfl⟩
      exact ⟨⟨x, u2, hx, h2, rfl⟩, rfl⟩
    · rintro ⟨⟨x, u2, hx, h2, rfl⟩, rfl⟩
      exact ⟨[x], u2, c', rfl, ⟨⟨x, rfl, hx⟩, rfl⟩, h2, rfl⟩

def isC (c : Char) : Char → Bool := fun d => d == c

/-- dd -/
def pDD : List (Char → Bool) := [isDigit, isDigit]
/-- YYYY -/
def pY : List (Char → Bool) := [isDigit, isDigit, isDigit, isDigit]
/-- YYYY-MM-DDThh:mm -/
def pA : List (Char → Bool) := [isDigit, isDigit, isDigit, isDigit, isC '-', isDigit, isDigit,
  isC '-', isDigit, isDigit, isC 'T', isDigit, isDigit, isC ':', isDigit, isDigit]

abbrev Fits (ps : List (Char → Bool)) (s : Str) : Prop := List.Forall₂ (fun p x => p x = true) ps s

/-- seconds part: absent or `:ss` -/
def SecTxt (S : Str) : Prop := S = [] ∨ Fits [isC ':', isDigit, isDigit] S

/-- what `fullRe` matches -/
theorem fullRe_rel {u rest : Str} {c : Caps} : fullRe.Rel 0 u rest [] c ↔
    (rest = [] ∨ rest = ['\n']) ∧ ∃ A S, Fits pA A ∧
      ((u = A ++ S ++ ['Z'] ∧ ((S = [] ∧ c = [(3, ['Z']), (1, A ++ S)]) ∨
          (Fits [isC ':', isDigit, isDigit] S ∧ c = [(3, ['Z']), (1, A ++ S), (2, S)]))) ∨
       (∃ sg H M, (sg = '+' ∨ sg = '-') ∧ Fits pDD H ∧ Fits pDD M ∧
          u = A ++ S ++ sg :: (H ++ ':' :: M) ∧
          ((S = [] ∧ c = [(3, sg :: (H ++ ':' :: M)), (6, M), (5, H), (4, [sg]), (1, A ++ S)]) ∨
           (Fits [isC ':', isDigit, isDigit] S ∧
             c = [(3, sg :: (H ++ ':' :: M)), (6, M), (5, H), (4, [sg]), (1, A ++ S), (2, S)])))) := by
  have e1 : ∀ k u rest c c', (Re.seq [reD, reD, reD, reD, .lit '-', reD, reD, .lit '-', reD, reD,
      .lit 'T', reD, reD, .lit ':', reD, reD]).Rel k u rest c c' ↔ Fits pA u ∧ c' = c :=
    fun k u rest c c' => seqChr_rel pA k u rest c c'
  have e2 : ∀ k u rest c c', (Re.seq [.lit ':', reD, reD]).Rel k u rest c c' ↔
      Fits [isC ':', isDigit, isDigit] u ∧ c' = c :=
    fun k u rest c c' => seqChr_rel [isC ':', isDigit, isDigit] k u rest c c'
  have e3 : ∀ k u rest c c', (Re.seq [reD, reD]).Rel k u rest c c' ↔ Fits pDD u ∧ c' = c :=
    fun k u rest c c' => seqChr_rel pDD k u rest c c'
  have e4 : ∀ ch k u rest c c', (Re.lit ch).Rel k u rest c c' ↔ u = [ch] ∧ c' = c := by
    intro ch k u rest c c'
    simp [Re.lit, Re.Rel]
  constructor
  · intro h
    obtain ⟨u1, u2, c1, rfl, ⟨c2, ⟨A, S, c3, rfl, hA, hS⟩, rfl⟩, v1, v2, c4, rfl, ⟨c6, h3, rfl⟩, w1,
      w2, c5, rfl, ⟨rfl, hr, rfl⟩, rfl, rfl⟩ := h
    obtain ⟨hA', rfl⟩ := (e1 _ _ _ _ _).mp hA
    refine ⟨by simpa using hr, A, S, hA', ?_⟩
    have hS' : (S = [] ∧ c2 = []) ∨ (Fits [isC ':', isDigit, isDigit] S ∧ c2 = [(2, S)]) := by
      rcases hS with ⟨c7, h7, rfl⟩ | ⟨rfl, rfl⟩
      · obtain ⟨h8, rfl⟩ := (e2 _ _ _ _ _).mp h7
        exact .inr ⟨h8, rfl⟩
      · exact .inl ⟨rfl, rfl⟩
    rcases h3 with h3 | h3
    · obtain ⟨rfl, rfl⟩ := (e4 _ _ _ _ _ _).mp h3
      left
      refine ⟨by simp, ?_⟩
      rcases hS' with ⟨rfl, rfl⟩ | ⟨h8, rfl⟩
      · exact .inl ⟨rfl, rfl⟩
      · exact .inr ⟨h8, rfl⟩
    · obtain ⟨x1, y1, d1, rfl, ⟨d2, ⟨⟨sg, rfl, hsg⟩, rfl⟩, rfl⟩, H, y2, d3, rfl, ⟨d4, hH, rfl⟩,
        x2, y3, d5, rfl, hx, M, y4, d6, rfl, ⟨d7, hM, rfl⟩, rfl, rfl⟩ := h3
      obtain ⟨hH', rfl⟩ := (e3 _ _ _ _ _).mp hH
      obtain ⟨hM', rfl⟩ := (e3 _ _ _ _ _).mp hM
      obtain ⟨rfl, rfl⟩ := (e4 _ _ _ _ _ _).mp hx
      right
      refine ⟨sg, H, M, by simpa using hsg, hH', hM', by simp, ?_⟩
      rcases hS' with ⟨rfl, rfl⟩ | ⟨h8, rfl⟩
      · exact .inl ⟨rfl, by simp⟩
      · exact .inr ⟨h8, by simp⟩
  · rintro ⟨hr, A, S, hA, h⟩
    have key : ∀ (c2 : Caps) (Z : Str) (c6 : Caps),
        ((S = [] ∧ c2 = []) ∨ (Fits [isC ':', isDigit, isDigit] S ∧ c2 = [(2, S)])) →
        (Re.alt (.lit 'Z') (.seq [.grp 4 (.chr (fun c => c == '+' || c == '-')),
          .grp 5 (.seq [reD, reD]), .lit ':', .grp 6 (.seq [reD, reD])])).Rel
          (0 + (A ++ S).length) Z ([] ++ rest) ((1, A ++ S) :: c2) c6 →
        fullRe.Rel 0 (A ++ S ++ Z) rest [] ((3, Z) :: c6) := by
      intro c2 Z c6 hS hZ
      refine ⟨A ++ S, Z, (1, A ++ S) :: c2, rfl, ⟨c2, ⟨A, S, [], rfl, (e1 _ _ _ _ _).mpr ⟨hA, rfl⟩, ?_⟩, rfl⟩,
        Z, [], _, by simp, ⟨c6, hZ, rfl⟩, [], [], _, rfl, ⟨rfl, hr, rfl⟩, rfl, rfl⟩
      rcases hS with ⟨rfl, rfl⟩ | ⟨h8, rfl⟩
      · exact .inr ⟨rfl, rfl⟩
      · exact .inl ⟨[], (e2 _ _ _ _ _).mpr ⟨h8, rfl⟩, rfl⟩
    rcases h with ⟨rfl, hc⟩ | ⟨sg, H, M, hsg, hH, hM, rfl, hc⟩
    · rcases hc with ⟨rfl, rfl⟩ | ⟨h8, rfl⟩
      · exact key [] _ _ (.inl ⟨rfl, rfl⟩) (.inl ((e4 _ _ _ _ _ _).mpr ⟨rfl, rfl⟩))
      · exact key _ _ _ (.inr ⟨h8, rfl⟩) (.inl ((e4 _ _ _ _ _ _).mpr ⟨rfl, rfl⟩))
    · have z : ∀ k r (c : Caps), (Re.seq [.grp 4 (.chr (fun c => c == '+' || c == '-')),
          .grp 5 (.seq [reD, reD]), .lit ':', .grp 6 (.seq [reD, reD])]).Rel k
            (sg :: (H ++ ':' :: M)) r c ((6, M) :: (5, H) :: (4, [sg]) :: c) := by
        intro k r c
        refine ⟨[sg], H ++ ':' :: M, _, rfl, ⟨c, ⟨⟨sg, rfl, by simpa using hsg⟩, rfl⟩, rfl⟩,
          H, ':' :: M, _, rfl, ⟨_, (e3 _ _ _ _ _).mpr ⟨hH, rfl⟩, rfl⟩, [':'], M, _, rfl,
          (e4 _ _ _ _ _ _).mpr ⟨rfl, rfl⟩, M, [], _, by simp, ⟨_, (e3 _ _ _ _ _).mpr ⟨hM, rfl⟩, rfl⟩, rfl, rfl⟩
      rcases hc with ⟨rfl, rfl⟩ | ⟨h8, rfl⟩
      · exact key [] _ _ (.inl ⟨rfl, rfl⟩) (.inr (z _ _ _))
      · exact key _ _ _ (.inr ⟨h8, rfl⟩) (.inr (z _ _ _))

theorem pA_iff {A : Str} : Fits pA A ↔ ∃ y1 y2 y3 y4 m1 m2 d1 d2 h1 h2 i1 i2,
    A = [y1, y2, y3, y4, '-', m1, m2, '-', d1, d2, 'T', h1, h2, ':', i1, i2] ∧
    isDigit y1 = true ∧ isDigit y2 = true ∧ isDigit y3 = true ∧ isDigit y4 = true ∧
    isDigit m1 = true ∧ isDigit m2 = true ∧ isDigit d1 = true ∧ isDigit d2 = true ∧
    isDigit h1 = true ∧ isDigit h2 = true ∧ isDigit i1 = true ∧ isDigit i2 = true := by
  constructor
  · intro h
    simp only [Fits, pA, List.forall₂_cons_left_iff, List.forall₂_nil_left_iff, isC] at h
    obtain ⟨y1, _, hy1, ⟨y2, _, hy2, ⟨y3, _, hy3, ⟨y4, _, hy4, ⟨c1, _, hc1, ⟨m1, _, hm1, ⟨m2, _, hm2,
      ⟨c2, _, hc2, ⟨d1, _, hd1, ⟨d2, _, hd2, ⟨c3, _, hc3, ⟨h1, _, hh1, ⟨h2, _, hh2, ⟨c4, _, hc4,
      ⟨i1, _, hi1, ⟨i2, _, hi2, rfl, rfl⟩, rfl⟩, rfl⟩, rfl⟩, rfl⟩, rfl⟩, rfl⟩, rfl⟩, rfl⟩, rfl⟩, rfl⟩,
      rfl⟩, rfl⟩, rfl⟩, rfl⟩, rfl⟩ := h
    simp at hc1 hc2 hc3 hc4
    subst hc1 hc2 hc3 hc4
    exact ⟨y1, y2, y3, y4, m1, m2, d1, d2, h1, h2, i1, i2, rfl, hy1, hy2, hy3, hy4, hm1, hm2, hd1,
      hd2, hh1, hh2, hi1, hi2⟩
  · rintro ⟨y1, y2, y3, y4, m1, m2, d1, d2, h1, h2, i1, i2, rfl, h⟩
    simp only [Fits, pA]
    obtain ⟨a1, a2, a3, a4, a5, a6, a7, a8, a9, a10, a11, a12⟩ := h
    simp [isC, *]

theorem sec_iff {S : Str} : Fits [isC ':', isDigit, isDigit] S ↔
    ∃ a b, S = [':', a, b] ∧ isDigit a = true ∧ isDigit b = true := by
  constructor
  · intro h
    simp only [Fits, List.forall₂_cons_left_iff, List.forall₂_nil_left_iff, isC] at h
    obtain ⟨x, _, hx, ⟨a, _, ha, ⟨b, _, hb, rfl, rfl⟩, rfl⟩, rfl⟩ := h
    simp at hx
    exact ⟨a, b, by simp [hx], ha, hb⟩
  · rintro ⟨a, b, rfl, ha, hb⟩
    simp [Fits, isC, ha, hb]

theorem dd_iff {S : Str} : Fits pDD S ↔ ∃ a b, S = [a, b] ∧ isDigit a = true ∧ isDigit b = true := by
  constructor
  · intro h
    simp only [Fits, pDD, List.forall₂_cons_left_iff, List.forall₂_nil_left_iff] at h
    obtain ⟨a, _, ha, ⟨b, _, hb, rfl, rfl⟩, rfl⟩ := h
    exact ⟨a, b, rfl, ha, hb⟩
  · rintro ⟨a, b, rfl, ha, hb⟩
    simp [Fits, pDD, ha, hb]

theorem notDigit_colon : isDigit ':' = false := by decide

def NL (n : Str) : Prop := n = [] ∨ n = ['\n']

theorem SecTxt.cases {S : Str} (h : SecTxt S) :
    S = [] ∨ ∃ a b, S = [':', a, b] ∧ isDigit a = true ∧ isDigit b = true := by
  rcases h with h | h
  · exact .inl h
  · exact .inr (sec_iff.mp h)

theorem parseFull_Z {A S nl : Str} (hA : Fits pA A) (hS : SecTxt S) (hn : NL nl) (fs : Rat) :
    parseFull (A ++ S ++ ['Z'] ++ nl) fs =
      (parseCivil (A ++ S)).map (fun dt => (dt.timegm : Rat) + (0 : Int) + fs) := by
  have hc : ∃ c, fullRe.Rel 0 (A ++ S ++ ['Z']) nl [] c := by
    rcases hS with h | h
    · exact ⟨_, fullRe_rel.mpr ⟨hn, A, S, hA, .inl ⟨rfl, .inl ⟨h, rfl⟩⟩⟩⟩
    · exact ⟨_, fullRe_rel.mpr ⟨hn, A, S, hA, .inl ⟨rfl, .inr ⟨h, rfl⟩⟩⟩⟩
  obtain ⟨c, hc⟩ := hc
  obtain ⟨st, hst⟩ := matchStart_complete rfl hc
  obtain ⟨u, hu, -, hrel⟩ := matchStart_sound hst
  obtain ⟨hr, A', S', hA', hrel⟩ := fullRe_rel.mp hrel
  have hlen : A.length = A'.length := by rw [← hA.length_eq, ← hA'.length_eq]
  have hS'' : SecTxt S' := by
    rcases hrel with ⟨_, ⟨h, _⟩ | ⟨h, _⟩⟩ | ⟨_, _, _, _, _, _, _, ⟨h, _⟩ | ⟨h, _⟩⟩
    all_goals first | exact .inl h | exact .inr h
  rcases hrel with ⟨rfl, hc⟩ | ⟨sg, H, M, hsg, hH, hM, rfl, hc⟩
  · simp only [List.append_assoc] at hu
    obtain ⟨rfl, hu⟩ := List.append_inj hu hlen
    have : S = S' := by
      rcases hS.cases with rfl | ⟨a, b, rfl, ha, hb⟩ <;>
        rcases hS''.cases with rfl | ⟨a', b', rfl, ha', hb'⟩ <;> simp at hu ⊢
      exact ⟨hu.1, hu.2.1⟩
    subst this
    unfold parseFull
    rw [hst]
    rcases hc with ⟨_, hc⟩ | ⟨_, hc⟩ <;>
      (simp [MSt.group, hc, List.lookup]; cases parseCivil (A ++ S) <;> simp)
  · exfalso
    simp only [List.append_assoc] at hu
    obtain ⟨rfl, hu⟩ := List.append_inj hu hlen
    rcases hS.cases with rfl | ⟨a, b, rfl, ha, hb⟩ <;>
      rcases hS''.cases with rfl | ⟨a', b', rfl, ha', hb'⟩ <;>
      rcases hsg with rfl | rfl <;> simp at hu

theorem parseFull_off {A S H M nl : Str} {sg : Char} (hA : Fits pA A) (hS : SecTxt S)
    (hsg : sg = '+' ∨ sg = '-') (hH : Fits pDD H) (hM : Fits pDD M) (hn : NL nl) (fs : Rat) :
    parseFull (A ++ S ++ sg :: (H ++ ':' :: M) ++ nl) fs =
      (parseCivil (A ++ S)).bind (fun dt =>
        if digitsVal H > 23 ∨ digitsVal M > 59 then none
        else some ((dt.timegm : Rat) +
          ((if sg = '-' then -(digitsVal H * 3600 + digitsVal M * 60) else
            (digitsVal H * 3600 + digitsVal M * 60) : Int) : Rat) + fs)) := by
  have hc : ∃ c, fullRe.Rel 0 (A ++ S ++ sg :: (H ++ ':' :: M)) nl [] c := by
    rcases hS with h | h
    · exact ⟨_, fullRe_rel.mpr ⟨hn, A, S, hA, .inr ⟨sg, H, M, hsg, hH, hM, rfl, .inl ⟨h, rfl⟩⟩⟩⟩
    · exact ⟨_, fullRe_rel.mpr ⟨hn, A, S, hA, .inr ⟨sg, H, M, hsg, hH, hM, rfl, .inr ⟨h, rfl⟩⟩⟩⟩
  obtain ⟨c, hc⟩ := hc
  obtain ⟨st, hst⟩ := matchStart_complete rfl hc
  obtain ⟨u, hu, -, hrel⟩ := matchStart_sound hst
  obtain ⟨hr, A', S', hA', hrel⟩ := fullRe_rel.mp hrel
  have hlen : A.length = A'.length := by rw [← hA.length_eq, ← hA'.length_eq]
  have hS'' : SecTxt S' := by
    rcases hrel with ⟨_, ⟨h, _⟩ | ⟨h, _⟩⟩ | ⟨_, _, _, _, _, _, _, ⟨h, _⟩ | ⟨h, _⟩⟩
    all_goals first | exact .inl h | exact .inr h
  obtain ⟨x1, x2, rfl, hx1, hx2⟩ := dd_iff.mp hH
  obtain ⟨z1, z2, rfl, hz1, hz2⟩ := dd_iff.mp hM
  rcases hrel with ⟨rfl, hc⟩ | ⟨sg', H', M', hsg', hH', hM', rfl, hc⟩
  · exfalso
    simp only [List.append_assoc] at hu
    obtain ⟨rfl, hu⟩ := List.append_inj hu hlen
    rcases hS.cases with rfl | ⟨a, b, rfl, ha, hb⟩ <;>
      rcases hS''.cases with rfl | ⟨a', b', rfl, ha', hb'⟩ <;>
      rcases hsg with rfl | rfl <;> simp at hu
  · simp only [List.append_assoc] at hu
    obtain ⟨rfl, hu⟩ := List.append_inj hu hlen
    obtain ⟨x1', x2', rfl, hx1', hx2'⟩ := dd_iff.mp hH'
    obtain ⟨z1', z2', rfl, hz1', hz2'⟩ := dd_iff.mp hM'
    have : S = S' ∧ sg = sg' ∧ x1 = x1' ∧ x2 = x2' ∧ z1 = z1' ∧ z2 = z2' := by
      rcases hS.cases with rfl | ⟨a, b, rfl, ha, hb⟩ <;>
        rcases hS''.cases with rfl | ⟨a', b', rfl, ha', hb'⟩
      · simp at hu ⊢; tauto
      · rcases hsg with rfl | rfl <;> simp at hu
      · rcases hsg' with rfl | rfl <;> simp at hu
      · simp at hu ⊢; tauto
    obtain ⟨rfl, rfl, rfl, rfl, rfl, rfl⟩ := this
    have hne : sg :: ([x1, x2] ++ ':' :: [z1, z2]) ≠ ['Z'] := by simp
    unfold parseFull
    rw [hst]
    rcases hc with ⟨_, hc⟩ | ⟨_, hc⟩ <;>
    · simp [MSt.group, hc, List.lookup]
      cases parseCivil (A ++ S) <;> simp

/-- what `parseFull` accepts -/
theorem parseFull_shape {w : Str} {fs q : Rat} (h : parseFull w fs = some q) :
    ∃ A S nl, Fits pA A ∧ SecTxt S ∧ NL nl ∧ (w = A ++ S ++ ['Z'] ++ nl ∨
      ∃ sg H M, (sg = '+' ∨ sg = '-') ∧ Fits pDD H ∧ Fits pDD M ∧
        w = A ++ S ++ sg :: (H ++ ':' :: M) ++ nl) := by
  unfold parseFull at h
  split at h
  · simp at h
  · rename_i m hm
    obtain ⟨u, hu, -, hrel⟩ := matchStart_sound hm
    obtain ⟨hr, A', S', hA', hrel⟩ := fullRe_rel.mp hrel
    have hS'' : SecTxt S' := by
      rcases hrel with ⟨_, ⟨h, _⟩ | ⟨h, _⟩⟩ | ⟨_, _, _, _, _, _, _, ⟨h, _⟩ | ⟨h, _⟩⟩
      all_goals first | exact .inl h | exact .inr h
    refine ⟨A', S', m.rest, hA', hS'', hr, ?_⟩
    rcases hrel with ⟨rfl, hc⟩ | ⟨sg', H', M', hsg', hH', hM', rfl, hc⟩
    · exact .inl hu
    · exact .inr ⟨sg', H', M', hsg', hH', hM', hu⟩

/-- what `dateRe` matches -/
theorem dateRe_rel {u rest : Str} {c : Caps} : dateRe.Rel 0 u rest [] c ↔
    NL rest ∧ ∃ Y, Fits pY Y ∧ ((u = Y ∧ c = []) ∨
      (∃ M, Fits pDD M ∧ u = Y ++ '-' :: M ∧ c = [(1, '-' :: M)]) ∨
      (∃ M D, Fits pDD M ∧ Fits pDD D ∧ u = Y ++ '-' :: (M ++ '-' :: D) ∧
        c = [(1, '-' :: (M ++ '-' :: D)), (2, '-' :: D)])) := by
  have e3 : ∀ k u rest c c', (Re.seq [reD, reD]).Rel k u rest c c' ↔ Fits pDD u ∧ c' = c :=
    fun k u rest c c' => seqChr_rel pDD k u rest c c'
  have e4 : ∀ k u rest c c', (Re.lit '-').Rel k u rest c c' ↔ u = ['-'] ∧ c' = c := by
    intro k u rest c c'
    simp [Re.lit, Re.Rel]
  constructor
  · intro h
    obtain ⟨_, _, _, rfl, ⟨⟨y1, rfl, h1⟩, rfl⟩, _, _, _, rfl, ⟨⟨y2, rfl, h2⟩, rfl⟩,
      _, _, _, rfl, ⟨⟨y3, rfl, h3⟩, rfl⟩, _, _, _, rfl, ⟨⟨y4, rfl, h4⟩, rfl⟩,
      w, _, _, rfl, hopt, _, _, _, rfl, ⟨rfl, hr, rfl⟩, rfl, rfl⟩ := h
    refine ⟨by simpa [NL] using hr, [y1, y2, y3, y4], by simp [Fits, pY, *], ?_⟩
    rcases hopt with ⟨c1, ⟨_, _, _, rfl, hd, a, _, _, rfl, ha, b, o, c2, rfl, hb, o1, o2, c3, rfl, ho, rfl, rfl⟩, rfl⟩ | ⟨rfl, rfl⟩
    · obtain ⟨rfl, rfl⟩ := (e4 _ _ _ _ _).mp hd
      obtain ⟨⟨a, rfl, ha⟩, rfl⟩ := ha
      obtain ⟨⟨b, rfl, hb⟩, rfl⟩ := hb
      right
      rcases ho with ⟨c4, ⟨_, _, _, rfl, hd, h5⟩, rfl⟩ | ⟨rfl, rfl⟩
      · right
        obtain ⟨rfl, rfl⟩ := (e4 _ _ _ _ _).mp hd
        obtain ⟨h6, rfl⟩ := (e3 _ _ _ _ _).mp h5
        exact ⟨[a, b], _, by simp [Fits, pDD, ha, hb], h6, by simp, by simp⟩
      · left
        exact ⟨[a, b], by simp [Fits, pDD, ha, hb], by simp, by simp⟩
    · left; simp
  · rintro ⟨hr, Y, hY, h⟩
    simp only [Fits, pY, List.forall₂_cons_left_iff, List.forall₂_nil_left_iff] at hY
    obtain ⟨y1, _, h1, ⟨y2, _, h2, ⟨y3, _, h3, ⟨y4, _, h4, rfl, rfl⟩, rfl⟩, rfl⟩, rfl⟩ := hY
    have key : ∀ w c, (Re.opt (.grp 1 (.seq [.lit '-', reD, reD,
        .opt (.grp 2 (.seq [.lit '-', reD, reD]))]))).Rel (0 + 1 + 1 + 1 + 1) w ([] ++ rest) [] c →
        dateRe.Rel 0 ([y1, y2, y3, y4] ++ w) rest [] c := by
      intro w c hw
      refine ⟨[y1], [y2, y3, y4] ++ w, [], rfl, ⟨⟨y1, rfl, h1⟩, rfl⟩, [y2], [y3, y4] ++ w, [], rfl,
        ⟨⟨y2, rfl, h2⟩, rfl⟩, [y3], [y4] ++ w, [], rfl, ⟨⟨y3, rfl, h3⟩, rfl⟩, [y4], w, [], rfl,
        ⟨⟨y4, rfl, h4⟩, rfl⟩, w, [], c, by simp, hw, [], [], c, rfl, ⟨rfl, hr, rfl⟩, rfl, rfl⟩
    rcases h with ⟨rfl, rfl⟩ | ⟨M, hM, rfl, rfl⟩ | ⟨M, D, hM, hD, rfl, rfl⟩
    · simpa using key [] [] (.inr ⟨rfl, rfl⟩)
    · obtain ⟨a, b, rfl, ha, hb⟩ := dd_iff.mp hM
      refine key _ _ (.inl ⟨[], ⟨['-'], [a, b], [], rfl, (e4 _ _ _ _ _).mpr ⟨rfl, rfl⟩, [a], [b], [], rfl,
        ⟨⟨a, rfl, ha⟩, rfl⟩, [b], [], [], rfl, ⟨⟨b, rfl, hb⟩, rfl⟩, [], [], [], rfl, .inr ⟨rfl, rfl⟩, rfl, rfl⟩, rfl⟩)
    · obtain ⟨a, b, rfl, ha, hb⟩ := dd_iff.mp hM
      refine key _ _ (.inl ⟨[(2, '-' :: D)], ⟨['-'], [a, b] ++ '-' :: D, [], rfl, (e4 _ _ _ _ _).mpr ⟨rfl, rfl⟩, [a], [b] ++ '-' :: D, [], rfl,
        ⟨⟨a, rfl, ha⟩, rfl⟩, [b], '-' :: D, [], rfl, ⟨⟨b, rfl, hb⟩, rfl⟩, '-' :: D, [], _, by simp,
        .inl ⟨[], ⟨['-'], D, [], rfl, (e4 _ _ _ _ _).mpr ⟨rfl, rfl⟩, (e3 _ _ _ _ _).mpr ⟨hD, rfl⟩⟩, rfl⟩, rfl, rfl⟩, rfl⟩)

theorem fitsY_iff {Y : Str} : Fits pY Y ↔ ∃ y1 y2 y3 y4, Y = [y1, y2, y3, y4] ∧
    isDigit y1 = true ∧ isDigit y2 = true ∧ isDigit y3 = true ∧ isDigit y4 = true := by
  constructor
  · intro hY
    simp only [Fits, pY, List.forall₂_cons_left_iff, List.forall₂_nil_left_iff] at hY
    obtain ⟨y1, _, h1, ⟨y2, _, h2, ⟨y3, _, h3, ⟨y4, _, h4, rfl, rfl⟩, rfl⟩, rfl⟩, rfl⟩ := hY
    exact ⟨y1, y2, y3, y4, rfl, h1, h2, h3, h4⟩
  · rintro ⟨y1, y2, y3, y4, rfl, h1, h2, h3, h4⟩
    simp [Fits, pY, *]

/-- the date-only texts, before the `$` -/
def DateTxt (u ext : Str) : Prop :=
  ∃ Y, Fits pY Y ∧ ((u = Y ∧ ext = "-01-01".toList) ∨
    (∃ M, Fits pDD M ∧ u = Y ++ '-' :: M ∧ ext = "-01".toList) ∨
    (∃ M D, Fits pDD M ∧ Fits pDD D ∧ u = Y ++ '-' :: (M ++ '-' :: D) ∧ ext = []))

theorem DateTxt.explicit {u ext : Str} (h : DateTxt u ext) :
    ∃ y1 y2 y3 y4, isDigit y1 = true ∧ isDigit y2 = true ∧ isDigit y3 = true ∧ isDigit y4 = true ∧
      ((u = [y1, y2, y3, y4] ∧ ext = "-01-01".toList) ∨
       (∃ a b, isDigit a = true ∧ isDigit b = true ∧ u = [y1, y2, y3, y4, '-', a, b] ∧ ext = "-01".toList) ∨
       (∃ a b c d, isDigit a = true ∧ isDigit b = true ∧ isDigit c = true ∧ isDigit d = true ∧
         u = [y1, y2, y3, y4, '-', a, b, '-', c, d] ∧ ext = [])) := by
  obtain ⟨Y, hY, h⟩ := h
  obtain ⟨y1, y2, y3, y4, rfl, h1, h2, h3, h4⟩ := fitsY_iff.mp hY
  refine ⟨y1, y2, y3, y4, h1, h2, h3, h4, ?_⟩
  rcases h with ⟨rfl, rfl⟩ | ⟨M, hM, rfl, rfl⟩ | ⟨M, D, hM, hD, rfl, rfl⟩
  · exact .inl ⟨rfl, rfl⟩
  · obtain ⟨a, b, rfl, ha, hb⟩ := dd_iff.mp hM
    exact .inr (.inl ⟨a, b, ha, hb, rfl, rfl⟩)
  · obtain ⟨a, b, rfl, ha, hb⟩ := dd_iff.mp hM
    obtain ⟨c, d, rfl, hc, hd⟩ := dd_iff.mp hD
    exact .inr (.inr ⟨a, b, c, d, ha, hb, hc, hd, rfl, rfl⟩)

theorem expandDate_cases (s : Str) :
    (∃ u ext nl, DateTxt u ext ∧ NL nl ∧ s = u ++ nl ∧
      expandDate s = s ++ ext ++ "T00:00:00Z".toList) ∨
    ((¬ ∃ u ext nl, DateTxt u ext ∧ NL nl ∧ s = u ++ nl) ∧ expandDate s = s) := by
  cases hm : dateRe.matchStart s with
  | none =>
    right
    refine ⟨?_, by simp [expandDate, hm]⟩
    rintro ⟨u, ext, nl, ⟨Y, hY, h⟩, hn, rfl⟩
    have : ∃ c, dateRe.Rel 0 u nl [] c := by
      rcases h with ⟨rfl, rfl⟩ | ⟨M, hM, rfl, rfl⟩ | ⟨M, D, hM, hD, rfl, rfl⟩
      · exact ⟨_, dateRe_rel.mpr ⟨hn, _, hY, .inl ⟨rfl, rfl⟩⟩⟩
      · exact ⟨_, dateRe_rel.mpr ⟨hn, _, hY, .inr (.inl ⟨M, hM, rfl, rfl⟩)⟩⟩
      · exact ⟨_, dateRe_rel.mpr ⟨hn, _, hY, .inr (.inr ⟨M, D, hM, hD, rfl, rfl⟩)⟩⟩
    obtain ⟨c, hc⟩ := this
    obtain ⟨st, hst⟩ := matchStart_complete rfl hc
    simp [hm] at hst
  | some m =>
    left
    obtain ⟨u, hu, -, hrel⟩ := matchStart_sound hm
    obtain ⟨hr, Y, hY, h⟩ := dateRe_rel.mp hrel
    rcases h with ⟨rfl, hc⟩ | ⟨M, hM, rfl, hc⟩ | ⟨M, D, hM, hD, rfl, hc⟩
    · exact ⟨_, "-01-01".toList, m.rest, ⟨u, hY, .inl ⟨rfl, rfl⟩⟩, hr, hu, by
        simp [expandDate, hm, MSt.group, hc]⟩
    · exact ⟨_, "-01".toList, m.rest, ⟨Y, hY, .inr (.inl ⟨M, hM, rfl, rfl⟩)⟩, hr, hu, by
        simp [expandDate, hm, MSt.group, hc, List.lookup]⟩
    · exact ⟨_, [], m.rest, ⟨Y, hY, .inr (.inr ⟨M, D, hM, hD, rfl, rfl⟩)⟩, hr, hu, by
        simp [expandDate, hm, MSt.group, hc, List.lookup]⟩

/-- hh:mm:ss -/
def pT : List (Char → Bool) := [isDigit, isDigit, isC ':', isDigit, isDigit, isC ':', isDigit, isDigit]

theorem pT_iff {S : Str} : Fits pT S ↔ ∃ a b c d e f, S = [a, b, ':', c, d, ':', e, f] ∧
    isDigit a = true ∧ isDigit b = true ∧ isDigit c = true ∧ isDigit d = true ∧ isDigit e = true ∧
    isDigit f = true := by
  constructor
  · intro h
    simp only [Fits, pT, List.forall₂_cons_left_iff, List.forall₂_nil_left_iff, isC] at h
    obtain ⟨a, _, ha, ⟨b, _, hb, ⟨x, _, hx, ⟨c, _, hc, ⟨d, _, hd, ⟨y, _, hy, ⟨e, _, he, ⟨f, _, hf, rfl, rfl⟩,
      rfl⟩, rfl⟩, rfl⟩, rfl⟩, rfl⟩, rfl⟩, rfl⟩ := h
    simp at hx hy
    subst hx hy
    exact ⟨a, b, c, d, e, f, rfl, ha, hb, hc, hd, he, hf⟩
  · rintro ⟨a, b, c, d, e, f, rfl, ha, hb, hc, hd, he, hf⟩
    simp [Fits, pT, isC, *]

/-- what `fracRe` matches -/
theorem fracRe_rel {u rest : Str} {c : Caps} : fracRe.Rel 0 u rest [] c ↔
    NL rest ∧ ∃ X T F, '\n' ∉ X ∧ Fits pT T ∧ F ≠ [] ∧ (∀ x ∈ F, isDigit x = true) ∧
      ((u = X ++ T ++ '.' :: F ∧ c = [(2, '.' :: F), (1, X ++ T)]) ∨
       (∃ x W, isDigit x = false ∧ '\n' ∉ W ∧ u = X ++ T ++ '.' :: F ++ x :: W ∧
          c = [(3, x :: W), (2, '.' :: F), (1, X ++ T)])) := by
  have e1 : ∀ k u rest c c', (Re.seq [reD, reD, .lit ':', reD, reD, .lit ':', reD, reD]).Rel k u rest c c'
      ↔ Fits pT u ∧ c' = c := fun k u rest c c' => seqChr_rel pT k u rest c c'
  have e2 : ∀ k u rest c c', (Re.star .dot).Rel k u rest c c' ↔ '\n' ∉ u ∧ c' = c := by
    intro k u rest c c'
    rw [show Re.dot = Re.chr (fun c => c != '\n') from rfl, star_chr_rel]
    simp only [bne_iff_ne, ne_eq]
    constructor
    · rintro ⟨h, rfl⟩; exact ⟨fun hn => h _ hn rfl, rfl⟩
    · rintro ⟨h, rfl⟩; exact ⟨fun x hx he => h (he ▸ hx), rfl⟩
  have e3 : ∀ k u rest c c', (Re.cat (.lit '.') (.plus reD)).Rel k u rest c c' ↔
      (∃ F, F ≠ [] ∧ (∀ x ∈ F, isDigit x = true) ∧ u = '.' :: F) ∧ c' = c := by
    intro k u rest c c'
    constructor
    · rintro ⟨_, _, _, rfl, ⟨⟨x, rfl, hx⟩, rfl⟩, _, v, _, rfl, ⟨⟨y, rfl, hy⟩, rfl⟩, hv⟩
      obtain ⟨hv', rfl⟩ := (star_chr_rel _ _ _ _ _ _).mp hv
      simp at hx
      subst hx
      refine ⟨⟨y :: v, by simp, ?_, rfl⟩, rfl⟩
      intro z hz
      rcases List.mem_cons.mp hz with rfl | hz
      · exact hy
      · exact hv' z hz
    · rintro ⟨⟨F, hne, hF, rfl⟩, rfl⟩
      cases F with
      | nil => exact absurd rfl hne
      | cons y v =>
        exact ⟨['.'], y :: v, c', rfl, ⟨⟨'.', rfl, by simp⟩, rfl⟩, [y], v, c', rfl,
          ⟨⟨y, rfl, hF y (by simp)⟩, rfl⟩, (star_chr_rel _ _ _ _ _ _).mpr ⟨fun z hz => hF z (by simp [hz]), rfl⟩⟩
  constructor
  · intro h
    obtain ⟨_, _, _, rfl, ⟨_, ⟨X, T, _, rfl, hX, hT⟩, rfl⟩, _, _, _, rfl, ⟨_, hF, rfl⟩,
      _, _, _, rfl, ho, _, _, _, rfl, ⟨rfl, hr, rfl⟩, rfl, rfl⟩ := h
    obtain ⟨hX', rfl⟩ := (e2 _ _ _ _ _).mp hX
    obtain ⟨hT', rfl⟩ := (e1 _ _ _ _ _).mp hT
    obtain ⟨⟨F, hne, hF', rfl⟩, rfl⟩ := (e3 _ _ _ _ _).mp hF
    refine ⟨by simpa [NL] using hr, X, T, F, hX', hT', hne, hF', ?_⟩
    rcases ho with ⟨_, ⟨_, W, _, rfl, ⟨⟨x, rfl, hx⟩, rfl⟩, hW⟩, rfl⟩ | ⟨rfl, rfl⟩
    · obtain ⟨hW', rfl⟩ := (e2 _ _ _ _ _).mp hW
      exact .inr ⟨x, W, by simpa using hx, hW', by simp, by simp⟩
    · exact .inl ⟨by simp, rfl⟩
  · rintro ⟨hr, X, T, F, hX, hT, hne, hF, h⟩
    have key : ∀ w c, (Re.opt (.grp 3 (.cat (.chr (fun c => !isDigit c)) (.star .dot)))).Rel
        (0 + (X ++ T).length + ('.' :: F).length) w ([] ++ rest) [(2, '.' :: F), (1, X ++ T)] c →
        fracRe.Rel 0 (X ++ T ++ ('.' :: F ++ w)) rest [] c := by
      intro w c hw
      exact ⟨X ++ T, '.' :: F ++ w, _, rfl, ⟨[], ⟨X, T, [], rfl, (e2 _ _ _ _ _).mpr ⟨hX, rfl⟩,
        (e1 _ _ _ _ _).mpr ⟨hT, rfl⟩⟩, rfl⟩, '.' :: F, w, _, rfl,
        ⟨_, (e3 _ _ _ _ _).mpr ⟨⟨F, hne, hF, rfl⟩, rfl⟩, rfl⟩, w, [], c, by simp, hw, [], [], c, rfl,
        ⟨rfl, hr, rfl⟩, rfl, rfl⟩
    rcases h with ⟨rfl, rfl⟩ | ⟨x, W, hx, hW, rfl, rfl⟩
    · simpa using key [] _ (.inr ⟨rfl, rfl⟩)
    · have := key (x :: W) _ (.inl ⟨_, ⟨[x], W, _, rfl, ⟨⟨x, rfl, by simpa using hx⟩, rfl⟩,
        (e2 _ _ _ _ _).mpr ⟨hW, rfl⟩⟩, rfl⟩)
      simpa using this

theorem chopFraction_noDot {s : Str} (h : '.' ∉ s) : chopFraction s = (s, 0) := by
  unfold chopFraction
  cases hm : fracRe.matchStart s with
  | none => rfl
  | some m =>
    exfalso
    obtain ⟨u, hu, -, hrel⟩ := matchStart_sound hm
    obtain ⟨-, X, T, F, -, -, -, -, h1 | ⟨x, W, -, -, h1, -⟩⟩ := fracRe_rel.mp hrel
    · apply h; rw [hu, h1.1]; simp
    · apply h; rw [hu, h1]; simp

theorem split_at_dot {c : Char} {a b a' b' : Str} (h : a ++ c :: b = a' ++ c :: b') (ha : c ∉ a)
    (hb : c ∉ b) : a = a' ∧ b = b' := by
  induction a generalizing a' with
  | nil =>
    cases a' with
    | nil => simpa using h
    | cons x t =>
      simp at h
      exfalso; apply hb; rw [h.2]; simp
  | cons x t ih =>
    cases a' with
    | nil => simp at h; exact absurd (by simp [h.1]) ha
    | cons y t' =>
      simp at h ha
      obtain ⟨h1, h2⟩ := ih h.2 ha.2
      exact ⟨by rw [h.1, h1], h2⟩

theorem digits_split {p : Char → Bool} {F F' t t' : Str} (h : F ++ t = F' ++ t') (hF : ∀ x ∈ F, p x = true)
    (hF' : ∀ x ∈ F', p x = true) (ht : ∀ x ∈ t.head?, p x = false) (ht' : ∀ x ∈ t'.head?, p x = false) :
    F = F' ∧ t = t' := by
  induction F generalizing F' with
  | nil =>
    cases F' with
    | nil => exact ⟨rfl, h⟩
    | cons y u =>
      simp at h
      subst h
      have := hF' y (by simp)
      have h2 := ht y (by simp)
      simp [this] at h2
  | cons x u ih =>
    cases F' with
    | nil =>
      simp at h
      subst h
      have := hF x (by simp)
      have h2 := ht' x (by simp)
      simp [this] at h2
    | cons y v =>
      simp at h
      obtain ⟨rfl, h⟩ := h
      obtain ⟨rfl, rfl⟩ := ih h (fun z hz => hF z (by simp [hz])) (fun z hz => hF' z (by simp [hz]))
      exact ⟨rfl, rfl⟩

/-- fraction removal on a datetime with a fraction and a zone -/
theorem chopFraction_frac {X T F Z nl : Str} {x : Char} (hX : '\n' ∉ X) (hXd : '.' ∉ X) (hT : Fits pT T)
    (hne : F ≠ []) (hF : ∀ c ∈ F, isDigit c = true) (hx : isDigit x = false) (hxd : x ≠ '.') (hxn : x ≠ '\n')
    (hZn : '\n' ∉ Z) (hZd : '.' ∉ Z) (hn : NL nl) :
    chopFraction (X ++ T ++ '.' :: F ++ x :: Z ++ nl) = (X ++ T ++ x :: Z, fracValue ('.' :: F)) := by
  have hTd : '.' ∉ T := by
    obtain ⟨a, b, c, d, e, f, rfl, ha, hb, hc, hd, he, hf⟩ := pT_iff.mp hT
    intro h
    simp at h
    have : isDigit '.' = false := by decide
    rcases h with rfl | rfl | rfl | rfl | rfl | rfl <;> simp_all
  have hFd : '.' ∉ F := fun h => by have := hF _ h; simp [isDigit] at this
  have hnd : '.' ∉ nl := by rcases hn with rfl | rfl <;> simp
  have hrel : fracRe.Rel 0 (X ++ T ++ '.' :: F ++ x :: Z) nl [] _ :=
    fracRe_rel.mpr ⟨hn, X, T, F, hX, hT, hne, hF, .inr ⟨x, Z, hx, hZn, rfl, rfl⟩⟩
  obtain ⟨st, hst⟩ := matchStart_complete rfl hrel
  obtain ⟨u, hu, -, hrel'⟩ := matchStart_sound hst
  obtain ⟨hr, X', T', F', hX', hT', hne', hF', h⟩ := fracRe_rel.mp hrel'
  unfold chopFraction
  rw [hst]
  have hdot : '.' ∉ F ++ x :: Z ++ nl := by
    simp only [List.mem_append, List.mem_cons, not_or]
    exact ⟨⟨hFd, fun e => hxd e.symm, hZd⟩, hnd⟩
  have hdot0 : '.' ∉ X ++ T := by simp only [List.mem_append, not_or]; exact ⟨hXd, hTd⟩
  rcases h with ⟨rfl, hc⟩ | ⟨x', W, hx', hW, rfl, hc⟩
  · exfalso
    have hu' : X ++ T ++ '.' :: (F ++ x :: Z ++ nl) = X' ++ T' ++ '.' :: (F' ++ st.rest) := by
      simpa using hu
    obtain ⟨h1, h2⟩ := split_at_dot hu' hdot0 hdot
    have h3 : F ++ (x :: Z ++ nl) = F' ++ st.rest := by simpa using h2
    obtain ⟨rfl, h4⟩ := digits_split h3 hF hF' (by simpa using hx) (by
      intro y hy
      rcases hr with hr | hr <;> rw [hr] at hy <;> simp at hy
      subst hy; decide)
    rcases hr with hr | hr <;> rw [hr] at h4 <;> simp at h4
    exact hxn h4.1
  · have hu' : X ++ T ++ '.' :: (F ++ x :: Z ++ nl) = X' ++ T' ++ '.' :: (F' ++ x' :: W ++ st.rest) := by
      simpa using hu
    obtain ⟨h1, h2⟩ := split_at_dot hu' hdot0 hdot
    have h3 : F ++ (x :: Z ++ nl) = F' ++ (x' :: W ++ st.rest) := by simpa using h2
    obtain ⟨rfl, h4⟩ := digits_split h3 hF hF' (by simpa using hx) (by simpa using hx')
    simp at h4
    obtain ⟨rfl, h5⟩ := h4
    have hZW : Z = W := by
      rcases hn with rfl | rfl <;> rcases hr with hr | hr <;> rw [hr] at h5
      · simpa using h5
      · exfalso; apply hZn; simp at h5; rw [h5]; simp
      · exfalso; apply hW; simp at h5; rw [← h5]; simp
      · simpa using h5
    subst hZW
    simp [MSt.group, hc, List.lookup, h1]

theorem isLeap_iff (y : Nat) : isLeap y = true ↔ leapYear y := by
  simp only [isLeap, leapYear, Bool.and_eq_true, Bool.or_eq_true, beq_iff_eq, bne_iff_ne]
  omega

theorem monthLength_eq {y m : Nat} (h1 : 1 ≤ m) (h2 : m ≤ 12) : monthLength y m = daysInMonth y m := by
  have hl := isLeap_iff y
  by_cases h : leapYear y
  · have h' := hl.mpr h
    interval_cases m <;> simp [monthLength, daysInMonth, h, h']
  · have h' : isLeap y = false := by
      cases hh : isLeap y
      · rfl
      · exact absurd (hl.mp hh) h
    interval_cases m <;> simp [monthLength, daysInMonth, h, h']

theorem daysInYears_eq (n : Nat) : daysInYears n = daysBeforeYear (n + 1) := by
  induction n with
  | zero => rfl
  | succ n ih =>
    rw [daysInYears, ih, daysBeforeYear_succ (n + 1) (by omega)]
    have hl := isLeap_iff (n + 1)
    by_cases h : leapYear (n + 1)
    · simp [h, hl.mpr h]
    · have h' : isLeap (n + 1) = false := by
        cases hh : isLeap (n + 1)
        · rfl
        · exact absurd (hl.mp hh) h
      simp [h, h']

theorem daysInMonths_eq (y : Nat) {m : Nat} (h1 : 1 ≤ m) (h2 : m ≤ 12) :
    daysInMonths y (m - 1) = daysBeforeMonth (isLeap y) m := by
  have hl := isLeap_iff y
  by_cases h : leapYear y
  · have h' := hl.mpr h
    interval_cases m <;> simp [daysInMonths, monthLength, daysBeforeMonth, daysBeforeMonth0, h, h']
  · have h' : isLeap y = false := by
      cases hh : isLeap y
      · rfl
      · exact absurd (hl.mp hh) h
    interval_cases m <;> simp [daysInMonths, monthLength, daysBeforeMonth, daysBeforeMonth0, h, h']

/-- the library's ordinal is the specification's day number (which starts at 0) -/
theorem ymd2ord_eq {y m d : Nat} (hy : 1 ≤ y) (h1 : 1 ≤ m) (h2 : m ≤ 12) (hd : 1 ≤ d) :
    ymd2ord y m d = dayNumber y m d + 1 := by
  have : y - 1 + 1 = y := by omega
  simp only [ymd2ord, dayNumber, daysInYears_eq, daysInMonths_eq y h1 h2, this]
  omega

theorem epoch_eq : (dayNumber 1970 1 1 : Nat) + 1 = epochOrd := by
  rw [← ymd2ord_eq (by decide) (by decide) (by decide) (by decide)]
  decide

/-- fields of YYYY-MM-DDThh:mm[:ss] by position -/
def civilOf (g : Str) : Civil :=
  { y := digitsVal (g.take 4), m := digitsVal ((g.drop 5).take 2), d := digitsVal ((g.drop 8).take 2)
    h := digitsVal ((g.drop 11).take 2), mi := digitsVal ((g.drop 14).take 2)
    s := digitsVal ((g.drop 17).take 2) }

theorem dt_valid_iff (t : DT) (hm : t.micro = 0) :
    t.valid = true ↔ Civil.Valid ⟨t.year, t.month, t.day, t.hour, t.minute, t.second⟩ := by
  simp only [DT.valid, Civil.Valid, Bool.and_eq_true, decide_eq_true_eq, hm]
  constructor
  · rintro ⟨⟨⟨⟨⟨⟨⟨⟨⟨h1, h2⟩, h3⟩, h4⟩, h5⟩, h6⟩, h7⟩, h8⟩, h9⟩, h10⟩
    rw [← monthLength_eq h3 h4] at h6
    exact ⟨h1, h2, h3, h4, h5, h6, h7, h8, h9⟩
  · rintro ⟨h1, h2, h3, h4, h5, h6, h7, h8, h9⟩
    rw [monthLength_eq h3 h4] at h6
    exact ⟨⟨⟨⟨⟨⟨⟨⟨⟨h1, h2⟩, h3⟩, h4⟩, h5⟩, h6⟩, h7⟩, h8⟩, h9⟩, by omega⟩

theorem timegm_eq (t : DT) (hy : 1 ≤ t.year) (h1 : 1 ≤ t.month) (h2 : t.month ≤ 12) (hd : 1 ≤ t.day) :
    t.timegm = utcSeconds ⟨t.year, t.month, t.day, t.hour, t.minute, t.second⟩ := by
  simp only [DT.timegm, utcSeconds, ymd2ord_eq hy h1 h2 hd]
  have := epoch_eq
  omega

theorem parseCivil_valid {g : Str} (h : (civilOf g).Valid) :
    ∃ dt, parseCivil g = some dt ∧ dt.timegm = utcSeconds (civilOf g) := by
  have h' := (dt_valid_iff ⟨(civilOf g).y, (civilOf g).m, (civilOf g).d, (civilOf g).h, (civilOf g).mi,
    (civilOf g).s, 0⟩ rfl).mpr h
  exact ⟨_, if_pos h', timegm_eq ⟨(civilOf g).y, (civilOf g).m, (civilOf g).d, (civilOf g).h,
    (civilOf g).mi, (civilOf g).s, 0⟩ h.1 h.2.2.1 h.2.2.2.1 h.2.2.2.2.1⟩

theorem parseCivil_invalid {g : Str} (h : ¬ (civilOf g).Valid) : parseCivil g = none := by
  have h' := (dt_valid_iff ⟨(civilOf g).y, (civilOf g).m, (civilOf g).d, (civilOf g).h, (civilOf g).mi,
    (civilOf g).s, 0⟩ rfl).not.mpr h
  exact if_neg h'

open Classical in
theorem parseCivil_map {α : Type} (g : Str) (f : Int → Option α) :
    (parseCivil g).bind (fun dt => f dt.timegm) =
      if (civilOf g).Valid then f (utcSeconds (civilOf g)) else none := by
  by_cases h : (civilOf g).Valid
  · obtain ⟨dt, h1, h2⟩ := parseCivil_valid h
    rw [h1, if_pos h, ← h2]; rfl
  · rw [parseCivil_invalid h, if_neg h]; rfl

theorem digitsVal_two (a b : Char) : digitsVal [a, b] = 10 * digitVal a + digitVal b := by
  simp [digitsVal]

theorem twoDigits_of_fits {M : Str} (h : Fits pDD M) : TwoDigits M (digitsVal M) := by
  obtain ⟨a, b, rfl, ha, hb⟩ := dd_iff.mp h
  exact ⟨a, b, rfl, ha, hb, digitsVal_two a b⟩

theorem twoDigits_fits {M : Str} {v : Nat} (h : TwoDigits M v) : Fits pDD M ∧ v = digitsVal M := by
  obtain ⟨a, b, rfl, ha, hb, rfl⟩ := h
  exact ⟨dd_iff.mpr ⟨a, b, rfl, ha, hb⟩, (digitsVal_two a b).symm⟩

theorem fourDigits_of_fits {Y : Str} (h : Fits pY Y) : FourDigits Y (digitsVal Y) := by
  obtain ⟨a, b, c, d, rfl, ha, hb, hc, hd⟩ := fitsY_iff.mp h
  exact ⟨a, b, c, d, rfl, ha, hb, hc, hd, by simp [digitsVal]; omega⟩

theorem fourDigits_fits {Y : Str} {v : Nat} (h : FourDigits Y v) : Fits pY Y ∧ v = digitsVal Y := by
  obtain ⟨a, b, c, d, rfl, ha, hb, hc, hd, rfl⟩ := h
  exact ⟨fitsY_iff.mpr ⟨a, b, c, d, rfl, ha, hb, hc, hd⟩, by simp [digitsVal]; omega⟩

/-- `parseFull` accepts exactly the fraction-free forms, with an optional final newline -/
theorem parseFull_iff (w : Str) (fs q : Rat) : parseFull w fs = some q ↔
    ∃ A S Z nl off, Fits pA A ∧ SecTxt S ∧ ZoneForm Z off ∧ NL nl ∧ w = A ++ S ++ Z ++ nl ∧
      (civilOf (A ++ S)).Valid ∧ q = (utcSeconds (civilOf (A ++ S)) : Rat) + (off : Rat) + fs := by
  classical
  constructor
  · intro h
    obtain ⟨A, S, nl, hA, hS, hn, rfl | ⟨sg, H, M, hsg, hH, hM, rfl⟩⟩ := parseFull_shape h
    · rw [parseFull_Z hA hS hn, Option.map_eq_bind] at h
      have := parseCivil_map (A ++ S) (fun t => some ((t : Rat) + (0 : Int) + fs))
      simp only [Function.comp_def] at h
      rw [this] at h
      split at h
      · rename_i hv
        simp only [Option.some.injEq] at h
        exact ⟨A, S, ['Z'], nl, 0, hA, hS, .z, hn, rfl, hv, h.symm⟩
      · simp at h
    · rw [parseFull_off hA hS hsg hH hM hn] at h
      have := parseCivil_map (A ++ S) (fun t => if digitsVal H > 23 ∨ digitsVal M > 59 then none
        else some ((t : Rat) +
          ((if sg = '-' then -(digitsVal H * 3600 + digitsVal M * 60) else
            (digitsVal H * 3600 + digitsVal M * 60) : Int) : Rat) + fs))
      rw [this] at h
      split at h
      · rename_i hv
        split at h
        · simp at h
        · rename_i hr
          have hr1 : digitsVal H ≤ 23 := by omega
          have hr2 : digitsVal M ≤ 59 := by omega
          simp only [Option.some.injEq] at h
          rcases hsg with rfl | rfl
          · exact ⟨A, S, _, nl, _, hA, hS, .plus (twoDigits_of_fits hH) (twoDigits_of_fits hM) hr1 hr2, hn, rfl,
              hv, by simpa using h.symm⟩
          · exact ⟨A, S, _, nl, _, hA, hS, .minus (twoDigits_of_fits hH) (twoDigits_of_fits hM) hr1 hr2, hn, rfl,
              hv, by simpa using h.symm⟩
      · simp at h
  · rintro ⟨A, S, Z, nl, off, hA, hS, hZ, hn, rfl, hv, rfl⟩
    cases hZ with
    | z =>
      rw [parseFull_Z hA hS hn, Option.map_eq_bind]
      have := parseCivil_map (A ++ S) (fun t => some ((t : Rat) + (0 : Int) + fs))
      simp only [Function.comp_def]
      rw [this, if_pos hv]
    | plus hH hM h1 h2 =>
      rename_i H M _ _
      obtain ⟨hH', rfl⟩ := twoDigits_fits hH
      obtain ⟨hM', rfl⟩ := twoDigits_fits hM
      rw [parseFull_off hA hS (.inl rfl) hH' hM' hn]
      have := parseCivil_map (A ++ S) (fun t => if digitsVal H > 23 ∨ digitsVal M > 59 then none
        else some ((t : Rat) +
          ((if '+' = '-' then -(digitsVal H * 3600 + digitsVal M * 60) else
            (digitsVal H * 3600 + digitsVal M * 60) : Int) : Rat) + fs))
      rw [this, if_pos hv, if_neg (by omega)]
      simp
    | minus hH hM h1 h2 =>
      rename_i H M _ _
      obtain ⟨hH', rfl⟩ := twoDigits_fits hH
      obtain ⟨hM', rfl⟩ := twoDigits_fits hM
      rw [parseFull_off hA hS (.inr rfl) hH' hM' hn]
      have := parseCivil_map (A ++ S) (fun t => if digitsVal H > 23 ∨ digitsVal M > 59 then none
        else some ((t : Rat) +
          ((if '-' = '-' then -(digitsVal H * 3600 + digitsVal M * 60) else
            (digitsVal H * 3600 + digitsVal M * 60) : Int) : Rat) + fs))
      rw [this, if_pos hv, if_neg (by omega)]
      simp

theorem zoneForm_explicit {Z : Str} {off : Int} (h : ZoneForm Z off) : Z = ['Z'] ∨
    ∃ sg a b c d, (sg = '+' ∨ sg = '-') ∧ isDigit a = true ∧ isDigit b = true ∧ isDigit c = true ∧
      isDigit d = true ∧ Z = [sg, a, b, ':', c, d] := by
  cases h with
  | z => exact .inl rfl
  | plus hH hM h1 h2 =>
    obtain ⟨a, b, rfl, ha, hb, _⟩ := hH
    obtain ⟨c, d, rfl, hc, hd, _⟩ := hM
    exact .inr ⟨'+', a, b, c, d, .inl rfl, ha, hb, hc, hd, rfl⟩
  | minus hH hM h1 h2 =>
    obtain ⟨a, b, rfl, ha, hb, _⟩ := hH
    obtain ⟨c, d, rfl, hc, hd, _⟩ := hM
    exact .inr ⟨'-', a, b, c, d, .inr rfl, ha, hb, hc, hd, rfl⟩

/-- hh:mm:ss occurs in a fraction-free form only as its own time of day -/
theorem time_position {X T R A S Z nl : Str} {off : Int} (hT : Fits pT T) (hA : Fits pA A) (hS : SecTxt S)
    (hZ : ZoneForm Z off) (hn : NL nl) (h : X ++ T ++ R = A ++ S ++ Z ++ nl) :
    S ≠ [] ∧ X ++ T = A ++ S ∧ R = Z ++ nl := by
  obtain ⟨t1, t2, t3, t4, t5, t6, rfl, ht1, ht2, ht3, ht4, ht5, ht6⟩ := pT_iff.mp hT
  have hlen := congrArg List.length h
  simp only [List.length_append] at hlen
  have hdrop : [t1, t2, ':', t3, t4, ':', t5, t6] ++ R = List.drop X.length (A ++ S ++ Z ++ nl) := by
    rw [← h]; simp
  have key : X.length = 11 ∧ S ≠ [] := by
    generalize X.length = i at hdrop hlen
    obtain ⟨y1, y2, y3, y4, m1, m2, d1, d2, h1, h2, i1, i2, rfl, a1, a2, a3, a4, a5, a6, a7, a8, a9, a10,
      a11, a12⟩ := pA_iff.mp hA
    have hc := notDigit_colon
    have hdash : isDigit '-' = false := by decide
    have htee : isDigit 'T' = false := by decide
    rcases hS.cases with rfl | ⟨a, b, rfl, ha, hb⟩ <;>
    rcases zoneForm_explicit hZ with rfl | ⟨sg, z1, z2, z3, z4, hsg, hz1, hz2, hz3, hz4, rfl⟩ <;>
    rcases hn with rfl | rfl <;> clear h hA hT hS hZ <;>
    · have hi : i ≤ 25 := by simp at hlen; omega
      clear hlen
      interval_cases i <;> simp at hdrop <;> (try simp) <;>
        (exfalso; obtain ⟨h1, h2, h3, h4, h5, h6, h7⟩ := hdrop; first | (rcases hsg with rfl | rfl <;> simp_all) | (subst h3; simp_all))
  have hAl : A.length = 16 := by rw [← hA.length_eq]; rfl
  have hSl : S.length = 3 := by
    rcases hS.cases with rfl | ⟨a, b, rfl, ha, hb⟩
    · exact absurd rfl key.2
    · rfl
  refine ⟨key.2, ?_⟩
  rw [List.append_assoc (A ++ S)] at h
  exact List.append_inj h (by simp [key.1, hAl, hSl])

end Resync
