import Verif.Spec.CommandLine
import Verif.Proofs.Dict
import Mathlib.Tactic.Push
/-
Lemmas about command lines (C110).
-/

namespace Resync
open Py Resync.Spec

/-! ### the actions of a run -/

/-- a list of actions changes the namespace and the modes seen -/
inductive Ran (p : ParserDef) (cv : Convert) : Dict ArgVal × List Str → List (OptDef × Option Str) → Dict ArgVal × List Str → Prop
  | nil (x) : Ran p cv x [] x
  | cons {ns : Dict ArgVal} {seen : List Str} {a : OptDef × Option Str} {v : ArgVal} {as y} :
      a.1.value cv ns a.2 = .ok v → ¬ (a.1.dest ∈ p.modes ∧ ∃ m ∈ seen, m ≠ a.1.dest) →
      Ran p cv (dset ns a.1.dest v, if a.1.dest ∈ p.modes then a.1.dest :: seen else seen) as y →
      Ran p cv (ns, seen) (a :: as) y

theorem ran_append {p : ParserDef} {cv : Convert} {x y z as bs} (h : Ran p cv x as y) (h' : Ran p cv y bs z) :
    Ran p cv x (as ++ bs) z := by
  induction h with
  | nil => exact h'
  | cons hv hm _ ih => exact .cons hv hm (ih h')

theorem ran_split {p : ParserDef} {cv : Convert} {x z as bs} (h : Ran p cv x (as ++ bs) z) :
    ∃ y, Ran p cv x as y ∧ Ran p cv y bs z := by
  induction as generalizing x with
  | nil => exact ⟨x, .nil x, h⟩
  | cons a as ih =>
    cases h with
    | cons hv hm h =>
      obtain ⟨y, h1, h2⟩ := ih h
      exact ⟨y, .cons hv hm h1, h2⟩

theorem fold_ran {p : ParserDef} {cv : Convert} {as : List (OptDef × Option Str)} {s s' : ArgSt}
    (h : as.foldlM (p.act cv) s = .ok s') :
    Ran p cv (s.ns, s.seen) as (s'.ns, s'.seen) ∧ s'.map = s.map ∧ s'.closed = s.closed ∧ s'.extras = s.extras := by
  induction as generalizing s with
  | nil =>
    cases h
    exact ⟨.nil _, rfl, rfl, rfl⟩
  | cons a as ih =>
    rw [List.foldlM_cons] at h
    unfold ParserDef.act at h
    cases hv : a.1.value cv s.ns a.2 with
    | error e => rw [hv] at h; cases h
    | ok v =>
      rw [hv] at h
      dsimp only at h
      by_cases hm : a.1.dest ∈ p.modes ∧ ∃ m ∈ s.seen, m ≠ a.1.dest
      · rw [if_pos hm] at h; cases h
      · rw [if_neg hm] at h
        obtain ⟨h1, h2, h3, h4⟩ := ih (s := { s with ns := dset s.ns a.1.dest v, seen := if a.1.dest ∈ p.modes then a.1.dest :: s.seen else s.seen }) h
        exact ⟨.cons hv hm h1, h2, h3, h4⟩

theorem ran_fold {p : ParserDef} {cv : Convert} {as : List (OptDef × Option Str)} {x y : Dict ArgVal × List Str}
    (h : Ran p cv x as y) (s : ArgSt) (hs : (s.ns, s.seen) = x) :
    as.foldlM (p.act cv) s = .ok { s with ns := y.1, seen := y.2 } := by
  induction h generalizing s with
  | nil x => subst hs; rfl
  | @cons ns seen a v as y hv hm h ih =>
    cases hs
    rw [List.foldlM_cons]
    have : p.act cv s a = .ok { s with ns := dset s.ns a.1.dest v, seen := if a.1.dest ∈ p.modes then a.1.dest :: s.seen else s.seen } := by
      unfold ParserDef.act
      rw [hv]
      dsimp only
      rw [if_neg hm]
    rw [this]
    exact ih _ rfl

theorem ran_key {p : ParserDef} {cv : Convert} {x y as} (h : Ran p cv x as y) {d : Str} (hd : dget y.1 d ≠ none) :
    dget x.1 d ≠ none ∨ ∃ a ∈ as, a.1.dest = d := by
  induction h with
  | nil => exact .inl hd
  | @cons ns seen a v as y hv hm h ih =>
    rcases ih hd with h' | ⟨b, hb, e⟩
    · by_cases e : a.1.dest = d
      · exact .inr ⟨a, List.mem_cons_self, e⟩
      · rw [dget_dset_ne _ _ e] at h'
        exact .inl h'
    · exact .inr ⟨b, List.mem_cons_of_mem _ hb, e⟩

theorem ran_keeps {p : ParserDef} {cv : Convert} {x y as} (h : Ran p cv x as y) {d : Str} (hd : dget x.1 d ≠ none) : dget y.1 d ≠ none := by
  induction h with
  | nil => exact hd
  | @cons ns seen a v as y hv hm h ih =>
    apply ih
    rw [dget_dset]
    split <;> simp_all

theorem ran_sets {p : ParserDef} {cv : Convert} {x y as} (h : Ran p cv x as y) {a : OptDef × Option Str} (ha : a ∈ as) :
    dget y.1 a.1.dest ≠ none := by
  induction h with
  | nil => cases ha
  | @cons ns seen b v as y hv hm h ih =>
    rcases List.mem_cons.mp ha with e | ha'
    · subst e
      exact ran_keeps h (by simp [dget_dset_self])
    · exact ih ha'

theorem ran_acceptable {p : ParserDef} {cv : Convert} {x y as} (h : Ran p cv x as y) : ∀ a ∈ as, Acceptable cv a := by
  induction h with
  | nil => simp
  | @cons ns seen b v as y hv hm h ih =>
    intro a ha
    rcases List.mem_cons.mp ha with e | ha'
    · subst e
      unfold Acceptable
      unfold OptDef.value at hv
      cases hk : a.1.kind <;> rw [hk] at hv <;> dsimp only at hv ⊢
      · intro e; rw [e] at hv; cases hv
      · intro e; rw [e] at hv; cases hv
      · split at hv
        · assumption
        · cases hv
      · cases hv
    · exact ih a ha'

/-- the modes seen are one mode -/
theorem ran_seen {p : ParserDef} {cv : Convert} {x y as} (h : Ran p cv x as y)
    (hx : ∀ m ∈ x.2, m ∈ p.modes ∧ dget x.1 m ≠ none ∧ ∀ m' ∈ x.2, m = m') :
    (∀ m ∈ y.2, m ∈ p.modes ∧ dget y.1 m ≠ none ∧ ∀ m' ∈ y.2, m = m') ∧ (∀ a ∈ as, a.1.dest ∈ p.modes → a.1.dest ∈ y.2) ∧
    ∀ m ∈ x.2, m ∈ y.2 := by
  induction h with
  | nil => exact ⟨hx, by simp, fun m hm => hm⟩
  | @cons ns seen a v as y hv hm h ih =>
    by_cases hmode : a.1.dest ∈ p.modes
    · have hall : ∀ m ∈ seen, m = a.1.dest := by
        intro m hms
        by_contra hne
        exact hm ⟨hmode, m, hms, hne⟩
      rw [if_pos hmode] at ih h
      obtain ⟨h1, h2, h3⟩ := ih (by
        intro m hmem
        have : m = a.1.dest := by
          rcases List.mem_cons.mp hmem with e | e
          · exact e
          · exact hall m e
        subst this
        refine ⟨hmode, by simp [dget_dset_self], ?_⟩
        intro m' hm'
        rcases List.mem_cons.mp hm' with e | e
        · exact e.symm
        · exact (hall m' e).symm)
      refine ⟨h1, ?_, fun m hmm => h3 m (List.mem_cons_of_mem _ hmm)⟩
      intro b hb hbm
      rcases List.mem_cons.mp hb with e | hb'
      · subst e
        exact h3 _ List.mem_cons_self
      · exact h2 b hb' hbm
    · rw [if_neg hmode] at ih h
      obtain ⟨h1, h2, h3⟩ := ih (by
        intro m hmem
        obtain ⟨k1, k2, k3⟩ := hx m hmem
        refine ⟨k1, ?_, k3⟩
        rw [dget_dset]
        split
        · simp
        · exact k2)
      refine ⟨h1, ?_, h3⟩
      intro b hb hbm
      rcases List.mem_cons.mp hb with e | hb'
      · subst e
        exact absurd hbm hmode
      · exact h2 b hb' hbm

theorem valuesOf_append (o : OptDef) (as bs : List (OptDef × Option Str)) : valuesOf o (as ++ bs) = valuesOf o as ++ valuesOf o bs := by
  simp [valuesOf]

/-- the namespace holds what was given -/
theorem ran_setting {p : ParserDef} {cv : Convert} (hp : ParserOk p) {x y as} (h : Ran p cv x as y) (d : List (OptDef × Option Str))
    (hd : ∀ a ∈ as, a.1 ∈ p.opts) (hx : ∀ o ∈ p.opts, dget x.1 o.dest = setting cv o (valuesOf o d)) :
    ∀ o ∈ p.opts, dget y.1 o.dest = setting cv o (valuesOf o (d ++ as)) := by
  induction h generalizing d with
  | nil => simpa using hx
  | @cons ns seen a v as y hv hm h ih =>
    have := ih (d ++ [a]) (fun b hb => hd b (List.mem_cons_of_mem _ hb)) ?_
    · simpa using this
    · intro o ho
      have ha := hd a List.mem_cons_self
      rw [dget_dset, valuesOf_append]
      by_cases e : a.1 = o
      · subst e
        rw [if_pos rfl]
        have hvs : valuesOf a.1 [a] = [a.2.getD []] := by simp [valuesOf]
        rw [hvs]
        have hx' := hx a.1 ho
        have hlast : (valuesOf a.1 d ++ [a.2.getD []]).getLast? = some (a.2.getD []) := by simp
        unfold setting
        rw [hlast]
        dsimp only
        unfold OptDef.value at hv
        cases hk : a.1.kind with
        | flag => rw [hk] at hv; dsimp only at hv ⊢; cases hv; rfl
        | store => rw [hk] at hv; dsimp only at hv ⊢; cases hv; rfl
        | help => rw [hk] at hv; dsimp only at hv; cases hv
        | int =>
          rw [hk] at hv; dsimp only at hv ⊢
          cases hc : cv.int (a.2.getD []) with
          | none => rw [hc] at hv; cases hv
          | some n => rw [hc] at hv; cases hv; rfl
        | float =>
          rw [hk] at hv; dsimp only at hv ⊢
          cases hc : cv.float (a.2.getD []) with
          | none => rw [hc] at hv; cases hv
          | some n => rw [hc] at hv; cases hv; rfl
        | choice cs =>
          rw [hk] at hv; dsimp only at hv ⊢
          split at hv
          · cases hv; rfl
          · cases hv
        | append =>
          rw [hk] at hv; dsimp only at hv ⊢
          have hx'' : dget ns a.1.dest = setting cv a.1 (valuesOf a.1 d) := hx'
          unfold setting at hx''
          rw [hk] at hx''
          cases hl : (valuesOf a.1 d).getLast? with
          | none =>
            rw [hl] at hx''
            dsimp only at hx''
            rw [hx''] at hv
            cases hv
            rw [List.getLast?_eq_none_iff] at hl
            rw [hl]
            rfl
          | some w =>
            rw [hl] at hx''
            dsimp only at hx''
            rw [hx''] at hv
            cases hv
            rfl
      · have hvs : valuesOf o [a] = [] := by simp [valuesOf, e]
        rw [hvs, List.append_nil, if_neg (fun hd => e (hp.dests a.1 ha o ho hd))]
        exact hx o ho

theorem ran_exists {p : ParserDef} {cv : Convert} {m : Str} {as : List (OptDef × Option Str)} (ha : ∀ a ∈ as, Acceptable cv a)
    (hm : ∀ a ∈ as, a.1.dest ∈ p.modes → a.1.dest = m) (x : Dict ArgVal × List Str) (hx : ∀ s ∈ x.2, s = m) :
    ∃ y, Ran p cv x as y ∧ ∀ s ∈ y.2, s = m := by
  induction as generalizing x with
  | nil => exact ⟨x, .nil x, hx⟩
  | cons a as ih =>
    obtain ⟨ns, seen⟩ := x
    have hacc := ha a List.mem_cons_self
    have hv : ∃ v, a.1.value cv ns a.2 = .ok v := by
      unfold Acceptable at hacc
      unfold OptDef.value
      cases hk : a.1.kind <;> rw [hk] at hacc <;> dsimp only at hacc ⊢
      · exact ⟨_, rfl⟩
      · exact ⟨_, rfl⟩
      · cases hc : cv.int (a.2.getD []) with
        | none => exact absurd hc hacc
        | some n => exact ⟨_, rfl⟩
      · cases hc : cv.float (a.2.getD []) with
        | none => exact absurd hc hacc
        | some n => exact ⟨_, rfl⟩
      · rw [if_pos hacc]; exact ⟨_, rfl⟩
      · split <;> exact ⟨_, rfl⟩
    obtain ⟨v, hv⟩ := hv
    have hnot : ¬ (a.1.dest ∈ p.modes ∧ ∃ m ∈ seen, m ≠ a.1.dest) := by
      rintro ⟨h1, s, hs, hne⟩
      exact hne ((hx s hs).trans (hm a List.mem_cons_self h1).symm)
    obtain ⟨y, h, hy⟩ := ih (fun b hb => ha b (List.mem_cons_of_mem _ hb)) (fun b hb => hm b (List.mem_cons_of_mem _ hb))
      (dset ns a.1.dest v, if a.1.dest ∈ p.modes then a.1.dest :: seen else seen) (by
        intro s hs
        dsimp only at hs
        split at hs
        · rename_i hmode
          rcases List.mem_cons.mp hs with e | e
          · rw [e]; exact hm a List.mem_cons_self hmode
          · exact hx s e
        · exact hx s hs)
    exact ⟨y, .cons hv hnot h, hy⟩

/-! ### the second loop -/

theorem loop_acts {p : ParserDef} {cv : Convert} {n : Nat} {toks : List (Str × Tok)} (hn : toks.length ≤ n) {s s' : ArgSt}
    (h : p.loop cv toks s = .ok s') :
    ∃ acts, Ran p cv (s.ns, s.seen) acts (s'.ns, s'.seen) ∧
      (∀ a ∈ acts, ∃ w o str eq ex nx t, (w, Tok.opt (some o) str eq ex) ∈ toks ∧ p.take nx o str eq ex = .ok t ∧ a ∈ t.acts) ∧
      (∀ pre w o str eq ex post, toks = pre ++ (w, Tok.opt (some o) str eq ex) :: post → ∃ t, p.take (nextArg post) o str eq ex = .ok t ∧
        (∀ a ∈ t.acts, a ∈ acts) ∧ (t.extras ≠ [] → s'.extras ≠ [])) ∧
      (s.extras ≠ [] → s'.extras ≠ []) ∧ (∀ w str eq ex, (w, Tok.opt none str eq ex) ∈ toks → s'.extras ≠ []) := by
  induction n generalizing toks s with
  | zero =>
    have : toks = [] := List.eq_nil_of_length_eq_zero (by omega)
    subst this
    unfold ParserDef.loop at h
    cases h
    exact ⟨[], .nil _, by simp, by simp, fun h => h, by simp⟩
  | succ n ih =>
    cases toks with
    | nil =>
      unfold ParserDef.loop at h
      cases h
      exact ⟨[], .nil _, by simp, by simp, fun h => h, by simp⟩
    | cons x rest =>
      obtain ⟨a, t⟩ := x
      have hl : rest.length ≤ n := by simpa using hn
      cases t with
      | arg =>
        unfold ParserDef.loop at h
        obtain ⟨acts, h1, h2, h3, h4, h5⟩ := ih hl h
        refine ⟨acts, ?_, ?_, ?_, ?_, ?_⟩
        · by_cases hc : s.closed <;> simpa [hc] using h1
        · intro b hb
          obtain ⟨w, o, str, eq, ex, nx, t, hw, ht⟩ := h2 b hb
          exact ⟨w, o, str, eq, ex, nx, t, List.mem_cons_of_mem _ hw, ht⟩
        · intro pre w o str eq ex post hw
          cases pre with
          | nil => simp at hw
          | cons y pre => exact h3 pre w o str eq ex post (List.cons.inj hw).2
        · intro he
          apply h4
          by_cases hc : s.closed <;> simp [hc, he]
        · intro w str eq ex hw
          exact h5 w str eq ex (by simpa using hw)
      | dash =>
        unfold ParserDef.loop at h
        obtain ⟨acts, h1, h2, h3, h4, h5⟩ := ih hl h
        refine ⟨acts, ?_, ?_, ?_, ?_, ?_⟩
        · by_cases hc : s.closed <;> simpa [hc] using h1
        · intro b hb
          obtain ⟨w, o, str, eq, ex, nx, t, hw, ht⟩ := h2 b hb
          exact ⟨w, o, str, eq, ex, nx, t, List.mem_cons_of_mem _ hw, ht⟩
        · intro pre w o str eq ex post hw
          cases pre with
          | nil => simp at hw
          | cons y pre => exact h3 pre w o str eq ex post (List.cons.inj hw).2
        · intro he
          apply h4
          by_cases hc : s.closed <;> simp [hc, he]
        · intro w str eq ex hw
          exact h5 w str eq ex (by simpa using hw)
      | opt o str eq ex =>
        unfold ParserDef.loop at h
        dsimp only at h
        cases o with
        | none =>
          dsimp only at h
          obtain ⟨acts, h1, h2, h3, h4, h5⟩ := ih hl h
          refine ⟨acts, ?_, ?_, ?_, ?_, ?_⟩
          · by_cases hc : s.map = [] <;> simpa [hc] using h1
          · intro b hb
            obtain ⟨w, o, str, eq, ex, nx, t, hw, ht⟩ := h2 b hb
            exact ⟨w, o, str, eq, ex, nx, t, List.mem_cons_of_mem _ hw, ht⟩
          · intro pre w o str eq ex post hw
            cases pre with
            | nil => simp at hw
            | cons y pre => exact h3 pre w o str eq ex post (List.cons.inj hw).2
          · intro _
            exact h4 (by simp)
          · intro w str eq ex hw
            exact h4 (by simp)
        | some o =>
          dsimp only at h
          cases ht : p.take (nextArg rest) o str eq ex with
          | error e => rw [ht] at h; cases h
          | ok t =>
            rw [ht] at h
            dsimp only at h
            have hs1 : ∃ s1 : ArgSt, s1 = { (if s.map = [] then s else { s with closed := true } : ArgSt) with
                extras := (if s.map = [] then s else { s with closed := true } : ArgSt).extras ++ t.extras } ∧ s1.ns = s.ns ∧
                s1.seen = s.seen ∧ (s.extras ≠ [] → s1.extras ≠ []) := by
              refine ⟨_, rfl, ?_⟩
              by_cases hc : s.map = []
              · simp only [if_pos hc, true_and]
                simp +contextual
              · simp only [if_neg hc, true_and]
                simp +contextual
            obtain ⟨s1, e1, hns, hseen, hext⟩ := hs1
            rw [← e1] at h
            cases hf : t.acts.foldlM (p.act cv) s1 with
            | error e => rw [hf] at h; cases h
            | ok s2 =>
              rw [hf] at h
              dsimp only at h
              obtain ⟨k1, k2, k3, k4⟩ := fold_ran hf
              rw [hns, hseen] at k1
              have key : ∃ rest', (∀ x ∈ rest', x ∈ rest) ∧ (∀ w o str eq ex, (w, Tok.opt o str eq ex) ∈ rest → (w, Tok.opt o str eq ex) ∈ rest') ∧
                  (∀ pre w o str eq ex post, rest = pre ++ (w, Tok.opt o str eq ex) :: post → ∃ pre', rest' = pre' ++ (w, Tok.opt o str eq ex) :: post) ∧
                  rest'.length ≤ n ∧ p.loop cv rest' s2 = .ok s' := by
                cases rest with
                | nil => exact ⟨[], by simp, by simp, by simp, by simp, by unfold ParserDef.loop; exact h⟩
                | cons x r =>
                  dsimp only at h
                  by_cases hnx : t.next = true
                  · rw [if_pos hnx] at h
                    have hnot : ∀ w o' str' eq' ex', x = (w, Tok.opt o' str' eq' ex') → False := by
                      intro w o' str' eq' ex' e
                      subst e
                      -- the next argument is used only if it is one
                      have : nextArg ((w, Tok.opt o' str' eq' ex') :: r) = none := rfl
                      rw [this] at ht
                      have hno : ∀ (o : OptDef) (v : Str) (t : Taken), takeEq o v = .ok t → t.next = false := by
                        intro o v t h; unfold takeEq at h; split at h
                        · cases h; rfl
                        · cases h
                      have hnx0 : ∀ (o : OptDef) (t : Taken), takeNext o none = .ok t → t.next = false := by
                        intro o t h; unfold takeNext at h; split at h
                        · cases h
                        · cases h; rfl
                      have hlet : ∀ (v : Str) (o : OptDef) (t : Taken), p.takeLetters none o v = .ok t → t.next = false := by
                        intro v
                        induction v with
                        | nil => intro o t h; unfold ParserDef.takeLetters at h; exact hno _ _ _ h
                        | cons c v ihv =>
                          intro o t h
                          unfold ParserDef.takeLetters at h
                          split at h
                          · cases h; rfl
                          · split at h
                            · cases h
                            · cases hfd : p.find ['-', c] with
                              | none => rw [hfd] at h; cases h; rfl
                              | some o' =>
                                rw [hfd] at h
                                dsimp only at h
                                split at h
                                · cases h
                                · rename_i r hr
                                  cases h
                                  dsimp only
                                  split at hr
                                  · exact hnx0 _ _ hr
                                  · exact hno _ _ _ hr
                                  · exact ihv _ _ hr
                      unfold ParserDef.take at ht
                      split at ht
                      · rw [hnx0 _ _ ht] at hnx; cases hnx
                      · split at ht
                        · rw [hno _ _ _ ht] at hnx; cases hnx
                        · rw [hlet _ _ _ ht] at hnx; cases hnx
                    refine ⟨r, fun x hx => List.mem_cons_of_mem _ hx, ?_, ?_, by simp at hl; omega, h⟩
                    · intro w o' str' eq' ex' hw
                      rcases List.mem_cons.mp hw with e | hw'
                      · exact (hnot _ _ _ _ _ e.symm).elim
                      · exact hw'
                    · intro pre w o' str' eq' ex' post e
                      cases pre with
                      | nil => exact (hnot _ _ _ _ _ (List.cons.inj e).1).elim
                      | cons y pre => exact ⟨pre, (List.cons.inj e).2⟩
                  · rw [if_neg hnx] at h
                    exact ⟨x :: r, fun x hx => hx, fun _ _ _ _ _ hw => hw, fun pre _ _ _ _ _ _ e => ⟨pre, e⟩, hl, h⟩
              obtain ⟨rest', hsub, hopt, hdec, hlen, hloop⟩ := key
              obtain ⟨acts, h1, h2, h3, h4, h5⟩ := ih hlen hloop
              refine ⟨t.acts ++ acts, ran_append k1 h1, ?_, ?_, ?_, ?_⟩
              · intro b hb
                rcases List.mem_append.mp hb with hb | hb
                · exact ⟨a, o, str, eq, ex, _, t, List.mem_cons_self, ht, hb⟩
                · obtain ⟨w, o, str, eq, ex, nx, t, hw, ht⟩ := h2 b hb
                  exact ⟨w, o, str, eq, ex, nx, t, List.mem_cons_of_mem _ (hsub _ hw), ht⟩
              · intro pre w o' str' eq' ex' post hw
                cases pre with
                | nil =>
                  obtain ⟨e1', e2'⟩ := List.cons.inj hw
                  cases e1'
                  subst e2'
                  refine ⟨t, ht, fun a ha => List.mem_append_left _ ha, ?_⟩
                  intro hne
                  apply h4
                  rw [k4, e1]
                  simp [hne]
                | cons y pre =>
                  obtain ⟨pre', e⟩ := hdec pre _ _ _ _ _ _ (List.cons.inj hw).2
                  obtain ⟨t', ht', hsub', hx'⟩ := h3 pre' w o' str' eq' ex' post e
                  exact ⟨t', ht', fun a ha => List.mem_append_right _ (hsub' a ha), hx'⟩
              · intro he
                apply h4
                rw [k4]
                exact hext he
              · intro w str' eq' ex' hw
                rcases List.mem_cons.mp hw with e | hw'
                · cases e
                · exact h5 w str' eq' ex' (hopt _ _ _ _ _ hw')

end Resync
