import Verif.Spec.Explorer
import Verif.Proofs.Dict
import Verif.Proofs.Num
import Mathlib.Tactic.Linarith
/-
Lemmas about the explorer's loops.
-/

namespace Resync
open Py Resync.Spec

theorem ask_length {o : Dict Resource} {inputs : List Str} {a : Answer} {rest : List Str}
    (h : ask o inputs = some (a, rest)) : rest.length < inputs.length := by
  induction inputs with
  | nil => simp [ask] at h
  | cons x t ih =>
    rw [ask] at h
    cases hg : dget o x with
    | some r =>
      rw [hg] at h
      simp only [Option.some.injEq, Prod.mk.injEq] at h
      rw [← h.2]; simp
    | none =>
      rw [hg] at h
      dsimp only at h
      split at h
      · simp only [Option.some.injEq, Prod.mk.injEq] at h
        rw [← h.2]; simp
      · split at h
        · simp only [Option.some.injEq, Prod.mk.injEq] at h
          rw [← h.2]; simp
        · have := ih h
          simp only [List.length_cons]; omega

/-- The cases of explore_uri -/
theorem exploreUri_cases (w : ExpWorld) (n : Nat) (xr : XResource) (sb : Bool) (inputs : List Str) :
    (ask (display w n xr).options inputs = none ∧
      exploreUri w n xr sb inputs = (⟨xr, sb, display w n xr, none⟩, .stop .eof)) ∨
    (∃ rest, ask (display w n xr).options inputs = some (.quit, rest) ∧
      exploreUri w n xr sb inputs = (⟨xr, sb, display w n xr, some .quit⟩, .stop .quit)) ∨
    (∃ rest, ask (display w n xr).options inputs = some (.back, rest) ∧
      exploreUri w n xr sb inputs = (⟨xr, sb, display w n xr, some .back⟩, .back rest)) ∨
    (∃ k r rest, ask (display w n xr).options inputs = some (.follow k r, rest) ∧
      nextResource (display w n xr).capability r = none ∧
      exploreUri w n xr sb inputs = (⟨xr, sb, display w n xr, some (.follow k r)⟩, .stop .crash)) ∨
    (∃ k r rest x, ask (display w n xr).options inputs = some (.follow k r, rest) ∧
      nextResource (display w n xr).capability r = some x ∧
      exploreUri w n xr sb inputs = (⟨xr, sb, display w n xr, some (.follow k r)⟩, .follow x rest)) := by
  unfold exploreUri
  cases h : ask (display w n xr).options inputs with
  | none => left; simp [h]
  | some p =>
    right
    obtain ⟨a, rest⟩ := p
    cases a with
    | quit => left; exact ⟨rest, rfl, by simp [h]⟩
    | back => right; left; exact ⟨rest, rfl, by simp [h]⟩
    | follow k r =>
      right; right
      cases hx : nextResource (display w n xr).capability r with
      | none => left; exact ⟨k, r, rest, rfl, hx, by simp [h, hx]⟩
      | some x => right; exact ⟨k, r, rest, x, rfl, hx, by simp [h, hx]⟩

/-- More fuel than lines changes nothing -/
theorem historyLoop_fuel (w : ExpWorld) : ∀ (f f' n : Nat) (hist : List XResource) (inputs : List Str),
    inputs.length < f → inputs.length < f' → historyLoop w f n hist inputs = historyLoop w f' n hist inputs := by
  intro f
  induction f with
  | zero => intro f' n hist inputs h; omega
  | succ f ih =>
    intro f' n hist inputs h h'
    cases f' with
    | zero => omega
    | succ f' =>
      cases hist with
      | nil => rfl
      | cons xr hist =>
        simp only [historyLoop]
        rcases exploreUri_cases w n xr (!hist.isEmpty) inputs with
          ⟨-, e⟩ | ⟨rest, ha, e⟩ | ⟨rest, ha, e⟩ | ⟨k, r, rest, ha, -, e⟩ | ⟨k, r, rest, x, ha, -, e⟩ <;>
        rw [e]
        · have := ask_length ha
          simp only
          rw [ih f' _ _ rest (by omega) (by omega)]
        · have := ask_length ha
          simp only
          rw [ih f' _ _ rest (by omega) (by omega)]

/-- What happens from a given history on, the starting points `starts` still to come -/
def exploreAll (w : ExpWorld) (n : Nat) (hist starts : List XResource) (inputs : List Str) : List Visit × Ending :=
  let h := historyLoop w (inputs.length + 1) n hist inputs
  match h.2 with
  | .inl e => (h.1, e)
  | .inr rest =>
    let t := exploreStarts w (n + h.1.length) starts rest
    (h.1 ++ t.1, t.2)

theorem exploreStarts_cons (w : ExpWorld) (n : Nat) (s : XResource) (ss : List XResource) (inputs : List Str) :
    exploreStarts w n (s :: ss) inputs = exploreAll w n [s] ss inputs := by
  rw [exploreStarts, exploreAll]
  rfl

theorem exploreAll_nil (w : ExpWorld) (n : Nat) (ss : List XResource) (inputs : List Str) :
    exploreAll w n [] ss inputs = exploreStarts w n ss inputs := by
  simp [exploreAll, historyLoop]

theorem exploreAll_cons (w : ExpWorld) (n : Nat) (xr : XResource) (hist ss : List XResource) (inputs : List Str) :
    exploreAll w n (xr :: hist) ss inputs =
      let s := exploreUri w n xr (!hist.isEmpty) inputs
      match s.2 with
      | .stop e => ([s.1], e)
      | .back rest => (s.1 :: (exploreAll w (n + 1) hist ss rest).1, (exploreAll w (n + 1) hist ss rest).2)
      | .follow x rest => (s.1 :: (exploreAll w (n + 1) (x :: xr :: hist) ss rest).1,
          (exploreAll w (n + 1) (x :: xr :: hist) ss rest).2) := by
  unfold exploreAll
  rw [historyLoop]
  rcases exploreUri_cases w n xr (!hist.isEmpty) inputs with
    ⟨-, e⟩ | ⟨rest, ha, e⟩ | ⟨rest, ha, e⟩ | ⟨k, r, rest, ha, -, e⟩ | ⟨k, r, rest, x, ha, -, e⟩ <;>
  rw [e]
  · have := ask_length ha
    simp only
    rw [historyLoop_fuel w inputs.length (rest.length + 1) _ _ rest (by omega) (by omega)]
    generalize historyLoop w (rest.length + 1) (n + 1) hist rest = h
    obtain ⟨v, (e | i)⟩ := h
    · rfl
    · simp only [List.length_cons, List.cons_append, show n + (v.length + 1) = n + 1 + v.length by omega]
  · have := ask_length ha
    simp only
    rw [historyLoop_fuel w inputs.length (rest.length + 1) _ _ rest (by omega) (by omega)]
    generalize historyLoop w (rest.length + 1) (n + 1) (x :: xr :: hist) rest = h
    obtain ⟨v, (e | i)⟩ := h
    · rfl
    · simp only [List.length_cons, List.cons_append, show n + (v.length + 1) = n + 1 + v.length by omega]

/-- The cases of one visit -/
theorem exploreAll_cases (w : ExpWorld) (n : Nat) (xr : XResource) (hist ss : List XResource) (inputs : List Str) :
    (ask (display w n xr).options inputs = none ∧
      exploreAll w n (xr :: hist) ss inputs = ([⟨xr, !hist.isEmpty, display w n xr, none⟩], .eof)) ∨
    (∃ rest, ask (display w n xr).options inputs = some (.quit, rest) ∧
      exploreAll w n (xr :: hist) ss inputs = ([⟨xr, !hist.isEmpty, display w n xr, some .quit⟩], .quit)) ∨
    (∃ rest, ask (display w n xr).options inputs = some (.back, rest) ∧
      exploreAll w n (xr :: hist) ss inputs = (⟨xr, !hist.isEmpty, display w n xr, some .back⟩ ::
        (exploreAll w (n + 1) hist ss rest).1, (exploreAll w (n + 1) hist ss rest).2)) ∨
    (∃ k r rest, ask (display w n xr).options inputs = some (.follow k r, rest) ∧
      nextResource (display w n xr).capability r = none ∧
      exploreAll w n (xr :: hist) ss inputs = ([⟨xr, !hist.isEmpty, display w n xr, some (.follow k r)⟩], .crash)) ∨
    (∃ k r rest x, ask (display w n xr).options inputs = some (.follow k r, rest) ∧
      nextResource (display w n xr).capability r = some x ∧
      exploreAll w n (xr :: hist) ss inputs = (⟨xr, !hist.isEmpty, display w n xr, some (.follow k r)⟩ ::
        (exploreAll w (n + 1) (x :: xr :: hist) ss rest).1, (exploreAll w (n + 1) (x :: xr :: hist) ss rest).2)) := by
  rw [exploreAll_cons]
  rcases exploreUri_cases w n xr (!hist.isEmpty) inputs with
    ⟨h, e⟩ | ⟨rest, ha, e⟩ | ⟨rest, ha, e⟩ | ⟨k, r, rest, ha, hn, e⟩ | ⟨k, r, rest, x, ha, hn, e⟩
  · exact .inl ⟨h, by rw [e]⟩
  · exact .inr (.inl ⟨rest, ha, by rw [e]⟩)
  · exact .inr (.inr (.inl ⟨rest, ha, by rw [e]⟩))
  · exact .inr (.inr (.inr (.inl ⟨k, r, rest, ha, hn, by rw [e]⟩)))
  · exact .inr (.inr (.inr (.inr ⟨k, r, rest, x, ha, hn, by rw [e]⟩)))

/-- Once `a` has been left by going back, exploring goes on from `b`. -/
theorem stack_pop (w : ExpWorld) (b ss : List XResource) (e : Ending) (q : List Visit) :
    ∀ (p : List Visit) (n : Nat) (a : List XResource) (inputs : List Str),
    exploreAll w n (a ++ b) ss inputs = (p ++ q, e) → net p = -(a.length : Int) →
    (∀ p', p' <+: p → p' ≠ p → -(a.length : Int) < net p') →
    ∃ n' inputs', exploreAll w n' b ss inputs' = (q, e) := by
  intro p
  induction p with
  | nil =>
    intro n a inputs h hn _
    have : a = [] := by
      simp only [net, List.map_nil, List.sum_nil] at hn
      exact List.length_eq_zero_iff.mp (by omega)
    subst this
    exact ⟨n, inputs, h⟩
  | cons v p ih =>
    intro n a inputs h hn hp
    cases a with
    | nil => exact absurd (hp [] List.nil_prefix (by simp)) (by simp [net])
    | cons xr a =>
      have hnet : ∀ l, net (v :: l) = weight v + net l := fun l => by simp [net]
      have hlen : ((xr :: a).length : Int) = a.length + 1 := by simp
      rw [List.cons_append] at h
      rcases exploreAll_cases w n xr (a ++ b) ss inputs with
        ⟨-, e1⟩ | ⟨rest, ha, e1⟩ | ⟨rest, ha, e1⟩ | ⟨k, r, rest, ha, -, e1⟩ | ⟨k, r, rest, x, ha, -, e1⟩ <;> rw [e1] at h
      · simp only [List.cons_append, Prod.mk.injEq, List.cons.injEq, List.nil_eq, List.append_eq_nil_iff] at h
        obtain ⟨⟨rfl, rfl, rfl⟩, rfl⟩ := h
        simp [net, weight] at hn; omega
      · simp only [List.cons_append, Prod.mk.injEq, List.cons.injEq, List.nil_eq, List.append_eq_nil_iff] at h
        obtain ⟨⟨rfl, rfl, rfl⟩, rfl⟩ := h
        simp [net, weight] at hn; omega
      · simp only [List.cons_append, Prod.mk.injEq, List.cons.injEq] at h
        obtain ⟨⟨rfl, h1⟩, h2⟩ := h
        refine ih (n + 1) a rest (Prod.ext h1 h2) ?_ ?_
        · rw [hnet, hlen] at hn; simp only [weight] at hn; omega
        · intro p' h3 h4
          have := hp (_ :: p') (List.prefix_cons_inj _ |>.mpr h3) (by simpa using h4)
          rw [hnet, hlen] at this; simp only [weight] at this; omega
      · simp only [List.cons_append, Prod.mk.injEq, List.cons.injEq, List.nil_eq, List.append_eq_nil_iff] at h
        obtain ⟨⟨rfl, rfl, rfl⟩, rfl⟩ := h
        simp [net, weight] at hn; omega
      · simp only [List.cons_append, Prod.mk.injEq, List.cons.injEq] at h
        obtain ⟨⟨rfl, h1⟩, h2⟩ := h
        refine ih (n + 1) (x :: xr :: a) rest (Prod.ext h1 h2) ?_ ?_
        · rw [hnet, hlen] at hn; simp only [weight] at hn; simp only [List.length_cons, Nat.cast_add, Nat.cast_one]; omega
        · intro p' h3 h4
          have := hp (_ :: p') (List.prefix_cons_inj _ |>.mpr h3) (by simpa using h4)
          rw [hnet, hlen] at this; simp only [weight] at this
          simp only [List.length_cons, Nat.cast_add, Nat.cast_one]; omega

/-- Every visit is one with some history; what follows it is determined by that history. -/
theorem at_visit (w : ExpWorld) (v : Visit) (post : List Visit) (e : Ending) (all : List XResource) :
    ∀ (pre : List Visit) (n k : Nat) (hist : List XResource) (inputs : List Str),
    exploreAll w n hist (all.drop (k + 1)) inputs = (pre ++ v :: post, e) → hist.getLast? = all[k]? → hist ≠ [] →
    ∃ n' hist' inputs', exploreAll w n' (v.xr :: hist') (all.drop (k + 1 + pre.countP leftStart)) inputs' = (v :: post, e) ∧
      v.show_back = !hist'.isEmpty ∧ (v.xr :: hist').getLast? = all[k + pre.countP leftStart]? ∧
      v.shown = display w n' v.xr := by
  intro pre
  induction pre with
  | nil =>
    intro n k hist inputs h hl hne
    cases hist with
    | nil => exact absurd rfl hne
    | cons xr hist =>
      have hx : v.xr = xr ∧ v.show_back = !hist.isEmpty ∧ v.shown = display w n xr := by
        rcases exploreAll_cases w n xr hist (all.drop (k + 1)) inputs with
          ⟨-, e1⟩ | ⟨rest, ha, e1⟩ | ⟨rest, ha, e1⟩ | ⟨k, r, rest, ha, -, e1⟩ | ⟨k, r, rest, x, ha, -, e1⟩ <;> rw [e1] at h <;>
        simp only [List.nil_append, Prod.mk.injEq, List.cons.injEq] at h <;> simp [← h.1.1]
      rw [← hx.1] at h hl hx
      exact ⟨n, hist, inputs, h, hx.2.1, hl, hx.2.2⟩
  | cons u pre ih =>
    intro n k hist inputs h hl hne
    cases hist with
    | nil => exact absurd rfl hne
    | cons xr hist =>
      rcases exploreAll_cases w n xr hist (all.drop (k + 1)) inputs with
        ⟨-, e1⟩ | ⟨rest, ha, e1⟩ | ⟨rest, ha, e1⟩ | ⟨k', r, rest, ha, -, e1⟩ | ⟨k', r, rest, x, ha, -, e1⟩ <;> rw [e1] at h <;>
      simp only [List.cons_append, Prod.mk.injEq, List.cons.injEq, List.nil_eq, List.append_eq_nil_iff, reduceCtorEq,
        and_false, false_and] at h
      · obtain ⟨⟨rfl, h1⟩, h2⟩ := h
        cases hist with
        | nil =>
          rw [exploreAll_nil] at h1 h2
          cases hd : all.drop (k + 1) with
          | nil => rw [hd] at h1; simp [exploreStarts] at h1
          | cons s ss =>
            have hk : k + 1 < all.length := by
              by_contra hlt
              rw [List.drop_eq_nil_of_le (by omega)] at hd
              simp at hd
            have hs : all[k + 1]? = some s := by
              rw [← List.head?_drop, hd]; rfl
            have hss : all.drop (k + 1 + 1) = ss := by
              rw [← List.tail_drop, hd]; rfl
            rw [hd, exploreStarts_cons, ← hss] at h1 h2
            obtain ⟨n', hist', inputs', h3, h4, h5, h6⟩ := ih (n + 1) (k + 1) [s] rest (Prod.ext h1 h2) (by rw [hs]; rfl)
              (by simp)
            have hc : List.countP leftStart (⟨xr, !([] : List XResource).isEmpty, display w n xr, some .back⟩ :: pre)
                = pre.countP leftStart + 1 := by
              rw [List.countP_cons_of_pos]; rfl
            rw [hc]
            refine ⟨n', hist', inputs', ?_, h4, ?_, h6⟩
            · rw [← h3]; congr 2; omega
            · rw [h5]; congr 1; omega
        | cons x' hist =>
          have hc : List.countP leftStart (⟨xr, !(x' :: hist).isEmpty, display w n xr, some .back⟩ :: pre)
              = pre.countP leftStart := by
            rw [List.countP_cons_of_neg]; simp [leftStart]
          rw [hc]
          exact ih (n + 1) k (x' :: hist) rest (Prod.ext h1 h2) (by rw [← hl]; simp) (by simp)
      · obtain ⟨⟨rfl, h1⟩, h2⟩ := h
        have hc : List.countP leftStart (⟨xr, !hist.isEmpty, display w n xr, some (.follow k' r)⟩ :: pre)
            = pre.countP leftStart := by
          rw [List.countP_cons_of_neg]; simp [leftStart]
        rw [hc]
        exact ih (n + 1) k (x :: xr :: hist) rest (Prod.ext h1 h2) (by rw [← hl]; simp) (by simp)

/-- How it ends -/
theorem at_end (w : ExpWorld) (e : Ending) (all : List XResource) :
    ∀ (vs : List Visit) (n k : Nat) (hist : List XResource) (inputs : List Str),
    exploreAll w n hist (all.drop (k + 1)) inputs = (vs, e) → hist ≠ [] → k < all.length →
    (e = .done → k + vs.countP leftStart = all.length) ∧ (e ≠ .done → k + vs.countP leftStart < all.length) := by
  intro vs
  induction vs with
  | nil =>
    intro n k hist inputs h hne
    cases hist with
    | nil => exact absurd rfl hne
    | cons xr hist =>
      rcases exploreAll_cases w n xr hist (all.drop (k + 1)) inputs with
        ⟨-, e1⟩ | ⟨rest, ha, e1⟩ | ⟨rest, ha, e1⟩ | ⟨k', r, rest, ha, -, e1⟩ | ⟨k', r, rest, x, ha, -, e1⟩ <;> rw [e1] at h <;>
      simp at h
  | cons u vs ih =>
    intro n k hist inputs h hne hk
    cases hist with
    | nil => exact absurd rfl hne
    | cons xr hist =>
      rcases exploreAll_cases w n xr hist (all.drop (k + 1)) inputs with
        ⟨-, e1⟩ | ⟨rest, ha, e1⟩ | ⟨rest, ha, e1⟩ | ⟨k', r, rest, ha, -, e1⟩ | ⟨k', r, rest, x, ha, -, e1⟩ <;> rw [e1] at h <;>
      simp only [Prod.mk.injEq, List.cons.injEq, List.nil_eq] at h
      · obtain ⟨⟨rfl, rfl⟩, rfl⟩ := h
        simp [leftStart]; exact hk
      · obtain ⟨⟨rfl, rfl⟩, rfl⟩ := h
        simp [leftStart]; exact hk
      · obtain ⟨⟨rfl, h1⟩, h2⟩ := h
        cases hist with
        | nil =>
          have hc : List.countP leftStart (⟨xr, !([] : List XResource).isEmpty, display w n xr, some .back⟩ :: vs)
              = vs.countP leftStart + 1 := by
            rw [List.countP_cons_of_pos]; rfl
          rw [hc]
          rw [exploreAll_nil] at h1 h2
          cases hd : all.drop (k + 1) with
          | nil =>
            rw [hd, exploreStarts] at h1 h2
            have : all.length ≤ k + 1 := List.drop_eq_nil_iff.mp hd
            simp only at h1 h2
            subst h1 h2
            simp; omega
          | cons s ss =>
            have hk' : k + 1 < all.length := by
              by_contra hlt
              rw [List.drop_eq_nil_of_le (by omega)] at hd
              simp at hd
            have hss : all.drop (k + 1 + 1) = ss := by
              rw [← List.tail_drop, hd]; rfl
            rw [hd, exploreStarts_cons, ← hss] at h1 h2
            have := ih (n + 1) (k + 1) [s] rest (Prod.ext h1 h2) (by simp) hk'
            constructor
            · intro he; have := this.1 he; omega
            · intro he; have := this.2 he; omega
        | cons x' hist =>
          have hc : List.countP leftStart (⟨xr, !(x' :: hist).isEmpty, display w n xr, some .back⟩ :: vs)
              = vs.countP leftStart := by
            rw [List.countP_cons_of_neg]; simp [leftStart]
          rw [hc]
          exact ih (n + 1) k (x' :: hist) rest (Prod.ext h1 h2) (by simp) hk
      · obtain ⟨⟨rfl, rfl⟩, rfl⟩ := h
        simp [leftStart]; exact hk
      · obtain ⟨⟨rfl, h1⟩, h2⟩ := h
        have hc : List.countP leftStart (⟨xr, !hist.isEmpty, display w n xr, some (.follow k' r)⟩ :: vs)
            = vs.countP leftStart := by
          rw [List.countP_cons_of_neg]; simp [leftStart]
        rw [hc]
        exact ih (n + 1) k (x :: xr :: hist) rest (Prod.ext h1 h2) (by simp) hk

/-! ### Typing more -/

theorem ask_append_some {o : Dict Resource} {inputs : List Str} {a : Answer} {rest : List Str} (more : List Str)
    (h : ask o inputs = some (a, rest)) : ask o (inputs ++ more) = some (a, rest ++ more) := by
  induction inputs with
  | nil => simp [ask] at h
  | cons x t ih =>
    rw [List.cons_append, ask]
    rw [ask] at h
    cases hg : dget o x with
    | some r =>
      rw [hg] at h
      simp only [Option.some.injEq, Prod.mk.injEq] at h ⊢
      exact ⟨h.1, by rw [h.2]⟩
    | none =>
      rw [hg] at h
      dsimp only at h ⊢
      split
      · rw [if_pos ‹_›] at h
        simp only [Option.some.injEq, Prod.mk.injEq] at h ⊢
        exact ⟨h.1, by rw [h.2]⟩
      · rw [if_neg ‹_›] at h
        split
        · rw [if_pos ‹_›] at h
          simp only [Option.some.injEq, Prod.mk.injEq] at h ⊢
          exact ⟨h.1, by rw [h.2]⟩
        · rw [if_neg ‹_›] at h
          exact ih h

theorem ask_append_none {o : Dict Resource} {inputs : List Str} (more : List Str) (h : ask o inputs = none) :
    ask o (inputs ++ more) = ask o more := by
  induction inputs with
  | nil => rfl
  | cons x t ih =>
    rw [List.cons_append, ask]
    rw [ask] at h
    cases hg : dget o x with
    | some r => rw [hg] at h; simp at h
    | none =>
      rw [hg] at h
      dsimp only at h ⊢
      split
      · rw [if_pos ‹_›] at h; simp at h
      · rw [if_neg ‹_›] at h
        split
        · rw [if_pos ‹_›] at h; simp at h
        · rw [if_neg ‹_›] at h
          exact ih h

theorem uri_irrelevant {w : ExpWorld} {n : Nat} {xr : XResource} {hist ss : List XResource} {i j : List Str}
    (h : ask (display w n xr).options i = ask (display w n xr).options j) :
    exploreAll w n (xr :: hist) ss i = exploreAll w n (xr :: hist) ss j := by
  rw [exploreAll_cons, exploreAll_cons]
  have : exploreUri w n xr (!hist.isEmpty) i = exploreUri w n xr (!hist.isEmpty) j := by
    unfold exploreUri
    dsimp only
    rw [h]
  rw [this]

/-- When the lines typed so far leave the explorer asking, what happens next depends on the document shown and the lines to come. -/
theorem type_more (w : ExpWorld) (vs : List Visit) (v : Visit) :
    ∀ (n : Nat) (hist ss : List XResource) (inputs : List Str),
    exploreAll w n hist ss inputs = (vs ++ [v], .eof) → hist ≠ [] →
    ∃ n' hist' ss', v.shown = display w n' v.xr ∧ v.show_back = !hist'.isEmpty ∧ v.answer = none ∧
      ∀ more, exploreAll w n hist ss (inputs ++ more) =
        (vs ++ (exploreAll w n' (v.xr :: hist') ss' more).1, (exploreAll w n' (v.xr :: hist') ss' more).2) := by
  induction vs with
  | nil =>
    intro n hist ss inputs h hne
    cases hist with
    | nil => exact absurd rfl hne
    | cons xr hist =>
      rcases exploreAll_cases w n xr hist ss inputs with
        ⟨ha, e1⟩ | ⟨rest, ha, e1⟩ | ⟨rest, ha, e1⟩ | ⟨k', r, rest, ha, -, e1⟩ | ⟨k', r, rest, x, ha, -, e1⟩ <;> rw [e1] at h <;>
      simp only [List.nil_append, Prod.mk.injEq, List.cons.injEq, reduceCtorEq, and_false] at h
      · obtain ⟨⟨rfl, -⟩, -⟩ := h
        refine ⟨n, hist, ss, rfl, rfl, rfl, fun more => ?_⟩
        rw [uri_irrelevant (j := more) (by rw [ask_append_none _ ha])]
        rfl
      · obtain ⟨⟨rfl, h1⟩, h2⟩ := h
        cases hist with
        | nil =>
          rw [exploreAll_nil] at h1 h2
          cases ss with
          | nil => simp [exploreStarts] at h2
          | cons s ss =>
            rw [exploreStarts_cons] at h1
            rcases exploreAll_cases w (n + 1) s [] ss rest with
              ⟨ha, e1⟩ | ⟨rest, ha, e1⟩ | ⟨rest, ha, e1⟩ | ⟨k', r, rest, ha, -, e1⟩ | ⟨k', r, rest, x, ha, -, e1⟩ <;>
            rw [e1] at h1 <;> simp at h1
        | cons x' hist =>
          rcases exploreAll_cases w (n + 1) x' hist ss rest with
            ⟨ha, e1⟩ | ⟨rest, ha, e1⟩ | ⟨rest, ha, e1⟩ | ⟨k', r, rest, ha, -, e1⟩ | ⟨k', r, rest, x, ha, -, e1⟩ <;>
          rw [e1] at h1 <;> simp at h1
      · obtain ⟨⟨rfl, h1⟩, h2⟩ := h
        rcases exploreAll_cases w (n + 1) x (xr :: hist) ss rest with
          ⟨ha, e1⟩ | ⟨rest, ha, e1⟩ | ⟨rest, ha, e1⟩ | ⟨k', r, rest, ha, -, e1⟩ | ⟨k', r, rest, x, ha, -, e1⟩ <;>
        rw [e1] at h1 <;> simp at h1
  | cons u vs ih =>
    intro n hist ss inputs h hne
    cases hist with
    | nil => exact absurd rfl hne
    | cons xr hist =>
      rcases exploreAll_cases w n xr hist ss inputs with
        ⟨ha, e1⟩ | ⟨rest, ha, e1⟩ | ⟨rest, ha, e1⟩ | ⟨k', r, rest, ha, -, e1⟩ | ⟨k', r, rest, x, ha, hx, e1⟩ <;> rw [e1] at h <;>
      simp only [List.cons_append, Prod.mk.injEq, List.cons.injEq, reduceCtorEq, and_false, List.nil_eq,
        List.append_eq_nil_iff, List.cons_ne_self, false_and] at h
      · obtain ⟨⟨rfl, h1⟩, h2⟩ := h
        cases hist with
        | nil =>
          rw [exploreAll_nil] at h1 h2
          cases ss with
          | nil => simp [exploreStarts] at h2
          | cons s ss =>
            rw [exploreStarts_cons] at h1 h2
            obtain ⟨n', hist', ss', h3, h4, h5, h6⟩ := ih (n + 1) [s] ss rest (Prod.ext h1 h2) (by simp)
            refine ⟨n', hist', ss', h3, h4, h5, fun more => ?_⟩
            rw [exploreAll_cons, exploreUri, ask_append_some more ha]
            simp only
            rw [exploreAll_nil, exploreStarts_cons, h6 more]
            rfl
        | cons x' hist =>
          obtain ⟨n', hist', ss', h3, h4, h5, h6⟩ := ih (n + 1) (x' :: hist) ss rest (Prod.ext h1 h2) (by simp)
          refine ⟨n', hist', ss', h3, h4, h5, fun more => ?_⟩
          rw [exploreAll_cons, exploreUri, ask_append_some more ha]
          simp only
          rw [h6 more]
          rfl
      · obtain ⟨⟨rfl, h1⟩, h2⟩ := h
        obtain ⟨n', hist', ss', h3, h4, h5, h6⟩ := ih (n + 1) (x :: xr :: hist) ss rest (Prod.ext h1 h2) (by simp)
        refine ⟨n', hist', ss', h3, h4, h5, fun more => ?_⟩
        rw [exploreAll_cons, exploreUri, ask_append_some more ha]
        simp only [hx]
        rw [h6 more]
        rfl

/-! ### The options -/

/-- Option keys are 'd', 'u', 'i' and numbers -/
def GoodKeys (o : Dict Resource) : Prop := dget o ['q'] = none ∧ dget o ['b'] = none

theorem goodKeys_dset {o : Dict Resource} (h : GoodKeys o) {k : Str} (r : Resource) (hq : k ≠ ['q']) (hb : k ≠ ['b']) :
    GoodKeys (dset o k r) :=
  ⟨by rw [dget_dset_ne _ _ hq]; exact h.1, by rw [dget_dset_ne _ _ hb]; exact h.2⟩

theorem goodKeys_link {ln : List Link} {context rel key : Str} {cap : Option Str} {o o' : Dict Resource}
    (h : GoodKeys o) (hq : key ≠ ['q']) (hb : key ≠ ['b']) (he : linkOption ln context rel key cap o = some o') : GoodKeys o' := by
  unfold linkOption at he
  split at he
  · cases he; exact h
  · split at he
    · cases he; exact h
    · split at he
      · cases he
      · cases he; exact goodKeys_dset h _ hq hb

theorem natStr_ne_char (n : Nat) {c : Char} (hc : isDigit c = false) : natStr n ≠ [c] := by
  intro h
  have := natStr_digits n c (by rw [h]; simp)
  rw [hc] at this; simp at this

theorem goodKeys_entries {context : Str} {caps : List Str} : ∀ (rs : List Resource) (n : Nat) (o o' : Dict Resource),
    GoodKeys o → entryOptions context caps n rs o = some o' → GoodKeys o' := by
  intro rs
  induction rs with
  | nil => intro n o o' h he; cases he; exact h
  | cons r t ih =>
    intro n o o' h he
    rw [entryOptions] at he
    split at he
    · cases he
    · exact ih _ _ _ (goodKeys_dset h _ (natStr_ne_char _ (by decide)) (natStr_ne_char _ (by decide))) he

theorem goodKeys_summary {c : Cont (List Resource)} {index : Bool} {context : Str} {o : Dict Resource} {cap : Str}
    (h : showSummary c index context = some (o, cap)) : GoodKeys o := by
  unfold showSummary at h
  dsimp only at h
  split at h
  · cases h
  · rename_i o1 h1
    split at h
    · cases h
    · rename_i o2 h2
      split at h
      · cases h
      · rename_i o3 h3
        split at h
        · cases h
        · rename_i o4 h4
          cases h
          exact goodKeys_entries _ _ _ _ (goodKeys_link (goodKeys_link (goodKeys_link ⟨rfl, rfl⟩ (by decide) (by decide) h1)
            (by decide) (by decide) h2) (by decide) (by decide) h3) h4

theorem goodKeys_display (w : ExpWorld) (n : Nat) (xr : XResource) : GoodKeys (display w n xr).options := by
  unfold display
  split
  · split <;> exact ⟨rfl, rfl⟩
  · split
    · exact ⟨rfl, rfl⟩
    · split
      · exact ⟨rfl, rfl⟩
      · split
        · exact ⟨rfl, rfl⟩
        · rename_i h; exact goodKeys_summary h

theorem explorerStarts_ne {w : ExpWorld} {c : DiscCfg} {starts : List XResource} (h : explorerStarts w c = .ok starts) :
    starts ≠ [] := by
  unfold explorerStarts at h
  split at h
  · cases h; simp
  · split at h
    · cases h
    · split at h
      · cases h
      · split at h
        · split at h
          · dsimp only at h
            split at h
            · cases h
            · rename_i hf
              cases h
              exact fun hh => hf (List.map_eq_nil_iff.mp hh)
          · cases h; simp
        · dsimp only at h
          split at h <;> cases h <;> simp

end Resync
