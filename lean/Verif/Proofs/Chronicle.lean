import Verif.Proofs.Copies
import Mathlib.Data.List.Induction
/-
What the change list about a chronicle says (lemmas for C86).
-/

namespace Resync
open Py Resync.Spec

theorem sourceAfter_append (S : Snapshot) (a b : List Happening) : sourceAfter S (a ++ b) = sourceAfter (sourceAfter S a) b := by
  unfold sourceAfter
  rw [List.foldl_append]

/-- nothing happens to a URI that is not mentioned -/
theorem sourceAfter_other {S : Snapshot} {es : List Happening} {u : Str} (h : ∀ e ∈ es, e.entry.uri ≠ u) : sourceAfter S es u = S u := by
  induction es generalizing S with
  | nil => rfl
  | cons e es ih =>
    show sourceAfter (e.after S) es u = S u
    rw [ih (fun f hf => h f (by simp [hf]))]
    unfold Happening.after
    rw [if_neg (fun hu => h e (by simp) hu.symm)]

/-- the last thing to happen to a URI says what there is -/
theorem sourceAfter_last {S : Snapshot} {a b : List Happening} {e : Happening} (h : ∀ f ∈ b, f.entry.uri ≠ e.entry.uri) :
    sourceAfter S (a ++ e :: b) e.entry.uri =
      if e.entry.change = some "deleted".toList then none else e.entry.timestamp.map (fun t => (e.content, t)) := by
  rw [sourceAfter_append]
  show sourceAfter (e.after (sourceAfter S a)) b e.entry.uri = _
  rw [sourceAfter_other h]
  unfold Happening.after
  rw [if_pos rfl]

variable {S : Snapshot} {v : Str} {es : List Happening}

theorem Spec.Chronicle.time (h : Chronicle S v es) {e : Happening} (he : e ∈ es) : ∃ d, 0 < d ∧ changeTime v e.entry = some d ∧ listedTime e.entry = some d := by
  obtain ⟨d, h0, h1, h2⟩ := h.timed e he
  exact ⟨d, h0, h1, (listedTime_iff _ _).mpr h2⟩

/-- what happens after something from `t` on is itself from `t` on -/
theorem Spec.Chronicle.later (h : Chronicle S v es) {a b : List Happening} {e : Happening} (he : es = a ++ e :: b) {t : Rat}
    (ht : AtOrAfter v t e.entry) {f : Happening} (hf : f ∈ b) : AtOrAfter v t f.entry := by
  obtain ⟨d, h1, h2⟩ := ht
  obtain ⟨d', -, h3, -⟩ := h.time (e := f) (by rw [he]; simp [hf])
  have := h.order
  rw [he] at this
  have := (List.pairwise_append.mp this).2.1
  have := (List.pairwise_cons.mp this).1 f hf d d' h1 h3
  exact ⟨d', h3, le_trans h2 this⟩

theorem Spec.Chronicle.take (h : Chronicle S v es) (n : Nat) : Chronicle S v (es.take n) where
  kind e he := h.kind e (List.mem_of_mem_take he)
  timed e he := h.timed e (List.mem_of_mem_take he)
  modified e he := h.modified e (List.mem_of_mem_take he)
  years := by
    intro r hr
    obtain ⟨e, he, rfl⟩ := List.mem_map.mp hr
    exact h.years _ (List.mem_map.mpr ⟨e, List.mem_of_mem_take he, rfl⟩)
  order := h.order.sublist (List.take_sublist _ _)
  new := by
    intro before e rest he hc
    refine h.new before e (rest ++ es.drop n) ?_ hc
    rw [← List.take_append_drop n es]
    conv_lhs => rw [he]
    simp

theorem map_entry_split {es : List Happening} {pre post : List Resource} {r : Resource} (h : changeListOf es = pre ++ r :: post) :
    ∃ a e b, es = a ++ e :: b ∧ changeListOf a = pre ∧ e.entry = r ∧ changeListOf b = post := by
  unfold changeListOf at h ⊢
  obtain ⟨a, t, h1, h2, h3⟩ := List.map_eq_append_iff.mp h
  obtain ⟨e, b, h4, h5, h6⟩ := List.map_eq_cons_iff.mp h3
  exact ⟨a, e, b, by rw [h1, h4], h2, h5, h6⟩

/-- the last change of a URI is the last thing to happen to it -/
theorem Spec.Chronicle.last (h : Chronicle S v es) {t : Rat} {r : Resource} (hr : LastChange (changeListOf es) v t r) :
    ∃ a e b, es = a ++ e :: b ∧ e.entry = r ∧ ∀ f ∈ b, f.entry.uri ≠ r.uri := by
  obtain ⟨pre, post, he, ha, hn⟩ := hr
  obtain ⟨a, e, b, h1, -, rfl, rfl⟩ := map_entry_split he
  refine ⟨a, e, b, h1, rfl, ?_⟩
  intro f hf hu
  exact hn f.entry (List.mem_map.mpr ⟨f, hf, rfl⟩) hu (h.later h1 ha hf)

theorem take_split {es a b : List Happening} {e : Happening} (he : es = a ++ e :: b) {n : Nat} (h : a.length < n) :
    es.take n = a ++ e :: b.take (n - a.length - 1) := by
  obtain ⟨k, hk⟩ : ∃ k, n - a.length = k + 1 := ⟨n - a.length - 1, by omega⟩
  rw [he, List.take_append, List.take_of_length_le (by omega), hk]
  rfl

/-- if the client has a copy of what there was when the first `n` things had happened, all else happened from `t` on, and nothing it
has seen created from `t` on, and which is still there, is deleted later, then the list records what it needs -/
theorem records {n : Nat} {t : Rat} (h : Chronicle S v es)
    (h1 : ∀ f ∈ es.drop n, AtOrAfter v t f.entry)
    (h2 : ∀ e ∈ es.take n, ∀ f ∈ es.drop n, e.entry.uri = f.entry.uri → e.entry.change = some "created".toList →
      f.entry.change = some "deleted".toList → AtOrAfter v t e.entry → sourceAfter S (es.take n) e.entry.uri = none) :
    Records (sourceAfter S (es.take n)) (sourceAfter S es) (changeListOf es) v t where
  unchanged := by
    intro u hu
    conv_lhs => rw [← List.take_append_drop n es]
    rw [sourceAfter_append, sourceAfter_other]
    intro e he hue
    exact hu e.entry (List.mem_map.mpr ⟨e, List.mem_of_mem_drop he, rfl⟩) hue (h1 e he)
  last := by
    intro r hr
    obtain ⟨a, e, b, he, rfl, hb⟩ := h.last hr
    have hS : sourceAfter S es e.entry.uri =
        if e.entry.change = some "deleted".toList then none else e.entry.timestamp.map (fun t => (e.content, t)) := by
      conv_lhs => rw [he]
      exact sourceAfter_last hb
    rcases h.kind e (by rw [he]; simp) with ⟨hc, ht⟩ | hc
    · left
      refine ⟨hc, ?_⟩
      obtain ⟨x, hx⟩ := Option.ne_none_iff_exists'.mp ht
      refine ⟨e.content, x, ?_, hx⟩
      rw [hS, if_neg (by rcases hc with h | h <;> rw [h] <;> decide), hx]
      rfl
    · right
      exact ⟨hc, by rw [hS, if_pos hc]⟩
  fresh := by
    intro x r hx hr hu hxc hrc
    obtain ⟨pre, post, he, ha, hn⟩ := hx
    obtain ⟨a, e, b, e1, rfl, rfl, -⟩ := map_entry_split he
    by_cases hl : a.length < n
    · have hein : e ∈ es.take n := by rw [take_split e1 hl]; simp
      obtain ⟨a', f, b', e2, hf, hb⟩ := h.last hr
      by_cases hl' : a'.length < n
      · have hd : f.entry.change = some "deleted".toList := by rw [hf]; exact hrc
        rw [hu, ← hf, take_split e2 hl', sourceAfter_last, if_pos hd]
        intro g hg
        rw [hf]
        exact hb g (List.mem_of_mem_take hg)
      · have hfin : f ∈ es.drop n := by
          rw [e2, List.drop_append_of_le_length (by omega)]
          simp
        exact h2 e hein f hfin (by rw [hf]; exact hu) hxc (by rw [hf]; exact hrc) ha
    · have hmid : a = es.take n ++ a.drop n := by
        conv_lhs => rw [← List.take_append_drop n a]
        congr 1
        rw [e1, List.take_append_of_le_length (by omega)]
      have hnew := h.new a e b e1 hxc
      rw [hmid, sourceAfter_append, sourceAfter_other] at hnew
      · exact hnew
      · intro g hg hgu
        refine hn g.entry (List.mem_map.mpr ⟨g, List.mem_of_mem_drop hg, rfl⟩) hgu (h1 g ?_)
        rw [e1, List.drop_append_of_le_length (by omega)]
        exact List.mem_append_left _ hg

variable {env : Env} {c : ClientCfg} {uri : Option Str} {s : St} {site : Str} {sites : List (Map × Loc)} {places : Loc → Prop} {n k : Nat} {t : Rat}

/-- the times listed are in the years 1 to 9999 -/
theorem listed_in_years {v : Str} (hy : TimesBefore10000 (changeListOf es)) {x : Resource} (hx : x ∈ changeListOf (es.take k))
    (htm : ∀ e ∈ es, ∃ d, 0 < d ∧ changeTime v e.entry = some d ∧ listedTime e.entry = some d) {t : Rat} (h : listedTime x = some t) : InYears t := by
  obtain ⟨e, he, rfl⟩ := List.mem_map.mp hx
  have he := List.mem_of_mem_take he
  obtain ⟨d, h0, -, h1⟩ := htm e he
  rw [h] at h1
  cases h1
  refine ⟨by linarith, ?_⟩
  rcases (listedTime_iff _ _).mp h with h | ⟨-, h⟩
  · exact hy _ (List.mem_map.mpr ⟨e, he, rfl⟩) _ (.inr h)
  · exact hy _ (List.mem_map.mpr ⟨e, he, rfl⟩) _ (.inl h)

/-- one run after the other -/
theorem run_catches_up (hft : FloatOk env.ft) (hu : SetUp c site) (h : Chronicle S c.spec_version es) (hnk : n ≤ k)
    (hsur : Surroundings env c uri site (changeListOf (es.take k)) (sourceAfter S (es.take k))) (hh : s.hashes = [])
    (hstart : startTime env c none s = .ok t) (hcu : CaughtUp S c.spec_version es n t) (ht0 : InYears t)
    (hst : Stands env.ft env.cwd c sites places s.world (sourceAfter S (es.take n)))
    (hbelow : ∀ e ∈ es, BelowSites sites e.entry.uri) (hplaces : ∀ l, PlaceOf sites (sourceAfter S (es.take k)) l → places l)
    (hset : Settled c.spec_version es k) :
    (incremental env c true uri none s).2 = .ok () ∧
    Stands env.ft env.cwd c sites places (incremental env c true uri none s).1.world (sourceAfter S (es.take k)) ∧
    ∃ t', startTime env c none (incremental env c true uri none s).1 = .ok t' ∧ CaughtUp S c.spec_version es k t' ∧ InYears t' := by
  have hk := h.take k
  have htt : (es.take k).take n = es.take n := by rw [List.take_take, Nat.min_eq_left hnk]
  have hdd : ∀ f ∈ (es.take k).drop n, f ∈ es.drop n := by
    intro f hf
    rw [List.drop_take] at hf
    exact List.mem_of_mem_take hf
  have hdk : ∀ f ∈ es.drop k, f ∈ es.drop n := by
    intro f hf
    have : es.drop k = (es.drop n).drop (k - n) := by rw [List.drop_drop]; congr 1; omega
    rw [this] at hf
    exact List.mem_of_mem_drop hf
  have hrec : Records (sourceAfter S (es.take n)) (sourceAfter S (es.take k)) (changeListOf (es.take k)) c.spec_version t := by
    have := records (n := n) (t := t) hk (fun f hf => hcu.later f (hdd f hf)) (by
      intro e he f hf
      rw [htt] at he ⊢
      exact hcu.created e he f (hdd f hf))
    rwa [htt] at this
  have hin : ∀ r ∈ changeListOf (es.take k), ∃ e ∈ es.take k, e.entry = r := fun r hr => List.mem_map.mp hr
  have htimes : ∀ r ∈ changeListOf (es.take k), changeTime c.spec_version r ≠ none := by
    intro r hr
    obtain ⟨e, he, rfl⟩ := hin r hr
    obtain ⟨d, -, h1, -⟩ := hk.time he
    rw [h1]; simp
  have hbel : ∀ r ∈ changeListOf (es.take k), AtOrAfter c.spec_version t r → BelowSites sites r.uri := by
    intro r hr _
    obtain ⟨e, he, rfl⟩ := hin r hr
    exact hbelow e (List.mem_of_mem_take he)
  obtain ⟨r1, -, -, -, r5, r6⟩ := run_succeeds hft hu hsur hh hstart htimes hst.mapped hst.room hrec hbel hplaces hst.state ht0 hk.years
  refine ⟨r1, run_copies hft hu hsur hh hstart htimes hst hrec hbel hplaces ht0 hk.years, ?_⟩
  by_cases hsel : selectedFrom c.spec_version t (changeListOf (es.take k)) = []
  · refine ⟨t, ?_, ⟨fun f hf => hcu.later f (hdk f hf), ?_⟩, ht0⟩
    · rw [startTime_state env c none s _ (by rw [r5 hsel])]
      exact hstart
    · intro e he f hf hue hec hfc hat
      obtain ⟨r, h1, h2⟩ := exists_last (raw := changeListOf (es.take k)) (List.mem_map.mpr ⟨e, he, rfl⟩) hat
      obtain ⟨hd, -⟩ := last_not_selected h2 (by
        have : (pruneDupes ((changeListOf (es.take k)).filter (fun r => (entryTime c.spec_version r).any (t ≤ ·)))).1 = [] := hsel
        rw [this]; simp)
      rcases hrec.last r h2 with ⟨h3 | h3, -⟩ | ⟨-, h3⟩
      · rw [hd] at h3; exact absurd h3 (by decide)
      · rw [hd] at h3; exact absurd h3 (by decide)
      · rw [← h1]; exact h3
  · have hex : ∃ x ∈ es.take k, True := by
      obtain ⟨r, hr⟩ := List.exists_mem_of_ne_nil _ hsel
      obtain ⟨e, he, -⟩ := hin r (lastChange_mem (selected_last hr)).1
      exact ⟨e, he, trivial⟩
    obtain ⟨t', q1, ⟨x, hx, q2⟩, q3⟩ := r6 hsel (by
      obtain ⟨e, he, -⟩ := hex
      obtain ⟨d, d0, -, d2⟩ := hk.time he
      exact ⟨e.entry, List.mem_map.mpr ⟨e, he, rfl⟩, d, d2, d0⟩) (by
      intro r hr
      obtain ⟨e, he, rfl⟩ := hin r hr
      exact hk.modified e he)
    refine ⟨t', q1, ⟨?_, ?_⟩, listed_in_years h.years hx (fun e he => h.time he) (k := k) q2⟩
    · intro f hf
      obtain ⟨e, he, rfl⟩ := hin x hx
      obtain ⟨d, -, d1, d2⟩ := hk.time he
      rw [q2] at d2
      cases d2
      obtain ⟨d', -, d3, -⟩ := h.time (List.mem_of_mem_drop hf)
      have ho := h.order
      rw [← List.take_append_drop k es] at ho
      exact ⟨d', d3, (List.pairwise_append.mp ho).2.2 e he f hf _ _ d1 d3⟩
    · intro e he f hf hue hec hfc hat
      obtain ⟨g, hg, hlt⟩ := hset e he f hf hue hec hfc
      obtain ⟨d, -, d1, -⟩ := hk.time he
      obtain ⟨d', -, d3, d4⟩ := hk.time hg
      obtain ⟨d2, d5, d6⟩ := hat
      rw [d1] at d5
      cases d5
      exact absurd (lt_of_le_of_lt d6 (hlt d d' d1 d3)) (not_lt.mpr (q3 _ (List.mem_map.mpr ⟨g, hg, rfl⟩) _ d4))

end Resync
