import Verif.Spec.Postpone
import Verif.Proofs.ClientBaseline
/-
Lemmas for C123: the loop over what is to be deleted, with and without deletion.
-/

namespace Resync
open Py Resync.Spec

/-- the states of the two runs while the loop goes on: `gone` has been removed in one of them -/
structure Apace (gone : List Effect) (a b : St) : Prop where
  trace : b.trace = a.trace ++ gone
  were : ∀ e ∈ gone, ∃ l, e = .unlink l ∧ HasFile a.world.fs l
  fs : ∀ l, b.world.fs.get l = if .unlink l ∈ gone then none else a.world.fs.get l
  state : b.world.state = a.world.state
  hashes : b.hashes = a.hashes
  last_timestamp : b.last_timestamp = a.last_timestamp

theorem Apace.refl (s : St) : Apace [] s s := ⟨by simp, by simp, by simp, rfl, rfl, rfl⟩

theorem Apace.seen {gone : List Effect} {a b : St} (h : Apace gone a b) (t : Option Rat) : Apace gone (a.seen t) (b.seen t) := by
  have hl : (b.seen t).last_timestamp = (a.seen t).last_timestamp := by
    unfold St.seen
    cases t with
    | none => exact h.last_timestamp
    | some t =>
      simp only [h.last_timestamp]
      split
      · rfl
      · exact h.last_timestamp
  refine ⟨?_, ?_, ?_, ?_, ?_, hl⟩
  · rw [St.seen_trace, St.seen_trace]; exact h.trace
  · rw [St.seen_world]; exact h.were
  · rw [St.seen_world, St.seen_world]; exact h.fs
  · rw [St.seen_world, St.seen_world]; exact h.state
  · rw [St.seen_hashes, St.seen_hashes]; exact h.hashes

theorem deleteOne_apace (env : Env) (c : ClientCfg) {gone : List Effect} {a b : St} (h : Apace gone a b) (r : Resource) :
    (deleteOne env c true b r).2 = (deleteOne env c false a r).2 ∧ (deleteOne env c false a r).1.trace = a.trace ∧
    (deleteOne env c false a r).1.world = a.world ∧
    ∃ gone', Apace gone' (deleteOne env c false a r).1 (deleteOne env c true b r).1 := by
  unfold deleteOne
  cases hm : c.disc.mapper.srcToDst r.uri with
  | error e => exact ⟨rfl, rfl, rfl, gone, h⟩
  | ok fn =>
    have h' := h.seen r.timestamp
    simp only [deleteResource, Bool.false_eq_true, not_false_eq_true, if_true, not_true_eq_false, if_false, true_and]
    refine ⟨St.seen_trace _ _, St.seen_world _ _, ?_⟩
    split
    · exact ⟨gone, h'⟩
    · cases hg : (b.seen r.timestamp).world.fs.get (location env.cwd fn) with
      | none => exact ⟨gone, h'⟩
      | some n =>
        cases n with
        | dir => exact ⟨gone, h'⟩
        | file x y =>
          simp only
          split
          · exact ⟨gone, h'⟩
          · have hf := h'.fs (location env.cwd fn)
            rw [hg] at hf
            have hne : location env.cwd fn ≠ [] := by
              intro e
              rw [e] at hg
              simp [Fs.get] at hg
            split at hf
            · cases hf
            · refine ⟨gone ++ [.unlink (location env.cwd fn)], ?_, ?_, ?_, h'.state, h'.hashes, h'.last_timestamp⟩
              · simp only [St.emit, h'.trace, List.append_assoc]
              · intro e he
                rcases List.mem_append.mp he with he | he
                · exact h'.were e he
                · rw [List.mem_singleton] at he
                  exact ⟨_, he, x, y, hf.symm⟩
              · intro l
                simp only [St.emit, World.apply, Effect.onFs, List.mem_append, List.mem_singleton, Effect.unlink.injEq]
                by_cases hl : l = location env.cwd fn
                · subst hl
                  rw [get_del_self _ _ hne, if_pos (Or.inr rfl)]
                · rw [get_del_other _ _ _ hl, h'.fs]
                  simp only [hl, or_false]

theorem deletions_apace (env : Env) (c : ClientCfg) (rs : List Resource) : ∀ {gone : List Effect} {a b : St}, Apace gone a b →
    (forEach (deleteOne env c true) rs b).2 = (forEach (deleteOne env c false) rs a).2 ∧
    (forEach (deleteOne env c false) rs a).1.trace = a.trace ∧ (forEach (deleteOne env c false) rs a).1.world = a.world ∧
    ∃ gone', Apace gone' (forEach (deleteOne env c false) rs a).1 (forEach (deleteOne env c true) rs b).1 := by
  induction rs with
  | nil => intro gone a b h; exact ⟨rfl, rfl, rfl, gone, h⟩
  | cons r t ih =>
    intro gone a b h
    obtain ⟨h1, h2, h3, gone', h4⟩ := deleteOne_apace env c h r
    simp only [forEach]
    rcases ea : deleteOne env c false a r with ⟨a', x⟩
    rcases eb : deleteOne env c true b r with ⟨b', y⟩
    rw [ea, eb] at h1 h4
    rw [ea] at h2 h3
    simp only at h1 h2 h3 h4
    subst h1
    cases y with
    | error e => exact ⟨rfl, h2, h3, gone', h4⟩
    | ok u =>
      obtain ⟨k1, k2, k3, k4⟩ := ih h4
      exact ⟨k1, k2.trans h2, k3.trans h3, k4⟩

/-- recording the state -/
theorem storeState_apace (env : Env) (c : ClientCfg) {gone : List Effect} {a b : St} (h : Apace gone a b) :
    (storeState env c b).2 = (storeState env c a).2 ∧ (storeState env c b).1.world.state = (storeState env c a).1.world.state ∧
    (storeState env c b).1.world.fs = b.world.fs ∧ (storeState env c a).1.world.fs = a.world.fs ∧
    (storeState env c b).1.hashes = (storeState env c a).1.hashes ∧
    (storeState env c b).1.last_timestamp = (storeState env c a).1.last_timestamp ∧
    ∃ last, (last = [] ∨ ∃ text, last = [Effect.setState text]) ∧ (storeState env c a).1.trace = a.trace ++ last ∧
      (storeState env c b).1.trace = b.trace ++ last := by
  unfold storeState
  cases c.disc.sitemap with
  | error e => exact ⟨rfl, h.state, rfl, rfl, h.hashes, h.last_timestamp, [], .inl rfl, by simp, by simp⟩
  | ok site =>
    simp only [h.state, h.last_timestamp]
    cases setState env.ft a.world.state site (some a.last_timestamp) with
    | error e => exact ⟨rfl, h.state, rfl, rfl, h.hashes, h.last_timestamp, [], .inl rfl, by simp, by simp⟩
    | ok x =>
      cases x with
      | none => exact ⟨rfl, h.state, rfl, rfl, h.hashes, h.last_timestamp, [], .inl rfl, by simp, by simp⟩
      | some text => exact ⟨rfl, rfl, rfl, rfl, h.hashes, h.last_timestamp, [.setState text], .inr ⟨text, rfl⟩, rfl, rfl⟩

end Resync
