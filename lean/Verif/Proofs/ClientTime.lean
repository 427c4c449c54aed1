import Verif.Proofs.ClientRun
import Verif.Proofs.ClientState
import Mathlib.Algebra.Order.Field.Rat
import Mathlib.Tactic.Linarith
/- The attribute last_timestamp, the stored state, and what successful runs have gone through. -/

namespace Resync
open Py Resync.Spec

theorem seen_last (s : St) (t : Option Rat) :
    ((s.seen t).last_timestamp = s.last_timestamp ∨ t = some (s.seen t).last_timestamp) ∧ s.last_timestamp ≤ (s.seen t).last_timestamp := by
  unfold St.seen
  split
  · split
    · rename_i h
      exact ⟨.inr rfl, le_of_lt h⟩
    · exact ⟨.inl rfl, le_refl _⟩
  · exact ⟨.inl rfl, le_refl _⟩

/-- last_timestamp is what it was, or one of these -/
def LastIn (P : Rat → Prop) (s s' : St) : Prop :=
  (s'.last_timestamp = s.last_timestamp ∨ P s'.last_timestamp) ∧ s.last_timestamp ≤ s'.last_timestamp

theorem LastIn.refl {P : Rat → Prop} (s : St) : LastIn P s s := ⟨.inl rfl, le_refl _⟩

theorem LastIn.eq {P : Rat → Prop} {s s' : St} (h : s'.last_timestamp = s.last_timestamp) : LastIn P s s' :=
  ⟨.inl h, by rw [h]⟩

theorem LastIn.trans {P : Rat → Prop} {a b c : St} (h : LastIn P a b) (h' : LastIn P b c) : LastIn P a c := by
  refine ⟨?_, le_trans h.2 h'.2⟩
  rcases h'.1 with e | e
  · rw [e]; exact h.1
  · exact .inr e

theorem LastIn.mono {P Q : Rat → Prop} {a b : St} (h : LastIn P a b) (hPQ : ∀ t, P t → Q t) : LastIn Q a b :=
  ⟨h.1.imp_right (hPQ _), h.2⟩

theorem setTime_last (s : St) (l : Loc) (t : Option Rat) : LastIn (fun x => t = some x) s (setTime s l t).1 := by
  unfold setTime
  split
  · exact LastIn.refl s
  · split
    · exact LastIn.refl s
    · rename_i t
      exact seen_last (s.emit (.utime l (truncRat t))) (some t)

theorem updateResource_last (env : Env) (c : ClientCfg) (s : St) (r : Resource) (filename : Str) :
    LastIn (fun x => r.timestamp = some x) s (updateResource env c s r filename).1 := by
  obtain ⟨-, m2, -⟩ := mkpath_did env [] (location env.cwd (dirname filename)) s
  unfold updateResource
  cases hm : mkpath env [] (location env.cwd (dirname filename)) s with
  | mk s1 b =>
  rw [hm] at m2
  cases b with
  | false => exact LastIn.eq m2
  | true =>
    simp only
    split
    · exact LastIn.eq m2
    · obtain ⟨-, g2, -⟩ := getLoop_did env c.ignore_failures r.uri (location env.cwd filename) c.tries s1
      cases hg : getLoop env c.ignore_failures r.uri (location env.cwd filename) c.tries s1 with
      | mk s2 g =>
      rw [hg] at g2
      have h2 : LastIn (fun x => r.timestamp = some x) s s2 := LastIn.eq (g2.trans m2)
      have h3 := h2.trans (setTime_last s2 (location env.cwd filename) r.timestamp)
      cases g with
      | raised e => exact h2
      | gaveUp => exact h2
      | updated =>
        simp only
        cases ht : setTime s2 (location env.cwd filename) r.timestamp with
        | mk s3 x => rw [ht] at h3; cases x <;> exact h3
      | skipped =>
        simp only
        cases ht : setTime s2 (location env.cwd filename) r.timestamp with
        | mk s3 x => rw [ht] at h3; cases x <;> exact h3

theorem deleteResource_last (env : Env) (c : ClientCfg) (allow : Bool) (s : St) (r : Resource) (filename : Str) :
    LastIn (fun x => r.timestamp = some x) s (deleteResource env c allow s r filename).1 := by
  obtain ⟨-, -, h⟩ := deleteResource_did env c allow s r filename
  unfold LastIn
  rw [h]
  exact seen_last s r.timestamp

theorem updateOne_last (env : Env) (c : ClientCfg) (s : St) (r : Resource) :
    LastIn (fun x => r.timestamp = some x) s (updateOne env c s r).1 := by
  unfold updateOne
  split
  · exact LastIn.refl s
  · rename_i fn _
    have := updateResource_last env c s r fn
    cases hu : updateResource env c s r fn with
    | mk s1 x => rw [hu] at this; cases x <;> exact this

theorem deleteOne_last (env : Env) (c : ClientCfg) (allow : Bool) (s : St) (r : Resource) :
    LastIn (fun x => r.timestamp = some x) s (deleteOne env c allow s r).1 := by
  unfold deleteOne
  split
  · exact LastIn.refl s
  · exact deleteResource_last env c allow s r _

theorem applyOne_last (env : Env) (c : ClientCfg) (allow : Bool) (s : St) (r : Resource) :
    LastIn (fun x => r.timestamp = some x) s (applyOne env c allow s r).1 := by
  unfold applyOne
  split
  · exact LastIn.refl s
  · rename_i fn _
    split
    · have := updateResource_last env c s r fn
      cases hu : updateResource env c s r fn with
      | mk s1 x => rw [hu] at this; cases x <;> exact this
    · split
      · exact deleteResource_last env c allow s r fn
      · exact LastIn.refl s

theorem forEach_last {f : St → Resource → St × Except ClientErr Unit} (rs : List Resource)
    (hf : ∀ r ∈ rs, ∀ s, LastIn (fun x => r.timestamp = some x) s (f s r).1) (s : St) :
    LastIn (fun x => ∃ r ∈ rs, r.timestamp = some x) s (forEach f rs s).1 := by
  induction rs generalizing s with
  | nil => exact LastIn.refl s
  | cons r t ih =>
    have h1 := (hf r (by simp) s).mono (Q := fun x => ∃ r' ∈ r :: t, r'.timestamp = some x) (fun x hx => ⟨r, by simp, hx⟩)
    simp only [forEach]
    cases hr : f s r with
    | mk s1 x =>
    rw [hr] at h1
    cases x with
    | error e => exact h1
    | ok _ =>
      exact h1.trans ((ih (fun r' hr' => hf r' (by simp [hr'])) s1).mono (fun x ⟨r', hr', h⟩ => ⟨r', by simp [hr'], h⟩))

/-! ### The stored state -/

theorem apply_state {w : World} {e : Effect} (h : ¬ IsSetState e) : (w.apply e).state = w.state := by
  cases e with
  | setState t => exact absurd ⟨t, rfl⟩ h
  | _ => rfl

theorem syncEff_notState {env : Env} {c : ClientCfg} {allow : Bool} {upd del : List Resource} {e : Effect}
    (h : SyncEff env c allow upd del e) : ¬ IsSetState e := by
  rintro ⟨t, rfl⟩
  rcases h with ⟨r, _, fn, _, hu⟩ | ⟨r, _, fn, _, h, _⟩
  · rcases hu with ⟨d, h, _⟩ | ⟨_, (h | ⟨_, _, h⟩ | ⟨_, _, h⟩) | ⟨_, h⟩⟩ <;> cases h
  · cases h

theorem did_state {P : Effect → Prop} {s s' : St} (h : Did P s s') (hP : ∀ e, P e → ¬ IsSetState e) :
    s'.world.state = s.world.state ∧ ∀ w, AtSomeMoment s s' w → w.state = s.world.state := by
  have := moment_inv h (fun w => w.state = s.world.state) rfl (fun w e he hw => by rw [apply_state (hP e he), hw])
  exact ⟨this _ h.final, this⟩

/-- Everything done up to a point, then perhaps one more thing -/
theorem moment_emit {P : Effect → Prop} {s s' : St} (h : Did P s s') (e : Effect) {w : World}
    (hw : AtSomeMoment s (s'.emit e) w) : AtSomeMoment s s' w ∨ w = (s'.emit e).world := by
  obtain ⟨es, h1, h2, -⟩ := h
  obtain ⟨k, rfl⟩ := hw
  have d1 : doneBetween s (s'.emit e) = es ++ [e] := by
    unfold doneBetween St.emit
    simp only
    rw [h1, List.append_assoc, List.drop_left]
  have d2 : doneBetween s s' = es := by
    unfold doneBetween
    rw [h1, List.drop_left]
  rw [d1]
  by_cases hk : k ≤ es.length
  · left
    refine ⟨k, ?_⟩
    rw [d2, List.take_append_of_le_length hk]
  · right
    rw [List.take_of_length_le (by simp; omega), List.foldl_append, ← h2]
    rfl

/-- What storeState does -/
theorem storeState_cases (env : Env) (c : ClientCfg) (s : St) :
    (∃ site text, c.disc.sitemap = .ok site ∧ setState env.ft s.world.state site (some s.last_timestamp) = .ok (some text) ∧
      storeState env c s = (s.emit (.setState text), logTime s.last_timestamp)) ∨ (storeState env c s).1 = s := by
  unfold storeState
  split
  · exact .inr rfl
  · rename_i site hs
    split
    · exact .inr rfl
    · exact .inr rfl
    · rename_i text ht
      exact .inl ⟨site, text, hs, ht, rfl⟩

/-! ### Successful loops -/

theorem forEach_split {f : St → Resource → St × Except ClientErr Unit} {pre post : List Resource} {r : Resource} {s s' : St}
    (h : forEach f (pre ++ r :: post) s = (s', .ok ())) :
    ∃ s1 s2, forEach f pre s = (s1, .ok ()) ∧ f s1 r = (s2, .ok ()) ∧ forEach f post s2 = (s', .ok ()) := by
  induction pre generalizing s with
  | nil =>
    simp only [List.nil_append, forEach] at h
    cases hr : f s r with
    | mk s2 x =>
    rw [hr] at h
    cases x with
    | error e => simp at h
    | ok _ => exact ⟨s, s2, rfl, hr, h⟩
  | cons a t ih =>
    simp only [List.cons_append, forEach] at h
    cases hr : f s a with
    | mk s2 x =>
    rw [hr] at h
    cases x with
    | error e => simp at h
    | ok _ =>
      obtain ⟨s1, s2', h1, h2, h3⟩ := ih h
      exact ⟨s1, s2', by simp only [forEach, hr]; exact h1, h2, h3⟩

end Resync
