import Verif.Spec.Refusal
import Verif.Proofs.Client
/-
Lemmas for C127: authority checks.
-/

namespace Resync
open Py Resync.Spec

theorem new_lax {u : Option Str} {a : UrlAuthority} {strict : Bool} (h : UrlAuthority.new u strict = some a) (strict' : Bool) :
    UrlAuthority.new u strict' = some { a with strict := strict' } := by
  unfold UrlAuthority.new at h ⊢
  cases u with
  | none => cases h; rfl
  | some u =>
    simp only at h ⊢
    cases hu : urlparse u with
    | none => rw [hu] at h; cases h
    | some m => rw [hu] at h; cases h; rfl

theorem authority_lax {a : UrlAuthority} {u : Str} {b : Bool} (h : a.hasAuthorityOver u = some b) :
    ∃ b', ({ a with strict := false } : UrlAuthority).hasAuthorityOver u = some b' ∧ (b = true → b' = true) := by
  unfold UrlAuthority.hasAuthorityOver at h ⊢
  cases hu : urlparse u with
  | none => rw [hu] at h; cases h
  | some m =>
    rw [hu] at h
    simp only at h ⊢
    split
    · rename_i h1
      rw [if_pos h1] at h
      exact ⟨_, rfl, fun e => by rw [e] at h; cases h⟩
    · rename_i h1
      rw [if_neg h1] at h
      split
      · rename_i h2
        rw [if_pos h2] at h
        exact ⟨_, rfl, fun e => by rw [e] at h; cases h⟩
      · exact ⟨true, by simp, fun _ => rfl⟩

theorem checkAuthority_lax {sitemap : Str} {strict : Bool} {rs : List Resource} (h : checkAuthority sitemap strict rs = .ok ()) :
    checkAuthority sitemap false rs = .ok () := by
  unfold checkAuthority at h ⊢
  cases hn : UrlAuthority.new (some sitemap) strict with
  | none => rw [hn] at h; cases h
  | some a =>
    rw [hn] at h
    rw [new_lax hn false]
    simp only at h ⊢
    induction rs with
    | nil => rfl
    | cons r rs ih =>
      unfold checkAuthority.go at h ⊢
      cases hb : a.hasAuthorityOver r.uri with
      | none => rw [hb] at h; cases h
      | some b =>
        rw [hb] at h
        cases b with
        | false => cases h
        | true =>
          obtain ⟨b', e, hb'⟩ := authority_lax hb
          rw [e, hb' rfl]
          exact ih h

theorem checkChangeAuthority_lax {cs sm : UrlAuthority} {rs : List Resource} (h : checkChangeAuthority cs sm rs = .ok ()) :
    checkChangeAuthority { cs with strict := false } sm rs = .ok () := by
  induction rs with
  | nil => rfl
  | cons r rs ih =>
    unfold checkChangeAuthority at h ⊢
    cases hb : cs.hasAuthorityOver r.uri with
    | none => rw [hb] at h; cases h
    | some b =>
      rw [hb] at h
      obtain ⟨b', e, hb'⟩ := authority_lax hb
      rw [e]
      cases b with
      | true => rw [hb' rfl]; exact ih h
      | false =>
        simp only at h
        cases hs : sm.hasAuthorityOver r.uri with
        | none => rw [hs] at h; cases h
        | some d =>
          rw [hs] at h
          cases d with
          | false => cases h
          | true =>
            cases b' with
            | true => exact ih h
            | false => exact ih h

/-- two ways of checking of which the first accepts less -/
structure Accepts (c c' : ClientCfg) : Prop where
  baseline : ∀ src, baselineAuthority c src = .ok () → baselineAuthority c' src = .ok ()
  changes : ∀ u x cl, incrementalAuthority c u x cl = .ok () → incrementalAuthority c' u x cl = .ok ()

theorem accepts_noauth (c : ClientCfg) : Accepts c { c with noauth := true } :=
  ⟨fun _ _ => by simp [baselineAuthority], fun _ _ _ _ => by simp [incrementalAuthority]⟩

theorem accepts_lax (c : ClientCfg) : Accepts c { c with strictauth := false } where
  baseline := by
    intro src h
    unfold baselineAuthority at h ⊢
    simp only
    split
    · rfl
    · rename_i hn
      rw [if_neg hn] at h
      cases hs : c.disc.sitemap with
      | error e => rw [hs] at h; cases h
      | ok sm => rw [hs] at h; exact checkAuthority_lax h
  changes := by
    intro u x cl h
    unfold incrementalAuthority at h ⊢
    simp only
    split
    · rfl
    · rename_i hn
      rw [if_neg hn] at h
      cases hc : UrlAuthority.new (some u) c.strictauth with
      | none => rw [hc] at h; cases h
      | some cs =>
        rw [hc] at h
        rw [new_lax hc false]
        simp only at h ⊢
        cases x with
        | true => rfl
        | false =>
          simp only [Bool.false_eq_true, if_false] at h ⊢
          cases hs : c.disc.sitemap with
          | error e => rw [hs] at h; cases h
          | ok sm =>
            rw [hs] at h
            simp only at h ⊢
            cases hm : UrlAuthority.new (some sm) false with
            | none => rw [hm] at h; cases h
            | some a => rw [hm] at h; exact checkChangeAuthority_lax h

/-- … with all other settings the same -/
theorem baseline_only_refuses (env : Env) (c : ClientCfg) (n t : Bool) (hacc : Accepts c { c with noauth := n, strictauth := t }) (allow audit : Bool) (s : St) :
    OnlyRefuses s (baselineOrAudit env c allow audit s) (baselineOrAudit env { c with noauth := n, strictauth := t } allow audit s) := by
  obtain ⟨p1, p2, -⟩ := baselinePlan_same env c audit s
  unfold baselineOrAudit
  have hp' : baselinePlan env { c with noauth := n, strictauth := t } audit s = baselinePlan env c audit s := rfl
  rw [hp']
  rcases hp : baselinePlan env c audit s with ⟨s1, x⟩
  rw [hp] at p1 p2
  cases x with
  | error e => exact .inl rfl
  | ok y =>
    obtain ⟨src, cmp⟩ := y
    simp only
    split
    · exact .inl rfl
    · unfold baselineSync
      have ha := hacc.baseline src
      cases hb : baselineAuthority c src with
      | error e => exact .inr ⟨⟨e, rfl⟩, p2, p1⟩
      | ok u => rw [ha hb]; exact .inl rfl

theorem incremental_only_refuses (env : Env) (c : ClientCfg) (n t : Bool) (hacc : Accepts c { c with noauth := n, strictauth := t }) (allow : Bool)
    (uri from_datetime : Option Str) (s : St) :
    OnlyRefuses s (incremental env c allow uri from_datetime s) (incremental env { c with noauth := n, strictauth := t } allow uri from_datetime s) := by
  obtain ⟨p1, p2⟩ := incrementalPlan_same env c uri from_datetime s
  have key : incrementalPlan env { c with noauth := n, strictauth := t } uri from_datetime s = incrementalPlan env c uri from_datetime s ∨
      ∃ e, (incrementalPlan env c uri from_datetime s).2 = .error e := by
    unfold incrementalPlan
    dsimp only
    split
    · exact .inl rfl
    · cases c.disc.mapper.isUnsafe with
      | error e => exact .inl rfl
      | ok b =>
        cases b with
        | true => exact .inl rfl
        | false =>
          simp only
          have e0 : startTime env { c with noauth := n, strictauth := t } from_datetime s = startTime env c from_datetime s := rfl
          rw [e0]
          cases startTime env c from_datetime s with
          | error e => exact .inl rfl
          | ok ft =>
            simp only
            have e1 : ({ c with noauth := n, strictauth := t } : ClientCfg).changeListName uri = c.changeListName uri := rfl
            rw [e1]
            cases c.disc.sitemapUri (c.changeListName uri) with
            | error e => exact .inl rfl
            | ok u =>
              simp only
              cases env.changeList u with
              | none => exact .inl rfl
              | some cl =>
                simp only
                split
                · exact .inl rfl
                · cases checkTimes cl 0 with
                  | error e => exact .inl rfl
                  | ok last =>
                    simp only
                    have ha := hacc.changes u (givenUri uri) cl
                    cases hb : incrementalAuthority c u (givenUri uri) cl with
                    | error e => exact .inr ⟨e, rfl⟩
                    | ok v => rw [ha hb]; exact .inl rfl
  unfold incremental
  rcases key with h | ⟨e, h⟩
  · rw [h]; exact .inl rfl
  · rcases hp : incrementalPlan env c uri from_datetime s with ⟨s1, x⟩
    rw [hp] at p1 p2 h
    cases h
    exact .inr ⟨⟨e, rfl⟩, p2, p1⟩

end Resync
