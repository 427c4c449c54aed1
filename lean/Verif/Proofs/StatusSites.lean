import Verif.Spec.StatusSites
import Verif.Proofs.ClientLog
import Verif.Proofs.ClientStatus
import Verif.Proofs.Sites
/-
What the comparison of a baseline sync or audit consists of, with several sites.
-/

namespace Resync
open Py Resync.Spec

theorem compares_at {env : Env} {c : ClientCfg} {audit : Bool} {s s1 : St} {sites : List (Map × Loc)} {src : Dict Resource} {cmp : Comparison}
    (hsites : Sites c env.cwd sites s.world.fs) (hh : ∀ t ∈ s.hashes, HashType t) (hk : ListsKeyed env.sources)
    (hp : baselinePlan env c audit s = (s1, .ok (src, cmp))) :
    ComparesAt sites src s.world.fs cmp.same.length cmp.created.length cmp.updated.length cmp.deleted.length ∧ AllWF cmp := by
  obtain ⟨dst, hpl⟩ := baselinePlan_ok hp
  have pf := planFacts hk hsites.proper hpl
  have hw := pf.wf
  obtain ⟨dst', k1, k2⟩ := hsites.scan env.lib (leftHashes s src) (fun t ht => hh t (leftHashes_sub ht))
  have hdst : dst' = dst := by
    have := hpl.scan
    rw [k1] at this
    cases this; rfl
  subst hdst
  have hmem : ∀ u r, (u, r) ∈ src ↔ dget src u = some r := fun u r => ⟨dget_of_mem hw.1, mem_of_dget⟩
  -- what there is of a local file
  have hfile : ∀ u a, dget dst' u = some a → ∃ b t, SiteFile sites s.world.fs u b t ∧
      (∀ r, (u, r) ∈ src → (a.eq (some r) = true ↔ Agrees r b t)) ∧ ∀ b' t', SiteFile sites s.world.fs u b' t' → b' = b ∧ t' = t := by
    intro u a ha
    obtain ⟨p, hp', names, b, t, hne, hf, rfl, rfl⟩ := (k2 u a).mp ha
    refine ⟨b, t, ⟨p, hp', names, hne, rfl, hf⟩, fun r hr => describes_eq hw ((hmem _ _).mp hr), ?_⟩
    rintro b' t' ⟨q, hq, names', hne', e, hf'⟩
    obtain ⟨rfl, rfl⟩ := hsites.uri_inj hp' hq hne hne' (names_of_file hsites.tidy hne hf) (names_of_file hsites.tidy hne' hf') e
    unfold IsFile at hf hf'
    rw [hf] at hf'
    simp only [Option.some.injEq, FsNode.file.injEq] at hf'
    exact ⟨hf'.1.symm, hf'.2.symm⟩
  have hnone : ∀ u, dget dst' u = none ↔ ∀ b t, ¬ SiteFile sites s.world.fs u b t := by
    intro u
    constructor
    · rintro h b t ⟨p, hp', names, hne, e, hf⟩
      have := (k2 u _).mpr ⟨p, hp', names, b, t, hne, hf, e, rfl⟩
      rw [h] at this
      cases this
    · intro h
      cases e : dget dst' u with
      | none => rfl
      | some a =>
        obtain ⟨b, t, h1, -⟩ := hfile u a e
        exact absurd h1 (h b t)
  have hc := pf.cmp
  refine ⟨⟨count_dict hc.wf.same ?_, count_dict hc.wf.created ?_, count_dict hc.wf.updated ?_, count_dict hc.wf.deleted ?_⟩, hc.wf⟩
  · intro u
    simp only [hc.same]
    constructor
    · rintro ⟨a, h1, r, h2, h3⟩
      obtain ⟨b, t, f1, f2, -⟩ := hfile u a h1
      exact ⟨r, mem_of_dget h2, b, t, f1, (f2 r (mem_of_dget h2)).mp h3⟩
    · rintro ⟨r, h1, b, t, h2, h3⟩
      cases e : dget dst' u with
      | none => exact absurd h2 ((hnone u).mp e b t)
      | some a =>
        obtain ⟨b', t', f1, f2, f3⟩ := hfile u a e
        obtain ⟨rfl, rfl⟩ := f3 b t h2
        exact ⟨a, rfl, r, (hmem _ _).mp h1, (f2 r h1).mpr h3⟩
  · intro u
    simp only [hc.created, hnone, MissingAt, hmem]
    constructor
    · rintro ⟨r, h1, h2⟩; exact ⟨⟨r, h1⟩, h2⟩
    · rintro ⟨⟨r, h1⟩, h2⟩; exact ⟨r, h1, h2⟩
  · intro u
    simp only [hc.updated]
    constructor
    · rintro ⟨r, h1, a, h2, h3⟩
      obtain ⟨b, t, f1, f2, -⟩ := hfile u a h2
      refine ⟨r, mem_of_dget h1, b, t, f1, fun h => ?_⟩
      rw [(f2 r (mem_of_dget h1)).mpr h] at h3
      cases h3
    · rintro ⟨r, h1, b, t, h2, h3⟩
      cases e : dget dst' u with
      | none => exact absurd h2 ((hnone u).mp e b t)
      | some a =>
        obtain ⟨b', t', f1, f2, f3⟩ := hfile u a e
        obtain ⟨rfl, rfl⟩ := f3 b t h2
        refine ⟨r, (hmem _ _).mp h1, a, rfl, ?_⟩
        rw [← Bool.not_eq_true, f2 r h1]
        exact h3
  · intro u
    simp only [hc.deleted]
    constructor
    · rintro ⟨a, h1, h2⟩
      obtain ⟨b, t, f1, -⟩ := hfile u a h1
      refine ⟨fun r hr => ?_, b, t, f1⟩
      rw [(hmem _ _).mp hr] at h2
      cases h2
    · rintro ⟨h1, b, t, h2⟩
      cases e : dget dst' u with
      | none => exact absurd h2 ((hnone u).mp e b t)
      | some a =>
        refine ⟨a, rfl, ?_⟩
        cases e2 : dget src u with
        | none => rfl
        | some r => exact absurd ((hmem _ _).mpr e2) (h1 r)

/-- the same, as sets of URIs -/
theorem compares_sets_at {env : Env} {c : ClientCfg} {audit : Bool} {s s1 : St} {sites : List (Map × Loc)} {src : Dict Resource} {cmp : Comparison}
    (hsites : Sites c env.cwd sites s.world.fs) (hh : ∀ t ∈ s.hashes, HashType t) (hk : ListsKeyed env.sources)
    (hp : baselinePlan env c audit s = (s1, .ok (src, cmp))) :
    AllWF cmp ∧ (∀ u, (∃ r, dget cmp.created u = some r) ↔ MissingAt sites src s.world.fs u) ∧
    (∀ u, (∃ r, dget cmp.updated u = some r) ↔ OutdatedAt sites src s.world.fs u) ∧
    (∀ u, (∃ r, dget cmp.deleted u = some r) ↔ SurplusAt sites src s.world.fs u) := by
  obtain ⟨dst, hpl⟩ := baselinePlan_ok hp
  have pf := planFacts hk hsites.proper hpl
  have hw := pf.wf
  obtain ⟨dst', k1, k2⟩ := hsites.scan env.lib (leftHashes s src) (fun t ht => hh t (leftHashes_sub ht))
  have hdst : dst' = dst := by
    have := hpl.scan
    rw [k1] at this
    cases this; rfl
  subst hdst
  have hmem : ∀ u r, (u, r) ∈ src ↔ dget src u = some r := fun u r => ⟨dget_of_mem hw.1, mem_of_dget⟩
  -- what there is of a local file
  have hfile : ∀ u a, dget dst' u = some a → ∃ b t, SiteFile sites s.world.fs u b t ∧
      (∀ r, (u, r) ∈ src → (a.eq (some r) = true ↔ Agrees r b t)) ∧ ∀ b' t', SiteFile sites s.world.fs u b' t' → b' = b ∧ t' = t := by
    intro u a ha
    obtain ⟨p, hp', names, b, t, hne, hf, rfl, rfl⟩ := (k2 u a).mp ha
    refine ⟨b, t, ⟨p, hp', names, hne, rfl, hf⟩, fun r hr => describes_eq hw ((hmem _ _).mp hr), ?_⟩
    rintro b' t' ⟨q, hq, names', hne', e, hf'⟩
    obtain ⟨rfl, rfl⟩ := hsites.uri_inj hp' hq hne hne' (names_of_file hsites.tidy hne hf) (names_of_file hsites.tidy hne' hf') e
    unfold IsFile at hf hf'
    rw [hf] at hf'
    simp only [Option.some.injEq, FsNode.file.injEq] at hf'
    exact ⟨hf'.1.symm, hf'.2.symm⟩
  have hnone : ∀ u, dget dst' u = none ↔ ∀ b t, ¬ SiteFile sites s.world.fs u b t := by
    intro u
    constructor
    · rintro h b t ⟨p, hp', names, hne, e, hf⟩
      have := (k2 u _).mpr ⟨p, hp', names, b, t, hne, hf, e, rfl⟩
      rw [h] at this
      cases this
    · intro h
      cases e : dget dst' u with
      | none => rfl
      | some a =>
        obtain ⟨b, t, h1, -⟩ := hfile u a e
        exact absurd h1 (h b t)
  have hc := pf.cmp
  refine ⟨hc.wf, ?_, ?_, ?_⟩
  · intro u
    simp only [hc.created, hnone, MissingAt, hmem]
    constructor
    · rintro ⟨r, h1, h2⟩; exact ⟨⟨r, h1⟩, h2⟩
    · rintro ⟨⟨r, h1⟩, h2⟩; exact ⟨r, h1, h2⟩
  · intro u
    simp only [hc.updated, OutdatedAt]
    constructor
    · rintro ⟨r, h1, a, h2, h3⟩
      obtain ⟨b, t, f1, f2, -⟩ := hfile u a h2
      refine ⟨r, mem_of_dget h1, b, t, f1, fun hag => ?_⟩
      rw [(f2 r (mem_of_dget h1)).mpr hag] at h3
      cases h3
    · rintro ⟨r, h1, b, t, h2, h3⟩
      cases e : dget dst' u with
      | none => exact absurd h2 ((hnone u).mp e b t)
      | some a =>
        obtain ⟨b', t', f1, f2, f3⟩ := hfile u a e
        obtain ⟨rfl, rfl⟩ := f3 b t h2
        refine ⟨r, (hmem _ _).mp h1, a, rfl, ?_⟩
        cases hx : a.eq (some r) with
        | false => rfl
        | true => exact absurd ((f2 r h1).mp hx) h3
  · intro u
    simp only [hc.deleted, SurplusAt, hmem]
    constructor
    · rintro ⟨a, h1, h2⟩
      obtain ⟨b, t, f1, -⟩ := hfile u a h1
      exact ⟨fun r hr => (by rw [h2] at hr; cases hr), b, t, f1⟩
    · rintro ⟨h1, b, t, h2⟩
      cases e : dget dst' u with
      | none => exact absurd h2 ((hnone u).mp e b t)
      | some a =>
        refine ⟨a, rfl, ?_⟩
        cases hs : dget src u with
        | none => rfl
        | some r => exact absurd hs (h1 r)

end Resync
