import Verif.Proofs.OneSite
import Verif.Proofs.Sites
import Verif.Props.ClientHistory
import Verif.Proofs.ClientDone
/-
What a successful baseline sync leaves behind (lemmas for C50 and C51).
-/

namespace Resync
open Py Resync.Spec

theorem forEach_append {f : St → Resource → St × Except ClientErr Unit} : ∀ {a b : List Resource} {s s1 s2 : St},
    forEach f a s = (s1, .ok ()) → forEach f b s1 = (s2, .ok ()) → forEach f (a ++ b) s = (s2, .ok ()) := by
  intro a
  induction a with
  | nil =>
    intro b s s1 s2 h1 h2
    simp only [forEach, Prod.mk.injEq, and_true] at h1
    rw [h1]; exact h2
  | cons r t ih =>
    intro b s s1 s2 h1 h2
    simp only [List.cons_append, forEach] at h1 ⊢
    cases hr : f s r with
    | mk s' x =>
    rw [hr] at h1
    cases x with
    | error e => simp at h1
    | ok u => exact ih h1 h2

theorem last_occurrence {α : Type} {a : α} {l : List α} (h : a ∈ l) : ∃ pre post, l = pre ++ a :: post ∧ a ∉ post := by
  classical
  obtain ⟨x, y, e, hn⟩ := List.eq_append_cons_of_mem (List.mem_reverse.mpr h)
  refine ⟨y.reverse, x.reverse, ?_, by simpa using hn⟩
  have := congrArg List.reverse e
  simpa using this

/-- The steps of a baseline sync that succeeds -/
theorem baseline_steps {env : Env} {c : ClientCfg} {allow : Bool} {s : St} (hok : (baselineOrAudit env c allow false s).2 = .ok ()) :
    ∃ s1 src cmp dst s0 s2 s3, Planned env c false s s1 src cmp dst ∧ s0.world = s.world ∧ s0.trace = s.trace ∧
      forEach (updateOne env c) (iterList cmp.created ++ iterList cmp.updated) s0 = (s2, .ok ()) ∧
      forEach (deleteOne env c allow) (iterList cmp.deleted) s2 = (s3, .ok ()) ∧
      Did IsSetState s3 (baselineOrAudit env c allow false s).1 := by
  unfold baselineOrAudit at hok ⊢
  cases hp : baselinePlan env c false s with
  | mk s1 x =>
  rw [hp] at hok
  cases x with
  | error e => simp at hok
  | ok x =>
    obtain ⟨src, cmp⟩ := x
    obtain ⟨dst, hpl⟩ := baselinePlan_ok hp
    have hs1 := hpl.state
    have hw1 : s1.world = s.world := by rw [hs1]
    have ht1 : s1.trace = s.trace := by rw [hs1]
    simp only [Bool.false_eq_true, false_or] at hok ⊢
    by_cases hz : cmp.created.length + cmp.updated.length + cmp.deleted.length = 0
    · rw [if_pos hz] at hok ⊢
      have h1 : cmp.created = [] := List.length_eq_zero_iff.mp (by omega)
      have h2 : cmp.updated = [] := List.length_eq_zero_iff.mp (by omega)
      have h3 : cmp.deleted = [] := List.length_eq_zero_iff.mp (by omega)
      have hi : iterList ([] : Dict Resource) = [] := rfl
      refine ⟨s1, src, cmp, dst, s1, s1, s1, hpl, hw1, ht1, ?_, ?_, Did.refl _⟩
      · rw [h1, h2, hi]; rfl
      · rw [h3, hi]; rfl
    · rw [if_neg hz] at hok ⊢
      unfold baselineSync at hok ⊢
      cases ha : baselineAuthority c src with
      | error e => rw [ha] at hok; simp at hok
      | ok u =>
        rw [ha] at hok
        simp only at hok ⊢
        cases h1 : forEach (updateOne env c) (iterList cmp.created) { s1 with last_timestamp := 0 } with
        | mk a x =>
        rw [h1] at hok
        cases x with
        | error e => simp at hok
        | ok _ =>
          simp only at hok ⊢
          cases h2 : forEach (updateOne env c) (iterList cmp.updated) a with
          | mk b x =>
          rw [h2] at hok
          cases x with
          | error e => simp at hok
          | ok _ =>
            simp only at hok ⊢
            cases h3 : forEach (deleteOne env c allow) (iterList cmp.deleted) b with
            | mk d x =>
            rw [h3] at hok
            cases x with
            | error e => simp at hok
            | ok _ =>
              simp only
              refine ⟨s1, src, cmp, dst, { s1 with last_timestamp := 0 }, b, d, hpl, hw1, ht1, forEach_append h1 h2, h3, ?_⟩
              split
              · exact (storeState_did env c d).1.mono (by rintro e ⟨_, t, _, _, h⟩; exact ⟨t, h⟩)
              · exact Did.refl d

/-- deletions make no files -/
theorem deletes_no_new {env : Env} {c : ClientCfg} {allow : Bool} {rs : List Resource} {s s' : St}
    (h : Did (SyncEff env c allow [] rs) s s') {l : Loc} (hf : HasFile s'.world.fs l) : HasFile s.world.fs l := by
  have := moment_inv h (fun w => HasFile w.fs l → HasFile s.world.fs l) id ?_ _ h.final
  · exact this hf
  · intro w e he hw hf
    apply hw
    rcases he with ⟨r, hr, _⟩ | ⟨r, _, fn, _, rfl, _⟩
    · cases hr
    · obtain ⟨b, m, hf⟩ := hf
      unfold IsFile at hf
      simp only [World.apply, Effect.onFs] at hf
      by_cases e : l = location env.cwd fn
      · by_cases hl : l = []
        · rw [hl, get_root] at hf; cases hf
        · rw [← e, get_del_self _ _ hl] at hf; cases hf
      · rw [get_del_other _ _ _ e] at hf
        exact ⟨b, m, hf⟩

/-- What a successful baseline sync leaves behind -/
theorem baseline_result_sites {env : Env} {c : ClientCfg} {allow : Bool} {s : St} {sites : List (Map × Loc)} {src : Dict Resource}
    (hsite : Sites c env.cwd sites s.world.fs) (hh : ∀ t ∈ s.hashes, HashType t) (hk : ListsKeyed env.sources)
    (hfound : (findResourceList env.sources c.disc).2 = .ok src) (hreg : ListBelow sites src)
    (hd : c.dryrun = false) (hi : c.ignore_failures = false) (ht : 0 < c.tries) (hu : ∀ tr l, env.unlinkFails tr l = false)
    (hok : (baselineOrAudit env c allow false s).2 = .ok ()) :
    (∀ p ∈ sites, ∀ names r, names ≠ [] → (∀ n ∈ names, PlainName n) → dget src (uriBelow p.1 names) = some r →
      Fetched env s (baselineOrAudit env c allow false s).1 r (p.2 ++ names) ∨
      ∃ b t, IsFile s.world.fs (p.2 ++ names) b t ∧ IsFile (baselineOrAudit env c allow false s).1.world.fs (p.2 ++ names) b t ∧
        Agrees r b t) ∧
    (allow = true → ∀ p ∈ sites, ∀ names, names ≠ [] → HasFile (baselineOrAudit env c allow false s).1.world.fs (p.2 ++ names) →
      ∃ r, dget src (uriBelow p.1 names) = some r) ∧
    Sites c env.cwd sites (baselineOrAudit env c allow false s).1.world.fs ∧ c.disc.mapper.isUnsafe = .ok false ∧ src ≠ [] := by
  obtain ⟨s1, src', cmp, dst, s0, s2, s3, hpl, hw0, ht0, h1, h2, h3⟩ := baseline_steps hok
  generalize (baselineOrAudit env c allow false s).1 = s' at h3 ⊢
  have hsrc : src' = src := by
    have := hpl.found
    rw [hfound] at this
    cases this; rfl
  subst hsrc
  have pf := planFacts hk hsite.proper hpl
  obtain ⟨dst', k1, k2⟩ := hsite.scan env.lib (leftHashes s src') (fun t ht => hh t (leftHashes_sub ht))
  have hdst : dst' = dst := by
    have := hpl.scan
    rw [k1] at this
    cases this; rfl
  subst hdst
  -- the URIs concerned
  have hsrcNames : ∀ {r : Resource}, dget src' r.uri = some r → ∃ p ∈ sites, ∃ names, names ≠ [] ∧ (∀ n ∈ names, PlainName n) ∧ r.uri = uriBelow p.1 names := by
    intro r hr
    exact hreg _ _ (mem_of_dget hr)
  have hupd : ∀ r ∈ iterList cmp.created ++ iterList cmp.updated, dget src' r.uri = some r := fun r hr => plan_upd_source pf hr
  have hdel : ∀ r ∈ iterList cmp.deleted, dget src' r.uri = none ∧
      ∃ p ∈ sites, ∃ names, names ≠ [] ∧ (∀ n ∈ names, PlainName n) ∧ r.uri = uriBelow p.1 names := by
    intro r hr
    obtain ⟨e1, e2⟩ := (pf.cmp.deleted _ _).mp ((mem_iterList pf.cmp.wf.deleted).mp hr)
    refine ⟨e2, ?_⟩
    obtain ⟨p, hp, names, b, t, hne, hf, hu, -⟩ := (k2 _ _).mp e1
    exact ⟨p, hp, names, hne, names_of_file hsite.tidy hne hf, hu⟩
  have hmap : ∀ {r : Resource} {p q : Map × Loc} {names names' : List Str}, p ∈ sites → q ∈ sites → names ≠ [] → (∀ n ∈ names, PlainName n) → names' ≠ [] →
      (∀ n ∈ names', PlainName n) → r.uri = uriBelow q.1 names' → MapsTo c env.cwd r.uri (p.2 ++ names) → r.uri = uriBelow p.1 names := by
    intro r p q names names' hp hq hne hn hne' hn' hu hl
    rw [hu, hsite.mapsTo hq hne' hn'] at hl
    obtain ⟨rfl, rfl⟩ := hsite.loc_inj hp hq hl
    exact hu
  have dUpd : ∀ (rs : List Resource) (x : St), Did (SyncEff env c allow rs []) x (forEach (updateOne env c) rs x).1 :=
    fun rs x => (forEach_did _ rs (fun r hr s => updateOne_did env c allow rs [] r hr s) x).1
  have dDel : ∀ (rs : List Resource) (x : St), Did (SyncEff env c allow [] rs) x (forEach (deleteOne env c allow) rs x).1 :=
    fun rs x => (forEach_did _ rs (fun r hr s => deleteOne_did env c allow [] rs r hr s) x).1
  have d02 := dUpd (iterList cmp.created ++ iterList cmp.updated) s0
  rw [h1] at d02
  have d23 := dDel (iterList cmp.deleted) s2
  rw [h2] at d23
  have ds0 : ∀ P, Did P s s0 := fun P => Did.same ht0 hw0
  have k34 : ∀ l b t, IsFile s'.world.fs l b t ↔ IsFile s3.world.fs l b t := by
    intro l b t
    refine moment_inv h3 (fun w => IsFile w.fs l b t ↔ IsFile s3.world.fs l b t) Iff.rfl ?_ _ h3.final
    rintro w e ⟨t, rfl⟩ hw
    exact hw
  -- deletions leave the files of listed resources alone
  have k23 : ∀ p ∈ sites, ∀ names r, names ≠ [] → (∀ n ∈ names, PlainName n) → dget src' (uriBelow p.1 names) = some r → ∀ b t,
      (IsFile s3.world.fs (p.2 ++ names) b t ↔ IsFile s2.world.fs (p.2 ++ names) b t) := by
    intro p hp names r hne hn hr b t
    refine did_untouched d23 ?_ b t
    intro r' hr' hl
    simp only [List.nil_append] at hr'
    obtain ⟨e1, q, hq, names', hne', hn', hu'⟩ := hdel r' hr'
    rw [hmap hp hq hne hn hne' hn' hu' hl, hr] at e1
    cases e1
  refine ⟨?_, ?_, ?_, hpl.safe rfl, hpl.some_resource⟩
  · intro p hp names r hne hn hr
    have hru : r.uri = uriBelow p.1 names := pf.wf.2 _ _ hr
    by_cases hin : r ∈ iterList cmp.created ++ iterList cmp.updated
    · left
      obtain ⟨pre, post, hsplit, hlast⟩ := last_occurrence hin
      have h1' := h1
      rw [hsplit] at h1'
      obtain ⟨sa, sb, ha, hb, hc⟩ := forEach_split h1'
      have da := dUpd pre s0
      rw [ha] at da
      have db := (updateOne_did env c allow [r] [] r (by simp) sa).1
      rw [hb] at db
      have dc := dUpd post sb
      rw [hc] at dc
      obtain ⟨fn, hfn, -, hloc⟩ := hsite.maps hp hne hn
      unfold updateOne at hb
      rw [hru, hfn] at hb
      simp only at hb
      cases hup : updateResource env c sa r fn with
      | mk sx res =>
      rw [hup] at hb
      cases res with
      | error e => simp at hb
      | ok n =>
        simp only [Prod.mk.injEq, and_true] at hb
        subst hb
        have hfet := updateResource_fetched env c sa r fn hd hi ht (n := n) (by rw [hup])
        rw [hup, hloc] at hfet
        obtain ⟨b, t, hs, hfile, hmt⟩ := hfet
        refine ⟨b, t, ?_, ?_, hmt⟩
        · exact served_mono (P := fun _ => True) (Q := fun _ => True) (R := fun _ => True)
            ((ds0 _).trans (da.mono (fun _ _ => trivial))) (db.mono (fun _ _ => trivial))
            ((dc.mono (fun _ _ => trivial)).trans ((d23.mono (fun _ _ => trivial)).trans (h3.mono (fun _ _ => trivial)))) hs
        · rw [k34, k23 p hp names r hne hn hr]
          refine (did_untouched dc ?_ b t).mpr hfile
          intro r' hr' hl
          simp only [List.append_nil] at hr'
          have hr2 := hupd r' (by rw [hsplit]; simp [hr'])
          obtain ⟨q, hq, names', hne', hn', hu'⟩ := hsrcNames hr2
          rw [hmap hp hq hne hn hne' hn' hu' hl, hr] at hr2
          cases hr2
          exact hlast hr'
    · right
      have hnc : r ∉ iterList cmp.created := fun h => hin (List.mem_append_left _ h)
      have hnu : r ∉ iterList cmp.updated := fun h => hin (List.mem_append_right _ h)
      rw [mem_iterList pf.cmp.wf.created, pf.cmp.created, hru] at hnc
      rw [mem_iterList pf.cmp.wf.updated, pf.cmp.updated, hru] at hnu
      cases hdg : dget dst' (uriBelow p.1 names) with
      | none => exact absurd ⟨hr, hdg⟩ hnc
      | some a =>
        obtain ⟨q, hq, names', b, t, hne', hf, hu', ha⟩ := (k2 _ _).mp hdg
        have hn' := names_of_file hsite.tidy hne' hf
        obtain ⟨rfl, rfl⟩ := hsite.uri_inj hp hq hne hne' hn hn' hu'
        have heq : a.eq (some r) = true := by
          cases hb : a.eq (some r) with
          | true => rfl
          | false => exact absurd ⟨hr, a, hdg, hb⟩ hnu
        rw [ha, describes_eq pf.wf hr] at heq
        refine ⟨b, t, hf, ?_, heq⟩
        rw [k34, k23 p hp names r hne hn hr]
        refine (did_untouched d02 ?_ b t).mpr (by rw [hw0]; exact hf)
        intro r' hr' hl
        simp only [List.append_nil] at hr'
        have hr2 := hupd r' hr'
        obtain ⟨q, hq, names2, hne2, hn2, hu2⟩ := hsrcNames hr2
        rw [hmap hp hq hne hn hne2 hn2 hu2 hl, hr] at hr2
        cases hr2
        exact hin hr'
  · intro hal p hp names hne hf
    cases hg : dget src' (uriBelow p.1 names) with
    | some r => exact ⟨r, rfl⟩
    | none =>
      exfalso
      have hf3 : HasFile s3.world.fs (p.2 ++ names) := by
        obtain ⟨b, t, hf⟩ := hf
        exact ⟨b, t, (k34 _ _ _).mp hf⟩
      have hf2 := deletes_no_new d23 hf3
      -- updates do not touch it
      by_cases hpn : ∀ n ∈ names, PlainName n
      · have hf0 : HasFile s.world.fs (p.2 ++ names) := by
          obtain ⟨b, t, hf2⟩ := hf2
          refine ⟨b, t, ?_⟩
          rw [← hw0]
          refine (did_untouched d02 ?_ b t).mp hf2
          intro r' hr' hl
          simp only [List.append_nil] at hr'
          have hr2 := hupd r' hr'
          obtain ⟨q, hq, names', hne', hn', hu'⟩ := hsrcNames hr2
          rw [hmap hp hq hne hpn hne' hn' hu' hl, hg] at hr2
          cases hr2
        obtain ⟨b, t, hf0⟩ := hf0
        have hd2 := (k2 (uriBelow p.1 names) _).mpr ⟨p, hp, names, b, t, hne, hf0, rfl, rfl⟩
        generalize describes (Builder.new c.disc.mapper (some (leftHashes s src')) true false) env.lib (uriBelow p.1 names)
          (p.1.dst_path ++ '/' :: join ['/'] names) (fileStat b t) = a at hd2
        have hau : a.uri = uriBelow p.1 names := pf.scanned.1.2 _ _ hd2
        have hin : a ∈ iterList cmp.deleted := by
          rw [mem_iterList pf.cmp.wf.deleted, pf.cmp.deleted, hau]
          exact ⟨hd2, hg⟩
        obtain ⟨pre, post, hsplit⟩ := List.append_of_mem hin
        rw [hsplit] at h2
        obtain ⟨sa, sb, ha, hb, hc⟩ := forEach_split h2
        have dc := dDel post sb
        rw [hc] at dc
        have := deletes_no_new dc hf3
        obtain ⟨fn, hfn, -, hloc⟩ := hsite.maps hp hne hpn
        unfold deleteOne at hb
        rw [hau, hfn] at hb
        simp only [Prod.mk.injEq, and_true] at hb
        rw [← hb, ← hloc, hal] at this
        exact deleteResource_gone env c sa a fn hd hu this
      · -- a name that is not plain cannot have been made
        apply hpn
        have htidy : Tidy s2.world.fs := by
          have := tidy_forEach (updateOne env c) (iterList cmp.created ++ iterList cmp.updated) (by
            intro r hr x hx
            obtain ⟨q, hq, names', hne', hn', hu'⟩ := hsrcNames (hupd r hr)
            obtain ⟨fn, hfn, hone, -⟩ := hsite.maps hq hne' hn'
            unfold updateOne
            rw [hu', hfn]
            simp only
            have := tidy_updateResource env c x r fn hsite.cwdNames hone hx
            cases hup : updateResource env c x r fn with
            | mk sx res =>
            rw [hup] at this
            cases res <;> exact this) s0 (by rw [hw0]; exact hsite.tidy)
          rw [h1] at this
          exact this
        obtain ⟨b, t, hf2⟩ := hf2
        exact names_of_file htidy hne hf2
  · have htidy2 : Tidy s2.world.fs := by
      have := tidy_forEach (updateOne env c) (iterList cmp.created ++ iterList cmp.updated) (by
        intro r hr x hx
        obtain ⟨q, hq, names', hne', hn', hu'⟩ := hsrcNames (hupd r hr)
        obtain ⟨fn, hfn, hone, -⟩ := hsite.maps hq hne' hn'
        unfold updateOne
        rw [hu', hfn]
        simp only
        have := tidy_updateResource env c x r fn hsite.cwdNames hone hx
        cases hup : updateResource env c x r fn with
        | mk sx res =>
        rw [hup] at this
        cases res <;> exact this) s0 (by rw [hw0]; exact hsite.tidy)
      rw [h1] at this
      exact this
    have htidy3 : Tidy s3.world.fs := by
      have := tidy_forEach (deleteOne env c allow) (iterList cmp.deleted) (by
        intro r hr x hx
        unfold deleteOne
        split
        · exact hx
        · exact tidy_deleteResource env c allow x r _ hx) s2 htidy2
      rw [h2] at this
      exact this
    have hfs : s'.world.fs = s3.world.fs := by
      refine moment_inv h3 (fun w => w.fs = s3.world.fs) rfl ?_ _ h3.final
      rintro w e ⟨t, rfl⟩ hw
      exact hw
    rw [hfs]
    refine ⟨hsite.mapper, hsite.nonempty, hsite.src, hsite.dst, hsite.place, hsite.apart, htidy3.proper, htidy3.names, hsite.cwdNames, ?_⟩
    intro p hp hf
    have hf2 := deletes_no_new d23 hf
    apply hsite.notFile p hp
    obtain ⟨b, t, hf2⟩ := hf2
    refine ⟨b, t, ?_⟩
    rw [← hw0]
    refine (did_untouched d02 ?_ b t).mp hf2
    intro r' hr' hl
    simp only [List.append_nil] at hr'
    obtain ⟨q, hq, names', hne', hn', hu'⟩ := hsrcNames (hupd r' hr')
    rw [hu', hsite.mapsTo hq hne' hn'] at hl
    rw [← List.append_nil p.2] at hl
    exact hne' (hsite.loc_inj hp hq hl).2.symm

/-- The same for one site -/
theorem baseline_result {env : Env} {c : ClientCfg} {allow : Bool} {s : St} {m : Map} {root : Loc} {src : Dict Resource}
    (hsite : OneSite c env.cwd m root s.world.fs) (hh : ∀ t ∈ s.hashes, HashType t) (hk : ListsKeyed env.sources)
    (hfound : (findResourceList env.sources c.disc).2 = .ok src) (hreg : ListRegular m src)
    (hd : c.dryrun = false) (hi : c.ignore_failures = false) (ht : 0 < c.tries) (hu : ∀ tr l, env.unlinkFails tr l = false)
    (hok : (baselineOrAudit env c allow false s).2 = .ok ()) :
    (∀ names r, names ≠ [] → (∀ n ∈ names, PlainName n) → dget src (uriBelow m names) = some r →
      Fetched env s (baselineOrAudit env c allow false s).1 r (root ++ names) ∨
      ∃ b t, IsFile s.world.fs (root ++ names) b t ∧ IsFile (baselineOrAudit env c allow false s).1.world.fs (root ++ names) b t ∧
        Agrees r b t) ∧
    (allow = true → ∀ names, names ≠ [] → HasFile (baselineOrAudit env c allow false s).1.world.fs (root ++ names) →
      ∃ r, dget src (uriBelow m names) = some r) ∧
    OneSite c env.cwd m root (baselineOrAudit env c allow false s).1.world.fs ∧ c.disc.mapper.isUnsafe = .ok false ∧ src ≠ [] := by
  obtain ⟨h1, h2, h3, h4, h5⟩ := baseline_result_sites hsite.sites hh hk hfound hreg.below hd hi ht hu hok
  exact ⟨h1 (m, root) (by simp), fun ha => h2 ha (m, root) (by simp), h3.one, h4, h5⟩

end Resync
