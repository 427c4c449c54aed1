import Verif.Proofs.Postpone
import Verif.Props.ClientResult
import Verif.Props.ClientSites
/-
C123: allowing deletions adds removals to a baseline sync and changes nothing else, so that they can be left to a later sync.
-/

namespace Resync
open Py Resync.Spec

theorem onlyRemoves_same {s a : St} (ht : ∃ es, a.trace = s.trace ++ es ∧ ∀ e ∈ es, isRemoval e = false) : OnlyRemoves s a a := by
  obtain ⟨es, h1, h2⟩ := ht
  refine ⟨⟨es, [], [], ?_, ?_, by simp, by simpa using h2, .inl rfl, by simp⟩, rfl, rfl, rfl⟩ <;>
    · unfold doneBetween
      rw [h1, List.drop_left]
      simp

theorem not_removal (env : Env) (c : ClientCfg) (audit : Bool) (s : St) :
    ∃ es, (baselineOrAudit env c false audit s).1.trace = s.trace ++ es ∧ ∀ e ∈ es, isRemoval e = false := by
  obtain ⟨es, h1, -, h3⟩ := baseline_did env c false audit s
  refine ⟨es, h1, fun e he => ?_⟩
  obtain ⟨-, s1, src, cmp, dst, -, -, h⟩ := h3 e he
  rcases h with h | ⟨t, rfl⟩
  · cases e with
    | unlink l =>
      rcases syncEff_at h (l := l) (.inr (.inr (.inr rfl))) with ⟨_, _, _, _, h⟩ | ⟨_, _, _, _, h, _⟩
      · exact absurd rfl h
      · cases h
    | _ => rfl
  · rfl

/-- C123.  Whatever the source, the mapping, the options, the disk, and however server and disk behave: a baseline sync (or audit)
which may delete does what the one which may not delete does, with the same result, and, after all downloads, removes some files. -/
theorem C123_adds (env : Env) (c : ClientCfg) (audit_only : Bool) (s : St) :
    (baselineOrAudit env c true audit_only s).2 = (baselineOrAudit env c false audit_only s).2 ∧
    OnlyRemoves s (baselineOrAudit env c false audit_only s).1 (baselineOrAudit env c true audit_only s).1 := by
  have hnr := not_removal env c audit_only s
  have h0 := (baselinePlan_same env c audit_only s).2.1
  revert hnr h0
  unfold baselineOrAudit
  cases hp : baselinePlan env c audit_only s with
  | mk s1 x =>
    cases x with
    | error e => exact fun hnr _ => ⟨rfl, onlyRemoves_same hnr⟩
    | ok y =>
      obtain ⟨src, cmp⟩ := y
      simp only
      split
      · exact fun hnr _ => ⟨rfl, onlyRemoves_same hnr⟩
      · unfold baselineSync
        cases baselineAuthority c src with
        | error e => exact fun hnr _ => ⟨rfl, onlyRemoves_same hnr⟩
        | ok u =>
          simp only
          cases h1 : forEach (updateOne env c) (iterList cmp.created) { s1 with last_timestamp := 0 } with
          | mk s2 x =>
          cases x with
          | error e => exact fun hnr _ => ⟨rfl, onlyRemoves_same hnr⟩
          | ok u =>
          simp only
          cases h2 : forEach (updateOne env c) (iterList cmp.updated) s2 with
          | mk s3 x =>
          cases x with
          | error e => exact fun hnr _ => ⟨rfl, onlyRemoves_same hnr⟩
          | ok u =>
          simp only
          obtain ⟨k1, k2, k3, gone, k4⟩ := deletions_apace env c (iterList cmp.deleted) (Apace.refl s3)
          rcases ea : forEach (deleteOne env c false) (iterList cmp.deleted) s3 with ⟨a, x⟩
          rcases eb : forEach (deleteOne env c true) (iterList cmp.deleted) s3 with ⟨b, y⟩
          rw [ea, eb] at k1 k4
          simp only at k1 k4
          subst k1
          -- the end, with or without a record
          have fin : ∀ (a' b' : St) (last : List Effect), (last = [] ∨ ∃ text, last = [Effect.setState text]) → a'.trace = a.trace ++ last →
              b'.trace = b.trace ++ last → a'.world.fs = a.world.fs → b'.world.fs = b.world.fs → b'.world.state = a'.world.state →
              b'.hashes = a'.hashes → b'.last_timestamp = a'.last_timestamp → (∃ es, a.trace = s.trace ++ es) →
              (∃ es, a'.trace = s.trace ++ es ∧ ∀ e ∈ es, isRemoval e = false) → OnlyRemoves s a' b' := by
            rintro a' b' last hl ta tb fa fb hs hh hlt ⟨es, hes⟩ ⟨es', hes', hnr⟩
            have e' : es' = es ++ last := by
              rw [hes, List.append_assoc] at ta
              rw [ta] at hes'
              exact (List.append_cancel_left hes').symm
            refine ⟨⟨es, gone, last, ?_, ?_, ?_, by rw [← e']; exact hnr, hl, ?_⟩, hs, hh, hlt⟩
            · unfold doneBetween
              rw [hes', List.drop_left, e']
            · unfold doneBetween
              rw [tb, k4.trace, hes]
              simp only [List.append_assoc, List.drop_left]
            · rw [fa]; exact k4.were
            · intro l
              rw [fa, fb]; exact k4.fs l
          have htr : ∀ s0 : St, s0.trace = s.trace → (forEach (updateOne env c) (iterList cmp.created) s0) = (s2, .ok ()) → ∃ es, a.trace = s.trace ++ es := by
            intro s0 hs0 h1
            obtain ⟨⟨e1, t1, -⟩, -⟩ := forEach_did (updateOne env c) (iterList cmp.created)
              (fun r hr s => updateOne_did env c false (iterList cmp.created) [] r hr s) s0
            obtain ⟨⟨e2, t2, -⟩, -⟩ := forEach_did (updateOne env c) (iterList cmp.updated)
              (fun r hr s => updateOne_did env c false (iterList cmp.updated) [] r hr s) s2
            rw [h1] at t1
            rw [h2] at t2
            rw [ea] at k2
            simp only at t1 t2 k2
            exact ⟨e1 ++ e2, by rw [k2, t2, t1, hs0, List.append_assoc]⟩
          intro hnr h0
          have htr := htr { s1 with last_timestamp := 0 } h0 h1
          cases y with
          | error e =>
            exact ⟨rfl, fin a b [] (.inl rfl) (by simp) (by simp) rfl rfl k4.state k4.hashes k4.last_timestamp htr hnr⟩
          | ok u =>
            simp only [k4.last_timestamp] at hnr ⊢
            split
            · rename_i hpos
              rw [if_pos hpos] at hnr
              obtain ⟨q1, q2, q3, q4, q5, q6, last, q7, q8, q9⟩ := storeState_apace env c k4
              exact ⟨q1, fin _ _ last q7 q8 q9 q4 q3 q2 q5 q6 htr hnr⟩
            · rename_i hpos
              rw [if_neg hpos] at hnr
              exact ⟨rfl, fin a b [] (.inl rfl) (by simp) (by simp) rfl rfl k4.state k4.hashes k4.last_timestamp htr hnr⟩

/-- what a baseline sync removes with several sites -/
theorem removed_surplus {env : Env} {c : ClientCfg} {allow : Bool} {s : St} {sites : List (Map × Loc)} {src : Dict Resource}
    (hsite : Sites c env.cwd sites s.world.fs) (hh : ∀ t ∈ s.hashes, HashType t) (hk : ListsKeyed env.sources)
    (hfound : (findResourceList env.sources c.disc).2 = .ok src) {l : Loc}
    (h : Effect.unlink l ∈ doneBetween s (baselineOrAudit env c allow false s).1) :
    ∃ p ∈ sites, ∃ names, names ≠ [] ∧ (∀ n ∈ names, PlainName n) ∧ l = p.2 ++ names ∧ dget src (uriBelow p.1 names) = none := by
  obtain ⟨-, s1, src', cmp, dst, hpl, -, h⟩ := (baseline_did env c allow false s).done _ h
  rcases h with h | ⟨t, h⟩
  · rcases syncEff_at h (l := l) (.inr (.inr (.inr rfl))) with ⟨_, _, _, _, h⟩ | ⟨r, hr, hm, -, -, -⟩
    · exact absurd rfl h
    · have hsrc : src' = src := by
        have := hpl.found
        rw [hfound] at this
        cases this; rfl
      subst hsrc
      have pf := planFacts hk hsite.proper hpl
      obtain ⟨dst', k1, k2⟩ := hsite.scan env.lib (leftHashes s src') (fun t ht => hh t (leftHashes_sub ht))
      have hdst : dst' = dst := by
        have := hpl.scan
        rw [k1] at this
        cases this; rfl
      subst hdst
      obtain ⟨e1, e2⟩ := (pf.cmp.deleted _ _).mp ((mem_iterList pf.cmp.wf.deleted).mp hr)
      obtain ⟨p, hp, names, b, t, hne, hf, hu, -⟩ := (k2 _ _).mp e1
      have hn := names_of_file hsite.tidy hne hf
      rw [hu] at hm e2
      exact ⟨p, hp, names, hne, hn, (hsite.mapsTo hp hne hn).mp hm, e2⟩
  · cases h

/-- in a sync for which there is nothing to fetch, nothing changes without deletion -/
theorem nothing_fetched {env : Env} {c : ClientCfg} {s : St}
    (h : ∀ s1 src cmp dst, Planned env c false s s1 src cmp dst → cmp.created = [] ∧ cmp.updated = []) :
    (baselineOrAudit env c false false s).1.world.fs = s.world.fs := by
  obtain ⟨es, -, hw, hes⟩ := baseline_did env c false false s
  rw [hw]
  refine foldl_inv (P := fun e => ∃ t, e = .setState t) es s.world (fun w => w.fs = s.world.fs) rfl ?_ ?_
  · intro e he
    obtain ⟨-, s1, src', cmp', dst, hpl, -, h'⟩ := hes e he
    rcases h' with (⟨r, hr, -⟩ | ⟨_, _, _, _, _, _, h', _⟩) | h'
    · obtain ⟨h1, h2⟩ := h _ _ _ _ hpl
      have : iterList [] = [] := by decide
      rw [h1, h2, this] at hr
      cases hr
    · cases h'
    · exact h'
  · rintro w e ⟨t, rfl⟩ hI
    exact hI

/-- C123, deletions can be left to a later sync.  If every listed resource has a time, and its listed length, if any, is that of the
bytes the server delivers, then a baseline sync without deletion followed by one with deletion (whatever the server does by then, as long
as its list is the same) leaves the same files on the disk, with the same contents and times, as one with deletion in the first place. -/
theorem C123_postponed (env : Env) (c : ClientCfg) (s : St) (sites : List (Map × Loc)) (src : Dict Resource)
    (hsite : Sites c env.cwd sites s.world.fs) (hh : ∀ t ∈ s.hashes, HashType t) (hk : ListsKeyed env.sources)
    (hfound : (findResourceList env.sources c.disc).2 = .ok src) (hreg : ListBelow sites src)
    (hd : c.dryrun = false) (hi : c.ignore_failures = false) (ht : 0 < c.tries) (hu : ∀ tr l, env.unlinkFails tr l = false)
    (htime : ∀ u r, (u, r) ∈ src → r.timestamp ≠ none)
    (hlen : ∀ u r, (u, r) ∈ src → ∀ tr b, env.serve tr u = .body b none → ∀ n, r.length = some n → n = (b.length : Int))
    (hok : (baselineOrAudit env c false false s).2 = .ok ())
    -- the later sync
    (env2 : Env) (s2 : St) (hcwd : env2.cwd = env.cwd) (hk2 : ListsKeyed env2.sources)
    (hfound2 : (findResourceList env2.sources c.disc).2 = .ok src) (hu2 : ∀ tr l, env2.unlinkFails tr l = false)
    (hfs : s2.world.fs = (baselineOrAudit env c false false s).1.world.fs) (hh2 : ∀ t ∈ s2.hashes, HashType t)
    (hok2 : (baselineOrAudit env2 c true false s2).2 = .ok ()) :
    ∀ l, (baselineOrAudit env2 c true false s2).1.world.fs.get l = (baselineOrAudit env c true false s).1.world.fs.get l := by
  obtain ⟨hres, ⟨work, gone, last, -, d2, d3, -, -, d6⟩, -, -, -⟩ := C123_adds env c false s
  obtain ⟨h1, -, h3, -, -⟩ := baseline_result_sites hsite hh hk hfound hreg hd hi ht hu hok
  obtain ⟨-, t2, -, -, -⟩ := baseline_result_sites hsite hh hk hfound hreg hd hi ht hu (hres.trans hok)
  rw [← hfs, ← hcwd] at h3
  obtain ⟨-, r2, -, -, -⟩ := baseline_result_sites h3 hh2 hk2 hfound2 hreg hd hi ht hu2 hok2
  obtain ⟨-, ⟨work2, gone2, last2, -, d2', d3', -, -, d6'⟩, -, -, -⟩ := C123_adds env2 c false s2
  have hw := found_WF hk hfound
  have hF : (baselineOrAudit env2 c false false s2).1.world.fs = (baselineOrAudit env c false false s).1.world.fs := by
    rw [nothing_fetched, hfs]
    intro s1 src' cmp dst hpl
    have hsrc : src' = src := by
      have := hpl.found
      rw [hfound2] at this
      cases this; rfl
    subst hsrc
    have hc := (planFacts hk2 h3.proper hpl).cmp
    obtain ⟨dst', k1, k2⟩ := h3.scan env2.lib (leftHashes s2 src') (fun t ht => hh2 t (leftHashes_sub ht))
    have hdst : dst' = dst := by
      have := hpl.scan
      rw [k1] at this
      cases this; rfl
    subst hdst
    constructor
    · apply dict_empty
      intro u r hcr
      obtain ⟨a1, a2⟩ := (hc.created u r).mp hcr
      obtain ⟨p, hp, names, hnn, hn, rfl⟩ := hreg u r (mem_of_dget a1)
      have : HasFile s2.world.fs (p.2 ++ names) := by
        rcases h1 p hp names r hnn hn a1 with ⟨b, t, -, hf, -⟩ | ⟨b, t, -, hf, -⟩
        · exact ⟨b, t, by rw [hfs]; exact hf⟩
        · exact ⟨b, t, by rw [hfs]; exact hf⟩
      obtain ⟨b, t, hf⟩ := this
      have := (k2 (uriBelow p.1 names) _).mpr ⟨p, hp, names, b, t, hnn, hf, rfl, rfl⟩
      rw [a2] at this
      cases this
    · apply dict_empty
      intro u r hup
      obtain ⟨a1, a, a2, a3⟩ := (hc.updated u r).mp hup
      obtain ⟨p, hp, names, b, t, hnn, hf, hu', ha⟩ := (k2 u a).mp a2
      have hn := names_of_file h3.tidy hnn hf
      rw [ha, ← Bool.not_eq_true, describes_eq hw a1] at a3
      exfalso
      apply a3
      subst hu'
      rcases h1 p hp names r hnn hn a1 with ⟨b', t', hserved, hf', hmt⟩ | ⟨b', t', -, hf', hag⟩
      · rw [← hfs] at hf'
        unfold IsFile at hf hf'
        rw [hf] at hf'
        cases hf'
        have hmem := mem_of_dget a1
        obtain ⟨x, hx⟩ := Option.ne_none_iff_exists'.mp (htime _ _ hmem)
        refine ⟨⟨x, hx, ?_⟩, ?_⟩
        · rw [hmt x hx]
          exact truncRat_near x
        · intro n hln
          obtain ⟨pre, -, hs⟩ := hserved
          have hru : r.uri = uriBelow p.1 names := hw.2 _ _ a1
          rw [hru] at hs
          exact hlen _ _ hmem _ _ hs n hln
      · rw [← hfs] at hf'
        unfold IsFile at hf hf'
        rw [hf] at hf'
        cases hf'
        exact hag
  have hgone : ∀ l, Effect.unlink l ∈ gone2 ↔ Effect.unlink l ∈ gone := by
    intro l
    constructor
    · intro hl
      obtain ⟨p, hp, names, hne, hn, rfl, hno⟩ := removed_surplus h3 hh2 hk2 hfound2
        (by rw [d2']; exact List.mem_append_left _ (List.mem_append_right _ hl))
      by_contra hcon
      obtain ⟨l', e, b, t, hf⟩ := d3' _ hl
      cases e
      have hT := d6 (p.2 ++ names)
      rw [if_neg hcon, ← hF] at hT
      obtain ⟨r, hr⟩ := t2 rfl p hp names hne ⟨b, t, hT.trans hf⟩
      rw [hno] at hr
      cases hr
    · intro hl
      obtain ⟨p, hp, names, hne, hn, rfl, hno⟩ := removed_surplus hsite hh hk hfound
        (by rw [d2]; exact List.mem_append_left _ (List.mem_append_right _ hl))
      by_contra hcon
      obtain ⟨l', e, b, t, hf⟩ := d3 _ hl
      cases e
      have hR := d6' (p.2 ++ names)
      rw [if_neg hcon, hF] at hR
      obtain ⟨r, hr⟩ := r2 rfl p hp names hne ⟨b, t, hR.trans hf⟩
      rw [hno] at hr
      cases hr
  intro l
  rw [d6, d6', hF]
  simp only [hgone]

namespace PostponeExample
open SitesExample ClientExample

/-- a sync of two sites, with and without deletion: two removals more -/
example : (baselineOrAudit env2 cfg2 false false s2).2 = .ok () ∧
    doneBetween s2 (baselineOrAudit env2 cfg2 true false s2).1 ≠ doneBetween s2 (baselineOrAudit env2 cfg2 false false s2).1 ∧
    removals (doneBetween s2 (baselineOrAudit env2 cfg2 true false s2).1) = 2 ∧
    OnlyRemoves s2 (baselineOrAudit env2 cfg2 false false s2).1 (baselineOrAudit env2 cfg2 true false s2).1 := by
  refine ⟨by decide +kernel, by decide +kernel, by decide +kernel, (C123_adds env2 cfg2 false s2).2⟩

/-- the deletions are done by a second sync -/
example : ∀ l, (baselineOrAudit env2 cfg2 true false (baselineOrAudit env2 cfg2 false false s2).1).1.world.fs.get l =
    (baselineOrAudit env2 cfg2 true false s2).1.world.fs.get l := by
  refine C123_postponed env2 cfg2 s2 two (listOf rl) sites2 (by intro t h; cases h) keyed2 (by decide +kernel) below2 rfl rfl (by decide)
    (fun _ _ => rfl) ?_ ?_ (by decide +kernel) env2 _ rfl keyed2 (by decide +kernel) (fun _ _ => rfl) rfl ?_ (by decide +kernel)
  · intro u r h
    simp only [listOf, rl, List.map_cons, List.map_nil, List.mem_cons, Prod.mk.injEq, List.not_mem_nil, or_false] at h
    rcases h with ⟨-, rfl⟩ | ⟨-, rfl⟩ <;> simp
  · intro u r h tr b hb n hn
    have hb2 : b = [1, 2] := by
      simp only [env2] at hb
      split at hb
      · simp at hb
      · simp at hb; exact hb.symm
    subst hb2
    simp only [listOf, rl, List.map_cons, List.map_nil, List.mem_cons, Prod.mk.injEq, List.not_mem_nil, or_false] at h
    rcases h with ⟨-, rfl⟩ | ⟨-, rfl⟩ <;> (simp at hn; rw [← hn]; rfl)
  · intro t ht
    have hh : (baselineOrAudit env2 cfg2 false false s2).1.hashes = [] := by decide +kernel
    rw [hh] at ht
    cases ht

/-- after the first sync the files are still there -/
example : (baselineOrAudit env2 cfg2 false false s2).1.world.fs.get ["d".toList, "old".toList] = some (.file [7] 50) ∧
    (baselineOrAudit env2 cfg2 true false s2).1.world.fs.get ["d".toList, "old".toList] = none := by
  refine ⟨by decide +kernel, by decide +kernel⟩

end PostponeExample

end Resync
