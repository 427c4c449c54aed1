import Verif.Proofs.ClientBaseline
/-
C50 and C51: what a successful baseline sync leaves behind, and a second sync after it.
-/

namespace Resync
open Py Resync.Spec

/-- C50, the part that holds.  In the usual setup (sites mapped to directories of their own, different listed URIs are different files),
after a baseline sync that succeeds (not a dry run, without ignore_failures, at least one try, files can be unlinked), each listed
resource has been fetched to its file, which has the bytes served and the listed time in whole seconds; or its file was left as it
was because time (up to less than a second) and length agreed with the list.  With deletion there is no other file below the
destinations.  Missing: the content of a file left alone may not be that of the resource, its time may be off by less than a second
(C50_violated); URIs not in normal form (C50_violated_uri). -/
theorem C50_sites_partial (env : Env) (c : ClientCfg) (allow_deletion : Bool) (s : St) (sites : List (Map × Loc)) (src : Dict Resource)
    (hsite : Sites c env.cwd sites s.world.fs) (hh : ∀ t ∈ s.hashes, HashType t) (hk : ListsKeyed env.sources)
    (hfound : (findResourceList env.sources c.disc).2 = .ok src) (hreg : ListBelow sites src)
    (hd : c.dryrun = false) (hi : c.ignore_failures = false) (ht : 0 < c.tries) (hu : ∀ tr l, env.unlinkFails tr l = false)
    (hok : (baselineOrAudit env c allow_deletion false s).2 = .ok ()) :
    (∀ u r, (u, r) ∈ src → ∃ l, MapsTo c env.cwd u l ∧ (∃ p ∈ sites, Within p.2 l) ∧
      (Fetched env s (baselineOrAudit env c allow_deletion false s).1 r l ∨
       ∃ content mtime, IsFile s.world.fs l content mtime ∧
         IsFile (baselineOrAudit env c allow_deletion false s).1.world.fs l content mtime ∧ Agrees r content mtime)) ∧
    (allow_deletion = true → ∀ p ∈ sites, ∀ l, Within p.2 l → HasFile (baselineOrAudit env c allow_deletion false s).1.world.fs l →
      ∃ u r, (u, r) ∈ src ∧ MapsTo c env.cwd u l) := by
  obtain ⟨h1, h2, h3, -⟩ := baseline_result_sites hsite hh hk hfound hreg hd hi ht hu hok
  have hw := found_WF hk hfound
  constructor
  · intro u r hr
    obtain ⟨p, hp, names, hne, hn, rfl⟩ := hreg u r hr
    exact ⟨p.2 ++ names, (hsite.mapsTo hp hne hn).mpr rfl, ⟨p, hp, List.prefix_append _ _⟩, h1 p hp names r hne hn (dget_of_mem hw.1 hr)⟩
  · rintro hal p hp l ⟨names, rfl⟩ hf
    have hne : names ≠ [] := by
      rintro rfl
      rw [List.append_nil] at hf
      exact h3.notFile p hp hf
    obtain ⟨r, hr⟩ := h2 hal p hp names hne hf
    obtain ⟨b, t, hf⟩ := hf
    exact ⟨_, r, mem_of_dget hr, (hsite.mapsTo hp hne (names_of_file h3.tidy hne hf)).mpr rfl⟩

/-- C50 for one site -/
theorem C50_partial (env : Env) (c : ClientCfg) (allow_deletion : Bool) (s : St) (m : Map) (root : Loc) (src : Dict Resource)
    (hsite : OneSite c env.cwd m root s.world.fs) (hh : ∀ t ∈ s.hashes, HashType t) (hk : ListsKeyed env.sources)
    (hfound : (findResourceList env.sources c.disc).2 = .ok src) (hreg : ListRegular m src)
    (hd : c.dryrun = false) (hi : c.ignore_failures = false) (ht : 0 < c.tries) (hu : ∀ tr l, env.unlinkFails tr l = false)
    (hok : (baselineOrAudit env c allow_deletion false s).2 = .ok ()) :
    (∀ u r, (u, r) ∈ src → ∃ l, MapsTo c env.cwd u l ∧ Within root l ∧
      (Fetched env s (baselineOrAudit env c allow_deletion false s).1 r l ∨
       ∃ content mtime, IsFile s.world.fs l content mtime ∧
         IsFile (baselineOrAudit env c allow_deletion false s).1.world.fs l content mtime ∧ Agrees r content mtime)) ∧
    (allow_deletion = true → ∀ l, Within root l → HasFile (baselineOrAudit env c allow_deletion false s).1.world.fs l →
      ∃ u r, (u, r) ∈ src ∧ MapsTo c env.cwd u l) := by
  obtain ⟨h1, h2⟩ := C50_sites_partial env c allow_deletion s [(m, root)] src hsite.sites hh hk hfound hreg.below hd hi ht hu hok
  refine ⟨?_, fun ha => h2 ha (m, root) (by simp)⟩
  intro u r hr
  obtain ⟨l, k1, ⟨p, hp, k2⟩, k3⟩ := h1 u r hr
  rw [List.mem_singleton] at hp
  subst hp
  exact ⟨l, k1, k2, k3⟩

/-- C50, a first sync: there are no files at the destinations yet.  Every listed resource has been fetched. -/
theorem C50_sites_first_sync (env : Env) (c : ClientCfg) (allow_deletion : Bool) (s : St) (sites : List (Map × Loc)) (src : Dict Resource)
    (hsite : Sites c env.cwd sites s.world.fs) (hh : ∀ t ∈ s.hashes, HashType t) (hk : ListsKeyed env.sources)
    (hfound : (findResourceList env.sources c.disc).2 = .ok src) (hreg : ListBelow sites src)
    (hd : c.dryrun = false) (hi : c.ignore_failures = false) (ht : 0 < c.tries) (hu : ∀ tr l, env.unlinkFails tr l = false)
    (hempty : ∀ p ∈ sites, ∀ l, Within p.2 l → ¬ HasFile s.world.fs l)
    (hok : (baselineOrAudit env c allow_deletion false s).2 = .ok ()) :
    ∀ u r, (u, r) ∈ src → ∃ l, MapsTo c env.cwd u l ∧ Fetched env s (baselineOrAudit env c allow_deletion false s).1 r l := by
  intro u r hr
  obtain ⟨l, h1, ⟨p, hp, h2⟩, h3⟩ := (C50_sites_partial env c allow_deletion s sites src hsite hh hk hfound hreg hd hi ht hu hok).1 u r hr
  rcases h3 with h3 | ⟨b, t, h3, -⟩
  · exact ⟨l, h1, h3⟩
  · exact absurd ⟨b, t, h3⟩ (hempty p hp l h2)

/-- The same for one site. -/
theorem C50_first_sync (env : Env) (c : ClientCfg) (allow_deletion : Bool) (s : St) (m : Map) (root : Loc) (src : Dict Resource)
    (hsite : OneSite c env.cwd m root s.world.fs) (hh : ∀ t ∈ s.hashes, HashType t) (hk : ListsKeyed env.sources)
    (hfound : (findResourceList env.sources c.disc).2 = .ok src) (hreg : ListRegular m src)
    (hd : c.dryrun = false) (hi : c.ignore_failures = false) (ht : 0 < c.tries) (hu : ∀ tr l, env.unlinkFails tr l = false)
    (hempty : ∀ l, Within root l → ¬ HasFile s.world.fs l)
    (hok : (baselineOrAudit env c allow_deletion false s).2 = .ok ()) :
    ∀ u r, (u, r) ∈ src → ∃ l, MapsTo c env.cwd u l ∧ Fetched env s (baselineOrAudit env c allow_deletion false s).1 r l := by
  intro u r hr
  obtain ⟨l, h1, h2, h3⟩ := (C50_partial env c allow_deletion s m root src hsite hh hk hfound hreg hd hi ht hu hok).1 u r hr
  rcases h3 with h3 | ⟨b, t, h3, -⟩
  · exact ⟨l, h1, h3⟩
  · exact absurd ⟨b, t, h3⟩ (hempty l h2)

theorem dict_empty {d : Dict Resource} (h : ∀ u r, dget d u ≠ some r) : d = [] := by
  cases d with
  | nil => rfl
  | cons p t =>
    obtain ⟨k, v⟩ := p
    exact absurd (by simp [dget]) (h k v)

/-- C51, the part that holds.  In the same setup, if every listed resource has a time, and its listed length, if any, is that of
the bytes the server delivers, then a second baseline or audit right after a successful one with deletion (with any hash
types, and whatever the server does now) finds nothing to create, update or delete, succeeds and does nothing.  Missing:
resources without a time, URIs not in normal form (C51_violated). -/
theorem C51_sites_partial (env : Env) (c : ClientCfg) (s : St) (sites : List (Map × Loc)) (src : Dict Resource)
    (hsite : Sites c env.cwd sites s.world.fs) (hh : ∀ t ∈ s.hashes, HashType t) (hk : ListsKeyed env.sources)
    (hfound : (findResourceList env.sources c.disc).2 = .ok src) (hreg : ListBelow sites src)
    (hd : c.dryrun = false) (hi : c.ignore_failures = false) (ht : 0 < c.tries) (hu : ∀ tr l, env.unlinkFails tr l = false)
    (htime : ∀ u r, (u, r) ∈ src → r.timestamp ≠ none)
    (hlen : ∀ u r, (u, r) ∈ src → ∀ tr b, env.serve tr u = .body b none → ∀ n, r.length = some n → n = (b.length : Int))
    (hok : (baselineOrAudit env c true false s).2 = .ok ())
    -- the second run
    (env2 : Env) (s2 : St) (audit_only allow2 : Bool) (hcwd : env2.cwd = env.cwd)
    (hfound2 : (findResourceList env2.sources c.disc).2 = .ok src)
    (hfs : s2.world.fs = (baselineOrAudit env c true false s).1.world.fs) (hh2 : ∀ t ∈ s2.hashes, HashType t) :
    (∃ cmp, (baselinePlan env2 c audit_only s2).2 = .ok (src, cmp) ∧ cmp.created = [] ∧ cmp.updated = [] ∧ cmp.deleted = []) ∧
    (baselineOrAudit env2 c allow2 audit_only s2).2 = .ok () ∧
    doneBetween s2 (baselineOrAudit env2 c allow2 audit_only s2).1 = [] ∧
    (baselineOrAudit env2 c allow2 audit_only s2).1.world = s2.world := by
  obtain ⟨h1, h2, h3, hsafe, hne⟩ := baseline_result_sites hsite hh hk hfound hreg hd hi ht hu hok
  rw [← hfs] at h1 h2 h3
  rw [← hcwd] at h3
  have hw := found_WF hk hfound
  have hplan : ∃ cmp, baselinePlan env2 c audit_only s2 = ({ s2 with hashes := leftHashes s2 src }, .ok (src, cmp)) ∧
      cmp.created = [] ∧ cmp.updated = [] ∧ cmp.deleted = [] := by
    obtain ⟨dst, k1, k2⟩ := h3.scan env2.lib (leftHashes s2 src) (fun t ht => hh2 t (leftHashes_sub ht))
    have hdw : WF dst := (fromDisk_found' h3.proper k1).1
    obtain ⟨h', cmp, e1, -, -, -⟩ := compare_spec (pairHeap dst src) 0 1 (by decide) hdw hw
    have hc := compared hdw hw e1
    refine ⟨cmp, ?_, ?_, ?_, ?_⟩
    · unfold baselinePlan
      rw [if_neg (by rw [hsite.mapper]; simpa using hsite.nonempty)]
      have hun : (if audit_only = true then (Except.ok false : Except MapErr Bool) else c.disc.mapper.isUnsafe) = .ok false := by
        cases audit_only
        · simpa using hsafe
        · rfl
      rw [hun, hfound2]
      simp only [if_neg hne]
      have est : (if s2.hashes ≠ [] then { s2 with hashes := pruneHashes s2.hashes (listHashes (iterList src)) } else s2)
          = { s2 with hashes := leftHashes s2 src } := by
        unfold leftHashes; split <;> rfl
      rw [est]
      simp only
      rw [k1]
      simp only [e1]
    · apply dict_empty
      intro u r hcr
      obtain ⟨a1, a2⟩ := (hc.created u r).mp hcr
      obtain ⟨p, hp, names, hnn, hn, rfl⟩ := hreg u r (mem_of_dget a1)
      have : HasFile s2.world.fs (p.2 ++ names) := by
        rcases h1 p hp names r hnn hn a1 with ⟨b, t, -, hf, -⟩ | ⟨b, t, -, hf, -⟩
        · exact ⟨b, t, by rw [hfs]; exact hf⟩
        · exact ⟨b, t, hf⟩
      obtain ⟨b, t, hf⟩ := this
      have := (k2 (uriBelow p.1 names) _).mpr ⟨p, hp, names, b, t, hnn, hf, rfl, rfl⟩
      rw [a2] at this
      cases this
    · apply dict_empty
      intro u r hup
      obtain ⟨a1, a, a2, a3⟩ := (hc.updated u r).mp hup
      obtain ⟨p, hp, names, b, t, hnn, hf, hu', ha⟩ := (k2 u a).mp a2
      have hn := names_of_file h3.tidy hnn hf
      rw [ha, ← Bool.not_eq_true, describes_eq hw a1] at a3
      apply a3
      subst hu'
      rcases h1 p hp names r hnn hn a1 with ⟨b', t', hserved, hf', hmt⟩ | ⟨b', t', -, hf', hag⟩
      · rw [← hfs] at hf'
        unfold IsFile at hf hf'
        rw [hf] at hf'
        cases hf'
        have hmem := mem_of_dget a1
        obtain ⟨x, hx⟩ := Option.ne_none_iff_exists'.mp (htime _ _ hmem)
        refine ⟨⟨x, hx, ?_⟩, ?_⟩
        · rw [hmt x hx]
          exact truncRat_near x
        · intro n hln
          obtain ⟨pre, -, hs⟩ := hserved
          have hru : r.uri = uriBelow p.1 names := hw.2 _ _ a1
          rw [hru] at hs
          exact hlen _ _ hmem _ _ hs n hln
      · unfold IsFile at hf hf'
        rw [hf] at hf'
        cases hf'
        exact hag
    · apply dict_empty
      intro u r hde
      obtain ⟨a1, a2⟩ := (hc.deleted u r).mp hde
      obtain ⟨p, hp, names, b, t, hnn, hf, rfl, -⟩ := (k2 u r).mp a1
      obtain ⟨x, hx⟩ := h2 rfl p hp names hnn ⟨b, t, hf⟩
      rw [a2] at hx
      cases hx
  obtain ⟨cmp, hp, c1, c2, c3⟩ := hplan
  refine ⟨⟨cmp, by rw [hp], c1, c2, c3⟩, ?_⟩
  have hrun : baselineOrAudit env2 c allow2 audit_only s2 = ({ s2 with hashes := leftHashes s2 src }, .ok ()) := by
    unfold baselineOrAudit
    rw [hp]
    simp only
    rw [if_pos (Or.inr (by rw [c1, c2, c3]; rfl))]
  rw [hrun]
  exact ⟨rfl, by unfold doneBetween; simp, rfl⟩

/-- C51 for one site -/
theorem C51_partial (env : Env) (c : ClientCfg) (s : St) (m : Map) (root : Loc) (src : Dict Resource)
    (hsite : OneSite c env.cwd m root s.world.fs) (hh : ∀ t ∈ s.hashes, HashType t) (hk : ListsKeyed env.sources)
    (hfound : (findResourceList env.sources c.disc).2 = .ok src) (hreg : ListRegular m src)
    (hd : c.dryrun = false) (hi : c.ignore_failures = false) (ht : 0 < c.tries) (hu : ∀ tr l, env.unlinkFails tr l = false)
    (htime : ∀ u r, (u, r) ∈ src → r.timestamp ≠ none)
    (hlen : ∀ u r, (u, r) ∈ src → ∀ tr b, env.serve tr u = .body b none → ∀ n, r.length = some n → n = (b.length : Int))
    (hok : (baselineOrAudit env c true false s).2 = .ok ())
    -- the second run
    (env2 : Env) (s2 : St) (audit_only allow2 : Bool) (hcwd : env2.cwd = env.cwd)
    (hfound2 : (findResourceList env2.sources c.disc).2 = .ok src)
    (hfs : s2.world.fs = (baselineOrAudit env c true false s).1.world.fs) (hh2 : ∀ t ∈ s2.hashes, HashType t) :
    (∃ cmp, (baselinePlan env2 c audit_only s2).2 = .ok (src, cmp) ∧ cmp.created = [] ∧ cmp.updated = [] ∧ cmp.deleted = []) ∧
    (baselineOrAudit env2 c allow2 audit_only s2).2 = .ok () ∧
    doneBetween s2 (baselineOrAudit env2 c allow2 audit_only s2).1 = [] ∧
    (baselineOrAudit env2 c allow2 audit_only s2).1.world = s2.world :=
  C51_sites_partial env c s [(m, root)] src hsite.sites hh hk hfound hreg.below hd hi ht hu htime hlen hok env2 s2 audit_only allow2 hcwd hfound2
    hfs hh2

namespace ClientExample

instance (s : Str) : Decidable (OneLine s) := by unfold OneLine; infer_instance
instance (s : Str) : Decidable (LiteralOrDot s) := by unfold LiteralOrDot; infer_instance

theorem site (names : List String) (h : ProperFs (disk names)) (h2 : ∀ p ∈ disk names, ∀ n ∈ p.1, OneLine n) :
    OneSite cfg [] ⟨base, "/d".toList⟩ ["d".toList] (disk names) where
  mapper := rfl
  src := by decide
  dst := by decide
  place := by decide
  proper := h
  names := h2
  cwdNames := by simp
  notFile := by
    rintro ⟨b, t, h⟩
    have : (disk names).get ["d".toList] = some .dir := by simp [disk, Fs.get]
    unfold IsFile at h
    rw [this] at h
    cases h

/-- with a length -/
def resLen (n : String) (t : Rat) (len : Int) : Resource := { uri := uri n, timestamp := some t, length := some len }

end ClientExample

open ClientExample in
/-- the hypotheses of C50 and C51 are met: a is updated, b created, c deleted, d (one byte, time 50) left alone -/
example :
    let rl := [resLen "a" 100 2, resLen "b/x" (401/2) 2, resLen "d" (101/2) 1]
    let e := env rl [] [1, 2]
    let s := { start ["a", "c", "d"] with hashes := ["md5".toList] }
    let r := baselineOrAudit e cfg true false s
    OneSite cfg e.cwd ⟨base, "/d".toList⟩ ["d".toList] s.world.fs ∧ (∀ t ∈ s.hashes, HashType t) ∧ ListsKeyed e.sources ∧
    (findResourceList e.sources cfg.disc).2 = .ok (listOf rl) ∧ ListRegular ⟨base, "/d".toList⟩ (listOf rl) ∧
    r.2 = .ok () ∧ r.1.world.fs.get ["d".toList, "b".toList, "x".toList] = some (.file [1, 2] 200) ∧
    r.1.world.fs.get (at_ "a") = some (.file [1, 2] 100) ∧ r.1.world.fs.get (at_ "d") = some (.file [7] 50) ∧
    r.1.world.fs.get (at_ "c") = none := by
  refine ⟨site _ (properFs_of (by decide +kernel) (by decide +kernel) (by decide +kernel) (by decide +kernel)) (by decide +kernel), ?_,
    env_keyed _ _ _ (by decide +kernel), by decide +kernel, ?_, by decide +kernel, by decide +kernel, by decide +kernel,
    by decide +kernel, by decide +kernel⟩
  · intro t ht
    simp only [List.mem_singleton] at ht
    exact .inl ht
  · intro u r h
    simp only [listOf, List.map_cons, List.map_nil, List.mem_cons, Prod.mk.injEq, List.not_mem_nil, or_false] at h
    rcases h with ⟨rfl, rfl⟩ | ⟨rfl, rfl⟩ | ⟨rfl, rfl⟩
    · exact ⟨["a".toList], by simp, by simp only [List.mem_singleton, forall_eq]; unfold PlainName; decide, by decide +kernel⟩
    · exact ⟨["b".toList, "x".toList], by simp, by
        simp only [List.mem_cons, List.not_mem_nil, or_false, forall_eq_or_imp, forall_eq]; unfold PlainName; decide, by decide +kernel⟩
    · exact ⟨["d".toList], by simp, by simp only [List.mem_singleton, forall_eq]; unfold PlainName; decide, by decide +kernel⟩

open ClientExample in
/-- C50 fails: a local file with the listed time and length is left alone, so the sync succeeds although the content is not that
of the resource, even if the list has the digest of the right content and digests are asked for; and the
time is not the listed one. -/
theorem C50_violated :
    let r0 : Resource := { uri := uri "a", timestamp := some (101/2), length := some 1, md5 := some (exLib.md5 [1]) }
    let e := env [r0] [] [1]
    let r := baselineOrAudit e cfg true false { start ["a"] with hashes := ["md5".toList] }
    r.2 = .ok () ∧ e.serve [] (uri "a") = .body [1] none ∧ IsFile r.1.world.fs (at_ "a") [7] 50 := by
  refine ⟨by decide +kernel, rfl, by unfold IsFile; decide +kernel⟩

open ClientExample in
/-- C50 fails: a listed URI with an empty segment is mapped to a file whose own URI is another one.  The resource is fetched, and
then the file is deleted.  The sync succeeds without leaving a file for the one listed resource. -/
theorem C50_violated_uri :
    let e := env [res "/a" 100] [] [1, 2]
    let r := baselineOrAudit e cfg true false (start ["a"])
    r.2 = .ok () ∧ MapsTo cfg e.cwd (uri "/a") (at_ "a") ∧ r.1.world.fs.get (at_ "a") = none := by
  refine ⟨by decide +kernel, ⟨"/d//a".toList, by decide +kernel, by decide +kernel⟩, by decide +kernel⟩

open ClientExample in
/-- C51 fails: (1) a listed resource without a time is always found to have changed, and fetched again; (2) so is one
with an empty segment in its URI: here the second sync deletes what the first one fetched. -/
theorem C51_violated :
    (let e := env [{ uri := uri "a" }] [] [1, 2]
     let r := baselineOrAudit e cfg true false (start [])
     let r2 := baselineOrAudit e cfg true false r.1
     r.2 = .ok () ∧ IsFile r.1.world.fs (at_ "a") [1, 2] 1000 ∧ r2.2 = .ok () ∧ .get (uri "a") ∈ doneBetween r.1 r2.1) ∧
    (let e := env [res "/a" 100] [] [1, 2]
     let r := baselineOrAudit e cfg true false (start [])
     let r2 := baselineOrAudit e cfg true false r.1
     r.2 = .ok () ∧ IsFile r.1.world.fs (at_ "a") [1, 2] 100 ∧ r2.2 = .ok () ∧ r2.1.world.fs.get (at_ "a") = none) := by
  unfold IsFile doneBetween
  refine ⟨⟨?_, ?_, ?_, ?_⟩, ?_, ?_, ?_, ?_⟩ <;> decide +kernel

end Resync
