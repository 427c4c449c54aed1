import Verif.Props.ClientExample
import Verif.Proofs.LogTime
/-
C52, C53, C56 and C57: what is checked before anything is done.
-/

namespace Resync
open Py Resync.Spec

/-! ### C52 -/

theorem checkAuthority_ok {sitemap : Str} {strict : Bool} {rs : List Resource} (h : checkAuthority sitemap strict rs = .ok ()) :
    ∀ r ∈ rs, Authorised strict sitemap r.uri := by
  unfold checkAuthority at h
  split at h
  · cases h
  · rename_i a ha
    intro r hr
    refine ⟨a, ha, ?_⟩
    induction rs with
    | nil => cases hr
    | cons x t ih =>
      unfold checkAuthority.go at h
      split at h
      · cases h
      · cases h
      · rename_i hx
        rcases List.mem_cons.mp hr with rfl | hr
        · exact hx
        · exact ih h hr

theorem checkAuthority_fatal {sitemap : Str} {strict : Bool} {rs : List Resource} {a : UrlAuthority}
    (ha : UrlAuthority.new (some sitemap) strict = some a) (hd : ∀ r ∈ rs, a.hasAuthorityOver r.uri ≠ none)
    (hn : ∃ r ∈ rs, ¬ Authorised strict sitemap r.uri) : checkAuthority sitemap strict rs = .error .fatal := by
  unfold checkAuthority
  rw [ha]
  simp only
  induction rs with
  | nil => obtain ⟨r, hr, _⟩ := hn; cases hr
  | cons x t ih =>
    unfold checkAuthority.go
    cases hx : a.hasAuthorityOver x.uri with
    | none => exact absurd hx (hd x (by simp))
    | some b =>
      cases b with
      | false => rfl
      | true =>
        simp only
        refine ih (fun r hr => hd r (by simp [hr])) ?_
        obtain ⟨r, hr, hr'⟩ := hn
        rcases List.mem_cons.mp hr with rfl | hr
        · exact absurd ⟨a, ha, hx⟩ hr'
        · exact ⟨r, hr, hr'⟩

/-- C52.  Whenever a baseline does anything at all (creates a directory, makes a request, changes a file or the state),
there is a mapping, no mapping is unsafe, the source list is not empty, and unless noauth every listed resource is
within the authority of the sitemap. -/
theorem C52_nothing_done_before_checks (env : Env) (c : ClientCfg) (allow_deletion audit : Bool) (s : St)
    (hk : ListsKeyed env.sources) (e : Effect) (he : e ∈ doneBetween s (baselineOrAudit env c allow_deletion audit s).1) :
    c.disc.mapper ≠ [] ∧ c.disc.mapper.isUnsafe = .ok false ∧
    ∃ src, (findResourceList env.sources c.disc).2 = .ok src ∧ src ≠ [] ∧
      (c.noauth = false → ∃ sitemap, c.disc.sitemap = .ok sitemap ∧ ∀ u r, (u, r) ∈ src → Authorised c.strictauth sitemap u) := by
  obtain ⟨ha, s1, src, cmp, dst, hpl, hau, -⟩ := (baseline_did env c allow_deletion audit s).done e he
  refine ⟨hpl.mapped, hpl.safe ha, src, hpl.found, hpl.some_resource, ?_⟩
  intro hno
  unfold baselineAuthority at hau
  rw [hno] at hau
  simp only [Bool.false_eq_true, if_false] at hau
  split at hau
  · cases hau
  · rename_i sitemap hs
    refine ⟨sitemap, hs, ?_⟩
    intro u r hur
    have hw := found_WF hk hpl.found
    have hg := dget_of_mem hw.1 hur
    have hu := hw.2 u r hg
    have := checkAuthority_ok hau r ((mem_iterList hw).mpr (by rw [hu]; exact hg))
    rwa [hu] at this

/-- C52: no mapping -/
theorem C52_no_mapping (env : Env) (c : ClientCfg) (allow_deletion audit : Bool) (s : St) (h : c.disc.mapper = []) :
    baselineOrAudit env c allow_deletion audit s = (s, .error .fatal) := by
  simp [baselineOrAudit, baselinePlan, h]

/-- C52: an unsafe mapping -/
theorem C52_unsafe (env : Env) (c : ClientCfg) (allow_deletion : Bool) (s : St) (h : c.disc.mapper.isUnsafe = .ok true) :
    baselineOrAudit env c allow_deletion false s = (s, .error .fatal) := by
  have hm : c.disc.mapper ≠ [] := by
    intro e; rw [e] at h; cases h
  simp [baselineOrAudit, baselinePlan, h, hm]

/-- C52: an empty source list -/
theorem C52_empty (env : Env) (c : ClientCfg) (allow_deletion : Bool) (s : St) (b : Bool) (hm : c.disc.mapper.isUnsafe = .ok b)
    (h : (findResourceList env.sources c.disc).2 = .ok []) :
    baselineOrAudit env c allow_deletion false s = (s, .error .fatal) := by
  unfold baselineOrAudit baselinePlan
  by_cases h0 : c.disc.mapper = []
  · simp [h0]
  · cases b <;> simp [h0, hm, h]

/-- C52 for authority, as far as it holds: nothing is done, and unless the destination is found in sync the run ends
with ClientFatalError.  Missing: if it is in sync the run succeeds; and if the address of another listed resource cannot
be parsed the exception is a ValueError. -/
theorem C52_authority_partial (env : Env) (c : ClientCfg) (allow_deletion : Bool) (s : St) (hk : ListsKeyed env.sources)
    (hno : c.noauth = false) (src : Dict Resource) (hsrc : (findResourceList env.sources c.disc).2 = .ok src)
    (sitemap : Str) (hs : c.disc.sitemap = .ok sitemap) (a : UrlAuthority)
    (ha : UrlAuthority.new (some sitemap) c.strictauth = some a) (hd : ∀ u r, (u, r) ∈ src → a.hasAuthorityOver u ≠ none)
    (hbad : ∃ u r, (u, r) ∈ src ∧ ¬ Authorised c.strictauth sitemap u) :
    doneBetween s (baselineOrAudit env c allow_deletion false s).1 = [] ∧
    (baselineOrAudit env c allow_deletion false s).1.world = s.world ∧
    ((∃ s1 cmp, baselinePlan env c false s = (s1, .ok (src, cmp)) ∧
        (cmp.created.length + cmp.updated.length + cmp.deleted.length ≠ 0)) →
      (baselineOrAudit env c allow_deletion false s).2 = .error .fatal) := by
  have h := baseline_did env c allow_deletion false s
  have h1 : doneBetween s (baselineOrAudit env c allow_deletion false s).1 = [] := by
    rw [List.eq_nil_iff_forall_not_mem]
    intro e he
    obtain ⟨-, -, src', hsrc', -, h2⟩ := C52_nothing_done_before_checks env c allow_deletion false s hk e he
    obtain ⟨sm, hsm, h3⟩ := h2 hno
    rw [hsrc] at hsrc'; cases hsrc'
    rw [hs] at hsm; cases hsm
    obtain ⟨u, r, hur, hb⟩ := hbad
    exact hb (h3 u r hur)
  refine ⟨h1, by rw [h.world, h1]; rfl, ?_⟩
  rintro ⟨s1, cmp, hp, hc⟩
  have hw := found_WF (c := c) hk hsrc
  have key : checkAuthority sitemap c.strictauth (iterList src) = .error .fatal := by
    refine checkAuthority_fatal ha ?_ ?_
    · intro r hr
      exact hd r.uri r (mem_of_dget ((mem_iterList hw).mp hr))
    · obtain ⟨u, r, hur, hb⟩ := hbad
      have hg := dget_of_mem hw.1 hur
      have hu := hw.2 u r hg
      exact ⟨r, (mem_iterList hw).mpr (by rw [hu]; exact hg), by rw [hu]; exact hb⟩
  unfold baselineOrAudit
  rw [hp]
  simp only [Bool.false_eq_true, false_or]
  rw [if_neg hc]
  unfold baselineSync baselineAuthority
  simp only [hno, Bool.false_eq_true, if_false, hs, key]

open ClientExample in
/-- a source list at http://s that mentions http://evil.org, mapped to /e -/
def evilCfg : ClientCfg where
  disc := { mapper := [⟨base, "/d".toList⟩, ⟨"http://evil.org".toList, "/e".toList⟩], sitemap_name := some (uri "rl.xml") }

def evilRes (t : Rat) : Resource := { uri := "http://evil.org/x".toList, timestamp := some t, change := some sUpdated, ts_datetime := some t }

open ClientExample in
def evilStart : St where
  world := { fs := [(["d".toList], .dir), (["e".toList], .dir), (["e".toList, "x".toList], .file [7] 50)] }

open ClientExample in
/-- the hypotheses are met, and the run ends with ClientFatalError -/
example : (∃ a, UrlAuthority.new (some (uri "rl.xml")) false = some a ∧ a.hasAuthorityOver (evilRes 60).uri = some false) ∧
    (baselineOrAudit (env [evilRes 60] [] [1]) evilCfg false false evilStart).2 = .error .fatal := by
  refine ⟨⟨_, rfl, by decide +kernel⟩, by decide +kernel⟩

open ClientExample in
/-- C52 fails for authority when there is nothing to do: the run then succeeds instead of ending with ClientFatalError. -/
theorem C52_violated : ¬ Authorised false (uri "rl.xml") (evilRes 50).uri ∧
    (baselineOrAudit (env [evilRes 50] [] [1]) evilCfg false false evilStart).2 = .ok () := by
  refine ⟨?_, by decide +kernel⟩
  rintro ⟨a, ha, h⟩
  have : UrlAuthority.new (some (uri "rl.xml")) false = some ⟨false, "http".toList, "s".toList, "/".toList⟩ := by decide +kernel
  rw [this] at ha
  cases ha
  revert h
  decide +kernel

/-! ### C53 -/

theorem checkChangeAuthority_ok {cs sm : UrlAuthority} {rs : List Resource} (h : checkChangeAuthority cs sm rs = .ok ()) :
    ∀ r ∈ rs, cs.hasAuthorityOver r.uri = some true ∨ sm.hasAuthorityOver r.uri = some true := by
  induction rs with
  | nil => intro r hr; cases hr
  | cons x t ih =>
    intro r hr
    unfold checkChangeAuthority at h
    split at h
    · cases h
    · rename_i hx
      rcases List.mem_cons.mp hr with rfl | hr
      · exact .inl hx
      · exact ih h r hr
    · split at h
      · cases h
      · rename_i hx
        rcases List.mem_cons.mp hr with rfl | hr
        · exact .inr hx
        · exact ih h r hr
      · cases h

theorem checkChangeAuthority_fatal {cs sm : UrlAuthority} {rs : List Resource}
    (hd : ∀ r ∈ rs, cs.hasAuthorityOver r.uri ≠ none ∧ sm.hasAuthorityOver r.uri ≠ none)
    (hn : ∃ r ∈ rs, cs.hasAuthorityOver r.uri = some false ∧ sm.hasAuthorityOver r.uri = some false) :
    checkChangeAuthority cs sm rs = .error .fatal := by
  induction rs with
  | nil => obtain ⟨r, hr, _⟩ := hn; cases hr
  | cons x t ih =>
    obtain ⟨d1, d2⟩ := hd x (by simp)
    have hn' : ¬ (cs.hasAuthorityOver x.uri = some false ∧ sm.hasAuthorityOver x.uri = some false) →
        checkChangeAuthority cs sm t = .error .fatal := by
      intro hx
      refine ih (fun r hr => hd r (by simp [hr])) ?_
      obtain ⟨r, hr, hr'⟩ := hn
      rcases List.mem_cons.mp hr with rfl | hr
      · exact absurd hr' hx
      · exact ⟨r, hr, hr'⟩
    unfold checkChangeAuthority
    cases h1 : cs.hasAuthorityOver x.uri with
    | none => exact absurd h1 d1
    | some b =>
      cases b with
      | true => exact hn' (by simp [h1])
      | false =>
        simp only
        cases h2 : sm.hasAuthorityOver x.uri with
        | none => exact absurd h2 d2
        | some b =>
          cases b with
          | true => exact hn' (by simp [h2])
          | false => rfl

/-- C53, the part that holds: without an explicit change list URI, and unless noauth, when anything at all is done every
entry of the change list is within the authority of the change list or of the sitemap.  Missing: an explicit URI. -/
theorem C53_default_partial (env : Env) (c : ClientCfg) (allow_deletion : Bool) (uri from_datetime : Option Str) (s : St)
    (hno : c.noauth = false) (hdef : uri = none ∨ uri = some []) (e : Effect)
    (he : e ∈ doneBetween s (incremental env c allow_deletion uri from_datetime s).1) :
    ∃ clUri sitemap changes, c.disc.sitemapUri c.change_list_name = .ok clUri ∧ c.disc.sitemap = .ok sitemap ∧
      env.changeList clUri = some changes ∧
      ∀ r ∈ changes, Authorised c.strictauth clUri r.uri ∨ Authorised false sitemap r.uri := by
  obtain ⟨s1, cl, t0, clUri, raw, kept, last, hpl, -⟩ := (incremental_did env c allow_deletion uri from_datetime s).done e he
  have hname : c.changeListName uri = c.change_list_name := by rcases hdef with rfl | rfl <;> rfl
  have hg : givenUri uri = false := by rcases hdef with rfl | rfl <;> rfl
  have hu := hpl.listUri
  have hau := hpl.authority
  rw [hname] at hu
  rw [hg] at hau
  unfold incrementalAuthority at hau
  simp only [hno, Bool.false_eq_true, if_false] at hau
  split at hau
  · cases hau
  · rename_i cs hcs
    split at hau
    · cases hau
    · rename_i sitemap hs
      split at hau
      · cases hau
      · rename_i sm hsm
        refine ⟨clUri, sitemap, raw, hu, hs, hpl.read, ?_⟩
        intro r hr
        rcases checkChangeAuthority_ok hau r hr with h | h
        · exact .inl ⟨cs, hcs, h⟩
        · exact .inr ⟨sm, hsm, h⟩

open ClientExample in
/-- an incremental sync that does something with the default change list, and one that is refused -/
example : (incremental (env [] [{ evilRes 60 with uri := uri "a" }] [1]) cfg false none (some "1970-01-01T00:00:00Z".toList) (start [])).1.trace ≠ [] ∧
    (incremental (env [] [evilRes 60] [1]) evilCfg false none (some "1970-01-01T00:00:00Z".toList) evilStart).2 = .error .fatal := by
  decide +kernel

open ClientExample in
/-- C53 fails with an explicit change list URI, even one naming the same list: a resource of another host is fetched, and
overwrites the local copy. -/
theorem C53_violated :
    ¬ Authorised false (uri "changelist.xml") (evilRes 60).uri ∧ ¬ Authorised false (uri "rl.xml") (evilRes 60).uri ∧
    (let r := incremental (env [] [evilRes 60] [1]) evilCfg false (some (uri "changelist.xml")) (some "1970-01-01T00:00:00Z".toList) evilStart
     r.2 = .ok () ∧ Effect.get (evilRes 60).uri ∈ doneBetween evilStart r.1 ∧
     IsFile evilStart.world.fs ["e".toList, "x".toList] [7] 50 ∧ IsFile r.1.world.fs ["e".toList, "x".toList] [1] 60) := by
  refine ⟨?_, ?_, ?_⟩
  · rintro ⟨a, ha, h⟩
    have : UrlAuthority.new (some (uri "changelist.xml")) false = some ⟨false, "http".toList, "s".toList, "/".toList⟩ := by decide +kernel
    rw [this] at ha
    cases ha
    revert h
    decide +kernel
  · rintro ⟨a, ha, h⟩
    have : UrlAuthority.new (some (uri "rl.xml")) false = some ⟨false, "http".toList, "s".toList, "/".toList⟩ := by decide +kernel
    rw [this] at ha
    cases ha
    revert h
    decide +kernel
  · unfold IsFile doneBetween
    decide +kernel

/-! ### C56 -/

theorem checkTimes_ok {rs : List Resource} {last : Rat} (h : ∀ r ∈ rs, r.ts_datetime ≠ none ∨ r.timestamp ≠ none) :
    ∃ t, checkTimes rs last = .ok t := by
  induction rs generalizing last with
  | nil => exact ⟨last, rfl⟩
  | cons x t ih =>
    have h' : ∀ r ∈ t, r.ts_datetime ≠ none ∨ r.timestamp ≠ none := fun r hr => h r (by simp [hr])
    unfold checkTimes
    split
    · rename_i h1 h2
      rcases h x (by simp) with h | h
      · exact absurd h1 h
      · exact absurd h2 h
    · exact ih h'
    · exact ih h'

theorem forEach_error {f : St → Resource → St × Except ClientErr Unit} {rs : List Resource} {s : St} {e : ClientErr}
    (h : (forEach f rs s).2 = .error e) : ∃ r ∈ rs, ∃ s', (f s' r).2 = .error e := by
  induction rs generalizing s with
  | nil => cases h
  | cons x t ih =>
    unfold forEach at h
    cases hx : f s x with
    | mk s1 y =>
    rw [hx] at h
    cases y with
    | error e' =>
      cases h
      exact ⟨x, by simp, s, by rw [hx]⟩
    | ok _ =>
      obtain ⟨r, hr, h⟩ := ih h
      exact ⟨r, by simp [hr], h⟩

/-- C56, the part that holds: a change list whose entries all have the time this version of the framework uses (lastmod
in 1.0, datetime later on), the other conditions met, is processed: if the run fails, it is because one of the changes
selected could not be applied, or the state not written.  Missing: entries with only the other time. -/
theorem C56_partial (env : Env) (c : ClientCfg) (allow_deletion : Bool) (uri from_datetime : Option Str) (s : St)
    (hm : c.disc.mapper ≠ []) (hsafe : c.disc.mapper.isUnsafe = .ok false) (t0 : Rat)
    (hstart : startTime env c from_datetime s = .ok t0) (hyears : InYears t0) (clUri : Str)
    (hu : c.disc.sitemapUri (c.changeListName uri) = .ok clUri) (changes : List Resource)
    (hread : env.changeList clUri = some changes) (hh : s.hashes = [])
    (hauth : incrementalAuthority c clUri (givenUri uri) changes = .ok ())
    (hknown : ∀ r ∈ changes, r.change = some "created".toList ∨ r.change = some "updated".toList ∨ r.change = some "deleted".toList)
    (htime : ∀ r ∈ changes, changeTime c.spec_version r ≠ none) (e : ClientErr)
    (herr : (incremental env c allow_deletion uri from_datetime s).2 = .error e) :
    (∃ r s', LastChange changes c.spec_version t0 r ∧ (applyOne env c allow_deletion s' r).2 = .error e) ∨
    ∃ s', (storeState env c s').2 = .error e := by
  obtain ⟨last, hlast⟩ := checkTimes_ok (last := 0) (rs := changes) (by
    intro r hr
    have := htime r hr
    unfold changeTime at this
    split at this
    · exact .inr this
    · exact .inl this)
  have hp := (C26_prune_updates_before changes t0 c.spec_version).1 (by
    intro r hr
    have := htime r hr
    unfold changeTime at this
    unfold entryTime
    exact Option.isSome_iff_ne_none.mpr this)
  have hplan : ∃ s1 cl, incrementalPlan env c uri from_datetime s = (s1, .ok cl) := by
    unfold incrementalPlan
    simp only [if_neg hm, hsafe, hstart, hu, hread, hh, ne_eq, not_true_eq_false, if_false, hlast, hauth, hp,
      logTime_of_years hyears, ite_self]
    rw [if_neg]
    · exact ⟨_, _, rfl⟩
    · intro hany
      rw [List.any_eq_true] at hany
      obtain ⟨r, hr, hn⟩ := hany
      obtain ⟨pre, post, e1, -⟩ := (C25_at_most_one_per_uri _).2 r hr
      have hr' : r ∈ changes.filter (fun r => (entryTime c.spec_version r).any (t0 ≤ ·)) := by rw [e1]; simp
      have := hknown r (List.mem_of_mem_filter hr')
      simp only [decide_eq_true_eq, not_or] at hn
      rcases this with h | h | h
      · exact hn.2.1 h
      · exact hn.1 h
      · exact hn.2.2 h
  obtain ⟨s1, cl, hplan⟩ := hplan
  obtain ⟨t0', clUri', raw, kept, last', hpl⟩ := incrementalPlan_ok hplan
  have h1 := hpl.start
  rw [hstart] at h1
  cases h1
  have h2 := hpl.listUri
  rw [hu] at h2
  cases h2
  have h3 := hpl.read
  rw [hread] at h3
  cases h3
  unfold incremental at herr
  rw [hplan] at herr
  simp only at herr
  split at herr
  · cases herr
  · cases hf : forEach (applyOne env c allow_deletion) cl s1 with
    | mk s2 x =>
    rw [hf] at herr
    cases x with
    | error e' =>
      cases herr
      obtain ⟨r, hr, s', h⟩ := forEach_error (f := applyOne env c allow_deletion) (rs := cl) (s := s1) (e := e) (by rw [hf])
      exact .inl ⟨r, s', planned_last hpl hr, h⟩
    | ok _ =>
      simp only at herr
      split at herr
      · exact .inr ⟨s2, herr⟩
      · cases herr

open ClientExample in
/-- a change list that meets the hypotheses, with the run that processes it -/
example : (let ch : Resource := { uri := uri "a", change := some sUpdated, ts_datetime := some 60 }
    incrementalAuthority cfg (uri "changelist.xml") false [ch] = .ok () ∧ changeTime cfg.spec_version ch ≠ none ∧
    (incremental (env [] [ch] [1]) cfg false none (some "1970-01-01T00:00:00Z".toList) (start ["a"])).2 = .ok ()) := by
  decide +kernel

open ClientExample in
/-- C56 fails: a change list whose only entry has a lastmod and no datetime ends in an exception that is not a
ClientError, with nothing done; likewise one with a datetime and no lastmod in version 1.0. -/
theorem C56_violated :
    (let ch : Resource := { uri := uri "a", change := some sUpdated, timestamp := some 60 }
     let r := incremental (env [] [ch] [1]) cfg false none (some "1970-01-01T00:00:00Z".toList) (start ["a"])
     r.2 = .error .uncaught ∧ r.1.trace = []) ∧
    (let ch : Resource := { uri := uri "a", change := some sUpdated, ts_datetime := some 60 }
     let r := incremental (env [] [ch] [1]) { cfg with spec_version := "1.0".toList } false none
       (some "1970-01-01T00:00:00Z".toList) (start ["a"])
     r.2 = .error .uncaught ∧ r.1.trace = []) := by
  decide +kernel

/-! ### C57 -/

theorem mem_listHashes {src : Dict Resource} (hw : WF src) (t : Str) : t ∈ listHashes (iterList src) ↔ ListHas src t := by
  have key : ∀ f : Resource → Option Str, (iterList src).any (fun r => (f r).isSome) = true ↔ ∃ u r, (u, r) ∈ src ∧ f r ≠ none := by
    intro f
    rw [List.any_eq_true]
    constructor
    · rintro ⟨r, hr, h⟩
      exact ⟨r.uri, r, mem_of_dget ((mem_iterList hw).mp hr), Option.isSome_iff_ne_none.mp h⟩
    · rintro ⟨u, r, hr, h⟩
      have hg := dget_of_mem hw.1 hr
      have hu := hw.2 u r hg
      exact ⟨r, (mem_iterList hw).mpr (by rw [hu]; exact hg), Option.isSome_iff_ne_none.mpr h⟩
  have k1 := key (·.md5)
  have k2 := key (·.sha1)
  have k3 := key (·.sha256)
  have split : ListHas src t ↔ (t = sMd5 ∧ ∃ u r, (u, r) ∈ src ∧ r.md5 ≠ none) ∨ (t = sSha1 ∧ ∃ u r, (u, r) ∈ src ∧ r.sha1 ≠ none) ∨
      (t = sSha256 ∧ ∃ u r, (u, r) ∈ src ∧ r.sha256 ≠ none) := by
    unfold ListHas
    constructor
    · rintro ⟨u, r, h, ⟨e, h'⟩ | ⟨e, h'⟩ | ⟨e, h'⟩⟩
      · exact .inl ⟨e, u, r, h, h'⟩
      · exact .inr (.inl ⟨e, u, r, h, h'⟩)
      · exact .inr (.inr ⟨e, u, r, h, h'⟩)
    · rintro (⟨e, u, r, h, h'⟩ | ⟨e, u, r, h, h'⟩ | ⟨e, u, r, h, h'⟩)
      · exact ⟨u, r, h, .inl ⟨e, h'⟩⟩
      · exact ⟨u, r, h, .inr (.inl ⟨e, h'⟩)⟩
      · exact ⟨u, r, h, .inr (.inr ⟨e, h'⟩)⟩
  rw [split, ← k1, ← k2, ← k3]
  unfold listHashes
  simp only [List.mem_append]
  constructor
  · rintro ((h | h) | h)
    · split at h
      · exact .inl ⟨by simpa using h, by assumption⟩
      · cases h
    · split at h
      · exact .inr (.inl ⟨by simpa using h, by assumption⟩)
      · cases h
    · split at h
      · exact .inr (.inr ⟨by simpa using h, by assumption⟩)
      · cases h
  · rintro (⟨e, h⟩ | ⟨e, h⟩ | ⟨e, h⟩)
    · left; left; rw [if_pos h, e]; simp
    · left; right; rw [if_pos h, e]; simp
    · right; rw [if_pos h, e]; simp

/-- C57 as the code has it: the digests worked out for the local files in a baseline or audit are those requested which no
resource of the source list has; so none of them is ever compared with one of the source.  The opposite was intended. -/
theorem C57_wrong_hashes_violated (env : Env) (c : ClientCfg) (audit : Bool) (s s1 : St) (src : Dict Resource) (cmp : Comparison)
    (hk : ListsKeyed env.sources) (hfs : ProperFs s.world.fs) (h : baselinePlan env c audit s = (s1, .ok (src, cmp))) :
    (∀ t, t ∈ s1.hashes ↔ t ∈ s.hashes ∧ ¬ ListHas src t) ∧
    ∀ dst, (Builder.new c.disc.mapper (some s1.hashes) true false).fromDisk env.lib (s.world.fs.disk env.cwd) = .ok dst →
      ∀ u a b, dget dst u = some a → (u, b) ∈ src →
        (a.md5 = none ∨ b.md5 = none) ∧ (a.sha1 = none ∨ b.sha1 = none) ∧ (a.sha256 = none ∨ b.sha256 = none) := by
  obtain ⟨dst0, hpl⟩ := baselinePlan_ok h
  have hw := found_WF hk hpl.found
  have hs1 : s1.hashes = leftHashes s src := by rw [hpl.state]
  have h1 : ∀ t, t ∈ s1.hashes ↔ t ∈ s.hashes ∧ ¬ ListHas src t := by
    intro t
    rw [hs1, ← mem_listHashes hw]
    unfold leftHashes pruneHashes
    split
    · rw [List.mem_filter]; simp
    · rename_i hn
      have : s.hashes = [] := by simpa using hn
      rw [this]; simp
  refine ⟨h1, ?_⟩
  intro dst hd u a b ha hb
  obtain ⟨path, content, mtime, -, -, e3⟩ := (fromDisk_found' hfs hd).2 u a ha
  have hset : ∀ t, (match (Builder.new c.disc.mapper (some s1.hashes) true false).set_hashes with
      | some hs => decide (t ∈ hs)
      | none => false) = true → t ∈ s1.hashes := by
    intro t ht
    unfold Builder.new at ht
    cases hh : s1.hashes with
    | nil => rw [hh] at ht; cases ht
    | cons x y => rw [hh] at ht; simpa using ht
  have key : ∀ t, t ∈ s1.hashes → ¬ ListHas src t := fun t ht => ((h1 t).mp ht).2
  rw [e3]
  refine ⟨?_, ?_, ?_⟩
  · by_cases hx : b.md5 = none
    · exact .inr hx
    · left
      unfold describes
      simp only
      rw [if_neg]
      intro ht
      exact key _ (hset _ ht) ⟨u, b, hb, .inl ⟨rfl, hx⟩⟩
  · by_cases hx : b.sha1 = none
    · exact .inr hx
    · left
      unfold describes
      simp only
      rw [if_neg]
      intro ht
      exact key _ (hset _ ht) ⟨u, b, hb, .inr (.inl ⟨rfl, hx⟩)⟩
  · by_cases hx : b.sha256 = none
    · exact .inr hx
    · left
      unfold describes
      simp only
      rw [if_neg]
      intro ht
      exact key _ (hset _ ht) ⟨u, b, hb, .inr (.inr ⟨rfl, hx⟩)⟩

open ClientExample in
/-- C57 fails: md5 digests are requested, the source list has one, and the local file has another (with the same time and
length); the files are nevertheless found to be the same and nothing is fetched. -/
theorem C57_violated :
    (let r : Resource := { res "a" 50 with md5 := some "xyz".toList, length := some 1 }
     let s0 : St := { start ["a"] with hashes := ["md5".toList] }
     let run := baselineOrAudit (env [r] [] [1]) cfg false false s0
     exLib.md5 [7] ≠ "xyz".toList ∧ IsFile s0.world.fs (at_ "a") [7] 50 ∧ run.2 = .ok () ∧ run.1.trace = []) := by
  unfold IsFile
  decide +kernel

/-- C57 fails for incremental sync in another way: with hashes requested it never succeeds, and does nothing. -/
theorem C57_incremental_violated (env : Env) (c : ClientCfg) (allow_deletion : Bool) (uri from_datetime : Option Str) (s : St)
    (h : s.hashes ≠ []) : (incremental env c allow_deletion uri from_datetime s).2 ≠ .ok () ∧
      doneBetween s (incremental env c allow_deletion uri from_datetime s).1 = [] := by
  constructor
  · intro hok
    unfold incremental at hok
    cases hp : incrementalPlan env c uri from_datetime s with
    | mk s1 x =>
    rw [hp] at hok
    cases x with
    | error e => cases hok
    | ok cl =>
      obtain ⟨_, _, _, _, _, hpl⟩ := incrementalPlan_ok hp
      exact h hpl.nohash
  · rw [List.eq_nil_iff_forall_not_mem]
    intro e he
    obtain ⟨_, _, _, _, _, _, _, hpl, -⟩ := (incremental_did env c allow_deletion uri from_datetime s).done e he
    exact h hpl.nohash

end Resync
