import Verif.Proofs.ClientProgress
import Verif.Props.ClientAuthority
import Verif.Props.ClientResult
import Verif.Proofs.LogTime
/-
C79: a baseline sync for which nothing goes wrong succeeds.
-/

namespace Resync
open Py Resync.Spec

/-- the file with these names below the mapping is listed -/
def FileListed (m : Map) (src : Dict Resource) (names : List Str) : Prop :=
  names ≠ [] ∧ (∀ n ∈ names, PlainName n) ∧ ∃ r, (uriBelow m names, r) ∈ src

/-- Every file listed can have its place: none is listed below another, there is no directory where it belongs, and no file where
there must be a directory for it. -/
structure Room (m : Map) (src : Dict Resource) (root : Loc) (fs : Fs) : Prop where
  listed : ∀ a b, FileListed m src a → FileListed m src b → a <+: b → a = b
  noDir : ∀ names, FileListed m src names → fs.get (root ++ names) ≠ some .dir
  noFile : ∀ names, FileListed m src names → ∀ p, p <+: root ++ names → p ≠ root ++ names → ¬ HasFile fs p

theorem checkAuthority_succeeds {sitemap : Str} {strict : Bool} {rs : List Resource} (hs : ∃ a, UrlAuthority.new (some sitemap) strict = some a)
    (h : ∀ r ∈ rs, Authorised strict sitemap r.uri) : checkAuthority sitemap strict rs = .ok () := by
  obtain ⟨a, ha⟩ := hs
  unfold checkAuthority
  rw [ha]
  simp only
  induction rs with
  | nil => rfl
  | cons x t ih =>
    obtain ⟨a', h1, h2⟩ := h x (by simp)
    rw [ha] at h1
    cases h1
    unfold checkAuthority.go
    rw [h2]
    exact ih (fun r hr => h r (by simp [hr]))

/-- C79, the part that holds.  Sites mapped to directories of their own (Sites), a list of files below them that the client may read
and use, a server that delivers each within the number of tries the client makes, a disk that does what it is asked, room for every
listed file in what is there now (FreeFor), no times after the year 9999, and a state file that nobody but the client has written: the
baseline sync succeeds, with or without deletion.  Missing: when what is in the way would itself be deleted by the sync (C79_violated),
and later times (C79_late_time_violated). -/
theorem C79_sites_succeed_partial (env : Env) (hft : FloatOk env.ft) (c : ClientCfg) (allow_deletion : Bool) (s : St)
    (sites : List (Map × Loc)) (src : Dict Resource) (hone : Sites c env.cwd sites s.world.fs) (hh : ∀ t ∈ s.hashes, HashType t)
    (hk : ListsKeyed env.sources) (hsafe : c.disc.mapper.isUnsafe = .ok false)
    (hfound : (findResourceList env.sources c.disc).2 = .ok src) (hne : src ≠ []) (hreg : ListBelow sites src)
    (site : Str) (hsite : c.disc.sitemap = .ok site) (hs : site ≠ [])
    (hauth : c.noauth = true ∨ ∀ u r, (u, r) ∈ src → Authorised c.strictauth site u)
    (hd : c.dryrun = false)
    (hserve : ∀ u r, (u, r) ∈ src → Delivers env c.tries u)
    (hmkdir : ∀ tr l, env.mkdirFails tr l = false) (hopen : ∀ tr l, env.openFails tr l = false)
    (hroom : FreeFor (PlaceListed sites src) s.world.fs)
    (hyears : ∀ u r t, (u, r) ∈ src → r.timestamp = some t → Before10000 t)
    (hlocal : ∀ p ∈ sites, ∀ names b t, IsFile s.world.fs (p.2 ++ names) b t → Before10000 t)
    (ops : List (Str × Option Rat)) (hops : ∀ op ∈ ops, op.1 ≠ []) (hstate : setAll env.ft none ops = .ok s.world.state) :
    (baselineOrAudit env c allow_deletion false s).2 = .ok () := by
  have hw := found_WF hk hfound
  obtain ⟨d, hholds⟩ : ∃ d, Holds env.ft s.world.state d := by
    obtain ⟨f', h1, h2⟩ := setAll_holds hft ops hops (holds_none env.ft)
    rw [hstate] at h1
    cases h1
    exact ⟨_, h2⟩
  obtain ⟨dst, k1, k2⟩ := hone.scan env.lib (leftHashes s src) (fun t ht => hh t (leftHashes_sub ht))
  have hdw : WF dst := (fromDisk_found' hone.proper k1).1
  obtain ⟨h', cmp, e1, -, -, -⟩ := compare_spec (pairHeap dst src) 0 1 (by decide) hdw hw
  have hc := compared hdw hw e1
  have hplan : baselinePlan env c false s = ({ s with hashes := leftHashes s src }, .ok (src, cmp)) := by
    unfold baselinePlan
    rw [if_neg (by rw [hone.mapper]; simpa using hone.nonempty)]
    simp only [Bool.false_eq_true, if_false, hsafe, hfound, if_neg hne]
    have est : (if s.hashes ≠ [] then { s with hashes := pruneHashes s.hashes (listHashes (iterList src)) } else s)
        = { s with hashes := leftHashes s src } := by
      unfold leftHashes; split <;> rfl
    rw [est]
    simp only
    rw [k1]
    simp only [e1]
  unfold baselineOrAudit
  rw [hplan]
  simp only
  split
  · rfl
  · have hau : baselineAuthority c src = .ok () := by
      unfold baselineAuthority
      split
      · rfl
      · rename_i hna
        simp only [hsite]
        have ha := hauth.resolve_left hna
        have hin : ∀ r ∈ iterList src, ∃ u, (u, r) ∈ src ∧ r.uri = u := by
          intro r hr
          have := (mem_iterList hw).mp hr
          exact ⟨r.uri, mem_of_dget this, rfl⟩
        apply checkAuthority_succeeds
        · obtain ⟨p, hp⟩ := List.exists_mem_of_ne_nil _ hne
          obtain ⟨a, h1, -⟩ := ha p.1 p.2 hp
          exact ⟨a, h1⟩
        · intro r hr
          obtain ⟨u, h1, h2⟩ := hin r hr
          rw [h2]
          exact ha u r h1
    unfold baselineSync
    rw [hau]
    simp only
    -- the places to be filled
    have htodo : ∀ r ∈ iterList cmp.created ++ iterList cmp.updated, ∃ p ∈ sites, ∃ names, names ≠ [] ∧ (∀ n ∈ names, PlainName n) ∧
        r.uri = uriBelow p.1 names ∧ (uriBelow p.1 names, r) ∈ src := by
      intro r hr
      have : dget src r.uri = some r := by
        rcases List.mem_append.mp hr with h | h
        · exact ((hc.created _ _).mp ((mem_iterList hc.wf.created).mp h)).1
        · exact ((hc.updated _ _).mp ((mem_iterList hc.wf.updated).mp h)).1
      have hm := mem_of_dget this
      obtain ⟨p, hp, names, h1, h2, h3⟩ := hreg _ _ hm
      rw [h3] at hm
      exact ⟨p, hp, names, h1, h2, h3, hm⟩
    have hone' : ∀ r ∈ iterList cmp.created ++ iterList cmp.updated, ∀ x : St, (FreeFor (PlaceListed sites src) x.world.fs ∧ x.world.state = s.world.state ∧ Before10000 x.last_timestamp) →
        ∃ x', updateOne env c x r = (x', .ok ()) ∧
          (FreeFor (PlaceListed sites src) x'.world.fs ∧ x'.world.state = s.world.state ∧ Before10000 x'.last_timestamp) := by
      rintro r hr x ⟨i1, i2, i3⟩
      obtain ⟨p, hp, names, h1, h2, h3, h4⟩ := htodo r hr
      obtain ⟨fn, f1, f2, f3⟩ := hone.maps_dir hp h1 h2
      have hin : PlaceListed sites src (p.2 ++ names) := ⟨p, hp, names, h1, h2, rfl, r, h4⟩
      obtain ⟨x', n, u1, u2, u3⟩ := updateResource_succeeds (r := r) ⟨by rw [h3]; exact hserve _ _ h4, hmkdir, hopen⟩ hd f2 f3 hin i1
      have hu : updateOne env c x r = (x', .ok ()) := by
        unfold updateOne
        rw [h3, f1]
        simp only [u1]
      have hl := updateOne_last env c x r
      rw [hu] at hl
      exact ⟨x', hu, u2, u3.trans i2, hl.before (fun t ht => hyears _ r t h4 ht) i3⟩
    obtain ⟨s1, g1, g2⟩ := forEach_succeeds _ (iterList cmp.created) (fun r hr => hone' r (List.mem_append_left _ hr))
      { s with hashes := leftHashes s src, last_timestamp := 0 } ⟨hroom, rfl, by unfold Before10000; norm_num⟩
    rw [g1]
    simp only
    obtain ⟨s2, g3, -, g4⟩ := forEach_succeeds _ (iterList cmp.updated) (fun r hr => hone' r (List.mem_append_right _ hr)) s1 g2
    rw [g3]
    simp only
    obtain ⟨s3, g5, g6⟩ := forEach_succeeds (f := deleteOne env c allow_deletion) (fun x => x.world.state = s.world.state ∧ Before10000 x.last_timestamp) (iterList cmp.deleted) (by
      rintro r hr x ⟨hx, hx'⟩
      obtain ⟨b1, -⟩ := (hc.deleted _ _).mp ((mem_iterList hc.wf.deleted).mp hr)
      obtain ⟨p, hp, names, b, t, hnn, hf, hu, hr'⟩ := (k2 _ _).mp b1
      obtain ⟨fn, f1, -, -⟩ := hone.maps_dir hp hnn (names_of_file hone.tidy hnn hf)
      refine ⟨(deleteResource env c allow_deletion x r fn).1, ?_, ?_, ?_⟩
      · unfold deleteOne
        rw [hu, f1]
      · rw [deleteResource_state]; exact hx
      · refine (deleteResource_last env c allow_deletion x r fn).before ?_ hx'
        intro t' ht'
        rw [hr'] at ht'
        cases ht'
        exact hlocal p hp names b t hf) s2 g4
    rw [g5]
    simp only
    split
    · rename_i hpos
      unfold storeState
      rw [hsite, g6.1]
      simp only
      obtain ⟨f', h1, -⟩ := setState_holds hft hholds site hs (some s3.last_timestamp)
      rw [h1]
      cases f' with
      | none => rfl
      | some _ => exact logTime_positive hpos g6.2
    · rfl

/-- C79 for one plain mapping and a server that answers every request. -/
theorem C79_baseline_succeeds_partial (env : Env) (hft : FloatOk env.ft) (c : ClientCfg) (allow_deletion : Bool) (s : St) (m : Map)
    (root : Loc) (src : Dict Resource) (hone : OneSite c env.cwd m root s.world.fs) (hh : ∀ t ∈ s.hashes, HashType t)
    (hk : ListsKeyed env.sources) (hsafe : c.disc.mapper.isUnsafe = .ok false)
    (hfound : (findResourceList env.sources c.disc).2 = .ok src) (hne : src ≠ []) (hreg : ListRegular m src)
    (site : Str) (hsite : c.disc.sitemap = .ok site) (hs : site ≠ [])
    (hauth : c.noauth = true ∨ ∀ u r, (u, r) ∈ src → Authorised c.strictauth site u)
    (hd : c.dryrun = false) (ht : 0 < c.tries)
    (hserve : ∀ u r, (u, r) ∈ src → ∀ tr, ∃ b, env.serve tr u = .body b none)
    (hmkdir : ∀ tr l, env.mkdirFails tr l = false) (hopen : ∀ tr l, env.openFails tr l = false)
    (hroom : Room m src root s.world.fs)
    (hyears : ∀ u r t, (u, r) ∈ src → r.timestamp = some t → Before10000 t)
    (hlocal : ∀ names b t, IsFile s.world.fs (root ++ names) b t → Before10000 t)
    (ops : List (Str × Option Rat)) (hops : ∀ op ∈ ops, op.1 ≠ []) (hstate : setAll env.ft none ops = .ok s.world.state) :
    (baselineOrAudit env c allow_deletion false s).2 = .ok () := by
  have hl : ∀ l, PlaceListed [(m, root)] src l → ∃ names, FileListed m src names ∧ l = root ++ names := by
    rintro l ⟨p, hp, names, h1, h2, rfl, h4⟩
    rw [List.mem_singleton] at hp
    subst hp
    exact ⟨names, ⟨h1, h2, h4⟩, rfl⟩
  refine C79_sites_succeed_partial env hft c allow_deletion s [(m, root)] src hone.sites hh hk hsafe hfound hne hreg.below site hsite hs hauth hd
    (fun u r h => delivers_always ht (hserve u r h)) hmkdir hopen ⟨?_, ?_, ?_⟩ hyears (by
      intro p hp
      rw [List.mem_singleton] at hp
      subst hp
      exact hlocal) ops hops hstate
  · intro a b ha hb hab
    obtain ⟨na, ha', rfl⟩ := hl a ha
    obtain ⟨nb, hb', rfl⟩ := hl b hb
    rw [hroom.listed na nb ha' hb' ((List.prefix_append_right_inj root).mp hab)]
  · intro l h
    obtain ⟨names, h', rfl⟩ := hl l h
    exact hroom.noDir names h'
  · intro l h
    obtain ⟨names, h', rfl⟩ := hl l h
    exact hroom.noFile names h'

namespace ClientExample

theorem plain {l : List Str} (h : ∀ n ∈ l, ProperName n ∧ OneLine n) : ∀ n ∈ l, PlainName n := h

theorem no_file {fs : Fs} {p : Loc} (h : fs.get p = some .dir) : ¬ HasFile fs p := by
  rintro ⟨b, t, hf⟩
  unfold IsFile at hf
  rw [h] at hf
  cases hf

theorem listed_two {names : List Str} (h : FileListed ⟨base, "/d".toList⟩ (listOf [res "a" 100, res "b" 200]) names) :
    names = ["a".toList] ∨ names = ["b".toList] := by
  obtain ⟨h1, h2, r, h⟩ := h
  simp only [listOf, List.map_cons, List.map_nil, List.mem_cons, Prod.mk.injEq, List.not_mem_nil, or_false] at h
  rcases h with ⟨h, -⟩ | ⟨h, -⟩
  · exact .inl (uriBelow_inj h1 (b := ["a".toList]) (by decide) (fun n hn => (h2 n hn).1) (by decide) h)
  · exact .inr (uriBelow_inj h1 (b := ["b".toList]) (by decide) (fun n hn => (h2 n hn).1) (by decide) h)

/-- everything there is to do: b is created, a updated, c deleted -/
example : (baselineOrAudit (env [res "a" 100, res "b" 200] [] [1, 2]) cfg true false (start ["a", "c"])).2 = .ok () := by
  refine C79_baseline_succeeds_partial _ ratFt_ok _ _ _ ⟨base, "/d".toList⟩ ["d".toList] (listOf [res "a" 100, res "b" 200])
    (site _ (properFs_of (by decide) (by decide) (by decide) (by decide)) (by decide)) (by simp [start]) (env_keyed _ _ _ (by decide))
    (by decide +kernel) (by decide +kernel) (by decide) ?_ (uri "rl.xml") (by decide +kernel) (by decide) (.inr ?_) rfl (by decide)
    (fun _ _ _ _ => ⟨_, rfl⟩) (fun _ _ => rfl) (fun _ _ => rfl) ?_ ?_ (fun names => start_before _ _) [] (by simp) rfl
  · intro u r h
    simp only [listOf, List.map_cons, List.map_nil, List.mem_cons, Prod.mk.injEq, List.not_mem_nil, or_false] at h
    rcases h with ⟨rfl, -⟩ | ⟨rfl, -⟩
    · exact ⟨["a".toList], by decide, plain (by decide), by decide⟩
    · exact ⟨["b".toList], by decide, plain (by decide), by decide⟩
  · intro u r h
    simp only [listOf, List.map_cons, List.map_nil, List.mem_cons, Prod.mk.injEq, List.not_mem_nil, or_false] at h
    rcases h with ⟨rfl, -⟩ | ⟨rfl, -⟩
    · exact ⟨_, rfl, by decide +kernel⟩
    · exact ⟨_, rfl, by decide +kernel⟩
  · constructor
    · intro a b ha hb hab
      rcases listed_two ha with rfl | rfl <;> rcases listed_two hb with rfl | rfl
      · rfl
      · exact absurd hab (by decide)
      · exact absurd hab (by decide)
      · rfl
    · intro names hn
      rcases listed_two hn with rfl | rfl <;> decide
    · intro names hn p hp hp'
      have : p = [] ∨ p = ["d".toList] := by
        rcases listed_two hn with rfl | rfl <;>
        · rcases p with _ | ⟨x, _ | ⟨y, _ | ⟨z, t⟩⟩⟩
          · exact .inl rfl
          · simp at hp; exact .inr (by simp [hp])
          · simp at hp; exact absurd (by simp [hp]) hp'
          · simp at hp
      rcases this with rfl | rfl
      · exact no_file (by decide)
      · exact no_file (by decide)
  · intro u r t h ht
    simp only [listOf, List.map_cons, List.map_nil, List.mem_cons, Prod.mk.injEq, List.not_mem_nil, or_false] at h
    rcases h with ⟨-, rfl⟩ | ⟨-, rfl⟩ <;> cases ht <;> (unfold Before10000; norm_num)

/-- Violated: the source has turned the file `a` into a directory with a file `b`.  Everything works and `a` may be deleted, but
since the sync creates before it deletes, making the directory raises an error that nothing catches, and the same happens in every
further run. -/
theorem C79_violated :
    let env := env [res "a/b" 100] [] [1, 2]
    let r := baselineOrAudit env cfg true false (start ["a"])
    OneSite cfg env.cwd ⟨base, "/d".toList⟩ ["d".toList] (start ["a"]).world.fs ∧ ListsKeyed env.sources ∧
    cfg.disc.mapper.isUnsafe = .ok false ∧ (findResourceList env.sources cfg.disc).2 = .ok (listOf [res "a/b" 100]) ∧
    ListRegular ⟨base, "/d".toList⟩ (listOf [res "a/b" 100]) ∧
    cfg.disc.sitemap = .ok (uri "rl.xml") ∧ Authorised cfg.strictauth (uri "rl.xml") (uri "a/b") ∧ cfg.dryrun = false ∧ 0 < cfg.tries ∧
    (∀ u tr, ∃ b, env.serve tr u = .body b none) ∧ (∀ tr l, env.mkdirFails tr l = false) ∧ (∀ tr l, env.openFails tr l = false) ∧
    (∀ tr l, env.unlinkFails tr l = false) ∧
    r.2 = .error .uncaught ∧ r.1.world.fs = (start ["a"]).world.fs := by
  refine ⟨site _ (properFs_of (by decide) (by decide) (by decide) (by decide)) (by decide), env_keyed _ _ _ (by decide), by decide +kernel,
    by decide +kernel, ?_, by decide +kernel, ⟨_, rfl, by decide +kernel⟩, rfl, by decide, fun _ _ => ⟨_, rfl⟩, fun _ _ => rfl,
    fun _ _ => rfl, fun _ _ => rfl, by decide +kernel, by decide +kernel⟩
  intro u r h
  simp only [listOf, List.map_cons, List.map_nil, List.mem_cons, Prod.mk.injEq, List.not_mem_nil, or_false] at h
  obtain ⟨rfl, -⟩ := h
  exact ⟨["a".toList, "b".toList], by decide, plain (by decide), by decide⟩

/-- Violated for late times: everything works, the files are there and the state is stored, but then the message with the time
raises an exception that nothing catches: a source may list a time in the last hours of the year 9999, which becomes a time in the year
10000 since offsets are added where they should be subtracted (C13).  The same happens when it is a file to be deleted that has a late time, even if deletion is not allowed. -/
theorem C79_late_time_violated :
    strToDatetime "9999-12-31T23:00:00+01:00".toList = some 253402300800 ∧
    (let r := baselineOrAudit (env [res "a" 253402300800] [] [1, 2]) cfg false false (start [])
     r.2 = .error .uncaught ∧ IsFile r.1.world.fs (at_ "a") [1, 2] 253402300800 ∧
     getState ratFt r.1.world.state (uri "rl.xml") = .ok (some 253402300800)) ∧
    (let s : St := { world := { fs := (at_ "old", .file [7] 253402300800) :: disk [] } }
     let r := baselineOrAudit (env [res "a" 100] [] [1, 2]) cfg false false s
     r.2 = .error .uncaught ∧ IsFile r.1.world.fs (at_ "a") [1, 2] 100 ∧ IsFile r.1.world.fs (at_ "old") [7] 253402300800 ∧
     getState ratFt r.1.world.state (uri "rl.xml") = .ok (some 253402300800)) := by
  refine ⟨by decide +kernel, ?_, ?_⟩
  · unfold IsFile; decide +kernel
  · unfold IsFile; decide +kernel

end ClientExample
end Resync
