import Verif.Proofs.Locality
import Verif.Proofs.Copies
import Verif.Props.ClientSites
/-
C121: What a sync does depends on nothing on the disk but what is at its destinations.
-/

namespace Resync
open Py Resync.Spec

/-- C121.  A baseline sync or an audit of lists whose URIs are below the mapped ones does the same (the same requests and changes of the
disk in the same order, the same result, the same record in the state file, the same files at the destinations afterwards) whatever there is
elsewhere on the disk. -/
theorem C121_sync (env : Env) (c : ClientCfg) (allow_deletion audit_only : Bool) (s : St) (fs' : Fs) (sites : List (Map × Loc))
    (hsites : Sites c env.cwd sites s.world.fs) (hsites' : Sites c env.cwd sites fs') (hh : ∀ t ∈ s.hashes, HashType t)
    (hk : ListsKeyed env.sources) (hlist : ∀ src, (findResourceList env.sources c.disc).2 = .ok src → ListBelow sites src)
    (hfs : SameAtSites sites s.world.fs fs') :
    let p := baselineOrAudit env c allow_deletion audit_only s
    let p' := baselineOrAudit env c allow_deletion audit_only { s with world := { s.world with fs := fs' } }
    p'.2 = p.2 ∧ p'.1.trace = p.1.trace ∧ p'.1.world.state = p.1.world.state ∧ SameAtSites sites p.1.world.fs p'.1.world.fs := by
  have hg := hfs
  have h0 : MomentOn (NearSites sites) s { s with world := { s.world with fs := fs' } } := ⟨hg, rfl, rfl, rfl, rfl⟩
  suffices EndOn (NearSites sites) (baselineOrAudit env c allow_deletion audit_only s)
      (baselineOrAudit env c allow_deletion audit_only { s with world := { s.world with fs := fs' } }) from
    ⟨this.2, this.1.trace, this.1.state, this.1.fs⟩
  unfold baselineOrAudit baselinePlan
  by_cases hm : c.disc.mapper = []
  · rw [if_pos hm, if_pos hm]; exact ⟨h0, rfl⟩
  rw [if_neg hm, if_neg hm]
  cases (if audit_only then Except.ok false else c.disc.mapper.isUnsafe) with
  | error e => exact ⟨h0, rfl⟩
  | ok b =>
    cases b with
    | true => exact ⟨h0, rfl⟩
    | false =>
      cases hfound : (findResourceList env.sources c.disc).2 with
      | error e => exact ⟨h0, rfl⟩
      | ok src =>
        have hw := found_WF hk hfound
        simp only
        by_cases hne : src = []
        · rw [if_pos hne, if_pos hne]; exact ⟨h0, rfl⟩
        rw [if_neg hne, if_neg hne]
        have est : ∀ t : St, (if t.hashes ≠ [] then { t with hashes := pruneHashes t.hashes (listHashes (iterList src)) } else t)
            = { t with hashes := leftHashes t src } := by
          intro t; unfold leftHashes; split <;> rfl
        have e1 := est s
        have e2 := est { s with world := { s.world with fs := fs' } }
        simp only at e1 e2
        rw [e1, e2]
        have hlh : leftHashes { s with world := { s.world with fs := fs' } } src = leftHashes s src := rfl
        rw [hlh]
        obtain ⟨dst, k1, k2⟩ := hsites.scan env.lib (leftHashes s src) (fun t ht => hh t (leftHashes_sub ht))
        obtain ⟨dst', k1', k2'⟩ := hsites'.scan env.lib (leftHashes s src) (fun t ht => hh t (leftHashes_sub ht))
        have hdw : WF dst := (fromDisk_found' hsites.proper k1).1
        have hdw' : WF dst' := (fromDisk_found' hsites'.proper k1').1
        have hl : listing dst' = listing dst := by
          apply listing_ext hdw' hdw
          intro u r
          rw [k2, k2']
          refine exists_congr fun p => and_congr_right fun hp => exists_congr fun names => exists_congr fun content => exists_congr fun mtime =>
            and_congr_right fun _ => and_congr_left fun _ => ?_
          unfold IsFile
          rw [hg _ (near_way hp (List.prefix_refl (p.2 ++ names)))]
        obtain ⟨g, cmp, a1, -, a3, a4⟩ := compare_spec (pairHeap dst src) 0 1 (by decide) hdw hw
        obtain ⟨g', cmp', b1, -, b3, b4⟩ := compare_spec (pairHeap dst' src) 0 1 (by decide) hdw' hw
        have hl' : listing (pairHeap dst' src 0).dict = listing (pairHeap dst src 0).dict := hl
        have hr' : listing (pairHeap dst' src 1).dict = listing (pairHeap dst src 1).dict := rfl
        rw [hl', hr'] at b3
        have lu := listing_ext b4.updated a4.updated (fun u r => (b3.updated u r).trans (a3.updated u r).symm)
        have ld := listing_ext b4.deleted a4.deleted (fun u r => (b3.deleted u r).trans (a3.deleted u r).symm)
        have lc := listing_ext b4.created a4.created (fun u r => (b3.created u r).trans (a3.created u r).symm)
        have nu : cmp'.updated.length = cmp.updated.length := by rw [← listing_len b4.updated, lu, listing_len a4.updated]
        have nd : cmp'.deleted.length = cmp.deleted.length := by rw [← listing_len b4.deleted, ld, listing_len a4.deleted]
        have nc : cmp'.created.length = cmp.created.length := by rw [← listing_len b4.created, lc, listing_len a4.created]
        simp only [k1, k1', a1, b1, nu, nd, nc]
        have h1 : MomentOn (NearSites sites) { s with hashes := leftHashes s src }
            { world := { s.world with fs := fs' }, trace := s.trace, last_timestamp := s.last_timestamp, hashes := leftHashes s src } :=
          ⟨hg, rfl, rfl, rfl, rfl⟩
        split
        · exact ⟨h1, rfl⟩
        · refine baselineSync_on env c allow_deletion src lc lu ld h1 ?_
          have hC := compared hdw hw a1
          have hsrc : ∀ r, dget src r.uri = some r → ∀ fn, c.disc.mapper.srcToDst r.uri = .ok fn → FileOn (NearSites sites) env.cwd fn := by
            intro r hr fn hf
            obtain ⟨p, hp, names, n1, n2, n3⟩ := hlist src hfound _ _ (mem_of_dget hr)
            rw [n3] at hf
            exact below_on hsites hp n1 n2 hf
          rintro r (hr | hr | hr) fn hf
          · exact hsrc r ((hC.created _ _).mp ((mem_listing hC.wf.created).mp hr)).1 fn hf
          · exact hsrc r ((hC.updated _ _).mp ((mem_listing hC.wf.updated).mp hr)).1 fn hf
          · obtain ⟨p, hp, names, content, mtime, n1, n2, n3, -⟩ := (k2 _ _).mp ((hC.deleted _ _).mp ((mem_listing hC.wf.deleted).mp hr)).1
            rw [n3] at hf
            refine below_on hsites hp n1 ?_ hf
            have hm := mem_of_get (by simp [n1]) n2
            intro n hn
            exact ⟨hsites.proper.names _ hm n (List.mem_append_right _ hn), hsites.names _ hm n (List.mem_append_right _ hn)⟩

/-- C121 for an incremental sync: the disks need not even be proper ones elsewhere. -/
theorem C121_incremental (env : Env) (c : ClientCfg) (allow_deletion : Bool) (change_list_uri from_datetime : Option Str) (s : St) (fs' : Fs)
    (sites : List (Map × Loc)) (hsites : Sites c env.cwd sites s.world.fs)
    (hbelow : ∀ changes, ChangesRead env c change_list_uri changes → ∀ r ∈ changes, BelowSites sites r.uri)
    (hfs : SameAtSites sites s.world.fs fs') :
    let p := incremental env c allow_deletion change_list_uri from_datetime s
    let p' := incremental env c allow_deletion change_list_uri from_datetime { s with world := { s.world with fs := fs' } }
    p'.2 = p.2 ∧ p'.1.trace = p.1.trace ∧ p'.1.world.state = p.1.world.state ∧ SameAtSites sites p.1.world.fs p'.1.world.fs := by
  have h0 : MomentOn (NearSites sites) s { s with world := { s.world with fs := fs' } } := ⟨hfs, rfl, rfl, rfl, rfl⟩
  suffices EndOn (NearSites sites) (incremental env c allow_deletion change_list_uri from_datetime s)
      (incremental env c allow_deletion change_list_uri from_datetime { s with world := { s.world with fs := fs' } }) from
    ⟨this.2, this.1.trace, this.1.state, this.1.fs⟩
  have hplan : EndOn (NearSites sites) (incrementalPlan env c change_list_uri from_datetime s)
      (incrementalPlan env c change_list_uri from_datetime { s with world := { s.world with fs := fs' } }) := by
    have hst : startTime env c from_datetime { s with world := { s.world with fs := fs' } } = startTime env c from_datetime s := by
      unfold startTime
      rfl
    unfold incrementalPlan
    rw [hst]
    split
    · exact ⟨h0, rfl⟩
    split
    · exact ⟨h0, rfl⟩
    · exact ⟨h0, rfl⟩
    split
    · exact ⟨h0, rfl⟩
    split
    · exact ⟨h0, rfl⟩
    split
    · exact ⟨h0, rfl⟩
    simp only
    split
    · exact ⟨h0, rfl⟩
    split
    · exact ⟨h0, rfl⟩
    rename_i last _
    have h1 : MomentOn (NearSites sites) { s with last_timestamp := last } { s with world := { s.world with fs := fs' }, last_timestamp := last } :=
      ⟨hfs, rfl, rfl, rfl, rfl⟩
    split
    · exact ⟨h1, rfl⟩
    split
    · exact ⟨h1, rfl⟩
    split
    · exact ⟨h1, rfl⟩
    split
    · exact ⟨h1, rfl⟩
    · exact ⟨h1, rfl⟩
  unfold incremental
  obtain ⟨h1, h2⟩ := hplan
  rcases hu : incrementalPlan env c change_list_uri from_datetime s with ⟨s1, x⟩
  rcases hu' : incrementalPlan env c change_list_uri from_datetime { s with world := { s.world with fs := fs' } } with ⟨s1', x'⟩
  rw [hu, hu'] at h1 h2
  simp only at h1 h2
  subst h2
  cases x' with
  | error e => exact ⟨h1, rfl⟩
  | ok cl =>
    simp only
    split
    · exact ⟨h1, rfl⟩
    · have hcl : ∀ r ∈ cl, ∀ fn, c.disc.mapper.srcToDst r.uri = .ok fn → FileOn (NearSites sites) env.cwd fn := by
        intro r hr fn hf
        obtain ⟨t0, clUri, raw, kept, last, hp⟩ := incrementalPlan_ok hu
        obtain ⟨p, hp, names, n1, n2, n3⟩ := hbelow raw ⟨clUri, hp.listUri, hp.read⟩ r ((lastChange_mem (planned_last hp hr)).1)
        rw [n3] at hf
        exact below_on hsites hp n1 n2 hf
      obtain ⟨h3, h4⟩ := forEach_on (N := NearSites sites) cl (fun r hr _ _ hs => applyOne_on env c allow_deletion hs r (hcl r hr)) s1 s1' h1
      rcases hv : forEach (applyOne env c allow_deletion) cl s1 with ⟨s2, y⟩
      rcases hv' : forEach (applyOne env c allow_deletion) cl s1' with ⟨s2', y'⟩
      rw [hv, hv'] at h3 h4
      simp only at h3 h4
      subst h4
      cases y' with
      | error e => exact ⟨h3, rfl⟩
      | ok u => exact finish_on env c h3


namespace LocalityExample
open SitesExample

/-- the same at the destinations; next to one of them another file than before, and further away a directory -/
def fs4 : Fs := (fs2.set ["e".toList, "other".toList] (.file [1, 2, 3] 9)).set ["y".toList] .dir

theorem near_not {l k : Loc} (h : NearSites two l) (hk : ∀ p ∈ two, ¬ p.2 <+: k ∧ ¬ k <+: p.2) : l ≠ k := by
  rintro rfl
  obtain ⟨p, hp, h⟩ := h
  rcases h with h | h
  · exact (hk p hp).1 h
  · exact (hk p hp).2 h

theorem same4 : SameAtSites two s2.world.fs fs4 := by
  intro l hl
  unfold fs4
  rw [get_set_other _ _ _ _ (near_not hl (by decide)), get_set_other _ _ _ _ (near_not hl (by decide))]
  rfl

theorem sites4 : Sites cfg2 env2.cwd two fs4 :=
  { sites2 with
    proper := ClientExample.properFs_of (by decide) (by decide) (by decide) (by decide)
    names := by unfold OneLine; decide
    notFile := by
      intro p hp
      simp only [two, List.mem_cons, List.not_mem_nil, or_false] at hp
      rcases hp with rfl | rfl
      · exact ClientExample.no_file (by decide)
      · exact ClientExample.no_file (by decide) }

example : fs4.get ["e".toList, "other".toList] ≠ s2.world.fs.get ["e".toList, "other".toList] := by decide

theorem found4 : (findResourceList env2.sources cfg2.disc).2 = .ok (ClientExample.listOf rl) := by decide +kernel

/-- C121 applies, to a run with plenty to do … -/
example (allow audit : Bool) :
    (baselineOrAudit env2 cfg2 allow audit { s2 with world := { s2.world with fs := fs4 } }).1.trace = (baselineOrAudit env2 cfg2 allow audit s2).1.trace := by
  refine (C121_sync env2 cfg2 allow audit s2 fs4 two sites2 sites4 (by simp [s2]) keyed2 ?_ same4).2.1
  intro src h
  rw [found4] at h
  cases h
  exact below2

/-- … and so does it to an incremental sync -/
def changes5 : List Resource := [{ uri := "http://s/a".toList, timestamp := some 300, ts_datetime := some 300, change := some "updated".toList },
  { uri := "http://t/x/old".toList, timestamp := some 301, ts_datetime := some 301, change := some "deleted".toList }]

def env5 : Env := { env2 with changeList := fun _ => some changes5 }

theorem below5 : ∀ changes, ChangesRead env5 cfg2 (some "http://s/cl.xml".toList) changes → ∀ r ∈ changes, BelowSites two r.uri := by
  rintro changes ⟨uri, -, h⟩
  have h : some changes5 = some changes := h
  cases h
  intro r hr
  simp only [changes5, List.mem_cons, List.not_mem_nil, or_false] at hr
  rcases hr with rfl | rfl
  · exact ⟨(mS, ["d".toList]), by simp [two], ["a".toList], by decide, ClientExample.plain (by unfold ProperName OneLine; decide), by decide⟩
  · exact ⟨(mT, ["e".toList, "f".toList]), by simp [two], ["old".toList], by decide,
      ClientExample.plain (by unfold ProperName OneLine; decide), by decide⟩

example (allow : Bool) :
    let run := fun fs => incremental env5 cfg2 allow (some "http://s/cl.xml".toList) (some "1970-01-01T00:00:00Z".toList)
      { world := { fs := fs, state := none } }
    (run fs4).1.trace = (run fs2).1.trace ∧ SameAtSites two (run fs2).1.world.fs (run fs4).1.world.fs := by
  have h := C121_incremental env5 cfg2 allow (some "http://s/cl.xml".toList) (some "1970-01-01T00:00:00Z".toList)
    { world := { fs := fs2, state := none } } fs4 two sites2 below5 same4
  exact ⟨h.2.1, h.2.2.2⟩

example :
    let r := incremental env5 cfg2 true (some "http://s/cl.xml".toList) (some "1970-01-01T00:00:00Z".toList) { world := { fs := fs2, state := none } }
    r.2 = .ok () ∧ r.1.world.fs.get ["d".toList, "a".toList] = some (.file [1, 2] 300) ∧
    r.1.world.fs.get ["e".toList, "f".toList, "old".toList] = none := by
  refine ⟨by decide +kernel, by decide +kernel, by decide +kernel⟩

end LocalityExample

end Resync
