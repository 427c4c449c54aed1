import Verif.Props.Order
import Verif.Props.ClientSites
import Verif.Props.ClientProgress
/-
C114: what a sync does depends on the files at the destination, not on the order in which they are found.
-/

namespace Resync
open Py Resync.Spec

/-- two moments of runs on disks with the same contents -/
structure SameMoment (s s' : St) : Prop where
  fs : ∀ l, s'.world.fs.get l = s.world.fs.get l
  state : s'.world.state = s.world.state
  trace : s'.trace = s.trace
  hashes : s'.hashes = s.hashes
  last : s'.last_timestamp = s.last_timestamp

theorem get_set_ext {fs fs' : Fs} (h : ∀ l, fs'.get l = fs.get l) (k : Loc) (n : FsNode) : ∀ l, (fs'.set k n).get l = (fs.set k n).get l := by
  intro l
  by_cases hl : l = k
  · subst hl
    by_cases hn : l = []
    · subst hn; rfl
    · rw [get_set_self _ _ _ hn, get_set_self _ _ _ hn]
  · rw [get_set_other _ _ _ _ hl, get_set_other _ _ _ _ hl, h]

theorem get_del_ext {fs fs' : Fs} (h : ∀ l, fs'.get l = fs.get l) (k : Loc) : ∀ l, (fs'.del k).get l = (fs.del k).get l := by
  intro l
  by_cases hl : l = k
  · subst hl
    by_cases hn : l = []
    · subst hn; rfl
    · rw [get_del_self _ _ hn, get_del_self _ _ hn]
  · rw [get_del_other _ _ _ hl, get_del_other _ _ _ hl, h]

theorem onFs_ext {fs fs' : Fs} (h : ∀ l, fs'.get l = fs.get l) (e : Effect) : ∀ l, (e.onFs fs').get l = (e.onFs fs).get l := by
  cases e with
  | mkdir k =>
    unfold Effect.onFs
    simp only [h k]
    cases fs.get k with
    | none => exact get_set_ext h k _
    | some _ => exact h
  | get _ => exact h
  | trunc k now => exact get_set_ext h k _
  | append k b =>
    unfold Effect.onFs
    simp only [h k]
    cases fs.get k with
    | none => exact h
    | some x =>
      cases x with
      | file c m => exact get_set_ext h k _
      | dir => exact h
  | utime k t =>
    unfold Effect.onFs
    simp only [h k]
    cases fs.get k with
    | none => exact h
    | some x =>
      cases x with
      | file c m => exact get_set_ext h k _
      | dir => exact h
  | unlink k => exact get_del_ext h k
  | setState _ => exact h

theorem SameMoment.emit {s s' : St} (h : SameMoment s s') (e : Effect) : SameMoment (s.emit e) (s'.emit e) := by
  refine ⟨onFs_ext h.fs e, ?_, ?_, h.hashes, h.last⟩
  · show (s'.world.apply e).state = (s.world.apply e).state
    unfold World.apply
    cases e <;> simp [h.state]
  · show s'.trace ++ [e] = s.trace ++ [e]
    rw [h.trace]

theorem SameMoment.seen {s s' : St} (h : SameMoment s s') (t : Option Rat) : SameMoment (s.seen t) (s'.seen t) := by
  cases t with
  | none => exact h
  | some t =>
    unfold St.seen
    simp only [h.last]
    split
    · exact ⟨h.fs, h.state, h.trace, h.hashes, rfl⟩
    · exact h

/-- the same result, at moments that are the same -/
def SameEnd {α : Type} (p p' : St × α) : Prop := SameMoment p.1 p'.1 ∧ p'.2 = p.2

theorem mkpath_same (env : Env) : ∀ (rest : List Str) (pre : Loc) (s s' : St), SameMoment s s' → SameEnd (mkpath env pre rest s) (mkpath env pre rest s')
  | [], _, _, _, h => ⟨h, rfl⟩
  | n :: rest, pre, s, s', h => by
    unfold mkpath
    rw [h.fs, h.trace]
    cases s.world.fs.get (pre ++ [n]) with
    | none =>
      simp only
      split
      · exact ⟨h, rfl⟩
      · exact mkpath_same env rest _ _ _ (h.emit _)
    | some x =>
      cases x with
      | file c m => exact ⟨h, rfl⟩
      | dir => exact mkpath_same env rest _ _ _ h

theorem tryGet_same (env : Env) {s s' : St} (h : SameMoment s s') (uri : Str) (l : Loc) : SameEnd (tryGet env s uri l) (tryGet env s' uri l) := by
  unfold tryGet
  simp only [h.trace]
  have h1 := h.emit (.get uri)
  cases env.serve s.trace uri with
  | fail e => exact ⟨h1, rfl⟩
  | body b broken =>
    simp only
    unfold openW Fs.isDir
    rw [h1.fs, h1.fs, h1.trace]
    by_cases hc : l = [] ∨ (s.emit (.get uri)).world.fs.get l = some .dir ∨
      ¬ ((s.emit (.get uri)).world.fs.get l.dropLast == some .dir) = true ∨ env.openFails (s.emit (.get uri)).trace l = true
    · rw [if_pos hc, if_pos hc]
      exact ⟨h1, rfl⟩
    · rw [if_neg hc, if_neg hc]
      exact ⟨(h1.emit _).emit _, rfl⟩

theorem getLoop_same (env : Env) (ign : Bool) (uri : Str) (l : Loc) : ∀ (n : Nat) (s s' : St), SameMoment s s' →
    SameEnd (getLoop env ign uri l n s) (getLoop env ign uri l n s')
  | 0, _, _, h => ⟨h, rfl⟩
  | n + 1, s, s', h => by
    obtain ⟨h1, h2⟩ := tryGet_same env h uri l
    unfold getLoop
    simp only
    rw [h2]
    cases (tryGet env s uri l).2 with
    | none => exact ⟨h1, rfl⟩
    | some f =>
      cases f with
      | timeout =>
        simp only
        split
        · exact ⟨h1, rfl⟩
        · exact getLoop_same env ign uri l n _ _ h1
      | io => exact ⟨h1, rfl⟩
      | other => exact ⟨h1, rfl⟩

theorem setTime_same {s s' : St} (h : SameMoment s s') (l : Loc) (t : Option Rat) : SameEnd (setTime s l t) (setTime s' l t) := by
  unfold setTime
  rw [h.fs]
  cases s.world.fs.get l with
  | none => exact ⟨h, rfl⟩
  | some _ =>
    cases t with
    | none => exact ⟨h, rfl⟩
    | some t => exact ⟨(h.emit (.utime l (truncRat t))).seen (some t), rfl⟩

theorem updateResource_same (env : Env) (c : ClientCfg) {s s' : St} (h : SameMoment s s') (r : Resource) (filename : Str) :
    SameEnd (updateResource env c s r filename) (updateResource env c s' r filename) := by
  unfold updateResource
  obtain ⟨h1, h2⟩ := mkpath_same env (location env.cwd (dirname filename)) [] s s' h
  rcases hm : mkpath env [] (location env.cwd (dirname filename)) s with ⟨s1, b⟩
  rcases hm' : mkpath env [] (location env.cwd (dirname filename)) s' with ⟨s1', b'⟩
  rw [hm, hm'] at h1 h2
  simp only at h1 h2
  subst h2
  cases b' with
  | false => exact ⟨h1, rfl⟩
  | true =>
    simp only
    split
    · exact ⟨h1, rfl⟩
    · obtain ⟨h3, h4⟩ := getLoop_same env c.ignore_failures r.uri (location env.cwd filename) c.tries s1 s1' h1
      rcases hg : getLoop env c.ignore_failures r.uri (location env.cwd filename) c.tries s1 with ⟨s2, g⟩
      rcases hg' : getLoop env c.ignore_failures r.uri (location env.cwd filename) c.tries s1' with ⟨s2', g'⟩
      rw [hg, hg'] at h3 h4
      simp only at h3 h4
      subst h4
      obtain ⟨h5, h6⟩ := setTime_same h3 (location env.cwd filename) r.timestamp
      rcases hs : setTime s2 (location env.cwd filename) r.timestamp with ⟨s3, x⟩
      rcases hs' : setTime s2' (location env.cwd filename) r.timestamp with ⟨s3', x'⟩
      rw [hs, hs'] at h5 h6
      simp only at h5 h6
      subst h6
      cases g' with
      | raised e => exact ⟨h3, rfl⟩
      | gaveUp => exact ⟨h3, rfl⟩
      | updated => simp only [hs, hs']; cases x' <;> exact ⟨h5, rfl⟩
      | skipped => simp only [hs, hs']; cases x' <;> exact ⟨h5, rfl⟩

theorem deleteResource_same (env : Env) (c : ClientCfg) (allow : Bool) {s s' : St} (h : SameMoment s s') (r : Resource) (filename : Str) :
    SameEnd (deleteResource env c allow s r filename) (deleteResource env c allow s' r filename) := by
  unfold deleteResource
  have h1 := h.seen r.timestamp
  simp only [h1.fs, h1.trace]
  split
  · exact ⟨h1, rfl⟩
  · split
    · exact ⟨h1, rfl⟩
    · cases (s.seen r.timestamp).world.fs.get (location env.cwd filename) with
      | none => exact ⟨h1, rfl⟩
      | some x =>
        cases x with
        | dir => exact ⟨h1, rfl⟩
        | file b t =>
          simp only
          split
          · exact ⟨h1, rfl⟩
          · exact ⟨h1.emit _, rfl⟩

theorem updateOne_same (env : Env) (c : ClientCfg) {s s' : St} (h : SameMoment s s') (r : Resource) :
    SameEnd (updateOne env c s r) (updateOne env c s' r) := by
  unfold updateOne
  cases c.disc.mapper.srcToDst r.uri with
  | error e => exact ⟨h, rfl⟩
  | ok filename =>
    obtain ⟨h1, h2⟩ := updateResource_same env c h r filename
    simp only
    rcases hu : updateResource env c s r filename with ⟨s1, x⟩
    rcases hu' : updateResource env c s' r filename with ⟨s1', x'⟩
    rw [hu, hu'] at h1 h2
    simp only at h1 h2
    subst h2
    cases x' <;> exact ⟨h1, rfl⟩

theorem deleteOne_same (env : Env) (c : ClientCfg) (allow : Bool) {s s' : St} (h : SameMoment s s') (r : Resource) :
    SameEnd (deleteOne env c allow s r) (deleteOne env c allow s' r) := by
  unfold deleteOne
  cases c.disc.mapper.srcToDst r.uri with
  | error e => exact ⟨h, rfl⟩
  | ok filename => exact ⟨(deleteResource_same env c allow h r filename).1, rfl⟩

theorem applyOne_same (env : Env) (c : ClientCfg) (allow : Bool) {s s' : St} (h : SameMoment s s') (r : Resource) :
    SameEnd (applyOne env c allow s r) (applyOne env c allow s' r) := by
  unfold applyOne
  cases c.disc.mapper.srcToDst r.uri with
  | error e => exact ⟨h, rfl⟩
  | ok filename =>
    simp only
    split
    · obtain ⟨h1, h2⟩ := updateResource_same env c h r filename
      rcases hu : updateResource env c s r filename with ⟨s1, x⟩
      rcases hu' : updateResource env c s' r filename with ⟨s1', x'⟩
      rw [hu, hu'] at h1 h2
      simp only at h1 h2
      subst h2
      cases x' <;> exact ⟨h1, rfl⟩
    · split
      · exact ⟨(deleteResource_same env c allow h r filename).1, rfl⟩
      · exact ⟨h, rfl⟩

theorem forEach_same {f : St → Resource → St × Except ClientErr Unit} (hf : ∀ {s s'} r, SameMoment s s' → SameEnd (f s r) (f s' r)) :
    ∀ (rs : List Resource) (s s' : St), SameMoment s s' → SameEnd (forEach f rs s) (forEach f rs s')
  | [], _, _, h => ⟨h, rfl⟩
  | r :: rs, s, s', h => by
    obtain ⟨h1, h2⟩ := hf r h
    unfold forEach
    rcases hu : f s r with ⟨s1, x⟩
    rcases hu' : f s' r with ⟨s1', x'⟩
    rw [hu, hu'] at h1 h2
    simp only at h1 h2
    subst h2
    cases x' with
    | error e => exact ⟨h1, rfl⟩
    | ok u => exact forEach_same hf rs _ _ h1

theorem storeState_same (env : Env) (c : ClientCfg) {s s' : St} (h : SameMoment s s') : SameEnd (storeState env c s) (storeState env c s') := by
  unfold storeState
  cases c.disc.sitemap with
  | error e => exact ⟨h, rfl⟩
  | ok site =>
    simp only [h.state, h.last]
    cases setState env.ft s.world.state site (some s.last_timestamp) with
    | error e => exact ⟨h, rfl⟩
    | ok o =>
      cases o with
      | none => exact ⟨h, rfl⟩
      | some t => exact ⟨h.emit _, rfl⟩

theorem finish_same (env : Env) (c : ClientCfg) {s s' : St} (h : SameMoment s s') :
    SameEnd (if s.last_timestamp > 0 then storeState env c s else (s, .ok ())) (if s'.last_timestamp > 0 then storeState env c s' else (s', .ok ())) := by
  rw [h.last]
  split
  · exact storeState_same env c h
  · exact ⟨h, rfl⟩

theorem baselineSync_same (env : Env) (c : ClientCfg) (allow : Bool) (src : Dict Resource) {cmp cmp' : Comparison}
    (hc : listing cmp'.created = listing cmp.created) (hu : listing cmp'.updated = listing cmp.updated)
    (hd : listing cmp'.deleted = listing cmp.deleted) {s s' : St} (h : SameMoment s s') :
    SameEnd (baselineSync env c allow src cmp s) (baselineSync env c allow src cmp' s') := by
  unfold baselineSync
  cases baselineAuthority c src with
  | error e => exact ⟨h, rfl⟩
  | ok _ =>
    simp only [iterList_eq, hc, hu, hd]
    have h0 : SameMoment { s with last_timestamp := 0 } { s' with last_timestamp := 0 } := ⟨h.fs, h.state, h.trace, h.hashes, rfl⟩
    have step : ∀ (f : St → Resource → St × Except ClientErr Unit), (∀ {s s'} r, SameMoment s s' → SameEnd (f s r) (f s' r)) →
        ∀ (rs : List Resource) {s s' : St} (k : St → St × Except ClientErr Unit), SameMoment s s' →
          (∀ {s s'}, SameMoment s s' → SameEnd (k s) (k s')) →
          SameEnd (match forEach f rs s with
            | (s, .error e) => (s, .error e)
            | (s, .ok ()) => k s) (match forEach f rs s' with
            | (s, .error e) => (s, .error e)
            | (s, .ok ()) => k s) := by
      intro f hf rs s s' k hs hk
      obtain ⟨h1, h2⟩ := forEach_same hf rs s s' hs
      rcases hu : forEach f rs s with ⟨s1, x⟩
      rcases hu' : forEach f rs s' with ⟨s1', x'⟩
      rw [hu, hu'] at h1 h2
      simp only at h1 h2
      subst h2
      cases x' with
      | error e => exact ⟨h1, rfl⟩
      | ok u => exact hk h1
    exact step _ (fun r hs => updateOne_same env c hs r) _ _ h0 (fun h1 =>
      step _ (fun r hs => updateOne_same env c hs r) _ _ h1 (fun h2 =>
        step _ (fun r hs => deleteOne_same env c allow hs r) _ _ h2 (fun h3 => finish_same env c h3)))

theorem lookup_perm {fs fs' : Fs} (h : fs'.Perm fs) (hn : (fs.map Prod.fst).Nodup) (l : Loc) : fs'.get l = fs.get l := by
  have key : ∀ {a b : Fs}, a.Perm b → (a.map Prod.fst).Nodup → a.lookup l = b.lookup l := by
    intro a b h
    induction h with
    | nil => intro _; rfl
    | cons x _ ih =>
      intro hn
      rw [List.map_cons, List.nodup_cons] at hn
      obtain ⟨k, n⟩ := x
      unfold List.lookup
      rw [ih hn.2]
    | swap x y t =>
      intro hn
      rw [List.map_cons, List.map_cons, List.nodup_cons] at hn
      have hne : y.1 ≠ x.1 := fun e => hn.1 (by rw [e]; exact List.mem_cons_self)
      obtain ⟨k, n⟩ := x
      obtain ⟨k', n'⟩ := y
      simp only [List.lookup]
      by_cases h1 : l = k'
      · subst h1
        have : (l == k) = false := by simpa using hne
        simp [this]
      · have : (l == k') = false := by simpa using h1
        simp [this]
    | trans h1 h2 ih1 ih2 =>
      intro hn
      rw [ih1 hn, ih2 ((h1.map _).nodup_iff.mp hn)]
  unfold Fs.get
  split
  · rfl
  · exact (key h.symm hn).symm

theorem sites_perm {c : ClientCfg} {cwd : Loc} {sites : List (Map × Loc)} {fs fs' : Fs} (h : fs'.Perm fs) (hs : Sites c cwd sites fs) :
    Sites c cwd sites fs' := by
  have hg := lookup_perm h hs.proper.once
  exact { hs with
    proper := ⟨(h.map _).nodup_iff.mpr hs.proper.once, fun p hp => hs.proper.names p (h.mem_iff.mp hp),
      fun p hp => hs.proper.nonroot p (h.mem_iff.mp hp), fun p hp => by rw [hg]; exact hs.proper.parents p (h.mem_iff.mp hp)⟩
    names := fun p hp => hs.names p (h.mem_iff.mp hp)
    notFile := fun p hp ⟨b, m, hf⟩ => hs.notFile p hp ⟨b, m, (hg _).symm.trans hf⟩ }

theorem listing_len {d : Dict Resource} (hd : WF d) : (listing d).length = d.length := by
  have := congrArg List.length (listing_uris hd)
  rw [List.length_map, (sortStr_perm _).length_eq] at this
  rw [this]
  unfold dkeys
  rw [List.length_map]

/-- C114, at the destination.  A baseline sync or an audit does the same (the same requests and changes of the disk in the same
order, the same result, the same record in the state file, the same files afterwards) in whatever order the file system lists what is at the
destination. -/
theorem C114_sync (env : Env) (c : ClientCfg) (allow_deletion audit_only : Bool) (s : St) (fs' : Fs) (sites : List (Map × Loc))
    (hsites : Sites c env.cwd sites s.world.fs) (hh : ∀ t ∈ s.hashes, HashType t) (hk : ListsKeyed env.sources) (hfs : fs'.Perm s.world.fs) :
    let p := baselineOrAudit env c allow_deletion audit_only s
    let p' := baselineOrAudit env c allow_deletion audit_only { s with world := { s.world with fs := fs' } }
    p'.2 = p.2 ∧ p'.1.trace = p.1.trace ∧ p'.1.world.state = p.1.world.state ∧ ∀ l, p'.1.world.fs.get l = p.1.world.fs.get l := by
  have hsites' := sites_perm hfs hsites
  have hg := lookup_perm hfs hsites.proper.once
  have h0 : SameMoment s { s with world := { s.world with fs := fs' } } := ⟨hg, rfl, rfl, rfl, rfl⟩
  suffices SameEnd (baselineOrAudit env c allow_deletion audit_only s)
      (baselineOrAudit env c allow_deletion audit_only { s with world := { s.world with fs := fs' } }) from
    ⟨this.2, this.1.trace, this.1.state, this.1.fs⟩
  unfold baselineOrAudit baselinePlan
  by_cases hm : c.disc.mapper = []
  · rw [if_pos hm, if_pos hm]; exact ⟨h0, rfl⟩
  rw [if_neg hm, if_neg hm]
  cases (if audit_only then Except.ok false else c.disc.mapper.isUnsafe) with
  | error e => exact ⟨h0, rfl⟩
  | ok b =>
    cases b with
    | true => exact ⟨h0, rfl⟩
    | false =>
      cases hfound : (findResourceList env.sources c.disc).2 with
      | error e => exact ⟨h0, rfl⟩
      | ok src =>
        have hw := found_WF hk hfound
        simp only
        by_cases hne : src = []
        · rw [if_pos hne, if_pos hne]; exact ⟨h0, rfl⟩
        rw [if_neg hne, if_neg hne]
        have est : ∀ t : St, (if t.hashes ≠ [] then { t with hashes := pruneHashes t.hashes (listHashes (iterList src)) } else t)
            = { t with hashes := leftHashes t src } := by
          intro t; unfold leftHashes; split <;> rfl
        have e1 := est s
        have e2 := est { s with world := { s.world with fs := fs' } }
        simp only at e1 e2
        rw [e1, e2]
        have hlh : leftHashes { s with world := { s.world with fs := fs' } } src = leftHashes s src := rfl
        rw [hlh]
        obtain ⟨dst, k1, k2⟩ := hsites.scan env.lib (leftHashes s src) (fun t ht => hh t (leftHashes_sub ht))
        obtain ⟨dst', k1', k2'⟩ := hsites'.scan env.lib (leftHashes s src) (fun t ht => hh t (leftHashes_sub ht))
        have hdw : WF dst := (fromDisk_found' hsites.proper k1).1
        have hdw' : WF dst' := (fromDisk_found' hsites'.proper k1').1
        have hl : listing dst' = listing dst := by
          apply listing_ext hdw' hdw
          intro u r
          rw [k2, k2']
          simp only [IsFile, hg]
        obtain ⟨g, cmp, a1, -, a3, a4⟩ := compare_spec (pairHeap dst src) 0 1 (by decide) hdw hw
        obtain ⟨g', cmp', b1, -, b3, b4⟩ := compare_spec (pairHeap dst' src) 0 1 (by decide) hdw' hw
        have hl' : listing (pairHeap dst' src 0).dict = listing (pairHeap dst src 0).dict := hl
        have hr' : listing (pairHeap dst' src 1).dict = listing (pairHeap dst src 1).dict := rfl
        rw [hl', hr'] at b3
        have lu := listing_ext b4.updated a4.updated (fun u r => (b3.updated u r).trans (a3.updated u r).symm)
        have ld := listing_ext b4.deleted a4.deleted (fun u r => (b3.deleted u r).trans (a3.deleted u r).symm)
        have lc := listing_ext b4.created a4.created (fun u r => (b3.created u r).trans (a3.created u r).symm)
        have nu : cmp'.updated.length = cmp.updated.length := by rw [← listing_len b4.updated, lu, listing_len a4.updated]
        have nd : cmp'.deleted.length = cmp.deleted.length := by rw [← listing_len b4.deleted, ld, listing_len a4.deleted]
        have nc : cmp'.created.length = cmp.created.length := by rw [← listing_len b4.created, lc, listing_len a4.created]
        simp only [k1, k1', a1, b1, nu, nd, nc]
        have h1 : SameMoment { s with hashes := leftHashes s src }
            { world := { s.world with fs := fs' }, trace := s.trace, last_timestamp := s.last_timestamp, hashes := leftHashes s src } :=
          ⟨hg, rfl, rfl, rfl, rfl⟩
        split
        · exact ⟨h1, rfl⟩
        · exact baselineSync_same env c allow_deletion src lc lu ld h1

/-- The same for an incremental sync; the disk may be anything, and may be two disks which only have the same contents. -/
theorem C114_incremental (env : Env) (c : ClientCfg) (allow_deletion : Bool) (change_list_uri from_datetime : Option Str) (s : St) (fs' : Fs)
    (hfs : ∀ l, fs'.get l = s.world.fs.get l) :
    let p := incremental env c allow_deletion change_list_uri from_datetime s
    let p' := incremental env c allow_deletion change_list_uri from_datetime { s with world := { s.world with fs := fs' } }
    p'.2 = p.2 ∧ p'.1.trace = p.1.trace ∧ p'.1.world.state = p.1.world.state ∧ ∀ l, p'.1.world.fs.get l = p.1.world.fs.get l := by
  have h0 : SameMoment s { s with world := { s.world with fs := fs' } } := ⟨hfs, rfl, rfl, rfl, rfl⟩
  suffices SameEnd (incremental env c allow_deletion change_list_uri from_datetime s)
      (incremental env c allow_deletion change_list_uri from_datetime { s with world := { s.world with fs := fs' } }) from
    ⟨this.2, this.1.trace, this.1.state, this.1.fs⟩
  have hplan : SameEnd (incrementalPlan env c change_list_uri from_datetime s)
      (incrementalPlan env c change_list_uri from_datetime { s with world := { s.world with fs := fs' } }) := by
    have hst : startTime env c from_datetime { s with world := { s.world with fs := fs' } } = startTime env c from_datetime s := by
      unfold startTime
      rfl
    unfold incrementalPlan
    rw [hst]
    split
    · exact ⟨h0, rfl⟩
    split
    · exact ⟨h0, rfl⟩
    · exact ⟨h0, rfl⟩
    split
    · exact ⟨h0, rfl⟩
    split
    · exact ⟨h0, rfl⟩
    split
    · exact ⟨h0, rfl⟩
    simp only
    split
    · exact ⟨h0, rfl⟩
    split
    · exact ⟨h0, rfl⟩
    rename_i last _
    have h1 : SameMoment { s with last_timestamp := last } { s with world := { s.world with fs := fs' }, last_timestamp := last } :=
      ⟨hfs, rfl, rfl, rfl, rfl⟩
    split
    · exact ⟨h1, rfl⟩
    split
    · exact ⟨h1, rfl⟩
    split
    · exact ⟨h1, rfl⟩
    split
    · exact ⟨h1, rfl⟩
    · exact ⟨h1, rfl⟩
  unfold incremental
  obtain ⟨h1, h2⟩ := hplan
  rcases hu : incrementalPlan env c change_list_uri from_datetime s with ⟨s1, x⟩
  rcases hu' : incrementalPlan env c change_list_uri from_datetime { s with world := { s.world with fs := fs' } } with ⟨s1', x'⟩
  rw [hu, hu'] at h1 h2
  simp only at h1 h2
  subst h2
  cases x' with
  | error e => exact ⟨h1, rfl⟩
  | ok cl =>
    simp only
    split
    · exact ⟨h1, rfl⟩
    · obtain ⟨h3, h4⟩ := forEach_same (fun r hs => applyOne_same env c allow_deletion hs r) cl s1 s1' h1
      rcases hv : forEach (applyOne env c allow_deletion) cl s1 with ⟨s2, y⟩
      rcases hv' : forEach (applyOne env c allow_deletion) cl s1' with ⟨s2', y'⟩
      rw [hv, hv'] at h3 h4
      simp only at h3 h4
      subst h4
      cases y' with
      | error e => exact ⟨h3, rfl⟩
      | ok u => exact finish_same env c h3

namespace OrderSyncExample
open SitesExample

/-- the same disk listed from the other end -/
def fs3 : Fs := fs2.reverse

theorem perm3 : fs3.Perm s2.world.fs := List.reverse_perm _

example : fs3 ≠ fs2 := by decide

example (allow audit : Bool) :
    (baselineOrAudit env2 cfg2 allow audit { s2 with world := { s2.world with fs := fs3 } }).1.trace = (baselineOrAudit env2 cfg2 allow audit s2).1.trace :=
  (C114_sync env2 cfg2 allow audit s2 fs3 two sites2 (by simp [s2]) keyed2 perm3).2.1

/-- … with plenty to do -/
example : 10 < (baselineOrAudit env2 cfg2 true false s2).1.trace.length := by decide +kernel

end OrderSyncExample

end Resync
