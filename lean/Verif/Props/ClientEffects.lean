import Verif.Props.ClientExample
/-
C46-C49: what runs of the client may do to files, directories and stored state.
-/

namespace Resync
open Py Resync.Spec

/-! ### C46 -/

/-- C46.  An audit does nothing to the outside: it makes no request for a resource (no effect of any kind is recorded),
and files and stored state are the same at every moment and at the end, however it ends. -/
theorem C46_audit (env : Env) (c : ClientCfg) (allow_deletion : Bool) (s : St) :
    doneBetween s (baselineOrAudit env c allow_deletion true s).1 = [] ∧
    (baselineOrAudit env c allow_deletion true s).1.world = s.world ∧
    ∀ w, AtSomeMoment s (baselineOrAudit env c allow_deletion true s).1 w → w = s.world := by
  have h := baseline_did env c allow_deletion true s
  have h1 : doneBetween s (baselineOrAudit env c allow_deletion true s).1 = [] := by
    rw [List.eq_nil_iff_forall_not_mem]
    intro e he
    have := (h.done e he).1
    cases this
  refine ⟨h1, ?_, ?_⟩
  · rw [h.world, h1]; rfl
  · rintro w ⟨k, rfl⟩
    rw [h1]; simp

open ClientExample in
/-- an audit with something to report -/
example : (baselineOrAudit (env [res "a" 100, res "b" 200] [] [1, 2]) cfg true true (start ["a", "c"])).2 = .ok () ∧
    (baselineOrAudit (env [res "a" 100, res "b" 200] [] [1, 2]) cfg true true (start ["a", "c"])).1.trace = [] := by
  decide +kernel

/-! ### C47 -/

/-- files with their contents and times -/
def SameFiles (fs fs' : Fs) : Prop := ∀ l content mtime, IsFile fs l content mtime ↔ IsFile fs' l content mtime

theorem dryrun_files {env : Env} {c : ClientCfg} (hd : c.dryrun = true) {s s' : St} {P : Effect → Prop} (h : Did P s s')
    (hP : ∀ e, P e → (∃ d, e = .mkdir d) ∨ IsSetState e) :
    (∀ uri, Effect.get uri ∉ doneBetween s s') ∧ ∀ w, AtSomeMoment s s' w → SameFiles w.fs s.world.fs := by
  constructor
  · intro uri hu
    rcases hP _ (h.done _ hu) with ⟨d, e⟩ | ⟨t, e⟩ <;> cases e
  · refine moment_inv h (fun w => SameFiles w.fs s.world.fs) (fun _ _ _ => Iff.rfl) ?_
    intro w e he hw l content mtime
    rw [← hw l content mtime]
    rcases hP e he with ⟨d, rfl⟩ | ⟨t, rfl⟩
    · exact onFs_other (l := l) (e := .mkdir d) (by simp) (by simp) (by simp) (by simp)
    · exact onFs_other (l := l) (e := .setState t) (by simp) (by simp) (by simp) (by simp)

theorem syncEff_dry {env : Env} {c : ClientCfg} (hd : c.dryrun = true) {allow : Bool} {upd del : List Resource} {e : Effect}
    (h : SyncEff env c allow upd del e) : ∃ d, e = .mkdir d := by
  rcases h with ⟨r, _, fn, _, hu⟩ | ⟨r, _, fn, _, _, _, _, h⟩
  · rcases hu with ⟨d, rfl, _⟩ | ⟨h, _⟩
    · exact ⟨d, rfl⟩
    · rw [hd] at h; cases h
  · rw [hd] at h; cases h

/-- C47, the part that holds: with dryrun neither baseline nor incremental requests a resource or changes a file, at any
moment.  Missing: they may create directories and write the stored state (C47_violated). -/
theorem C47_files_partial (env : Env) (c : ClientCfg) (hd : c.dryrun = true) (allow_deletion audit : Bool)
    (uri from_datetime : Option Str) (s : St) :
    ((∀ u, Effect.get u ∉ doneBetween s (baselineOrAudit env c allow_deletion audit s).1) ∧
      ∀ w, AtSomeMoment s (baselineOrAudit env c allow_deletion audit s).1 w → SameFiles w.fs s.world.fs) ∧
    ((∀ u, Effect.get u ∉ doneBetween s (incremental env c allow_deletion uri from_datetime s).1) ∧
      ∀ w, AtSomeMoment s (incremental env c allow_deletion uri from_datetime s).1 w → SameFiles w.fs s.world.fs) := by
  constructor
  · refine dryrun_files (env := env) hd (baseline_did env c allow_deletion audit s) ?_
    rintro e ⟨_, _, _, _, _, _, _, h | h⟩
    · exact .inl (syncEff_dry hd h)
    · exact .inr h
  · refine dryrun_files (env := env) hd (incremental_did env c allow_deletion uri from_datetime s) ?_
    rintro e ⟨_, _, _, _, _, _, _, _, h | h⟩
    · exact .inl (syncEff_dry hd h)
    · exact .inr h

open ClientExample in
/-- C47 fails.  With dryrun, (1) baseline creates the destination directory; (2) baseline stores state when a local file
is not in the source list; (3) incremental stores state, after which the changes not made are not selected any more. -/
theorem C47_violated :
    (let s0 : St := { world := { fs := [] } }
     let r := baselineOrAudit (env [res "a" 100] [] [1]) { cfg with dryrun := true } false false s0
     r.2 = .ok () ∧ s0.world.fs.get ["d".toList] = none ∧ r.1.world.fs.get ["d".toList] = some .dir) ∧
    (let s0 := start ["a", "c"]
     let r := baselineOrAudit (env [res "a" 50] [] [1]) { cfg with dryrun := true } false false s0
     r.2 = .ok () ∧ s0.world.state = none ∧ getState ratFt r.1.world.state (uri "rl.xml") = .ok (some 50)) ∧
    (let s0 := start ["a"]
     let ch : Resource := { uri := uri "a", change := some sUpdated, ts_datetime := some 60 }
     let from0 := some "1970-01-01T00:00:00Z".toList
     let r := incremental (env [] [ch] [1]) { cfg with dryrun := true } false none from0 s0
     r.2 = .ok () ∧ s0.world.state = none ∧ getState ratFt r.1.world.state (uri "rl.xml") = .ok (some 60)) := by
  decide +kernel

/-! ### C48 -/

/-- C48.  Without allow_deletion no file disappears, at any moment of a baseline or incremental sync. -/
theorem C48_no_deletion (env : Env) (c : ClientCfg) (audit : Bool) (uri from_datetime : Option Str) (s : St) (l : Loc)
    (hf : HasFile s.world.fs l) :
    (∀ w, AtSomeMoment s (baselineOrAudit env c false audit s).1 w → HasFile w.fs l) ∧
    (∀ w, AtSomeMoment s (incremental env c false uri from_datetime s).1 w → HasFile w.fs l) := by
  have key : ∀ e upd del, (SyncEff env c false upd del e ∨ IsSetState e) → e ≠ .unlink l := by
    rintro e upd del (h | ⟨t, rfl⟩) heq
    · rcases syncEff_at h (l := l) (.inr (.inr (.inr heq))) with ⟨_, _, _, _, h⟩ | ⟨_, _, _, _, h, _⟩
      · exact h heq
      · cases h
    · cases heq
  constructor
  · refine moment_inv (baseline_did env c false audit s) (fun w => HasFile w.fs l) hf ?_
    rintro w e ⟨_, _, _, cmp, _, _, _, h⟩ hw
    exact onFs_hasFile (key e _ _ h) hw
  · refine moment_inv (incremental_did env c false uri from_datetime s) (fun w => HasFile w.fs l) hf ?_
    rintro w e ⟨_, _, _, _, _, _, _, _, h⟩ hw
    exact onFs_hasFile (key e _ _ h) hw

/-- C48.  A file that has gone during a baseline sync was the destination of a URI which is not in the source list, and
which is what a local file is mapped to.  (Then deletion was allowed and it was not an audit or a dry run.) -/
theorem C48_baseline (env : Env) (c : ClientCfg) (allow_deletion audit : Bool) (s : St) (hk : ListsKeyed env.sources)
    (hfs : ProperFs s.world.fs) (l : Loc) (hf : HasFile s.world.fs l) (w : World)
    (hw : AtSomeMoment s (baselineOrAudit env c allow_deletion audit s).1 w) (hgone : ¬ HasFile w.fs l) :
    allow_deletion = true ∧ audit = false ∧ c.dryrun = false ∧
    ∃ uri, MapsTo c env.cwd uri l ∧ ¬ SourceUri env c uri ∧ LocalUri c env.cwd s.world.fs uri := by
  by_contra hcon
  refine hgone (moment_inv (baseline_did env c allow_deletion audit s) (fun w => HasFile w.fs l) hf ?_ w hw)
  rintro w e ⟨ha, s1, src, cmp, dst, hpl, _, h⟩ hw
  refine onFs_hasFile ?_ hw
  rintro rfl
  rcases h with h | ⟨t, h⟩
  · rcases syncEff_at h (l := l) (.inr (.inr (.inr rfl))) with ⟨_, _, _, _, h⟩ | ⟨r, hr, hm, _, hal, hd⟩
    · exact h rfl
    · obtain ⟨h1, path, content, mtime, h2, h3, _⟩ := plan_del (planFacts hk hfs hpl) hr
      refine hcon ⟨hal, ha, hd, r.uri, hm, ?_, path, content, mtime, h2, h3⟩
      rintro ⟨src', x, hs', hx⟩
      have := hpl.found
      rw [hs'] at this
      cases this
      have hwf := found_WF hk hs'
      rw [dget_of_mem hwf.1 hx] at h1
      cases h1
  · cases h

/-- C48.  A file that has gone during an incremental sync was the destination of a URI whose last change, of those listed
at or after the start time, is a deletion. -/
theorem C48_incremental (env : Env) (c : ClientCfg) (allow_deletion : Bool) (uri from_datetime : Option Str) (s : St) (l : Loc)
    (hf : HasFile s.world.fs l) (w : World)
    (hw : AtSomeMoment s (incremental env c allow_deletion uri from_datetime s).1 w) (hgone : ¬ HasFile w.fs l) :
    allow_deletion = true ∧ c.dryrun = false ∧
    ∃ changes t0 r, ChangesRead env c uri changes ∧ startTime env c from_datetime s = .ok t0 ∧
      LastChange changes c.spec_version t0 r ∧ r.change = some "deleted".toList ∧ MapsTo c env.cwd r.uri l := by
  by_contra hcon
  refine hgone (moment_inv (incremental_did env c allow_deletion uri from_datetime s) (fun w => HasFile w.fs l) hf ?_ w hw)
  rintro w e ⟨s1, cl, t0, clUri, raw, kept, last, hpl, h⟩ hw
  refine onFs_hasFile ?_ hw
  rintro rfl
  rcases h with h | ⟨t, h⟩
  · rcases syncEff_at h (l := l) (.inr (.inr (.inr rfl))) with ⟨_, _, _, _, h⟩ | ⟨r, hr, hm, _, hal, hd⟩
    · exact h rfl
    · obtain ⟨hr1, hr2⟩ := List.mem_filter.mp hr
      exact hcon ⟨hal, hd, raw, t0, r, ⟨clUri, hpl.listUri, hpl.read⟩, hpl.start, planned_last hpl hr1, (by simpa using hr2 : r.change = some sDeleted), hm⟩
  · cases h

open ClientExample in
theorem exDisk_proper : ProperFs (disk ["a", "c"]) :=
  properFs_of (by decide) (by decide) (by decide) (by decide)

open ClientExample in
/-- a file that goes in a baseline, one that goes in an incremental sync -/
example :
    HasFile (disk ["a", "c"]) (at_ "c") ∧
    (baselineOrAudit (env [res "a" 50] [] [1]) cfg true false (start ["a", "c"])).1.world.fs.get (at_ "c") = none ∧
    ListsKeyed (env [res "a" 50] [] [1]).sources ∧ ProperFs (start ["a", "c"]).world.fs ∧
    (let ch : Resource := { uri := uri "c", change := some sDeleted, ts_datetime := some 60 }
     (incremental (env [] [ch] [1]) cfg true none (some "1970-01-01T00:00:00Z".toList) (start ["a", "c"])).1.world.fs.get (at_ "c")
       = none) :=
  ⟨⟨[7], 50, by unfold IsFile; decide +kernel⟩, by decide +kernel, env_keyed _ _ _ (by decide), exDisk_proper, by decide +kernel⟩

/-! ### C49 -/

/-- C49.  At every moment of a baseline sync, files that are not the destination of a URI of the source list, nor of
one a local file is mapped to, are there if and only if they were, with the same content and time. -/
theorem C49_baseline (env : Env) (c : ClientCfg) (allow_deletion audit : Bool) (s : St) (hk : ListsKeyed env.sources)
    (hfs : ProperFs s.world.fs) (l : Loc)
    (hl : ∀ uri, MapsTo c env.cwd uri l → ¬ SourceUri env c uri ∧ ¬ LocalUri c env.cwd s.world.fs uri) (w : World)
    (hw : AtSomeMoment s (baselineOrAudit env c allow_deletion audit s).1 w) (content : Bytes) (mtime : Rat) :
    IsFile w.fs l content mtime ↔ IsFile s.world.fs l content mtime := by
  refine moment_inv (baseline_did env c allow_deletion audit s)
    (fun w => IsFile w.fs l content mtime ↔ IsFile s.world.fs l content mtime) Iff.rfl ?_ w hw
  rintro w e ⟨ha, s1, src, cmp, dst, hpl, _, h⟩ hw
  rw [← hw]
  have hno : ¬ ((∃ d, e = .trunc l d) ∨ (∃ b, e = .append l b) ∨ (∃ t, e = .utime l t) ∨ e = .unlink l) := by
    intro hat
    rcases h with h | ⟨t, rfl⟩
    · rcases syncEff_at h hat with ⟨r, hr, hm, _⟩ | ⟨r, hr, hm, _⟩
      · have := plan_upd_source (planFacts hk hfs hpl) hr
        exact (hl _ hm).1 ⟨src, r, hpl.found, mem_of_dget this⟩
      · obtain ⟨_, path, x, y, h2, h3, _⟩ := plan_del (planFacts hk hfs hpl) hr
        exact (hl _ hm).2 ⟨path, x, y, h2, h3⟩
    · rcases hat with ⟨_, h⟩ | ⟨_, h⟩ | ⟨_, h⟩ | h <;> cases h
  simp only [not_or, not_exists] at hno
  exact onFs_other hno.1 hno.2.1 hno.2.2.1 hno.2.2.2

/-- C49.  Without deletion only destinations of URIs in the source list are touched. -/
theorem C49_baseline_no_deletion (env : Env) (c : ClientCfg) (audit : Bool) (s : St) (hk : ListsKeyed env.sources)
    (hfs : ProperFs s.world.fs) (l : Loc) (hl : ∀ uri, MapsTo c env.cwd uri l → ¬ SourceUri env c uri) (w : World)
    (hw : AtSomeMoment s (baselineOrAudit env c false audit s).1 w) (content : Bytes) (mtime : Rat) :
    IsFile w.fs l content mtime ↔ IsFile s.world.fs l content mtime := by
  refine moment_inv (baseline_did env c false audit s)
    (fun w => IsFile w.fs l content mtime ↔ IsFile s.world.fs l content mtime) Iff.rfl ?_ w hw
  rintro w e ⟨ha, s1, src, cmp, dst, hpl, _, h⟩ hw
  rw [← hw]
  have hno : ¬ ((∃ d, e = .trunc l d) ∨ (∃ b, e = .append l b) ∨ (∃ t, e = .utime l t) ∨ e = .unlink l) := by
    intro hat
    rcases h with h | ⟨t, rfl⟩
    · rcases syncEff_at h hat with ⟨r, hr, hm, _⟩ | ⟨r, hr, hm, _, h, _⟩
      · have := plan_upd_source (planFacts hk hfs hpl) hr
        exact (hl _ hm) ⟨src, r, hpl.found, mem_of_dget this⟩
      · cases h
    · rcases hat with ⟨_, h⟩ | ⟨_, h⟩ | ⟨_, h⟩ | h <;> cases h
  simp only [not_or, not_exists] at hno
  exact onFs_other hno.1 hno.2.1 hno.2.2.1 hno.2.2.2

/-- C49.  At every moment of an incremental sync, files that are not the destination of a URI in the change list, changed
at or after the start time, are as they were. -/
theorem C49_incremental (env : Env) (c : ClientCfg) (allow_deletion : Bool) (uri from_datetime : Option Str) (s : St) (l : Loc)
    (hl : ∀ changes t0 r, ChangesRead env c uri changes → startTime env c from_datetime s = .ok t0 →
      LastChange changes c.spec_version t0 r → ¬ MapsTo c env.cwd r.uri l) (w : World)
    (hw : AtSomeMoment s (incremental env c allow_deletion uri from_datetime s).1 w) (content : Bytes) (mtime : Rat) :
    IsFile w.fs l content mtime ↔ IsFile s.world.fs l content mtime := by
  refine moment_inv (incremental_did env c allow_deletion uri from_datetime s)
    (fun w => IsFile w.fs l content mtime ↔ IsFile s.world.fs l content mtime) Iff.rfl ?_ w hw
  rintro w e ⟨s1, cl, t0, clUri, raw, kept, last, hpl, h⟩ hw
  rw [← hw]
  have hno : ¬ ((∃ d, e = .trunc l d) ∨ (∃ b, e = .append l b) ∨ (∃ t, e = .utime l t) ∨ e = .unlink l) := by
    intro hat
    rcases h with h | ⟨t, rfl⟩
    · rcases syncEff_at h hat with ⟨r, hr, hm, _⟩ | ⟨r, hr, hm, _⟩
      · exact hl raw t0 r ⟨clUri, hpl.listUri, hpl.read⟩ hpl.start (planned_last hpl (List.mem_filter.mp hr).1) hm
      · exact hl raw t0 r ⟨clUri, hpl.listUri, hpl.read⟩ hpl.start (planned_last hpl (List.mem_filter.mp hr).1) hm
    · rcases hat with ⟨_, h⟩ | ⟨_, h⟩ | ⟨_, h⟩ | h <;> cases h
  simp only [not_or, not_exists] at hno
  exact onFs_other hno.1 hno.2.1 hno.2.2.1 hno.2.2.2

/-- C49.  Directories are only ever created, and only on the way to the destination of a URI in the source list. -/
theorem C49_directories (env : Env) (c : ClientCfg) (allow_deletion audit : Bool) (s : St) (hk : ListsKeyed env.sources)
    (hfs : ProperFs s.world.fs) (d : Loc) (h : Effect.mkdir d ∈ doneBetween s (baselineOrAudit env c allow_deletion audit s).1) :
    ∃ uri filename, SourceUri env c uri ∧ c.disc.mapper.srcToDst uri = .ok filename ∧
      d <+: location env.cwd (dirname filename) := by
  obtain ⟨ha, s1, src, cmp, dst, hpl, _, h⟩ := (baseline_did env c allow_deletion audit s).done _ h
  rcases h with (⟨r, hr, fn, hm, hu⟩ | ⟨r, hr, fn, hm, h, _⟩) | ⟨t, h⟩
  · rcases hu with ⟨d', h, hd⟩ | ⟨_, (h | ⟨_, _, h⟩ | ⟨_, _, h⟩) | ⟨_, h⟩⟩
    · cases h
      exact ⟨r.uri, fn, ⟨src, r, hpl.found, mem_of_dget (plan_upd_source (planFacts hk hfs hpl) hr)⟩, hm, hd⟩
    all_goals cases h
  · cases h
  · cases h

open ClientExample in
/-- a location which is not the destination of anything in the list nor of a local file: another file of the user's -/
example : ∀ uri, MapsTo cfg (env [res "a" 50] [] [1]).cwd uri ["home".toList, "x".toList] →
    ¬ SourceUri (env [res "a" 50] [] [1]) cfg uri := by
  rintro u ⟨fn, hm, hl⟩ ⟨src, r, hs, hr⟩
  have e : (findResourceList (env [res "a" 50] [] [1]).sources cfg.disc).2 = .ok (listOf [res "a" 50]) := by decide +kernel
  rw [e] at hs
  cases hs
  simp only [listOf, List.map_cons, List.map_nil, List.mem_singleton, Prod.mk.injEq] at hr
  obtain ⟨rfl, rfl⟩ := hr
  have e2 : cfg.disc.mapper.srcToDst (res "a" 50).uri = .ok "/d/a".toList := by decide +kernel
  rw [e2] at hm
  cases hm
  revert hl
  decide +kernel

end Resync
