import Verif.Spec.Separate
import Verif.Props.Locality
import Verif.Proofs.Repeat
/-
Lemmas for C124: the state file has no influence on the disk; what a baseline sync leaves alone.
-/

namespace Resync
open Py Resync.Spec

/-- the same moment with another state file -/
def St.withState (t : Option Str) (s : St) : St := { s with world := { s.world with state := t } }

theorem withState_fs (t : Option Str) (s : St) : (s.withState t).world.fs = s.world.fs := rfl

theorem withState_trace (t : Option Str) (s : St) : (s.withState t).trace = s.trace := rfl

theorem withState_hashes (t : Option Str) (s : St) : (s.withState t).hashes = s.hashes := rfl

theorem withState_get (t : Option Str) (s : St) (u : Str) : (s.withState t).emit (.get u) = (s.emit (.get u)).withState t := rfl

theorem withState_seen (t : Option Str) (s : St) (x : Option Rat) : (s.withState t).seen x = (s.seen x).withState t := by
  cases x with
  | none => rfl
  | some x =>
    unfold St.seen
    show (if x > s.last_timestamp then _ else _) = _
    simp only
    split <;> rfl

theorem withState_mkpath (env : Env) (t : Option Str) : ∀ (rest : List Str) (pre : Loc) (s : St),
    mkpath env pre rest (s.withState t) = ((mkpath env pre rest s).1.withState t, (mkpath env pre rest s).2)
  | [], _, _ => rfl
  | n :: rest, pre, s => by
    unfold mkpath
    rw [withState_fs]
    cases s.world.fs.get (pre ++ [n]) with
    | none =>
      simp only
      rw [withState_trace]
      split
      · rfl
      · exact withState_mkpath env t rest _ (s.emit (.mkdir (pre ++ [n])))
    | some x =>
      cases x with
      | file c m => rfl
      | dir => exact withState_mkpath env t rest _ s

theorem withState_tryGet (env : Env) (t : Option Str) (s : St) (uri : Str) (l : Loc) :
    tryGet env (s.withState t) uri l = ((tryGet env s uri l).1.withState t, (tryGet env s uri l).2) := by
  unfold tryGet
  simp only [withState_trace, withState_get]
  cases env.serve s.trace uri with
  | fail e => rfl
  | body b broken =>
    simp only
    have : openW env ((s.emit (.get uri)).withState t) l = (openW env (s.emit (.get uri)) l).map (St.withState t) := by
      unfold openW
      show (if l = [] ∨ (s.emit (.get uri)).world.fs.get l = some .dir ∨ ¬ (s.emit (.get uri)).world.fs.isDir l.dropLast ∨
        env.openFails (s.emit (.get uri)).trace l then none else _) = _
      split <;> rfl
    rw [this]
    cases openW env (s.emit (.get uri)) l <;> rfl

theorem withState_getLoop (env : Env) (t : Option Str) (ign : Bool) (uri : Str) (l : Loc) : ∀ (n : Nat) (s : St),
    getLoop env ign uri l n (s.withState t) = ((getLoop env ign uri l n s).1.withState t, (getLoop env ign uri l n s).2)
  | 0, _ => rfl
  | n + 1, s => by
    unfold getLoop
    rw [withState_tryGet]
    simp only
    cases (tryGet env s uri l).2 with
    | none => rfl
    | some f =>
      cases f with
      | timeout =>
        simp only
        split
        · rfl
        · exact withState_getLoop env t ign uri l n _
      | io => rfl
      | other => rfl

theorem withState_setTime (t : Option Str) (s : St) (l : Loc) (x : Option Rat) :
    setTime (s.withState t) l x = ((setTime s l x).1.withState t, (setTime s l x).2) := by
  unfold setTime
  rw [withState_fs]
  cases s.world.fs.get l with
  | none => rfl
  | some _ =>
    cases x with
    | none => rfl
    | some x =>
      simp only
      rw [← withState_seen]
      rfl

theorem withState_updateResource (env : Env) (c : ClientCfg) (t : Option Str) (s : St) (r : Resource) (fn : Str) :
    updateResource env c (s.withState t) r fn = ((updateResource env c s r fn).1.withState t, (updateResource env c s r fn).2) := by
  unfold updateResource
  rw [withState_mkpath]
  rcases mkpath env [] (location env.cwd (dirname fn)) s with ⟨s1, b⟩
  cases b with
  | false => rfl
  | true =>
    simp only
    split
    · rfl
    · rw [withState_getLoop]
      rcases getLoop env c.ignore_failures r.uri (location env.cwd fn) c.tries s1 with ⟨s2, g⟩
      cases g with
      | raised e => rfl
      | gaveUp => rfl
      | updated =>
        simp only
        rw [withState_setTime]
        rcases setTime s2 (location env.cwd fn) r.timestamp with ⟨s3, x⟩
        cases x <;> rfl
      | skipped =>
        simp only
        rw [withState_setTime]
        rcases setTime s2 (location env.cwd fn) r.timestamp with ⟨s3, x⟩
        cases x <;> rfl

theorem withState_updateOne (env : Env) (c : ClientCfg) (t : Option Str) (s : St) (r : Resource) :
    updateOne env c (s.withState t) r = ((updateOne env c s r).1.withState t, (updateOne env c s r).2) := by
  unfold updateOne
  cases c.disc.mapper.srcToDst r.uri with
  | error e => rfl
  | ok fn =>
    simp only
    rw [withState_updateResource]
    rcases updateResource env c s r fn with ⟨s1, x⟩
    cases x <;> rfl

theorem withState_deleteOne (env : Env) (c : ClientCfg) (allow : Bool) (t : Option Str) (s : St) (r : Resource) :
    deleteOne env c allow (s.withState t) r = ((deleteOne env c allow s r).1.withState t, (deleteOne env c allow s r).2) := by
  unfold deleteOne
  cases c.disc.mapper.srcToDst r.uri with
  | error e => rfl
  | ok fn =>
    simp only
    unfold deleteResource
    rw [withState_seen]
    simp only
    split
    · rfl
    · split
      · rfl
      · rw [withState_fs, withState_trace]
        cases (s.seen r.timestamp).world.fs.get (location env.cwd fn) with
        | none => rfl
        | some x =>
          cases x with
          | dir => rfl
          | file b m =>
            simp only
            split <;> rfl

theorem withState_forEach (t : Option Str) {f : St → Resource → St × Except ClientErr Unit}
    (hf : ∀ s r, f (s.withState t) r = ((f s r).1.withState t, (f s r).2)) : ∀ (rs : List Resource) (s : St),
    forEach f rs (s.withState t) = ((forEach f rs s).1.withState t, (forEach f rs s).2)
  | [], _ => rfl
  | r :: rs, s => by
    unfold forEach
    rw [hf]
    rcases f s r with ⟨s1, x⟩
    cases x with
    | error e => rfl
    | ok u => exact withState_forEach t hf rs s1

theorem storeState_disk (env : Env) (c : ClientCfg) (s : St) : (storeState env c s).1.world.fs = s.world.fs := by
  unfold storeState
  split
  · rfl
  · split <;> rfl

theorem finish_disk (env : Env) (c : ClientCfg) (s : St) :
    (if s.last_timestamp > 0 then storeState env c s else (s, .ok ()) : St × Except ClientErr Unit).1.world.fs = s.world.fs := by
  split
  · exact storeState_disk env c s
  · rfl

theorem withState_baselineSync (env : Env) (c : ClientCfg) (allow : Bool) (src : Dict Resource) (cmp : Comparison) (t : Option Str) (s : St) :
    (baselineSync env c allow src cmp (s.withState t)).1.world.fs = (baselineSync env c allow src cmp s).1.world.fs := by
  unfold baselineSync
  cases baselineAuthority c src with
  | error e => rfl
  | ok u =>
    simp only
    have h0 : ({ s.withState t with last_timestamp := 0 } : St) = St.withState t { s with last_timestamp := 0 } := rfl
    rw [h0, withState_forEach t (withState_updateOne env c t)]
    rcases forEach (updateOne env c) (iterList cmp.created) { s with last_timestamp := 0 } with ⟨s1, x⟩
    cases x with
    | error e => rfl
    | ok u =>
      simp only
      rw [withState_forEach t (withState_updateOne env c t)]
      rcases forEach (updateOne env c) (iterList cmp.updated) s1 with ⟨s2, x⟩
      cases x with
      | error e => rfl
      | ok u =>
        simp only
        rw [withState_forEach t (withState_deleteOne env c allow t)]
        rcases forEach (deleteOne env c allow) (iterList cmp.deleted) s2 with ⟨s3, x⟩
        cases x with
        | error e => rfl
        | ok u =>
          simp only
          rw [finish_disk, finish_disk]
          rfl

theorem withState_baselinePlan (env : Env) (c : ClientCfg) (audit : Bool) (t : Option Str) (s : St) :
    baselinePlan env c audit (s.withState t) = ((baselinePlan env c audit s).1.withState t, (baselinePlan env c audit s).2) := by
  unfold baselinePlan
  split
  · rfl
  split
  · rfl
  · rfl
  split
  · rfl
  rename_i src _
  split
  · rfl
  simp only
  have e : (if (s.withState t).hashes ≠ [] then
      ({ s.withState t with hashes := pruneHashes (s.withState t).hashes (listHashes (iterList src)) } : St) else s.withState t)
      = St.withState t (if s.hashes ≠ [] then { s with hashes := pruneHashes s.hashes (listHashes (iterList src)) } else s) := by
    show (if s.hashes ≠ [] then _ else _) = _
    split <;> rfl
  rw [e]
  generalize (if s.hashes ≠ [] then ({ s with hashes := pruneHashes s.hashes (listHashes (iterList src)) } : St) else s) = s1
  rw [withState_fs, withState_hashes]
  cases (Builder.new c.disc.mapper (some s1.hashes) true false).fromDisk env.lib (s1.world.fs.disk env.cwd) with
  | error e => rfl
  | ok dst =>
    simp only
    split <;> rfl

/-- what is in the state file has no influence on what becomes of the disk -/
theorem withState_disk (env : Env) (c : ClientCfg) (allow audit : Bool) (t : Option Str) (s : St) :
    (baselineOrAudit env c allow audit (s.withState t)).1.world.fs = (baselineOrAudit env c allow audit s).1.world.fs := by
  unfold baselineOrAudit
  rw [withState_baselinePlan]
  rcases baselinePlan env c audit s with ⟨s1, x⟩
  cases x with
  | error e => rfl
  | ok y =>
    obtain ⟨src, cmp⟩ := y
    simp only
    split
    · rfl
    · exact withState_baselineSync env c allow src cmp t s1

theorem withState_applyOne (env : Env) (c : ClientCfg) (allow : Bool) (t : Option Str) (s : St) (r : Resource) :
    applyOne env c allow (s.withState t) r = ((applyOne env c allow s r).1.withState t, (applyOne env c allow s r).2) := by
  have hd := withState_deleteOne env c allow t s r
  unfold deleteOne at hd
  unfold applyOne
  cases hm : c.disc.mapper.srcToDst r.uri with
  | error e => rfl
  | ok fn =>
    rw [hm] at hd
    simp only at hd ⊢
    split
    · rw [withState_updateResource]
      rcases updateResource env c s r fn with ⟨s1, x⟩
      cases x <;> rfl
    · split
      · exact hd
      · rfl

theorem withState_incrementalPlan (env : Env) (c : ClientCfg) (uri : Option Str) (d : Str) (t : Option Str) (s : St) :
    incrementalPlan env c uri (some d) (s.withState t) =
      ((incrementalPlan env c uri (some d) s).1.withState t, (incrementalPlan env c uri (some d) s).2) := by
  have hst : startTime env c (some d) (s.withState t) = startTime env c (some d) s := rfl
  unfold incrementalPlan
  rw [hst, withState_hashes]
  split
  · rfl
  split
  · rfl
  · rfl
  split
  · rfl
  split
  · rfl
  split
  · rfl
  simp only
  split
  · rfl
  split
  · rfl
  split
  · rfl
  split
  · rfl
  split
  · rfl
  split <;> rfl

/-- nor has it for an incremental sync from a given time on -/
theorem withState_incremental (env : Env) (c : ClientCfg) (allow : Bool) (uri : Option Str) (d : Str) (t : Option Str) (s : St) :
    (incremental env c allow uri (some d) (s.withState t)).1.world.fs = (incremental env c allow uri (some d) s).1.world.fs := by
  unfold incremental
  rw [withState_incrementalPlan]
  rcases incrementalPlan env c uri (some d) s with ⟨s1, x⟩
  cases x with
  | error e => rfl
  | ok cl =>
    simp only
    split
    · rfl
    · rw [withState_forEach t (withState_applyOne env c allow t)]
      rcases forEach (applyOne env c allow) cl s1 with ⟨s2, x⟩
      cases x with
      | error e => rfl
      | ok u =>
        simp only
        rw [finish_disk, finish_disk]
        rfl

/-- the changes to be applied are among those read -/
theorem applied_read {env : Env} {c : ClientCfg} {uri fd : Option Str} {s s1 : St} {cl : List Resource} {t0 : Rat} {clUri : Str}
    {raw kept : List Resource} {last : Rat} (h : IncPlanned env c uri fd s s1 cl t0 clUri raw kept last) {sites : List (Map × Loc)}
    (hb : ∀ changes, ChangesRead env c uri changes → ∀ r ∈ changes, BelowSites sites r.uri) {r : Resource} (hr : r ∈ cl) :
    BelowSites sites r.uri :=
  hb raw ⟨clUri, h.listUri, h.read⟩ r (lastChange_mem (planned_last h hr)).1

/-- as `kept_incremental`, with nothing required of other change lists -/
theorem kept_incremental_read {P : Loc → FsNode → Prop} {Q : Option Str → Prop} (env : Env) (c : ClientCfg) (allow : Bool) (uri fd : Option Str)
    (s : St) (hc : ∀ n ∈ env.cwd, PlainName n) (hq : KeepsState Q env c) (h : Inv P Q s.world)
    (hp : ∀ cl r, ChangesRead env c uri cl → r ∈ cl → ∀ fn, c.disc.mapper.srcToDst r.uri = .ok fn → MayFetch P env r fn) :
    Kept (Inv P Q) s (incremental env c allow uri fd s).1 := by
  unfold incremental
  obtain ⟨p1, p2⟩ := incrementalPlan_same env c uri fd s
  cases hpl : incrementalPlan env c uri fd s with
  | mk s1 x =>
  rw [hpl] at p1 p2
  have k0 : Kept (Inv P Q) s s1 := .same p2 p1 h
  cases x with
  | error e => exact k0
  | ok cl =>
    simp only
    split
    · exact k0
    · obtain ⟨t0, clUri, raw, kept, last, hpn⟩ := incrementalPlan_ok hpl
      have k1 := k0.trans (kept_forEach (applyOne env c allow) cl (by
        intro r hr s hs
        have hraw : r ∈ raw := (lastChange_mem (planned_last hpn hr)).1
        unfold applyOne
        split
        · exact .refl hs
        · rename_i fn hfn
          split
          · have := kept_updateResource env c s r fn hc (hp raw r ⟨clUri, hpn.listUri, hpn.read⟩ hraw fn hfn) hs
            cases hup : updateResource env c s r fn with
            | mk s1 x =>
            rw [hup] at this
            cases x <;> exact this
          · split
            · exact kept_deleteResource env c allow s r _ hs
            · exact .refl hs) s1 k0.end)
      cases h1 : forEach (applyOne env c allow) cl s1 with
      | mk s2 x1 =>
      rw [h1] at k1
      cases x1 with
      | error e => exact k1
      | ok _ =>
        simp only
        split
        · exact k1.trans (kept_storeState env c s2 hq k1.end)
        · exact k1

/-- inside one of the destinations -/
def Inside (sites : List (Map × Loc)) (l : Loc) : Prop := ∃ p ∈ sites, ∃ names, names ≠ [] ∧ l = p.2 ++ names

theorem inside_set {N : Loc → Prop} {fs0 fs : Fs} {k : Loc} {n : FsNode} (hk : N k)
    (h : ∀ l, ¬ N l → fs.get l = fs0.get l) : ∀ l, ¬ N l → (fs.set k n).get l = fs0.get l := by
  intro l hl
  rw [get_set_other _ _ _ _ (by rintro rfl; exact hl hk)]
  exact h l hl

/-- what is done for resources below the mapped URIs is done inside the destinations, which exist -/
theorem eff_inside {env : Env} {c : ClientCfg} {sites : List (Map × Loc)} {fs : Fs} (hs : Sites c env.cwd sites fs)
    (there : ∀ p ∈ sites, fs.get p.2 = some .dir) {allow : Bool} {upd del : List Resource} (hup : ∀ r ∈ upd, BelowSites sites r.uri)
    (hdel : ∀ r ∈ del, BelowSites sites r.uri) {e : Effect} (he : SyncEff env c allow upd del e ∨ IsSetState e) {w : World}
    (hI : ∀ l, ¬ Inside sites l → w.fs.get l = fs.get l) : ∀ l, ¬ Inside sites l → (w.apply e).fs.get l = fs.get l := by
  show ∀ l, ¬ Inside sites l → (e.onFs w.fs).get l = fs.get l
  rcases he with (⟨r, hr, fn, hfn, hu⟩ | ⟨r, hr, fn, hfn, rfl, -⟩) | ⟨text, rfl⟩
  · obtain ⟨p, hp', names, n1, n2, n3⟩ := hup r hr
    obtain ⟨fn', m1, m2, m3⟩ := hs.maps_dir hp' n1 n2
    rw [n3, m1] at hfn
    cases hfn
    have hin : Inside sites (location env.cwd fn) := ⟨p, hp', names, n1, m2⟩
    rcases hu with ⟨d, rfl, hd⟩ | ⟨-, hf | ⟨t, rfl⟩⟩
    · simp only [Effect.onFs]
      cases hg : w.fs.get d with
      | some x => exact hI
      | none =>
        refine inside_set ?_ hI
        -- everything on the way to the destination is a directory already
        rw [m3] at hd
        by_contra hout
        have hgd := hI d hout
        rw [hg] at hgd
        rcases List.prefix_or_prefix_of_prefix (hd.trans (List.dropLast_prefix _)) (List.prefix_append p.2 names) with h1 | ⟨b, h1⟩
        · obtain ⟨b, hb⟩ := h1
          by_cases hb0 : b = []
          · subst hb0
            rw [List.append_nil] at hb
            rw [hb, there p hp'] at hgd
            cases hgd
          · have := get_prefix hs.proper b hb0 (x := .dir) (a := d) (by rw [hb]; exact there p hp')
            rw [this] at hgd
            cases hgd
        · by_cases hb0 : b = []
          · subst hb0
            rw [List.append_nil] at h1
            rw [← h1, there p hp'] at hgd
            cases hgd
          · exact hout ⟨p, hp', b, hb0, h1.symm⟩
    · rcases hf with rfl | ⟨-, t, rfl⟩ | ⟨-, b, rfl⟩
      · exact hI
      · exact inside_set hin hI
      · simp only [Effect.onFs]
        split
        · exact inside_set hin hI
        · exact hI
    · simp only [Effect.onFs]
      split
      · exact inside_set hin hI
      · exact hI
  · obtain ⟨p, hp', names, n1, n2, n3⟩ := hdel r hr
    obtain ⟨fn', m1, -, m3⟩ := hs.maps hp' n1 n2
    rw [n3, m1] at hfn
    cases hfn
    intro l hl
    show (w.fs.del (location env.cwd fn)).get l = fs.get l
    rw [get_del_other _ _ _ (by rintro rfl; exact hl ⟨p, hp', names, n1, m3⟩)]
    exact hI l hl
  · exact hI

section
variable {j : Job} {fs : Fs}

/-- A sync leaves everything alone that is not inside one of its destinations. -/
theorem leaves_outside (hj : j.Fits fs) {fs' : Fs} (h : j.Leaves fs fs') : ∀ l, ¬ Inside j.sites l → fs'.get l = fs.get l := by
  obtain ⟨state, rfl⟩ := h
  have hfs : (j.start fs state).world.fs = fs := rfl
  have hhs : (j.start fs state).hashes = j.hashes := rfl
  generalize j.start fs state = s at hfs hhs
  have hsites : Sites j.cfg j.env.cwd j.sites s.world.fs := by rw [hfs]; exact hj.sites
  have hb := hj.below
  unfold Job.run
  cases hw : j.work with
  | baseline =>
    rw [hw] at hb
    simp only at hb ⊢
    have hd := baseline_did j.env j.cfg j.allow_deletion false s
    refine moment_inv hd (fun w => ∀ l, ¬ Inside j.sites l → w.fs.get l = fs.get l) (fun l _ => by rw [hfs]) ?_ _ hd.final
    rintro w e ⟨-, s1, src, cmp, dst, hp, -, he⟩ hI
    have pf := planFacts hj.keyed hsites.proper hp
    refine eff_inside hj.sites hj.there ?_ ?_ he hI
    · intro r hr
      exact hb src hp.found _ _ (mem_of_dget (plan_upd_source pf hr))
    · intro r hr
      obtain ⟨dst', k1, k2⟩ := hsites.scan j.env.lib (leftHashes s src) (fun t ht => hj.hashes t (by rw [← hhs]; exact leftHashes_sub ht))
      have hdst : dst' = dst := by
        have := hp.scan
        rw [k1] at this
        cases this; rfl
      subst hdst
      obtain ⟨h1, -⟩ := (pf.cmp.deleted _ _).mp ((mem_iterList pf.cmp.wf.deleted).mp hr)
      obtain ⟨p, hp', names, b, m, n1, n2, n3, -⟩ := (k2 _ _).mp h1
      exact ⟨p, hp', names, n1, names_of_file hsites.tidy n1 n2, n3⟩
  | incremental uri d =>
    rw [hw] at hb
    simp only at hb ⊢
    have hd := incremental_did j.env j.cfg j.allow_deletion uri (some d) s
    refine moment_inv hd (fun w => ∀ l, ¬ Inside j.sites l → w.fs.get l = fs.get l) (fun l _ => by rw [hfs]) ?_ _ hd.final
    rintro w e ⟨s1, cl, t0, clUri, raw, kept, last, hp, he⟩ hI
    exact eff_inside hj.sites hj.there (fun r hr => applied_read hp hb (List.mem_of_mem_filter hr))
      (fun r hr => applied_read hp hb (List.mem_of_mem_filter hr)) he hI

/-- the disk stays a proper one -/
theorem leaves_tidy (hj : j.Fits fs) {fs' : Fs} (h : j.Leaves fs fs') : Tidy fs' := by
  obtain ⟨state, rfl⟩ := h
  have hI : Inv (fun _ _ => True) (fun _ => True) (j.start fs state).world := ⟨⟨hj.sites.tidy, fun _ _ _ _ => trivial⟩, trivial⟩
  have hmay : ∀ r : Resource, BelowSites j.sites r.uri → ∀ fn, j.cfg.disc.mapper.srcToDst r.uri = .ok fn →
      MayFetch (fun _ _ => True) j.env r fn := by
    rintro r ⟨p, hp, names, n1, n2, n3⟩ fn hfn
    obtain ⟨fn', m1, m2, -⟩ := hj.sites.maps hp n1 n2
    rw [n3, m1] at hfn
    cases hfn
    exact ⟨m2, fun _ _ _ => trivial, fun _ => trivial, fun _ _ _ _ _ _ _ => trivial, fun _ _ _ _ _ => trivial⟩
  have hb := hj.below
  unfold Job.run
  cases hw : j.work with
  | baseline =>
    rw [hw] at hb
    simp only at hb ⊢
    exact (kept_baseline (P := fun _ _ => True) (Q := fun _ => True) j.env j.cfg j.allow_deletion false _ hj.sites.cwdNames
      (fun _ _ _ _ _ _ _ => trivial) hI hj.keyed (fun src r hf hr => hmay r (hb src hf _ _ hr))).end.1.tidy
  | incremental uri d =>
    rw [hw] at hb
    simp only at hb ⊢
    exact (kept_incremental_read (P := fun _ _ => True) (Q := fun _ => True) j.env j.cfg j.allow_deletion uri (some d) _ hj.sites.cwdNames
      (fun _ _ _ _ _ _ _ => trivial) hI (fun cl r hr hm => hmay r (hb cl hr r hm))).end.1.tidy

/-- the destinations of another sync are still what they were -/
theorem leaves_fits {k : Job} (hj : j.Fits fs) (hk : k.Fits fs) (hs : ∀ p ∈ k.sites, ¬ Inside j.sites p.2) {fs' : Fs} (h : j.Leaves fs fs') :
    k.Fits fs' := by
  have ht := leaves_tidy hj h
  have hth : ∀ p ∈ k.sites, fs'.get p.2 = some .dir := fun p hp => by rw [leaves_outside hj h _ (hs p hp)]; exact hk.there p hp
  refine ⟨{ hk.sites with proper := ht.proper, names := ht.names, notFile := ?_ }, hk.hashes, hk.keyed, hk.below, hth⟩
  rintro p hp ⟨b, m, hf⟩
  unfold IsFile at hf
  rw [hth p hp] at hf
  cases hf

/-- on disks that are the same near the destinations a sync does the same, if the state file is the same -/
theorem run_same (hj : j.Fits fs) {fs1 : Fs} (hj1 : j.Fits fs1) (hsame : SameAtSites j.sites fs fs1) (state : Option Str) :
    let p := j.run (j.start fs state)
    let p' := j.run (j.start fs1 state)
    p'.2 = p.2 ∧ p'.1.trace = p.1.trace ∧ p'.1.world.state = p.1.world.state ∧ SameAtSites j.sites p.1.world.fs p'.1.world.fs := by
  have hb := hj.below
  unfold Job.run
  cases hw : j.work with
  | baseline =>
    rw [hw] at hb
    exact C121_sync j.env j.cfg j.allow_deletion false (j.start fs state) fs1 j.sites hj.sites hj1.sites hj.hashes hj.keyed hb hsame
  | incremental uri d =>
    rw [hw] at hb
    exact C121_incremental j.env j.cfg j.allow_deletion uri (some d) (j.start fs state) fs1 j.sites hj.sites hb hsame

/-- and leaves the same there in any case -/
theorem leaves_same (hj : j.Fits fs) {fs1 : Fs} (hj1 : j.Fits fs1) (hsame : SameAtSites j.sites fs fs1) {fs' fs1' : Fs}
    (h : j.Leaves fs fs') (h1 : j.Leaves fs1 fs1') : SameAtSites j.sites fs' fs1' := by
  obtain ⟨state, rfl⟩ := h
  obtain ⟨state1, rfl⟩ := h1
  have e : (j.run (j.start fs1 state1)).1.world.fs = (j.run (j.start fs1 state)).1.world.fs := by
    unfold Job.run
    cases j.work with
    | baseline => exact withState_disk j.env j.cfg j.allow_deletion false state1 (j.start fs1 state)
    | incremental uri d => exact withState_incremental j.env j.cfg j.allow_deletion uri d state1 (j.start fs1 state)
  rw [e]
  exact (run_same hj hj1 hsame state).2.2.2

end

end Resync
