import Verif.Proofs.ClientDone
import Verif.Props.ClientHistory
/-
C54: what a successful incremental sync has done.
-/

namespace Resync
open Py Resync.Spec

theorem keepLast_last {l pre post : List Resource} {r : Resource} (e : l = pre ++ r :: post) (h : ∀ x ∈ post, x.uri ≠ r.uri) :
    r ∈ keepLast l := by
  subst e
  induction pre with
  | nil =>
    simp only [List.nil_append, keepLast]
    rw [if_neg]
    · simp
    · intro ha
      rw [List.any_eq_true] at ha
      obtain ⟨x, hx, hu⟩ := ha
      exact h x hx (by simpa using hu)
  | cons a t ih =>
    simp only [List.cons_append, keepLast]
    split
    · exact ih
    · exact List.mem_cons_of_mem _ ih

/-- `r` is among the selected changes unless its URI was created first and deleted last -/
theorem last_selected {env : Env} {c : ClientCfg} {uri fd : Option Str} {s s1 : St} {cl : List Resource} {t0 : Rat} {clUri : Str}
    {raw kept : List Resource} {last : Rat} (h : IncPlanned env c uri fd s s1 cl t0 clUri raw kept last) {r : Resource}
    (hr : LastChange raw c.spec_version t0 r)
    (hc : r.change = some sDeleted → ∀ x, FirstChange raw c.spec_version t0 x → x.uri = r.uri → x.change ≠ some sCreated) : r ∈ cl := by
  obtain ⟨n, hp⟩ := h.pruned
  obtain ⟨-, hk⟩ := pruned_eq hp
  obtain ⟨before, after, e, ha, hlast⟩ := hr
  rw [h.dupes, C25_prune_dupes]
  unfold prunedSpec
  rw [List.mem_filter]
  have hsplit : kept = before.filter (fun r => (entryTime c.spec_version r).any (t0 ≤ ·)) ++
      r :: after.filter (fun r => (entryTime c.spec_version r).any (t0 ≤ ·)) := by
    rw [hk, e, List.filter_append, List.filter_cons, if_pos ((any_iff_atOrAfter _ _ _).mpr ha)]
  refine ⟨keepLast_last hsplit ?_, ?_⟩
  · intro x hx hu
    obtain ⟨h1, h2⟩ := List.mem_filter.mp hx
    exact hlast x h1 hu ((any_iff_atOrAfter _ _ _).mp h2)
  · by_cases hd : r.change = some sDeleted
    · obtain ⟨x, hx1, hx2, hx3⟩ := find_uri_some (l := kept) (u := r.uri) ⟨r, by rw [hsplit]; simp, rfl⟩
      have hfirst := find_first (by rw [← hk]; exact hx1)
      rw [hx1]
      have := hc hd x hfirst.1 hx3
      have hne : ¬ (some x).map (·.change) = some (some "created".toList) := fun hh => this (Option.some.inj hh)
      rw [decide_eq_false hne, Bool.and_false]
      rfl
    · have hne : ¬ r.change = some "deleted".toList := hd
      rw [decide_eq_false hne, Bool.false_and]
      rfl

/-- C54, the part that holds.  After a successful incremental sync (not a dry run, without ignore_failures, at least one try,
files can be unlinked, no two of the changed URIs mapped to the same file), the last change of each URI changed at or after the
start time has had its effect: created or updated, there are bytes served for it during the run, with its lastmod; deleted,
with deletion allowed, there is no file.  Other files are untouched: C49_incremental.  Missing: a URI whose
first change is its creation and whose last one is its deletion (C54_violated). -/
theorem C54_partial (env : Env) (c : ClientCfg) (allow_deletion : Bool) (uri from_datetime : Option Str) (s : St)
    (hd : c.dryrun = false) (hi : c.ignore_failures = false) (ht : 0 < c.tries) (hu : ∀ tr l, env.unlinkFails tr l = false)
    (hok : (incremental env c allow_deletion uri from_datetime s).2 = .ok ())
    (changes : List Resource) (hread : ChangesRead env c uri changes) (t0 : Rat) (hstart : startTime env c from_datetime s = .ok t0)
    (hinj : ∀ r r' l, LastChange changes c.spec_version t0 r → LastChange changes c.spec_version t0 r' →
      MapsTo c env.cwd r.uri l → MapsTo c env.cwd r'.uri l → r.uri = r'.uri)
    (r : Resource) (hr : LastChange changes c.spec_version t0 r) :
    (r.change = some "created".toList ∨ r.change = some "updated".toList ∨ r.change = some "deleted".toList ∨
      ∃ x, FirstChange changes c.spec_version t0 x ∧ x.uri = r.uri ∧ x.change = some "created".toList) ∧
    (r.change = some "created".toList ∨ r.change = some "updated".toList →
      ∃ l, MapsTo c env.cwd r.uri l ∧ Fetched env s (incremental env c allow_deletion uri from_datetime s).1 r l) ∧
    (r.change = some "deleted".toList → allow_deletion = true →
      (∀ x, FirstChange changes c.spec_version t0 x → x.uri = r.uri → x.change ≠ some "created".toList) →
      ∃ l, MapsTo c env.cwd r.uri l ∧ ¬ HasFile (incremental env c allow_deletion uri from_datetime s).1.world.fs l) := by
  unfold incremental at hok ⊢
  obtain ⟨p1, p2⟩ := incrementalPlan_same env c uri from_datetime s
  cases hp : incrementalPlan env c uri from_datetime s with
  | mk s1 x =>
  rw [hp] at hok p1 p2
  cases x with
  | error e => simp at hok
  | ok cl =>
    obtain ⟨t0', clUri, raw, kept, last, hpl⟩ := incrementalPlan_ok hp
    have h1 := hpl.start
    rw [hstart] at h1
    cases h1
    have hraw : raw = changes := by
      obtain ⟨u, hu1, hu2⟩ := hread
      have := hpl.listUri
      rw [hu1] at this
      cases this
      have := hpl.read
      rw [hu2] at this
      cases this
      rfl
    subst hraw
    simp only at hok ⊢
    -- the selected changes have been applied one after the other
    have main : ∀ s2, forEach (applyOne env c allow_deletion) cl s1 = (s2, .ok ()) → ∀ s3, Did IsSetState s2 s3 → r ∈ cl →
        ((r.change = some sCreated ∨ r.change = some sUpdated → ∃ l, MapsTo c env.cwd r.uri l ∧ Fetched env s s3 r l) ∧
         (r.change = some sDeleted → allow_deletion = true → ∃ l, MapsTo c env.cwd r.uri l ∧ ¬ HasFile s3.world.fs l)) := by
      intro s2 hf s3 h23 hr'
      obtain ⟨pre, post, hsplit⟩ := List.append_of_mem hr'
      rw [hsplit] at hf
      obtain ⟨sa, sb, ha, hb, hc⟩ := forEach_split hf
      have hdid : ∀ rs : List Resource, ∀ x, Did (SyncEff env c allow_deletion rs rs) x (forEach (applyOne env c allow_deletion) rs x).1 :=
        fun rs x => (forEach_did _ rs (fun r hr s => applyOne_did env c allow_deletion rs rs r (fun _ => hr) (fun _ => hr) s) x).1
      have d1 : Did (SyncEff env c allow_deletion pre pre) s sa := by
        have h0 : Did (SyncEff env c allow_deletion pre pre) s s1 := Did.same p2 p1
        have := hdid pre s1
        rw [ha] at this
        exact h0.trans this
      have d2 := (applyOne_did env c allow_deletion [r] [r] r (fun _ => by simp) (fun _ => by simp) sa).1
      rw [hb] at d2
      have d3 := hdid post sb
      rw [hc] at d3
      have hnd : (cl.map (·.uri)).Nodup := by rw [hpl.dupes]; exact (C25_at_most_one_per_uri kept).1
      have hother : ∀ l, MapsTo c env.cwd r.uri l → ∀ r' ∈ post ++ post, ¬ MapsTo c env.cwd r'.uri l := by
        intro l hl r' hr2 hl'
        have hr2 : r' ∈ post := by simpa using hr2
        have hrc : r' ∈ cl := by rw [hsplit]; simp [hr2]
        have := hinj r r' l hr (planned_last hpl hrc) hl hl'
        rw [hsplit, List.map_append, List.map_cons, List.nodup_append] at hnd
        exact (List.nodup_cons.mp hnd.2.1).1 (by rw [this]; exact List.mem_map.mpr ⟨r', hr2, rfl⟩)
      have keep : ∀ l, MapsTo c env.cwd r.uri l → ∀ b m, IsFile s3.world.fs l b m ↔ IsFile sb.world.fs l b m := by
        intro l hl b m
        have k1 := did_untouched d3 (hother l hl) b m
        have k2 : IsFile s3.world.fs l b m ↔ IsFile s2.world.fs l b m := by
          refine moment_inv h23 (fun w => IsFile w.fs l b m ↔ IsFile s2.world.fs l b m) Iff.rfl ?_ _ h23.final
          rintro w e ⟨t, rfl⟩ hw
          exact hw
        exact k2.trans k1
      unfold applyOne at hb
      cases hm : c.disc.mapper.srcToDst r.uri with
      | error e => rw [hm] at hb; simp at hb
      | ok fn =>
        rw [hm] at hb
        simp only at hb
        have hml : MapsTo c env.cwd r.uri (location env.cwd fn) := ⟨fn, hm, rfl⟩
        constructor
        · intro hch
          rw [if_pos (Or.symm hch)] at hb
          cases hup : updateResource env c sa r fn with
          | mk sx res =>
          rw [hup] at hb
          cases res with
          | error e => simp at hb
          | ok n =>
            simp only [Prod.mk.injEq, and_true] at hb
            subst hb
            have hfet := updateResource_fetched env c sa r fn hd hi ht (n := n) (by rw [hup])
            rw [hup] at hfet
            obtain ⟨b, m, hs, hfile, hmt⟩ := hfet
            refine ⟨_, hml, b, m, ?_, (keep _ hml b m).mpr hfile, hmt⟩
            exact served_mono (P := fun _ => True) (Q := fun _ => True) (R := fun _ => True) (d1.mono (fun _ _ => trivial))
              (d2.mono (fun _ _ => trivial)) ((d3.mono (fun _ _ => trivial)).trans (h23.mono (fun _ _ => trivial))) hs
        · intro hch hal
          rw [if_neg (by rw [hch]; decide), if_pos hch] at hb
          simp only [Prod.mk.injEq, and_true] at hb
          rw [hal] at hb
          refine ⟨_, hml, ?_⟩
          rintro ⟨b, m, hfile⟩
          have := (keep _ hml b m).mp hfile
          rw [← hb] at this
          exact deleteResource_gone env c sa r fn hd hu ⟨b, m, this⟩
    have hsel : r.change ≠ some sDeleted → r ∈ cl := fun hne => last_selected hpl hr (fun h => absurd h hne)
    constructor
    · by_cases hx : ∃ x, FirstChange raw c.spec_version t0 x ∧ x.uri = r.uri ∧ x.change = some "created".toList
      · exact .inr (.inr (.inr hx))
      · have hrcl : r ∈ cl := last_selected hpl hr (fun _ x h1 h2 h3 => hx ⟨x, h1, h2, h3⟩)
        rcases hpl.known r hrcl with h | h | h
        · exact .inr (.inl h)
        · exact .inl h
        · exact .inr (.inr (.inl h))
    · by_cases hz : cl = [] ∨ (cl.all (fun r => r.change = some sDeleted) = true ∧ ¬ allow_deletion = true)
      · rw [if_pos hz]
        constructor
        · intro hch
          have hne : r.change ≠ some sDeleted := by
            rcases hch with h | h <;> rw [h] <;> decide
          have hrcl := hsel hne
          rcases hz with rfl | ⟨h, -⟩
          · cases hrcl
          · rw [List.all_eq_true] at h
            exact absurd (by simpa using h r hrcl) hne
        · intro hch hal hx
          have hrcl := last_selected hpl hr (fun _ => hx)
          rcases hz with rfl | ⟨-, h⟩
          · cases hrcl
          · exact absurd hal h
      · rw [if_neg hz] at hok ⊢
        cases hf : forEach (applyOne env c allow_deletion) cl s1 with
        | mk s2 x2 =>
        rw [hf] at hok
        cases x2 with
        | error e => simp at hok
        | ok _ =>
          simp only at hok ⊢
          have hend : Did IsSetState s2 (if s2.last_timestamp > 0 then storeState env c s2 else (s2, .ok ())).1 := by
            split
            · exact (storeState_did env c s2).1.mono (by rintro e ⟨_, t, _, _, h⟩; exact ⟨t, h⟩)
            · exact Did.refl s2
          constructor
          · intro hch
            have hne : r.change ≠ some sDeleted := by
              rcases hch with h | h <;> rw [h] <;> decide
            exact (main s2 hf _ hend (hsel hne)).1 hch
          · intro hch hal hx
            exact (main s2 hf _ hend (last_selected hpl hr (fun _ => hx))).2 hch hal

open ClientExample in
/-- the hypotheses are met: a list with several changes of the same resources -/
example :
    let cl := [chg "a" sUpdated (some 55) 55, chg "c" sDeleted none 57, chg "b" sCreated (some 58) 58, chg "a" sUpdated (some 60) 60]
    let e := env [] cl [1, 2]
    let r := incremental e cfg true none from0 (start ["a", "c"])
    r.2 = .ok () ∧ startTime e cfg from0 (start ["a", "c"]) = .ok 0 ∧
    r.1.world.fs.get (at_ "a") = some (.file [1, 2] 60) ∧ r.1.world.fs.get (at_ "b") = some (.file [1, 2] 58) ∧
    r.1.world.fs.get (at_ "c") = none ∧
    LastChange cl cfg.spec_version 0 (chg "a" sUpdated (some 60) 60) ∧
    ∀ x ∈ cl, ∀ y ∈ cl, cfg.disc.mapper.srcToDst x.uri = cfg.disc.mapper.srcToDst y.uri → x.uri = y.uri := by
  refine ⟨by decide +kernel, by decide +kernel, by decide +kernel, by decide +kernel, by decide +kernel, ?_, by decide +kernel⟩
  exact ⟨[chg "a" sUpdated (some 55) 55, chg "c" sDeleted none 57, chg "b" sCreated (some 58) 58], [], rfl,
    ⟨60, rfl, by decide +kernel⟩, by simp⟩

/-- C54, where a run starts: from the time given, if it can be read; a time that cannot be read ends the run with an error, and
nothing is done; without a time it starts from the time stored for the site, and without a stored one it ends with an error, and nothing
is done.  The change list is the one given, if its name is not empty, otherwise the one of the default name. -/
theorem C54_start (env : Env) (c : ClientCfg) (allow_deletion : Bool) (uri : Option Str) (s : St) :
    (∀ d t, strToDatetime d = some t → startTime env c (some d) s = .ok t) ∧
    (∀ d, strToDatetime d = none → (∃ e, (incremental env c allow_deletion uri (some d) s).2 = .error e) ∧
      (incremental env c allow_deletion uri (some d) s).1 = s) ∧
    (∀ site t, c.disc.sitemap = .ok site → getState env.ft s.world.state site = .ok (some t) → startTime env c none s = .ok t) ∧
    (∀ site, c.disc.sitemap = .ok site → getState env.ft s.world.state site = .ok none →
      (∃ e, (incremental env c allow_deletion uri none s).2 = .error e) ∧ (incremental env c allow_deletion uri none s).1 = s) ∧
    (∀ x, x ≠ [] → c.changeListName (some x) = x) ∧ c.changeListName (some []) = c.change_list_name ∧
    c.changeListName none = c.change_list_name := by
  have bad : ∀ fd e, startTime env c fd s = .error e → (∃ e, (incremental env c allow_deletion uri fd s).2 = .error e) ∧
      (incremental env c allow_deletion uri fd s).1 = s := by
    intro fd e h
    have hp : ∃ e, incrementalPlan env c uri fd s = (s, .error e) := by
      unfold incrementalPlan
      rw [h]
      split
      · exact ⟨_, rfl⟩
      · split <;> exact ⟨_, rfl⟩
    obtain ⟨e', hp⟩ := hp
    unfold incremental
    rw [hp]
    exact ⟨⟨e', rfl⟩, rfl⟩
  refine ⟨?_, ?_, ?_, ?_, ?_, rfl, rfl⟩
  · intro d t h; simp [startTime, h]
  · intro d h; exact bad _ .fatal (by simp [startTime, h])
  · intro site t h1 h2; simp [startTime, h1, h2]
  · intro site h1 h2; exact bad _ .fatal (by simp [startTime, h1, h2])
  · intro x hx
    cases x with
    | nil => exact absurd rfl hx
    | cons a t => rfl

open ClientExample in
example : strToDatetime "1970-01-01T00:01:00Z".toList = some 60 ∧ strToDatetime "yesterday".toList = none := by decide +kernel

open ClientExample in
/-- C54 fails: the last change of a resource is a deletion, deletion is allowed, the sync succeeds, and the local copy is
still there, because the list also says that the resource was created in the meantime.  The next sync does not select the
deletion any more. -/
theorem C54_violated :
    let cl := [chg "a" sCreated none 60, chg "a" sDeleted none 70, chg "b" sUpdated none 70, chg "b" sUpdated none 80]
    let e := env [] cl [1]
    let r := incremental e cfg true none from0 (start ["a"])
    LastChange cl cfg.spec_version 0 (chg "a" sDeleted none 70) ∧ r.2 = .ok () ∧
    IsFile r.1.world.fs (at_ "a") [7] 50 ∧ startTime e cfg none r.1 = .ok 80 := by
  refine ⟨⟨[chg "a" sCreated none 60], _, rfl, ⟨70, rfl, by decide +kernel⟩, ?_⟩, by decide +kernel, by unfold IsFile; decide +kernel, by decide +kernel⟩
  intro x hx hu
  exfalso
  simp only [List.mem_cons, List.not_mem_nil, or_false] at hx
  rcases hx with rfl | rfl
  · revert hu; decide
  · revert hu; decide

end Resync
