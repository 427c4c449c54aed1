import Verif.Spec.Copies
import Verif.Props.ClientProgress
import Verif.Props.ClientIncremental
import Verif.Props.ClientEffects
/-
One incremental sync, from a copy of the old state to a copy of the new one (lemmas for C85).
-/

namespace Resync
open Py Resync.Spec

theorem OwnState_set {ft : FloatText Rat} {file file' : Option Str} {site : Str} {t : Option Rat} (h : OwnState ft file) (hs : site ≠ [])
    (h' : setState ft file site t = .ok file') : OwnState ft file' := by
  obtain ⟨ops, h1, h2⟩ := h
  refine ⟨ops ++ [(site, t)], ?_, ?_⟩
  · intro op hop
    rcases List.mem_append.mp hop with h | h
    · exact h1 op h
    · rw [List.mem_singleton.mp h]; exact hs
  · clear h1
    generalize (none : Option Str) = f at h2 ⊢
    induction ops generalizing f with
    | nil =>
      simp only [setAll, Except.ok.injEq] at h2
      subst h2
      simp only [List.nil_append, setAll, h']
    | cons op ops ih =>
      obtain ⟨a, b⟩ := op
      simp only [List.cons_append, setAll] at h2 ⊢
      cases hx : setState ft f a b with
      | error e => rw [hx] at h2; simp at h2
      | ok g =>
        rw [hx] at h2
        simp only at h2 ⊢
        exact ih g h2

theorem checkChangeAuthority_succeeds {cs sm : UrlAuthority} {rs : List Resource} (h : ∀ r ∈ rs, cs.hasAuthorityOver r.uri = some true) :
    checkChangeAuthority cs sm rs = .ok () := by
  induction rs with
  | nil => rfl
  | cons r t ih =>
    unfold checkChangeAuthority
    rw [h r (by simp)]
    exact ih (fun r hr => h r (by simp [hr]))

theorem Spec.MayUse.ok {c : ClientCfg} {site clUri : Str} {changes : List Resource} (h : MayUse c site clUri changes)
    (hsite : c.disc.sitemap = .ok site) (g : Bool) : incrementalAuthority c clUri g changes = .ok () := by
  unfold incrementalAuthority
  rcases h with h | ⟨⟨a, ha⟩, ⟨b, hb⟩, h⟩
  · rw [if_pos h]
  · split
    · rfl
    · rw [hb]
      simp only [hsite, ha]
      split
      · rfl
      · apply checkChangeAuthority_succeeds
        intro r hr
        obtain ⟨b', h1, h2⟩ := h r hr
        rw [hb] at h1
        cases h1
        exact h2

/-- a selected change is the last one of its URI -/
theorem selected_last {raw : List Resource} {t0 : Rat} {v : Str} {r : Resource}
    (hr : r ∈ (pruneDupes (raw.filter (fun r => (entryTime v r).any (t0 ≤ ·)))).1) : LastChange raw v t0 r := by
  obtain ⟨pre, post, e1, e2⟩ := (C25_at_most_one_per_uri _).2 r hr
  obtain ⟨pre', post', f1, f2, f3⟩ := last_filter e1
  refine ⟨pre', post', f1, (any_iff_atOrAfter _ _ _).mp f2, ?_⟩
  intro x hx hu ha
  exact e2 x (by rw [f3]; exact List.mem_filter.mpr ⟨hx, (any_iff_atOrAfter _ _ _).mpr ha⟩) hu

/-- if some entry for a URI is selected there is a last one -/
theorem exists_last {raw : List Resource} {t0 : Rat} {v : Str} {x : Resource} (hx : x ∈ raw) (ha : AtOrAfter v t0 x) :
    ∃ r, r.uri = x.uri ∧ LastChange raw v t0 r := by
  induction raw with
  | nil => cases hx
  | cons a l ih =>
    by_cases hl : ∃ y ∈ l, y.uri = x.uri ∧ AtOrAfter v t0 y
    · have : ∃ r, r.uri = x.uri ∧ LastChange l v t0 r := by
        clear ih hx
        induction l with
        | nil => obtain ⟨y, hy, -⟩ := hl; cases hy
        | cons b l ih =>
          by_cases hl2 : ∃ y ∈ l, y.uri = x.uri ∧ AtOrAfter v t0 y
          · obtain ⟨r, h0, bf, af, h1, h2, h3⟩ := ih hl2
            exact ⟨r, h0, b :: bf, af, by rw [h1]; rfl, h2, h3⟩
          · obtain ⟨y, hy, h1, h2⟩ := hl
            rcases List.mem_cons.mp hy with rfl | hy
            · refine ⟨y, h1, [], l, rfl, h2, ?_⟩
              intro z hz hzu hza
              exact hl2 ⟨z, hz, hzu.trans h1, hza⟩
            · exact absurd ⟨y, hy, h1, h2⟩ hl2
      obtain ⟨r, h0, bf, af, h1, h2, h3⟩ := this
      exact ⟨r, h0, a :: bf, af, by rw [h1]; rfl, h2, h3⟩
    · rcases List.mem_cons.mp hx with rfl | hx
      · refine ⟨x, rfl, [], l, rfl, ha, ?_⟩
        intro z hz hzu hza
        exact hl ⟨z, hz, hzu, hza⟩
      · exact absurd ⟨x, hx, rfl, ha⟩ hl

theorem lastChange_mem {raw : List Resource} {t0 : Rat} {v : Str} {r : Resource} (h : LastChange raw v t0 r) : r ∈ raw ∧ AtOrAfter v t0 r := by
  obtain ⟨b, a, e, h1, -⟩ := h
  exact ⟨by rw [e]; simp, h1⟩

/-- a last change which is not selected is a deletion of something created first -/
theorem last_not_selected {raw : List Resource} {t0 : Rat} {v : Str} {r : Resource} (h : LastChange raw v t0 r)
    (hn : r ∉ (pruneDupes (raw.filter (fun r => (entryTime v r).any (t0 ≤ ·)))).1) :
    r.change = some sDeleted ∧ ∃ x, FirstChange raw v t0 x ∧ x.uri = r.uri ∧ x.change = some sCreated := by
  obtain ⟨before, after, e, ha, hlast⟩ := h
  have hsplit : raw.filter (fun r => (entryTime v r).any (t0 ≤ ·)) = before.filter (fun r => (entryTime v r).any (t0 ≤ ·)) ++
      r :: after.filter (fun r => (entryTime v r).any (t0 ≤ ·)) := by
    rw [e, List.filter_append, List.filter_cons, if_pos ((any_iff_atOrAfter _ _ _).mpr ha)]
  have hk : r ∈ keepLast (raw.filter (fun r => (entryTime v r).any (t0 ≤ ·))) := by
    refine keepLast_last hsplit ?_
    intro x hx hu
    obtain ⟨h1, h2⟩ := List.mem_filter.mp hx
    exact hlast x h1 hu ((any_iff_atOrAfter _ _ _).mp h2)
  rw [C25_prune_dupes] at hn
  unfold prunedSpec at hn
  rw [List.mem_filter] at hn
  simp only [hk, true_and, Bool.not_eq_true', Bool.not_eq_false, Bool.and_eq_true, decide_eq_true_eq] at hn
  obtain ⟨h1, h2⟩ := hn
  refine ⟨h1, ?_⟩
  cases hf : (raw.filter (fun r => (entryTime v r).any (t0 ≤ ·))).find? (fun x => x.uri = r.uri) with
  | none => rw [hf] at h2; simp at h2
  | some x =>
    rw [hf] at h2
    obtain ⟨h3, h4⟩ := find_first hf
    exact ⟨x, h3, h4, Option.some.inj h2⟩

/-- deleting a file leaves room -/
theorem freeFor_delete {env : Env} {c : ClientCfg} {allow : Bool} {s : St} {r : Resource} {fn : Str} {places : Loc → Prop}
    (h : FreeFor places s.world.fs) : FreeFor places (deleteResource env c allow s r fn).1.world.fs := by
  have key : ∀ l, (deleteResource env c allow s r fn).1.world.fs.get l = s.world.fs.get l ∨
      (deleteResource env c allow s r fn).1.world.fs.get l = none := by
    intro l
    unfold deleteResource
    simp only
    split
    · left; rw [St.seen_world]
    · split
      · left; rw [St.seen_world]
      · split
        · rename_i b m hg
          split
          · left; rw [St.seen_world]
          · rw [St.seen_world] at hg
            have hne : location env.cwd fn ≠ [] := by
              intro e
              rw [e, get_root] at hg
              cases hg
            simp only [St.emit, World.apply, Effect.onFs, St.seen_world]
            by_cases hl : l = location env.cwd fn
            · subst hl
              right
              exact get_del_self _ _ hne
            · left
              exact get_del_other _ _ _ hl
        · left; rw [St.seen_world]
  refine ⟨h.apart, ?_, ?_⟩
  · intro l hl
    rcases key l with e | e <;> rw [e]
    · exact h.noDir l hl
    · simp
  · rintro l hl p hp hne ⟨b, m, hf⟩
    unfold IsFile at hf
    rcases key p with e | e <;> rw [e] at hf
    · exact h.noFile l hl p hp hne ⟨b, m, hf⟩
    · cases hf

variable {env : Env} {c : ClientCfg} {uri fd : Option Str} {s : St} {site : Str} {changes : List Resource} {O N : Snapshot}
  {sites : List (Map × Loc)} {places : Loc → Prop} {t0 : Rat}

/-- the changes selected from a list -/
def selectedFrom (v : Str) (t0 : Rat) (changes : List Resource) : List Resource :=
  (pruneDupes (changes.filter (fun r => (entryTime v r).any (t0 ≤ ·)))).1

/-- the plan is made -/
theorem plan_succeeds (hu : SetUp c site) (hm : c.disc.mapper ≠ []) (hsur : Surroundings env c uri site changes N) (hh : s.hashes = [])
    (hstart : startTime env c fd s = .ok t0) (htimes : ∀ r ∈ changes, changeTime c.spec_version r ≠ none)
    (hrec : Records O N changes c.spec_version t0) (ht0 : InYears t0) :
    ∃ last, checkTimes changes 0 = .ok last ∧
      incrementalPlan env c uri fd s = ({ s with last_timestamp := last }, .ok (selectedFrom c.spec_version t0 changes)) := by
  obtain ⟨clUri, l1, l2, l3⟩ := hsur.list
  obtain ⟨last, hlast⟩ := checkTimes_ok (rs := changes) (last := 0) (by
    intro r hr
    have := htimes r hr
    unfold changeTime at this
    split at this
    · exact .inr this
    · exact .inl this)
  refine ⟨last, hlast, ?_⟩
  have hprune := (C26_prune_updates_before changes t0 c.spec_version).1 (by
    intro r hr
    have h := htimes r hr
    have e : entryTime c.spec_version r = changeTime c.spec_version r := rfl
    rw [e]
    exact Option.isSome_iff_ne_none.mpr h)
  unfold incrementalPlan
  rw [if_neg hm, hu.safe]
  simp only [hstart, l1, l2]
  rw [if_neg (by simp [hh]), hlast]
  simp only [l3.ok hu.source, hprune, logTime_of_years ht0, ite_self]
  rw [if_neg]
  · rfl
  · intro ha
    rw [List.any_eq_true] at ha
    obtain ⟨r, hr, hn⟩ := ha
    have hl := hrec.last r (selected_last hr)
    simp only [decide_eq_true_eq] at hn
    rcases hl with ⟨h | h, -⟩ | ⟨h, -⟩
    · exact hn (.inr (.inl h))
    · exact hn (.inl h)
    · exact hn (.inr (.inr h))

/-- the changes are applied -/
theorem apply_succeeds (hu : SetUp c site) (hsur : Surroundings env c uri site changes N) (hsites : Sites c env.cwd sites s.world.fs)
    (hroom : FreeFor places s.world.fs) (hrec : Records O N changes c.spec_version t0)
    (hbelow : ∀ r ∈ changes, AtOrAfter c.spec_version t0 r → BelowSites sites r.uri) (hplaces : ∀ l, PlaceOf sites N l → places l)
    (rs : List Resource) (hrs : ∀ r ∈ rs, LastChange changes c.spec_version t0 r) :
    ∃ s', forEach (applyOne env c true) rs s = (s', .ok ()) ∧ FreeFor places s'.world.fs ∧ s'.world.state = s.world.state ∧
      Tidy s'.world.fs := by
  refine forEach_succeeds (fun x => FreeFor places x.world.fs ∧ x.world.state = s.world.state ∧ Tidy x.world.fs) rs ?_ s
    ⟨hroom, rfl, hsites.tidy⟩
  rintro r hr x ⟨i1, i2, i3⟩
  have hl := hrs r hr
  obtain ⟨m1, m2⟩ := lastChange_mem hl
  obtain ⟨p, hp, names, h1, h2, h3⟩ := hbelow r m1 m2
  obtain ⟨fn, f1, f2, f3⟩ := hsites.maps_dir hp h1 h2
  obtain ⟨fn', g1, g2, -⟩ := hsites.maps hp h1 h2
  rw [f1] at g1
  cases g1
  unfold applyOne
  rw [h3, f1]
  simp only
  rcases hrec.last r hl with ⟨hch, content, t, hN, -⟩ | ⟨hch, -⟩
  · rw [if_pos (show r.change = some sUpdated ∨ r.change = some sCreated from Or.symm hch)]
    rw [h3] at hN
    have hin : places (p.2 ++ names) := hplaces _ ⟨p, hp, names, h1, h2, rfl, by rw [hN]; simp⟩
    obtain ⟨x', n, u1, u2, u3⟩ := updateResource_succeeds (r := r) ⟨by rw [h3]; exact (hsur.server _ _ _ hN).1, hsur.disk.mkdir, hsur.disk.openW⟩
      hu.real f2 f3 hin i1
    have ht := tidy_updateResource env c x r fn hsites.cwdNames g2 i3
    rw [u1] at ht ⊢
    exact ⟨x', rfl, u2, u3.trans i2, ht⟩
  · rw [if_neg (by rw [hch]; decide), if_pos (show r.change = some sDeleted from hch)]
    exact ⟨_, rfl, freeFor_delete i1, (deleteResource_state ..).trans i2, tidy_deleteResource env c true x r fn i3⟩

/-- the run succeeds, with room left for the next one -/
theorem run_succeeds (hft : FloatOk env.ft) (hu : SetUp c site) (hsur : Surroundings env c uri site changes N) (hh : s.hashes = [])
    (hstart : startTime env c fd s = .ok t0) (htimes : ∀ r ∈ changes, changeTime c.spec_version r ≠ none)
    (hsites : Sites c env.cwd sites s.world.fs)
    (hroom : FreeFor places s.world.fs) (hrec : Records O N changes c.spec_version t0)
    (hbelow : ∀ r ∈ changes, AtOrAfter c.spec_version t0 r → BelowSites sites r.uri) (hplaces : ∀ l, PlaceOf sites N l → places l)
    (hstate : OwnState env.ft s.world.state) (ht0 : InYears t0) (hyears : TimesBefore10000 changes) :
    (incremental env c true uri fd s).2 = .ok () ∧ FreeFor places (incremental env c true uri fd s).1.world.fs ∧
      Tidy (incremental env c true uri fd s).1.world.fs ∧ OwnState env.ft (incremental env c true uri fd s).1.world.state ∧
      (selectedFrom c.spec_version t0 changes = [] → (incremental env c true uri fd s).1.world = s.world) ∧
      (selectedFrom c.spec_version t0 changes ≠ [] → (∃ x ∈ changes, ∃ d, listedTime x = some d ∧ 0 < d) →
        (∀ r ∈ changes, ∀ t d, r.timestamp = some t → r.ts_datetime = some d → t ≤ d) →
        ∃ t, startTime env c none (incremental env c true uri fd s).1 = .ok t ∧ (∃ r ∈ changes, listedTime r = some t) ∧
          ∀ r ∈ changes, ∀ x, listedTime r = some x → x ≤ t) := by
  have hm : c.disc.mapper ≠ [] := by
    rw [hsites.mapper]
    simpa using hsites.nonempty
  obtain ⟨last, hlast, hplan⟩ := plan_succeeds hu hm hsur hh hstart htimes hrec ht0
  unfold incremental
  rw [hplan]
  simp only
  split
  · rename_i hz
    refine ⟨rfl, hroom, hsites.tidy, hstate, fun _ => rfl, ?_⟩
    intro hne
    rcases hz with hz | ⟨-, hz⟩
    · exact absurd hz hne
    · exact absurd trivial hz
  · rename_i hz
    have hne : selectedFrom c.spec_version t0 changes ≠ [] := fun h => hz (.inl h)
    obtain ⟨s', a1, a2, a3, a4⟩ := apply_succeeds (s := { s with last_timestamp := last }) hu hsur hsites hroom hrec hbelow hplaces
      (selectedFrom c.spec_version t0 changes) (fun r hr => selected_last hr)
    have hlt := forEach_last (f := applyOne env c true) (selectedFrom c.spec_version t0 changes) (fun r _ s => applyOne_last env c true s r)
      { s with last_timestamp := last }
    rw [a1] at hlt
    obtain ⟨m1, m2, m3⟩ := checkTimes_max hlast
    rw [a1]
    simp only
    split
    · rename_i hpos
      have hbef : Before10000 s'.last_timestamp := by
        rcases hlt.1 with e | ⟨r, hr, ht⟩
        · have e : s'.last_timestamp = last := e
          rw [e]
          rcases m1 with e | ⟨r, hr, h⟩
          · rw [e]; unfold Before10000; norm_num
          · rcases h with h | ⟨-, h⟩
            · exact hyears r hr _ (.inr h)
            · exact hyears r hr _ (.inl h)
        · exact hyears r (lastChange_mem (selected_last hr)).1 _ (.inl ht)
      unfold storeState
      rw [hu.source, a3]
      simp only
      obtain ⟨f', h1, h2⟩ : ∃ f', setState env.ft s.world.state site (some s'.last_timestamp) = .ok f' ∧
          getState env.ft f' site = .ok (some s'.last_timestamp) := by
        obtain ⟨ops, o1, o2⟩ := hstate
        obtain ⟨f', h1, h2, -⟩ := C43_read_back env.ft hft ops o1 s.world.state o2 site hu.named (some s'.last_timestamp)
        exact ⟨f', h1, h2⟩
      have hown := OwnState_set hstate hu.named h1
      rw [h1]
      cases f' with
      | none =>
        have : getState env.ft none site = .ok none := rfl
        rw [this] at h2
        cases h2
      | some text =>
        refine ⟨logTime_positive hpos hbef, a2, a4, hown, fun h => absurd h hne, ?_⟩
        rintro - ⟨x, hx, d, hd, hd0⟩ hmod
        have hl : s'.last_timestamp = last := by
          rcases hlt.1 with e | ⟨r, hr, ht⟩
          · exact e
          · have hr' := (lastChange_mem (selected_last hr)).1
            apply le_antisymm
            · cases hdt : r.ts_datetime with
              | none => exact m3 r hr' _ (.inr ⟨hdt, ht⟩)
              | some d => exact le_trans (hmod r hr' _ d ht hdt) (m3 r hr' d (.inl hdt))
            · exact hlt.2
        refine ⟨last, ?_, ?_, fun r hr y hy => m3 r hr y ((listedTime_iff r y).mp hy)⟩
        · unfold startTime
          simp only [hu.source]
          have : getState env.ft (s'.emit (.setState text)).world.state site = .ok (some s'.last_timestamp) := h2
          rw [this, hl]
        · rcases m1 with e | ⟨r, hr, h⟩
          · have := m3 x hx d ((listedTime_iff x d).mp hd)
            rw [e] at this
            exact absurd hd0 (not_lt.mpr this)
          · exact ⟨r, hr, (listedTime_iff r last).mpr h⟩
    · rename_i hpos
      refine ⟨rfl, a2, a4, by rw [a3]; exact hstate, fun h => absurd h hne, ?_⟩
      rintro - ⟨x, hx, d, hd, hd0⟩ -
      exact absurd (lt_of_lt_of_le hd0 (le_trans (m3 x hx d ((listedTime_iff x d).mp hd)) hlt.2)) hpos

/-- there is only one last change of a URI -/
theorem lastChange_unique {raw : List Resource} {t0 : Rat} {v : Str} {x y : Resource} (hx : LastChange raw v t0 x) (hy : LastChange raw v t0 y)
    (hu : x.uri = y.uri) : x = y := by
  obtain ⟨b1, a1, e1, h1, n1⟩ := hx
  obtain ⟨b2, a2, e2, h2, n2⟩ := hy
  rw [e1] at e2
  rcases List.append_eq_append_iff.mp e2 with ⟨k, k1, k2⟩ | ⟨k, k1, k2⟩
  · cases k with
    | nil => simpa using (List.cons.inj k2).1
    | cons z k =>
      simp only [List.cons_append, List.cons.injEq] at k2
      exact absurd h2 (n1 y (by rw [k2.2]; simp) hu.symm)
  · cases k with
    | nil => simpa using (List.cons.inj k2).1.symm
    | cons z k =>
      simp only [List.cons_append, List.cons.injEq] at k2
      exact absurd h1 (n2 x (by rw [k2.2]; simp) hu)

/-- no file comes into being where only deletions are selected -/
theorem no_new_file {l : Loc} (hno : ¬ HasFile s.world.fs l)
    (hl : ∀ changes t0 r, ChangesRead env c uri changes → startTime env c fd s = .ok t0 → LastChange changes c.spec_version t0 r →
      MapsTo c env.cwd r.uri l → ¬ (r.change = some sUpdated ∨ r.change = some sCreated)) :
    ¬ HasFile (incremental env c true uri fd s).1.world.fs l := by
  refine moment_inv (incremental_did env c true uri fd s) (fun w => ¬ HasFile w.fs l) hno ?_ _ (incremental_did env c true uri fd s).final
  rintro w e ⟨s1, cl, t0, clUri, raw, kept, last, hpl, h⟩ hw
  by_cases hat : (∃ d, e = .trunc l d) ∨ (∃ b, e = .append l b) ∨ (∃ t, e = .utime l t) ∨ e = .unlink l
  · rcases h with h | ⟨t, rfl⟩
    · rcases syncEff_at h hat with ⟨r, hr, hm, _⟩ | ⟨r, hr, hm, he⟩
      · obtain ⟨h1, h2⟩ := List.mem_filter.mp hr
        exact absurd (by simpa using h2) (hl raw t0 r ⟨clUri, hpl.listUri, hpl.read⟩ hpl.start (planned_last hpl h1) hm)
      · obtain ⟨rfl, -⟩ := he
        rintro ⟨b, m, hf⟩
        have hf : (w.fs.del l).get l = some (.file b m) := hf
        by_cases hne : l = []
        · rw [hne, get_root] at hf
          cases hf
        · rw [get_del_self _ _ hne] at hf
          cases hf
    · rcases hat with ⟨_, h⟩ | ⟨_, h⟩ | ⟨_, h⟩ | h <;> cases h
  · simp only [not_or, not_exists] at hat
    rintro ⟨b, m, hf⟩
    exact hw ⟨b, m, (onFs_other hat.1 hat.2.1 hat.2.2.1 hat.2.2.2).mp hf⟩

/-- an incremental sync makes a copy of the new state, if what there is fits the old one wherever nothing has changed, and there are no
files where resources have come and gone -/
theorem run_copies_from (hft : FloatOk env.ft) (hu : SetUp c site) (hsur : Surroundings env c uri site changes N) (hh : s.hashes = [])
    (hstart : startTime env c fd s = .ok t0) (htimes : ∀ r ∈ changes, changeTime c.spec_version r ≠ none)
    (hsites : Sites c env.cwd sites s.world.fs) (hroom : FreeFor places s.world.fs) (hstate : OwnState env.ft s.world.state)
    (hcopy : ∀ p ∈ sites, ∀ names, names ≠ [] → (∀ n ∈ names, PlainName n) →
      (∀ r, LastChange changes c.spec_version t0 r → r.uri ≠ uriBelow p.1 names) → ∀ content mtime,
      IsFile s.world.fs (p.2 ++ names) content mtime ↔ ∃ t, O (uriBelow p.1 names) = some (content, t) ∧ mtime = truncRat t)
    (hfresh : ∀ p ∈ sites, ∀ names, names ≠ [] → (∀ n ∈ names, PlainName n) → ∀ x r, FirstChange changes c.spec_version t0 x →
      LastChange changes c.spec_version t0 r → x.uri = uriBelow p.1 names → r.uri = uriBelow p.1 names →
      x.change = some sCreated → r.change = some sDeleted → ¬ HasFile s.world.fs (p.2 ++ names))
    (hrec : Records O N changes c.spec_version t0)
    (hbelow : ∀ r ∈ changes, AtOrAfter c.spec_version t0 r → BelowSites sites r.uri) (hplaces : ∀ l, PlaceOf sites N l → places l)
    (ht0 : InYears t0) (hyears : TimesBefore10000 changes) :
    Stands env.ft env.cwd c sites places (incremental env c true uri fd s).1.world N := by
  obtain ⟨r1, r2, r3, r4, -, -⟩ := run_succeeds hft hu hsur hh hstart htimes hsites hroom hrec hbelow hplaces hstate ht0 hyears
  obtain ⟨clUri, l1, l2, -⟩ := hsur.list
  have hread : ChangesRead env c uri changes := ⟨clUri, l1, l2⟩
  have hread' : ∀ ch, ChangesRead env c uri ch → ch = changes := by
    rintro ch ⟨u, h1, h2⟩
    rw [l1] at h1
    cases h1
    rw [l2] at h2
    cases h2
    rfl
  have hfinal : AtSomeMoment s (incremental env c true uri fd s).1 (incremental env c true uri fd s).1.world :=
    (incremental_did env c true uri fd s).final
  -- the place of a change
  have hat : ∀ r, LastChange changes c.spec_version t0 r → ∀ p ∈ sites, ∀ names, MapsTo c env.cwd r.uri (p.2 ++ names) →
      r.uri = uriBelow p.1 names ∧ names ≠ [] := by
    intro r hr p hp names hm
    obtain ⟨m1, m2⟩ := lastChange_mem hr
    obtain ⟨q, hq, ns, h1, h2, h3⟩ := hbelow r m1 m2
    rw [h3, hsites.mapsTo hq h1 h2] at hm
    obtain ⟨rfl, rfl⟩ := hsites.loc_inj hp hq hm
    exact ⟨h3, h1⟩
  have huntouched : ∀ p ∈ sites, ∀ names, (names ≠ [] → ∀ r, LastChange changes c.spec_version t0 r → r.uri ≠ uriBelow p.1 names) →
      ∀ b m, IsFile (incremental env c true uri fd s).1.world.fs (p.2 ++ names) b m ↔ IsFile s.world.fs (p.2 ++ names) b m := by
    intro p hp names hno b m
    refine C49_incremental env c true uri fd s (p.2 ++ names) ?_ _ hfinal b m
    intro ch t r h1 h2 h3 h4
    rw [hread' ch h1] at h3
    rw [hstart] at h2
    cases h2
    obtain ⟨e1, e2⟩ := hat r h3 p hp names h4
    exact hno e2 r h3 e1
  refine ⟨?_, r2, ?_, r4⟩
  · refine ⟨hsites.mapper, hsites.nonempty, hsites.src, hsites.dst, hsites.place, hsites.apart, r3.proper, r3.names, hsites.cwdNames, ?_⟩
    rintro p hp ⟨b, m, hf⟩
    refine hsites.notFile p hp ⟨b, m, ?_⟩
    have := huntouched p hp [] (fun h => absurd rfl h) b m
    simpa using this.mp (by simpa using hf)
  · intro p hp names hne hn content mtime
    by_cases hex : ∃ r, LastChange changes c.spec_version t0 r ∧ r.uri = uriBelow p.1 names
    · obtain ⟨r, hr, hru⟩ := hex
      have hmt : ∀ l, MapsTo c env.cwd r.uri l ↔ l = p.2 ++ names := by
        intro l
        rw [hru]
        exact hsites.mapsTo hp hne hn
      obtain ⟨-, c1, c2⟩ := C54_partial env c true uri fd s hu.real hu.strict hu.tries hsur.disk.unlink r1 changes hread t0 hstart (by
        intro a b l ha hb hma hmb
        obtain ⟨m1, m2⟩ := lastChange_mem ha
        obtain ⟨q, hq, ns, h1, h2, h3⟩ := hbelow a m1 m2
        have e := hma
        rw [h3, hsites.mapsTo hq h1 h2] at e
        subst e
        rw [h3, (hat b hb q hq ns hmb).1]) r hr
      rcases hrec.last r hr with ⟨hch, content', t, hN, ht⟩ | ⟨hch, hN⟩
      · obtain ⟨l, hl, b, m, hserved, hfile, hm⟩ := c1 hch
        rw [hmt] at hl
        subst hl
        have hb : b = content' := by
          obtain ⟨pre, -, hs⟩ := hserved
          exact (hsur.server _ _ _ hN).2 _ _ hs
        rw [← hru, hN]
        constructor
        · intro h
          unfold IsFile at h hfile
          rw [hfile] at h
          cases h
          exact ⟨t, by rw [hb], hm t ht⟩
        · rintro ⟨t', h1, h2⟩
          cases h1
          rw [h2, ← hm t ht, ← hb]
          exact hfile
      · have hgone : ¬ HasFile (incremental env c true uri fd s).1.world.fs (p.2 ++ names) := by
          by_cases hfirst : ∃ x, FirstChange changes c.spec_version t0 x ∧ x.uri = r.uri ∧ x.change = some sCreated
          · obtain ⟨x, x1, x2, x3⟩ := hfirst
            refine no_new_file (hfresh p hp names hne hn x r x1 hr (x2.trans hru) hru x3 hch) ?_
            · intro ch t y h1 h2 h3 h4
              rw [hread' ch h1] at h3
              rw [hstart] at h2
              cases h2
              have hyr : y = r := lastChange_unique h3 hr ((hat y h3 p hp names h4).1.trans hru.symm)
              rw [hyr, hch]
              decide
          · obtain ⟨l, hl, hno⟩ := c2 hch rfl (fun x h1 h2 h3 => hfirst ⟨x, h1, h2, h3⟩)
            rw [hmt] at hl
            subst hl
            exact hno
        rw [← hru, hN]
        constructor
        · intro h
          exact absurd ⟨_, _, h⟩ hgone
        · rintro ⟨t', h1, -⟩
          cases h1
    · rw [huntouched p hp names (fun _ r h1 h2 => hex ⟨r, h1, h2⟩) content mtime,
        hcopy p hp names hne hn (fun r h1 h2 => hex ⟨r, h1, h2⟩) content mtime]
      rw [hrec.unchanged (uriBelow p.1 names)]
      intro r hr hru ha
      obtain ⟨r', e1, e2⟩ := exists_last hr ha
      exact hex ⟨r', e2, e1.trans hru⟩

/-- an incremental sync takes a copy of the old state to a copy of the new one -/
theorem run_copies (hft : FloatOk env.ft) (hu : SetUp c site) (hsur : Surroundings env c uri site changes N) (hh : s.hashes = [])
    (hstart : startTime env c fd s = .ok t0) (htimes : ∀ r ∈ changes, changeTime c.spec_version r ≠ none)
    (hst : Stands env.ft env.cwd c sites places s.world O) (hrec : Records O N changes c.spec_version t0)
    (hbelow : ∀ r ∈ changes, AtOrAfter c.spec_version t0 r → BelowSites sites r.uri) (hplaces : ∀ l, PlaceOf sites N l → places l)
    (ht0 : InYears t0) (hyears : TimesBefore10000 changes) :
    Stands env.ft env.cwd c sites places (incremental env c true uri fd s).1.world N := by
  refine run_copies_from hft hu hsur hh hstart htimes hst.mapped hst.room hst.state
    (fun p hp names hne hn _ content mtime => hst.copy p hp names hne hn content mtime) ?_ hrec hbelow hplaces ht0 hyears
  rintro p hp names hne hn x r hx hr hxu hru h1 h2 ⟨b, m, hf⟩
  obtain ⟨t, h3, -⟩ := (hst.copy p hp names hne hn b m).mp hf
  rw [← hxu, hrec.fresh x r hx hr (hxu.trans hru.symm) h1 h2] at h3
  cases h3

end Resync
