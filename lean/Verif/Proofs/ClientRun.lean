import Verif.Proofs.Client
import Verif.Proofs.Scan
import Verif.Proofs.ReadWF
import Verif.Props.ChangeList
/- What the plan of a run consists of, and what effects do to files. -/

namespace Resync
open Py Resync.Spec

theorem listsKeyed_WF {s : Sources} (h : ListsKeyed s) {u : Str} {d : Dict Resource} (hd : s.resourceList u = some d) : WF d := by
  obtain ⟨h1, h2⟩ := h u d hd
  exact ⟨h1, fun k r hk => h2 k r (mem_of_dget hk)⟩

theorem tryEach_ok {attempt : Str → Found (Dict Resource)} {after : Found (Dict Resource)} {d : Dict Resource} :
    ∀ {us : List Str}, (tryEach attempt us after).2 = .ok d → (∃ u, (attempt u).2 = .ok d) ∨ after.2 = .ok d := by
  intro us
  induction us with
  | nil => intro h; exact .inr h
  | cons u us ih =>
    intro h
    unfold tryEach at h
    simp only at h
    split at h
    · exact ih h
    · exact .inl ⟨u, h⟩

theorem readResourceList_ok {s : Sources} {u : Str} {d : Dict Resource} (h : (readResourceList s u).2 = .ok d) :
    ∃ u, s.resourceList u = some d := by
  unfold readResourceList at h
  split at h
  · rename_i d' hd
    simp only [Except.ok.injEq] at h
    exact ⟨u, by rw [hd, h]⟩
  · simp at h

theorem thenRead_ok {s : Sources} {f : Found Str} {d : Dict Resource} (h : (thenRead s f).2 = .ok d) :
    ∃ u, s.resourceList u = some d := by
  unfold thenRead at h
  split at h
  · simp at h
  · exact readResourceList_ok h

/-- what is found is a list that has been read -/
theorem findResourceList_ok {s : Sources} {c : DiscCfg} {d : Dict Resource} (h : (findResourceList s c).2 = .ok d) :
    ∃ u, s.resourceList u = some d := by
  unfold findResourceList at h
  split at h
  · exact readResourceList_ok h
  · split at h
    · exact thenRead_ok h
    · split at h
      · simp at h
      · split at h
        · simp at h
        · simp only at h
          split at h
          · rcases tryEach_ok h with ⟨u, h⟩ | h
            · exact thenRead_ok h
            · split at h
              · rcases tryEach_ok h with ⟨u, h⟩ | h
                · exact readResourceList_ok h
                · simp at h
              · simp at h
          · simp at h

theorem found_WF {env : Env} {c : ClientCfg} (hk : ListsKeyed env.sources) {src : Dict Resource}
    (h : (findResourceList env.sources c.disc).2 = .ok src) : WF src := by
  obtain ⟨u, hu⟩ := findResourceList_ok h
  exact listsKeyed_WF hk hu

theorem listsKeyed_ofDocs (docAt : Str → Option Elem) (m : Mapper) (am : Bool) (uw : Char → Bool) :
    ListsKeyed (Sources.ofDocs docAt m am uw) := by
  intro u d h
  have hw := ofDocs_list_WF h
  exact ⟨hw.1, fun k r hk => hw.2 k r (dget_of_mem hw.1 hk)⟩

theorem newBuilder_mapper (m : Mapper) (hs : Option (List Str)) (a b : Bool) : (Builder.new m hs a b).mapper = m := rfl

/-- The comparison, in terms of the two lists -/
structure Compared (dst src : Dict Resource) (cmp : Comparison) : Prop where
  same : ∀ u r, dget cmp.same u = some r ↔ dget dst u = some r ∧ ∃ b, dget src u = some b ∧ r.eq (some b) = true
  updated : ∀ u r, dget cmp.updated u = some r ↔ dget src u = some r ∧ ∃ a, dget dst u = some a ∧ a.eq (some r) = false
  deleted : ∀ u r, dget cmp.deleted u = some r ↔ dget dst u = some r ∧ dget src u = none
  created : ∀ u r, dget cmp.created u = some r ↔ dget src u = some r ∧ dget dst u = none
  wf : AllWF cmp

theorem not_listed {d : Dict Resource} (hd : WF d) (u : Str) : (∀ b ∈ listing d, b.uri ≠ u) ↔ dget d u = none := by
  constructor
  · intro h
    cases e : dget d u with
    | none => rfl
    | some r =>
      have hu := hd.2 u r e
      exact absurd hu (h r ((mem_listing hd).mpr (by rw [hu]; exact e)))
  · intro h b hb e
    have := (mem_listing hd).mp hb
    rw [e, h] at this
    cases this

theorem listed_iff {d : Dict Resource} (hd : WF d) (u : Str) (r : Resource) : (r ∈ listing d ∧ r.uri = u) ↔ dget d u = some r := by
  constructor
  · rintro ⟨h, rfl⟩; exact (mem_listing hd).mp h
  · intro h
    have := hd.2 u r h
    exact ⟨(mem_listing hd).mpr (by rw [this]; exact h), this⟩

theorem compared {dst src : Dict Resource} (hd : WF dst) (hs : WF src) {h' : Heap} {cmp : Comparison}
    (h : compare (pairHeap dst src) 0 1 = .ok (h', cmp)) : Compared dst src cmp := by
  obtain ⟨h2, c2, e1, e2, e3, e4⟩ := compare_spec (pairHeap dst src) 0 1 (by decide) hd hs
  rw [h] at e1
  cases e1
  have ed : (pairHeap dst src 0).dict = dst := rfl
  have es : (pairHeap dst src 1).dict = src := rfl
  rw [ed, es] at e3
  have hnil : ∀ u : Str, dget ([] : Dict Resource) u = none := fun u => rfl
  refine ⟨?_, ?_, ?_, ?_, e4⟩
  · intro u r
    rw [e3.same u r]
    simp only [hnil, reduceCtorEq, false_or]
    constructor
    · rintro ⟨a, b, x, hx, hxu, heq⟩
      exact ⟨(listed_iff hd u r).mp ⟨a, b⟩, x, (listed_iff hs u x).mp ⟨hx, hxu⟩, heq⟩
    · rintro ⟨a, x, hx, heq⟩
      obtain ⟨a1, a2⟩ := (listed_iff hd u r).mpr a
      obtain ⟨b1, b2⟩ := (listed_iff hs u x).mpr hx
      exact ⟨a1, a2, x, b1, b2, heq⟩
  · intro u r
    rw [e3.updated u r]
    simp only [hnil, reduceCtorEq, false_or]
    constructor
    · rintro ⟨a, b, x, hx, hxu, heq⟩
      exact ⟨(listed_iff hs u r).mp ⟨a, b⟩, x, (listed_iff hd u x).mp ⟨hx, hxu⟩, heq⟩
    · rintro ⟨a, x, hx, heq⟩
      obtain ⟨a1, a2⟩ := (listed_iff hs u r).mpr a
      obtain ⟨b1, b2⟩ := (listed_iff hd u x).mpr hx
      exact ⟨a1, a2, x, b1, b2, heq⟩
  · intro u r
    rw [e3.deleted u r, ← not_listed hs, ← listed_iff hd]
    simp only [hnil, reduceCtorEq, false_or, and_assoc]
  · intro u r
    rw [e3.created u r, ← not_listed hd, ← listed_iff hs]
    simp only [hnil, reduceCtorEq, false_or, and_assoc]

/-- What a successful plan says -/
structure PlanFacts (env : Env) (c : ClientCfg) (s : St) (src : Dict Resource) (cmp : Comparison) (dst : Dict Resource) : Prop where
  found : (findResourceList env.sources c.disc).2 = .ok src
  wf : WF src
  scanned : FoundIn (Builder.new c.disc.mapper (some (leftHashes s src)) true false) env.lib env.cwd s.world.fs dst
  cmp : Compared dst src cmp

theorem planFacts {env : Env} {c : ClientCfg} {a : Bool} {s s1 : St} {src dst : Dict Resource} {cmp : Comparison}
    (hk : ListsKeyed env.sources) (hfs : ProperFs s.world.fs) (h : Planned env c a s s1 src cmp dst) :
    PlanFacts env c s src cmp dst := by
  have hw := found_WF hk h.found
  have hd := fromDisk_found' hfs h.scan
  obtain ⟨h', hc⟩ := h.compared
  exact ⟨h.found, hw, hd, compared hd.1 hw hc⟩

theorem mem_iterList {d : Dict Resource} (hd : WF d) {r : Resource} : r ∈ iterList d ↔ dget d r.uri = some r := by
  rw [iterList_eq]; exact mem_listing hd

theorem plan_upd_source {env : Env} {c : ClientCfg} {s : St} {src dst : Dict Resource} {cmp : Comparison}
    (h : PlanFacts env c s src cmp dst) {r : Resource} (hr : r ∈ iterList cmp.created ++ iterList cmp.updated) :
    dget src r.uri = some r := by
  rcases List.mem_append.mp hr with h' | h'
  · exact ((h.cmp.created _ _).mp ((mem_iterList h.cmp.wf.created).mp h')).1
  · exact ((h.cmp.updated _ _).mp ((mem_iterList h.cmp.wf.updated).mp h')).1

theorem plan_del {env : Env} {c : ClientCfg} {s : St} {src dst : Dict Resource} {cmp : Comparison}
    (h : PlanFacts env c s src cmp dst) {r : Resource} (hr : r ∈ iterList cmp.deleted) :
    dget src r.uri = none ∧ ∃ path content mtime, c.disc.mapper.dstToSrc path = .ok r.uri ∧
      IsFile s.world.fs (location env.cwd path) content mtime ∧ r.timestamp = some mtime := by
  obtain ⟨h1, h2⟩ := (h.cmp.deleted _ _).mp ((mem_iterList h.cmp.wf.deleted).mp hr)
  obtain ⟨path, content, mtime, e1, e2, e3⟩ := h.scanned.2 _ _ h1
  refine ⟨h2, path, content, mtime, e1, e2, ?_⟩
  rw [e3]; rfl

/-! ### Effects on files -/

theorem onFs_other {e : Effect} {fs : Fs} {l : Loc} {c : Bytes} {m : Rat}
    (h : ∀ d, e ≠ .trunc l d) (h2 : ∀ b, e ≠ .append l b) (h3 : ∀ t, e ≠ .utime l t) (h4 : e ≠ .unlink l) :
    IsFile (e.onFs fs) l c m ↔ IsFile fs l c m := by
  unfold IsFile Effect.onFs
  cases e with
  | mkdir d =>
    simp only
    cases hg : fs.get d with
    | some x => rfl
    | none =>
      simp only
      by_cases e : l = d
      · subst e
        by_cases hl : l = []
        · subst hl; rw [get_root] at hg; cases hg
        · rw [get_set_self _ _ _ hl, hg]; simp
      · rw [get_set_other _ _ _ _ e]
  | get u => rfl
  | trunc k t => simp only; rw [get_set_other _ _ _ _ (fun e => h t (by rw [e]))]
  | append k b =>
    simp only
    split
    · rw [get_set_other _ _ _ _ (fun e => h2 b (by rw [e]))]
    · rfl
  | utime k t =>
    simp only
    split
    · rw [get_set_other _ _ _ _ (fun e => h3 t (by rw [e]))]
    · rfl
  | unlink k => simp only; rw [get_del_other _ _ _ (fun e => h4 (by rw [e]))]
  | setState t => rfl

theorem onFs_hasFile {e : Effect} {fs : Fs} {l : Loc} (h : e ≠ .unlink l) (hf : HasFile fs l) : HasFile (e.onFs fs) l := by
  have hl : l ≠ [] := by
    rintro rfl
    obtain ⟨c, m, hf⟩ := hf
    unfold IsFile at hf
    rw [get_root] at hf; cases hf
  obtain ⟨c, m, hf⟩ := hf
  unfold HasFile IsFile Effect.onFs at *
  cases e with
  | mkdir d =>
    simp only
    cases hg : fs.get d with
    | some x => exact ⟨c, m, hf⟩
    | none =>
      simp only
      have : l ≠ d := by rintro rfl; rw [hf] at hg; cases hg
      exact ⟨c, m, by rw [get_set_other _ _ _ _ this]; exact hf⟩
  | get u => exact ⟨c, m, hf⟩
  | trunc k t =>
    simp only
    by_cases e : l = k
    · subst e; exact ⟨[], t, get_set_self _ _ _ hl⟩
    · exact ⟨c, m, by rw [get_set_other _ _ _ _ e]; exact hf⟩
  | append k b =>
    simp only
    split
    · by_cases e : l = k
      · subst e; exact ⟨_, _, get_set_self _ _ _ hl⟩
      · exact ⟨c, m, by rw [get_set_other _ _ _ _ e]; exact hf⟩
    · exact ⟨c, m, hf⟩
  | utime k t =>
    simp only
    split
    · by_cases e : l = k
      · subst e; exact ⟨_, _, get_set_self _ _ _ hl⟩
      · exact ⟨c, m, by rw [get_set_other _ _ _ _ e]; exact hf⟩
    · exact ⟨c, m, hf⟩
  | unlink k =>
    simp only
    exact ⟨c, m, by rw [get_del_other _ _ _ (fun e => h (by rw [e]))]; exact hf⟩
  | setState t => exact ⟨c, m, hf⟩

/-- what a location must be the destination of, to be touched -/
theorem syncEff_at {env : Env} {c : ClientCfg} {allow : Bool} {upd del : List Resource} {e : Effect} {l : Loc}
    (h : SyncEff env c allow upd del e) (hl : (∃ d, e = .trunc l d) ∨ (∃ b, e = .append l b) ∨ (∃ t, e = .utime l t) ∨ e = .unlink l) :
    (∃ r ∈ upd, MapsTo c env.cwd r.uri l ∧ c.dryrun = false ∧ e ≠ .unlink l) ∨
    (∃ r ∈ del, MapsTo c env.cwd r.uri l ∧ e = .unlink l ∧ allow = true ∧ c.dryrun = false) := by
  rcases h with ⟨r, hr, fn, hm, hu⟩ | ⟨r, hr, fn, hm, rfl, hne, ha, hd⟩
  · left
    rcases hu with ⟨d, rfl, -⟩ | ⟨hd, hu⟩
    · rcases hl with ⟨_, h⟩ | ⟨_, h⟩ | ⟨_, h⟩ | h <;> cases h
    · have : l = location env.cwd fn ∧ e ≠ .unlink l := by
        rcases hu with (rfl | ⟨-, t, rfl⟩ | ⟨-, b, rfl⟩) | ⟨t, rfl⟩
        · rcases hl with ⟨_, h⟩ | ⟨_, h⟩ | ⟨_, h⟩ | h <;> cases h
        all_goals
          rcases hl with ⟨_, h⟩ | ⟨_, h⟩ | ⟨_, h⟩ | h
          all_goals first
            | (cases h; done)
            | (cases h; exact ⟨rfl, by simp⟩)
      exact ⟨r, hr, ⟨fn, hm, this.1⟩, hd, this.2⟩
  · right
    rcases hl with ⟨_, h⟩ | ⟨_, h⟩ | ⟨_, h⟩ | h
    · cases h
    · cases h
    · cases h
    · cases h
      exact ⟨r, hr, ⟨fn, hm, rfl⟩, rfl, ha, hd⟩

/-! ### The changes selected -/

theorem last_filter {raw : List Resource} {p : Resource → Bool} {r : Resource} {pre post : List Resource}
    (h : raw.filter p = pre ++ r :: post) : ∃ pre' post', raw = pre' ++ r :: post' ∧ p r = true ∧ post = post'.filter p := by
  induction raw generalizing pre with
  | nil => simp at h
  | cons a t ih =>
    rw [List.filter_cons] at h
    by_cases ha : p a = true
    · rw [if_pos ha] at h
      cases pre with
      | nil =>
        simp only [List.nil_append, List.cons.injEq] at h
        obtain ⟨rfl, rfl⟩ := h
        exact ⟨[], t, rfl, ha, rfl⟩
      | cons b pre =>
        simp only [List.cons_append, List.cons.injEq] at h
        obtain ⟨pre', post', e1, e2, e3⟩ := ih h.2
        exact ⟨a :: pre', post', by rw [e1]; rfl, e2, e3⟩
    · rw [if_neg ha] at h
      obtain ⟨pre', post', e1, e2, e3⟩ := ih h
      exact ⟨a :: pre', post', by rw [e1]; rfl, e2, e3⟩

theorem first_filter {raw : List Resource} {p : Resource → Bool} {r : Resource} {pre post : List Resource}
    (h : raw.filter p = pre ++ r :: post) : ∃ pre' post', raw = pre' ++ r :: post' ∧ p r = true ∧ pre = pre'.filter p := by
  induction raw generalizing pre with
  | nil => simp at h
  | cons a t ih =>
    rw [List.filter_cons] at h
    by_cases ha : p a = true
    · rw [if_pos ha] at h
      cases pre with
      | nil =>
        simp only [List.nil_append, List.cons.injEq] at h
        obtain ⟨rfl, rfl⟩ := h
        exact ⟨[], t, rfl, ha, rfl⟩
      | cons b pre =>
        simp only [List.cons_append, List.cons.injEq] at h
        obtain ⟨rfl, h⟩ := h
        obtain ⟨pre', post', e1, e2, e3⟩ := ih h
        exact ⟨a :: pre', post', by rw [e1]; rfl, e2, by rw [List.filter_cons, if_pos ha, e3]⟩
    · rw [if_neg ha] at h
      obtain ⟨pre', post', e1, e2, e3⟩ := ih h
      exact ⟨a :: pre', post', by rw [e1]; rfl, e2, by rw [List.filter_cons, if_neg ha, e3]⟩

theorem any_iff_atOrAfter (v : Str) (t0 : Rat) (r : Resource) : (entryTime v r).any (t0 ≤ ·) = true ↔ AtOrAfter v t0 r := by
  unfold AtOrAfter changeTime entryTime
  cases (if v = "1.0".toList then r.timestamp else r.ts_datetime : Option Rat) <;> simp

theorem pruned_eq {raw kept : List Resource} {t0 : Rat} {v : Str} {n : Nat} (h : pruneUpdatesBefore raw t0 v = (kept, .ok n)) :
    (∀ r ∈ raw, (entryTime v r).isSome) ∧ kept = raw.filter (fun r => (entryTime v r).any (t0 ≤ ·)) := by
  obtain ⟨h1, h2⟩ := C26_prune_updates_before raw t0 v
  have hall : ∀ r ∈ raw, (entryTime v r).isSome := by
    intro r hr
    cases he : entryTime v r with
    | some x => rfl
    | none =>
      rw [h2 ⟨r, hr, he⟩] at h
      simp at h
  rw [h1 hall] at h
  simp only [Prod.mk.injEq] at h
  exact ⟨hall, h.1.symm⟩

theorem planned_last {env : Env} {c : ClientCfg} {uri fd : Option Str} {s s1 : St} {cl : List Resource} {t0 : Rat} {clUri : Str}
    {raw kept : List Resource} {last : Rat} (h : IncPlanned env c uri fd s s1 cl t0 clUri raw kept last) {r : Resource} (hr : r ∈ cl) :
    LastChange raw c.spec_version t0 r := by
  obtain ⟨n, hp⟩ := h.pruned
  obtain ⟨-, hk⟩ := pruned_eq hp
  rw [h.dupes] at hr
  obtain ⟨pre, post, e1, e2⟩ := (C25_at_most_one_per_uri kept).2 r hr
  rw [hk] at e1
  obtain ⟨pre', post', f1, f2, f3⟩ := last_filter e1
  refine ⟨pre', post', f1, (any_iff_atOrAfter _ _ _).mp f2, ?_⟩
  intro x hx hu ha
  exact e2 x (by rw [f3]; exact List.mem_filter.mpr ⟨hx, (any_iff_atOrAfter _ _ _).mpr ha⟩) hu

/-- the first entry for a URI after pruning is its first change -/
theorem find_first {raw : List Resource} {t0 : Rat} {v u : Str} {x : Resource}
    (h : (raw.filter (fun r => (entryTime v r).any (t0 ≤ ·))).find? (fun x => x.uri = u) = some x) :
    FirstChange raw v t0 x ∧ x.uri = u := by
  rw [List.find?_eq_some_iff_append] at h
  obtain ⟨hu, pre, post, e, hpre⟩ := h
  have hu : x.uri = u := by simpa using hu
  obtain ⟨pre', post', e1, e2, e3⟩ := first_filter e
  refine ⟨⟨pre', post', e1, (any_iff_atOrAfter _ _ _).mp e2, ?_⟩, hu⟩
  intro y hy hyu hya
  have := hpre y (by rw [e3]; exact List.mem_filter.mpr ⟨hy, (any_iff_atOrAfter _ _ _).mpr hya⟩)
  simp [hyu, hu] at this

end Resync
