import Verif.Props.ClientWrite
import Verif.Props.ChangeList
import Verif.Proofs.ReadWF
import Verif.Props.ClientAuthority
/-
C74: the change list that write_change_list writes.
-/

namespace Resync
open Py Resync.Spec

theorem addMany_values {d : Dict Resource} (hd : WF d) : addMany (d.map (fun p => (p.2, false))) = d := by
  have gen : ∀ (d acc : Dict Resource), (dkeys (acc ++ d)).Nodup → (∀ p ∈ d, p.2.uri = p.1) →
      (d.map (fun p => (p.2, false))).foldl
        (fun d (op : Resource × Bool) => match dictAdd d op.1 op.2 with | .ok d' => d' | .error _ => d) acc = acc ++ d := by
    intro d
    induction d with
    | nil => intro acc _ _; simp
    | cons p t ih =>
      intro acc hn hu
      obtain ⟨k, r⟩ := p
      have hk : r.uri = k := hu (k, r) (by simp)
      have hnot : k ∉ dkeys acc := by
        have : (dkeys acc ++ k :: dkeys t).Nodup := by simpa [dkeys] using hn
        exact fun h => (List.nodup_append.mp this).2.2 k h k (by simp) rfl
      have hfr : dget acc r.uri = none := by
        rw [hk]
        cases hg : dget acc k with
        | none => rfl
        | some x => exact absurd ((dget_isSome_iff _ _).mp (by rw [hg]; rfl)) hnot
      simp only [List.map_cons, List.foldl_cons]
      rw [show dictAdd acc r false = .ok (acc ++ [(k, r)]) by
        rw [dictAdd_fresh _ hfr, hk]
        congr 1
        exact dset_absent _ _ _ hnot]
      simp only
      rw [ih (acc ++ [(k, r)]) (by simpa [dkeys] using hn) (fun p hp => hu p (by simp [hp]))]
      simp
  refine gen d [] (by simpa using hd.1) ?_
  rintro ⟨k, r⟩ hp
  exact hd.2 k r (dget_of_mem hd.1 hp)

theorem _root_.Resync.Spec.RightEntry.kind {old new : Str → Option Resource} {r : Resource} (h : RightEntry old new r) :
    r.change = some "updated".toList ∨ r.change = some "deleted".toList ∨ r.change = some "created".toList := by
  obtain ⟨x, -, h | h | h⟩ := h
  · exact .inr (.inr h.1)
  · exact .inl h.1
  · exact .inr (.inl h.1)

/-- C27 for dictionaries. -/
theorem change_entries {old new : Dict Resource} (ho : WF old) (hn : WF new)
    (vo : ∀ k r, dget old k = some r → ValidChange r.change) (vn : ∀ k r, dget new k = some r → ValidChange r.change) :
    ∃ cl, changeEntries (fun o => if o = 0 then { dict := old } else { dict := new }) 0 1 = .ok cl ∧ (cl.map (·.uri)).Nodup ∧
      (∀ r ∈ cl, RightEntry (dget old) (dget new) r) ∧ TakesTo (dget old) cl (dget new) := by
  have ho' := addMany_values ho
  have hn' := addMany_values hn
  have hho : ∀ u, holder (old.map (fun p => (p.2, false))) u = dget old u := by
    intro u
    rw [← (addMany_spec _).2 u, ho']
  have hhn : ∀ u, holder (new.map (fun p => (p.2, false))) u = dget new u := by
    intro u
    rw [← (addMany_spec _).2 u, hn']
  obtain ⟨cl, h1, h2, h4, h5⟩ := C27_change_list_old_to_new (fun o => if o = 0 then { dict := old } else { dict := new }) 0 1
    (by decide) (old.map (fun p : Str × Resource => (p.2, false))) (new.map (fun p : Str × Resource => (p.2, false)))
    (show old = _ from ho'.symm) (show new = _ from hn'.symm)
    (by
      intro op hop
      obtain ⟨⟨k, r⟩, hp, rfl⟩ := List.mem_map.mp hop
      exact vo k r (dget_of_mem ho.1 hp))
    (by
      intro op hop
      obtain ⟨⟨k, r⟩, hp, rfl⟩ := List.mem_map.mp hop
      exact vn k r (dget_of_mem hn.1 hp))
  refine ⟨cl, h1, h2, ?_, ?_⟩
  · intro r hr
    have h := h4 r hr
    rwa [funext hho, funext hhn] at h
  · have e1 : holder (old.map (fun p => (p.2, false))) = dget old := funext hho
    intro u
    have := h5 u
    rw [e1, hhn] at this
    exact this

theorem timesDiffer_near {a b : Option Rat} (h : NearTime a b) : timesDiffer b a 1 = false := by
  cases a with
  | none =>
    cases b with
    | none => rfl
    | some y => exact h.elim
  | some x =>
    cases b with
    | none => exact h.elim
    | some y =>
      obtain ⟨h1, h2⟩ := h
      unfold timesDiffer pyAbs
      simp only [decide_eq_false_iff_not]
      split <;> linarith

theorem recordedNear_eq {r r' x : Resource} (h : RecordedNear false false r r') {ch : Option Str} (hx : r = { x with change := ch }) :
    r'.eq (some x) = true := by
  obtain ⟨a, hn, hr⟩ := h
  have ht := hn.rest
  have f : ∀ {α : Type} (g : Resource → α), (∀ r, g (timeless r) = g r) → g a = g r := by
    intro α g hg
    rw [← hg a, ht, hg]
  have bd : ∀ {α : Type} [DecidableEq α] (o : Option α), bothDiffer o o = false := by
    intro α _ o
    cases o <;> simp [bothDiffer]
  have e1 : r'.uri = x.uri := by rw [hr.uri, f (·.uri) (fun _ => rfl), hx]
  have e2 : r'.md5 = x.md5 := by rw [hr.md5, f (·.md5) (fun _ => rfl), hx]
  have e3 : r'.sha1 = x.sha1 := by rw [hr.sha1, f (·.sha1) (fun _ => rfl), hx]
  have e4 : r'.sha256 = x.sha256 := by rw [hr.sha256, f (·.sha256) (fun _ => rfl), hx]
  have e5 : r'.length = x.length := by rw [hr.length, f (·.length) (fun _ => rfl), hx]
  have e6 : r'.timestamp = a.timestamp := by rw [hr.timestamp, if_neg (by simp)]
  have e7 : NearTime x.timestamp r'.timestamp := by
    rw [e6]
    have := hn.timestamp
    rw [hx] at this; exact this
  unfold Resource.eq Resource.equal
  simp only [e1, e2, e3, e4, e5, bd, timesDiffer_near e7]
  simp

theorem recordedNear_change {r r' : Resource} (h : RecordedNear false false r r') : r'.change = r.change ∧ r'.uri = r.uri := by
  obtain ⟨a, hn, hr⟩ := h
  have ht := hn.rest
  have f : ∀ {α : Type} (g : Resource → α), (∀ r, g (timeless r) = g r) → g a = g r := by
    intro α g hg
    rw [← hg a, ht, hg]
  exact ⟨by rw [hr.change, f (·.change) (fun _ => rfl)], by rw [hr.uri, f (·.uri) (fun _ => rfl)]⟩

theorem forall₂_map_eq {α β γ : Type} {R : α → β → Prop} {l : List α} {l' : List β} (h : List.Forall₂ R l l') {f : α → γ} {g : β → γ}
    (hfg : ∀ a b, R a b → g b = f a) : l'.map g = l.map f := by
  induction h with
  | nil => rfl
  | cons h _ ih => rw [List.map_cons, List.map_cons, ih, hfg _ _ h]

/-- a change list read back does the same -/
theorem takesTo_recorded {old new : Str → Option Resource} {cl cl' : List Resource} (hnod : (cl.map (·.uri)).Nodup)
    (hsrc : ∀ r ∈ cl, r.change = some "updated".toList ∨ r.change = some "deleted".toList ∨ r.change = some "created".toList)
    (hnew : ∀ r ∈ cl, r.change ≠ some "deleted".toList → ∃ x, r = { x with change := r.change } ∧ new r.uri = some x)
    (h : TakesTo old cl new) (hrec : List.Forall₂ (RecordedNear false false) cl cl') : TakesTo old cl' new := by
  have huris : cl'.map (·.uri) = cl.map (·.uri) := forall₂_map_eq hrec (fun a b h => (recordedNear_change h).2)
  have hnod' : (cl'.map (·.uri)).Nodup := by rw [huris]; exact hnod
  obtain ⟨f1, f2⟩ := forall₂_mem hrec
  intro u
  have hu := h u
  by_cases hex : ∃ r ∈ cl, r.uri = u
  · obtain ⟨r, hr, rfl⟩ := hex
    obtain ⟨r', hr', hrr⟩ := f2 r hr
    obtain ⟨hc, hur⟩ := recordedNear_change hrr
    rw [applyChanges_hit _ _ hnod r hr] at hu
    have e := applyChanges_hit old cl' hnod' r' hr'
    rw [hur] at e
    rw [e]
    unfold applyChange at hu ⊢
    rw [if_pos rfl] at hu
    rw [if_pos hur.symm, hc]
    by_cases hd : r.change = some "deleted".toList
    · rw [if_pos hd] at hu ⊢; exact hu
    · rw [if_neg hd] at hu ⊢
      have hcu : r.change = some "created".toList ∨ r.change = some "updated".toList := by
        rcases hsrc r hr with h | h | h
        · exact .inr h
        · exact absurd h hd
        · exact .inl h
      rw [if_pos hcu] at hu ⊢
      obtain ⟨x, hx, hnx⟩ := hnew r hr hd
      rw [hnx]
      exact recordedNear_eq hrr hx
  · have hm : ∀ r ∈ cl, r.uri ≠ u := fun r hr e => hex ⟨r, hr, e⟩
    have hm' : ∀ r ∈ cl', r.uri ≠ u := by
      intro r' hr' e
      obtain ⟨r, hr, hrr⟩ := f1 r' hr'
      exact hm r hr (by rw [← (recordedNear_change hrr).2]; exact e)
    rw [applyChanges_miss _ _ _ hm] at hu
    rw [applyChanges_miss _ _ _ hm']
    exact hu

theorem build_WF {c : WriteCfg} {env : WriteEnv} {paths : Option Str} {b : Bool} {rl : ListObj}
    (h : buildResourceList c env paths b = .ok rl) : WF rl.dict := by
  unfold buildResourceList at h
  split at h
  · cases h
  · split at h
    · cases h
    · cases h
    · simp only at h
      split at h
      · cases h
      · cases h
      · rename_i d hd
        have : WF d := by
          cases paths with
          | none => exact fromDisk_WF (c.mapper.map Map.dst_path) WF_nil hd
          | some p => exact fromDisk_WF _ WF_nil hd
        split at h
        · cases h
        · cases h; exact this

theorem readReference_WF {c : WriteCfg} {env : WriteEnv} {ref : Str} {d : Dict Resource} (h : readReference c env ref = .ok d) :
    WF d := by
  unfold readReference at h
  split at h
  · cases h
  · rename_i l hl
    cases h
    exact readList_WF WF_nil hl

/-- the new state: what is listed at `newref`, or what is on the disk now -/
def newState (c : WriteCfg) (env : WriteEnv) (paths newref : Option Str) : Except WriteErr (Dict Resource) :=
  match newref with
  | none => (buildResourceList c env paths false).map ListObj.dict
  | some n => readReference c env n

theorem newState_WF {c : WriteCfg} {env : WriteEnv} {paths newref : Option Str} {new : Dict Resource}
    (hnew : newState c env paths newref = .ok new) : WF new := by
  unfold newState at hnew
  cases newref with
  | none =>
    simp only at hnew
    cases hb : buildResourceList c env paths false with
    | error e => rw [hb] at hnew; cases hnew
    | ok rl => rw [hb] at hnew; cases hnew; exact build_WF hb
  | some n => exact readReference_WF hnew

theorem expressible_change {r : Resource} (h : Expressible r) (ch : Option Str) (hc : ValidChange ch) :
    Expressible { r with change := ch } := by
  obtain ⟨h1, h2⟩ := h
  exact ⟨{ h1 with change := hc }, h2⟩

/-- C74, the part that holds.  `write_change_list` from an old list (at `ref`) to a new state succeeds, if both can be read, can
be expressed, and the changes fit into one document; and whoever reads the document gets changes that take the old state to the
new one, at most one per URI and each the right one (times to the microsecond), and the given links. -/
theorem C74_change_list_partial (c : WriteCfg) (env : WriteEnv) (paths newref : Option Str) (ref f : Str)
    (links : Option (List Link)) (hln : ∀ x ∈ links.getD [], LinkOk x) (old new : Dict Resource)
    (hold : readReference c env ref = .ok old) (hnew : newState c env paths newref = .ok new)
    (eo : ∀ k r, dget old k = some r → Expressible r) (en : ∀ k r, dget new k = some r → Expressible r)
    (hfit : ∀ cl, changeListEntries c env paths ref newref false = .ok cl → cl.length ≤ max 1 (c.max_sitemap_entries.getD 50000))
    (before : Str → Option FileState) :
    (writeChangeList c env paths (some f) ref newref false links false).2 = .ok () ∧
    ∃ doc list n, fileDoc (runFs before (writeChangeList c env paths (some f) ref newref false links false).1.files f) = some doc ∧
      parseXml {} listAdd { resources := [] } doc (some "changelist".toList) none = .ok (list, false, n) ∧
      (list.resources.map (·.uri)).Nodup ∧
      (∀ r ∈ list.resources, ∃ r0, RightEntry (dget old) (dget new) r0 ∧ RecordedNear false false r0 r) ∧
      TakesTo (dget old) list.resources (dget new) ∧
      ((∀ k r, dget old k = some r ∨ dget new k = some r → r.ts_datetime = none) → ∀ r ∈ list.resources, r.ts_datetime = none) ∧
      SameLinks (links.getD []) list.ln := by
  have wo := readReference_WF hold
  have wn : WF new := newState_WF hnew
  obtain ⟨cl, h1, h2, h4, h5⟩ := change_entries wo wn (fun k r h => (eo k r h).rest.change) (fun k r h => (en k r h).rest.change)
  have hcl : changeListEntries c env paths ref newref false = .ok cl := by
    unfold changeListEntries
    rw [hold]
    simp only
    cases newref <;> (simp only [newState] at hnew; simp only [hnew, h1])
  have hexp : ∀ r ∈ cl, Expressible r := by
    intro r hr
    obtain ⟨x, hx, hd⟩ := h4 r hr
    rw [hx]
    rcases hd with ⟨hc, -, hd⟩ | ⟨hc, hd, -⟩ | ⟨hc, hd, -⟩
    · exact expressible_change (en _ _ hd) _ (by rw [hc]; exact .inr (.inl rfl))
    · exact expressible_change (en _ _ hd) _ (by rw [hc]; exact .inr (.inr (.inl rfl)))
    · exact expressible_change (eo _ _ hd) _ (by rw [hc]; exact .inr (.inr (.inr rfl)))
  obtain ⟨t, t', c', q1, q2, q3, q4, q5, q6⟩ := C34_any_time_partial {} (defaultCapability [] (some "changelist".toList)) (links.getD []) cl
    false (by
      show MdOk _ [(kCapability, "changelist".toList)]
      refine ⟨by decide, by decide, ?_, .inl rfl, ?_⟩
      · intro k v hv
        simp only [dget] at hv
        split at hv
        · cases hv; unfold XmlOk; decide
        · cases hv
      · intro v hv
        rw [show dget [(kCapability, "changelist".toList)] "length".toList = none by decide] at hv
        cases hv) hln hexp (some "changelist".toList) (by intro c hc; cases hc; rfl) none (.inl rfl)
  have hw : writeChangeList c env paths (some f) ref newref false links false =
      ({ files := [.openW f, .finish f t] }, .ok ()) := by
    unfold writeChangeList
    rw [if_neg (by simp), hcl]
    simp only [LBI.writeTo]
    rw [write_single _ env.stat f _ rfl (hfit cl hcl)]
    simp only
    rw [q1]
    rfl
  rw [hw]
  refine ⟨rfl, t', c', _, ?_, q3, ?_, ?_, ?_, ?_, q6⟩
  · simp only [runFs, if_true, fileDoc]; exact q2
  · rw [forall₂_map_eq q4 (fun a b h => (recordedNear_change h).2)]; exact h2
  · intro r' hr'
    obtain ⟨r, hr, hrr⟩ := (forall₂_mem q4).1 r' hr'
    exact ⟨r, h4 r hr, hrr⟩
  · refine takesTo_recorded h2 (fun r hr => (h4 r hr).kind) ?_ h5 q4
    intro r hr hd
    obtain ⟨x, hx, hg⟩ := h4 r hr
    rcases hg with ⟨-, -, hg⟩ | ⟨-, hg, -⟩ | ⟨hc, -⟩
    · exact ⟨x, hx, hg⟩
    · exact ⟨x, hx, hg⟩
    · exact absurd hc hd
  · intro hdt r' hr'
    obtain ⟨r, hr, a, hn, hrec⟩ := (forall₂_mem q4).1 r' hr'
    obtain ⟨x, hx, hg⟩ := h4 r hr
    have hx0 : x.ts_datetime = none := by
      rcases hg with ⟨-, -, hg⟩ | ⟨-, hg, -⟩ | ⟨-, hg, -⟩
      · exact hdt _ x (.inr hg)
      · exact hdt _ x (.inr hg)
      · exact hdt _ x (.inl hg)
    have hr0 : r.ts_datetime = none := by rw [hx]; exact hx0
    have ha := hn.ts_datetime
    rw [hr0] at ha
    rw [hrec.ts_datetime, if_neg (by simp)]
    cases hat : a.ts_datetime with
    | none => rfl
    | some y => rw [hat] at ha; exact ha.elim

/-- An incremental sync with a change list whose entries have no datetime fails and does nothing. -/
theorem incremental_refuses (env : Env) (c : ClientCfg) (allow_deletion : Bool) (uri from_datetime : Option Str) (s : St)
    (changes : List Resource) (hread : ∀ u, env.changeList u = some changes) (hne : changes ≠ [])
    (hv : c.spec_version = "1.1".toList) (hdt : ∀ r ∈ changes, r.ts_datetime = none) :
    ∃ e, (incremental env c allow_deletion uri from_datetime s).2 = .error e ∧
      (incremental env c allow_deletion uri from_datetime s).1.trace = s.trace ∧
      (incremental env c allow_deletion uri from_datetime s).1.world = s.world := by
  have key : ∃ e s', incrementalPlan env c uri from_datetime s = (s', .error e) ∧ s'.trace = s.trace ∧ s'.world = s.world := by
    unfold incrementalPlan
    split
    · exact ⟨_, _, rfl, rfl, rfl⟩
    · split
      · exact ⟨_, _, rfl, rfl, rfl⟩
      · exact ⟨_, _, rfl, rfl, rfl⟩
      · split
        · exact ⟨_, _, rfl, rfl, rfl⟩
        · rename_i t0 _
          split
          · exact ⟨_, _, rfl, rfl, rfl⟩
          · rw [hread]
            simp only
            split
            · exact ⟨_, _, rfl, rfl, rfl⟩
            · split
              · exact ⟨_, _, rfl, rfl, rfl⟩
              · split
                · exact ⟨_, _, rfl, rfl, rfl⟩
                · obtain ⟨r, hr⟩ := List.exists_mem_of_ne_nil _ hne
                  have := (C26_prune_updates_before changes t0 c.spec_version).2 ⟨r, hr, by
                    unfold entryTime; rw [hv, if_neg (by decide)]; exact hdt r hr⟩
                  rw [this]
                  exact ⟨_, _, rfl, rfl, rfl⟩
  obtain ⟨e, s', h1, h2, h3⟩ := key
  refine ⟨e, ?_, ?_, ?_⟩ <;> unfold incremental <;> rw [h1]
  · exact h2
  · exact h3

/-- But no incremental sync accepts such a change list: the entries carry no datetime unless the lists that were compared did
(those written by `write_resource_list` do not, nor do scans).  Whatever the client's settings and state, version 1.1 of the
format, it fails and does nothing, if only one resource was created or deleted. -/
theorem C74_violated (c : WriteCfg) (env : WriteEnv) (paths newref : Option Str) (ref f : Str)
    (links : Option (List Link)) (hln : ∀ x ∈ links.getD [], LinkOk x) (old new : Dict Resource)
    (hold : readReference c env ref = .ok old) (hnew : newState c env paths newref = .ok new)
    (eo : ∀ k r, dget old k = some r → Expressible r) (en : ∀ k r, dget new k = some r → Expressible r)
    (hfit : ∀ cl, changeListEntries c env paths ref newref false = .ok cl → cl.length ≤ max 1 (c.max_sitemap_entries.getD 50000))
    (before : Str → Option FileState)
    (hdt : ∀ k r, dget old k = some r ∨ dget new k = some r → r.ts_datetime = none)
    (hdiff : ∃ u, (dget old u).isSome ≠ (dget new u).isSome) :
    ∃ doc list n, fileDoc (runFs before (writeChangeList c env paths (some f) ref newref false links false).1.files f) = some doc ∧
      parseXml {} listAdd { resources := [] } doc (some "changelist".toList) none = .ok (list, false, n) ∧
      ∀ (cenv : Env) (cc : ClientCfg) (allow_deletion : Bool) (uri from_datetime : Option Str) (s : St),
        (∀ u, cenv.changeList u = some list.resources) → cc.spec_version = "1.1".toList →
        ∃ e, (incremental cenv cc allow_deletion uri from_datetime s).2 = .error e ∧
          (incremental cenv cc allow_deletion uri from_datetime s).1.trace = s.trace ∧
          (incremental cenv cc allow_deletion uri from_datetime s).1.world = s.world := by
  obtain ⟨-, doc, list, n, h1, h2, -, -, h3, h4, -⟩ :=
    C74_change_list_partial c env paths newref ref f links hln old new hold hnew eo en hfit before
  refine ⟨doc, list, n, h1, h2, ?_⟩
  intro cenv cc ad uri fd s hread hv
  refine incremental_refuses cenv cc ad uri fd s list.resources hread ?_ hv (h4 hdt)
  intro he
  obtain ⟨u, hu⟩ := hdiff
  have := h3 u
  rw [he] at this
  have e : applyChanges (dget old) [] u = dget old u := rfl
  rw [e] at this
  cases ho : dget old u with
  | none =>
    cases hn : dget new u with
    | none => rw [ho, hn] at hu; exact hu rfl
    | some y => rw [ho, hn] at this; exact this
  | some x =>
    cases hn : dget new u with
    | none => rw [ho, hn] at this; exact this
    | some y => rw [ho, hn] at hu; exact hu rfl

namespace ChangesExample

def doc (rs : List Resource) : Option Elem :=
  match resourcesAsXml {} [("capability".toList, "resourcelist".toList)] [] rs false with
  | .ok t => reparse t
  | .error _ => none

def a : Resource := { uri := "http://h/a".toList, timestamp := some 1 }
def a' : Resource := { uri := "http://h/a".toList, timestamp := some 100 }
def b : Resource := { uri := "http://h/b".toList, timestamp := some 1 }
def d : Resource := { uri := "http://h/d".toList, timestamp := some 1 }

/-- an old list with a and b, a new one with a changed and d -/
def env : WriteEnv := { WriteExample.env with
  docAt := fun p => if p = "old.xml".toList then doc [a, b] else if p = "new.xml".toList then doc [a', d] else none }

def old : Dict Resource := [(a.uri, a), (b.uri, b)]
def new : Dict Resource := [(a.uri, a'), (d.uri, d)]

theorem expr {k : Str} {r : Resource} (h : dget old k = some r ∨ dget new k = some r) : Expressible r ∧ r.ts_datetime = none := by
  have h : r = a ∨ r = b ∨ r = a' ∨ r = d := by
    simp only [old, new, dget] at h
    rcases h with h | h <;> (repeat' split at h) <;> cases h <;> simp
  have ok : ∀ (u : Str) (t : Rat), u ≠ [] → XmlOk u → '\r' ∉ u → InYears t →
      Expressible { uri := u, timestamp := some t } ∧ ({ uri := u, timestamp := some t } : Resource).ts_datetime = none :=
    fun u t h1 h2 h3 h4 => ⟨timed_expressible u t h1 h2 h3 h4, rfl⟩
  rcases h with rfl | rfl | rfl | rfl
  all_goals
    refine ok _ _ (by decide) (by unfold XmlOk; decide) (by decide) ?_
    unfold InYears; constructor <;> norm_num

theorem hold : readReference WriteExample.cfg env "old.xml".toList = .ok old := by decide +kernel
theorem hnew : newState WriteExample.cfg env none (some "new.xml".toList) = .ok new := by decide +kernel

/-- the changes -/
theorem entries : changeListEntries WriteExample.cfg env none "old.xml".toList (some "new.xml".toList) false =
    .ok [{ a' with change := some sUpdated }, { b with change := some sDeleted }, { d with change := some sCreated }] := by
  decide +kernel

/-- all hypotheses of both theorems hold -/
example : ∃ doc list n, fileDoc (runFs (fun _ => none) (writeChangeList { WriteExample.cfg with max_sitemap_entries := none } env none
      (some "/d/changes.xml".toList) "old.xml".toList (some "new.xml".toList) false none false).1.files "/d/changes.xml".toList) = some doc ∧
    parseXml {} listAdd { resources := [] } doc (some "changelist".toList) none = .ok (list, false, n) ∧
    TakesTo (dget old) list.resources (dget new) := by
  obtain ⟨-, doc, list, n, h1, h2, -, -, h3, -⟩ := C74_change_list_partial { WriteExample.cfg with max_sitemap_entries := none } env none
    (some "new.xml".toList) "old.xml".toList "/d/changes.xml".toList none (by simp) old new hold hnew
    (fun k r h => (expr (.inl h)).1) (fun k r h => (expr (.inr h)).1) (by
      intro cl hcl
      have : Except.ok cl = _ := hcl.symm.trans entries
      cases this
      decide) (fun _ => none)
  exact ⟨doc, list, n, h1, h2, h3⟩

example : (dget old d.uri).isSome ≠ (dget new d.uri).isSome := by decide

end ChangesExample

end Resync
