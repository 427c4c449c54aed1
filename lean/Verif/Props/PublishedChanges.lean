import Verif.Props.ChangeDocs
import Verif.Props.Copies
/-
C91: a source publishes what has changed, and a client which has a copy of the old state applies the published changes.
-/

namespace Resync
open Py Resync.Spec

/-- the same resources with the same contents, times less than a microsecond apart -/
def NearSnapshot (S S' : Snapshot) : Prop :=
  ∀ u, (S u).map Prod.fst = (S' u).map Prod.fst ∧ NearTime ((S u).map Prod.snd) ((S' u).map Prod.snd)

/-- What is published.  The source had `SO`, listed at `ref`, and now has `SN`, listed or scanned as `new`; the lists can be expressed
and have no datetimes; the changes fit into one document; a resource which has changed differs in what is listed about it; times are
before the last second of the year 9999. -/
structure Publication (c : WriteCfg) (wenv : WriteEnv) (paths newref : Option Str) (ref : Str) (old new : Dict Resource) (SO SN : Snapshot) :
    Prop where
  old_list : readReference c wenv ref = .ok old
  new_list : newState c wenv paths newref = .ok new
  old_ok : ∀ k r, dget old k = some r → Expressible r
  new_ok : ∀ k r, dget new k = some r → Expressible r
  undated : ∀ k r, dget old k = some r ∨ dget new k = some r → r.ts_datetime = none
  fits : ∀ cl, changeListEntries c wenv paths ref newref false = .ok cl → cl.length ≤ max 1 (c.max_sitemap_entries.getD 50000)
  old_names : ∀ u, dget old u = none ↔ SO u = none
  new_says : Lists new SN
  visible : ∀ u r r', dget old u = some r → dget new u = some r' → r.eq (some r') = true → SN u = SO u
  years : ∀ u r t, dget old u = some r ∨ dget new u = some r → r.timestamp = some t → t < 253402300799

theorem find?_uri {l : List Resource} (hn : (l.map (·.uri)).Nodup) {r : Resource} (hr : r ∈ l) :
    l.find? (fun x => x.uri = r.uri) = some r := by
  induction l with
  | nil => simp at hr
  | cons a t ih =>
    simp only [List.map_cons, List.nodup_cons] at hn
    rw [List.find?_cons]
    rcases List.mem_cons.mp hr with rfl | hr
    · simp
    · have : ¬ a.uri = r.uri := fun e => hn.1 (List.mem_map.mpr ⟨r, hr, e.symm⟩)
      simp only [this, decide_false]
      exact ih hn.2 hr

theorem lists_dget {d : Dict Resource} (hd : WF d) {S : Snapshot} (h : Lists d S) (u : Str) : dget d u = none ↔ S u = none := by
  constructor
  · intro hu
    by_contra hne
    obtain ⟨r, hr⟩ := h.all u hne
    rw [dget_of_mem hd.1 hr] at hu; cases hu
  · intro hu
    cases hg : dget d u with
    | none => rfl
    | some r =>
      obtain ⟨content, t, h1, -⟩ := h.listed u r (mem_of_dget hg)
      rw [hu] at h1; cases h1

/-- what the client's copy becomes: as listed if there is an entry, otherwise as it was -/
def afterChanges (S SN : Snapshot) (changes : List Resource) : Snapshot := fun u =>
  match changes.find? (fun x => x.uri = u) with
  | none => S u
  | some r => if r.change = some "deleted".toList then none else (SN u).map (fun p => (p.1, r.timestamp.getD 0))

/-- C91, the part that holds.  A source publishes the changes from what is listed at `ref` to what it has now, and a client which has a
copy of the old state does an incremental sync with this change list, by version 1.0 of the format, from a time on which lies before the
times of last modification of what is listed (for what was deleted: of what was there before).  The sync succeeds, and then the client has
a copy of the new state, times to the microsecond before they are cut to seconds. -/
theorem C91_applied_partial (c : WriteCfg) (wenv : WriteEnv) (paths newref : Option Str) (ref f : Str) (links : Option (List Link))
    (hln : ∀ x ∈ links.getD [], LinkOk x) (old new : Dict Resource) (SO SN : Snapshot)
    (hp : Publication c wenv paths newref ref old new SO SN) (before : Str → Option FileState)
    (env : Env) (hft : FloatOk env.ft) (cc : ClientCfg) (site : Str) (hu : SetUp cc site) (hv : cc.spec_version = "1.0".toList)
    (uri from_datetime : Option Str) (s : St) (hh : s.hashes = []) (sites : List (Map × Loc)) (places : Loc → Prop)
    (S : Snapshot) (hS : NearSnapshot SO S) (hst : Stands env.ft env.cwd cc sites places s.world S)
    (docAt : Str → Option Elem) (hread : env.changeList = readChangeList docAt) (clUri : Str)
    (hcl : cc.disc.sitemapUri (cc.changeListName uri) = .ok clUri)
    (hserve : docAt clUri = fileDoc (runFs before (writeChangeList c wenv paths (some f) ref newref false links false).1.files f))
    (hauth : cc.noauth = true ∨ ((∃ a, UrlAuthority.new (some site) false = some a) ∧
      (∃ a, UrlAuthority.new (some clUri) cc.strictauth = some a) ∧ ∀ u, SO u ≠ none ∨ SN u ≠ none → Authorised cc.strictauth clUri u))
    (hoffers : Offers env cc.tries SN) (hdisk : DiskWorks env) (t0 : Rat) (hstart : startTime env cc from_datetime s = .ok t0)
    (ht0 : InYears t0)
    (hnewer : ∀ u r, dget new u = some r → (∀ r0, dget old u = some r0 → r0.eq (some r) = false) →
      ∃ t, r.timestamp = some t ∧ t0 + 1 / 1000000 ≤ t)
    (hgone : ∀ u r, dget old u = some r → dget new u = none → ∃ t, r.timestamp = some t ∧ t0 + 1 / 1000000 ≤ t)
    (hbelow : ∀ u, SO u ≠ none ∨ SN u ≠ none → BelowSites sites u) (hplaces : ∀ l, PlaceOf sites SN l → places l) :
    (incremental env cc true uri from_datetime s).2 = .ok () ∧
    ∃ S', NearSnapshot SN S' ∧ Stands env.ft env.cwd cc sites places (incremental env cc true uri from_datetime s).1.world S' := by
  obtain ⟨changes, h1, hnod, h3, h4⟩ := C83_one_document_partial c wenv paths newref ref f links hln old new hp.old_list hp.new_list
    hp.old_ok hp.new_ok hp.fits before docAt clUri hserve
  have wn : WF new := newState_WF hp.new_list
  have nn := lists_dget wn hp.new_says
  -- what there is about each entry
  have hent : ∀ r ∈ changes, ∃ t, r.timestamp = some t ∧ t0 ≤ t ∧ Before10000 t ∧ r.ts_datetime = none ∧
      (SO r.uri ≠ none ∨ SN r.uri ≠ none) ∧
      (((r.change = some "created".toList ∨ r.change = some "updated".toList) ∧
          ∃ content t', SN r.uri = some (content, t') ∧ NearTime (some t') (some t)) ∨
        (r.change = some "deleted".toList ∧ SN r.uri = none)) := by
    intro r hr
    obtain ⟨r0, ⟨x, hx, hk⟩, hn⟩ := h3 r hr
    obtain ⟨hc, hur⟩ := recordedNear_change hn
    obtain ⟨a, hn, hrec⟩ := hn
    have e1 : r.timestamp = a.timestamp := by rw [hrec.timestamp, if_neg (by simp)]
    have e2 : r.ts_datetime = a.ts_datetime := by rw [hrec.ts_datetime, if_neg (by simp)]
    have n1 := hn.timestamp
    have n2 := hn.ts_datetime
    rw [← e1, hx] at n1
    rw [← e2, hx] at n2
    have dt : x.ts_datetime = none := by
      rcases hk with ⟨-, -, h⟩ | ⟨-, h, -⟩ | ⟨-, h, -⟩
      · exact hp.undated _ _ (.inr h)
      · exact hp.undated _ _ (.inr h)
      · exact hp.undated _ _ (.inl h)
    have hdt : r.ts_datetime = none := by
      have n2 : NearTime x.ts_datetime r.ts_datetime := n2
      rw [dt] at n2
      cases hrt : r.ts_datetime with
      | none => rfl
      | some y => rw [hrt] at n2; exact n2.elim
    have n1 : NearTime x.timestamp r.timestamp := n1
    have ht : ∃ t, x.timestamp = some t ∧ t0 + 1 / 1000000 ≤ t ∧ t < 253402300799 := by
      rcases hk with ⟨-, ho, h⟩ | ⟨-, h, y, hy, hne⟩ | ⟨-, h, hn⟩
      · obtain ⟨t, k1, k2⟩ := hnewer _ _ h (by intro r0 h0; rw [ho] at h0; cases h0)
        exact ⟨t, k1, k2, hp.years _ _ _ (.inr h) k1⟩
      · obtain ⟨t, k1, k2⟩ := hnewer _ _ h (by intro r0 h0; rw [hy] at h0; cases h0; exact hne)
        exact ⟨t, k1, k2, hp.years _ _ _ (.inr h) k1⟩
      · obtain ⟨t, k1, k2⟩ := hgone _ _ h hn
        exact ⟨t, k1, k2, hp.years _ _ _ (.inl h) k1⟩
    obtain ⟨t', k1, k2, k3⟩ := ht
    rw [k1] at n1
    cases hrt : r.timestamp with
    | none => rw [hrt] at n1; exact n1.elim
    | some t =>
      rw [hrt] at n1
      obtain ⟨m1, m2⟩ := n1
      refine ⟨t, rfl, by linarith, by unfold Before10000; linarith, hdt, ?_, ?_⟩
      · rw [hur]
        rcases hk with ⟨-, -, h⟩ | ⟨-, h, -⟩ | ⟨-, h, -⟩
        · right; intro e; rw [← nn, h] at e; cases e
        · right; intro e; rw [← nn, h] at e; cases e
        · left; intro e; rw [← hp.old_names, h] at e; cases e
      · have hsn : dget new r0.uri = some x → ∃ content t', SN r.uri = some (content, t') ∧ NearTime (some t') (some t) := by
          intro h
          obtain ⟨content, t'', q1, q2⟩ := hp.new_says.listed _ _ (mem_of_dget h)
          rw [k1] at q2; cases q2
          rw [hur]
          exact ⟨content, _, q1, m1, m2⟩
        rw [hc]
        rcases hk with ⟨hch, -, h⟩ | ⟨hch, h, -⟩ | ⟨hch, -, h⟩
        · exact .inl ⟨.inl hch, hsn h⟩
        · exact .inl ⟨.inr hch, hsn h⟩
        · exact .inr ⟨hch, by rw [hur]; exact (nn _).mp h⟩
  have hat : ∀ r ∈ changes, AtOrAfter cc.spec_version t0 r := by
    intro r hr
    obtain ⟨t, k1, k2, -⟩ := hent r hr
    exact ⟨t, by unfold changeTime; rw [if_pos hv]; exact k1, k2⟩
  have hdom : ∀ u, afterChanges S SN changes u ≠ none → SO u ≠ none ∨ SN u ≠ none := by
    intro u h
    unfold afterChanges at h
    split at h
    · left
      intro e
      obtain ⟨k, -⟩ := hS u
      rw [e] at k
      cases hsu : S u with
      | none => exact h hsu
      | some p => rw [hsu] at k; cases k
    · split at h
      · exact absurd rfl h
      · right; intro e; rw [e] at h; exact h rfl
  have hnear : NearSnapshot SN (afterChanges S SN changes) := by
    intro u
    unfold afterChanges
    cases hf : changes.find? (fun x => x.uri = u) with
    | none =>
      simp only
      have hm : ∀ r ∈ changes, r.uri ≠ u := by
        intro r hr e
        have := List.find?_eq_none.mp hf r hr
        simp [e] at this
      have ht := h4 u
      rw [applyChanges_miss _ _ _ hm] at ht
      have : SN u = SO u := by
        cases ho : dget old u with
        | none =>
          cases hg : dget new u with
          | none => rw [(nn u).mp hg, (hp.old_names u).mp ho]
          | some y => rw [ho, hg] at ht; exact ht.elim
        | some x =>
          cases hg : dget new u with
          | none => rw [ho, hg] at ht; exact ht.elim
          | some y => rw [ho, hg] at ht; exact hp.visible u x y ho hg ht
      rw [this]
      exact hS u
    | some r =>
      simp only
      have hr := List.mem_of_find?_eq_some hf
      have hue : r.uri = u := by simpa using List.find?_some hf
      subst hue
      obtain ⟨t, k1, -, -, -, -, k2⟩ := hent r hr
      rcases k2 with ⟨hch, content, t', q1, q2⟩ | ⟨hch, q1⟩
      · rw [if_neg (by rcases hch with h | h <;> rw [h] <;> decide), q1, k1]
        exact ⟨rfl, q2⟩
      · rw [if_pos hch, q1]
        exact ⟨rfl, trivial⟩
  have hrec : Records S (afterChanges S SN changes) changes cc.spec_version t0 := by
    refine ⟨?_, ?_, ?_⟩
    · intro u hno
      unfold afterChanges
      have : changes.find? (fun x => x.uri = u) = none := by
        rw [List.find?_eq_none]
        intro r hr e
        exact hno r hr (by simpa using e) (hat r hr)
      rw [this]
    · rintro r ⟨b, a, rfl, -, -⟩
      have hr : r ∈ b ++ r :: a := by simp
      obtain ⟨t, k1, -, -, -, -, k2⟩ := hent r hr
      unfold afterChanges
      rw [find?_uri hnod hr]
      simp only
      rcases k2 with ⟨hch, content, t', q1, q2⟩ | ⟨hch, q1⟩
      · refine .inl ⟨hch, content, t, ?_, k1⟩
        rw [if_neg (by rcases hch with h | h <;> rw [h] <;> decide), q1, k1]
        rfl
      · exact .inr ⟨hch, by rw [if_pos hch]⟩
    · rintro r r' ⟨b, a, e, -, -⟩ ⟨b', a', e', -, -⟩ hue hc hd
      have hr : r ∈ changes := by rw [e]; simp
      have hr' : r' ∈ changes := by rw [e']; simp
      have q := find?_uri hnod hr
      rw [hue, find?_uri hnod hr'] at q
      cases q
      rw [hc] at hd
      exact absurd hd (by decide)
  obtain ⟨k1, k2, -⟩ := C85_incremental env hft cc site hu uri from_datetime s hh sites places S (afterChanges S SN changes) changes t0 hst
    ⟨⟨clUri, hcl, by rw [hread]; exact h1, by
        rcases hauth with h | ⟨q1, q2, q3⟩
        · exact .inl h
        · refine .inr ⟨q1, q2, ?_⟩
          intro r hr
          obtain ⟨t, -, -, -, -, k, -⟩ := hent r hr
          exact q3 _ k⟩,
      (by
        intro u content t h
        obtain ⟨q, -⟩ := hnear u
        rw [h] at q
        cases hs : SN u with
        | none => rw [hs] at q; cases q
        | some p =>
          rw [hs] at q
          cases q
          exact hoffers u p.1 p.2 hs), hdisk⟩
    hstart
    (by
      intro r hr
      obtain ⟨t, k, -⟩ := hent r hr
      unfold changeTime
      rw [if_pos hv, k]; simp)
    hrec
    (by
      intro r hr _
      obtain ⟨t, -, -, -, -, k, -⟩ := hent r hr
      exact hbelow _ k)
    (by
      rintro l ⟨p, q1, names, q2, q3, q4, q5⟩
      refine hplaces l ⟨p, q1, names, q2, q3, q4, ?_⟩
      intro e
      obtain ⟨q, -⟩ := hnear (uriBelow p.1 names)
      rw [e] at q
      cases hs : afterChanges S SN changes (uriBelow p.1 names) with
      | none => exact q5 hs
      | some p => rw [hs] at q; cases q)
    ht0
    (by
      intro r hr t ht
      obtain ⟨t', k, -, k3, k4, -⟩ := hent r hr
      rcases ht with h | h
      · rw [k] at h; cases h; exact k3
      · rw [k4] at h; cases h)
  exact ⟨k1, _, hnear, k2⟩

namespace CopyExample
open ClientExample

/-- the client goes by version 1.0 -/
def cfg10 : ClientCfg := { cfg with spec_version := "1.0".toList }

/-- c has been deleted, a is new -/
def S1 : Snapshot := fun u => if u = uri "a" then some ([1], 60) else none

def oldList : Dict Resource := [(uri "c", res "c" 50)]
def newList : Dict Resource := [(uri "a", res "a" 60)]

/-- the publisher: at old.xml a list of c, at new.xml one of a -/
def pub : WriteEnv := { WriteExample.env with
  docAt := fun p => if p = "old.xml".toList then ChangesExample.doc [res "c" 50] else
    if p = "new.xml".toList then ChangesExample.doc [res "a" 60] else none }

def pubCfg : WriteCfg := { WriteExample.cfg with max_sitemap_entries := none }

/-- what is published -/
def served : Option Elem :=
  fileDoc (runFs (fun _ => none) (writeChangeList pubCfg pub none (some "/d/changes.xml".toList) "old.xml".toList (some "new.xml".toList)
    false none false).1.files "/d/changes.xml".toList)

def servedAt (u : Str) : Option Elem := if u = uri "changelist.xml" then served else none

/-- the server -/
def env10 : Env := { env [] [] [1] with changeList := readChangeList servedAt }

theorem oldList_mem {k : Str} {r : Resource} (h : dget oldList k = some r) : k = uri "c" ∧ r = res "c" 50 := by
  simp only [oldList, dget] at h
  split at h
  · rename_i e; cases h; exact ⟨e.symm, rfl⟩
  · cases h

theorem newList_mem {k : Str} {r : Resource} (h : dget newList k = some r) : k = uri "a" ∧ r = res "a" 60 := by
  simp only [newList, dget] at h
  split at h
  · rename_i e; cases h; exact ⟨e.symm, rfl⟩
  · cases h

theorem publication : Publication pubCfg pub none (some "new.xml".toList) "old.xml".toList oldList newList S0 S1 where
  old_list := by decide +kernel
  new_list := by decide +kernel
  old_ok := by
    intro k r h
    obtain ⟨-, rfl⟩ := oldList_mem h
    exact timed_expressible _ _ (by decide) (by unfold XmlOk; decide) (by decide) (by unfold InYears; decide +kernel)
  new_ok := by
    intro k r h
    obtain ⟨-, rfl⟩ := newList_mem h
    exact timed_expressible _ _ (by decide) (by unfold XmlOk; decide) (by decide) (by unfold InYears; decide +kernel)
  undated := by
    rintro k r (h | h)
    · obtain ⟨-, rfl⟩ := oldList_mem h; rfl
    · obtain ⟨-, rfl⟩ := newList_mem h; rfl
  fits := by
    intro cl hcl
    have e : changeListEntries pubCfg pub none "old.xml".toList (some "new.xml".toList) false =
        .ok [{ res "c" 50 with change := some sDeleted }, { res "a" 60 with change := some sCreated }] := by decide +kernel
    rw [e] at hcl
    cases hcl
    decide
  old_names := by
    intro u
    unfold S0
    simp only [oldList, dget]
    by_cases h : u = uri "c"
    · simp [h]
    · simp [h, Ne.symm h]
  new_says := by
    refine ⟨?_, ?_⟩
    · intro u r h
      simp only [newList, List.mem_singleton, Prod.mk.injEq] at h
      obtain ⟨rfl, rfl⟩ := h
      exact ⟨[1], 60, by simp [S1], rfl⟩
    · intro u h
      unfold S1 at h
      split at h
      · rename_i e; subst e; exact ⟨_, List.mem_singleton.mpr rfl⟩
      · exact absurd rfl h
  visible := by
    intro u r r' h h'
    obtain ⟨rfl, -⟩ := oldList_mem h
    obtain ⟨e, -⟩ := newList_mem h'
    exact absurd e (by decide)
  years := by
    rintro u r t (h | h) ht
    · obtain ⟨-, rfl⟩ := oldList_mem h; cases ht; decide +kernel
    · obtain ⟨-, rfl⟩ := newList_mem h; cases ht; decide +kernel

theorem stands10 : Stands ratFt [] cfg10 theSites places world0 S0 where
  mapped := { stands.mapped with mapper := stands.mapped.mapper }
  room := stands.room
  copy := stands.copy
  state := stands.state

theorem setUp10 : SetUp cfg10 (uri "rl.xml") := ⟨by decide +kernel, by decide +kernel, by decide, rfl, rfl, by decide⟩

theorem nearSelf (S : Snapshot) : NearSnapshot S S := by
  intro u
  refine ⟨rfl, ?_⟩
  cases S u with
  | none => trivial
  | some p => exact ⟨by show p.2 - 1 / 1000000 < p.2; linarith, by show p.2 < p.2 + 1 / 1000000; linarith⟩

/-- with --from a time in 1970 the client gets from c to a -/
example : (incremental env10 cfg10 true none (some "1970-01-01T00:00:10Z".toList) (freshSt world0)).2 = .ok () ∧
    IsFile (incremental env10 cfg10 true none (some "1970-01-01T00:00:10Z".toList) (freshSt world0)).1.world.fs (at_ "a") [1] 60 ∧
    ∃ S', NearSnapshot S1 S' ∧
      IsCopy theSites (incremental env10 cfg10 true none (some "1970-01-01T00:00:10Z".toList) (freshSt world0)).1.world.fs S' := by
  have hdom : ∀ u, S0 u ≠ none ∨ S1 u ≠ none → u = uri "a" ∨ u = uri "b" ∨ u = uri "c" := by
    intro u h
    unfold S0 S1 at h
    by_cases h1 : u = uri "c"
    · exact .inr (.inr h1)
    · by_cases h2 : u = uri "a"
      · exact .inl h2
      · simp [h1, h2] at h
  obtain ⟨h1, S', h2, h3⟩ := C91_applied_partial pubCfg pub none (some "new.xml".toList) "old.xml".toList "/d/changes.xml".toList none
    (by simp) oldList newList S0 S1 publication (fun _ => none) env10 ratFt_ok cfg10 (uri "rl.xml") setUp10 rfl none
    (some "1970-01-01T00:00:10Z".toList) (freshSt world0) rfl theSites places S0 (nearSelf _) stands10 servedAt rfl (uri "changelist.xml")
    (by decide +kernel) (by unfold servedAt; rw [if_pos rfl]; rfl)
    (.inr ⟨⟨_, rfl⟩, ⟨_, rfl⟩, fun u hu => authorised (r := { uri := u }) (hdom u hu)⟩)
    (by
      intro u content t h
      refine ⟨delivers_always (by decide) (fun _ => ⟨_, rfl⟩), ?_⟩
      intro tr b hb
      unfold S1 at h
      split at h
      · cases h
        simp only [env10, env, Reply.body.injEq, and_true] at hb
        exact hb.symm
      · cases h)
    ⟨fun _ _ => rfl, fun _ _ => rfl, fun _ _ => rfl⟩ 10 (by decide +kernel) (by unfold InYears; decide +kernel)
    (by
      intro u r h _
      obtain ⟨-, rfl⟩ := newList_mem h
      exact ⟨60, rfl, by decide +kernel⟩)
    (by
      intro u r h _
      obtain ⟨-, rfl⟩ := oldList_mem h
      exact ⟨50, rfl, by decide +kernel⟩)
    (fun u hu => belowSites (hdom u hu))
    (places_of (fun u hu => hdom u (.inr hu)))
  exact ⟨h1, by unfold IsFile; decide +kernel, S', h2, h3.copy⟩

/-- C91 is violated.  From the stored time on (55: after c was last modified, and before a was), everything being as in C91_applied_partial
otherwise, the client succeeds and never deletes c: the entry for the deletion has the time at which c was last modified.  (By version 1.1
no published change is applied at all, C74_violated.) -/
theorem C91_deletion_violated :
    Publication pubCfg pub none (some "new.xml".toList) "old.xml".toList oldList newList S0 S1 ∧
    Stands ratFt [] cfg10 theSites places world0 S0 ∧ startTime env10 cfg10 none (freshSt world0) = .ok 55 ∧
    (let r := incremental env10 cfg10 true none none (freshSt world0)
     r.2 = .ok () ∧ IsFile r.1.world.fs (at_ "a") [1] 60 ∧ S1 (uri "c") = none ∧ IsFile r.1.world.fs (at_ "c") [7] 50 ∧
     (incremental env10 cfg10 true none none (freshSt r.1.world)).2 = .ok () ∧
     (incremental env10 cfg10 true none none (freshSt r.1.world)).1.world.fs = r.1.world.fs) := by
  refine ⟨publication, stands10, by decide +kernel, ?_⟩
  unfold IsFile
  decide +kernel

end CopyExample

end Resync
