import Verif.Proofs.Chronicle
/-
A baseline sync with room for everything, and what it leaves (lemmas for C87).
-/

namespace Resync
open Py Resync.Spec

theorem Spec.FreeFor.mono {P Q : Loc → Prop} {fs : Fs} (h : FreeFor Q fs) (hPQ : ∀ l, P l → Q l) : FreeFor P fs :=
  ⟨fun a b ha hb => h.apart a b (hPQ a ha) (hPQ b hb), fun l hl => h.noDir l (hPQ l hl), fun l hl => h.noFile l (hPQ l hl)⟩

theorem getLoop_noGaveUp (env : Env) (uri : Str) (l : Loc) : ∀ (n : Nat) (s : St), (getLoop env false uri l n s).2 ≠ .gaveUp := by
  intro n
  induction n with
  | zero => intro s h; cases h
  | succ n ih =>
    intro s
    unfold getLoop
    simp only [Bool.false_eq_true, if_false]
    split
    · simp
    · split
      · simp
      · exact ih _
    · simp
    · simp

/-- a successful update has seen the time -/
theorem updateResource_seen {env : Env} {c : ClientCfg} {s s' : St} {r : Resource} {fn : Str} {n : Nat} (hd : c.dryrun = false)
    (hi : c.ignore_failures = false) (h : updateResource env c s r fn = (s', .ok n)) {t : Rat} (hr : r.timestamp = some t) :
    t ≤ s'.last_timestamp := by
  unfold updateResource at h
  cases hm : mkpath env [] (location env.cwd (dirname fn)) s with
  | mk s1 b =>
  rw [hm] at h
  cases b with
  | false => simp at h
  | true =>
    simp only [hd, Bool.false_eq_true, if_false] at h
    cases hg : getLoop env c.ignore_failures r.uri (location env.cwd fn) c.tries s1 with
    | mk s2 g =>
    rw [hg] at h
    have key : ∀ m, (match setTime s2 (location env.cwd fn) r.timestamp with
        | (s, .error e) => ((s, .error e) : St × Except ClientErr Nat)
        | (s, .ok ()) => (s, .ok m)) = (s', .ok n) → t ≤ s'.last_timestamp := by
      intro m hk
      unfold setTime at hk
      cases hx : s2.world.fs.get (location env.cwd fn) with
      | none => rw [hx] at hk; simp at hk
      | some nd =>
        rw [hx, hr] at hk
        simp only [Prod.mk.injEq] at hk
        rw [← hk.1]
        unfold St.seen
        simp only
        split
        · exact le_refl _
        · rename_i hn; exact not_lt.mp hn
    cases g with
    | raised e => simp at h
    | gaveUp =>
      have := getLoop_noGaveUp env r.uri (location env.cwd fn) c.tries s1
      rw [hi] at hg
      rw [hg] at this
      exact absurd rfl this
    | updated => exact key 1 h
    | skipped => exact key 0 h


variable {env : Env} {c : ClientCfg} {s : St} {site : Str} {sites : List (Map × Loc)} {places : Loc → Prop} {src : Dict Resource} {S : Snapshot}

theorem iterList_nil {d : Dict Resource} (hw : WF d) (h : ∀ u, dget d u = none) : iterList d = [] := by
  rw [List.eq_nil_iff_forall_not_mem]
  intro r hr
  have := (mem_iterList hw).mp hr
  rw [h] at this
  cases this

/-- a first baseline sync: the destinations are empty -/
theorem baseline_first (hft : FloatOk env.ft) (hu : SetUp c site) (hh : ∀ t ∈ s.hashes, HashType t) (hk : ListsKeyed env.sources)
    (hfound : (findResourceList env.sources c.disc).2 = .ok src) (hreg : ListBelow sites src) (hl : Lists src S)
    (hauth : c.noauth = true ∨ ∀ u r, (u, r) ∈ src → Authorised c.strictauth site u)
    (hserve : Offers env c.tries S) (hdisk : DiskWorks env)
    (hst : Stands env.ft env.cwd c sites places s.world (fun _ => none)) (hplaces : ∀ l, PlaceOf sites S l → places l)
    (hpos : ∃ u content t, S u = some (content, t) ∧ 0 < t) (hyears : ∀ u content t, S u = some (content, t) → Before10000 t) :
    (baselineOrAudit env c true false s).2 = .ok () ∧ Stands env.ft env.cwd c sites places (baselineOrAudit env c true false s).1.world S ∧
    ∃ t, startTime env c none (baselineOrAudit env c true false s).1 = .ok t ∧ (∃ u content, S u = some (content, t)) ∧
      ∀ u content t', S u = some (content, t') → t' ≤ t := by
  have hone := hst.mapped
  have hw := found_WF hk hfound
  have hne : src ≠ [] := by
    rintro rfl
    obtain ⟨u, content, t, h1, -⟩ := hpos
    obtain ⟨r, hr⟩ := hl.all u (by rw [h1]; simp)
    cases hr
  have hempty : ∀ p ∈ sites, ∀ names, names ≠ [] → ∀ b t, ¬ IsFile s.world.fs (p.2 ++ names) b t := by
    intro p hp names hne b t hf
    obtain ⟨t', h, -⟩ := (hst.copy p hp names hne (names_of_file hone.tidy hne hf) b t).mp hf
    cases h
  obtain ⟨dst, k1, k2⟩ := hone.scan env.lib (leftHashes s src) (fun t ht => hh t (leftHashes_sub ht))
  have hdst : ∀ u, dget dst u = none := by
    intro u
    cases hg : dget dst u with
    | none => rfl
    | some r =>
      obtain ⟨p, hp, names, b, t, hnn, hf, -⟩ := (k2 u r).mp hg
      exact absurd hf (hempty p hp names hnn b t)
  have hdw : WF dst := (fromDisk_found' hone.proper k1).1
  obtain ⟨h', cmp, e1, -, -, -⟩ := compare_spec (pairHeap dst src) 0 1 (by decide) hdw hw
  have hc := compared hdw hw e1
  have hcr : ∀ u r, dget cmp.created u = some r ↔ dget src u = some r := fun u r => by
    rw [hc.created u r]; simp [hdst u]
  have hup : iterList cmp.updated = [] := iterList_nil hc.wf.updated (fun u => by
    cases hg : dget cmp.updated u with
    | none => rfl
    | some r => obtain ⟨-, a, ha, -⟩ := (hc.updated u r).mp hg; rw [hdst u] at ha; cases ha)
  have hde : iterList cmp.deleted = [] := iterList_nil hc.wf.deleted (fun u => by
    cases hg : dget cmp.deleted u with
    | none => rfl
    | some r => have := ((hc.deleted u r).mp hg).1; rw [hdst u] at this; cases this)
  have hplan : baselinePlan env c false s = ({ s with hashes := leftHashes s src }, .ok (src, cmp)) := by
    unfold baselinePlan
    rw [if_neg (by rw [hone.mapper]; simpa using hone.nonempty)]
    simp only [Bool.false_eq_true, if_false, hu.safe, hfound, if_neg hne]
    have est : (if s.hashes ≠ [] then { s with hashes := pruneHashes s.hashes (listHashes (iterList src)) } else s)
        = { s with hashes := leftHashes s src } := by
      unfold leftHashes; split <;> rfl
    rw [est]
    simp only
    rw [k1]
    simp only [e1]
  have hau : baselineAuthority c src = .ok () := by
    unfold baselineAuthority
    split
    · rfl
    · rename_i hna
      simp only [hu.source]
      have ha := hauth.resolve_left hna
      apply checkAuthority_succeeds
      · obtain ⟨p, hp⟩ := List.exists_mem_of_ne_nil _ hne
        obtain ⟨a, h1, -⟩ := ha p.1 p.2 hp
        exact ⟨a, h1⟩
      · intro r hr
        exact ha r.uri r (mem_of_dget ((mem_iterList hw).mp hr))
  -- the loop
  have hmem : ∀ r, r ∈ iterList cmp.created ↔ dget src r.uri = some r := by
    intro r
    rw [mem_iterList hc.wf.created, hcr]
  obtain ⟨s1, g1, g2, g3, g4⟩ := forEach_succeeds (f := updateOne env c)
    (fun x => FreeFor places x.world.fs ∧ x.world.state = s.world.state ∧ True) (iterList cmp.created) (by
      rintro r hr x ⟨i1, i2, -⟩
      have hm := mem_of_dget ((hmem r).mp hr)
      obtain ⟨content, t, hS, hrt⟩ := hl.listed _ _ hm
      obtain ⟨p, hp, names, h1, h2, h3⟩ := hreg _ _ hm
      obtain ⟨fn, f1, f2, f3⟩ := hone.maps_dir hp h1 h2
      have hin : places (p.2 ++ names) := hplaces _ ⟨p, hp, names, h1, h2, rfl, by rw [← h3, hS]; simp⟩
      obtain ⟨x', n, u1, u2, u3⟩ := updateResource_succeeds (r := r) ⟨(hserve _ _ _ hS).1, hdisk.mkdir, hdisk.openW⟩ hu.real f2 f3 hin i1
      refine ⟨x', ?_, u2, u3.trans i2, trivial⟩
      unfold updateOne
      rw [h3, f1]
      simp only [u1]) { s with hashes := leftHashes s src, last_timestamp := 0 } ⟨hst.room, rfl, trivial⟩
  have hlast := forEach_last (f := updateOne env c) (iterList cmp.created) (fun r _ s => updateOne_last env c s r)
    { s with hashes := leftHashes s src, last_timestamp := 0 }
  rw [g1] at hlast
  have hge : ∀ r ∈ iterList cmp.created, ∀ t, r.timestamp = some t → t ≤ s1.last_timestamp := by
    intro r hr t ht
    obtain ⟨pre, post, hsplit⟩ := List.append_of_mem hr
    rw [hsplit] at g1
    obtain ⟨sa, sb, ha, hb, hcc⟩ := forEach_split g1
    have h1 : t ≤ sb.last_timestamp := by
      unfold updateOne at hb
      split at hb
      · simp at hb
      · rename_i fn _
        cases hx : updateResource env c sa r fn with
        | mk sx res =>
        rw [hx] at hb
        cases res with
        | error e => simp at hb
        | ok n =>
          simp only [Prod.mk.injEq, and_true] at hb
          subst hb
          exact updateResource_seen hu.real hu.strict hx ht
    have h2 := forEach_last (f := updateOne env c) post (fun r _ s => updateOne_last env c s r) sb
    rw [hcc] at h2
    exact le_trans h1 h2.2
  have hpos1 : 0 < s1.last_timestamp := by
    obtain ⟨u, content, t, h1, h2⟩ := hpos
    obtain ⟨r, hr⟩ := hl.all u (by rw [h1]; simp)
    obtain ⟨content', t', h3, h4⟩ := hl.listed u r hr
    rw [h1] at h3
    cases h3
    have hd : dget src u = some r := dget_of_mem hw.1 hr
    have hru : r.uri = u := hw.2 u r hd
    exact lt_of_lt_of_le h2 (hge r ((hmem r).mpr (by rw [hru]; exact hd)) t h4)
  obtain ⟨f', p1, p2⟩ : ∃ f', setState env.ft s.world.state site (some s1.last_timestamp) = .ok f' ∧
      getState env.ft f' site = .ok (some s1.last_timestamp) := by
    obtain ⟨ops, o1, o2⟩ := hst.state
    obtain ⟨f', h1, h2, -⟩ := C43_read_back env.ft hft ops o1 s.world.state o2 site hu.named (some s1.last_timestamp)
    exact ⟨f', h1, h2⟩
  have hown := OwnState_set hst.state hu.named p1
  obtain ⟨text, rfl⟩ : ∃ text, f' = some text := by
    cases f' with
    | none =>
      have : getState env.ft none site = .ok none := rfl
      rw [this] at p2
      cases p2
    | some text => exact ⟨text, rfl⟩
  have hcrne : iterList cmp.created ≠ [] := by
    obtain ⟨q, hq⟩ := List.exists_mem_of_ne_nil _ hne
    have hd : dget src q.1 = some q.2 := dget_of_mem hw.1 hq
    have hru : q.2.uri = q.1 := hw.2 _ _ hd
    intro hnil
    have := (hmem q.2).mpr (by rw [hru]; exact hd)
    rw [hnil] at this
    cases this
  have hlog : logTime s1.last_timestamp = .ok () := by
    refine logTime_positive hpos1 ?_
    rcases hlast.1 with e | ⟨r, hr, ht⟩
    · have : s1.last_timestamp = 0 := e
      rw [this] at hpos1
      exact absurd hpos1 (lt_irrefl _)
    · obtain ⟨content, t, hS, hrt⟩ := hl.listed _ _ (mem_of_dget ((hmem r).mp hr))
      rw [ht] at hrt
      cases hrt
      exact hyears _ _ _ hS
  have hres : baselineOrAudit env c true false s = (s1.emit (.setState text), .ok ()) := by
    unfold baselineOrAudit
    rw [hplan]
    simp only
    rw [if_neg]
    · unfold baselineSync
      rw [hau]
      simp only [g1, hup, hde, forEach]
      rw [if_pos hpos1]
      unfold storeState
      rw [hu.source, g3]
      simp only [p1, hlog]
    · rintro (h | h)
      · cases h
      · have : cmp.created = [] := List.length_eq_zero_iff.mp (by omega)
        rw [this] at hcrne
        exact hcrne rfl
  have hok : (baselineOrAudit env c true false s).2 = .ok () := by rw [hres]
  obtain ⟨b1, b2, b3, -, -⟩ := baseline_result_sites hone hh hk hfound hreg hu.real hu.strict hu.tries hdisk.unlink hok
  refine ⟨hok, ⟨b3, ?_, ?_, ?_⟩, s1.last_timestamp, ?_, ?_, ?_⟩
  · rw [hres]; exact g2
  · intro p hp names hnn hn content mtime
    constructor
    · intro hf
      obtain ⟨r, hr⟩ := b2 rfl p hp names hnn ⟨_, _, hf⟩
      obtain ⟨content', t, hS, hrt⟩ := hl.listed _ _ (mem_of_dget hr)
      rcases b1 p hp names r hnn hn hr with ⟨b, m, hserved, hfile, hm⟩ | ⟨b, t, h, -⟩
      · unfold IsFile at hf hfile
        rw [hfile] at hf
        cases hf
        obtain ⟨pre, -, hsv⟩ := hserved
        have hru : r.uri = uriBelow p.1 names := hw.2 _ _ hr
        rw [hru] at hsv
        exact ⟨t, by rw [hS, (hserve _ _ _ hS).2 _ _ hsv], hm t hrt⟩
      · exact absurd h (hempty p hp names hnn b t)
    · rintro ⟨t, hS, rfl⟩
      obtain ⟨r, hr⟩ := hl.all _ (by rw [hS]; simp)
      obtain ⟨content', t', hS', hrt⟩ := hl.listed _ _ hr
      rw [hS] at hS'
      cases hS'
      have hd := dget_of_mem hw.1 hr
      rcases b1 p hp names r hnn hn hd with ⟨b, m, hserved, hfile, hm⟩ | ⟨b, t, h, -⟩
      · obtain ⟨pre, -, hsv⟩ := hserved
        have hru : r.uri = uriBelow p.1 names := hw.2 _ _ hd
        rw [hru] at hsv
        rw [← (hserve _ _ _ hS).2 _ _ hsv, ← hm t hrt]
        exact hfile
      · exact absurd h (hempty p hp names hnn b t)
  · rw [hres]; exact hown
  · rw [hres]
    unfold startTime
    simp only [hu.source]
    have : getState env.ft (s1.emit (.setState text)).world.state site = .ok (some s1.last_timestamp) := p2
    rw [this]
  · rcases hlast.1 with e | ⟨r, hr, ht⟩
    · have : s1.last_timestamp = 0 := e
      rw [this] at hpos1
      exact absurd hpos1 (lt_irrefl _)
    · obtain ⟨content, t, hS, hrt⟩ := hl.listed _ _ (mem_of_dget ((hmem r).mp hr))
      rw [ht] at hrt
      cases hrt
      exact ⟨_, _, hS⟩
  · intro u content t' hS
    obtain ⟨r, hr⟩ := hl.all u (by rw [hS]; simp)
    obtain ⟨content', t, h3, h4⟩ := hl.listed u r hr
    rw [hS] at h3
    cases h3
    have hd := dget_of_mem hw.1 hr
    exact hge r ((hmem r).mpr (by rw [hw.2 _ _ hd]; exact hd)) _ h4

/-- where the times of last modification come from -/
theorem sourceAfter_time {S : Snapshot} {es : List Happening} {u : Str} {content : Bytes} {t : Rat} (h : sourceAfter S es u = some (content, t)) :
    S u = some (content, t) ∨ ∃ e ∈ es, e.entry.timestamp = some t := by
  induction es generalizing S with
  | nil => exact .inl h
  | cons e es ih =>
    rcases ih (S := e.after S) h with h | ⟨f, hf, h⟩
    · unfold Happening.after at h
      split at h
      · split at h
        · cases h
        · right
          refine ⟨e, by simp, ?_⟩
          cases ht : e.entry.timestamp with
          | none => rw [ht] at h; cases h
          | some x => rw [ht] at h; cases h; rfl
      · exact .inl h
    · exact .inr ⟨f, by simp [hf], h⟩

end Resync
