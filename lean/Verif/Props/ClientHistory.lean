import Verif.Props.ClientExample
import Verif.Proofs.ClientTime
import Verif.Proofs.LogTime
import Verif.Props.ClientState
/-
C55 and C60: the stored state and what it makes later runs do.
-/

namespace Resync
open Py Resync.Spec

/-- How an incremental run goes: it stops with nothing done, or some of the changes are applied, or all of them
and then perhaps the state is written -/
theorem incremental_cases (env : Env) (c : ClientCfg) (allow : Bool) (uri fd : Option Str) (s : St) :
    (((incremental env c allow uri fd s).1.world = s.world ∧ (incremental env c allow uri fd s).1.trace = s.trace)) ∨
    ∃ s1 cl t0 clUri raw kept last s2, IncPlanned env c uri fd s s1 cl t0 clUri raw kept last ∧
      Did (SyncEff env c allow (changedOf cl) (deletedOf cl)) s s2 ∧
      LastIn (fun x => ∃ r ∈ cl, r.timestamp = some x) s1 s2 ∧
      ((incremental env c allow uri fd s).1 = s2 ∨
       (forEach (applyOne env c allow) cl s1 = (s2, .ok ()) ∧ 0 < s2.last_timestamp ∧ ∃ site text, c.disc.sitemap = .ok site ∧
        setState env.ft s.world.state site (some s2.last_timestamp) = .ok (some text) ∧
        incremental env c allow uri fd s = (s2.emit (.setState text), logTime s2.last_timestamp))) := by
  unfold incremental
  obtain ⟨p1, p2⟩ := incrementalPlan_same env c uri fd s
  cases hp : incrementalPlan env c uri fd s with
  | mk s1 x =>
  rw [hp] at p1 p2
  cases x with
  | error e => exact .inl ⟨p1, p2⟩
  | ok cl =>
    simp only
    split
    · exact .inl ⟨p1, p2⟩
    · right
      obtain ⟨t0, clUri, raw, kept, last, hpl⟩ := incrementalPlan_ok hp
      have hd := forEach_did (P := SyncEff env c allow (changedOf cl) (deletedOf cl)) (applyOne env c allow) cl
        (fun r hr s => applyOne_did env c allow _ _ r
          (fun h => List.mem_filter.mpr ⟨hr, by simpa using h⟩) (fun h => List.mem_filter.mpr ⟨hr, by simpa using h⟩) s) s1
      have h0 : Did (SyncEff env c allow (changedOf cl) (deletedOf cl)) s s1 := Did.same p2 p1
      have hl := forEach_last (f := applyOne env c allow) cl (fun r _ s => applyOne_last env c allow s r) s1
      have hd' := h0.trans hd.1
      cases hf : forEach (applyOne env c allow) cl s1 with
      | mk s2 x2 =>
      rw [hf] at hl hd'
      refine ⟨s1, cl, t0, clUri, raw, kept, last, s2, hpl, hd', hl, ?_⟩
      cases x2 with
      | error e => exact .inl rfl
      | ok _ =>
        simp only
        split
        · rename_i hpos
          rcases storeState_cases env c s2 with ⟨site, text, h1, h2, h3⟩ | h
          · right
            have hst := (did_state hd' (fun e he => syncEff_notState he)).1
            simp only at hst
            rw [hst] at h2
            exact ⟨hf, hpos, site, text, h1, h2, h3⟩
          · exact .inl h
        · exact .inl rfl

/-- How a baseline goes: nothing done, or resources fetched and deleted, and then perhaps the state is written -/
theorem baseline_cases (env : Env) (c : ClientCfg) (allow a : Bool) (s : St) :
    ((baselineOrAudit env c allow a s).1.world = s.world ∧ (baselineOrAudit env c allow a s).1.trace = s.trace) ∨
    ∃ s1 src cmp dst s2, Planned env c a s s1 src cmp dst ∧
      Did (SyncEff env c allow (iterList cmp.created ++ iterList cmp.updated) (iterList cmp.deleted)) s s2 ∧
      (s2.last_timestamp = 0 ∨ ∃ r ∈ iterList cmp.created ++ iterList cmp.updated ++ iterList cmp.deleted, r.timestamp = some s2.last_timestamp) ∧
      ((baselineOrAudit env c allow a s).1 = s2 ∨
       (0 < s2.last_timestamp ∧ ∃ site text, c.disc.sitemap = .ok site ∧
        setState env.ft s.world.state site (some s2.last_timestamp) = .ok (some text) ∧
        baselineOrAudit env c allow a s = (s2.emit (.setState text), logTime s2.last_timestamp))) := by
  unfold baselineOrAudit
  obtain ⟨p1, p2, -⟩ := baselinePlan_same env c a s
  cases hp : baselinePlan env c a s with
  | mk s1 x =>
  rw [hp] at p1 p2
  cases x with
  | error e => exact .inl ⟨p1, p2⟩
  | ok y =>
    obtain ⟨src, cmp⟩ := y
    simp only
    split
    · exact .inl ⟨p1, p2⟩
    · obtain ⟨dst, hpl⟩ := baselinePlan_ok hp
      unfold baselineSync
      cases ha : baselineAuthority c src with
      | error e => exact .inl ⟨p1, p2⟩
      | ok _ =>
        right
        simp only
        have h0 : Did (SyncEff env c allow (iterList cmp.created ++ iterList cmp.updated) (iterList cmp.deleted)) s
            { s1 with last_timestamp := 0 } := Did.same p2 p1
        have up : ∀ {P : Rat → Prop} {x y : St}, (∀ t, P t → ∃ r ∈ iterList cmp.created ++ iterList cmp.updated ++ iterList cmp.deleted,
            r.timestamp = some t) → LastIn P x y → (x.last_timestamp = 0 ∨ ∃ r ∈ iterList cmp.created ++ iterList cmp.updated ++ iterList cmp.deleted,
            r.timestamp = some x.last_timestamp) → (y.last_timestamp = 0 ∨ ∃ r ∈ iterList cmp.created ++ iterList cmp.updated ++ iterList cmp.deleted,
            r.timestamp = some y.last_timestamp) := by
          intro P x y hP h hx
          rcases h.1 with e | e
          · rw [e]; exact hx
          · exact .inr (hP _ e)
        obtain ⟨a1, -⟩ := forEach_did (P := SyncEff env c allow (iterList cmp.created ++ iterList cmp.updated) (iterList cmp.deleted))
          (updateOne env c) (iterList cmp.created)
          (fun r hr s => updateOne_did env c allow _ _ r (List.mem_append_left _ hr) s) { s1 with last_timestamp := 0 }
        have a1 := h0.trans a1
        have a2 := up (by rintro t ⟨r, hr, h⟩; exact ⟨r, by simp [hr], h⟩)
          (forEach_last (f := updateOne env c) (iterList cmp.created) (fun r _ s => updateOne_last env c s r) { s1 with last_timestamp := 0 }) (.inl rfl)
        cases h1 : forEach (updateOne env c) (iterList cmp.created) { s1 with last_timestamp := 0 } with
        | mk s3 x3 =>
        rw [h1] at a1 a2
        cases x3 with
        | error e => exact ⟨s1, src, cmp, dst, s3, hpl, a1, a2, .inl rfl⟩
        | ok _ =>
          simp only
          obtain ⟨b1, -⟩ := forEach_did (P := SyncEff env c allow (iterList cmp.created ++ iterList cmp.updated) (iterList cmp.deleted))
            (updateOne env c) (iterList cmp.updated)
            (fun r hr s => updateOne_did env c allow _ _ r (List.mem_append_right _ hr) s) s3
          have b1 := a1.trans b1
          have b2 := up (by rintro t ⟨r, hr, h⟩; exact ⟨r, by simp [hr], h⟩)
            (forEach_last (f := updateOne env c) (iterList cmp.updated) (fun r _ s => updateOne_last env c s r) s3) a2
          cases h2 : forEach (updateOne env c) (iterList cmp.updated) s3 with
          | mk s4 x4 =>
          rw [h2] at b1 b2
          cases x4 with
          | error e => exact ⟨s1, src, cmp, dst, s4, hpl, b1, b2, .inl rfl⟩
          | ok _ =>
            simp only
            obtain ⟨c1, -⟩ := forEach_did (P := SyncEff env c allow (iterList cmp.created ++ iterList cmp.updated) (iterList cmp.deleted))
              (deleteOne env c allow) (iterList cmp.deleted) (fun r hr s => deleteOne_did env c allow _ _ r hr s) s4
            have c1 := b1.trans c1
            have c2 := up (by rintro t ⟨r, hr, h⟩; exact ⟨r, by simp [hr], h⟩)
              (forEach_last (f := deleteOne env c allow) (iterList cmp.deleted) (fun r _ s => deleteOne_last env c allow s r) s4) b2
            cases h3 : forEach (deleteOne env c allow) (iterList cmp.deleted) s4 with
            | mk s5 x5 =>
            rw [h3] at c1 c2
            refine ⟨s1, src, cmp, dst, s5, hpl, c1, c2, ?_⟩
            cases x5 with
            | error e => exact .inl rfl
            | ok _ =>
              simp only
              split
              · rename_i hpos
                rcases storeState_cases env c s5 with ⟨site, text, i1, i2, i3⟩ | h
                · right
                  have hst := (did_state c1 (fun e he => syncEff_notState he)).1
                  simp only at hst
                  rw [hst] at i2
                  exact ⟨hpos, site, text, i1, i2, i3⟩
                · exact .inl h
              · exact .inl rfl

/-- the time at which incremental starts depends on the stored state only -/
theorem startTime_state (env : Env) (c : ClientCfg) (fd : Option Str) (s s' : St) (h : s'.world.state = s.world.state) :
    startTime env c fd s' = startTime env c fd s := by
  unfold startTime
  rw [h]

/-- C55, crashes and failures: at every moment of an incremental sync the stored state is the old one, except when
the run has come to its successful end (or to the message after that, which fails for a time no document can show).  So whenever it stops before that, the next one starts from the same time, and
selects the same changes (and those added since). -/
theorem C55_crash_partial (env : Env) (c : ClientCfg) (allow_deletion : Bool) (uri from_datetime : Option Str) (s : St) (w : World)
    (hw : AtSomeMoment s (incremental env c allow_deletion uri from_datetime s).1 w) :
    (w.state = s.world.state ∧
      ∀ env' : Env, env'.ft = env.ft → ∀ next : St, next.world = w →
        startTime env' c none next = startTime env c none s) ∨
    (w = (incremental env c allow_deletion uri from_datetime s).1.world ∧
      ((incremental env c allow_deletion uri from_datetime s).2 = .ok () ∨
        ((incremental env c allow_deletion uri from_datetime s).2 = .error .uncaught ∧
          ¬ InYears (incremental env c allow_deletion uri from_datetime s).1.last_timestamp))) := by
  have left : w.state = s.world.state → (w.state = s.world.state ∧
      ∀ env' : Env, env'.ft = env.ft → ∀ next : St, next.world = w → startTime env' c none next = startTime env c none s) := by
    intro h
    refine ⟨h, ?_⟩
    rintro env' he next hn
    unfold startTime
    rw [hn, h, he]
  rcases incremental_cases env c allow_deletion uri from_datetime s with ⟨h1, h2⟩ |
    ⟨s1, cl, t0, clUri, raw, kept, last, s2, hpl, hd, hl, h⟩
  · left
    apply left
    obtain ⟨k, rfl⟩ := hw
    unfold doneBetween
    rw [h2]
    simp
  · rcases h with h | ⟨hf, -, site, text, -, -, h⟩
    · left
      rw [h] at hw
      exact left ((did_state hd (fun e he => syncEff_notState he)).2 w hw)
    · rw [h] at hw
      rcases moment_emit hd _ hw with h' | h'
      · exact .inl (left ((did_state hd (fun e he => syncEff_notState he)).2 w h'))
      · right
        rw [h]
        exact ⟨h', logTime_cases s2.last_timestamp⟩

theorem checkTimes_max {rs : List Resource} {last t : Rat} (h : checkTimes rs last = .ok t) :
    (t = last ∨ ∃ r ∈ rs, r.ts_datetime = some t ∨ (r.ts_datetime = none ∧ r.timestamp = some t)) ∧ last ≤ t ∧
    ∀ r ∈ rs, ∀ x, (r.ts_datetime = some x ∨ (r.ts_datetime = none ∧ r.timestamp = some x)) → x ≤ t := by
  induction rs generalizing last with
  | nil =>
    simp only [checkTimes, Except.ok.injEq] at h
    subst h
    exact ⟨.inl rfl, le_refl _, by simp⟩
  | cons a l ih =>
    have step : ∀ v, (a.ts_datetime = some v ∨ (a.ts_datetime = none ∧ a.timestamp = some v)) →
        checkTimes l (if v > last then v else last) = .ok t →
        (t = last ∨ ∃ r ∈ a :: l, r.ts_datetime = some t ∨ (r.ts_datetime = none ∧ r.timestamp = some t)) ∧ last ≤ t ∧
          ∀ r ∈ a :: l, ∀ x, (r.ts_datetime = some x ∨ (r.ts_datetime = none ∧ r.timestamp = some x)) → x ≤ t := by
      intro v hv h
      obtain ⟨i1, i2, i3⟩ := ih h
      have hle : last ≤ (if v > last then v else last) ∧ v ≤ (if v > last then v else last) := by
        split
        · exact ⟨le_of_lt (by assumption), le_refl _⟩
        · exact ⟨le_refl _, not_lt.mp (by assumption)⟩
      refine ⟨?_, le_trans hle.1 i2, ?_⟩
      · rcases i1 with e | ⟨r, hr, hx⟩
        · split at e
          · exact .inr ⟨a, by simp, by rw [e]; exact hv⟩
          · exact .inl e
        · exact .inr ⟨r, by simp [hr], hx⟩
      · intro r hr x hx
        rcases List.mem_cons.mp hr with rfl | hr
        · have : x = v := by
            rcases hx with h1 | ⟨h1, h2⟩ <;> rcases hv with h3 | ⟨h3, h4⟩
            · rw [h1] at h3; cases h3; rfl
            · rw [h1] at h3; cases h3
            · rw [h1] at h3; cases h3
            · rw [h2] at h4; cases h4; rfl
          rw [this]
          exact le_trans hle.2 i2
        · exact i3 r hr x hx
    unfold checkTimes at h
    split at h
    · cases h
    · exact step _ (.inl (by assumption)) h
    · rename_i v hv1 hv
      exact step v (.inr ⟨hv1, hv⟩) h

/-- the time of an entry: its datetime, or else its lastmod -/
def listedTime (r : Resource) : Option Rat := if r.ts_datetime ≠ none then r.ts_datetime else r.timestamp

theorem listedTime_iff (r : Resource) (x : Rat) :
    listedTime r = some x ↔ r.ts_datetime = some x ∨ (r.ts_datetime = none ∧ r.timestamp = some x) := by
  unfold listedTime
  cases r.ts_datetime <;> simp

/-- C55, the next run: if no entry of the change list has a lastmod after its datetime, then after a run either the stored
time is what it was, or all changes selected were gone through and it is the time of the latest entry listed (the run
then ends well, unless this time lies outside the years that can be shown in a message).  The
next run, starting there, selects from any list every change at or after the last one seen. -/
theorem C55_next_run_partial (env : Env) (hft : FloatOk env.ft) (c : ClientCfg) (allow_deletion : Bool)
    (uri from_datetime : Option Str) (s : St) (site : Str) (hsite : c.disc.sitemap = .ok site) (hne : site ≠ [])
    (ops : List (Str × Option Rat)) (hops : ∀ op ∈ ops, op.1 ≠ []) (hstate : setAll env.ft none ops = .ok s.world.state)
    (changes : List Resource) (hread : ChangesRead env c uri changes)
    (hmod : ∀ r ∈ changes, ∀ t d, r.timestamp = some t → r.ts_datetime = some d → t ≤ d) :
    let s' := (incremental env c allow_deletion uri from_datetime s).1
    startTime env c none s' = startTime env c none s ∨
    (∃ t, ((incremental env c allow_deletion uri from_datetime s).2 = .ok () ∨
          ((incremental env c allow_deletion uri from_datetime s).2 = .error .uncaught ∧ ¬ InYears t)) ∧
        startTime env c none s' = .ok t ∧ (∃ r ∈ changes, listedTime r = some t) ∧
        (∀ r ∈ changes, ∀ x, listedTime r = some x → x ≤ t) ∧
        ∀ later v r, r ∈ later → (∃ x, changeTime v r = some x ∧ t ≤ x) →
          ∃ r', r'.uri = r.uri ∧ LastChange later v t r') := by
  intro s'
  have later : ∀ (t : Rat) (l : List Resource) v r, r ∈ l → (∃ x, changeTime v r = some x ∧ t ≤ x) →
      ∃ r', r'.uri = r.uri ∧ LastChange l v t r' := by
    intro t l v r hr hx
    induction l with
    | nil => cases hr
    | cons a k ih =>
      by_cases hk : ∃ y ∈ k, y.uri = r.uri ∧ AtOrAfter v t y
      · have : ∃ r', r'.uri = r.uri ∧ LastChange k v t r' := by
          obtain ⟨y, hy, hyu, hya⟩ := hk
          clear ih hr hx
          induction k generalizing y with
          | nil => cases hy
          | cons b k ih =>
            by_cases hk2 : ∃ z ∈ k, z.uri = r.uri ∧ AtOrAfter v t z
            · obtain ⟨z, hz, hzu, hza⟩ := hk2
              obtain ⟨r', e, bf, af, h1, h2, h3⟩ := ih z hz hzu hza
              exact ⟨r', e, b :: bf, af, by rw [h1]; rfl, h2, h3⟩
            · rcases List.mem_cons.mp hy with rfl | hy
              · refine ⟨y, hyu, [], k, rfl, hya, ?_⟩
                intro z hz hzu hza
                exact hk2 ⟨z, hz, by rw [hzu, hyu], hza⟩
              · exact absurd ⟨y, hy, hyu, hya⟩ hk2
        obtain ⟨r', e, bf, af, h1, h2, h3⟩ := this
        exact ⟨r', e, a :: bf, af, by rw [h1]; rfl, h2, h3⟩
      · rcases List.mem_cons.mp hr with rfl | hr
        · refine ⟨r, rfl, [], k, rfl, hx, ?_⟩
          intro z hz hzu hza
          exact hk ⟨z, hz, hzu, hza⟩
        · exact absurd ⟨r, hr, rfl, hx⟩ hk
  rcases incremental_cases env c allow_deletion uri from_datetime s with ⟨h1, h2⟩ |
    ⟨s1, cl, t0, clUri, raw, kept, last, s2, hpl, hd, hl, h⟩
  · left
    exact startTime_state env c none s s' (by show s'.world.state = _; rw [show s'.world = _ from h1])
  · rcases h with h | ⟨hf, hpos, site', text, h1, h2, h3⟩
    · left
      refine startTime_state env c none s s' ?_
      show (incremental env c allow_deletion uri from_datetime s).1.world.state = _
      rw [h]
      exact (did_state hd (fun e he => syncEff_notState he)).1
    · rw [hsite] at h1
      cases h1
      have hraw : raw = changes := by
        obtain ⟨u, hu1, hu2⟩ := hread
        have := hpl.listUri
        rw [hu1] at this
        cases this
        have := hpl.read
        rw [hu2] at this
        cases this
        rfl
      subst hraw
      obtain ⟨m1, m2, m3⟩ := checkTimes_max hpl.times
      have hs1 : s1.last_timestamp = last := by rw [hpl.state]
      have hsub : ∀ r ∈ cl, r ∈ raw := by
        intro r hr
        obtain ⟨b, a, e, -⟩ := planned_last hpl hr
        rw [e]; simp
      have hlast : s2.last_timestamp = last := by
        rcases hl.1 with e | ⟨r, hr, ht⟩
        · rw [e, hs1]
        · apply le_antisymm
          · cases hdt : r.ts_datetime with
            | none => exact m3 r (hsub r hr) _ (.inr ⟨hdt, ht⟩)
            | some d => exact le_trans (hmod r (hsub r hr) _ d ht hdt) (m3 r (hsub r hr) d (.inl hdt))
          · rw [← hs1]; exact hl.2
      by_cases hz : ∃ r ∈ raw, listedTime r = some last
      · right
        refine ⟨last, ?_, ?_, hz, ?_, later last⟩
        · rw [h3, ← hlast]
          exact logTime_cases _
        · obtain ⟨file', f1, f2, -⟩ := C43_read_back env.ft hft ops hops s.world.state hstate site hne (some s2.last_timestamp)
          rw [h2] at f1
          cases f1
          show startTime env c none (incremental env c allow_deletion uri from_datetime s).1 = _
          rw [h3]
          unfold startTime
          simp only [hsite]
          show (match getState env.ft (some text) site with
            | .error _ => .error .uncaught
            | .ok none => .error .fatal
            | .ok (some t) => .ok t : Except ClientErr Rat) = _
          rw [f2, hlast]
        · intro r hr x hx
          exact m3 r hr x ((listedTime_iff r x).mp hx)
      · -- the list has no entry with a positive time: then nothing is stored
        exfalso
        have hl0 : last = 0 := by
          rcases m1 with e | ⟨r, hr, hx⟩
          · exact e
          · exact absurd ⟨r, hr, (listedTime_iff r last).mpr hx⟩ hz
        rw [hlast, hl0] at hpos
        exact lt_irrefl _ hpos

/-- C55: while every selected change is applied successfully the state moves on only then; with what `successful` means
see C54 (Props/ClientResult.lean).  Here: the same for baseline - its state is written last. -/
theorem C55_baseline_crash_partial (env : Env) (c : ClientCfg) (allow_deletion audit : Bool) (s : St) (w : World)
    (hw : AtSomeMoment s (baselineOrAudit env c allow_deletion audit s).1 w) :
    w.state = s.world.state ∨
    (w = (baselineOrAudit env c allow_deletion audit s).1.world ∧
      ((baselineOrAudit env c allow_deletion audit s).2 = .ok () ∨
        ((baselineOrAudit env c allow_deletion audit s).2 = .error .uncaught ∧
          ¬ InYears (baselineOrAudit env c allow_deletion audit s).1.last_timestamp))) := by
  rcases baseline_cases env c allow_deletion audit s with ⟨h1, h2⟩ | ⟨s1, src, cmp, dst, s2, hpl, hd, hl, h⟩
  · left
    obtain ⟨k, rfl⟩ := hw
    unfold doneBetween
    rw [h2]
    simp
  · rcases h with h | ⟨-, site, text, -, -, h⟩
    · left
      rw [h] at hw
      exact (did_state hd (fun e he => syncEff_notState he)).2 w hw
    · rw [h] at hw
      rcases moment_emit hd _ hw with h' | h'
      · exact .inl ((did_state hd (fun e he => syncEff_notState he)).2 w h')
      · right
        rw [h]
        exact ⟨h', logTime_cases s2.last_timestamp⟩

namespace ClientExample

def from0 : Option Str := some "1970-01-01T00:00:00Z".toList

/-- a change of resource `n` at time `d`, its lastmod `t` -/
def chg (n : String) (kind : Str) (t : Option Rat) (d : Rat) : Resource :=
  { uri := uri n, change := some kind, timestamp := t, ts_datetime := some d }

end ClientExample

open ClientExample in
/-- the hypotheses are met; a run that stores a time, and one that stops and stores none -/
example :
    setAll ratFt none [] = .ok (start []).world.state ∧
    ChangesRead (env [] [chg "a" sUpdated (some 60) 60, chg "b" sCreated (some 65) 70] [1]) cfg none
      [chg "a" sUpdated (some 60) 60, chg "b" sCreated (some 65) 70] ∧
    (let e := env [] [chg "a" sUpdated (some 60) 60, chg "b" sCreated (some 65) 70] [1]
     startTime e cfg none (incremental e cfg false none from0 (start ["a"])).1 = .ok 70) ∧
    (let e := { env [] [chg "a" sUpdated (some 60) 60, chg "b" sCreated (some 65) 70] [1] with
                  serve := fun _ u => if u = uri "b" then .fail .io else .body [1] none }
     (incremental e cfg false none from0 (start ["a"])).2 = .error .fatal ∧
     (incremental e cfg false none from0 (start ["a"])).1.world.state = none ∧
     (incremental e cfg false none from0 (start ["a"])).1.world.fs.get (at_ "a") = some (.file [1] 60)) :=
  ⟨rfl, ⟨uri "changelist.xml", by decide +kernel, rfl⟩, by decide +kernel, by decide +kernel⟩

open ClientExample in
/-- C55 fails.  The stored time moves past changes that have not been applied, and the next run does not select
them: (1) with ignore_failures, a change whose download failed; (2) deletions without allow_deletion when there are other
changes; (3) a deletion whose unlink failed; (4) when an entry's lastmod is later than its datetime, changes
which had not even been listed. -/
theorem C55_violated :
    (let e := { env [] [chg "a" sUpdated none 60, chg "b" sCreated none 70] [1] with
                  serve := fun _ u => if u = uri "a" then .fail .io else .body [1] none }
     let r := incremental e { cfg with ignore_failures := true } false none from0 (start ["a"])
     r.2 = .ok () ∧ r.1.world.fs.get (at_ "a") = some (.file [7] 50) ∧ startTime e cfg none r.1 = .ok 70) ∧
    (let e := env [] [chg "a" sDeleted none 60, chg "b" sCreated none 70] [1]
     let r := incremental e cfg false none from0 (start ["a"])
     r.2 = .ok () ∧ r.1.world.fs.get (at_ "a") = some (.file [7] 50) ∧ startTime e cfg none r.1 = .ok 70) ∧
    (let e := { env [] [chg "a" sDeleted none 60] [1] with unlinkFails := fun _ _ => true }
     let r := incremental e cfg true none from0 (start ["a"])
     r.2 = .ok () ∧ r.1.world.fs.get (at_ "a") = some (.file [7] 50) ∧ startTime e cfg none r.1 = .ok 60) ∧
    (let e := env [] [chg "a" sUpdated (some 100) 60] [1]
     let r := incremental e cfg false none from0 (start ["a"])
     let later := chg "a" sUpdated (some 80) 80
     r.2 = .ok () ∧ startTime e cfg none r.1 = .ok 100 ∧
     (incremental (env [] [chg "a" sUpdated (some 100) 60, later] [2]) cfg false none none r.1).2 = .ok () ∧
     (incremental (env [] [chg "a" sUpdated (some 100) 60, later] [2]) cfg false none none r.1).1.world.fs.get (at_ "a") =
       some (.file [1] 100)) := by
  decide +kernel

/-! ### C60 -/

/-- C60, the part that holds: after a baseline the stored time is what it was, or the time of a resource of the source
list, or the modification time of a local file which is not in the source list. -/
theorem C60_partial (env : Env) (hft : FloatOk env.ft) (c : ClientCfg) (allow_deletion audit : Bool) (s : St)
    (hk : ListsKeyed env.sources) (hfs : ProperFs s.world.fs)
    (site : Str) (hsite : c.disc.sitemap = .ok site) (hne : site ≠ [])
    (ops : List (Str × Option Rat)) (hops : ∀ op ∈ ops, op.1 ≠ []) (hstate : setAll env.ft none ops = .ok s.world.state) :
    let s' := (baselineOrAudit env c allow_deletion audit s).1
    getState env.ft s'.world.state site = getState env.ft s.world.state site ∨
    ∃ t, getState env.ft s'.world.state site = .ok (some t) ∧
      ((∃ src u r, (findResourceList env.sources c.disc).2 = .ok src ∧ (u, r) ∈ src ∧ r.timestamp = some t) ∨
       (∃ path u content, c.disc.mapper.dstToSrc path = .ok u ∧ ¬ SourceUri env c u ∧
         IsFile s.world.fs (location env.cwd path) content t)) := by
  intro s'
  rcases baseline_cases env c allow_deletion audit s with ⟨h1, h2⟩ | ⟨s1, src, cmp, dst, s2, hpl, hd, hl, h⟩
  · left
    show getState env.ft (baselineOrAudit env c allow_deletion audit s).1.world.state site = _
    rw [h1]
  · rcases h with h | ⟨hpos, site', text, e1, e2, h⟩
    · left
      show getState env.ft (baselineOrAudit env c allow_deletion audit s).1.world.state site = _
      rw [h, (did_state hd (fun e he => syncEff_notState he)).1]
    · right
      rw [hsite] at e1
      cases e1
      obtain ⟨file', f1, f2, -⟩ := C43_read_back env.ft hft ops hops s.world.state hstate site hne (some s2.last_timestamp)
      rw [e2] at f1
      cases f1
      refine ⟨s2.last_timestamp, ?_, ?_⟩
      · show getState env.ft (baselineOrAudit env c allow_deletion audit s).1.world.state site = _
        rw [h]
        exact f2
      · have hpf := planFacts hk hfs hpl
        rcases hl with e | ⟨r, hr, ht⟩
        · rw [e] at hpos
          exact absurd hpos (lt_irrefl _)
        · rcases List.mem_append.mp hr with hr | hr
          · left
            exact ⟨src, r.uri, r, hpl.found, mem_of_dget (plan_upd_source hpf hr), ht⟩
          · right
            obtain ⟨d1, path, content, mtime, d2, d3, d4⟩ := plan_del hpf hr
            rw [ht] at d4
            cases d4
            refine ⟨path, r.uri, content, d2, ?_, d3⟩
            rintro ⟨src', x, hs', hx⟩
            have := hpl.found
            rw [hs'] at this
            cases this
            rw [dget_of_mem (found_WF hk hs').1 hx] at d1
            cases d1

open ClientExample in
/-- the hypotheses are met, and a time is stored -/
example : setAll ratFt none [] = .ok (start ["a"]).world.state ∧ cfg.disc.sitemap = .ok (uri "rl.xml") ∧
    getState ratFt (baselineOrAudit (env [res "a" 60, res "b" 70] [] [1]) cfg false false (start ["a"])).1.world.state (uri "rl.xml")
      = .ok (some 70) := ⟨rfl, rfl, by decide +kernel⟩

open ClientExample in
/-- C60 fails: all resources of the source are from time 10 or before, but a local file which is not in the source list
(and is not even deleted) has time 50; this is stored, and an incremental sync from the stored state misses a change
made at time 20. -/
theorem C60_violated :
    let r := baselineOrAudit (env [res "b" 10] [] [1]) cfg false false (start ["a"])
    r.2 = .ok () ∧ getState ratFt r.1.world.state (uri "rl.xml") = .ok (some 50) ∧
    (incremental (env [] [chg "b" sUpdated (some 20) 20] [2]) cfg false none none r.1).2 = .ok () ∧
    (incremental (env [] [chg "b" sUpdated (some 20) 20] [2]) cfg false none none r.1).1.world.fs.get (at_ "b") = some (.file [1] 10) := by
  decide +kernel

end Resync
