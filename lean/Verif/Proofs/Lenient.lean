import Verif.Spec.Lenient
import Verif.Proofs.Tries
/-
Lemmas for C126: runs that ignore failures.
-/

namespace Resync
open Py Resync.Spec

theorem getLoop_lenient (env : Env) (uri : Str) (l : Loc) : ∀ (n : Nat) (s : St),
    getLoop env true uri l n s = getLoop env false uri l n s ∨
    ((getLoop env false uri l n s).2 = .raised .fatal ∧ Requested uri s (getLoop env false uri l n s).1 ∧
      getLoop env true uri l n s = ((getLoop env false uri l n s).1, .gaveUp))
  | 0, _ => .inl rfl
  | n + 1, s => by
    have ha := tryGet_again env s uri l
    have hm : Requested uri s (tryGet env s uri l).1 := ⟨s, Did.refl _, ha⟩
    unfold getLoop
    simp only
    cases (tryGet env s uri l).2 with
    | none => exact .inl rfl
    | some f =>
      cases f with
      | timeout =>
        simp only
        split
        · exact .inr ⟨rfl, hm, rfl⟩
        · rcases getLoop_lenient env uri l n (tryGet env s uri l).1 with h | ⟨h1, h2, h3⟩
          · exact .inl h
          · exact .inr ⟨h1, .earlier (tryGet_did env s uri l).1.later h2, h3⟩
      | io => exact .inr ⟨rfl, hm, rfl⟩
      | other => exact .inl rfl

theorem goesPast_of {α : Type} {s : St} {p p' : St × Except ClientErr α} {uri : Str} (h1 : p.2 = .error .fatal)
    (h2 : Effect.get uri ∈ doneBetween s p.1) (h3 : Later p.1 p'.1) : GoesPast s p p' := by
  obtain ⟨es, e1, e2, -⟩ := h3
  exact .inr ⟨h1, ⟨uri, h2⟩, es, e1, e2⟩

/-- what comes after the two goes past it as well -/
theorem Spec.GoesPast.next {α β : Type} {s : St} {p p' : St × Except ClientErr α} {q q' : St × Except ClientErr β} (h : GoesPast s p p')
    (hsame : p' = p → GoesPast s q q') (hq : ∀ e, p.2 = .error e → q = (p.1, .error e)) (hl : Later p'.1 q'.1) : GoesPast s q q' := by
  rcases h with h | ⟨h1, ⟨uri, h2⟩, es, h3, h4⟩
  · exact hsame h
  · have e := hq _ h1
    refine goesPast_of (uri := uri) (by rw [e]) (by rw [e]; exact h2) ?_
    rw [e]
    exact Did.trans ⟨es, h3, h4, fun _ _ => trivial⟩ hl

section
variable (env : Env) (c : ClientCfg)

theorem updateResource_lenient (hi : c.ignore_failures = false) {s0 : St} (s : St) (r : Resource) (fn : Str) (h0 : Later s0 s) :
    GoesPast s0 (updateResource env c s r fn) (updateResource env { c with ignore_failures := true } s r fn) := by
  have hmk := Did.trans h0 (mkpath_did env [] (location env.cwd (dirname fn)) s).1.later
  unfold updateResource
  dsimp only
  rcases hm : mkpath env [] (location env.cwd (dirname fn)) s with ⟨s1, b⟩
  rw [hm] at hmk
  cases b with
  | false => exact .inl rfl
  | true =>
    simp only
    split
    · exact .inl rfl
    · rw [hi]
      rcases getLoop_lenient env r.uri (location env.cwd fn) c.tries s1 with h | ⟨h1, h2, h3⟩
      · rw [h]; exact .inl rfl
      · rw [h3]
        rcases hg : getLoop env false r.uri (location env.cwd fn) c.tries s1 with ⟨s2, g⟩
        rw [hg] at h1 h2
        simp only at h1 h2
        subst h1
        exact goesPast_of (uri := r.uri) rfl (Requested.mem (.earlier hmk h2)) (Did.refl _)

theorem updateOne_lenient (hi : c.ignore_failures = false) {s0 : St} (s : St) (r : Resource) (h0 : Later s0 s) :
    GoesPast s0 (updateOne env c s r) (updateOne env { c with ignore_failures := true } s r) := by
  unfold updateOne
  dsimp only
  cases c.disc.mapper.srcToDst r.uri with
  | error e => exact .inl rfl
  | ok fn =>
    simp only
    refine (updateResource_lenient env c hi s r fn h0).next (fun h => by rw [h]; exact .inl rfl) ?_ ?_
    · rcases updateResource env c s r fn with ⟨s1, x⟩
      rintro e rfl
      rfl
    · rcases updateResource env { c with ignore_failures := true } s r fn with ⟨s1, x⟩
      cases x <;> exact Did.refl _

theorem applyOne_lenient (allow : Bool) (hi : c.ignore_failures = false) {s0 : St} (s : St) (r : Resource) (h0 : Later s0 s) :
    GoesPast s0 (applyOne env c allow s r) (applyOne env { c with ignore_failures := true } allow s r) := by
  unfold applyOne
  dsimp only
  cases c.disc.mapper.srcToDst r.uri with
  | error e => exact .inl rfl
  | ok fn =>
    simp only
    by_cases hc : r.change = some sUpdated ∨ r.change = some sCreated
    · rw [if_pos hc, if_pos hc]
      refine (updateResource_lenient env c hi s r fn h0).next (fun h => by rw [h]; exact .inl rfl) ?_ ?_
      · rcases updateResource env c s r fn with ⟨s1, x⟩
        rintro e rfl
        rfl
      · rcases updateResource env { c with ignore_failures := true } s r fn with ⟨s1, x⟩
        cases x <;> exact Did.refl _
    · rw [if_neg hc, if_neg hc]
      exact .inl rfl

theorem forEach_lenient {f f' : St → Resource → St × Except ClientErr Unit} {s0 : St} (hf : ∀ s r, Later s0 s → GoesPast s0 (f s r) (f' s r))
    (hl : ∀ s r, Later s (f' s r).1) (rs : List Resource) (s : St) (h0 : Later s0 s) : GoesPast s0 (forEach f rs s) (forEach f' rs s) := by
  induction rs generalizing s with
  | nil => exact .inl rfl
  | cons r rs ih =>
    unfold forEach
    refine (hf s r h0).next ?_ ?_ ?_
    · intro h
      have h1 := Did.trans h0 (hl s r)
      rw [h] at h1
      rw [h]
      rcases e1 : f s r with ⟨s1, x⟩
      rw [e1] at h1
      cases x with
      | error e => exact .inl rfl
      | ok u => exact ih s1 h1
    · rcases f s r with ⟨s1, x⟩
      rintro e rfl
      rfl
    · rcases f' s r with ⟨s1, x⟩
      cases x with
      | error e => exact Did.refl _
      | ok u => exact forEach_later hl rs s1

/-- a loop and what comes after it -/
theorem forEach_past {f f' : St → Resource → St × Except ClientErr Unit} {s0 : St} (hf : ∀ s r, Later s0 s → GoesPast s0 (f s r) (f' s r))
    (hl : ∀ s r, Later s (f' s r).1) (rs : List Resource) {k k' : St → St × Except ClientErr Unit} (hk : ∀ s, Later s0 s → GoesPast s0 (k s) (k' s))
    (hkl : ∀ s, Later s (k' s).1) (s : St) :
    (Later s0 s → GoesPast s0 (match forEach f rs s with
      | (s, .error e) => (s, .error e)
      | (s, .ok ()) => k s : St × Except ClientErr Unit) (match forEach f' rs s with
      | (s, .error e) => (s, .error e)
      | (s, .ok ()) => k' s : St × Except ClientErr Unit)) ∧
    Later s (match forEach f' rs s with
      | (s, .error e) => (s, .error e)
      | (s, .ok ()) => k' s : St × Except ClientErr Unit).1 := by
  have hlat := forEach_later hl rs s
  have hend : Later (forEach f' rs s).1 (match forEach f' rs s with
      | (s, .error e) => (s, .error e)
      | (s, .ok ()) => k' s : St × Except ClientErr Unit).1 := by
    rcases forEach f' rs s with ⟨s1, x⟩
    cases x with
    | error e => exact Did.refl _
    | ok u => exact hkl s1
  refine ⟨fun h0 => (forEach_lenient hf hl rs s h0).next ?_ ?_ hend, Did.trans hlat hend⟩
  · intro h
    have h1 := Did.trans h0 hlat
    rw [h] at h1
    rw [h]
    rcases e1 : forEach f rs s with ⟨s1, x⟩
    rw [e1] at h1
    cases x with
    | error e => exact .inl rfl
    | ok u => exact hk s1 h1
  · rcases forEach f rs s with ⟨s1, x⟩
    rintro e rfl
    rfl

theorem baselineSync_lenient (allow : Bool) (src : Dict Resource) (cmp : Comparison) (hi : c.ignore_failures = false) {s0 : St}
    (s : St) (h0 : Later s0 s) : GoesPast s0 (baselineSync env c allow src cmp s) (baselineSync env { c with ignore_failures := true } allow src cmp s) := by
  unfold baselineSync
  have ha : baselineAuthority { c with ignore_failures := true } src = baselineAuthority c src := rfl
  rw [ha]
  cases baselineAuthority c src with
  | error e => exact .inl rfl
  | ok u =>
    have u1 := updateOne_lenient env c hi (s0 := s0)
    have u2 := updateOne_later env { c with ignore_failures := true }
    have d1 : ∀ s r, Later s0 s → GoesPast s0 (deleteOne env c allow s r) (deleteOne env { c with ignore_failures := true } allow s r) :=
      fun _ _ _ => .inl rfl
    have d2 := deleteOne_later env { c with ignore_failures := true } allow
    have k3 := forEach_past d1 d2 (iterList cmp.deleted) (k := fun s => if s.last_timestamp > 0 then storeState env c s else (s, .ok ()))
      (k' := fun s => if s.last_timestamp > 0 then storeState env { c with ignore_failures := true } s else (s, .ok ())) (fun _ _ => .inl rfl)
      (finish_later env { c with ignore_failures := true })
    have k2 := forEach_past u1 u2 (iterList cmp.updated) (fun s => (k3 s).1) (fun s => (k3 s).2)
    exact (forEach_past u1 u2 (iterList cmp.created) (fun s => (k2 s).1) (fun s => (k2 s).2) { s with last_timestamp := 0 }).1
      (Did.trans h0 (Did.same rfl rfl))

end

theorem forEach_each {f : St → Resource → St × Except ClientErr Unit} (hl : ∀ s r, Later s (f s r).1) (rs : List Resource) (s : St)
    (h : (forEach f rs s).2 = .ok ()) : ∀ r ∈ rs, ∃ s1, Later s s1 ∧ (f s1 r).2 = .ok () ∧ Later (f s1 r).1 (forEach f rs s).1 := by
  induction rs generalizing s with
  | nil => intro r hr; cases hr
  | cons a rs ih =>
    have h1 := hl s a
    have h2 := forEach_later hl rs
    unfold forEach at h ⊢
    rcases hu : f s a with ⟨s1, x⟩
    rw [hu] at h h1
    cases x with
    | error e => cases h
    | ok u =>
      simp only at h ⊢
      intro r hr
      rcases List.mem_cons.mp hr with rfl | hr
      · exact ⟨s, Did.refl _, by rw [hu], by rw [hu]; exact h2 s1⟩
      · obtain ⟨m, m1, m2, m3⟩ := ih s1 h r hr
        exact ⟨m, Did.trans h1 m1, m2, m3⟩

theorem updateResource_requested (env : Env) (c : ClientCfg) (hd : c.dryrun = false) (ht : 0 < c.tries) (s : St) (r : Resource) (fn : Str) {k : Nat}
    (hk : (updateResource env c s r fn).2 = .ok k) : Requested r.uri s (updateResource env c s r fn).1 := by
  have hmk := (mkpath_did env [] (location env.cwd (dirname fn)) s).1.later
  unfold updateResource at hk ⊢
  rcases hu : mkpath env [] (location env.cwd (dirname fn)) s with ⟨s1, b⟩
  rw [hu] at hk hmk
  cases b with
  | false => cases hk
  | true =>
    simp only [hd, Bool.false_eq_true, if_false] at hk ⊢
    obtain ⟨n, hn⟩ := Nat.exists_eq_succ_of_ne_zero (Nat.pos_iff_ne_zero.mp ht)
    have ha := getLoop_again env c.ignore_failures r.uri (location env.cwd fn) n s1
    rw [show n + 1 = c.tries from hn.symm] at ha
    rcases hg : getLoop env c.ignore_failures r.uri (location env.cwd fn) c.tries s1 with ⟨s2, g⟩
    rw [hg] at ha
    have hs := (setTime_did s2 (location env.cwd fn) r.timestamp).1.later
    rcases hst : setTime s2 (location env.cwd fn) r.timestamp with ⟨s3, x⟩
    rw [hst] at hs
    refine ⟨s1, hmk, ?_⟩
    cases g with
    | raised e => exact ha
    | gaveUp => exact ha
    | updated => simp only [hst]; cases x <;> exact ha.trans hs
    | skipped => simp only [hst]; cases x <;> exact ha.trans hs

theorem updateOne_requests (env : Env) (c : ClientCfg) (hd : c.dryrun = false) (ht : 0 < c.tries) (s : St) (r : Resource)
    (h : (updateOne env c s r).2 = .ok ()) : Requested r.uri s (updateOne env c s r).1 := by
  unfold updateOne at h ⊢
  cases hm : c.disc.mapper.srcToDst r.uri with
  | error e => rw [hm] at h; cases h
  | ok fn =>
    rw [hm] at h
    simp only at h ⊢
    have key := fun {k} => updateResource_requested env c hd ht s r fn (k := k)
    rcases hu : updateResource env c s r fn with ⟨s1, x⟩
    rw [hu] at h key
    cases x with
    | error e => cases h
    | ok k => exact key rfl

theorem applyOne_requests (env : Env) (c : ClientCfg) (allow : Bool) (hd : c.dryrun = false) (ht : 0 < c.tries) (s : St) (r : Resource)
    (hc : r.change = some sUpdated ∨ r.change = some sCreated) (h : (applyOne env c allow s r).2 = .ok ()) :
    Requested r.uri s (applyOne env c allow s r).1 := by
  unfold applyOne at h ⊢
  cases hm : c.disc.mapper.srcToDst r.uri with
  | error e => rw [hm] at h; cases h
  | ok fn =>
    rw [hm] at h
    simp only [if_pos hc] at h ⊢
    have key := fun {k} => updateResource_requested env c hd ht s r fn (k := k)
    rcases hu : updateResource env c s r fn with ⟨s1, x⟩
    rw [hu] at h key
    cases x with
    | error e => cases h
    | ok k => exact key rfl

theorem baselineSync_requests (env : Env) (c : ClientCfg) (allow : Bool) (src : Dict Resource) (cmp : Comparison) (hd : c.dryrun = false)
    (ht : 0 < c.tries) (s : St) (h : (baselineSync env c allow src cmp s).2 = .ok ()) :
    ∀ r ∈ iterList cmp.created ++ iterList cmp.updated, Requested r.uri s (baselineSync env c allow src cmp s).1 := by
  have up : ∀ (rs : List Resource) (s : St), (forEach (updateOne env c) rs s).2 = .ok () →
      ∀ r ∈ rs, Requested r.uri s (forEach (updateOne env c) rs s).1 := by
    intro rs s hok r hr
    obtain ⟨s1, h1, h2, h3⟩ := forEach_each (updateOne_later env c) rs s hok r hr
    exact .earlier h1 ((updateOne_requests env c hd ht s1 r h2).later h3)
  have l0 : Later s { s with last_timestamp := 0 } := Did.same rfl rfl
  unfold baselineSync at h ⊢
  cases ha : baselineAuthority c src with
  | error e => rw [ha] at h; cases h
  | ok u =>
    rw [ha] at h
    simp only at h ⊢
    have u1 := up (iterList cmp.created) { s with last_timestamp := 0 }
    have l1 := forEach_later (updateOne_later env c) (iterList cmp.created) { s with last_timestamp := 0 }
    rcases e1 : forEach (updateOne env c) (iterList cmp.created) { s with last_timestamp := 0 } with ⟨s1, x⟩
    rw [e1] at h u1 l1
    cases x with
    | error e => cases h
    | ok _ =>
      simp only at h ⊢
      have u2 := up (iterList cmp.updated) s1
      have l2 := forEach_later (updateOne_later env c) (iterList cmp.updated) s1
      rcases e2 : forEach (updateOne env c) (iterList cmp.updated) s1 with ⟨s2, x⟩
      rw [e2] at h u2 l2
      cases x with
      | error e => cases h
      | ok _ =>
        simp only at h ⊢
        have l3 := forEach_later (deleteOne_later env c allow) (iterList cmp.deleted) s2
        rcases e3 : forEach (deleteOne env c allow) (iterList cmp.deleted) s2 with ⟨s3, x⟩
        rw [e3] at h l3
        cases x with
        | error e => cases h
        | ok _ =>
          simp only at h ⊢
          have l4 := finish_later env c s3
          intro r hr
          rcases List.mem_append.mp hr with hr | hr
          · exact .earlier l0 ((u1 rfl r hr).later (Did.trans l2 (Did.trans l3 l4)))
          · exact .earlier (Did.trans l0 l1) ((u2 rfl r hr).later (Did.trans l3 l4))

theorem getLoop_not_fatal (env : Env) (uri : Str) (l : Loc) : ∀ (n : Nat) (s : St), (getLoop env true uri l n s).2 ≠ .raised .fatal
  | 0, _ => by unfold getLoop; simp
  | n + 1, s => by
    unfold getLoop
    simp only
    cases (tryGet env s uri l).2 with
    | none => simp
    | some f =>
      cases f with
      | timeout =>
        simp only
        split
        · simp
        · exact getLoop_not_fatal env uri l n _
      | io => simp
      | other => simp

theorem setTime_not_fatal (s : St) (l : Loc) (t : Option Rat) : (setTime s l t).2 ≠ .error .fatal := by
  unfold setTime
  cases s.world.fs.get l with
  | none => simp
  | some n => cases t <;> simp

theorem updateResource_not_fatal (env : Env) (c : ClientCfg) (hi : c.ignore_failures = true) (s : St) (r : Resource) (fn : Str) :
    (updateResource env c s r fn).2 ≠ .error .fatal := by
  unfold updateResource
  rcases mkpath env [] (location env.cwd (dirname fn)) s with ⟨s1, b⟩
  cases b with
  | false => simp
  | true =>
    simp only
    split
    · simp
    · rw [hi]
      have hg := getLoop_not_fatal env r.uri (location env.cwd fn) c.tries s1
      rcases e1 : getLoop env true r.uri (location env.cwd fn) c.tries s1 with ⟨s2, g⟩
      rw [e1] at hg
      have hs := setTime_not_fatal s2 (location env.cwd fn) r.timestamp
      cases g with
      | raised e => simpa using hg
      | gaveUp => simp
      | updated =>
        simp only
        rcases e2 : setTime s2 (location env.cwd fn) r.timestamp with ⟨s3, x⟩
        rw [e2] at hs
        cases x <;> simp_all
      | skipped =>
        simp only
        rcases e2 : setTime s2 (location env.cwd fn) r.timestamp with ⟨s3, x⟩
        rw [e2] at hs
        cases x <;> simp_all

theorem updateOne_not_fatal (env : Env) (c : ClientCfg) (hi : c.ignore_failures = true) (s : St) (r : Resource) :
    (updateOne env c s r).2 ≠ .error .fatal := by
  unfold updateOne
  cases c.disc.mapper.srcToDst r.uri with
  | error e => simp
  | ok fn =>
    have h := updateResource_not_fatal env c hi s r fn
    simp only
    rcases e1 : updateResource env c s r fn with ⟨s1, x⟩
    rw [e1] at h
    cases x <;> simp_all

theorem deleteOne_not_fatal (env : Env) (c : ClientCfg) (allow : Bool) (s : St) (r : Resource) :
    (deleteOne env c allow s r).2 ≠ .error .fatal := by
  unfold deleteOne
  cases c.disc.mapper.srcToDst r.uri <;> simp

theorem applyOne_not_fatal (env : Env) (c : ClientCfg) (allow : Bool) (hi : c.ignore_failures = true) (s : St) (r : Resource) :
    (applyOne env c allow s r).2 ≠ .error .fatal := by
  unfold applyOne
  cases c.disc.mapper.srcToDst r.uri with
  | error e => simp
  | ok fn =>
    have h := updateResource_not_fatal env c hi s r fn
    simp only
    split
    · rcases e1 : updateResource env c s r fn with ⟨s1, x⟩
      rw [e1] at h
      cases x <;> simp_all
    · split <;> simp

theorem forEach_not_fatal {f : St → Resource → St × Except ClientErr Unit} (hf : ∀ s r, (f s r).2 ≠ .error .fatal) (rs : List Resource) (s : St) :
    (forEach f rs s).2 ≠ .error .fatal := by
  induction rs generalizing s with
  | nil => simp [forEach]
  | cons r rs ih =>
    have h := hf s r
    unfold forEach
    rcases e1 : f s r with ⟨s1, x⟩
    rw [e1] at h
    cases x with
    | error e => simpa using h
    | ok u => exact ih s1

theorem storeState_not_fatal (env : Env) (c : ClientCfg) (s : St) : (storeState env c s).2 ≠ .error .fatal := by
  unfold storeState
  cases hs : c.disc.sitemap with
  | error e => 
    simp only
    rintro h
    cases h
    revert hs
    unfold DiscCfg.sitemap DiscCfg.sitemapUri
    repeat' split
    all_goals simp_all
  | ok site =>
    simp only
    cases setState env.ft s.world.state site (some s.last_timestamp) with
    | error e => simp
    | ok o =>
      cases o with
      | none => simp
      | some t =>
        simp only [logTime]
        split <;> simp

theorem finish_not_fatal (env : Env) (c : ClientCfg) (s : St) :
    (if s.last_timestamp > 0 then storeState env c s else (s, .ok ())).2 ≠ .error ClientErr.fatal := by
  split
  · exact storeState_not_fatal env c s
  · simp

theorem baselineSync_fatal (env : Env) (c : ClientCfg) (allow : Bool) (src : Dict Resource) (cmp : Comparison) (hi : c.ignore_failures = true)
    (s : St) (h : (baselineSync env c allow src cmp s).2 = .error .fatal) : (baselineSync env c allow src cmp s).1 = s := by
  unfold baselineSync at h ⊢
  cases ha : baselineAuthority c src with
  | error e => rfl
  | ok u =>
    exfalso
    rw [ha] at h
    simp only at h
    have n1 := forEach_not_fatal (updateOne_not_fatal env c hi) (iterList cmp.created) { s with last_timestamp := 0 }
    rcases e1 : forEach (updateOne env c) (iterList cmp.created) { s with last_timestamp := 0 } with ⟨s1, x⟩
    rw [e1] at h n1
    cases x with
    | error e => exact n1 h
    | ok _ =>
      simp only at h
      have n2 := forEach_not_fatal (updateOne_not_fatal env c hi) (iterList cmp.updated) s1
      rcases e2 : forEach (updateOne env c) (iterList cmp.updated) s1 with ⟨s2, x⟩
      rw [e2] at h n2
      cases x with
      | error e => exact n2 h
      | ok _ =>
        simp only at h
        have n3 := forEach_not_fatal (deleteOne_not_fatal env c allow) (iterList cmp.deleted) s2
        rcases e3 : forEach (deleteOne env c allow) (iterList cmp.deleted) s2 with ⟨s3, x⟩
        rw [e3] at h n3
        cases x with
        | error e => exact n3 h
        | ok _ => exact finish_not_fatal env c s3 h

end Resync
