import Verif.Spec.DryRun
import Verif.Props.ClientLog
/-
Lemmas for C122.
-/

namespace Resync
open Py Resync.Spec

theorem announcedIn_append (a b : List LogMsg) : announcedIn (a ++ b) = announcedIn a ++ announcedIn b := List.filterMap_append

theorem announcedIn_start (ch u f : Str) (log : List LogMsg) : announcedIn (.start ch u f :: log) = announcedIn log := rfl

section
variable {cwd : Loc}

theorem DoneBy_more {log log' : List LogMsg} (h : ∀ m ∈ log, m ∈ log') {d : Deed} {es : List Effect} (hd : DoneBy cwd log d es) : DoneBy cwd log' d es := by
  cases d with
  | fetch u f => exact hd
  | remove u f => exact hd.imp id (fun ⟨h1, h2⟩ => ⟨h1, h _ h2⟩)

theorem doesInTurn_nil (ok : Prop) (log : List LogMsg) : DoesInTurn cwd [] ok log [] :=
  ⟨[], [], [], rfl, .nil, .inl ⟨rfl, rfl⟩⟩

theorem doesInTurn_seq {p1 p2 : List Deed} {ok1 ok : Prop} {l1 l2 : List LogMsg} {e1 e2 : List Effect} (h1 : DoesInTurn cwd p1 ok1 l1 e1) (hok : ok1)
    (h2 : DoesInTurn cwd p2 ok l2 e2) : DoesInTurn cwd (p1 ++ p2) ok (l1 ++ l2) (e1 ++ e2) := by
  obtain ⟨d1, q1, r1, a1, a2, a3⟩ := h1
  obtain ⟨d2, q2, r2, b1, b2, b3⟩ := h2
  rcases a3 with ⟨rfl, rfl⟩ | ⟨hn, -⟩
  swap
  · exact absurd hok hn
  refine ⟨d1 ++ d2, q1 ++ q2, r2, ?_, ?_, ?_⟩
  · rw [a1, b1]; simp
  · exact List.rel_append (a2.imp (fun _ _ => DoneBy_more (fun m hm => List.mem_append_left _ hm)))
      (b2.imp (fun _ _ => DoneBy_more (fun m hm => List.mem_append_right _ hm)))
  · rcases b3 with ⟨rfl, h⟩ | ⟨hn, d, hd, h⟩
    · exact .inl ⟨rfl, h⟩
    · refine .inr ⟨hn, d, ?_, h⟩
      rw [List.append_assoc]
      exact (List.prefix_append_right_inj _).mpr hd

theorem doesInTurn_stop {p1 : List Deed} (p2 : List Deed) {ok1 ok : Prop} {log : List LogMsg} {es : List Effect}
    (h1 : DoesInTurn cwd p1 ok1 log es) (hok : ¬ ok) : DoesInTurn cwd (p1 ++ p2) ok log es := by
  obtain ⟨d1, q1, r1, a1, a2, a3⟩ := h1
  refine ⟨d1, q1, r1, a1, a2, ?_⟩
  rcases a3 with ⟨rfl, rfl⟩ | ⟨-, d, hd, h⟩
  · cases p2 with
    | nil => exact .inl ⟨(List.append_nil _).symm, rfl⟩
    | cons d p2 => exact .inr ⟨hok, d, (List.prefix_append_right_inj _).mpr ⟨p2, rfl⟩, by simp⟩
  · exact .inr ⟨hok, d, hd.trans (List.prefix_append _ _), h⟩

theorem doesInTurn_none {p : List Deed} {ok1 ok : Prop} {log : List LogMsg} {es : List Effect} (h : DoesInTurn cwd p ok1 log es) (hok : ¬ ok) :
    DoesInTurn cwd p ok log es := by
  have := doesInTurn_stop [] h hok
  rwa [List.append_nil] at this

theorem doesInTurn_done {p : List Deed} {ok1 ok : Prop} {log : List LogMsg} {es : List Effect} (h : DoesInTurn cwd p ok1 log es) (hok : ok1) :
    DoesInTurn cwd p ok log es := by
  obtain ⟨a, b, r, p1, p2, p3⟩ := h
  exact ⟨a, b, r, p1, p2, p3.imp id (fun h => absurd hok h.1)⟩

end

/-- what the trace of the later state has more -/
structure RealStep (env : Env) (item : List Deed) (s : St) (o : St × Except ClientErr Unit × List LogMsg) : Prop where
  does : ∃ es, o.1.trace = s.trace ++ es ∧ DoesInTurn env.cwd item (o.2.1 = .ok ()) o.2.2 es

/-- a step that a dry run takes, too, with this announcement -/
def DryStep (good : Prop) (item : List Deed) (o : St × Except ClientErr Unit × List LogMsg) : Prop :=
  o.2.1 = .ok () → good ∧ announcedIn o.2.2 = item

theorem forLog_dry {f : St → Resource → St × Except ClientErr Unit × List LogMsg} {good : Resource → Prop} {item : Resource → List Deed}
    (hf : ∀ s r, DryStep (good r) (item r) (f s r)) : ∀ rs s, DryStep (∀ r ∈ rs, good r) (rs.flatMap item) (forLog f rs s)
  | [], s => fun _ => ⟨by simp, rfl⟩
  | r :: rs, s => by
    have h := hf s r
    unfold forLog
    rcases hx : f s r with ⟨s1, x, log⟩
    rw [hx] at h
    cases x with
    | error e => intro h; cases h
    | ok u =>
      intro hok
      obtain ⟨h1, h2⟩ := h rfl
      obtain ⟨i1, i2⟩ := forLog_dry hf rs s1 hok
      refine ⟨?_, ?_⟩
      · intro r' hr
        rcases List.mem_cons.mp hr with rfl | hr
        · exact h1
        · exact i1 r' hr
      · show announcedIn (log ++ _) = _
        rw [announcedIn_append, i2, h2]
        rfl

theorem forLog_real {env : Env} {f : St → Resource → St × Except ClientErr Unit × List LogMsg} {item : Resource → List Deed} :
    ∀ rs, (∀ r ∈ rs, ∀ s, RealStep env (item r) s (f s r)) → ∀ s, RealStep env (rs.flatMap item) s (forLog f rs s)
  | [], _, s => ⟨[], by simp [forLog], doesInTurn_nil _ _⟩
  | r :: rs, hf, s => by
    obtain ⟨es, h1, h2⟩ := (hf r List.mem_cons_self s).does
    unfold forLog
    rcases hx : f s r with ⟨s1, x, log⟩
    rw [hx] at h1 h2
    cases x with
    | error e => exact ⟨es, h1, doesInTurn_stop _ h2 (by intro h; cases h)⟩
    | ok u =>
      obtain ⟨es', i1, i2⟩ := (forLog_real rs (fun r' hr => hf r' (List.mem_cons_of_mem _ hr)) s1).does
      refine ⟨es ++ es', ?_, doesInTurn_seq h2 rfl i2⟩
      show (forLog f rs s1).1.trace = _
      rw [i1, h1, List.append_assoc]

/-! ### One resource -/

theorem tryGet_requests (env : Env) (s : St) (uri : Str) (l : Loc) : ∃ es, (tryGet env s uri l).1.trace = s.trace ++ .get uri :: es := by
  have h : ∀ t : St, (∃ es, t.trace = (s.emit (.get uri)).trace ++ es) → ∃ es, t.trace = s.trace ++ .get uri :: es := by
    rintro t ⟨es, he⟩
    exact ⟨es, by rw [he]; show (s.trace ++ [.get uri]) ++ es = _; simp⟩
  unfold tryGet
  simp only
  split
  · exact h _ ⟨[], by simp⟩
  · split
    · exact h _ ⟨[], by simp⟩
    · rename_i b _ _ _ s2 hs2
      obtain ⟨-, _, _, rfl⟩ := openW_some hs2
      exact h _ ⟨[.trunc l (env.now (s.emit (.get uri)).trace), .append l b], by
        show ((s.emit (.get uri)).trace ++ [_]) ++ [_] = _
        simp⟩

theorem getLoop_requests (env : Env) (ig : Bool) (uri : Str) (l : Loc) (n : Nat) (s : St) :
    ∃ es, (getLoop env ig uri l (n + 1) s).1.trace = s.trace ++ .get uri :: es := by
  obtain ⟨es, h⟩ := tryGet_requests env s uri l
  simp only [getLoop]
  split
  · exact ⟨es, h⟩
  · split
    · exact ⟨es, h⟩
    · obtain ⟨es', i1, -⟩ := (getLoop_did env ig uri l n (tryGet env s uri l).1).1
      exact ⟨es ++ es', by rw [i1, h]; simp⟩
  · exact ⟨es, h⟩
  · exact ⟨es, h⟩

theorem setTime_grows (s : St) (l : Loc) (t : Option Rat) : ∃ es, (setTime s l t).1.trace = s.trace ++ es := by
  unfold setTime
  split
  · exact ⟨[], by simp⟩
  · split
    · exact ⟨[], by simp⟩
    · exact ⟨[.utime l _], by rw [St.seen_trace]; rfl⟩

theorem updateResource_requests {env : Env} {c : ClientCfg} (hd : c.dryrun = false) (ht : 0 < c.tries) {s : St} {r : Resource} {fn : Str}
    {k : Nat} (hok : (updateResource env c s r fn).2 = .ok k) : .get r.uri ∈ doneBetween s (updateResource env c s r fn).1 := by
  obtain ⟨n, hn⟩ : ∃ n, c.tries = n + 1 := ⟨c.tries - 1, by omega⟩
  suffices ∃ es, (updateResource env c s r fn).1.trace = s.trace ++ es ∧ .get r.uri ∈ es by
    obtain ⟨es, h1, h2⟩ := this
    rw [doneBetween_eq h1]
    exact h2
  revert hok
  obtain ⟨es0, m1, -⟩ := (mkpath_did env [] (location env.cwd (dirname fn)) s).1
  unfold updateResource
  rcases hm : mkpath env [] (location env.cwd (dirname fn)) s with ⟨s1, b⟩
  rw [hm] at m1
  cases b with
  | false => intro h; cases h
  | true =>
    simp only [hd, Bool.false_eq_true, if_false]
    rw [hn]
    obtain ⟨es1, g1⟩ := getLoop_requests env c.ignore_failures r.uri (location env.cwd fn) n s1
    rcases hg : getLoop env c.ignore_failures r.uri (location env.cwd fn) (n + 1) s1 with ⟨s2, g⟩
    rw [hg] at g1
    have hmem : ∀ t : St, (∃ es, t.trace = s2.trace ++ es) → ∃ es, t.trace = s.trace ++ es ∧ .get r.uri ∈ es := by
      rintro t ⟨es, he⟩
      refine ⟨es0 ++ (.get r.uri :: es1 ++ es), ?_, by simp⟩
      rw [he, g1, m1]
      simp
    obtain ⟨es2, t1⟩ := setTime_grows s2 (location env.cwd fn) r.timestamp
    intro _
    cases g with
    | raised e => exact hmem _ ⟨[], by simp⟩
    | gaveUp => exact hmem _ ⟨[], by simp⟩
    | updated =>
      simp only
      rcases hst : setTime s2 (location env.cwd fn) r.timestamp with ⟨s3, y⟩
      rw [hst] at t1
      cases y <;> exact hmem _ ⟨es2, t1⟩
    | skipped =>
      simp only
      rcases hst : setTime s2 (location env.cwd fn) r.timestamp with ⟨s3, y⟩
      rw [hst] at t1
      cases y <;> exact hmem _ ⟨es2, t1⟩

/-- update_resource does what is part of the fetch -/
theorem updateResourceLog_real {env : Env} {c : ClientCfg} (hd : c.dryrun = false) (ht : 0 < c.tries) (s : St) (r : Resource) (fn ch : Str) :
    ∃ es, (updateResourceLog env c s r fn ch).1.trace = s.trace ++ es ∧ (∀ e ∈ es, PartOf env.cwd (.fetch r.uri fn) e) ∧
      ∀ k, (updateResourceLog env c s r fn ch).2.1 = .ok k → .get r.uri ∈ es := by
  have hrun := updateResourceLog_run env c s r fn ch
  have e1 : (updateResourceLog env c s r fn ch).1 = (updateResource env c s r fn).1 := congrArg Prod.fst hrun
  have e2 : (updateResourceLog env c s r fn ch).2.1 = (updateResource env c s r fn).2 := congrArg Prod.snd hrun
  rw [e1, e2]
  have h1 := (updateResource_did env c s r fn).1
  refine ⟨doneBetween s (updateResource env c s r fn).1, h1.trace, ?_, fun k hk => updateResource_requests hd ht hk⟩
  intro e he
  rcases h1.done e he with ⟨d, rfl, hp⟩ | ⟨-, (rfl | ⟨-, t, rfl⟩ | ⟨-, b, rfl⟩) | ⟨t, rfl⟩⟩
  · exact .inr (.inl ⟨d, rfl, hp⟩)
  · exact .inl rfl
  · exact .inr (.inr (.inl ⟨t, rfl⟩))
  · exact .inr (.inr (.inr (.inl ⟨b, rfl⟩)))
  · exact .inr (.inr (.inr (.inr ⟨t, rfl⟩)))

theorem fetch_does {cwd : Loc} {u f : Str} {ok : Prop} {log : List LogMsg} {es : List Effect} (h : ∀ e ∈ es, PartOf cwd (.fetch u f) e)
    (hok : ok → .get u ∈ es) : DoesInTurn cwd [.fetch u f] ok log es := by
  by_cases hk : ok
  · exact ⟨[.fetch u f], [es], [], by simp, .cons ⟨hok hk, h⟩ .nil, .inl ⟨rfl, rfl⟩⟩
  · exact ⟨[], [], es, rfl, .nil, .inr ⟨hk, .fetch u f, List.prefix_refl _, h⟩⟩

theorem deleteResourceLog_real {env : Env} {c : ClientCfg} (hd : c.dryrun = false) (allow : Bool) (s : St) (r : Resource) (fn : Str) (ok : Prop) :
    ∃ es, (deleteResourceLog env c allow s r fn).1.trace = s.trace ++ es ∧
      DoesInTurn env.cwd (if allow then [.remove r.uri fn] else []) ok (deleteResourceLog env c allow s r fn).2.2 es := by
  unfold deleteResourceLog
  have ht : (s.seen r.timestamp).trace = s.trace := St.seen_trace _ _
  cases allow with
  | false => exact ⟨[], by simp [ht], doesInTurn_nil _ _⟩
  | true =>
    simp only [not_true_eq_false, if_false, hd, Bool.false_eq_true, if_true]
    have hfail : DoesInTurn env.cwd [.remove r.uri fn] ok [.failedDelete r.uri fn] [] :=
      ⟨[.remove r.uri fn], [[]], [], rfl, .cons (.inr ⟨rfl, by simp⟩) .nil, .inl ⟨rfl, rfl⟩⟩
    split
    · split
      · exact ⟨[], by simp [ht], hfail⟩
      · refine ⟨[.unlink (location env.cwd fn)], ?_, [.remove r.uri fn], [[.unlink (location env.cwd fn)]], [], rfl, .cons (.inl rfl) .nil, .inl ⟨rfl, rfl⟩⟩
        show (s.seen r.timestamp).trace ++ [_] = _
        rw [ht]
    · exact ⟨[], by simp [ht], hfail⟩

/-- what there is to do about a resource of the list, and about one which is not -/
def fetchItem (c : ClientCfg) (r : Resource) : List Deed :=
  match c.disc.mapper.srcToDst r.uri with
  | .ok fn => [.fetch r.uri fn]
  | .error _ => []

def removeItem (c : ClientCfg) (allow : Bool) (r : Resource) : List Deed :=
  match c.disc.mapper.srcToDst r.uri with
  | .ok fn => if allow then [.remove r.uri fn] else []
  | .error _ => []

def changeItem (c : ClientCfg) (allow : Bool) (r : Resource) : List Deed :=
  if r.change = some sUpdated ∨ r.change = some sCreated then fetchItem c r else removeItem c allow r

def IsMapped (c : ClientCfg) (r : Resource) : Prop := ∃ fn, c.disc.mapper.srcToDst r.uri = .ok fn

theorem updateOneLog_real {env : Env} {c : ClientCfg} (hd : c.dryrun = false) (ht : 0 < c.tries) (ch : Str) {r : Resource} (hr : IsMapped c r)
    (s : St) : RealStep env (fetchItem c r) s (updateOneLog env c ch s r) := by
  obtain ⟨fn, hfn⟩ := hr
  obtain ⟨es, h1, h2, h3⟩ := updateResourceLog_real (env := env) hd ht s r fn ch
  unfold updateOneLog fetchItem
  rw [hfn]
  simp only
  rcases hu : updateResourceLog env c s r fn ch with ⟨s1, x, log⟩
  rw [hu] at h1 h3
  cases x with
  | error e => exact ⟨es, h1, fetch_does h2 (by intro h; cases h)⟩
  | ok k => exact ⟨es, h1, fetch_does h2 (fun _ => h3 k rfl)⟩

theorem deleteOneLog_real {env : Env} {c : ClientCfg} (hd : c.dryrun = false) (allow : Bool) {r : Resource} (hr : IsMapped c r)
    (s : St) : RealStep env (removeItem c allow r) s (deleteOneLog env c allow s r) := by
  obtain ⟨fn, hfn⟩ := hr
  unfold deleteOneLog removeItem
  rw [hfn]
  exact ⟨deleteResourceLog_real hd allow s r fn _⟩

theorem applyOneLog_real {env : Env} {c : ClientCfg} (hd : c.dryrun = false) (ht : 0 < c.tries) (allow : Bool) {r : Resource}
    (hr : IsMapped c r ∧ (r.change = some sUpdated ∨ r.change = some sCreated ∨ r.change = some sDeleted))
    (s : St) : RealStep env (changeItem c allow r) s (applyOneLog env c allow s r) := by
  obtain ⟨⟨fn, hfn⟩, hch⟩ := hr
  have fetch : ∀ ch, RealStep env (fetchItem c r) s
      (match updateResourceLog env c s r fn ch with
      | (s, .error e, log) => (s, .error e, .start ch r.uri fn :: log)
      | (s, .ok _, log) => (s, .ok (), .start ch r.uri fn :: log)) := by
    intro ch
    have h := updateOneLog_real (env := env) hd ht ch ⟨fn, hfn⟩ s
    unfold updateOneLog at h
    rw [hfn] at h
    exact h
  unfold applyOneLog changeItem
  rw [hfn]
  simp only
  by_cases h1 : r.change = some sUpdated
  · rw [if_pos h1, if_pos (.inl h1)]
    exact fetch sUpdated
  · by_cases h2 : r.change = some sCreated
    · rw [if_neg h1, if_pos h2, if_pos (.inr h2)]
      exact fetch sCreated
    · have h3 : r.change = some sDeleted := by
        rcases hch with h | h | h
        · exact absurd h h1
        · exact absurd h h2
        · exact h
      rw [if_neg h1, if_neg h2, if_pos h3, if_neg (by rintro (h | h); exacts [h1 h, h2 h])]
      have h := deleteOneLog_real (env := env) hd allow ⟨fn, hfn⟩ s
      unfold deleteOneLog at h
      rw [hfn] at h
      exact h

/-! ### The dry run -/

theorem updateResourceLog_dry {env : Env} {c : ClientCfg} (hd : c.dryrun = true) {s s1 : St} {r : Resource} {fn ch : Str} {k : Nat}
    {log : List LogMsg} (h : updateResourceLog env c s r fn ch = (s1, .ok k, log)) : announcedIn log = [.fetch r.uri fn] := by
  unfold updateResourceLog at h
  rcases hm : mkpath env [] (location env.cwd (dirname fn)) s with ⟨s2, b⟩
  rw [hm] at h
  cases b with
  | false => simp at h
  | true =>
    simp only [hd, if_true, Prod.mk.injEq] at h
    rw [← h.2.2]
    rfl

theorem updateOneLog_dry {env : Env} {c : ClientCfg} (hd : c.dryrun = true) (ch : Str) (s : St) (r : Resource) :
    DryStep (IsMapped c r) (fetchItem c r) (updateOneLog env c ch s r) := by
  unfold updateOneLog fetchItem
  cases hfn : c.disc.mapper.srcToDst r.uri with
  | error e => intro h; cases h
  | ok fn =>
    simp only
    rcases hu : updateResourceLog env c s r fn ch with ⟨s1, x, log⟩
    cases x with
    | error e => intro h; cases h
    | ok k => exact fun _ => ⟨⟨fn, hfn⟩, (announcedIn_start _ _ _ _).trans (updateResourceLog_dry hd hu)⟩

theorem deleteOneLog_dry {env : Env} {c : ClientCfg} (hd : c.dryrun = true) (allow : Bool) (s : St) (r : Resource) :
    DryStep (IsMapped c r) (removeItem c allow r) (deleteOneLog env c allow s r) := by
  unfold deleteOneLog removeItem
  cases hfn : c.disc.mapper.srcToDst r.uri with
  | error e => intro h; cases h
  | ok fn =>
    intro _
    refine ⟨⟨fn, hfn⟩, ?_⟩
    unfold deleteResourceLog
    cases allow with
    | false => rfl
    | true => simp only [not_true_eq_false, if_false, hd, if_true]; rfl

theorem applyOneLog_dry {env : Env} {c : ClientCfg} (hd : c.dryrun = true) (allow : Bool) (s : St) (r : Resource) :
    DryStep (IsMapped c r ∧ (r.change = some sUpdated ∨ r.change = some sCreated ∨ r.change = some sDeleted)) (changeItem c allow r)
      (applyOneLog env c allow s r) := by
  have hU := fun ch => updateOneLog_dry (env := env) hd ch s r
  have hD := deleteOneLog_dry (env := env) hd allow s r
  unfold updateOneLog at hU
  unfold deleteOneLog at hD
  unfold applyOneLog changeItem
  cases hfn : c.disc.mapper.srcToDst r.uri with
  | error e => intro h; cases h
  | ok fn =>
    rw [hfn] at hU hD
    simp only at hU hD ⊢
    by_cases h1 : r.change = some sUpdated
    · rw [if_pos h1, if_pos (.inl h1)]
      intro h
      obtain ⟨a, b⟩ := hU sUpdated h
      exact ⟨⟨a, .inl h1⟩, b⟩
    · by_cases h2 : r.change = some sCreated
      · rw [if_neg h1, if_pos h2, if_pos (.inr h2)]
        intro h
        obtain ⟨a, b⟩ := hU sCreated h
        exact ⟨⟨a, .inr (.inl h2)⟩, b⟩
      · rw [if_neg h1, if_neg h2, if_neg (c := _ ∨ _) (by rintro (h | h); exacts [h1 h, h2 h])]
        by_cases h3 : r.change = some sDeleted
        · rw [if_pos h3]
          intro h
          obtain ⟨a, b⟩ := hD h
          exact ⟨⟨a, .inr (.inr h3)⟩, b⟩
        · rw [if_neg h3]
          intro h
          cases h

end Resync
