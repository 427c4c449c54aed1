import Verif.Props.ClientExample
/-
C58 and C59: downloading one resource.
-/

namespace Resync
open Py Resync.Spec

/-- the requests among some effects -/
def requests (es : List Effect) : List Effect := es.filter (fun e => match e with | .get _ => true | _ => false)

/-- a reply that ends in a timeout, at once or while the body is transferred -/
def TimedOut (r : Reply) : Prop := r = .fail .timeout ∨ ∃ b, r = .body b (some .timeout)

/-- Each request was for `uri` and, if another one follows, ended in a timeout -/
def RetriedAfterTimeout (env : Env) (s : St) (uri : Str) (es : List Effect) : Prop :=
  ∀ pre u post, es = pre ++ .get u :: post → u = uri ∧ (requests post ≠ [] → TimedOut (env.serve (s.trace ++ pre) uri))

/-- The last request was answered by exactly these bytes -/
def LastReply (env : Env) (s : St) (uri : Str) (es : List Effect) (b : Bytes) : Prop :=
  ∃ pre post, es = pre ++ .get uri :: post ∧ requests post = [] ∧ env.serve (s.trace ++ pre) uri = .body b none

theorem tryGet_spec (env : Env) (s : St) (uri : Str) (l : Loc) :
    ∃ es, (tryGet env s uri l).1.trace = s.trace ++ .get uri :: es ∧ requests es = [] ∧
      ((tryGet env s uri l).2 = some .timeout → TimedOut (env.serve s.trace uri)) ∧
      ((tryGet env s uri l).2 = none → ∃ b m, env.serve s.trace uri = .body b none ∧
        IsFile (tryGet env s uri l).1.world.fs l b m) := by
  unfold tryGet
  simp only
  cases hr : env.serve s.trace uri with
  | fail e =>
    refine ⟨[], rfl, rfl, ?_, by simp⟩
    simp only [Option.some.injEq]
    rintro rfl
    exact .inl rfl
  | body b broken =>
    simp only
    cases ho : openW env (s.emit (.get uri)) l with
    | none => exact ⟨[], rfl, rfl, by simp, by simp⟩
    | some s2 =>
      obtain ⟨hl, _, _, rfl⟩ := openW_some ho
      refine ⟨[.trunc l (env.now (s.emit (.get uri)).trace), .append l b], ?_, rfl, ?_, ?_⟩
      · simp [St.emit]
      · rintro h
        simp only at h
        subst h
        exact .inr ⟨b, rfl⟩
      · intro h
        simp only at h
        subst h
        refine ⟨b, env.now (s.emit (.get uri)).trace, rfl, ?_⟩
        unfold IsFile
        simp only [St.emit, World.apply, Effect.onFs]
        rw [get_set_self _ _ _ hl]
        simp only [List.nil_append]
        rw [get_set_self _ _ _ hl]

theorem requests_append (a b : List Effect) : requests (a ++ b) = requests a ++ requests b := List.filter_append ..

theorem no_get_mem {es : List Effect} (h : requests es = []) {u : Str} : Effect.get u ∉ es := by
  intro hm
  have : Effect.get u ∈ requests es := List.mem_filter.mpr ⟨hm, rfl⟩
  rw [h] at this
  cases this

theorem cons_get_split {u : Str} {es : List Effect} (hes : requests es = []) {rest pre post : List Effect} {v : Str}
    (h : (Effect.get u :: es) ++ rest = pre ++ .get v :: post) :
    (pre = [] ∧ v = u ∧ post = es ++ rest) ∨ ∃ pre', pre = (.get u :: es) ++ pre' ∧ rest = pre' ++ .get v :: post := by
  rw [List.append_eq_append_iff] at h
  rcases h with ⟨a, h1, h2⟩ | ⟨a, h1, h2⟩
  · exact .inr ⟨a, h1, h2⟩
  · cases a with
    | nil =>
      simp only [List.append_nil] at h1
      simp only [List.nil_append] at h2
      exact .inr ⟨[], by simp [h1], by simp [h2]⟩
    | cons x a =>
      simp only [List.cons_append, List.cons.injEq] at h2
      obtain ⟨rfl, rfl⟩ := h2
      cases pre with
      | nil =>
        simp only [List.nil_append, List.cons.injEq, Effect.get.injEq] at h1
        exact .inl ⟨rfl, h1.1.symm, by rw [h1.2]⟩
      | cons y pre =>
        simp only [List.cons_append, List.cons.injEq] at h1
        exact absurd (by rw [h1.2]; simp) (no_get_mem hes (u := v))

theorem getLoop_spec (env : Env) (ig : Bool) (uri : Str) (l : Loc) (n : Nat) (s : St) :
    ∃ es, (getLoop env ig uri l n s).1.trace = s.trace ++ es ∧ (requests es).length ≤ n ∧
      RetriedAfterTimeout env s uri es ∧
      ((getLoop env ig uri l n s).2 = .updated → ∃ b m, LastReply env s uri es b ∧ IsFile (getLoop env ig uri l n s).1.world.fs l b m) := by
  induction n generalizing s with
  | zero =>
    refine ⟨[], by simp [getLoop], by simp [requests], ?_, by simp [getLoop]⟩
    intro pre u post h
    simp at h
  | succ n ih =>
    obtain ⟨es, h1, h2, h3, h4⟩ := tryGet_spec env s uri l
    have one : RetriedAfterTimeout env s uri (.get uri :: es) := by
      intro pre u post h
      rcases cons_get_split h2 (rest := []) (by simpa using h) with ⟨rfl, rfl, rfl⟩ | ⟨pre', -, h⟩
      · exact ⟨rfl, fun hne => absurd (by simpa using h2) hne⟩
      · simp at h
    have len1 : (requests (.get uri :: es)).length ≤ n + 1 := by
      have : requests (.get uri :: es) = .get uri :: requests es := rfl
      rw [this, h2]; simp
    simp only [getLoop]
    split
    · rename_i hg
      refine ⟨_, h1, len1, one, ?_⟩
      intro _
      obtain ⟨b, m, hb, hf⟩ := h4 hg
      exact ⟨b, m, ⟨[], es, rfl, h2, by simpa using hb⟩, hf⟩
    · rename_i hg
      split
      · refine ⟨_, h1, len1, one, ?_⟩
        cases ig <;> simp
      · obtain ⟨fs, i1, i2, i3, i4⟩ := ih (tryGet env s uri l).1
        refine ⟨(.get uri :: es) ++ fs, ?_, ?_, ?_, ?_⟩
        · rw [i1, h1]; simp
        · rw [requests_append]
          have : requests (.get uri :: es) = .get uri :: requests es := rfl
          rw [this, h2]
          simp only [List.length_append, List.length_cons, List.length_nil]
          omega
        · intro pre u post h
          rcases cons_get_split h2 h with ⟨rfl, rfl, rfl⟩ | ⟨pre', rfl, h'⟩
          · exact ⟨rfl, fun _ => by simpa using h3 hg⟩
          · obtain ⟨j1, j2⟩ := i3 pre' u post h'
            refine ⟨j1, fun hne => ?_⟩
            have := j2 hne
            rw [h1] at this
            simpa using this
        · intro hu
          obtain ⟨b, m, ⟨pre, post, k1, k2, k3⟩, hf⟩ := i4 hu
          refine ⟨b, m, ⟨(.get uri :: es) ++ pre, post, by rw [k1]; simp, k2, ?_⟩, hf⟩
          rw [h1] at k3
          simpa using k3
    · refine ⟨_, h1, len1, one, ?_⟩
      cases ig <;> simp
    · exact ⟨_, h1, len1, one, by simp⟩

theorem mkpath_trace (env : Env) (pre : Loc) (rest : List Str) (s : St) :
    ∃ es, (mkpath env pre rest s).1.trace = s.trace ++ es ∧ requests es = [] := by
  obtain ⟨⟨es, h1, -, h3⟩, -⟩ := mkpath_did env pre rest s
  refine ⟨es, h1, ?_⟩
  unfold requests
  rw [List.filter_eq_nil_iff]
  intro e he
  obtain ⟨d, rfl, -⟩ := h3 e he
  simp

theorem setTime_spec (s : St) (l : Loc) (t : Option Rat) :
    ∃ es, (setTime s l t).1.trace = s.trace ++ es ∧ requests es = [] ∧
      ∀ b m, IsFile s.world.fs l b m → IsFile (setTime s l t).1.world.fs l b (match t with | some t => truncRat t | none => m) := by
  unfold setTime
  split
  · rename_i hg
    refine ⟨[], by simp, rfl, ?_⟩
    intro b m hf
    unfold IsFile at hf
    rw [hg] at hf
    cases hf
  · split
    · exact ⟨[], by simp, rfl, fun b m hf => hf⟩
    · rename_i t
      refine ⟨[.utime l (truncRat t)], by rw [St.seen_trace]; rfl, rfl, ?_⟩
      intro b m hf
      have hl : l ≠ [] := by
        rintro rfl
        unfold IsFile at hf
        rw [get_root] at hf
        cases hf
      unfold IsFile at *
      rw [St.seen_world]
      simp only [St.emit, World.apply, Effect.onFs, hf]
      rw [get_set_self _ _ _ hl]

theorem retried_pad {env : Env} {s s' : St} {uri : Str} {pre es post : List Effect} (ht : s'.trace = s.trace ++ pre)
    (hpre : requests pre = []) (hpost : requests post = []) (h : RetriedAfterTimeout env s' uri es) :
    RetriedAfterTimeout env s uri (pre ++ es ++ post) := by
  intro a u b hab
  have hnp := no_get_mem hpre (u := u)
  have hnq := no_get_mem hpost (u := u)
  rw [List.append_assoc, List.append_eq_append_iff] at hab
  have main : ∀ a', a = pre ++ a' → es ++ post = a' ++ .get u :: b →
      u = uri ∧ (requests b ≠ [] → TimedOut (env.serve (s.trace ++ a) uri)) := by
    rintro a' rfl h2
    rw [List.append_eq_append_iff] at h2
    rcases h2 with ⟨d, -, h2⟩ | ⟨d, h1, h2⟩
    · exact absurd (by rw [h2]; simp) hnq
    · cases d with
      | nil =>
        simp only [List.nil_append] at h2
        exact absurd (by rw [← h2]; simp) hnq
      | cons x d =>
        simp only [List.cons_append, List.cons.injEq] at h2
        obtain ⟨rfl, rfl⟩ := h2
        obtain ⟨j1, j2⟩ := h a' u d h1
        refine ⟨j1, ?_⟩
        rw [requests_append, hpost, List.append_nil]
        intro hne
        have := j2 hne
        rw [ht] at this
        simpa using this
  rcases hab with ⟨a', h1, h2⟩ | ⟨a', h1, h2⟩
  · exact main a' h1 h2
  · cases a' with
    | nil => exact main [] (by simpa using h1.symm) (by simpa using h2.symm)
    | cons x a' =>
      simp only [List.cons_append, List.cons.injEq] at h2
      exact absurd (by rw [h1, ← h2.1]; simp) hnp

/-- C58.  For every behaviour of the server and every number of tries, update_resource makes at most that many requests,
all for the resource, each one after the first only after the one before ended in a timeout; and if it reports an update, the
file holds exactly the bytes of the reply to the last request, with the resource's time if it has one. -/
theorem C58_update_resource (env : Env) (c : ClientCfg) (s : St) (r : Resource) (filename : Str) :
    let s' := (updateResource env c s r filename).1
    (requests (doneBetween s s')).length ≤ c.tries ∧
    RetriedAfterTimeout env s r.uri (doneBetween s s') ∧
    ((updateResource env c s r filename).2 = .ok 1 → ∃ b m, LastReply env s r.uri (doneBetween s s') b ∧
      IsFile s'.world.fs (location env.cwd filename) b m ∧ ∀ t, r.timestamp = some t → m = truncRat t) := by
  obtain ⟨e1, m1, m2⟩ := mkpath_trace env [] (location env.cwd (dirname filename)) s
  have drop : ∀ (x : St) es, x.trace = s.trace ++ es → doneBetween s x = es := by
    intro x es h
    unfold doneBetween
    rw [h, List.drop_left]
  unfold updateResource
  cases hm : mkpath env [] (location env.cwd (dirname filename)) s with
  | mk s1 ok =>
  rw [hm] at m1
  have triv : RetriedAfterTimeout env s r.uri e1 := by
    intro pre u post h
    exact absurd (by rw [h]; simp) (no_get_mem m2 (u := u))
  cases ok with
  | false =>
    simp only
    rw [drop s1 e1 m1, m2]
    exact ⟨by simp, triv, by simp⟩
  | true =>
    simp only
    by_cases hd : c.dryrun
    · simp only [hd, if_true]
      rw [drop s1 e1 m1, m2]
      exact ⟨by simp, triv, by simp⟩
    · simp only [hd, if_false, Bool.false_eq_true]
      obtain ⟨e2, g1, g2, g3, g4⟩ := getLoop_spec env c.ignore_failures r.uri (location env.cwd filename) c.tries s1
      cases hg : getLoop env c.ignore_failures r.uri (location env.cwd filename) c.tries s1 with
      | mk s2 got =>
      rw [hg] at g1 g4
      obtain ⟨e3, t1, t2, t3⟩ := setTime_spec s2 (location env.cwd filename) r.timestamp
      have tr2 : s2.trace = s.trace ++ (e1 ++ e2 ++ []) := by rw [g1, m1]; simp
      have len : (requests (e1 ++ e2)).length ≤ c.tries := by rw [requests_append, m2]; simpa using g2
      have ret := retried_pad (post := []) m1 m2 rfl g3
      have tr3 : (setTime s2 (location env.cwd filename) r.timestamp).1.trace = s.trace ++ (e1 ++ e2 ++ e3) := by
        rw [t1, g1, m1]; simp
      have len3 : (requests (e1 ++ e2 ++ e3)).length ≤ c.tries := by rw [requests_append, t2]; simpa using len
      have ret3 := retried_pad m1 m2 t2 g3
      cases got with
      | raised e =>
        simp only
        rw [drop s2 _ tr2]
        exact ⟨by simpa using len, ret, by simp⟩
      | gaveUp =>
        simp only
        rw [drop s2 _ tr2]
        exact ⟨by simpa using len, ret, by simp⟩
      | skipped =>
        simp only
        cases ht : setTime s2 (location env.cwd filename) r.timestamp with
        | mk s3 x =>
        rw [ht] at tr3
        cases x <;> (simp only; rw [drop s3 _ tr3]; exact ⟨len3, ret3, by simp⟩)
      | updated =>
        obtain ⟨b, m, ⟨pre, post, k1, k2, k3⟩, hf⟩ := g4 rfl
        have hf3 := t3 b m hf
        simp only
        cases ht : setTime s2 (location env.cwd filename) r.timestamp with
        | mk s3 x =>
        rw [ht] at tr3 hf3
        cases x with
        | error e => simp only; rw [drop s3 _ tr3]; exact ⟨len3, ret3, by simp⟩
        | ok _ =>
          simp only
          rw [drop s3 _ tr3]
          refine ⟨len3, ret3, fun _ => ⟨b, _, ⟨e1 ++ pre, post ++ e3, by rw [k1]; simp, ?_, ?_⟩, hf3, ?_⟩⟩
          · rw [requests_append, k2, t2]; rfl
          · rw [m1] at k3; simpa using k3
          · intro t ht'
            rw [ht']

open ClientExample in
/-- a server that times out twice, the second time in the middle of the body, then delivers -/
def slowServer : Env :=
  { env [] [] [] with serve := fun tr _ =>
      match (requests tr).length with
      | 0 => .fail .timeout
      | 1 => .body [9] (some .timeout)
      | _ => .body [1, 2, 3] none }

open ClientExample in
example : (updateResource slowServer cfg (start []) (res "a" 60) "/d/a".toList).2 = .ok 1 ∧
    (requests (updateResource slowServer cfg (start []) (res "a" 60) "/d/a".toList).1.trace).length = 3 ∧
    (updateResource slowServer cfg (start []) (res "a" 60) "/d/a".toList).1.world.fs.get (at_ "a") = some (.file [1, 2, 3] 60) ∧
    (updateResource slowServer { cfg with tries := 2 } (start []) (res "a" 60) "/d/a".toList).2 = .error .fatal := by
  decide +kernel

/-! ### C59 -/

/-- C59, the part that holds: if no reply to a request of this update brings a body, files are as they were, at every
moment.  Missing: when the transfer of the body breaks off, the local copy has gone (C59_violated). -/
theorem C59_no_body_partial (env : Env) (c : ClientCfg) (s : St) (r : Resource) (filename : Str) (ht : 0 < c.tries)
    (hno : ∀ tr, ∃ e, env.serve tr r.uri = .fail e) (w : World) (hw : AtSomeMoment s (updateResource env c s r filename).1 w)
    (l : Loc) (content : Bytes) (mtime : Rat) : IsFile w.fs l content mtime ↔ IsFile s.world.fs l content mtime := by
  have hget : ∀ (n : Nat) (x : St), n ≠ 0 → Did (fun e => ∃ u, e = .get u) x (getLoop env c.ignore_failures r.uri (location env.cwd filename) n x).1 ∧
      ((getLoop env c.ignore_failures r.uri (location env.cwd filename) n x).2 = .gaveUp ∨
        ∃ e, (getLoop env c.ignore_failures r.uri (location env.cwd filename) n x).2 = .raised e) := by
    intro n
    induction n with
    | zero => intro x h; exact absurd rfl h
    | succ n ih =>
      intro x _
      obtain ⟨e, he⟩ := hno x.trace
      have htry : tryGet env x r.uri (location env.cwd filename) = (x.emit (.get r.uri), some e) := by
        unfold tryGet
        rw [he]
      have hd : Did (fun e => ∃ u, e = .get u) x (x.emit (.get r.uri)) := Did.emit _ _ ⟨_, rfl⟩
      simp only [getLoop, htry]
      cases e with
      | timeout =>
        simp only
        split
        · refine ⟨hd, ?_⟩
          cases c.ignore_failures <;> simp
        · rename_i hn
          obtain ⟨i1, i2⟩ := ih (x.emit (.get r.uri)) hn
          exact ⟨hd.trans i1, i2⟩
      | io =>
        refine ⟨hd, ?_⟩
        cases c.ignore_failures <;> simp
      | other => exact ⟨hd, .inr ⟨_, rfl⟩⟩
  have main : Did (fun e => (∃ d, e = .mkdir d) ∨ ∃ u, e = .get u) s (updateResource env c s r filename).1 := by
    obtain ⟨m1, -⟩ := mkpath_did env [] (location env.cwd (dirname filename)) s
    have m1 := m1.mono (Q := fun e => (∃ d, e = .mkdir d) ∨ ∃ u, e = .get u) (fun e ⟨d, h, _⟩ => .inl ⟨d, h⟩)
    unfold updateResource
    cases hm : mkpath env [] (location env.cwd (dirname filename)) s with
    | mk s1 ok =>
    rw [hm] at m1
    cases ok with
    | false => exact m1
    | true =>
      simp only
      split
      · exact m1
      · obtain ⟨g1, g2⟩ := hget c.tries s1 (by omega)
        have g1 := m1.trans (g1.mono (fun e h => .inr h))
        cases hg : getLoop env c.ignore_failures r.uri (location env.cwd filename) c.tries s1 with
        | mk s2 got =>
        rw [hg] at g1 g2
        rcases g2 with rfl | ⟨e, rfl⟩ <;> exact g1
  refine moment_inv main (fun w => IsFile w.fs l content mtime ↔ IsFile s.world.fs l content mtime) Iff.rfl ?_ w hw
  intro w e he hw
  rw [← hw]
  rcases he with ⟨d, rfl⟩ | ⟨u, rfl⟩
  · exact onFs_other (e := .mkdir d) (by simp) (by simp) (by simp) (by simp)
  · exact onFs_other (e := .get u) (by simp) (by simp) (by simp) (by simp)

open ClientExample in
/-- a server that is down -/
example : (∀ tr, ∃ e, ({ env [] [] [] with serve := fun _ _ => .fail .io } : Env).serve tr (uri "a") = .fail e) ∧
    (updateResource { env [] [] [] with serve := fun _ _ => .fail .io } cfg (start ["a"]) (res "a" 60) "/d/a".toList).2 = .error .fatal ∧
    (updateResource { env [] [] [] with serve := fun _ _ => .fail .io } cfg (start ["a"]) (res "a" 60) "/d/a".toList).1.world.fs.get (at_ "a")
      = some (.file [7] 50) := ⟨fun _ => ⟨_, rfl⟩, by decide +kernel, by decide +kernel⟩

open ClientExample in
/-- C59 fails: the connection breaks during the transfer; the update fails (or is passed over with ignore_failures), and of
the local copy, which was complete, nothing is left but the part received. -/
theorem C59_violated :
    let env : Env := { env [] [] [] with serve := fun _ _ => .body [1] (some .io) }
    IsFile (start ["a"]).world.fs (at_ "a") [7] 50 ∧
    (updateResource env cfg (start ["a"]) (res "a" 60) "/d/a".toList).2 = .error .fatal ∧
    IsFile (updateResource env cfg (start ["a"]) (res "a" 60) "/d/a".toList).1.world.fs (at_ "a") [1] 1000 ∧
    (updateResource env { cfg with ignore_failures := true } (start ["a"]) (res "a" 60) "/d/a".toList).2 = .ok 0 ∧
    IsFile (updateResource env { cfg with ignore_failures := true } (start ["a"]) (res "a" 60) "/d/a".toList).1.world.fs (at_ "a") [1] 1000 := by
  unfold IsFile
  decide +kernel

end Resync
