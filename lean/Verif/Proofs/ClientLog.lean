import Verif.Spec.ClientLog
import Verif.Proofs.ClientStatus
import Verif.Props.Hashes
import Verif.Proofs.OneSite
/-
The runs with messages are the runs of Model/Client.lean, and what the messages tell.
-/

namespace Resync
open Py Resync.Spec

/-! ### The same runs -/

/-- without the messages -/
def mute {α : Type} (x : St × Except ClientErr α × List LogMsg) : St × Except ClientErr α := (x.1, x.2.1)

theorem getLoopLog_run (env : Env) (ig : Bool) (tries : Nat) (uri : Str) (l : Loc) (n : Nat) (s : St) :
    ((getLoopLog env ig tries uri l n s).1, (getLoopLog env ig tries uri l n s).2.1) = getLoop env ig uri l n s := by
  induction n generalizing s with
  | zero => rfl
  | succ n ih =>
    simp only [getLoopLog, getLoop]
    cases (tryGet env s uri l).2 with
    | none => rfl
    | some f =>
      cases f with
      | timeout =>
        simp only
        by_cases hn : n = 0
        · rw [if_pos hn, if_pos hn]; cases ig <;> rfl
        · rw [if_neg hn, if_neg hn]; exact ih _
      | io => cases ig <;> rfl
      | other => rfl

theorem finishLog_run (env : Env) (s : St) (l : Loc) (r : Resource) (ch : Str) (n : Nat) :
    mute (finishLog env s l r ch n) = match setTime s l r.timestamp with
      | (s, .error e) => (s, .error e)
      | (s, .ok ()) => (s, .ok n) := by
  unfold finishLog
  cases setTime s l r.timestamp with
  | mk s1 x => cases x <;> rfl

theorem updateResourceLog_run (env : Env) (c : ClientCfg) (s : St) (r : Resource) (fn ch : Str) :
    mute (updateResourceLog env c s r fn ch) = updateResource env c s r fn := by
  unfold updateResourceLog updateResource
  cases mkpath env [] (location env.cwd (dirname fn)) s with
  | mk s1 x =>
    cases x with
    | false => rfl
    | true =>
      simp only
      by_cases hd : c.dryrun = true
      · rw [if_pos hd, if_pos hd]; rfl
      · rw [if_neg hd, if_neg hd]
        have h := getLoopLog_run env c.ignore_failures c.tries r.uri (location env.cwd fn) c.tries s1
        rw [← h]
        cases getLoopLog env c.ignore_failures c.tries r.uri (location env.cwd fn) c.tries s1 with
        | mk s2 y =>
          obtain ⟨g, log⟩ := y
          cases g with
          | raised e => rfl
          | gaveUp => rfl
          | updated => exact finishLog_run env s2 _ r ch 1
          | skipped => exact finishLog_run env s2 _ r ch 0

theorem deleteResourceLog_run (env : Env) (c : ClientCfg) (a : Bool) (s : St) (r : Resource) (fn : Str) :
    ((deleteResourceLog env c a s r fn).1, (deleteResourceLog env c a s r fn).2.1) = deleteResource env c a s r fn := by
  unfold deleteResourceLog deleteResource
  simp only
  split
  · rfl
  · split
    · rfl
    · cases (s.seen r.timestamp).world.fs.get (location env.cwd fn) with
      | none => rfl
      | some n =>
        cases n with
        | dir => rfl
        | file b t => simp only; split <;> rfl

theorem updateOneLog_run (env : Env) (c : ClientCfg) (ch : Str) (s : St) (r : Resource) :
    mute (updateOneLog env c ch s r) = updateOne env c s r := by
  unfold updateOneLog updateOne
  cases c.disc.mapper.srcToDst r.uri with
  | error e => rfl
  | ok fn =>
    simp only
    rw [← updateResourceLog_run env c s r fn ch]
    cases updateResourceLog env c s r fn ch with
    | mk s1 x =>
      obtain ⟨x, log⟩ := x
      cases x <;> rfl

theorem deleteOneLog_run (env : Env) (c : ClientCfg) (a : Bool) (s : St) (r : Resource) :
    mute (deleteOneLog env c a s r) = deleteOne env c a s r := by
  unfold deleteOneLog deleteOne
  cases c.disc.mapper.srcToDst r.uri with
  | error e => rfl
  | ok fn =>
    simp only
    rw [← deleteResourceLog_run env c a s r fn]
    rfl

theorem applyOneLog_run (env : Env) (c : ClientCfg) (a : Bool) (s : St) (r : Resource) :
    mute (applyOneLog env c a s r) = applyOne env c a s r := by
  unfold applyOneLog applyOne
  cases c.disc.mapper.srcToDst r.uri with
  | error e => rfl
  | ok fn =>
    simp only
    by_cases h1 : r.change = some sUpdated
    · rw [if_pos h1, if_pos (Or.inl h1), ← updateResourceLog_run env c s r fn sUpdated]
      cases updateResourceLog env c s r fn sUpdated with
      | mk s1 x =>
        obtain ⟨x, log⟩ := x
        cases x <;> rfl
    · by_cases h2 : r.change = some sCreated
      · rw [if_neg h1, if_pos h2, if_pos (Or.inr h2), ← updateResourceLog_run env c s r fn sCreated]
        cases updateResourceLog env c s r fn sCreated with
        | mk s1 x =>
          obtain ⟨x, log⟩ := x
          cases x <;> rfl
      · rw [if_neg h1, if_neg h2, if_neg (show ¬ (r.change = some sUpdated ∨ r.change = some sCreated) from fun h => h.elim h1 h2)]
        by_cases h3 : r.change = some sDeleted
        · rw [if_pos h3, if_pos h3, ← deleteResourceLog_run env c a s r fn]; rfl
        · rw [if_neg h3, if_neg h3]; rfl

theorem forLog_run {f : St → Resource → St × Except ClientErr Unit × List LogMsg} {g : St → Resource → St × Except ClientErr Unit}
    (h : ∀ s r, mute (f s r) = g s r) : ∀ rs s, mute (forLog f rs s) = forEach g rs s := by
  intro rs
  induction rs with
  | nil => intro s; rfl
  | cons r t ih =>
    intro s
    simp only [forLog, forEach, ← h]
    cases f s r with
    | mk s1 x =>
      obtain ⟨x, log⟩ := x
      cases x with
      | error e => rfl
      | ok u => exact ih s1

theorem baselineSyncLog_run (env : Env) (c : ClientCfg) (a : Bool) (src : Dict Resource) (cmp : Comparison) (s : St) :
    mute (baselineSyncLog env c a src cmp s) = baselineSync env c a src cmp s := by
  unfold baselineSyncLog baselineSync
  cases baselineAuthority c src with
  | error e => rfl
  | ok u =>
    simp only
    rw [← forLog_run (updateOneLog_run env c sCreated) (iterList cmp.created)]
    cases forLog (updateOneLog env c sCreated) (iterList cmp.created) { s with last_timestamp := 0 } with
    | mk s1 x =>
      obtain ⟨x, log1⟩ := x
      cases x with
      | error e => rfl
      | ok u =>
        simp only [mute]
        rw [← forLog_run (updateOneLog_run env c sUpdated) (iterList cmp.updated)]
        cases forLog (updateOneLog env c sUpdated) (iterList cmp.updated) s1 with
        | mk s2 x =>
          obtain ⟨x, log2⟩ := x
          cases x with
          | error e => rfl
          | ok u =>
            simp only [mute]
            rw [← forLog_run (deleteOneLog_run env c a) (iterList cmp.deleted)]
            cases forLog (deleteOneLog env c a) (iterList cmp.deleted) s2 with
            | mk s3 x =>
              obtain ⟨x, log3⟩ := x
              cases x with
              | error e => rfl
              | ok u => rfl

theorem baselineLog_run (env : Env) (c : ClientCfg) (a audit : Bool) (s : St) :
    mute (baselineLog env c a audit s) = baselineOrAudit env c a audit s := by
  unfold baselineLog baselineOrAudit
  cases baselinePlan env c audit s with
  | mk s1 x =>
    cases x with
    | error e => rfl
    | ok y =>
      obtain ⟨src, cmp⟩ := y
      simp only
      split
      · rfl
      · exact baselineSyncLog_run env c a src cmp s1

theorem incrementalLog_run (env : Env) (c : ClientCfg) (a : Bool) (uri fd : Option Str) (s : St) :
    mute (incrementalLog env c a uri fd s) = incremental env c a uri fd s := by
  unfold incrementalLog incremental
  cases incrementalPlan env c uri fd s with
  | mk s1 x =>
    cases x with
    | error e => rfl
    | ok cl =>
      simp only
      split
      · rfl
      · rw [← forLog_run (applyOneLog_run env c a) cl]
        cases forLog (applyOneLog env c a) cl s1 with
        | mk s2 x =>
          obtain ⟨x, log⟩ := x
          cases x <;> rfl

/-! ### Reading traces and logs -/

theorem completedFrom_append (env : Env) (p a b : List Effect) :
    completedFrom env p (a ++ b) = completedFrom env p a ++ completedFrom env (p ++ a) b := by
  induction a generalizing p with
  | nil => simp [completedFrom]
  | cons e t ih =>
    rw [List.cons_append]
    simp only [completedFrom]
    rw [ih, List.append_assoc, List.append_assoc, List.singleton_append]

theorem completedFrom_quiet (env : Env) (p : List Effect) {es : List Effect} (h : ∀ e ∈ es, ∀ l b, e ≠ .append l b) :
    completedFrom env p es = [] := by
  induction es generalizing p with
  | nil => rfl
  | cons e t ih =>
    simp only [completedFrom]
    rw [ih _ (fun x hx => h x (by simp [hx]))]
    cases e with
    | append l b => exact absurd rfl (h _ (by simp) l b)
    | _ => rfl

theorem unlinkedOf_append (a b : List Effect) : unlinkedOf (a ++ b) = unlinkedOf a ++ unlinkedOf b := by
  unfold unlinkedOf; rw [List.filterMap_append]

theorem unlinkedOf_quiet {es : List Effect} (h : ∀ e ∈ es, ∀ l, e ≠ .unlink l) : unlinkedOf es = [] := by
  unfold unlinkedOf
  rw [List.filterMap_eq_nil_iff]
  intro e he
  cases e with
  | unlink l => exact absurd rfl (h _ he l)
  | _ => rfl

/-- the first message is no complaint -/
def LogOpens (log : List LogMsg) : Prop := ∀ m, log.head? = some m → isComplaint m = false

theorem takeWhile_logOpens {log : List LogMsg} (h : LogOpens log) (a : List LogMsg) :
    (a ++ log).takeWhile isComplaint = a.takeWhile isComplaint := by
  induction a with
  | nil =>
    cases log with
    | nil => rfl
    | cons m t => rw [List.nil_append, List.takeWhile_cons, h m rfl]; rfl
  | cons m t ih =>
    rw [List.cons_append, List.takeWhile_cons, List.takeWhile_cons, ih]

theorem reportsOf_append {b : List LogMsg} (h : LogOpens b) (a : List LogMsg) : reportsOf (a ++ b) = reportsOf a ++ reportsOf b := by
  induction a with
  | nil => rfl
  | cons m t ih =>
    rw [List.cons_append]
    cases m with
    | event r =>
      simp only [reportsOf]
      split
      · exact ih
      · rw [ih, takeWhile_logOpens h]; rfl
    | _ => exact ih

theorem deletionsOf_append (a b : List LogMsg) : deletionsOf (a ++ b) = deletionsOf a ++ deletionsOf b := by
  induction a with
  | nil => rfl
  | cons m t ih =>
    rw [List.cons_append]
    cases m with
    | event r =>
      simp only [deletionsOf]
      split
      · rw [ih]; rfl
      · exact ih
    | _ => exact ih

theorem reportsOf_quiet {log : List LogMsg} (h : ∀ m ∈ log, ∀ r, m ≠ .event r) : reportsOf log = [] := by
  induction log with
  | nil => rfl
  | cons m t ih =>
    have it := ih (fun x hx => h x (by simp [hx]))
    cases m with
    | event r => exact absurd rfl (h _ (by simp) r)
    | _ => exact it

theorem deletionsOf_quiet {log : List LogMsg} (h : ∀ m ∈ log, ∀ r, m ≠ .event r) : deletionsOf log = [] := by
  induction log with
  | nil => rfl
  | cons m t ih =>
    have it := ih (fun x hx => h x (by simp [hx]))
    cases m with
    | event r => exact absurd rfl (h _ (by simp) r)
    | _ => exact it

/-! ### One resource -/

/-- What a step logs tells what it did; the events are of this kind -/
def LogStep (env : Env) (c : ClientCfg) (K : Resource → Prop) (s s' : St) (log : List LogMsg) : Prop :=
  ∃ es, s'.trace = s.trace ++ es ∧ s'.hashes = s.hashes ∧ Tells env c s.hashes s.trace es log ∧ LogOpens log ∧ ∀ r, .event r ∈ log → K r

theorem LogStep.refl (env : Env) (c : ClientCfg) (K : Resource → Prop) (s : St) : LogStep env c K s s [] :=
  ⟨[], by simp, rfl, ⟨List.Forall₂.nil, List.Forall₂.nil⟩, fun m h => by simp at h, fun r h => by simp at h⟩

theorem LogStep.trans {env : Env} {c : ClientCfg} {K : Resource → Prop} {s s1 s2 : St} {a b : List LogMsg}
    (h1 : LogStep env c K s s1 a) (h2 : LogStep env c K s1 s2 b) : LogStep env c K s s2 (a ++ b) := by
  obtain ⟨x, x1, x2, ⟨x3, x4⟩, x5, x6⟩ := h1
  obtain ⟨y, y1, y2, ⟨y3, y4⟩, y5, y6⟩ := h2
  refine ⟨x ++ y, by rw [y1, x1, List.append_assoc], y2.trans x2, ⟨?_, ?_⟩, ?_, ?_⟩
  · rw [completedFrom_append, reportsOf_append y5]
    rw [x2, x1] at y3
    exact List.rel_append x3 y3
  · rw [unlinkedOf_append, deletionsOf_append]
    exact List.rel_append x4 y4
  · intro m hm
    cases a with
    | nil => exact y5 m hm
    | cons z t => exact x5 m hm
  · intro r hr
    rcases List.mem_append.mp hr with h | h
    · exact x6 r h
    · exact y6 r h

theorem LogStep.mono {env : Env} {c : ClientCfg} {K K' : Resource → Prop} {s s' : St} {log : List LogMsg} (h : LogStep env c K s s' log)
    (hk : ∀ r, K r → K' r) : LogStep env c K' s s' log := by
  obtain ⟨x, x1, x2, x3, x5, x6⟩ := h
  exact ⟨x, x1, x2, x3, x5, fun r hr => hk r (x6 r hr)⟩

/-- Effects that are neither downloads nor removals, messages that are neither events nor complaints -/
theorem LogStep.quiet {env : Env} {c : ClientCfg} {K : Resource → Prop} {s s' : St} {log : List LogMsg} {es : List Effect}
    (ht : s'.trace = s.trace ++ es) (hh : s'.hashes = s.hashes) (h1 : completedFrom env s.trace es = [])
    (h2 : ∀ e ∈ es, ∀ l, e ≠ .unlink l) (h3 : ∀ m ∈ log, isComplaint m = false ∧ ∀ r, m ≠ .event r) : LogStep env c K s s' log := by
  refine ⟨es, ht, hh, ⟨?_, ?_⟩, ?_, ?_⟩
  · rw [h1, reportsOf_quiet (fun m hm => (h3 m hm).2)]; exact List.Forall₂.nil
  · rw [unlinkedOf_quiet h2, deletionsOf_quiet (fun m hm => (h3 m hm).2)]; exact List.Forall₂.nil
  · intro m hm
    exact (h3 m (List.mem_of_mem_head? hm)).1
  · intro r hr
    exact absurd rfl ((h3 _ hr).2 r)

theorem mkpath_step (env : Env) (c : ClientCfg) (K : Resource → Prop) : ∀ (rest : List Str) (pre : Loc) (s : St),
    LogStep env c K s (mkpath env pre rest s).1 [] := by
  intro rest
  induction rest with
  | nil => intro pre s; exact LogStep.refl env c K s
  | cons n t ih =>
    intro pre s
    simp only [mkpath]
    split
    · exact ih _ s
    · exact LogStep.refl env c K s
    · split
      · exact LogStep.refl env c K s
      · have h1 : LogStep env c K s (s.emit (.mkdir (pre ++ [n]))) [] :=
          LogStep.quiet (es := [.mkdir (pre ++ [n])]) rfl rfl rfl (by simp) (by simp)
        exact h1.trans (ih _ _)

theorem completes_fetch (env : Env) (p : List Effect) (u : Str) (l l' : Loc) (t : Rat) (b : Bytes) :
    completedFrom env p [.get u, .trunc l' t, .append l b] = if env.serve p u = .body b none then [(u, l, b)] else [] := by
  simp only [completedFrom, completes, Option.toList_none, List.nil_append, List.append_nil]
  have : (p ++ [Effect.get u] ++ [Effect.trunc l' t]).reverse = .trunc l' t :: .get u :: p.reverse := by simp
  rw [this]
  simp only [List.reverse_reverse]
  split <;> rfl

/-- one try -/
theorem tryGet_told (env : Env) (s : St) (uri : Str) (l : Loc) :
    ∃ es, (tryGet env s uri l).1.trace = s.trace ++ es ∧ (tryGet env s uri l).1.hashes = s.hashes ∧ (∀ e ∈ es, ∀ l, e ≠ .unlink l) ∧
      match (tryGet env s uri l).2 with
      | some _ => completedFrom env s.trace es = []
      | none => ∃ b t, completedFrom env s.trace es = [(uri, l, b)] ∧ (tryGet env s uri l).1.world.fs.get l = some (.file b t) := by
  unfold tryGet
  simp only
  cases hr : env.serve s.trace uri with
  | fail e => exact ⟨[.get uri], rfl, rfl, by simp, rfl⟩
  | body b broken =>
    simp only
    cases ho : openW env (s.emit (.get uri)) l with
    | none => exact ⟨[.get uri], rfl, rfl, by simp, rfl⟩
    | some s2 =>
      obtain ⟨hl, hd, hp, rfl⟩ := openW_some ho
      simp only
      refine ⟨[.get uri, .trunc l (env.now (s.emit (.get uri)).trace), .append l b], by simp [St.emit], rfl, by simp, ?_⟩
      cases broken with
      | some f =>
        show completedFrom env s.trace _ = []
        rw [completes_fetch, if_neg (by rw [hr]; simp)]
      | none =>
        refine ⟨b, env.now (s.emit (.get uri)).trace, ?_, ?_⟩
        · rw [completes_fetch, if_pos hr]
        · simp only [St.emit, World.apply, Effect.onFs]
          rw [get_set_self _ _ _ hl]
          simp only
          rw [get_set_self _ _ _ hl]
          simp

/-- the messages of the loop over the tries are neither events nor complaints -/
theorem getLoopLog_quiet (env : Env) (ig : Bool) (tries : Nat) (uri : Str) (l : Loc) (n : Nat) (s : St) :
    ∀ m ∈ (getLoopLog env ig tries uri l n s).2.2, isComplaint m = false ∧ ∀ r, m ≠ .event r := by
  induction n generalizing s with
  | zero => intro m hm; simp [getLoopLog] at hm
  | succ n ih =>
    simp only [getLoopLog]
    cases (tryGet env s uri l).2 with
    | none => intro m hm; simp at hm
    | some f =>
      cases f with
      | timeout =>
        simp only
        by_cases hn : n = 0
        · rw [if_pos hn]
          cases ig
          · intro m hm; simp at hm
          · intro m hm
            have : m = .failedTries uri tries := by simpa using hm
            subst this
            exact ⟨rfl, by simp⟩
        · rw [if_neg hn]
          intro m hm
          rcases List.mem_cons.mp hm with rfl | hm
          · exact ⟨rfl, by simp⟩
          · exact ih _ m hm
      | io =>
        cases ig
        · intro m hm; simp at hm
        · intro m hm
          have : m = .failedGet uri := by simpa using hm
          subst this
          exact ⟨rfl, by simp⟩
      | other => intro m hm; simp at hm

/-- the loop over the tries -/
theorem getLoopLog_told (env : Env) (ig : Bool) (tries : Nat) (uri : Str) (l : Loc) (n : Nat) (s : St) :
    ∃ es, (getLoopLog env ig tries uri l n s).1.trace = s.trace ++ es ∧ (getLoopLog env ig tries uri l n s).1.hashes = s.hashes ∧
      (∀ e ∈ es, ∀ l, e ≠ .unlink l) ∧
      match (getLoopLog env ig tries uri l n s).2.1 with
      | .updated => ∃ b t, completedFrom env s.trace es = [(uri, l, b)] ∧
          (getLoopLog env ig tries uri l n s).1.world.fs.get l = some (.file b t)
      | .skipped => n = 0 ∧ es = []
      | _ => completedFrom env s.trace es = [] := by
  induction n generalizing s with
  | zero => exact ⟨[], by simp [getLoopLog], rfl, by simp, rfl, rfl⟩
  | succ n ih =>
    obtain ⟨es, h1, h2, h3, h4⟩ := tryGet_told env s uri l
    simp only [getLoopLog]
    revert h4
    cases hr : (tryGet env s uri l).2 with
    | none => intro h4; exact ⟨es, h1, h2, h3, h4⟩
    | some f =>
      intro h4
      cases f with
      | timeout =>
        simp only
        by_cases hn : n = 0
        · rw [if_pos hn]
          refine ⟨es, h1, h2, h3, ?_⟩
          cases ig <;> exact h4
        · rw [if_neg hn]
          obtain ⟨es', i1, i2, i3, i4⟩ := ih (tryGet env s uri l).1
          refine ⟨es ++ es', by rw [i1, h1, List.append_assoc], i2.trans h2, ?_, ?_⟩
          · intro e he
            rcases List.mem_append.mp he with h | h
            · exact h3 e h
            · exact i3 e h
          · revert i4
            rw [completedFrom_append, h4, List.nil_append, ← h1]
            cases hg : (getLoopLog env ig tries uri l n (tryGet env s uri l).1).2.1 with
            | skipped => rintro ⟨h, -⟩; exact absurd h hn
            | updated => exact id
            | gaveUp => exact id
            | raised e => exact id
      | io =>
        refine ⟨es, h1, h2, h3, ?_⟩
        cases ig <;> exact h4
      | other => exact ⟨es, h1, h2, h3, h4⟩

/-! ### The complaints -/

theorem hashObj_known {hs : List Str} (h : ∀ t ∈ hs, t ∈ hashNames) (lib : HashLib) (b : Bytes) :
    ∃ o, HashObj.new hs (some (some b)) = .ok o ∧ (sMd5 ∈ hs → o.md5 lib = some (lib.md5 b)) ∧
      (sSha1 ∈ hs → o.sha1 lib = some (lib.sha1 b)) ∧ (sSha256 ∈ hs → o.sha256 lib = some (lib.sha256 b)) := by
  cases hset : hashSet [] hs with
  | error e =>
    exfalso
    have : e = .unsupported := by
      cases e with
      | unsupported => rfl
      | os =>
        exfalso
        clear h
        generalize ([] : List Str) = set at hset
        induction hs generalizing set with
        | nil => simp [hashSet] at hset
        | cons a t ih =>
          simp only [hashSet] at hset
          split at hset
          · exact ih _ hset
          · simp at hset
    subst this
    obtain ⟨x, hx, hn⟩ := (hashSet_error hs []).mp hset
    exact hn (h x hx)
  | ok set =>
    obtain ⟨k1, -⟩ := hashSet_ok hs [] set hset (by simp)
    obtain ⟨o', g1, g2, g3, g4, g5⟩ := C65_block_size lib { hashes := set } b 16384 (by decide)
    refine ⟨o', ?_, fun hm => g3 ?_, fun hm => g4 ?_, fun hm => g5 ?_⟩
    · simp only [HashObj.new, hset]
      exact g1
    all_goals exact (k1 _).mpr (Or.inr hm)

theorem mem_hashMessage {hs : List Str} {type uri : Str} {e g : Option Str} {m : LogMsg} :
    m ∈ hashMessage hs type uri e g ↔ type ∈ hs ∧ e ≠ g ∧ m = .hash type uri (g.getD []) (e.getD []) := by
  unfold hashMessage
  split
  · rename_i h; simp [h.1, h.2]
  · rename_i h
    simp only [List.not_mem_nil, false_iff]
    rintro ⟨h1, h2, -⟩
    exact h ⟨h1, h2⟩

theorem checkHashes_mem (lib : HashLib) (types : List Str) (b : Bytes) (r : Resource) (m : LogMsg) :
    m ∈ checkHashes lib types b r ↔
      (∃ e, sMd5 ∈ types ∧ r.md5 = some e ∧ e ≠ lib.md5 b ∧ m = .hash sMd5 r.uri (lib.md5 b) e) ∨
      (∃ e, sSha1 ∈ types ∧ r.sha1 = some e ∧ e ≠ lib.sha1 b ∧ m = .hash sSha1 r.uri (lib.sha1 b) e) ∨
      (∃ e, sSha256 ∈ types ∧ r.sha256 = some e ∧ e ≠ lib.sha256 b ∧ m = .hash sSha256 r.uri (lib.sha256 b) e) := by
  unfold checkHashes
  simp only
  generalize hhs : (if sMd5 ∈ types ∧ r.md5 ≠ none then [sMd5] else []) ++
    (if sSha1 ∈ types ∧ r.sha1 ≠ none then [sSha1] else []) ++
    (if sSha256 ∈ types ∧ r.sha256 ≠ none then [sSha256] else []) = hs
  have n12 : sMd5 ≠ sSha1 := by decide
  have n13 : sMd5 ≠ sSha256 := by decide
  have n23 : sSha1 ≠ sSha256 := by decide
  have mem : ∀ t, t ∈ hs ↔ (t = sMd5 ∧ sMd5 ∈ types ∧ r.md5 ≠ none) ∨ (t = sSha1 ∧ sSha1 ∈ types ∧ r.sha1 ≠ none) ∨
      (t = sSha256 ∧ sSha256 ∈ types ∧ r.sha256 ≠ none) := by
    intro t
    rw [← hhs]
    simp only [List.mem_append]
    have aux : ∀ (P : Prop) [Decidable P] (x : Str), t ∈ (if P then [x] else []) ↔ t = x ∧ P := by
      intro P _ x
      split
      · rename_i h; simp [h]
      · rename_i h; simp [h]
    rw [aux, aux, aux, or_assoc]
  obtain ⟨o, h0, h1, h2, h3⟩ := hashObj_known (hs := hs) (by
    intro t ht
    rcases (mem t).mp ht with ⟨rfl, -⟩ | ⟨rfl, -⟩ | ⟨rfl, -⟩ <;> decide) lib b
  rw [h0]
  simp only [List.mem_append, mem_hashMessage, or_assoc]
  have m1 : sMd5 ∈ hs ↔ sMd5 ∈ types ∧ r.md5 ≠ none := by
    rw [mem]; simp [n12, n13]
  have m2 : sSha1 ∈ hs ↔ sSha1 ∈ types ∧ r.sha1 ≠ none := by
    rw [mem]; simp [n12.symm, n23]
  have m3 : sSha256 ∈ hs ↔ sSha256 ∈ types ∧ r.sha256 ≠ none := by
    rw [mem]; simp [n13.symm, n23.symm]
  have one : ∀ (t : Str) (e g : Option Str) (x : Str), (t ∈ hs ↔ t ∈ types ∧ e ≠ none) → (t ∈ hs → g = some x) →
      ((t ∈ hs ∧ e ≠ g ∧ m = .hash t r.uri (g.getD []) (e.getD [])) ↔
        ∃ v, t ∈ types ∧ e = some v ∧ v ≠ x ∧ m = .hash t r.uri x v) := by
    intro t e g x ht hg
    constructor
    · rintro ⟨a1, a2, a3⟩
      obtain ⟨b1, b2⟩ := ht.mp a1
      cases e with
      | none => exact absurd rfl b2
      | some v =>
        have := hg a1
        subst this
        exact ⟨v, b1, rfl, fun h => a2 (by rw [h]), a3⟩
    · rintro ⟨v, a1, rfl, a2, rfl⟩
      have hm := ht.mpr ⟨a1, by simp⟩
      have := hg hm
      subst this
      exact ⟨hm, fun h => a2 (by simpa using h), rfl⟩
  rw [one _ _ _ _ m1 h1, one _ _ _ _ m2 h2, one _ _ _ _ m3 h3]

theorem checkHashes_nodup (lib : HashLib) (types : List Str) (b : Bytes) (r : Resource) : (checkHashes lib types b r).Nodup := by
  unfold checkHashes
  simp only
  split
  · exact List.nodup_nil
  · have one : ∀ hs t u e g, (hashMessage hs t u e g).Nodup := by
      intro hs t u e g
      unfold hashMessage
      split
      · simp
      · simp
    have n12 : sMd5 ≠ sSha1 := by decide
    have n13 : sMd5 ≠ sSha256 := by decide
    have n23 : sSha1 ≠ sSha256 := by decide
    refine List.Nodup.append (List.Nodup.append (one _ _ _ _ _) (one _ _ _ _ _) ?_) (one _ _ _ _ _) ?_
    · intro m hm hm'
      obtain ⟨-, -, e1⟩ := mem_hashMessage.mp hm
      obtain ⟨-, -, e2⟩ := mem_hashMessage.mp hm'
      rw [e1] at e2
      simp only [LogMsg.hash.injEq] at e2
      exact n12 e2.1
    · intro m hm hm'
      obtain ⟨-, -, e2⟩ := mem_hashMessage.mp hm'
      rcases List.mem_append.mp hm with hm | hm
      · obtain ⟨-, -, e1⟩ := mem_hashMessage.mp hm
        rw [e1] at e2
        simp only [LogMsg.hash.injEq] at e2
        exact n13 e2.1
      · obtain ⟨-, -, e1⟩ := mem_hashMessage.mp hm
        rw [e1] at e2
        simp only [LogMsg.hash.injEq] at e2
        exact n23 e2.1

theorem sanityLog_complains {env : Env} {s : St} {l : Loc} {r : Resource} {b : Bytes} {t : Rat} (ch : Option Str)
    (hf : s.world.fs.get l = some (.file b t)) :
    Complains env.lib s.hashes { r with change := ch } b (sanityLog env s l r) ∧ ∀ m ∈ sanityLog env s l r, isComplaint m = true := by
  have e : sanityLog env s l r = (match r.length with
      | some n => if n ≠ b.length then [.size r.uri b.length n] else []
      | none => []) ++ (if s.hashes.length > 0 then checkHashes env.lib s.hashes b r else []) := by
    unfold sanityLog; rw [hf]; rfl
  have eh : (if s.hashes.length > 0 then checkHashes env.lib s.hashes b r else []) = checkHashes env.lib s.hashes b r := by
    split
    · rfl
    · rename_i hz
      have : s.hashes = [] := by
        cases hs : s.hashes with
        | nil => rfl
        | cons _ _ => rw [hs] at hz; simp at hz
      symm
      rw [List.eq_nil_iff_forall_not_mem]
      intro m hm
      rw [checkHashes_mem, this] at hm
      simp at hm
  rw [eh] at e
  have msize : ∀ m, m ∈ (match r.length with
      | some n => if n ≠ (b.length : Int) then [LogMsg.size r.uri b.length n] else []
      | none => []) ↔ ∃ n, r.length = some n ∧ n ≠ b.length ∧ m = .size r.uri b.length n := by
    intro m
    cases r.length with
    | none => simp
    | some n =>
      simp only
      split
      · rename_i h; simp [h]
      · rename_i h
        simp only [List.not_mem_nil, false_iff]
        rintro ⟨n', e1, e2, -⟩
        simp only [Option.some.injEq] at e1
        exact h (e1 ▸ e2)
  have mem : ∀ m, m ∈ sanityLog env s l r ↔ (∃ n, r.length = some n ∧ n ≠ b.length ∧ m = .size r.uri b.length n) ∨
      m ∈ checkHashes env.lib s.hashes b r := by
    intro m
    rw [e, List.mem_append, msize]
  have n12 : sMd5 ≠ sSha1 := by decide
  have n13 : sMd5 ≠ sSha256 := by decide
  have n23 : sSha1 ≠ sSha256 := by decide
  refine ⟨⟨?_, ?_, ?_, ?_, ?_, ?_⟩, ?_⟩
  · intro got ex
    rw [mem, checkHashes_mem]
    constructor
    · rintro (⟨n, h1, h2, h3⟩ | ⟨_, _, _, _, h⟩ | ⟨_, _, _, _, h⟩ | ⟨_, _, _, _, h⟩)
      · simp only [LogMsg.size.injEq] at h3
        obtain ⟨-, rfl, rfl⟩ := h3
        exact ⟨h1, rfl, h2⟩
      all_goals cases h
    · rintro ⟨h1, rfl, h2⟩
      exact Or.inl ⟨ex, h1, h2, rfl⟩
  · intro got ex
    rw [mem, checkHashes_mem]
    constructor
    · rintro (⟨_, _, _, h⟩ | ⟨_, h1, h2, h3, h⟩ | ⟨_, _, _, _, h⟩ | ⟨_, _, _, _, h⟩)
      · cases h
      · simp only [LogMsg.hash.injEq] at h
        obtain ⟨-, -, rfl, rfl⟩ := h
        exact ⟨h1, h2, rfl, h3⟩
      · simp only [LogMsg.hash.injEq] at h; exact absurd h.1 n12
      · simp only [LogMsg.hash.injEq] at h; exact absurd h.1 n13
    · rintro ⟨h1, h2, rfl, h3⟩
      exact Or.inr (Or.inl ⟨ex, h1, h2, h3, rfl⟩)
  · intro got ex
    rw [mem, checkHashes_mem]
    constructor
    · rintro (⟨_, _, _, h⟩ | ⟨_, _, _, _, h⟩ | ⟨_, h1, h2, h3, h⟩ | ⟨_, _, _, _, h⟩)
      · cases h
      · simp only [LogMsg.hash.injEq] at h; exact absurd h.1 n12.symm
      · simp only [LogMsg.hash.injEq] at h
        obtain ⟨-, -, rfl, rfl⟩ := h
        exact ⟨h1, h2, rfl, h3⟩
      · simp only [LogMsg.hash.injEq] at h; exact absurd h.1 n23
    · rintro ⟨h1, h2, rfl, h3⟩
      exact Or.inr (Or.inr (Or.inl ⟨ex, h1, h2, h3, rfl⟩))
  · intro got ex
    rw [mem, checkHashes_mem]
    constructor
    · rintro (⟨_, _, _, h⟩ | ⟨_, _, _, _, h⟩ | ⟨_, _, _, _, h⟩ | ⟨_, h1, h2, h3, h⟩)
      · cases h
      · simp only [LogMsg.hash.injEq] at h; exact absurd h.1 n13.symm
      · simp only [LogMsg.hash.injEq] at h; exact absurd h.1 n23.symm
      · simp only [LogMsg.hash.injEq] at h
        obtain ⟨-, -, rfl, rfl⟩ := h
        exact ⟨h1, h2, rfl, h3⟩
    · rintro ⟨h1, h2, rfl, h3⟩
      exact Or.inr (Or.inr (Or.inr ⟨ex, h1, h2, h3, rfl⟩))
  · intro m hm
    rw [mem, checkHashes_mem] at hm
    rcases hm with ⟨n, _, _, rfl⟩ | ⟨x, _, _, _, rfl⟩ | ⟨x, _, _, _, rfl⟩ | ⟨x, _, _, _, rfl⟩
    · exact Or.inl ⟨_, _, rfl⟩
    · exact Or.inr ⟨sMd5, by decide, _, _, rfl⟩
    · exact Or.inr ⟨sSha1, by decide, _, _, rfl⟩
    · exact Or.inr ⟨sSha256, by decide, _, _, rfl⟩
  · rw [e]
    refine List.Nodup.append ?_ (checkHashes_nodup _ _ _ _) ?_
    · cases r.length with
      | none => simp
      | some n => simp only; split <;> simp
    · intro m hm hm'
      obtain ⟨n, _, _, rfl⟩ := (msize m).mp hm
      rw [checkHashes_mem] at hm'
      rcases hm' with ⟨_, _, _, _, h⟩ | ⟨_, _, _, _, h⟩ | ⟨_, _, _, _, h⟩ <;> cases h
  · intro m hm
    rw [mem, checkHashes_mem] at hm
    rcases hm with ⟨n, _, _, rfl⟩ | ⟨x, _, _, _, rfl⟩ | ⟨x, _, _, _, rfl⟩ | ⟨x, _, _, _, rfl⟩ <;> rfl

/-! ### Steps -/

theorem takeWhile_self {p : LogMsg → Bool} {l : List LogMsg} (h : ∀ m ∈ l, p m = true) : l.takeWhile p = l := by
  induction l with
  | nil => rfl
  | cons m t ih =>
    rw [List.takeWhile_cons, h m (by simp), if_pos rfl, ih (fun x hx => h x (by simp [hx]))]

theorem reportsOf_complaints {l : List LogMsg} (h : ∀ m ∈ l, isComplaint m = true) : ∀ m ∈ l, ∀ r, m ≠ .event r := by
  rintro m hm r rfl
  have := h _ hm
  simp [isComplaint] at this

/-- setting the time leaves the content -/
theorem setTime_file {s : St} {l : Loc} {b : Bytes} {t : Rat} (hl : l ≠ []) (hf : s.world.fs.get l = some (.file b t)) (ts : Option Rat) :
    ∃ s' t' es, setTime s l ts = (s', .ok ()) ∧ s'.world.fs.get l = some (.file b t') ∧ s'.trace = s.trace ++ es ∧ s'.hashes = s.hashes ∧
      ∀ e ∈ es, ∃ x, e = .utime l x := by
  unfold setTime
  rw [hf]
  cases ts with
  | none => exact ⟨s, t, [], rfl, hf, by simp, rfl, by simp⟩
  | some x =>
    refine ⟨_, truncRat x, [.utime l (truncRat x)], rfl, ?_, ?_, ?_, by simp⟩
    · rw [St.seen_world]
      simp only [St.emit, World.apply, Effect.onFs, hf]
      exact get_set_self _ _ _ hl
    · rw [St.seen_trace]; rfl
    · rw [St.seen_hashes]; rfl

theorem get_nil_dir (fs : Fs) {b : Bytes} {t : Rat} : fs.get [] ≠ some (.file b t) := by
  unfold Fs.get; simp

theorem updateResourceLog_step {env : Env} {c : ClientCfg} (ht : 0 < c.tries) (s : St) (r : Resource) {fn ch : Str}
    (hfn : c.disc.mapper.srcToDst r.uri = .ok fn) (hch : ch ≠ "deleted".toList) :
    LogStep env c (fun e => e = { r with change := some ch }) s (updateResourceLog env c s r fn ch).1
      (.start ch r.uri fn :: (updateResourceLog env c s r fn ch).2.2) := by
  have h0 := mkpath_step env c (fun e => e = { r with change := some ch }) (location env.cwd (dirname fn)) [] s
  have hst : ∀ s : St, LogStep env c (fun e => e = { r with change := some ch }) s s [.start ch r.uri fn] := fun s =>
    LogStep.quiet (es := []) (by simp) rfl rfl (by simp) (by simp [isComplaint])
  unfold updateResourceLog
  cases hm : mkpath env [] (location env.cwd (dirname fn)) s with
  | mk s1 ok =>
    rw [hm] at h0
    simp only at h0
    have h0 := h0.trans (hst s1)
    rw [List.nil_append] at h0
    cases ok with
    | false => exact h0
    | true =>
      simp only
      by_cases hd : c.dryrun = true
      · rw [if_pos hd]
        have : LogStep env c (fun e => e = { r with change := some ch }) s1 s1 [.wouldGet r.uri fn] :=
          LogStep.quiet (es := []) (by simp) rfl rfl (by simp) (by simp [isComplaint])
        exact h0.trans this
      · rw [if_neg hd]
        obtain ⟨es, g1, g2, g3, g4⟩ := getLoopLog_told env c.ignore_failures c.tries r.uri (location env.cwd fn) c.tries s1
        have gq := getLoopLog_quiet env c.ignore_failures c.tries r.uri (location env.cwd fn) c.tries s1
        revert g1 g2 g4 gq
        cases getLoopLog env c.ignore_failures c.tries r.uri (location env.cwd fn) c.tries s1 with
        | mk s2 y =>
          obtain ⟨g, log⟩ := y
          simp only
          intro g1 g2 g4 gq
          cases g with
          | raised e => exact h0.trans (LogStep.quiet g1 g2 g4 g3 gq)
          | gaveUp => exact h0.trans (LogStep.quiet g1 g2 g4 g3 gq)
          | skipped => exact absurd g4.1 (by omega)
          | updated =>
            obtain ⟨b, t, g4, g5⟩ := g4
            refine h0.trans ?_
            have hl : location env.cwd fn ≠ [] := by
              intro e
              rw [e] at g5
              exact get_nil_dir _ g5
            obtain ⟨s3, t', es', e1, e2, e3, e4, e5⟩ := setTime_file hl g5 r.timestamp
            simp only [finishLog, e1]
            obtain ⟨k1, k2⟩ := sanityLog_complains (env := env) (r := r) (some ch) e2
            have hev : LogOpens (.event { r with change := some ch } :: sanityLog env s3 (location env.cwd fn) r) := by
              intro m hm
              simp only [List.head?_cons, Option.some.injEq] at hm
              subst hm
              rfl
            have hq := reportsOf_complaints k2
            have hne : some ch ≠ some "deleted".toList := by simpa using hch
            refine ⟨es ++ es', by rw [e3, g1, List.append_assoc], e4.trans g2, ⟨?_, ?_⟩, ?_, ?_⟩
            · rw [completedFrom_append, g4, completedFrom_quiet env _ (es := es') (by
                intro e he l b
                obtain ⟨x, rfl⟩ := e5 e he
                simp)]
              rw [reportsOf_append hev, reportsOf_quiet (fun m hm => (gq m hm).2), List.nil_append]
              simp only [reportsOf]
              rw [if_neg hne, reportsOf_quiet hq, takeWhile_self k2, List.append_nil]
              refine List.Forall₂.cons ⟨rfl, ⟨fn, hfn, rfl⟩, ?_⟩ List.Forall₂.nil
              rw [e4, g2] at k1
              exact k1
            · rw [unlinkedOf_append, unlinkedOf_quiet g3, unlinkedOf_quiet (es := es') (by
                intro e he l
                obtain ⟨x, rfl⟩ := e5 e he
                simp)]
              rw [deletionsOf_append, deletionsOf_quiet (fun m hm => (gq m hm).2)]
              simp only [deletionsOf, List.nil_append]
              rw [if_neg hne, deletionsOf_quiet hq]
              exact List.Forall₂.nil
            · intro m hm
              cases log with
              | nil => exact hev m hm
              | cons z w => exact (gq m (by rw [List.cons_append] at hm; simp at hm; simp [hm])).1
            · intro x hx
              rcases List.mem_append.mp hx with h | h
              · exact absurd rfl ((gq _ h).2 x)
              · rcases List.mem_cons.mp h with h | h
                · simpa using h
                · exact absurd rfl (hq _ h x)

theorem deleteResourceLog_step (env : Env) (c : ClientCfg) (a : Bool) (s : St) (r : Resource) {fn : Str}
    (hfn : c.disc.mapper.srcToDst r.uri = .ok fn) :
    LogStep env c (fun e => e = { r with change := some sDeleted }) s (deleteResourceLog env c a s r fn).1 (deleteResourceLog env c a s r fn).2.2 := by
  have h0 : ∀ log : List LogMsg, (∀ m ∈ log, isComplaint m = false ∧ ∀ r, m ≠ .event r) →
      LogStep env c (fun e => e = { r with change := some sDeleted }) s (s.seen r.timestamp) log := fun log hq =>
    LogStep.quiet (es := []) (by rw [St.seen_trace]; simp) (St.seen_hashes _ _) rfl (by simp) hq
  unfold deleteResourceLog
  simp only
  split
  · exact h0 _ (by simp [isComplaint])
  · split
    · exact h0 _ (by simp [isComplaint])
    · cases (s.seen r.timestamp).world.fs.get (location env.cwd fn) with
      | none => exact h0 _ (by simp [isComplaint])
      | some n =>
        cases n with
        | dir => exact h0 _ (by simp [isComplaint])
        | file b t =>
          simp only
          split
          · exact h0 _ (by simp [isComplaint])
          · refine ⟨[.unlink (location env.cwd fn)], ?_, ?_, ⟨?_, ?_⟩, ?_, ?_⟩
            · simp only [St.emit]; rw [St.seen_trace]
            · exact St.seen_hashes _ _
            · exact List.Forall₂.nil
            · exact List.Forall₂.cons ⟨fn, hfn, rfl⟩ List.Forall₂.nil
            · intro m hm
              simp only [List.head?_cons, Option.some.injEq] at hm
              subst hm
              rfl
            · intro x hx
              simpa using hx

theorem forLog_step {env : Env} {c : ClientCfg} {K : Resource → Prop} {f : St → Resource → St × Except ClientErr Unit × List LogMsg}
    {rs : List Resource} (h : ∀ r ∈ rs, ∀ s, LogStep env c K s (f s r).1 (f s r).2.2) :
    ∀ s, LogStep env c K s (forLog f rs s).1 (forLog f rs s).2.2 := by
  induction rs with
  | nil => intro s; exact LogStep.refl env c K s
  | cons r t ih =>
    intro s
    have h1 := h r (by simp) s
    simp only [forLog]
    revert h1
    cases f s r with
    | mk s1 x =>
      obtain ⟨x, log⟩ := x
      cases x with
      | error e => exact id
      | ok u => intro h1; exact h1.trans (ih (fun r hr => h r (by simp [hr])) s1)

theorem updateOneLog_step {env : Env} {c : ClientCfg} (ht : 0 < c.tries) {ch : Str} (hch : ch ≠ "deleted".toList) (s : St) (r : Resource) :
    LogStep env c (fun e => e = { r with change := some ch }) s (updateOneLog env c ch s r).1 (updateOneLog env c ch s r).2.2 := by
  unfold updateOneLog
  cases hfn : c.disc.mapper.srcToDst r.uri with
  | error e => exact LogStep.refl _ _ _ s
  | ok fn =>
    have h := updateResourceLog_step (env := env) ht s r hfn hch
    simp only
    revert h
    cases updateResourceLog env c s r fn ch with
    | mk s1 x =>
      obtain ⟨x, log⟩ := x
      cases x <;> exact id

theorem deleteOneLog_step (env : Env) (c : ClientCfg) (a : Bool) (s : St) (r : Resource) :
    LogStep env c (fun e => e = { r with change := some sDeleted }) s (deleteOneLog env c a s r).1 (deleteOneLog env c a s r).2.2 := by
  unfold deleteOneLog
  cases hfn : c.disc.mapper.srcToDst r.uri with
  | error e => exact LogStep.refl _ _ _ s
  | ok fn => exact deleteResourceLog_step env c a s r hfn

theorem applyOneLog_step {env : Env} {c : ClientCfg} (ht : 0 < c.tries) (a : Bool) (s : St) (r : Resource) :
    LogStep env c (fun e => e = r) s (applyOneLog env c a s r).1 (applyOneLog env c a s r).2.2 := by
  unfold applyOneLog
  cases hfn : c.disc.mapper.srcToDst r.uri with
  | error e => exact LogStep.refl _ _ _ s
  | ok fn =>
    have same : ∀ ch, r.change = some ch → ({ r with change := some ch } : Resource) = r := by
      intro ch h; cases r; simp only at h; subst h; rfl
    simp only
    by_cases h1 : r.change = some sUpdated
    · rw [if_pos h1]
      have h := updateResourceLog_step (env := env) ht s r hfn (ch := sUpdated) (by decide)
      rw [same _ h1] at h
      revert h
      cases updateResourceLog env c s r fn sUpdated with
      | mk s1 x =>
        obtain ⟨x, log⟩ := x
        cases x <;> exact id
    · rw [if_neg h1]
      by_cases h2 : r.change = some sCreated
      · rw [if_pos h2]
        have h := updateResourceLog_step (env := env) ht s r hfn (ch := sCreated) (by decide)
        rw [same _ h2] at h
        revert h
        cases updateResourceLog env c s r fn sCreated with
        | mk s1 x =>
          obtain ⟨x, log⟩ := x
          cases x <;> exact id
      · rw [if_neg h2]
        by_cases h3 : r.change = some sDeleted
        · rw [if_pos h3]
          have h := deleteResourceLog_step env c a s r hfn
          rw [same _ h3] at h
          exact h
        · rw [if_neg h3]; exact LogStep.refl _ _ _ s

theorem storeState_step (env : Env) (c : ClientCfg) (K : Resource → Prop) (s : St) : LogStep env c K s (storeState env c s).1 [] := by
  obtain ⟨⟨es, h1, -, h3⟩, h2⟩ := storeState_did env c s
  refine LogStep.quiet h1 h2 (completedFrom_quiet env _ ?_) ?_ (by simp)
  · intro e he l b
    obtain ⟨_, _, _, _, rfl⟩ := h3 e he
    simp
  · intro e he l
    obtain ⟨_, _, _, _, rfl⟩ := h3 e he
    simp

/-- The events of a baseline sync: what kind of resource they are about -/
def BaselineEvent (cmp : Comparison) (e : Resource) : Prop :=
  (∃ r ∈ iterList cmp.created, e = { r with change := some sCreated }) ∨ (∃ r ∈ iterList cmp.updated, e = { r with change := some sUpdated }) ∨
    ∃ r ∈ iterList cmp.deleted, e = { r with change := some sDeleted }

theorem baselineSyncLog_step {env : Env} {c : ClientCfg} (ht : 0 < c.tries) (a : Bool) (src : Dict Resource) (cmp : Comparison) (s : St) :
    LogStep env c (BaselineEvent cmp) s (baselineSyncLog env c a src cmp s).1 (baselineSyncLog env c a src cmp s).2.2 := by
  unfold baselineSyncLog
  cases baselineAuthority c src with
  | error e => exact LogStep.refl _ _ _ s
  | ok u =>
    simp only
    have z : LogStep env c (BaselineEvent cmp) s { s with last_timestamp := 0 } [] :=
      LogStep.quiet (es := []) (by simp) rfl rfl (by simp) (by simp)
    have h1 := z.trans (forLog_step (K := BaselineEvent cmp) (f := updateOneLog env c sCreated) (rs := iterList cmp.created)
      (fun r hr s => (updateOneLog_step ht (by decide) s r).mono (fun e he => Or.inl ⟨r, hr, he⟩)) { s with last_timestamp := 0 })
    rw [List.nil_append] at h1
    revert h1
    cases forLog (updateOneLog env c sCreated) (iterList cmp.created) { s with last_timestamp := 0 } with
    | mk s1 x =>
      obtain ⟨x, log1⟩ := x
      cases x with
      | error e => exact id
      | ok u =>
        simp only
        intro h1
        have h2 := forLog_step (K := BaselineEvent cmp) (f := updateOneLog env c sUpdated) (rs := iterList cmp.updated)
          (fun r hr s => (updateOneLog_step ht (by decide) s r).mono (fun e he => Or.inr (Or.inl ⟨r, hr, he⟩))) s1
        revert h2
        cases forLog (updateOneLog env c sUpdated) (iterList cmp.updated) s1 with
        | mk s2 x =>
          obtain ⟨x, log2⟩ := x
          cases x with
          | error e => exact fun h2 => h1.trans h2
          | ok u =>
            simp only
            intro h2
            have h3 := forLog_step (K := BaselineEvent cmp) (f := deleteOneLog env c a) (rs := iterList cmp.deleted)
              (fun r hr s => (deleteOneLog_step env c a s r).mono (fun e he => Or.inr (Or.inr ⟨r, hr, he⟩))) s2
            revert h3
            cases forLog (deleteOneLog env c a) (iterList cmp.deleted) s2 with
            | mk s3 x =>
              obtain ⟨x, log3⟩ := x
              cases x with
              | error e => exact fun h3 => h1.trans (h2.trans h3)
              | ok u =>
                simp only
                intro h3
                have h := h1.trans (h2.trans h3)
                split
                · have := h.trans (storeState_step env c (BaselineEvent cmp) s3)
                  rw [List.append_nil] at this
                  exact this
                · exact h

end Resync

namespace Resync
open Py Resync.Spec

/-! ### How it went -/

theorem outcomes_append (a b : List LogMsg) : outcomes (a ++ b) = outcomes a ++ outcomes b := by
  unfold outcomes; rw [List.filterMap_append]

theorem outcomes_none {l : List LogMsg} (h : ∀ m ∈ l, outcome m = none) : outcomes l = [] := by
  unfold outcomes; rw [List.filterMap_eq_nil_iff]; exact h

theorem getLoopLog_outcomes (env : Env) (ig : Bool) (tries : Nat) (uri : Str) (l : Loc) (n : Nat) (s : St) :
    match (getLoopLog env ig tries uri l n s).2.1 with
    | .gaveUp => outcomes (getLoopLog env ig tries uri l n s).2.2 = [uri]
    | _ => outcomes (getLoopLog env ig tries uri l n s).2.2 = [] := by
  induction n generalizing s with
  | zero => rfl
  | succ n ih =>
    simp only [getLoopLog]
    cases (tryGet env s uri l).2 with
    | none => rfl
    | some f =>
      cases f with
      | timeout =>
        simp only
        by_cases hn : n = 0
        · rw [if_pos hn]; cases ig <;> rfl
        · rw [if_neg hn]
          exact ih _
      | io => cases ig <;> rfl
      | other => rfl

theorem sanityLog_outcomes (env : Env) (s : St) (l : Loc) (r : Resource) : outcomes (sanityLog env s l r) = [] := by
  apply outcomes_none
  intro m hm
  cases hf : s.world.fs.get l with
  | none => unfold sanityLog at hm; rw [hf] at hm; simp at hm
  | some n =>
    cases n with
    | dir => unfold sanityLog at hm; rw [hf] at hm; simp at hm
    | file b t =>
      have := (sanityLog_complains (env := env) (r := r) none hf).2 m hm
      cases m <;> simp_all [isComplaint, outcome]

theorem finishLog_outcomes {env : Env} {s s' : St} {l : Loc} {r : Resource} {ch : Str} {n k : Nat} {log : List LogMsg}
    (h : finishLog env s l r ch n = (s', .ok k, log)) : outcomes log = [r.uri] := by
  unfold finishLog at h
  cases hs : setTime s l r.timestamp with
  | mk s1 x =>
    rw [hs] at h
    cases x with
    | error e => simp at h
    | ok u =>
      simp only [Prod.mk.injEq] at h
      rw [← h.2.2]
      show outcomes ([_] ++ sanityLog env s1 l r) = _
      rw [outcomes_append, sanityLog_outcomes]
      rfl

theorem updateResourceLog_outcomes {env : Env} {c : ClientCfg} {s s' : St} {r : Resource} {fn ch : Str} {k : Nat} {log : List LogMsg}
    (h : updateResourceLog env c s r fn ch = (s', .ok k, log)) : outcomes log = [r.uri] := by
  unfold updateResourceLog at h
  revert h
  cases mkpath env [] (location env.cwd (dirname fn)) s with
  | mk s1 ok =>
    cases ok with
    | false => intro h; simp at h
    | true =>
      simp only
      by_cases hd : c.dryrun = true
      · rw [if_pos hd]
        intro h
        simp only [Prod.mk.injEq] at h
        rw [← h.2.2]; rfl
      · rw [if_neg hd]
        have hg := getLoopLog_outcomes env c.ignore_failures c.tries r.uri (location env.cwd fn) c.tries s1
        revert hg
        cases getLoopLog env c.ignore_failures c.tries r.uri (location env.cwd fn) c.tries s1 with
        | mk s2 y =>
          obtain ⟨g, lg⟩ := y
          simp only
          cases g with
          | raised e => intro _ h; simp at h
          | gaveUp =>
            intro hg h
            simp only [Prod.mk.injEq] at h
            rw [← h.2.2]; exact hg
          | updated =>
            intro hg h
            simp only [Prod.mk.injEq] at h
            rw [← h.2.2, outcomes_append]
            simp only at hg
            rw [hg, List.nil_append]
            exact finishLog_outcomes (s' := s') (k := k) (Prod.ext h.1 (Prod.ext h.2.1 rfl))
          | skipped =>
            intro hg h
            simp only [Prod.mk.injEq] at h
            rw [← h.2.2, outcomes_append]
            simp only at hg
            rw [hg, List.nil_append]
            exact finishLog_outcomes (s' := s') (k := k) (Prod.ext h.1 (Prod.ext h.2.1 rfl))

theorem deleteResourceLog_outcomes (env : Env) (c : ClientCfg) (a : Bool) (s : St) (r : Resource) (fn : Str) :
    outcomes (deleteResourceLog env c a s r fn).2.2 = [r.uri] := by
  unfold deleteResourceLog
  simp only
  split
  · rfl
  · split
    · rfl
    · cases (s.seen r.timestamp).world.fs.get (location env.cwd fn) with
      | none => rfl
      | some n =>
        cases n with
        | dir => rfl
        | file b t => simp only; split <;> rfl

theorem updateOneLog_outcomes {env : Env} {c : ClientCfg} {ch : Str} {s s' : St} {r : Resource} {log : List LogMsg}
    (h : updateOneLog env c ch s r = (s', .ok (), log)) : outcomes log = [r.uri] := by
  unfold updateOneLog at h
  cases hfn : c.disc.mapper.srcToDst r.uri with
  | error e => rw [hfn] at h; simp at h
  | ok fn =>
    rw [hfn] at h
    simp only at h
    cases hu : updateResourceLog env c s r fn ch with
    | mk s1 x =>
      obtain ⟨x, lg⟩ := x
      rw [hu] at h
      cases x with
      | error e => simp at h
      | ok k =>
        simp only [Prod.mk.injEq] at h
        rw [← h.2.2]
        have := updateResourceLog_outcomes hu
        exact this

theorem deleteOneLog_outcomes {env : Env} {c : ClientCfg} {a : Bool} {s s' : St} {r : Resource} {log : List LogMsg}
    (h : deleteOneLog env c a s r = (s', .ok (), log)) : outcomes log = [r.uri] := by
  unfold deleteOneLog at h
  cases hfn : c.disc.mapper.srcToDst r.uri with
  | error e => rw [hfn] at h; simp at h
  | ok fn =>
    rw [hfn] at h
    simp only [Prod.mk.injEq] at h
    rw [← h.2.2]
    exact deleteResourceLog_outcomes env c a s r fn

theorem applyOneLog_outcomes {env : Env} {c : ClientCfg} {a : Bool} {s s' : St} {r : Resource} {log : List LogMsg}
    (h : applyOneLog env c a s r = (s', .ok (), log)) : outcomes log = [r.uri] := by
  unfold applyOneLog at h
  cases hfn : c.disc.mapper.srcToDst r.uri with
  | error e => rw [hfn] at h; simp at h
  | ok fn =>
    rw [hfn] at h
    simp only at h
    by_cases h1 : r.change = some sUpdated
    · rw [if_pos h1] at h
      cases hu : updateResourceLog env c s r fn sUpdated with
      | mk s1 x =>
        obtain ⟨x, lg⟩ := x
        rw [hu] at h
        cases x with
        | error e => simp at h
        | ok k =>
          simp only [Prod.mk.injEq] at h
          rw [← h.2.2]
          have := updateResourceLog_outcomes hu
          exact this
    · rw [if_neg h1] at h
      by_cases h2 : r.change = some sCreated
      · rw [if_pos h2] at h
        cases hu : updateResourceLog env c s r fn sCreated with
        | mk s1 x =>
          obtain ⟨x, lg⟩ := x
          rw [hu] at h
          cases x with
          | error e => simp at h
          | ok k =>
            simp only [Prod.mk.injEq] at h
            rw [← h.2.2]
            have := updateResourceLog_outcomes hu
            exact this
      · rw [if_neg h2] at h
        by_cases h3 : r.change = some sDeleted
        · rw [if_pos h3] at h
          simp only [Prod.mk.injEq] at h
          rw [← h.2.2]
          exact deleteResourceLog_outcomes env c a s r fn
        · rw [if_neg h3] at h; simp at h

theorem forLog_outcomes {f : St → Resource → St × Except ClientErr Unit × List LogMsg}
    (hf : ∀ s r s' log, f s r = (s', .ok (), log) → outcomes log = [r.uri]) : ∀ rs s s' log, forLog f rs s = (s', .ok (), log) →
      outcomes log = rs.map (·.uri) := by
  intro rs
  induction rs with
  | nil => intro s s' log h; simp only [forLog, Prod.mk.injEq] at h; rw [← h.2.2]; rfl
  | cons r t ih =>
    intro s s' log h
    simp only [forLog] at h
    cases hr : f s r with
    | mk s1 x =>
      obtain ⟨x, lg⟩ := x
      rw [hr] at h
      cases x with
      | error e => simp at h
      | ok u =>
        simp only [Prod.mk.injEq] at h
        rw [← h.2.2, outcomes_append, hf s r s1 lg hr, ih s1 s' _ (Prod.ext h.1 (Prod.ext h.2.1 rfl))]
        rfl

theorem baselineSyncLog_outcomes {env : Env} {c : ClientCfg} {a : Bool} {src : Dict Resource} {cmp : Comparison} {s : St}
    (h : (baselineSyncLog env c a src cmp s).2.1 = .ok ()) : outcomes (baselineSyncLog env c a src cmp s).2.2 =
      (iterList cmp.created ++ (iterList cmp.updated ++ iterList cmp.deleted)).map (·.uri) := by
  revert h
  unfold baselineSyncLog
  cases baselineAuthority c src with
  | error e => intro h; simp at h
  | ok u =>
    simp only
    cases h1 : forLog (updateOneLog env c sCreated) (iterList cmp.created) { s with last_timestamp := 0 } with
    | mk s1 x =>
      obtain ⟨x, log1⟩ := x
      cases x with
      | error e => intro h; simp at h
      | ok u =>
        simp only
        cases h2 : forLog (updateOneLog env c sUpdated) (iterList cmp.updated) s1 with
        | mk s2 x =>
          obtain ⟨x, log2⟩ := x
          cases x with
          | error e => intro h; simp at h
          | ok u =>
            simp only
            cases h3 : forLog (deleteOneLog env c a) (iterList cmp.deleted) s2 with
            | mk s3 x =>
              obtain ⟨x, log3⟩ := x
              cases x with
              | error e => intro h; simp at h
              | ok u =>
                intro _
                simp only
                rw [outcomes_append, outcomes_append, forLog_outcomes (fun _ _ _ _ => updateOneLog_outcomes) _ _ _ _ h1,
                  forLog_outcomes (fun _ _ _ _ => updateOneLog_outcomes) _ _ _ _ h2,
                  forLog_outcomes (fun _ _ _ _ => deleteOneLog_outcomes) _ _ _ _ h3, List.map_append, List.map_append]

/-- what the comparison consists of, with one plain mapping -/
theorem compares_sets {env : Env} {c : ClientCfg} {audit : Bool} {s s1 : St} {m : Map} {root : Loc} {src : Dict Resource} {cmp : Comparison}
    (hone : OneSite c env.cwd m root s.world.fs) (hh : ∀ t ∈ s.hashes, HashType t) (hk : ListsKeyed env.sources)
    (hp : baselinePlan env c audit s = (s1, .ok (src, cmp))) :
    AllWF cmp ∧ (∀ u, (∃ r, dget cmp.created u = some r) ↔ Missing m root src s.world.fs u) ∧
    (∀ u, (∃ r, dget cmp.updated u = some r) ↔ Outdated m root src s.world.fs u) ∧
    (∀ u, (∃ r, dget cmp.deleted u = some r) ↔ Surplus m root src s.world.fs u) := by
  obtain ⟨dst, hpl⟩ := baselinePlan_ok hp
  have pf := planFacts hk hone.proper hpl
  have hw := pf.wf
  obtain ⟨dst', k1, k2⟩ := hone.scan env.lib (leftHashes s src) (fun t ht => hh t (leftHashes_sub ht))
  have hdst : dst' = dst := by
    have := hpl.scan
    rw [k1] at this
    cases this; rfl
  subst hdst
  have hmem : ∀ u r, (u, r) ∈ src ↔ dget src u = some r := fun u r => ⟨dget_of_mem hw.1, mem_of_dget⟩
  have hfile : ∀ u a, dget dst' u = some a → ∃ b t, LocalFile m root s.world.fs u b t ∧
      (∀ r, (u, r) ∈ src → (a.eq (some r) = true ↔ Agrees r b t)) ∧ ∀ b' t', LocalFile m root s.world.fs u b' t' → b' = b ∧ t' = t := by
    intro u a ha
    obtain ⟨names, b, t, hne, hf, rfl, rfl⟩ := (k2 u a).mp ha
    refine ⟨b, t, ⟨names, hne, rfl, hf⟩, fun r hr => describes_eq hw ((hmem _ _).mp hr), ?_⟩
    rintro b' t' ⟨names', hne', e, hf'⟩
    have := uriBelow_inj hne hne' (fun n hn => (names_of_file hone.tidy hne hf n hn).1) (fun n hn => (names_of_file hone.tidy hne' hf' n hn).1) e
    subst this
    unfold IsFile at hf hf'
    rw [hf] at hf'
    simp only [Option.some.injEq, FsNode.file.injEq] at hf'
    exact ⟨hf'.1.symm, hf'.2.symm⟩
  have hnone : ∀ u, dget dst' u = none ↔ ∀ b t, ¬ LocalFile m root s.world.fs u b t := by
    intro u
    constructor
    · rintro h b t ⟨names, hne, e, hf⟩
      have := (k2 u _).mpr ⟨names, b, t, hne, hf, e, rfl⟩
      rw [h] at this
      cases this
    · intro h
      cases e : dget dst' u with
      | none => rfl
      | some a =>
        obtain ⟨b, t, h1, -⟩ := hfile u a e
        exact absurd h1 (h b t)
  have hc := pf.cmp
  refine ⟨hc.wf, ?_, ?_, ?_⟩
  · intro u
    simp only [hc.created, hnone, Missing, hmem]
    constructor
    · rintro ⟨r, h1, h2⟩; exact ⟨⟨r, h1⟩, h2⟩
    · rintro ⟨⟨r, h1⟩, h2⟩; exact ⟨r, h1, h2⟩
  · intro u
    simp only [hc.updated, Outdated]
    constructor
    · rintro ⟨r, h1, a, h2, h3⟩
      obtain ⟨b, t, f1, f2, -⟩ := hfile u a h2
      refine ⟨r, mem_of_dget h1, b, t, f1, fun hag => ?_⟩
      rw [(f2 r (mem_of_dget h1)).mpr hag] at h3
      cases h3
    · rintro ⟨r, h1, b, t, h2, h3⟩
      cases e : dget dst' u with
      | none => exact absurd h2 ((hnone u).mp e b t)
      | some a =>
        obtain ⟨b', t', f1, f2, f3⟩ := hfile u a e
        obtain ⟨rfl, rfl⟩ := f3 b t h2
        refine ⟨r, (hmem _ _).mp h1, a, rfl, ?_⟩
        cases hx : a.eq (some r) with
        | false => rfl
        | true => exact absurd ((f2 r h1).mp hx) h3
  · intro u
    simp only [hc.deleted, Surplus, hmem]
    constructor
    · rintro ⟨a, h1, h2⟩
      obtain ⟨b, t, f1, -⟩ := hfile u a h1
      exact ⟨fun r hr => (by rw [h2] at hr; cases hr), b, t, f1⟩
    · rintro ⟨h1, b, t, h2⟩
      cases e : dget dst' u with
      | none => exact absurd h2 ((hnone u).mp e b t)
      | some a =>
        refine ⟨a, rfl, ?_⟩
        cases hs : dget src u with
        | none => rfl
        | some r => exact absurd hs (h1 r)

end Resync
