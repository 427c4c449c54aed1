import Verif.Spec.Client
import Verif.Proofs.Fs
import Verif.Proofs.ResourceList
/- Lemmas about what a run does. -/

namespace Resync
open Py Resync.Spec

/-- Only effects of this kind were produced, and they explain the change of the world -/
def Did (P : Effect → Prop) (s s' : St) : Prop :=
  ∃ es, s'.trace = s.trace ++ es ∧ s'.world = es.foldl World.apply s.world ∧ ∀ e ∈ es, P e

theorem Did.refl {P : Effect → Prop} (s : St) : Did P s s := ⟨[], by simp, rfl, by simp⟩

theorem Did.same {P : Effect → Prop} {s s' : St} (ht : s'.trace = s.trace) (hw : s'.world = s.world) : Did P s s' :=
  ⟨[], by simp [ht], by simp [hw], by simp⟩

theorem Did.trans {P : Effect → Prop} {a b c : St} (h : Did P a b) (h' : Did P b c) : Did P a c := by
  obtain ⟨x, x1, x2, x3⟩ := h
  obtain ⟨y, y1, y2, y3⟩ := h'
  refine ⟨x ++ y, by rw [y1, x1, List.append_assoc], by rw [y2, x2, List.foldl_append], ?_⟩
  intro e he
  rcases List.mem_append.mp he with h | h
  · exact x3 e h
  · exact y3 e h

theorem Did.emit {P : Effect → Prop} (s : St) (e : Effect) (h : P e) : Did P s (s.emit e) :=
  ⟨[e], rfl, rfl, by simpa using h⟩

theorem Did.mono {P Q : Effect → Prop} {s s' : St} (h : Did P s s') (hPQ : ∀ e, P e → Q e) : Did Q s s' := by
  obtain ⟨x, x1, x2, x3⟩ := h
  exact ⟨x, x1, x2, fun e he => hPQ e (x3 e he)⟩

theorem Did.done {P : Effect → Prop} {s s' : St} (h : Did P s s') : ∀ e ∈ doneBetween s s', P e := by
  obtain ⟨x, x1, x2, x3⟩ := h
  unfold doneBetween
  rw [x1, List.drop_left]
  exact x3

theorem Did.world {P : Effect → Prop} {s s' : St} (h : Did P s s') :
    s'.world = (doneBetween s s').foldl World.apply s.world := by
  obtain ⟨x, x1, x2, x3⟩ := h
  unfold doneBetween
  rw [x1, List.drop_left, x2]

theorem Did.final {P : Effect → Prop} {s s' : St} (h : Did P s s') : AtSomeMoment s s' s'.world :=
  ⟨(doneBetween s s').length, by rw [List.take_length]; exact h.world⟩

theorem Did.trace {P : Effect → Prop} {s s' : St} (h : Did P s s') : s'.trace = s.trace ++ doneBetween s s' := by
  obtain ⟨x, x1, x2, x3⟩ := h
  unfold doneBetween
  rw [x1, List.drop_left]

/-- A relation between effects and worlds kept by each single effect -/
theorem foldl_inv {P : Effect → Prop} (es : List Effect) (w : World) (I : World → Prop) (h0 : I w)
    (hP : ∀ e ∈ es, P e) (hstep : ∀ w e, P e → I w → I (w.apply e)) : I (es.foldl World.apply w) := by
  induction es generalizing w with
  | nil => exact h0
  | cons e t ih =>
    rw [List.foldl_cons]
    exact ih (w.apply e) (hstep w e (hP e (by simp)) h0) (fun x hx => hP x (by simp [hx]))

/-- What holds of the world initially and is kept by each effect holds at every moment -/
theorem moment_inv {P : Effect → Prop} {s s' : St} (h : Did P s s') (I : World → Prop) (h0 : I s.world)
    (hstep : ∀ w e, P e → I w → I (w.apply e)) : ∀ w, AtSomeMoment s s' w → I w := by
  rintro w ⟨k, rfl⟩
  have hP : ∀ e ∈ (doneBetween s s').take k, P e := fun e he => h.done e (List.mem_of_mem_take he)
  exact foldl_inv _ _ I h0 hP hstep

/-! ### The parts -/

theorem mkpath_did (env : Env) (pre : Loc) (rest : List Str) (s : St) :
    Did (fun e => ∃ d, e = .mkdir d ∧ d <+: pre ++ rest) s (mkpath env pre rest s).1 ∧
    (mkpath env pre rest s).1.last_timestamp = s.last_timestamp ∧ (mkpath env pre rest s).1.hashes = s.hashes := by
  induction rest generalizing pre s with
  | nil => exact ⟨Did.refl s, rfl, rfl⟩
  | cons n t ih =>
    have e : pre ++ n :: t = (pre ++ [n]) ++ t := by simp
    simp only [mkpath]
    split
    · rw [e]; exact ih (pre ++ [n]) s
    · exact ⟨Did.refl s, rfl, rfl⟩
    · split
      · exact ⟨Did.refl s, rfl, rfl⟩
      · have := ih (pre ++ [n]) (s.emit (.mkdir (pre ++ [n])))
        rw [← e] at this
        exact ⟨(Did.emit s _ ⟨pre ++ [n], rfl, by rw [e]; exact List.prefix_append _ _⟩).trans this.1, this.2.1, this.2.2⟩

/-- The effects of fetching `uri` into `l` -/
def FetchEff (uri : Str) (l : Loc) (e : Effect) : Prop :=
  e = .get uri ∨ (l ≠ [] ∧ ∃ t, e = .trunc l t) ∨ (l ≠ [] ∧ ∃ b, e = .append l b)

theorem openW_some {env : Env} {s s' : St} {l : Loc} (h : openW env s l = some s') :
    l ≠ [] ∧ s.world.fs.get l ≠ some .dir ∧ s.world.fs.isDir l.dropLast = true ∧ s' = s.emit (.trunc l (env.now s.trace)) := by
  unfold openW at h
  split at h
  · simp at h
  · rename_i hn
    simp only [Option.some.injEq] at h
    refine ⟨fun e => hn (Or.inl e), fun e => hn (Or.inr (Or.inl e)), ?_, h.symm⟩
    cases hd : s.world.fs.isDir l.dropLast with
    | true => rfl
    | false => exact absurd (Or.inr (Or.inr (Or.inl (by simp [hd])))) hn

theorem tryGet_did (env : Env) (s : St) (uri : Str) (l : Loc) :
    Did (FetchEff uri l) s (tryGet env s uri l).1 ∧ (tryGet env s uri l).1.last_timestamp = s.last_timestamp ∧
    (tryGet env s uri l).1.hashes = s.hashes := by
  have h1 : Did (FetchEff uri l) s (s.emit (.get uri)) := Did.emit s _ (Or.inl rfl)
  unfold tryGet
  simp only
  split
  · exact ⟨h1, rfl, rfl⟩
  · split
    · exact ⟨h1, rfl, rfl⟩
    · rename_i s2 hs2
      obtain ⟨hl, _, _, rfl⟩ := openW_some hs2
      exact ⟨(h1.trans (Did.emit _ _ (Or.inr (Or.inl ⟨hl, _, rfl⟩)))).trans (Did.emit _ _ (Or.inr (Or.inr ⟨hl, _, rfl⟩))), rfl, rfl⟩

theorem getLoop_did (env : Env) (ig : Bool) (uri : Str) (l : Loc) (n : Nat) (s : St) :
    Did (FetchEff uri l) s (getLoop env ig uri l n s).1 ∧
    (getLoop env ig uri l n s).1.last_timestamp = s.last_timestamp ∧ (getLoop env ig uri l n s).1.hashes = s.hashes := by
  induction n generalizing s with
  | zero => exact ⟨Did.refl s, rfl, rfl⟩
  | succ n ih =>
    obtain ⟨h1, h2, h3⟩ := tryGet_did env s uri l
    simp only [getLoop]
    split
    · exact ⟨h1, h2, h3⟩
    · split
      · exact ⟨h1, h2, h3⟩
      · obtain ⟨i1, i2, i3⟩ := ih (tryGet env s uri l).1
        exact ⟨h1.trans i1, i2.trans h2, i3.trans h3⟩
    · exact ⟨h1, h2, h3⟩
    · exact ⟨h1, h2, h3⟩

/-- The effects of update_resource -/
def UpdEff (dryrun : Bool) (cwd : Loc) (uri filename : Str) (e : Effect) : Prop :=
  (∃ d, e = .mkdir d ∧ d <+: location cwd (dirname filename)) ∨
  (dryrun = false ∧ (FetchEff uri (location cwd filename) e ∨ ∃ t, e = .utime (location cwd filename) t))

theorem St.seen_trace (s : St) (t : Option Rat) : (s.seen t).trace = s.trace := by
  unfold St.seen; split
  · split <;> rfl
  · rfl

theorem St.seen_world (s : St) (t : Option Rat) : (s.seen t).world = s.world := by
  unfold St.seen; split
  · split <;> rfl
  · rfl

theorem St.seen_hashes (s : St) (t : Option Rat) : (s.seen t).hashes = s.hashes := by
  unfold St.seen; split
  · split <;> rfl
  · rfl

theorem setTime_did (s : St) (l : Loc) (t : Option Rat) :
    Did (fun e => ∃ t, e = .utime l t) s (setTime s l t).1 ∧ (setTime s l t).1.hashes = s.hashes := by
  unfold setTime
  split
  · exact ⟨Did.refl s, rfl⟩
  · split
    · exact ⟨Did.refl s, rfl⟩
    · rename_i t
      exact ⟨(Did.emit s _ ⟨_, rfl⟩).trans (Did.same (St.seen_trace _ _) (St.seen_world _ _)), St.seen_hashes _ _⟩

theorem updateResource_did (env : Env) (c : ClientCfg) (s : St) (r : Resource) (filename : Str) :
    Did (UpdEff c.dryrun env.cwd r.uri filename) s (updateResource env c s r filename).1 ∧
    (updateResource env c s r filename).1.hashes = s.hashes := by
  obtain ⟨m1, _, m3⟩ := mkpath_did env [] (location env.cwd (dirname filename)) s
  have m1' : Did (UpdEff c.dryrun env.cwd r.uri filename) s (mkpath env [] (location env.cwd (dirname filename)) s).1 :=
    m1.mono (fun e he => Or.inl (by simpa using he))
  unfold updateResource
  cases hm : mkpath env [] (location env.cwd (dirname filename)) s with
  | mk s1 b =>
  rw [hm] at m1' m3
  cases b with
  | false => exact ⟨m1', m3⟩
  | true =>
    simp only
    by_cases hd : c.dryrun
    · simp only [hd, if_true]; exact ⟨by simpa [hd] using m1', m3⟩
    · have hd' : c.dryrun = false := by simpa using hd
      simp only [hd', Bool.false_eq_true, if_false]
      rw [hd'] at m1'
      obtain ⟨g1, _, g3⟩ := getLoop_did env c.ignore_failures r.uri (location env.cwd filename) c.tries s1
      cases hg : getLoop env c.ignore_failures r.uri (location env.cwd filename) c.tries s1 with
      | mk s2 g =>
      rw [hg] at g1 g3
      have g1' : Did (UpdEff false env.cwd r.uri filename) s s2 := m1'.trans (g1.mono (fun e he => Or.inr ⟨rfl, Or.inl he⟩))
      obtain ⟨t1, t2⟩ := setTime_did s2 (location env.cwd filename) r.timestamp
      have t1' : Did (UpdEff false env.cwd r.uri filename) s (setTime s2 (location env.cwd filename) r.timestamp).1 :=
        g1'.trans (t1.mono (fun e he => Or.inr ⟨rfl, Or.inr he⟩))
      cases g with
      | raised e => exact ⟨g1', g3.trans m3⟩
      | gaveUp => exact ⟨g1', g3.trans m3⟩
      | updated =>
        simp only
        cases ht : setTime s2 (location env.cwd filename) r.timestamp with
        | mk s3 x =>
        rw [ht] at t1' t2
        cases x <;> exact ⟨t1', t2.trans (g3.trans m3)⟩
      | skipped =>
        simp only
        cases ht : setTime s2 (location env.cwd filename) r.timestamp with
        | mk s3 x =>
        rw [ht] at t1' t2
        cases x <;> exact ⟨t1', t2.trans (g3.trans m3)⟩

theorem deleteResource_did (env : Env) (c : ClientCfg) (allow : Bool) (s : St) (r : Resource) (filename : Str) :
    Did (fun e => e = .unlink (location env.cwd filename) ∧ location env.cwd filename ≠ [] ∧ allow = true ∧ c.dryrun = false)
      s (deleteResource env c allow s r filename).1 ∧
    (deleteResource env c allow s r filename).1.hashes = s.hashes ∧
    (deleteResource env c allow s r filename).1.last_timestamp = (s.seen r.timestamp).last_timestamp := by
  have h0 : ∀ P, Did P s (s.seen r.timestamp) := fun P => Did.same (St.seen_trace _ _) (St.seen_world _ _)
  unfold deleteResource
  simp only
  by_cases ha : allow = true
  · by_cases hd : c.dryrun = true
    · simp only [ha, hd, not_true_eq_false, if_false, if_true]
      exact ⟨h0 _, St.seen_hashes _ _, by trivial⟩
    · have hd' : c.dryrun = false := by simpa using hd
      simp only [ha, hd', not_true_eq_false, if_false, Bool.false_eq_true]
      split
      · rename_i hg
        have hne : location env.cwd filename ≠ [] := by
          intro e; rw [e, get_root] at hg; simp at hg
        split
        · exact ⟨h0 _, St.seen_hashes _ _, by trivial⟩
        · exact ⟨(h0 _).trans (Did.emit _ _ ⟨by trivial, hne, by trivial, by trivial⟩), St.seen_hashes _ _, by trivial⟩
      · exact ⟨h0 _, St.seen_hashes _ _, by trivial⟩
  · rw [if_pos ha]
    exact ⟨h0 _, St.seen_hashes _ _, by trivial⟩

theorem forEach_did {P : Effect → Prop} (f : St → Resource → St × Except ClientErr Unit) (rs : List Resource)
    (hf : ∀ r ∈ rs, ∀ s, Did P s (f s r).1 ∧ (f s r).1.hashes = s.hashes) (s : St) :
    Did P s (forEach f rs s).1 ∧ (forEach f rs s).1.hashes = s.hashes := by
  induction rs generalizing s with
  | nil => exact ⟨Did.refl s, rfl⟩
  | cons r t ih =>
    obtain ⟨h1, h2⟩ := hf r (by simp) s
    simp only [forEach]
    cases hr : f s r with
    | mk s1 x =>
    rw [hr] at h1 h2
    cases x with
    | error e => exact ⟨h1, h2⟩
    | ok u =>
      obtain ⟨i1, i2⟩ := ih (fun r' hr' => hf r' (by simp [hr'])) s1
      exact ⟨h1.trans i1, i2.trans h2⟩

/-- a time in the years 1 to 9999 can be logged -/
theorem logTime_ok {t : Rat} : logTime t = .ok () ↔ (datetimeToStr t false).isSome := by
  unfold logTime
  cases datetimeToStr t false <;> simp

theorem storeState_did (env : Env) (c : ClientCfg) (s : St) :
    Did (fun e => ∃ site text, c.disc.sitemap = .ok site ∧
        setState env.ft s.world.state site (some s.last_timestamp) = .ok (some text) ∧ e = .setState text)
      s (storeState env c s).1 ∧ (storeState env c s).1.hashes = s.hashes := by
  unfold storeState
  split
  · exact ⟨Did.refl s, rfl⟩
  · rename_i site hs
    split
    · exact ⟨Did.refl s, rfl⟩
    · exact ⟨Did.refl s, rfl⟩
    · rename_i text ht
      exact ⟨Did.emit s _ ⟨site, text, hs, ht, rfl⟩, rfl⟩

end Resync

namespace Resync
open Py Resync.Spec

theorem iterList_eq (d : Dict Resource) : iterList d = listing d := by unfold iterList; rw [iterAll_listing]

/-! ### Whole runs -/

theorem baselinePlan_same (env : Env) (c : ClientCfg) (a : Bool) (s : St) :
    (baselinePlan env c a s).1.world = s.world ∧ (baselinePlan env c a s).1.trace = s.trace ∧
    (baselinePlan env c a s).1.last_timestamp = s.last_timestamp := by
  unfold baselinePlan
  split
  · exact ⟨rfl, rfl, rfl⟩
  · split
    · exact ⟨rfl, rfl, rfl⟩
    · exact ⟨rfl, rfl, rfl⟩
    · split
      · exact ⟨rfl, rfl, rfl⟩
      · split
        · exact ⟨rfl, rfl, rfl⟩
        · simp only
          by_cases hh : s.hashes = []
          · simp only [hh, ne_eq, not_true_eq_false, if_false]
            split
            · exact ⟨rfl, rfl, rfl⟩
            · split <;> exact ⟨rfl, rfl, rfl⟩
          · simp only [hh, ne_eq, not_false_eq_true, if_true]
            split
            · exact ⟨rfl, rfl, rfl⟩
            · split <;> exact ⟨rfl, rfl, rfl⟩

/-- the hash types left by prune_hashes -/
def leftHashes (s : St) (src : Dict Resource) : List Str :=
  if s.hashes ≠ [] then pruneHashes s.hashes (listHashes (iterList src)) else s.hashes

structure Planned (env : Env) (c : ClientCfg) (a : Bool) (s s1 : St) (src : Dict Resource) (cmp : Comparison) (dst : Dict Resource) :
    Prop where
  mapped : c.disc.mapper ≠ []
  safe : a = false → c.disc.mapper.isUnsafe = .ok false
  found : (findResourceList env.sources c.disc).2 = .ok src
  some_resource : src ≠ []
  scan : (Builder.new c.disc.mapper (some (leftHashes s src)) true false).fromDisk env.lib (s.world.fs.disk env.cwd) = .ok dst
  compared : ∃ h', compare (pairHeap dst src) 0 1 = .ok (h', cmp)
  state : s1 = { s with hashes := leftHashes s src }

theorem baselinePlan_ok {env : Env} {c : ClientCfg} {a : Bool} {s s1 : St} {src : Dict Resource} {cmp : Comparison}
    (h : baselinePlan env c a s = (s1, .ok (src, cmp))) : ∃ dst, Planned env c a s s1 src cmp dst := by
  unfold baselinePlan at h
  by_cases hm : c.disc.mapper = []
  · rw [if_pos hm] at h; simp at h
  · rw [if_neg hm] at h
    cases hu : (if a = true then (Except.ok false : Except MapErr Bool) else c.disc.mapper.isUnsafe) with
    | error e => rw [hu] at h; simp at h
    | ok u =>
      rw [hu] at h
      cases u with
      | true => simp at h
      | false =>
        simp only at h
        cases hf : (findResourceList env.sources c.disc).2 with
        | error e => rw [hf] at h; simp at h
        | ok src' =>
          rw [hf] at h
          simp only at h
          by_cases hs : src' = []
          · rw [if_pos hs] at h; simp at h
          · rw [if_neg hs] at h
            have hsafe : a = false → c.disc.mapper.isUnsafe = .ok false := by
              intro ha; rw [ha] at hu; simpa using hu
            have est : (if s.hashes ≠ [] then { s with hashes := pruneHashes s.hashes (listHashes (iterList src')) } else s)
                = { s with hashes := leftHashes s src' } := by
              unfold leftHashes; split <;> rfl
            rw [est] at h
            simp only at h
            cases hd : (Builder.new c.disc.mapper (some (leftHashes s src')) true false).fromDisk env.lib (s.world.fs.disk env.cwd) with
            | error e => rw [hd] at h; simp at h
            | ok dst =>
              rw [hd] at h
              simp only at h
              cases hc : compare (pairHeap dst src') 0 1 with
              | error e => rw [hc] at h; simp at h
              | ok x =>
                obtain ⟨h', cmp'⟩ := x
                rw [hc] at h
                simp only [Prod.mk.injEq, Except.ok.injEq] at h
                obtain ⟨rfl, rfl, rfl⟩ := h
                exact ⟨dst, hm, hsafe, hf, hs, hd, ⟨h', hc⟩, rfl⟩

/-- The effects of a baseline sync for these lists -/
def SyncEff (env : Env) (c : ClientCfg) (allow : Bool) (upd del : List Resource) (e : Effect) : Prop :=
  (∃ r ∈ upd, ∃ fn, c.disc.mapper.srcToDst r.uri = .ok fn ∧ UpdEff c.dryrun env.cwd r.uri fn e) ∨
  (∃ r ∈ del, ∃ fn, c.disc.mapper.srcToDst r.uri = .ok fn ∧ e = .unlink (location env.cwd fn) ∧
    location env.cwd fn ≠ [] ∧ allow = true ∧ c.dryrun = false)

def IsSetState (e : Effect) : Prop := ∃ text, e = .setState text

theorem updateOne_did (env : Env) (c : ClientCfg) (allow : Bool) (upd del : List Resource) (r : Resource) (hr : r ∈ upd) (s : St) :
    Did (SyncEff env c allow upd del) s (updateOne env c s r).1 ∧ (updateOne env c s r).1.hashes = s.hashes := by
  unfold updateOne
  split
  · exact ⟨Did.refl s, rfl⟩
  · rename_i fn hfn
    obtain ⟨h1, h2⟩ := updateResource_did env c s r fn
    have h1' := h1.mono (Q := SyncEff env c allow upd del) (fun e he => Or.inl ⟨r, hr, fn, hfn, he⟩)
    cases hu : updateResource env c s r fn with
    | mk s1 x =>
    rw [hu] at h1' h2
    cases x <;> exact ⟨h1', h2⟩

theorem deleteOne_did (env : Env) (c : ClientCfg) (allow : Bool) (upd del : List Resource) (r : Resource) (hr : r ∈ del) (s : St) :
    Did (SyncEff env c allow upd del) s (deleteOne env c allow s r).1 ∧ (deleteOne env c allow s r).1.hashes = s.hashes := by
  unfold deleteOne
  split
  · exact ⟨Did.refl s, rfl⟩
  · rename_i fn hfn
    obtain ⟨h1, h2, _⟩ := deleteResource_did env c allow s r fn
    exact ⟨h1.mono (fun e he => Or.inr ⟨r, hr, fn, hfn, he⟩), h2⟩

theorem applyOne_did (env : Env) (c : ClientCfg) (allow : Bool) (upd del : List Resource) (r : Resource)
    (hu : r.change = some sUpdated ∨ r.change = some sCreated → r ∈ upd) (hd : r.change = some sDeleted → r ∈ del) (s : St) :
    Did (SyncEff env c allow upd del) s (applyOne env c allow s r).1 ∧ (applyOne env c allow s r).1.hashes = s.hashes := by
  unfold applyOne
  split
  · exact ⟨Did.refl s, rfl⟩
  · rename_i fn hfn
    split
    · rename_i hc
      obtain ⟨h1, h2⟩ := updateResource_did env c s r fn
      have h1' := h1.mono (Q := SyncEff env c allow upd del) (fun e he => Or.inl ⟨r, hu hc, fn, hfn, he⟩)
      cases hu : updateResource env c s r fn with
      | mk s1 x =>
      rw [hu] at h1' h2
      cases x <;> exact ⟨h1', h2⟩
    · split
      · rename_i hc
        obtain ⟨h1, h2, _⟩ := deleteResource_did env c allow s r fn
        exact ⟨h1.mono (fun e he => Or.inr ⟨r, hd hc, fn, hfn, he⟩), h2⟩
      · exact ⟨Did.refl s, rfl⟩

theorem baselineSync_did (env : Env) (c : ClientCfg) (allow : Bool) (src : Dict Resource) (cmp : Comparison) (s : St) :
    Did (fun e => (baselineAuthority c src = .ok ()) ∧
        (SyncEff env c allow (iterList cmp.created ++ iterList cmp.updated) (iterList cmp.deleted) e ∨ IsSetState e)) s
      (baselineSync env c allow src cmp s).1 ∧ (baselineSync env c allow src cmp s).1.hashes = s.hashes := by
  unfold baselineSync
  cases ha : baselineAuthority c src with
  | error e => exact ⟨Did.refl s, rfl⟩
  | ok u =>
    simp only
    obtain ⟨a1, a2⟩ := forEach_did (P := SyncEff env c allow (iterList cmp.created ++ iterList cmp.updated) (iterList cmp.deleted))
      (updateOne env c) (iterList cmp.created)
      (fun r hr s => updateOne_did env c allow _ _ r (List.mem_append_left _ hr) s) { s with last_timestamp := 0 }
    have a0 : Did (fun e => SyncEff env c allow (iterList cmp.created ++ iterList cmp.updated) (iterList cmp.deleted) e) s
        { s with last_timestamp := 0 } := Did.same rfl rfl
    have a1 := a0.trans a1
    have up : ∀ {x y : St}, Did (fun e => SyncEff env c allow (iterList cmp.created ++ iterList cmp.updated) (iterList cmp.deleted) e) x y →
        Did (fun e => True ∧ (SyncEff env c allow (iterList cmp.created ++ iterList cmp.updated) (iterList cmp.deleted) e ∨ IsSetState e)) x y :=
      fun h => h.mono (fun e he => ⟨trivial, Or.inl he⟩)
    cases h1 : forEach (updateOne env c) (iterList cmp.created) { s with last_timestamp := 0 } with
    | mk s1 x1 =>
    rw [h1] at a1 a2
    cases x1 with
    | error e => exact ⟨up a1, a2⟩
    | ok _ =>
      simp only
      obtain ⟨b1, b2⟩ := forEach_did (P := SyncEff env c allow (iterList cmp.created ++ iterList cmp.updated) (iterList cmp.deleted))
        (updateOne env c) (iterList cmp.updated)
        (fun r hr s => updateOne_did env c allow _ _ r (List.mem_append_right _ hr) s) s1
      have b1 := a1.trans b1
      cases h2 : forEach (updateOne env c) (iterList cmp.updated) s1 with
      | mk s2 x2 =>
      rw [h2] at b1 b2
      cases x2 with
      | error e => exact ⟨up b1, b2.trans a2⟩
      | ok _ =>
        simp only
        obtain ⟨c1, c2⟩ := forEach_did (P := SyncEff env c allow (iterList cmp.created ++ iterList cmp.updated) (iterList cmp.deleted))
          (deleteOne env c allow) (iterList cmp.deleted)
          (fun r hr s => deleteOne_did env c allow _ _ r hr s) s2
        have c1 := b1.trans c1
        cases h3 : forEach (deleteOne env c allow) (iterList cmp.deleted) s2 with
        | mk s3 x3 =>
        rw [h3] at c1 c2
        cases x3 with
        | error e => exact ⟨up c1, c2.trans (b2.trans a2)⟩
        | ok _ =>
          simp only
          split
          · obtain ⟨d1, d2⟩ := storeState_did env c s3
            exact ⟨(up c1).trans (d1.mono (by rintro e ⟨_, t, _, _, h⟩; exact ⟨trivial, Or.inr ⟨t, h⟩⟩)), d2.trans (c2.trans (b2.trans a2))⟩
          · exact ⟨up c1, c2.trans (b2.trans a2)⟩

/-- Everything a baseline run does, and when -/
theorem baseline_did (env : Env) (c : ClientCfg) (allow a : Bool) (s : St) :
    Did (fun e => a = false ∧ ∃ s1 src cmp dst, Planned env c a s s1 src cmp dst ∧ baselineAuthority c src = .ok () ∧
        (SyncEff env c allow (iterList cmp.created ++ iterList cmp.updated) (iterList cmp.deleted) e ∨ IsSetState e))
      s (baselineOrAudit env c allow a s).1 := by
  unfold baselineOrAudit
  obtain ⟨p1, p2, _⟩ := baselinePlan_same env c a s
  cases hp : baselinePlan env c a s with
  | mk s1 x =>
  rw [hp] at p1 p2
  cases x with
  | error e => exact Did.same p2 p1
  | ok y =>
    obtain ⟨src, cmp⟩ := y
    simp only
    by_cases hz : a = true ∨ cmp.created.length + cmp.updated.length + cmp.deleted.length = 0
    · rw [if_pos hz]; exact Did.same p2 p1
    · rw [if_neg hz]
      obtain ⟨dst, hpl⟩ := baselinePlan_ok hp
      have ha : a = false := by
        cases a with
        | true => exact absurd (Or.inl rfl) hz
        | false => rfl
      have h0 : ∀ P, Did P s s1 := fun P => Did.same p2 p1
      exact (h0 _).trans ((baselineSync_did env c allow src cmp s1).1.mono
        (fun e he => ⟨ha, s1, src, cmp, dst, hpl, he.1, he.2⟩))

end Resync

namespace Resync
open Py Resync.Spec

structure IncPlanned (env : Env) (c : ClientCfg) (uri from_datetime : Option Str) (s s1 : St) (cl : List Resource)
    (t0 : Rat) (clUri : Str) (raw kept : List Resource) (last : Rat) : Prop where
  mapped : c.disc.mapper ≠ []
  safe : c.disc.mapper.isUnsafe = .ok false
  start : startTime env c from_datetime s = .ok t0
  listUri : c.disc.sitemapUri (c.changeListName uri) = .ok clUri
  read : env.changeList clUri = some raw
  nohash : s.hashes = []
  times : checkTimes raw 0 = .ok last
  authority : incrementalAuthority c clUri (givenUri uri) raw = .ok ()
  pruned : ∃ n, pruneUpdatesBefore raw t0 c.spec_version = (kept, .ok n)
  dupes : cl = (pruneDupes kept).1
  known : ∀ r ∈ cl, r.change = some sUpdated ∨ r.change = some sCreated ∨ r.change = some sDeleted
  state : s1 = { s with last_timestamp := last }

theorem incrementalPlan_same (env : Env) (c : ClientCfg) (uri fd : Option Str) (s : St) :
    (incrementalPlan env c uri fd s).1.world = s.world ∧ (incrementalPlan env c uri fd s).1.trace = s.trace := by
  unfold incrementalPlan
  split
  · exact ⟨rfl, rfl⟩
  · split
    · exact ⟨rfl, rfl⟩
    · exact ⟨rfl, rfl⟩
    · split
      · exact ⟨rfl, rfl⟩
      · split
        · exact ⟨rfl, rfl⟩
        · split
          · exact ⟨rfl, rfl⟩
          · split
            · exact ⟨rfl, rfl⟩
            · split
              · exact ⟨rfl, rfl⟩
              · simp only
                split
                · exact ⟨rfl, rfl⟩
                · split
                  · exact ⟨rfl, rfl⟩
                  · split
                    · exact ⟨rfl, rfl⟩
                    · split <;> exact ⟨rfl, rfl⟩

theorem incrementalPlan_ok {env : Env} {c : ClientCfg} {uri fd : Option Str} {s s1 : St} {cl : List Resource}
    (h : incrementalPlan env c uri fd s = (s1, .ok cl)) :
    ∃ t0 clUri raw kept last, IncPlanned env c uri fd s s1 cl t0 clUri raw kept last := by
  unfold incrementalPlan at h
  by_cases hm : c.disc.mapper = []
  · rw [if_pos hm] at h; simp at h
  rw [if_neg hm] at h
  cases hu : c.disc.mapper.isUnsafe with
  | error e => rw [hu] at h; simp at h
  | ok u =>
  cases u with
  | true => rw [hu] at h; simp at h
  | false =>
  rw [hu] at h; simp only at h
  cases hst : startTime env c fd s with
  | error e => rw [hst] at h; simp at h
  | ok t0 =>
  rw [hst] at h; simp only at h
  cases hsm : c.disc.sitemapUri (c.changeListName uri) with
  | error e => rw [hsm] at h; simp at h
  | ok clUri =>
  rw [hsm] at h; simp only at h
  cases hr : env.changeList clUri with
  | none => rw [hr] at h; simp at h
  | some raw =>
  rw [hr] at h; simp only at h
  by_cases hh : s.hashes = []
  swap
  · rw [if_pos hh] at h; simp at h
  rw [if_neg (by simp [hh])] at h
  cases ht : checkTimes raw 0 with
  | error e => rw [ht] at h; simp at h
  | ok last =>
  rw [ht] at h; simp only at h
  cases ha : incrementalAuthority c clUri (givenUri uri) raw with
  | error e => rw [ha] at h; simp at h
  | ok u =>
  rw [ha] at h; simp only at h
  cases hp : pruneUpdatesBefore raw t0 c.spec_version with
  | mk kept x =>
  cases x with
  | error e => rw [hp] at h; simp at h
  | ok n =>
  rw [hp] at h; simp only at h
  split at h
  · simp at h
  split at h
  · simp at h
  · rename_i hk
    simp only [Prod.mk.injEq, Except.ok.injEq] at h
    obtain ⟨rfl, rfl⟩ := h
    refine ⟨t0, clUri, raw, kept, last, hm, hu, hst, hsm, hr, hh, ht, ha, ⟨n, hp⟩, rfl, ?_, rfl⟩
    intro r hr
    by_contra hn
    exact hk (List.any_eq_true.mpr ⟨r, hr, by simpa using hn⟩)

def changedOf (cl : List Resource) : List Resource := cl.filter (fun r => r.change = some sUpdated ∨ r.change = some sCreated)
def deletedOf (cl : List Resource) : List Resource := cl.filter (fun r => r.change = some sDeleted)

/-- Everything an incremental run does -/
theorem incremental_did (env : Env) (c : ClientCfg) (allow : Bool) (uri fd : Option Str) (s : St) :
    Did (fun e => ∃ s1 cl t0 clUri raw kept last, IncPlanned env c uri fd s s1 cl t0 clUri raw kept last ∧
        (SyncEff env c allow (changedOf cl) (deletedOf cl) e ∨ IsSetState e))
      s (incremental env c allow uri fd s).1 := by
  unfold incremental
  obtain ⟨p1, p2⟩ := incrementalPlan_same env c uri fd s
  cases hp : incrementalPlan env c uri fd s with
  | mk s1 x =>
  rw [hp] at p1 p2
  cases x with
  | error e => exact Did.same p2 p1
  | ok cl =>
    simp only
    split
    · exact Did.same p2 p1
    · obtain ⟨t0, clUri, raw, kept, last, hpl⟩ := incrementalPlan_ok hp
      obtain ⟨a1, a2⟩ := forEach_did (P := SyncEff env c allow (changedOf cl) (deletedOf cl)) (applyOne env c allow) cl
        (fun r hr s => applyOne_did env c allow _ _ r (fun h => List.mem_filter.mpr ⟨hr, by simpa using h⟩)
          (fun h => List.mem_filter.mpr ⟨hr, by simpa using h⟩) s) s1
      have a0 : Did (SyncEff env c allow (changedOf cl) (deletedOf cl)) s s1 := Did.same p2 p1
      have a1 := (a0.trans a1).mono (Q := fun e => ∃ s1 cl t0 clUri raw kept last,
        IncPlanned env c uri fd s s1 cl t0 clUri raw kept last ∧
        (SyncEff env c allow (changedOf cl) (deletedOf cl) e ∨ IsSetState e))
        (fun e he => ⟨s1, cl, t0, clUri, raw, kept, last, hpl, Or.inl he⟩)
      cases h1 : forEach (applyOne env c allow) cl s1 with
      | mk s2 x2 =>
      rw [h1] at a1 a2
      cases x2 with
      | error e => exact a1
      | ok _ =>
        simp only
        split
        · exact a1.trans ((storeState_did env c s2).1.mono (by
            rintro e ⟨_, t, _, _, h⟩
            exact ⟨s1, cl, t0, clUri, raw, kept, last, hpl, Or.inr ⟨t, h⟩⟩))
        · exact a1

end Resync
