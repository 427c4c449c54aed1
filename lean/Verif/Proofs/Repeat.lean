import Verif.Spec.Repeat
import Verif.Proofs.Copies
/- What holds at every moment of a baseline sync. -/

namespace Resync
open Py Resync.Spec

/-- `I` holds before, between and after these effects, also when only a part of some bytes has been written -/
def PathKeeps (I : World → Prop) : World → List Effect → Prop
  | w, [] => I w
  | w, e :: es => I w ∧ (∀ l b b', e = .append l b → b' <+: b → I (w.apply (.append l b'))) ∧ PathKeeps I (w.apply e) es

theorem PathKeeps.append {I : World → Prop} : ∀ {es es' : List Effect} {w : World}, PathKeeps I w es →
    PathKeeps I (es.foldl World.apply w) es' → PathKeeps I w (es ++ es')
  | [], _, _, _, h => h
  | _ :: _, _, _, ⟨h1, h2, h3⟩, h => ⟨h1, h2, PathKeeps.append h3 h⟩

/-- `I` holds at every moment of the run -/
def Kept (I : World → Prop) (s s' : St) : Prop :=
  ∃ es, s'.trace = s.trace ++ es ∧ s'.world = es.foldl World.apply s.world ∧ PathKeeps I s.world es

theorem PathKeeps.first {I : World → Prop} {es : List Effect} {w : World} (h : PathKeeps I w es) : I w := by
  cases es with
  | nil => exact h
  | cons e t => exact h.1

theorem PathKeeps.last {I : World → Prop} : ∀ {es : List Effect} {w : World}, PathKeeps I w es → I (es.foldl World.apply w)
  | [], _, h => h
  | _ :: es, _, h => PathKeeps.last (es := es) h.2.2

theorem PathKeeps.at {I : World → Prop} : ∀ {es : List Effect} {w : World}, PathKeeps I w es → ∀ k, I ((es.take k).foldl World.apply w)
  | [], _, h, k => by rw [List.take_nil]; exact h
  | _ :: _, _, h, 0 => h.1
  | _ :: es, _, h, k + 1 => PathKeeps.at (es := es) h.2.2 k

theorem PathKeeps.within {I : World → Prop} : ∀ {es : List Effect} {w : World}, PathKeeps I w es → ∀ k l b b', es[k]? = some (.append l b) →
    b' <+: b → I (((es.take k).foldl World.apply w).apply (.append l b'))
  | [], _, _, k, _, _, _, he, _ => by simp at he
  | _ :: _, _, h, 0, l, b, b', he, hb => by
    simp only [List.getElem?_cons_zero, Option.some.injEq] at he
    exact h.2.1 l b b' he hb
  | _ :: es, _, h, k + 1, l, b, b', he, hb => PathKeeps.within (es := es) h.2.2 k l b b' (by simpa using he) hb

theorem Kept.end {I : World → Prop} {s s' : St} (h : Kept I s s') : I s'.world := by
  obtain ⟨es, -, h2, h3⟩ := h
  rw [h2]; exact h3.last

theorem Kept.trans {I : World → Prop} {a b c : St} (h : Kept I a b) (h' : Kept I b c) : Kept I a c := by
  obtain ⟨x, x1, x2, x3⟩ := h
  obtain ⟨y, y1, y2, y3⟩ := h'
  refine ⟨x ++ y, by rw [y1, x1, List.append_assoc], by rw [y2, x2, List.foldl_append], x3.append ?_⟩
  rw [← x2]; exact y3

theorem Kept.same {I : World → Prop} {s s' : St} (ht : s'.trace = s.trace) (hw : s'.world = s.world) (h : I s.world) : Kept I s s' :=
  ⟨[], by simp [ht], by simp [hw], h⟩

theorem Kept.refl {I : World → Prop} {s : St} (h : I s.world) : Kept I s s := .same rfl rfl h

theorem Kept.emit {I : World → Prop} {s : St} {e : Effect} (h : I s.world) (he : ∀ l b, e ≠ .append l b) (h' : I (s.world.apply e)) :
    Kept I s (s.emit e) :=
  ⟨[e], rfl, rfl, h, fun l b _ h1 _ => absurd h1 (he l b), h'⟩

theorem Kept.append {I : World → Prop} {s : St} {l : Loc} {b : Bytes} (h : I s.world)
    (h' : ∀ b', b' <+: b → I (s.world.apply (.append l b'))) : Kept I s (s.emit (.append l b)) :=
  ⟨[.append l b], rfl, rfl, h, fun l1 b1 b' h1 h2 => by cases h1; exact h' b' h2, h' b (List.prefix_refl b)⟩

/-- whatever an interrupted run leaves -/
theorem Kept.left {I : World → Prop} {s s' : St} (h : Kept I s s') {w : World} (hw : LeftBy s s' w) : I w := by
  obtain ⟨es, h1, -, h3⟩ := h
  have hd : doneBetween s s' = es := by unfold doneBetween; rw [h1, List.drop_left]
  rcases hw with ⟨k, rfl⟩ | ⟨k, l, b, b', he, hb, rfl⟩
  · rw [hd]; exact h3.at k
  · rw [hd] at he ⊢; exact h3.within k l b b' he hb

/-- a proper file system in which everything is as it may be -/
structure FsKeeps (P : Loc → FsNode → Prop) (fs : Fs) : Prop where
  tidy : Tidy fs
  nodes : ∀ l n, l ≠ [] → fs.get l = some n → P l n

/-- and a state file that is as it may be -/
abbrev Inv (P : Loc → FsNode → Prop) (Q : Option Str → Prop) (w : World) : Prop := FsKeeps P w.fs ∧ Q w.state

theorem keeps_set {P : Loc → FsNode → Prop} {fs : Fs} (h : FsKeeps P fs) {l : Loc} {n : FsNode} (ht : Tidy (fs.set l n)) (hl : l ≠ [])
    (hn : P l n) : FsKeeps P (fs.set l n) := by
  refine ⟨ht, ?_⟩
  intro k m hk0 hk
  by_cases hkl : k = l
  · subst hkl
    rw [get_set_self _ _ _ hl] at hk
    cases hk
    exact hn
  · rw [get_set_other _ _ _ _ hkl] at hk
    exact h.nodes k m hk0 hk

theorem keeps_del {P : Loc → FsNode → Prop} {fs : Fs} (h : FsKeeps P fs) {l : Loc} (ht : Tidy (fs.del l)) : FsKeeps P (fs.del l) := by
  refine ⟨ht, ?_⟩
  intro k m hk0 hk
  by_cases hkl : k = l
  · subst hkl
    rw [get_del_self _ _ hk0] at hk
    cases hk
  · rw [get_del_other _ _ _ hkl] at hk
    exact h.nodes k m hk0 hk

/-- What a resource's file may be: its place, the places of the directories it is in, and what becomes of the file when it is
fetched -/
structure MayFetch (P : Loc → FsNode → Prop) (env : Env) (r : Resource) (fn : Str) : Prop where
  line : OneLine fn
  dirs : ∀ pre, pre <+: location env.cwd (dirname fn) → pre ≠ [] → P pre .dir
  empty : ∀ tr, P (location env.cwd fn) (.file [] (env.now tr))
  body : ∀ tr b e, env.serve tr r.uri = .body b e → ∀ b', b' <+: b → ∀ tr', P (location env.cwd fn) (.file b' (env.now tr'))
  time : ∀ t, r.timestamp = some t → ∀ b m, P (location env.cwd fn) (.file b m) → P (location env.cwd fn) (.file b (truncRat t))

section
variable {P : Loc → FsNode → Prop} {Q : Option Str → Prop}

theorem kept_mkpath (env : Env) : ∀ (rest : List Str) (pre : Loc) (s : St), Inv P Q s.world → (∀ n ∈ pre ++ rest, PlainName n) →
    (∀ q, q <+: pre ++ rest → q ≠ [] → P q .dir) →
    s.world.fs.get pre = some .dir → Kept (Inv P Q) s (mkpath env pre rest s).1 := by
  intro rest
  induction rest with
  | nil => intro pre s h _ _ _; exact .refl h
  | cons n rest ih =>
    intro pre s h hn hq hp
    have e : pre ++ n :: rest = (pre ++ [n]) ++ rest := by simp
    rw [e] at hn hq
    simp only [mkpath]
    split
    · rename_i hd
      exact ih _ s h hn hq hd
    · exact .refl h
    · rename_i hno
      split
      · exact .refl h
      · have hset : ((s.emit (.mkdir (pre ++ [n]))).world.fs) = s.world.fs.set (pre ++ [n]) .dir := by
          simp [St.emit, World.apply, Effect.onFs, hno]
        have hk : Inv P Q (s.emit (.mkdir (pre ++ [n]))).world := by
          refine ⟨?_, h.2⟩
          rw [hset]
          exact keeps_set h.1 (tidy_set h.1.tidy (by simp) (fun x hx => hn x (List.mem_append_left _ hx)) (by simpa using hp) (by rw [hno]; simp))
            (by simp) (hq _ (List.prefix_append _ _) (by simp))
        refine (Kept.emit h (by simp) hk).trans (ih _ _ hk hn hq ?_)
        rw [hset]; exact get_set_self _ _ _ (by simp)

theorem kept_tryGet (env : Env) (s : St) (uri : Str) (l : Loc) (h : Inv P Q s.world) (hl : ∀ n ∈ l, PlainName n)
    (h0 : ∀ tr, P l (.file [] (env.now tr)))
    (hb : ∀ tr b e, env.serve tr uri = .body b e → ∀ b', b' <+: b → ∀ tr', P l (.file b' (env.now tr'))) :
    Kept (Inv P Q) s (tryGet env s uri l).1 := by
  have k1 : Kept (Inv P Q) s (s.emit (.get uri)) := .emit h (by simp) h
  unfold tryGet
  simp only
  split
  · exact k1
  · rename_i b br hbody
    split
    · exact k1
    · rename_i s2 hs2
      obtain ⟨h1, h2, h3, rfl⟩ := openW_some hs2
      have hd : (s.emit (.get uri)).world.fs = s.world.fs := rfl
      rw [hd] at h2 h3
      unfold Fs.isDir at h3
      have h3 : s.world.fs.get l.dropLast = some .dir := by simpa using h3
      refine k1.trans ?_
      have h0' := h0 (s.emit (.get uri)).trace
      have hb' := fun b' hb' => hb _ _ _ hbody b' hb' (s.emit (.get uri)).trace
      generalize env.now (s.emit (.get uri)).trace = now at h0' hb' ⊢
      have t1 : FsKeeps P (s.world.fs.set l (.file [] now)) :=
        keeps_set h.1 (tidy_set h.1.tidy h1 hl h3 h2) h1 h0'
      have hg := get_set_self s.world.fs l (.file [] now) h1
      have hp : (s.world.fs.set l (.file [] now)).get l.dropLast = some .dir := by
        rw [get_set_other _ _ _ _ (by intro e; rw [e] at h3; exact h2 h3)]; exact h3
      have k2 : Kept (Inv P Q) (s.emit (.get uri)) ((s.emit (.get uri)).emit (.trunc l now)) := .emit h (by simp) ⟨t1, h.2⟩
      refine k2.trans (.append ⟨t1, h.2⟩ ?_)
      intro b' hp'
      refine ⟨?_, h.2⟩
      show FsKeeps P (Effect.onFs (s.world.fs.set l (.file [] now)) (.append l b'))
      simp only [Effect.onFs, hg]
      exact keeps_set t1 (tidy_set t1.tidy h1 hl hp (by rw [hg]; simp)) h1 (by simpa using hb' b' hp')

theorem kept_getLoop (env : Env) (ig : Bool) (uri : Str) (l : Loc) (hl : ∀ n ∈ l, PlainName n) (h0 : ∀ tr, P l (.file [] (env.now tr)))
    (hb : ∀ tr b e, env.serve tr uri = .body b e → ∀ b', b' <+: b → ∀ tr', P l (.file b' (env.now tr'))) (n : Nat) :
    ∀ s : St, Inv P Q s.world → Kept (Inv P Q) s (getLoop env ig uri l n s).1 := by
  induction n with
  | zero => intro s h; exact .refl h
  | succ n ih =>
    intro s h
    have ht := kept_tryGet env s uri l h hl h0 hb
    simp only [getLoop]
    split
    · exact ht
    · split
      · exact ht
      · exact ht.trans (ih _ ht.end)
    · exact ht
    · exact ht

theorem keeps_utime {fs : Fs} {l : Loc} {t : Int} (hl : ∀ n ∈ l, PlainName n) (h : FsKeeps P fs)
    (ht : ∀ b m, P l (.file b m) → P l (.file b t)) : FsKeeps P (Effect.onFs fs (.utime l t)) := by
  simp only [Effect.onFs]
  split
  · rename_i c m hg
    have hne : l ≠ [] := by rintro rfl; rw [get_root] at hg; cases hg
    exact keeps_set h (tidy_set h.tidy hne hl (h.tidy.proper.parents _ (mem_of_get hne hg)) (by rw [hg]; simp)) hne
      (ht c m (h.nodes l _ hne hg))
  · exact h

theorem kept_setTime (s : St) (l : Loc) (t : Option Rat) (hl : ∀ n ∈ l, PlainName n) (h : Inv P Q s.world)
    (ht : ∀ x, t = some x → ∀ b m, P l (.file b m) → P l (.file b (truncRat x))) : Kept (Inv P Q) s (setTime s l t).1 := by
  unfold setTime
  split
  · exact .refl h
  · split
    · exact .refl h
    · rename_i t
      have h' : Inv P Q (s.emit (.utime l (truncRat t))).world := ⟨keeps_utime hl h.1 (ht t rfl), h.2⟩
      refine Kept.trans (b := s.emit (.utime l (truncRat t))) (.emit h (by simp) h') ?_
      exact .same (St.seen_trace _ _) (St.seen_world _ _) h'

theorem kept_updateResource (env : Env) (c : ClientCfg) (s : St) (r : Resource) (fn : Str) (hc : ∀ n ∈ env.cwd, PlainName n)
    (hf : MayFetch P env r fn) (h : Inv P Q s.world) : Kept (Inv P Q) s (updateResource env c s r fn).1 := by
  have hl := location_plain hc hf.line
  have hm := kept_mkpath env (location env.cwd (dirname fn)) [] s h (by simpa using location_plain hc (oneLine_dirname hf.line))
    (by simpa using hf.dirs) (get_root _)
  unfold updateResource
  cases hmk : mkpath env [] (location env.cwd (dirname fn)) s with
  | mk s1 b =>
  rw [hmk] at hm
  cases b with
  | false => exact hm
  | true =>
    simp only
    split
    · exact hm
    · have hg := kept_getLoop env c.ignore_failures r.uri _ hl hf.empty hf.body c.tries s1 hm.end
      cases hgl : getLoop env c.ignore_failures r.uri (location env.cwd fn) c.tries s1 with
      | mk s2 g =>
      rw [hgl] at hg
      have hs := kept_setTime s2 _ r.timestamp hl hg.end hf.time
      cases g with
      | raised e => exact hm.trans hg
      | gaveUp => exact hm.trans hg
      | updated =>
        simp only
        cases ht : setTime s2 (location env.cwd fn) r.timestamp with
        | mk s3 x =>
        rw [ht] at hs
        cases x <;> exact hm.trans (hg.trans hs)
      | skipped =>
        simp only
        cases ht : setTime s2 (location env.cwd fn) r.timestamp with
        | mk s3 x =>
        rw [ht] at hs
        cases x <;> exact hm.trans (hg.trans hs)

theorem kept_deleteResource (env : Env) (c : ClientCfg) (allow : Bool) (s : St) (r : Resource) (fn : Str) (h : Inv P Q s.world) :
    Kept (Inv P Q) s (deleteResource env c allow s r fn).1 := by
  have hk0 : Kept (Inv P Q) s (s.seen r.timestamp) := .same (St.seen_trace _ _) (St.seen_world _ _) h
  have h0 := hk0.end
  unfold deleteResource
  simp only
  split
  · exact hk0
  · split
    · exact hk0
    · split
      · rename_i hg
        split
        · exact hk0
        · refine hk0.trans (.emit h0 (by simp) ⟨?_, h0.2⟩)
          exact keeps_del h0.1 (tidy_del h0.1.tidy (by rw [hg]; simp))
      · exact hk0

theorem kept_forEach (f : St → Resource → St × Except ClientErr Unit) (rs : List Resource)
    (hf : ∀ r ∈ rs, ∀ s, Inv P Q s.world → Kept (Inv P Q) s (f s r).1) : ∀ s : St, Inv P Q s.world → Kept (Inv P Q) s (forEach f rs s).1 := by
  induction rs with
  | nil => intro s h; exact .refl h
  | cons r t ih =>
    intro s h
    have h1 := hf r (by simp) s h
    simp only [forEach]
    cases hr : f s r with
    | mk s1 x =>
    rw [hr] at h1
    cases x with
    | error e => exact h1
    | ok u => exact h1.trans (ih (fun r' hr' => hf r' (by simp [hr'])) s1 h1.end)

/-- storing the state keeps `Q` -/
def KeepsState (Q : Option Str → Prop) (env : Env) (c : ClientCfg) : Prop :=
  ∀ site file t file', c.disc.sitemap = .ok site → Q file → setState env.ft file site (some t) = .ok file' → Q file'

theorem kept_storeState (env : Env) (c : ClientCfg) (s : St) (hq : KeepsState Q env c) (h : Inv P Q s.world) :
    Kept (Inv P Q) s (storeState env c s).1 := by
  unfold storeState
  split
  · exact .refl h
  · rename_i site hs
    split
    · exact .refl h
    · exact .refl h
    · rename_i text ht
      exact .emit h (by simp) ⟨h.1, hq site _ _ _ hs h.2 ht⟩

/-- The resources to be fetched have places where they may be -/
theorem kept_baselineSync (env : Env) (c : ClientCfg) (allow : Bool) (src : Dict Resource) (cmp : Comparison) (s : St)
    (hc : ∀ n ∈ env.cwd, PlainName n) (hq : KeepsState Q env c) (h : Inv P Q s.world)
    (hp : ∀ r ∈ iterList cmp.created ++ iterList cmp.updated, ∀ fn, c.disc.mapper.srcToDst r.uri = .ok fn → MayFetch P env r fn) :
    Kept (Inv P Q) s (baselineSync env c allow src cmp s).1 := by
  have hu : ∀ r ∈ iterList cmp.created ++ iterList cmp.updated, ∀ s, Inv P Q s.world → Kept (Inv P Q) s (updateOne env c s r).1 := by
    intro r hr s hs
    unfold updateOne
    split
    · exact .refl hs
    · rename_i fn hfn
      have := kept_updateResource env c s r fn hc (hp r hr fn hfn) hs
      cases hup : updateResource env c s r fn with
      | mk s1 x =>
      rw [hup] at this
      cases x <;> exact this
  have hdl : ∀ r ∈ iterList cmp.deleted, ∀ s, Inv P Q s.world → Kept (Inv P Q) s (deleteOne env c allow s r).1 := by
    intro r hr s hs
    unfold deleteOne
    split
    · exact .refl hs
    · exact kept_deleteResource env c allow s r _ hs
  unfold baselineSync
  cases ha : baselineAuthority c src with
  | error e => exact .refl h
  | ok u =>
    simp only
    have k0 : Kept (Inv P Q) s { s with last_timestamp := 0 } := .same rfl rfl h
    have k1 := k0.trans (kept_forEach (updateOne env c) (iterList cmp.created) (fun r hr => hu r (List.mem_append_left _ hr)) _ k0.end)
    cases h1 : forEach (updateOne env c) (iterList cmp.created) { s with last_timestamp := 0 } with
    | mk s1 x1 =>
    rw [h1] at k1
    cases x1 with
    | error e => exact k1
    | ok _ =>
      simp only
      have k2 := k1.trans (kept_forEach (updateOne env c) (iterList cmp.updated) (fun r hr => hu r (List.mem_append_right _ hr)) _ k1.end)
      simp only at k2
      cases h2 : forEach (updateOne env c) (iterList cmp.updated) s1 with
      | mk s2 x2 =>
      rw [h2] at k2
      cases x2 with
      | error e => exact k2
      | ok _ =>
        simp only
        have k3 := k2.trans (kept_forEach (deleteOne env c allow) (iterList cmp.deleted) hdl _ k2.end)
        simp only at k3
        cases h3 : forEach (deleteOne env c allow) (iterList cmp.deleted) s2 with
        | mk s3 x3 =>
        rw [h3] at k3
        cases x3 with
        | error e => exact k3
        | ok _ =>
          simp only
          split
          · exact k3.trans (kept_storeState env c s3 hq k3.end)
          · exact k3

theorem kept_baseline (env : Env) (c : ClientCfg) (allow audit : Bool) (s : St) (hc : ∀ n ∈ env.cwd, PlainName n)
    (hq : KeepsState Q env c) (h : Inv P Q s.world) (hk : ListsKeyed env.sources)
    (hp : ∀ src r, (findResourceList env.sources c.disc).2 = .ok src → (r.uri, r) ∈ src → ∀ fn, c.disc.mapper.srcToDst r.uri = .ok fn →
      MayFetch P env r fn) :
    Kept (Inv P Q) s (baselineOrAudit env c allow audit s).1 := by
  unfold baselineOrAudit
  obtain ⟨p1, p2, _⟩ := baselinePlan_same env c audit s
  cases hpl : baselinePlan env c audit s with
  | mk s1 x =>
  rw [hpl] at p1 p2
  have k0 : Kept (Inv P Q) s s1 := .same p2 p1 h
  cases x with
  | error e => exact k0
  | ok y =>
    obtain ⟨src, cmp⟩ := y
    simp only
    split
    · exact k0
    · obtain ⟨dst, hpn⟩ := baselinePlan_ok hpl
      have pf := planFacts hk h.1.tidy.proper hpn
      refine k0.trans (kept_baselineSync env c allow src cmp s1 hc hq k0.end ?_)
      intro r hr fn hfn
      exact hp src r hpn.found (mem_of_dget (plan_upd_source pf hr)) fn hfn

theorem kept_incremental (env : Env) (c : ClientCfg) (allow : Bool) (uri fd : Option Str) (s : St) (hc : ∀ n ∈ env.cwd, PlainName n)
    (hq : KeepsState Q env c) (h : Inv P Q s.world)
    (hp : ∀ clUri cl r, env.changeList clUri = some cl → r ∈ cl → ∀ fn, c.disc.mapper.srcToDst r.uri = .ok fn → MayFetch P env r fn) :
    Kept (Inv P Q) s (incremental env c allow uri fd s).1 := by
  unfold incremental
  obtain ⟨p1, p2⟩ := incrementalPlan_same env c uri fd s
  cases hpl : incrementalPlan env c uri fd s with
  | mk s1 x =>
  rw [hpl] at p1 p2
  have k0 : Kept (Inv P Q) s s1 := .same p2 p1 h
  cases x with
  | error e => exact k0
  | ok cl =>
    simp only
    split
    · exact k0
    · obtain ⟨t0, clUri, raw, kept, last, hpn⟩ := incrementalPlan_ok hpl
      have k1 := k0.trans (kept_forEach (applyOne env c allow) cl (by
        intro r hr s hs
        have hraw : r ∈ raw := (lastChange_mem (planned_last hpn hr)).1
        unfold applyOne
        split
        · exact .refl hs
        · rename_i fn hfn
          split
          · have := kept_updateResource env c s r fn hc (hp clUri raw r hpn.read hraw fn hfn) hs
            cases hup : updateResource env c s r fn with
            | mk s1 x =>
            rw [hup] at this
            cases x <;> exact this
          · split
            · exact kept_deleteResource env c allow s r _ hs
            · exact .refl hs) s1 k0.end)
      cases h1 : forEach (applyOne env c allow) cl s1 with
      | mk s2 x1 =>
      rw [h1] at k1
      cases x1 with
      | error e => exact k1
      | ok _ =>
        simp only
        split
        · exact k1.trans (kept_storeState env c s2 hq k1.end)
        · exact k1

end

end Resync
