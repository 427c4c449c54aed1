import Verif.Spec.Links
import Verif.Proofs.Repeat
import Verif.Proofs.Sites
/- Lemmas for C108 -/

namespace Resync
open Py Resync.Spec

theorem leads_plain {x : RealFs} {f : Bool} {here : Loc} {names : List Str} {l : Loc} (h : Leads x f here names l)
    (hn : ∀ n ∈ names, n ≠ ['.'] ∧ n ≠ ['.', '.']) (hl : ∀ q, q <+: names → q ≠ [] → ∀ t, x (here ++ q) ≠ some (.link t)) :
    l = here ++ names := by
  induction h with
  | done => simp
  | dot => exact absurd rfl (hn _ (by simp)).1
  | parent => exact absurd rfl (hn _ (by simp)).2
  | @dir here name rest l h1 h2 hd _ ih =>
    rw [ih (fun n hm => hn n (by simp [hm])) ?_]
    · simp
    · intro q hq hne t
      have := hl (name :: q) (by simpa using hq) (by simp) t
      simpa using this
  | @link here name rest l h1 h2 target hl' =>
    exact absurd hl' (hl [name] (by simp) (by simp) target)
  | last => rfl

/-- names lead to their own place if there are directories on the way and no link at the end -/
theorem leads_there {x : RealFs} {f : Bool} : ∀ (names : List Str) (here : Loc),
    (∀ n ∈ names, n ≠ ['.'] ∧ n ≠ ['.', '.']) → (∀ q, q <+: names → q ≠ [] → q ≠ names → x (here ++ q) = some .dir) →
    (∀ t, x (here ++ names) ≠ some (.link t)) → Leads x f here names (here ++ names) := by
  intro names
  induction names with
  | nil => intro here _ _ _; simpa using Leads.done here
  | cons n rest ih =>
    intro here hn hd hl
    have h := hn n (by simp)
    by_cases hr : rest = []
    · subst hr
      by_cases hdir : x (here ++ [n]) = some .dir
      · exact .dir h.1 h.2 hdir (.done _)
      · exact .last h.1 h.2 hdir (fun t ht => absurd ht (hl t))
    · refine .dir h.1 h.2 (hd [n] (by simp) (by simp) (by simpa using hr)) ?_
      have e : here ++ n :: rest = (here ++ [n]) ++ rest := by simp
      rw [e]
      refine ih (here ++ [n]) (fun m hm => hn m (by simp [hm])) ?_ ?_
      · intro q hq hne hne'
        have := hd (n :: q) (by simpa using hq) (by simp) (by simpa using hne')
        simpa using this
      · rw [← e]; exact hl

/-- the place of an effect -/
def Effect.place : Effect → Option Loc
  | .mkdir l | .trunc l _ | .append l _ | .utime l _ | .unlink l => some l
  | .get _ | .setState _ => none

/-- effects at proper places: in a destination, or a directory on the way to one -/
def InPlace (sites : List (Map × Loc)) (e : Effect) : Prop :=
  ∀ l, e.place = some l → (∀ n ∈ l, n ≠ ['.'] ∧ n ≠ ['.', '.']) ∧
    ((∃ p ∈ sites, Within p.2 l) ∨ (e = .mkdir l ∧ Near sites l))

theorem near_of_prefix {sites : List (Map × Loc)} {q l : Loc} (h : Near sites l) (hq : q <+: l) : Near sites q := by
  obtain ⟨p, hp, h | h⟩ := h
  · exact ⟨p, hp, .inl (hq.trans h)⟩
  · rcases List.prefix_or_prefix_of_prefix hq h with h' | h'
    · exact ⟨p, hp, .inl h'⟩
    · exact ⟨p, hp, .inr h'⟩

theorem InPlace.near {sites : List (Map × Loc)} {e : Effect} (h : InPlace sites e) {l : Loc} (hl : e.place = some l) : Near sites l := by
  rcases (h l hl).2 with ⟨p, hp, h⟩ | ⟨-, h⟩
  · exact ⟨p, hp, .inr h⟩
  · exact h

theorem InPlace.leads {sites : List (Map × Loc)} {e : Effect} (h : InPlace sites e) {l k : Loc} (hl : e.place = some l) {x : RealFs}
    (hx : NoLinks sites x) {f : Bool} (hk : Leads x f [] l k) : k = l := by
  have := leads_plain hk (h l hl).1 (fun q hq hne t => by simpa using hx q hne (near_of_prefix (h.near hl) hq) t)
  simpa using this

/-- what changes if an effect in its place takes place -/
theorem acts_in_place {sites : List (Map × Loc)} {x y : RealFs} {e : Effect} (hx : NoLinks sites x) (he : InPlace sites e) (h : Acts x e y) :
    ∃ l n, e.place = some l ∧ y = x.put l n ∧ (∀ t, n ≠ some (.link t)) ∧
      ((∃ p ∈ sites, Within p.2 l) ∨ (Near sites l ∧ x l = none ∧ n = some .dir)) := by
  cases h with
  | @mkdir l k h hn hr =>
    have hk := he.leads (l := l) rfl hx h
    subst hk
    refine ⟨k, _, rfl, rfl, by simp, ?_⟩
    rcases (he k rfl).2 with h | ⟨-, h⟩
    · exact .inl h
    · exact .inr ⟨h, hn, rfl⟩
  | @create l k h now hn hr =>
    have hk := he.leads (l := l) rfl hx h
    subst hk
    refine ⟨k, _, rfl, rfl, by simp, ?_⟩
    rcases (he k rfl).2 with h | ⟨h, -⟩
    · exact .inl h
    · cases h
  | @trunc l k h now c m hn hr =>
    have hk := he.leads (l := l) rfl hx h
    subst hk
    refine ⟨k, _, rfl, rfl, by simp, ?_⟩
    rcases (he k rfl).2 with h | ⟨h, -⟩
    · exact .inl h
    · cases h
  | @append l k h b c m hn hr =>
    have hk := he.leads (l := l) rfl hx h
    subst hk
    refine ⟨k, _, rfl, rfl, by simp, ?_⟩
    rcases (he k rfl).2 with h | ⟨h, -⟩
    · exact .inl h
    · cases h
  | @utime l k h t c m hn hr =>
    have hk := he.leads (l := l) rfl hx h
    subst hk
    refine ⟨k, _, rfl, rfl, by simp, ?_⟩
    rcases (he k rfl).2 with h | ⟨h, -⟩
    · exact .inl h
    · cases h
  | @unlink l k h n hn hd hr =>
    have hk := he.leads (l := l) rfl hx h
    subst hk
    refine ⟨k, _, rfl, rfl, by simp, ?_⟩
    rcases (he k rfl).2 with h | ⟨h, -⟩
    · exact .inl h
    · cases h

theorem noLinks_put {sites : List (Map × Loc)} {x : RealFs} (h : NoLinks sites x) {l : Loc} {n : Option RealNode} (hn : ∀ t, n ≠ some (.link t)) :
    NoLinks sites (x.put l n) := by
  intro k h0 hk t
  unfold RealFs.put
  split
  · exact hn t
  · exact h k h0 hk t

/-- what can have changed outside: a directory on the way to a destination has been made -/
def OutsideSame (sites : List (Map × Loc)) (x y : RealFs) : Prop :=
  ∀ l, (∀ p ∈ sites, ¬ Within p.2 l) → y l = x l ∨ (x l = none ∧ y l = some .dir ∧ ∃ p ∈ sites, l <+: p.2)

theorem performs_outside {sites : List (Map × Loc)} {x y : RealFs} {es : List Effect} (h : Performs x es y) (hx : NoLinks sites x)
    (hes : ∀ e ∈ es, InPlace sites e) : OutsideSame sites x y := by
  induction h with
  | done => exact fun l _ => .inl rfl
  | fails _ _ ih => exact ih hx (fun e he => hes e (by simp [he]))
  | @acts x y z e es ha _ ih =>
    obtain ⟨l, n, -, rfl, hn, hw⟩ := acts_in_place hx (hes e (by simp)) ha
    have ih := ih (noLinks_put hx hn) (fun e he => hes e (by simp [he]))
    intro k hk
    by_cases hkl : k = l
    · subst hkl
      rcases hw with ⟨p, hp, hw⟩ | ⟨hnear, h0, rfl⟩
      · exact absurd hw (hk p hp)
      · obtain ⟨p, hp, hle | hle⟩ := hnear
        · have hput : x.put k (some .dir) k = some .dir := by simp [RealFs.put]
          rcases ih k hk with h | ⟨h, -, -⟩
          · exact .inr ⟨h0, h.trans hput, p, hp, hle⟩
          · rw [hput] at h; cases h
        · exact absurd hle (hk p hp)
    · have hput : x.put l n k = x k := by simp [RealFs.put, hkl]
      rcases ih k hk with h | ⟨h1, h2⟩
      · exact .inl (h.trans hput)
      · exact .inr ⟨hput ▸ h1, h2⟩

/-! The model's file system is what is there -/

/-- what an effect needs to take place -/
def CanDo (w : World) : Effect → Prop
  | .mkdir l => l ≠ [] ∧ w.fs.get l = none ∧ w.fs.get l.dropLast = some .dir
  | .trunc l _ => l ≠ [] ∧ w.fs.get l ≠ some .dir ∧ w.fs.get l.dropLast = some .dir
  | .append l _ => ∃ c m, w.fs.get l = some (.file c m)
  | .unlink l => ∃ c m, w.fs.get l = some (.file c m)
  | _ => True

def PathFits : World → List Effect → Prop
  | _, [] => True
  | w, e :: es => CanDo w e ∧ PathFits (w.apply e) es

theorem PathFits.append : ∀ {es es' : List Effect} {w : World}, PathFits w es → PathFits (es.foldl World.apply w) es' → PathFits w (es ++ es')
  | [], _, _, _, h => h
  | _ :: _, _, _, ⟨h1, h2⟩, h => ⟨h1, PathFits.append h2 h⟩

def Doable (s s' : St) : Prop :=
  ∃ es, s'.trace = s.trace ++ es ∧ s'.world = es.foldl World.apply s.world ∧ PathFits s.world es

theorem Doable.trans {a b c : St} (h : Doable a b) (h' : Doable b c) : Doable a c := by
  obtain ⟨x, x1, x2, x3⟩ := h
  obtain ⟨y, y1, y2, y3⟩ := h'
  refine ⟨x ++ y, by rw [y1, x1, List.append_assoc], by rw [y2, x2, List.foldl_append], x3.append ?_⟩
  rw [← x2]; exact y3

theorem Doable.same {s s' : St} (ht : s'.trace = s.trace) (hw : s'.world = s.world) : Doable s s' := ⟨[], by simp [ht], by simp [hw], trivial⟩

theorem Doable.refl (s : St) : Doable s s := .same rfl rfl

theorem Doable.emit {s : St} {e : Effect} (h : CanDo s.world e) : Doable s (s.emit e) := ⟨[e], rfl, rfl, h, trivial⟩

theorem doable_mkpath (env : Env) : ∀ (rest : List Str) (pre : Loc) (s : St), s.world.fs.get pre = some .dir → Doable s (mkpath env pre rest s).1 := by
  intro rest
  induction rest with
  | nil => intro pre s _; exact .refl s
  | cons n rest ih =>
    intro pre s hp
    simp only [mkpath]
    split
    · rename_i hd
      exact ih _ s hd
    · exact .refl s
    · rename_i hno
      split
      · exact .refl s
      · refine (Doable.emit (e := .mkdir (pre ++ [n])) ⟨by simp, hno, by simpa using hp⟩).trans (ih _ _ ?_)
        have hset : ((s.emit (.mkdir (pre ++ [n]))).world.fs) = s.world.fs.set (pre ++ [n]) .dir := by
          simp [St.emit, World.apply, Effect.onFs, hno]
        rw [hset]; exact get_set_self _ _ _ (by simp)

theorem doable_tryGet (env : Env) (s : St) (uri : Str) (l : Loc) : Doable s (tryGet env s uri l).1 := by
  have k1 : Doable s (s.emit (.get uri)) := .emit trivial
  unfold tryGet
  simp only
  split
  · exact k1
  · split
    · exact k1
    · rename_i s2 hs2
      obtain ⟨h1, h2, h3, rfl⟩ := openW_some hs2
      unfold Fs.isDir at h3
      have h3 : (s.emit (.get uri)).world.fs.get l.dropLast = some .dir := by simpa using h3
      refine k1.trans ((Doable.emit (e := .trunc l _) ⟨h1, h2, h3⟩).trans (.emit ⟨[], _, get_set_self _ _ _ h1⟩))

theorem doable_getLoop (env : Env) (ig : Bool) (uri : Str) (l : Loc) (n : Nat) : ∀ s : St, Doable s (getLoop env ig uri l n s).1 := by
  induction n with
  | zero => intro s; exact .refl s
  | succ n ih =>
    intro s
    have ht := doable_tryGet env s uri l
    simp only [getLoop]
    split
    · exact ht
    · split
      · exact ht
      · exact ht.trans (ih _)
    · exact ht
    · exact ht

theorem doable_setTime (s : St) (l : Loc) (t : Option Rat) : Doable s (setTime s l t).1 := by
  unfold setTime
  split
  · exact .refl s
  · split
    · exact .refl s
    · exact Doable.trans (b := s.emit (.utime l _)) (.emit trivial) (.same (St.seen_trace _ _) (St.seen_world _ _))

theorem doable_updateResource (env : Env) (c : ClientCfg) (s : St) (r : Resource) (fn : Str) : Doable s (updateResource env c s r fn).1 := by
  have hm := doable_mkpath env (location env.cwd (dirname fn)) [] s (get_root _)
  unfold updateResource
  cases hmk : mkpath env [] (location env.cwd (dirname fn)) s with
  | mk s1 b =>
  rw [hmk] at hm
  cases b with
  | false => exact hm
  | true =>
    simp only
    split
    · exact hm
    · have hg := doable_getLoop env c.ignore_failures r.uri (location env.cwd fn) c.tries s1
      cases hgl : getLoop env c.ignore_failures r.uri (location env.cwd fn) c.tries s1 with
      | mk s2 g =>
      rw [hgl] at hg
      have hs := doable_setTime s2 (location env.cwd fn) r.timestamp
      cases g with
      | raised e => exact hm.trans hg
      | gaveUp => exact hm.trans hg
      | updated =>
        simp only
        cases ht : setTime s2 (location env.cwd fn) r.timestamp with
        | mk s3 x =>
        rw [ht] at hs
        cases x <;> exact hm.trans (hg.trans hs)
      | skipped =>
        simp only
        cases ht : setTime s2 (location env.cwd fn) r.timestamp with
        | mk s3 x =>
        rw [ht] at hs
        cases x <;> exact hm.trans (hg.trans hs)

theorem doable_deleteResource (env : Env) (c : ClientCfg) (allow : Bool) (s : St) (r : Resource) (fn : Str) :
    Doable s (deleteResource env c allow s r fn).1 := by
  have hk0 : Doable s (s.seen r.timestamp) := .same (St.seen_trace _ _) (St.seen_world _ _)
  unfold deleteResource
  simp only
  split
  · exact hk0
  · split
    · exact hk0
    · split
      · rename_i hg
        split
        · exact hk0
        · exact hk0.trans (.emit ⟨_, _, hg⟩)
      · exact hk0

theorem doable_forEach (f : St → Resource → St × Except ClientErr Unit) (hf : ∀ r s, Doable s (f s r).1) (rs : List Resource) :
    ∀ s : St, Doable s (forEach f rs s).1 := by
  induction rs with
  | nil => intro s; exact .refl s
  | cons r t ih =>
    intro s
    have h1 := hf r s
    simp only [forEach]
    cases hr : f s r with
    | mk s1 x =>
    rw [hr] at h1
    cases x with
    | error e => exact h1
    | ok u => exact h1.trans (ih s1)

theorem doable_storeState (env : Env) (c : ClientCfg) (s : St) : Doable s (storeState env c s).1 := by
  unfold storeState
  split
  · exact .refl s
  · split
    · exact .refl s
    · exact .refl s
    · exact .emit trivial

theorem doable_updateOne (env : Env) (c : ClientCfg) (r : Resource) (s : St) : Doable s (updateOne env c s r).1 := by
  unfold updateOne
  split
  · exact .refl s
  · rename_i fn hfn
    have := doable_updateResource env c s r fn
    cases hup : updateResource env c s r fn with
    | mk s1 x =>
    rw [hup] at this
    cases x <;> exact this

theorem doable_deleteOne (env : Env) (c : ClientCfg) (allow : Bool) (r : Resource) (s : St) : Doable s (deleteOne env c allow s r).1 := by
  unfold deleteOne
  split
  · exact .refl s
  · exact doable_deleteResource ..

theorem doable_applyOne (env : Env) (c : ClientCfg) (allow : Bool) (r : Resource) (s : St) : Doable s (applyOne env c allow s r).1 := by
  unfold applyOne
  split
  · exact .refl s
  · rename_i fn hfn
    split
    · have := doable_updateResource env c s r fn
      cases hup : updateResource env c s r fn with
      | mk s1 x =>
      rw [hup] at this
      cases x <;> exact this
    · split
      · exact doable_deleteResource ..
      · exact .refl s

theorem doable_baselineSync (env : Env) (c : ClientCfg) (allow : Bool) (src : Dict Resource) (cmp : Comparison) (s : St) :
    Doable s (baselineSync env c allow src cmp s).1 := by
  unfold baselineSync
  split
  · exact .refl s
  · simp only
    have k0 : Doable s { s with last_timestamp := 0 } := .same rfl rfl
    have h1 := doable_forEach _ (doable_updateOne env c) (iterList cmp.created) { s with last_timestamp := 0 }
    cases e1 : forEach (updateOne env c) (iterList cmp.created) { s with last_timestamp := 0 } with
    | mk s1 x1 =>
    rw [e1] at h1
    cases x1 with
    | error e => exact k0.trans h1
    | ok u =>
      simp only
      have h2 := doable_forEach _ (doable_updateOne env c) (iterList cmp.updated) s1
      cases e2 : forEach (updateOne env c) (iterList cmp.updated) s1 with
      | mk s2 x2 =>
      rw [e2] at h2
      cases x2 with
      | error e => exact k0.trans (h1.trans h2)
      | ok u =>
        simp only
        have h3 := doable_forEach _ (doable_deleteOne env c allow) (iterList cmp.deleted) s2
        cases e3 : forEach (deleteOne env c allow) (iterList cmp.deleted) s2 with
        | mk s3 x3 =>
        rw [e3] at h3
        cases x3 with
        | error e => exact k0.trans (h1.trans (h2.trans h3))
        | ok u =>
          simp only
          split
          · exact k0.trans (h1.trans (h2.trans (h3.trans (doable_storeState env c s3))))
          · exact k0.trans (h1.trans (h2.trans h3))

theorem doable_baseline (env : Env) (c : ClientCfg) (allow audit : Bool) (s : St) : Doable s (baselineOrAudit env c allow audit s).1 := by
  unfold baselineOrAudit
  obtain ⟨p1, p2, _⟩ := baselinePlan_same env c audit s
  cases hpl : baselinePlan env c audit s with
  | mk s1 x =>
  rw [hpl] at p1 p2
  have k0 : Doable s s1 := .same p2 p1
  cases x with
  | error e => exact k0
  | ok y =>
    obtain ⟨src, cmp⟩ := y
    simp only
    split
    · exact k0
    · exact k0.trans (doable_baselineSync ..)

theorem doable_incremental (env : Env) (c : ClientCfg) (allow : Bool) (uri fd : Option Str) (s : St) :
    Doable s (incremental env c allow uri fd s).1 := by
  unfold incremental
  obtain ⟨p1, p2⟩ := incrementalPlan_same env c uri fd s
  cases hpl : incrementalPlan env c uri fd s with
  | mk s1 x =>
  rw [hpl] at p1 p2
  have k0 : Doable s s1 := .same p2 p1
  cases x with
  | error e => exact k0
  | ok cl =>
    simp only
    split
    · exact k0
    · have k1 := k0.trans (doable_forEach _ (doable_applyOne env c allow) cl s1)
      cases h1 : forEach (applyOne env c allow) cl s1 with
      | mk s2 x1 =>
      rw [h1] at k1
      cases x1 with
      | error e => exact k1
      | ok _ =>
        simp only
        split
        · exact k1.trans (doable_storeState env c s2)
        · exact k1

/-! the names of the effects -/

theorem plainName_dots {n : Str} (h : PlainName n) : n ≠ ['.'] ∧ n ≠ ['.', '.'] := ⟨h.1.2.1, h.1.2.2.1⟩

theorem syncEff_inPlace {c : ClientCfg} {env : Env} {sites : List (Map × Loc)} {fs : Fs} (h : Sites c env.cwd sites fs) {allow : Bool}
    {upd del : List Resource} (hu : ∀ r ∈ upd, Placed sites r.uri) (hd : ∀ r ∈ del, Placed sites r.uri) {e : Effect}
    (he : SyncEff env c allow upd del e ∨ IsSetState e) : InPlace sites e := by
  have hroot : ∀ p ∈ sites, ∀ n ∈ p.2, PlainName n := by
    intro p hp
    rw [h.place p hp]
    exact location_plain h.cwdNames (h.dst p hp).2.1
  have hnames : ∀ p ∈ sites, ∀ names : List Str, (∀ n ∈ names, PlainName n) → ∀ n ∈ p.2 ++ names, n ≠ ['.'] ∧ n ≠ ['.', '.'] := by
    intro p hp names hn n hm
    rcases List.mem_append.mp hm with hm | hm
    · exact plainName_dots (hroot p hp n hm)
    · exact plainName_dots (hn n hm)
  rcases he with (⟨r, hr, fn, hfn, he⟩ | ⟨r, hr, fn, hfn, rfl, -⟩) | ⟨t, rfl⟩
  · obtain ⟨p, hp, names, hne, hn, hru⟩ := hu r hr
    obtain ⟨fn', h1, h2, h3⟩ := h.maps_dir hp hne hn
    rw [hru, h1] at hfn
    cases hfn
    rcases he with ⟨d, rfl, hd⟩ | ⟨-, he⟩
    · rw [h3] at hd
      have hd' := hd.trans (List.dropLast_prefix _)
      intro l hl
      cases hl
      refine ⟨fun n hm => hnames p hp names hn n (hd'.subset hm), .inr ⟨rfl, p, hp, ?_⟩⟩
      rcases List.prefix_or_prefix_of_prefix hd' (List.prefix_append p.2 names) with h' | h'
      · exact .inl h'
      · exact .inr h'
    · rw [h2] at he
      have hgo : ∀ l, e.place = some l → l = p.2 ++ names := by
        intro l hl
        rcases he with (rfl | ⟨-, t, rfl⟩ | ⟨-, b, rfl⟩) | ⟨t, rfl⟩
        · cases hl
        all_goals (cases hl; rfl)
      intro l hl
      rw [hgo l hl]
      exact ⟨hnames p hp names hn, .inl ⟨p, hp, List.prefix_append _ _⟩⟩
  · obtain ⟨p, hp, names, hne, hn, hru⟩ := hd r hr
    obtain ⟨fn', h1, h2, h3⟩ := h.maps_dir hp hne hn
    rw [hru, h1] at hfn
    cases hfn
    intro l hl
    cases hl
    rw [h2]
    exact ⟨hnames p hp names hn, .inl ⟨p, hp, List.prefix_append _ _⟩⟩
  · intro l hl; cases hl

theorem get_pre {fs : Fs} (ht : Tidy fs) {l : Loc} {n : FsNode} (h : fs.get l = some n) {q : Loc} (hq : q <+: l) (hne : q ≠ l) :
    fs.get q = some .dir := by
  obtain ⟨r, rfl⟩ := hq
  exact get_prefix ht.proper r (by rintro rfl; simp at hne) h

theorem Spec.Shows.noLinks {sites : List (Map × Loc)} {x : RealFs} {fs : Fs} (h : Shows sites x fs) : NoLinks sites x := by
  intro l h0 hl t e
  rw [h l h0 hl] at e
  cases hg : fs.get l with
  | none => rw [hg] at e; cases e
  | some n => rw [hg] at e; cases n <;> cases e

/-- the names of a place that could be there lead to it -/
theorem shows_leads {sites : List (Map × Loc)} {x : RealFs} {fs : Fs} (hs : Shows sites x fs) (ht : Tidy fs) {l : Loc} (h0 : l ≠ [])
    (hl : Near sites l) (hn : ∀ n ∈ l, n ≠ ['.'] ∧ n ≠ ['.', '.']) (hd : fs.get l.dropLast = some .dir) (f : Bool) : Leads x f [] l l := by
  have := leads_there (x := x) (f := f) l [] hn (fun q hq hne hne' => ?_) (fun t => by simpa using hs.noLinks l h0 hl t)
  · simpa using this
  · have hq' : q <+: l.dropLast := by
      obtain ⟨r, rfl⟩ := hq
      have hr : r ≠ [] := by rintro rfl; simp at hne'
      rw [List.dropLast_append_of_ne_nil hr]
      exact List.prefix_append _ _
    rw [List.nil_append, hs q hne (near_of_prefix hl hq)]
    by_cases e : q = l.dropLast
    · rw [e, hd]; rfl
    · rw [get_pre ht hd hq' e]; rfl

theorem shows_put {sites : List (Map × Loc)} {x : RealFs} {fs : Fs} (h : Shows sites x fs) {l : Loc} {n : FsNode} :
    Shows sites (x.put l (some (realNode n))) (fs.set l n) := by
  intro k h0 hk
  unfold RealFs.put
  by_cases e : k = l
  · subst e
    rw [get_set_self _ _ _ h0]; simp
  · rw [get_set_other _ _ _ _ e, if_neg e]
    exact h k h0 hk

theorem shows_del {sites : List (Map × Loc)} {x : RealFs} {fs : Fs} (h : Shows sites x fs) {l : Loc} :
    Shows sites (x.put l none) (fs.del l) := by
  intro k h0 hk
  unfold RealFs.put
  by_cases e : k = l
  · subst e
    rw [get_del_self _ _ h0]; simp
  · rw [get_del_other _ _ _ e, if_neg e]
    exact h k h0 hk

theorem dropLast_of_file {fs : Fs} (ht : Tidy fs) {l : Loc} {n : FsNode} (h0 : l ≠ []) (h : fs.get l = some n) : fs.get l.dropLast = some .dir :=
  ht.proper.parents _ (mem_of_get h0 h)

theorem shows_acts {sites : List (Map × Loc)} {x y : RealFs} {w : World} {e : Effect} (hs : Shows sites x w.fs) (he : InPlace sites e)
    (hf : CanDo w e) (h : Acts x e y) : Shows sites y (w.apply e).fs := by
  have hx := hs.noLinks
  cases h with
  | @mkdir l k h hn hr =>
    have hk := he.leads (l := l) rfl hx h
    subst hk
    simp only [World.apply, Effect.onFs, hf.2.1]
    exact shows_put (n := .dir) hs
  | @create l k h now hn hr =>
    have hk := he.leads (l := l) rfl hx h
    subst hk
    exact shows_put (n := .file [] now) hs
  | @trunc l k h now c m hn hr =>
    have hk := he.leads (l := l) rfl hx h
    subst hk
    exact shows_put (n := .file [] now) hs
  | @append l k h b c m hn hr =>
    have hk := he.leads (l := l) rfl hx h
    subst hk
    obtain ⟨c', m', hg⟩ := hf
    have h0 : k ≠ [] := by rintro rfl; rw [get_root] at hg; cases hg
    rw [hs k h0 (he.near rfl), hg] at hn
    cases hn
    simp only [World.apply, Effect.onFs, hg]
    exact shows_put (n := .file (c ++ b) m) hs
  | @utime l k h t c m hn hr =>
    have hk := he.leads (l := l) rfl hx h
    subst hk
    rw [hs k hr (he.near rfl)] at hn
    cases hg : w.fs.get k with
    | none => rw [hg] at hn; cases hn
    | some n =>
      rw [hg] at hn
      cases n with
      | dir => cases hn
      | file c' m' =>
        cases hn
        simp only [World.apply, Effect.onFs, hg]
        exact shows_put (n := .file c t) hs
  | @unlink l k h n hn hd hr =>
    have hk := he.leads (l := l) rfl hx h
    subst hk
    exact shows_del hs

theorem shows_fails {sites : List (Map × Loc)} {x : RealFs} {w : World} {e : Effect} (hs : Shows sites x w.fs) (he : InPlace sites e)
    (ht : Tidy w.fs) (hf : CanDo w e) (h : ∀ y, ¬ Acts x e y) : (w.apply e).fs = w.fs := by
  cases e with
  | get u => rfl
  | setState t => rfl
  | mkdir l =>
    obtain ⟨h0, h1, h2⟩ := hf
    have hle := shows_leads hs ht h0 (he.near rfl) (he l rfl).1 h2 false
    exact absurd (Acts.mkdir hle (by rw [hs l h0 (he.near rfl), h1]; rfl) h0) (h _)
  | trunc l now =>
    obtain ⟨h0, h1, h2⟩ := hf
    have hle := shows_leads hs ht h0 (he.near rfl) (he l rfl).1 h2 true
    cases hg : w.fs.get l with
    | none => exact absurd (Acts.create hle now (by rw [hs l h0 (he.near rfl), hg]; rfl) h0) (h _)
    | some n =>
      cases n with
      | dir => exact absurd hg h1
      | file c m => exact absurd (Acts.trunc hle now (c := c) (m := m) (by rw [hs l h0 (he.near rfl), hg]; rfl) h0) (h _)
  | append l b =>
    obtain ⟨c, m, hg⟩ := hf
    have h0 : l ≠ [] := by rintro rfl; rw [get_root] at hg; cases hg
    have hle := shows_leads hs ht h0 (he.near rfl) (he l rfl).1 (dropLast_of_file ht h0 hg) true
    exact absurd (Acts.append hle b (c := c) (m := m) (by rw [hs l h0 (he.near rfl), hg]; rfl) h0) (h _)
  | unlink l =>
    obtain ⟨c, m, hg⟩ := hf
    have h0 : l ≠ [] := by rintro rfl; rw [get_root] at hg; cases hg
    have hle := shows_leads hs ht h0 (he.near rfl) (he l rfl).1 (dropLast_of_file ht h0 hg) false
    exact absurd (Acts.unlink hle (n := .file c m) (by rw [hs l h0 (he.near rfl), hg]; rfl) (by simp) h0) (h _)
  | utime l t =>
    cases hg : w.fs.get l with
    | none => simp only [World.apply, Effect.onFs, hg]
    | some n =>
      cases n with
      | dir => simp only [World.apply, Effect.onFs, hg]
      | file c m =>
        have h0 : l ≠ [] := by rintro rfl; rw [get_root] at hg; cases hg
        have hle := shows_leads hs ht h0 (he.near rfl) (he l rfl).1 (dropLast_of_file ht h0 hg) true
        exact absurd (Acts.utime hle t (c := c) (m := m) (by rw [hs l h0 (he.near rfl), hg]; rfl) h0) (h _)

theorem performs_shows {sites : List (Map × Loc)} {x y : RealFs} {es : List Effect} (h : Performs x es y) : ∀ {w : World},
    Shows sites x w.fs → (∀ e ∈ es, InPlace sites e) → PathKeeps (fun w => Tidy w.fs) w es → PathFits w es →
    Shows sites y (es.foldl World.apply w).fs := by
  induction h with
  | done => intro w hs _ _ _; exact hs
  | @acts x y z e es ha _ ih =>
    intro w hs he hk hf
    exact ih (shows_acts hs (he e (by simp)) hf.1 ha) (fun e' h' => he e' (by simp [h'])) hk.2.2 hf.2
  | @fails x z e es ha _ ih =>
    intro w hs he hk hf
    refine ih (w := w.apply e) ?_ (fun e' h' => he e' (by simp [h'])) hk.2.2 hf.2
    rw [shows_fails hs (he e (by simp)) hk.1 hf.1 ha]
    exact hs

theorem PathFits.take : ∀ {es : List Effect} {w : World}, PathFits w es → ∀ k, PathFits w (es.take k)
  | [], _, _, k => by rw [List.take_nil]; trivial
  | _ :: _, _, _, 0 => trivial
  | _ :: es, _, h, k + 1 => ⟨h.1, PathFits.take (es := es) h.2 k⟩

theorem PathKeeps.take {I : World → Prop} : ∀ {es : List Effect} {w : World}, PathKeeps I w es → ∀ k, PathKeeps I w (es.take k)
  | [], _, h, k => by rw [List.take_nil]; exact h
  | _ :: _, _, h, 0 => h.1
  | _ :: es, _, h, k + 1 => ⟨h.1, h.2.1, PathKeeps.take (es := es) h.2.2 k⟩

theorem PathKeeps.mono {I J : World → Prop} (hij : ∀ w, I w → J w) : ∀ {es : List Effect} {w : World}, PathKeeps I w es → PathKeeps J w es
  | [], _, h => hij _ h
  | _ :: es, _, h => ⟨hij _ h.1, fun l b b' h1 h2 => hij _ (h.2.1 l b b' h1 h2), PathKeeps.mono hij (es := es) h.2.2⟩

theorem doable_done {s s' : St} (h : Doable s s') : PathFits s.world (doneBetween s s') := by
  obtain ⟨es, h1, -, h3⟩ := h
  have hd : doneBetween s s' = es := by unfold doneBetween; rw [h1, List.drop_left]
  rw [hd]; exact h3

theorem kept_done {I : World → Prop} {s s' : St} (h : Kept I s s') : PathKeeps I s.world (doneBetween s s') := by
  obtain ⟨es, h1, -, h3⟩ := h
  have hd : doneBetween s s' = es := by unfold doneBetween; rw [h1, List.drop_left]
  rw [hd]; exact h3

theorem performs_exists (es : List Effect) : ∀ x : RealFs, ∃ y, Performs x es y := by
  induction es with
  | nil => exact fun x => ⟨x, .done x⟩
  | cons e es ih =>
    intro x
    by_cases h : ∃ y, Acts x e y
    · obtain ⟨y, hy⟩ := h
      obtain ⟨z, hz⟩ := ih y
      exact ⟨z, .acts hy hz⟩
    · obtain ⟨z, hz⟩ := ih x
      exact ⟨z, .fails (fun y hy => h ⟨y, hy⟩) hz⟩

/-! Destinations behind links -/

theorem leads_det {x : RealFs} {f : Bool} {here : Loc} {names : List Str} {l l' : Loc} (h : Leads x f here names l) (h' : Leads x f here names l') :
    l = l' := by
  induction h with
  | done => cases h'; rfl
  | dot _ ih =>
    cases h' with
    | dot h' => exact ih h'
    | dir h1 => exact absurd rfl h1
    | link h1 => exact absurd rfl h1
    | last h1 => exact absurd rfl h1
  | parent _ ih =>
    cases h' with
    | parent h' => exact ih h'
    | dir h1 h2 => exact absurd rfl h2
    | link h1 h2 => exact absurd rfl h2
    | last h1 h2 => exact absurd rfl h2
  | dir h1 h2 hd _ ih =>
    cases h' with
    | dot => exact absurd rfl h1
    | parent => exact absurd rfl h2
    | dir _ _ _ h' => exact ih h'
    | link _ _ hl => rw [hd] at hl; cases hl
    | last _ _ hd' => exact absurd hd hd'
  | link h1 h2 hl hf _ ih =>
    cases h' with
    | dot => exact absurd rfl h1
    | parent => exact absurd rfl h2
    | dir _ _ hd _ => rw [hl] at hd; cases hd
    | link _ _ hl' _ h' => rw [hl] at hl'; cases hl'; exact ih h'
    | last _ _ _ hl' =>
      rcases hf with hf | hf
      · exact absurd rfl hf
      · rw [hl' _ hl] at hf; cases hf
  | last h1 h2 hd hl =>
    cases h' with
    | dot => exact absurd rfl h1
    | parent => exact absurd rfl h2
    | dir _ _ hd' _ => exact absurd hd' hd
    | link _ _ hl' hf _ =>
      rcases hf with hf | hf
      · exact absurd rfl hf
      · rw [hl _ hl'] at hf; cases hf
    | last => rfl

/-- first here, then on from there -/
theorem leads_join {x : RealFs} {f : Bool} {here m l : Loc} {a b : List Str} (h : Leads x true here a m) (hm : m = [] ∨ x m = some .dir)
    (hb : b ≠ []) (h' : Leads x f m b l) : Leads x f here (a ++ b) l := by
  induction h with
  | done => exact h'
  | dot _ ih => exact .dot (ih hm h')
  | parent _ ih => exact .parent (ih hm h')
  | dir h1 h2 hd _ ih => exact .dir h1 h2 hd (ih hm h')
  | link h1 h2 hl _ _ ih =>
    refine .link h1 h2 hl (.inl (by simp [hb])) ?_
    have := ih hm h'
    rwa [List.append_assoc] at this
  | last h1 h2 hd =>
    rcases hm with hm | hm
    · simp at hm
    · exact absurd hm hd

theorem leads_split {x : RealFs} {f : Bool} {here l : Loc} {names : List Str} (h : Leads x f here names l) : ∀ {a b : List Str},
    names = a ++ b → b ≠ [] → ∃ m, Leads x true here a m ∧ Leads x f m b l := by
  induction h with
  | done here =>
    intro a b e hb
    cases a <;> cases b <;> simp at e hb
  | @dot here rest l h ih =>
    intro a b e hb
    cases a with
    | nil => exact ⟨here, .done _, by rw [List.nil_append] at e; rw [← e]; exact .dot h⟩
    | cons n a =>
      rw [List.cons_append] at e
      obtain ⟨rfl, e'⟩ := List.cons.inj e
      obtain ⟨m, h1, h2⟩ := ih e' hb
      exact ⟨m, .dot h1, h2⟩
  | @parent here rest l h ih =>
    intro a b e hb
    cases a with
    | nil => exact ⟨here, .done _, by rw [List.nil_append] at e; rw [← e]; exact .parent h⟩
    | cons n a =>
      rw [List.cons_append] at e
      obtain ⟨rfl, e'⟩ := List.cons.inj e
      obtain ⟨m, h1, h2⟩ := ih e' hb
      exact ⟨m, .parent h1, h2⟩
  | @dir here name rest l h1 h2 hd h ih =>
    intro a b e hb
    cases a with
    | nil => exact ⟨here, .done _, by rw [List.nil_append] at e; rw [← e]; exact .dir h1 h2 hd h⟩
    | cons n a =>
      rw [List.cons_append] at e
      obtain ⟨rfl, e'⟩ := List.cons.inj e
      obtain ⟨m, k1, k2⟩ := ih e' hb
      exact ⟨m, .dir h1 h2 hd k1, k2⟩
  | @link here name rest l h1 h2 target hl hf h ih =>
    intro a b e hb
    cases a with
    | nil => exact ⟨here, .done _, by rw [List.nil_append] at e; rw [← e]; exact .link h1 h2 hl hf h⟩
    | cons n a =>
      rw [List.cons_append] at e
      obtain ⟨rfl, e'⟩ := List.cons.inj e
      obtain ⟨m, k1, k2⟩ := ih (a := pathParts target ++ a) (by rw [e', List.append_assoc]) hb
      exact ⟨m, .link h1 h2 hl (.inr rfl) k1, k2⟩
  | @last here name h1 h2 hd hl =>
    intro a b e hb
    cases a with
    | nil => exact ⟨here, .done _, by rw [List.nil_append] at e; rw [← e]; exact .last h1 h2 hd hl⟩
    | cons n a =>
      rw [List.cons_append] at e
      obtain ⟨rfl, e'⟩ := List.cons.inj e
      exact absurd (List.append_eq_nil_iff.mp e'.symm).2 hb

theorem leads_keep {x y : RealFs} (hd : ∀ l, x l = some .dir → y l = some .dir) (hl : ∀ l t, x l = some (.link t) → y l = some (.link t))
    {here m : Loc} {names : List Str} (h : Leads x true here names m) (hm : m = [] ∨ x m = some .dir) : Leads y true here names m := by
  induction h with
  | done => exact .done _
  | dot _ ih => exact .dot (ih hm)
  | parent _ ih => exact .parent (ih hm)
  | dir h1 h2 h3 _ ih => exact .dir h1 h2 (hd _ h3) (ih hm)
  | link h1 h2 h3 _ _ ih => exact .link h1 h2 (hl _ _ h3) (.inr rfl) (ih hm)
  | last h1 h2 h3 =>
    rcases hm with hm | hm
    · simp at hm
    · exact absurd hm h3

section
variable {sites : List (Map × Loc)} {real : Loc → Loc}

/-- the names of a place in a destination lead to the real place, if anywhere -/
theorem behind_leads {x : RealFs} {fs : Fs} (h : Behind sites real x fs) {p : Map × Loc} (hp : p ∈ sites) {names : List Str} (hne : names ≠ [])
    (hn : ∀ n ∈ names, n ≠ ['.'] ∧ n ≠ ['.', '.']) {f : Bool} {k : Loc} (hk : Leads x f [] (p.2 ++ names) k) : k = real p.2 ++ names := by
  obtain ⟨m, h1, h2⟩ := leads_split hk rfl hne
  rw [leads_det h1 (h.leads p hp)] at h2
  refine leads_plain h2 hn ?_
  intro q hq hqne t e
  rw [h.same p hp q hqne] at e
  cases hg : fs.get (p.2 ++ q) with
  | none => rw [hg] at e; cases e
  | some n => rw [hg] at e; cases n <;> cases e

theorem behind_there {x : RealFs} {fs : Fs} (h : Behind sites real x fs) (ht : Tidy fs) {p : Map × Loc} (hp : p ∈ sites) {names : List Str}
    (hne : names ≠ []) (hn : ∀ n ∈ names, n ≠ ['.'] ∧ n ≠ ['.', '.']) (hd : fs.get (p.2 ++ names).dropLast = some .dir) (f : Bool) :
    Leads x f [] (p.2 ++ names) (real p.2 ++ names) := by
  refine leads_join (h.leads p hp) (h.dirs p hp) hne (leads_there names _ hn ?_ ?_)
  · intro q hq hqne hq'
    rw [h.same p hp q hqne]
    have hq2 : p.2 ++ q <+: (p.2 ++ names).dropLast := by
      obtain ⟨r, rfl⟩ := hq
      have hr : r ≠ [] := by rintro rfl; simp at hq'
      rw [← List.append_assoc, List.dropLast_append_of_ne_nil hr]
      exact List.prefix_append _ _
    by_cases e : p.2 ++ q = (p.2 ++ names).dropLast
    · rw [e, hd]; rfl
    · rw [get_pre ht hd hq2 e]; rfl
  · intro t e
    rw [h.same p hp names hne] at e
    cases hg : fs.get (p.2 ++ names) with
    | none => rw [hg] at e; cases e
    | some n => rw [hg] at e; cases n <;> cases e

theorem behind_apart {x : RealFs} {fs : Fs} (h : Behind sites real x fs) {p q : Map × Loc} (hp : p ∈ sites) (hq : q ∈ sites) {a b : List Str}
    (e : real p.2 ++ a = real q.2 ++ b) : p = q ∧ a = b := by
  by_cases hpq : p = q
  · subst hpq
    exact ⟨rfl, List.append_cancel_left e⟩
  · obtain ⟨h1, h2⟩ := pairwise_mem h.apart (fun _ _ ⟨x1, x2⟩ => ⟨x2, x1⟩) hp hq hpq
    have e1 : real p.2 <+: real p.2 ++ a := List.prefix_append _ _
    have e2 : real q.2 <+: real p.2 ++ a := by rw [e]; exact List.prefix_append _ _
    rcases List.prefix_or_prefix_of_prefix e1 e2 with x | x
    · exact absurd x h1
    · exact absurd x h2

/-- A change at a place in a destination where there is no directory, in the real file system and in the one the client sees -/
theorem behind_put {x : RealFs} {fs fs' : Fs} (h : Behind sites real x fs) {p : Map × Loc} (hp : p ∈ sites) {names : List Str} (hne : names ≠ [])
    {n : Option FsNode} (hnd : fs.get (p.2 ++ names) ≠ some .dir) (hself : fs'.get (p.2 ++ names) = n)
    (hother : ∀ k, k ≠ p.2 ++ names → fs'.get k = fs.get k) (hloc : ∀ q ∈ sites, ∀ b, q.2 ++ b = p.2 ++ names → q = p) : Behind sites real (x.put (real p.2 ++ names) (n.map realNode)) fs' := by
  have hold : x (real p.2 ++ names) ≠ some .dir ∧ ∀ t, x (real p.2 ++ names) ≠ some (.link t) := by
    rw [h.same p hp names hne]
    cases hg : fs.get (p.2 ++ names) with
    | none => simp
    | some n =>
      cases n with
      | dir => exact absurd hg hnd
      | file c m => simp [realNode]
  have hd : ∀ l, x l = some .dir → x.put (real p.2 ++ names) (n.map realNode) l = some .dir := by
    intro l hl
    rw [RealFs.put, if_neg (by rintro rfl; exact hold.1 hl)]
    exact hl
  have hl : ∀ l t, x l = some (.link t) → x.put (real p.2 ++ names) (n.map realNode) l = some (.link t) := by
    intro l t hl
    rw [RealFs.put, if_neg (by rintro rfl; exact hold.2 t hl)]
    exact hl
  refine ⟨fun q hq => leads_keep hd hl (h.leads q hq) (h.dirs q hq), fun q hq => (h.dirs q hq).imp id (hd _), ?_, h.apart, ?_⟩
  · intro q hq
    have := h.seen q hq
    rw [hother q.2 (by intro e; rw [← e] at hnd; exact hnd this)]
    exact this
  · intro q hq names' hne'
    by_cases e : real q.2 ++ names' = real p.2 ++ names
    · obtain ⟨rfl, rfl⟩ := behind_apart h hq hp e
      rw [RealFs.put, if_pos rfl, hself]
    · rw [RealFs.put, if_neg e, h.same q hq names' hne', hother]
      intro e'
      by_cases hqp : q = p
      · subst hqp
        rw [List.append_cancel_left e'] at e
        exact e rfl
      · exact hqp (hloc q hq _ e')

/-- effects in the destinations themselves -/
def InsidePlace (sites : List (Map × Loc)) (w : World) (e : Effect) : Prop :=
  ∀ l, e.place = some l → ∃ p ∈ sites, ∃ names, l = p.2 ++ names ∧ (∀ n ∈ names, n ≠ ['.'] ∧ n ≠ ['.', '.']) ∧
    (names = [] → ∃ t, e = .utime l t ∧ w.fs.get l = some .dir)

/-- destinations that are there are never made -/
theorem inside_of_inPlace {x : RealFs} {w : World} {e : Effect} (h : Behind sites real x w.fs) (ht : Tidy w.fs) (he : InPlace sites e)
    (hf : CanDo w e) : InsidePlace sites w e := by
  have hmk : ∀ l, e = .mkdir l → ∀ p ∈ sites, ¬ l <+: p.2 := by
    rintro l rfl p hp hl
    by_cases e : l = p.2
    · rw [e] at hf
      have := hf.2.1
      rw [h.seen p hp] at this; cases this
    · have := get_pre ht (h.seen p hp) hl e
      rw [hf.2.1] at this; cases this
  intro l hl
  obtain ⟨hn, hw⟩ := he l hl
  have hin : ∃ p ∈ sites, Within p.2 l := by
    rcases hw with hw | ⟨rfl, p, hp, hw | hw⟩
    · exact hw
    · exact absurd hw (hmk l rfl p hp)
    · exact ⟨p, hp, hw⟩
  obtain ⟨p, hp, names, rfl⟩ := hin
  refine ⟨p, hp, names, rfl, fun n hm => hn n (List.mem_append_right _ hm), ?_⟩
  rintro rfl
  rw [List.append_nil] at hl ⊢
  have hs := h.seen p hp
  cases e with
  | get u => cases hl
  | setState t => cases hl
  | mkdir k => cases hl; exact absurd (List.prefix_refl _) (hmk p.2 rfl p hp)
  | trunc k t => cases hl; exact absurd hs hf.2.1
  | append k b => cases hl; obtain ⟨c, m, hg⟩ := hf; rw [hs] at hg; cases hg
  | unlink k => cases hl; obtain ⟨c, m, hg⟩ := hf; rw [hs] at hg; cases hg
  | utime k t => cases hl; exact ⟨t, rfl, hs⟩

theorem behind_other {x y : RealFs} {p : Map × Loc} (hp : p ∈ sites) {names : List Str} {n : Option RealNode} (hy : y = x.put (real p.2 ++ names) n) :
    ∀ l, (∀ p ∈ sites, ¬ Within (real p.2) l) → y l = x l := by
  intro l hl
  rw [hy, RealFs.put, if_neg]
  rintro rfl
  exact hl p hp (List.prefix_append _ _)

theorem behind_acts {x y : RealFs} {w : World} {e : Effect} (h : Behind sites real x w.fs) (he : InsidePlace sites w e) (hf : CanDo w e)
    (hloc : ∀ p ∈ sites, ∀ q ∈ sites, ∀ a b, q.2 ++ b = p.2 ++ a → q = p) (ha : Acts x e y) :
    Behind sites real y (w.apply e).fs ∧ ∀ l, (∀ p ∈ sites, ¬ Within (real p.2) l) → y l = x l := by
  cases ha with
  | @mkdir l k hk hn hr =>
    obtain ⟨p, hp, names, rfl, hnm, hne⟩ := he l rfl
    have hne : names ≠ [] := fun e => by obtain ⟨t, e, -⟩ := hne e; cases e
    obtain rfl := behind_leads h hp hne hnm hk
    refine ⟨?_, behind_other hp rfl⟩
    simp only [World.apply, Effect.onFs, hf.2.1]
    exact behind_put (n := some .dir) h hp hne (by rw [hf.2.1]; simp) (get_set_self _ _ _ hf.1) (fun k hk => get_set_other _ _ _ _ hk)
      (fun q hq b e => hloc p hp q hq _ _ e)
  | @create l k hk now hn hr =>
    obtain ⟨p, hp, names, rfl, hnm, hne⟩ := he l rfl
    have hne : names ≠ [] := fun e => by obtain ⟨t, e, -⟩ := hne e; cases e
    obtain rfl := behind_leads h hp hne hnm hk
    exact ⟨behind_put (n := some (.file [] now)) h hp hne hf.2.1 (get_set_self _ _ _ hf.1) (fun k hk => get_set_other _ _ _ _ hk)
      (fun q hq b e => hloc p hp q hq _ _ e), behind_other hp rfl⟩
  | @trunc l k hk now c m hn hr =>
    obtain ⟨p, hp, names, rfl, hnm, hne⟩ := he l rfl
    have hne : names ≠ [] := fun e => by obtain ⟨t, e, -⟩ := hne e; cases e
    obtain rfl := behind_leads h hp hne hnm hk
    exact ⟨behind_put (n := some (.file [] now)) h hp hne hf.2.1 (get_set_self _ _ _ hf.1) (fun k hk => get_set_other _ _ _ _ hk)
      (fun q hq b e => hloc p hp q hq _ _ e), behind_other hp rfl⟩
  | @append l k hk b c m hn hr =>
    obtain ⟨p, hp, names, rfl, hnm, hne⟩ := he l rfl
    have hne : names ≠ [] := fun e => by obtain ⟨t, e, -⟩ := hne e; cases e
    obtain rfl := behind_leads h hp hne hnm hk
    obtain ⟨c', m', hg⟩ := hf
    have h0 : p.2 ++ names ≠ [] := by simp [hne]
    rw [h.same p hp names hne, hg] at hn
    cases hn
    refine ⟨?_, behind_other hp rfl⟩
    simp only [World.apply, Effect.onFs, hg]
    exact behind_put (n := some (.file (c ++ b) m)) h hp hne (by rw [hg]; simp) (get_set_self _ _ _ h0) (fun k hk => get_set_other _ _ _ _ hk)
      (fun q hq b e => hloc p hp q hq _ _ e)
  | @utime l k hk t c m hn hr =>
    obtain ⟨p, hp, names, rfl, hnm, hne⟩ := he l rfl
    by_cases hnn : names = []
    · subst hnn
      rw [List.append_nil] at hk
      rw [leads_det hk (h.leads p hp)] at hn hr
      rcases h.dirs p hp with hd | hd
      · exact absurd hd hr
      · rw [hd] at hn; cases hn
    · obtain rfl := behind_leads h hp hnn hnm hk
      have h0 : p.2 ++ names ≠ [] := by simp [hnn]
      rw [h.same p hp names hnn] at hn
      cases hg : w.fs.get (p.2 ++ names) with
      | none => rw [hg] at hn; cases hn
      | some n =>
        rw [hg] at hn
        cases n with
        | dir => cases hn
        | file c' m' =>
          cases hn
          refine ⟨?_, behind_other hp rfl⟩
          simp only [World.apply, Effect.onFs, hg]
          exact behind_put (n := some (.file c t)) h hp hnn (by rw [hg]; simp) (get_set_self _ _ _ h0) (fun k hk => get_set_other _ _ _ _ hk)
            (fun q hq b e => hloc p hp q hq _ _ e)
  | @unlink l k hk n hn hd hr =>
    obtain ⟨p, hp, names, rfl, hnm, hne⟩ := he l rfl
    have hne : names ≠ [] := fun e => by obtain ⟨t, e, -⟩ := hne e; cases e
    obtain rfl := behind_leads h hp hne hnm hk
    obtain ⟨c', m', hg⟩ := hf
    have h0 : p.2 ++ names ≠ [] := by simp [hne]
    exact ⟨behind_put (n := none) h hp hne (by rw [hg]; simp) (get_del_self _ _ h0) (fun k hk => get_del_other _ _ _ hk)
      (fun q hq b e => hloc p hp q hq _ _ e), behind_other hp rfl⟩

theorem behind_fails {x : RealFs} {w : World} {e : Effect} (h : Behind sites real x w.fs) (he : InsidePlace sites w e) (ht : Tidy w.fs)
    (hf : CanDo w e) (ha : ∀ y, ¬ Acts x e y) : (w.apply e).fs = w.fs := by
  cases e with
  | get u => rfl
  | setState t => rfl
  | mkdir l =>
    obtain ⟨p, hp, names, rfl, hnm, hne⟩ := he l rfl
    have hne : names ≠ [] := fun e => by obtain ⟨t, e, -⟩ := hne e; cases e
    obtain ⟨h0, h1, h2⟩ := hf
    have hle := behind_there h ht hp hne hnm h2 false
    exact absurd (Acts.mkdir hle (by rw [h.same p hp names hne, h1]; rfl) (by simp [hne])) (ha _)
  | trunc l now =>
    obtain ⟨p, hp, names, rfl, hnm, hne⟩ := he l rfl
    have hne : names ≠ [] := fun e => by obtain ⟨t, e, -⟩ := hne e; cases e
    obtain ⟨h0, h1, h2⟩ := hf
    have hle := behind_there h ht hp hne hnm h2 true
    cases hg : w.fs.get (p.2 ++ names) with
    | none => exact absurd (Acts.create hle now (by rw [h.same p hp names hne, hg]; rfl) (by simp [hne])) (ha _)
    | some n =>
      cases n with
      | dir => exact absurd hg h1
      | file c m => exact absurd (Acts.trunc hle now (c := c) (m := m) (by rw [h.same p hp names hne, hg]; rfl) (by simp [hne])) (ha _)
  | append l b =>
    obtain ⟨p, hp, names, rfl, hnm, hne⟩ := he l rfl
    have hne : names ≠ [] := fun e => by obtain ⟨t, e, -⟩ := hne e; cases e
    obtain ⟨c, m, hg⟩ := hf
    have hle := behind_there h ht hp hne hnm (dropLast_of_file ht (by simp [hne]) hg) true
    exact absurd (Acts.append hle b (c := c) (m := m) (by rw [h.same p hp names hne, hg]; rfl) (by simp [hne])) (ha _)
  | unlink l =>
    obtain ⟨p, hp, names, rfl, hnm, hne⟩ := he l rfl
    have hne : names ≠ [] := fun e => by obtain ⟨t, e, -⟩ := hne e; cases e
    obtain ⟨c, m, hg⟩ := hf
    have hle := behind_there h ht hp hne hnm (dropLast_of_file ht (by simp [hne]) hg) false
    exact absurd (Acts.unlink hle (n := .file c m) (by rw [h.same p hp names hne, hg]; rfl) (by simp) (by simp [hne])) (ha _)
  | utime l t =>
    cases hg : w.fs.get l with
    | none => simp only [World.apply, Effect.onFs, hg]
    | some n =>
      cases n with
      | dir => simp only [World.apply, Effect.onFs, hg]
      | file c m =>
        obtain ⟨p, hp, names, rfl, hnm, hne⟩ := he l rfl
        have hne : names ≠ [] := fun e => by obtain ⟨t, e, hd⟩ := hne e; rw [hd] at hg; cases hg
        have hle := behind_there h ht hp hne hnm (dropLast_of_file ht (by simp [hne]) hg) true
        exact absurd (Acts.utime hle t (c := c) (m := m) (by rw [h.same p hp names hne, hg]; rfl) (by simp [hne])) (ha _)

theorem performs_behind (hloc : ∀ p ∈ sites, ∀ q ∈ sites, ∀ a b, q.2 ++ b = p.2 ++ a → q = p) {x y : RealFs} {es : List Effect}
    (h : Performs x es y) : ∀ {w : World}, Behind sites real x w.fs → (∀ e ∈ es, InPlace sites e) →
    PathKeeps (fun w => Tidy w.fs) w es → PathFits w es →
    Behind sites real y (es.foldl World.apply w).fs ∧ ∀ l, (∀ p ∈ sites, ¬ Within (real p.2) l) → y l = x l := by
  induction h with
  | done => intro w hs _ _ _; exact ⟨hs, fun _ _ => rfl⟩
  | @acts x y z e es ha _ ih =>
    intro w hs he hk hf
    obtain ⟨h1, h2⟩ := behind_acts hs (inside_of_inPlace hs hk.1 (he e (by simp)) hf.1) hf.1 hloc ha
    obtain ⟨h3, h4⟩ := ih h1 (fun e' h' => he e' (by simp [h'])) hk.2.2 hf.2
    exact ⟨h3, fun l hl => (h4 l hl).trans (h2 l hl)⟩
  | @fails x z e es ha _ ih =>
    intro w hs he hk hf
    have := behind_fails hs (inside_of_inPlace hs hk.1 (he e (by simp)) hf.1) hk.1 hf.1 ha
    obtain ⟨h3, h4⟩ := ih (w := w.apply e) (by rw [this]; exact hs) (fun e' h' => he e' (by simp [h'])) hk.2.2 hf.2
    exact ⟨h3, h4⟩

end

end Resync
