import Verif.Spec.Locality
import Verif.Props.OrderSync
/-
Lemmas for C121: two runs on disks which agree at certain places.
-/

namespace Resync
open Py Resync.Spec

/-- two moments of runs on disks with the same contents at these places -/
structure MomentOn (N : Loc → Prop) (s s' : St) : Prop where
  fs : ∀ l, N l → s'.world.fs.get l = s.world.fs.get l
  state : s'.world.state = s.world.state
  trace : s'.trace = s.trace
  hashes : s'.hashes = s.hashes
  last : s'.last_timestamp = s.last_timestamp

/-- the place where the effect looks before it does anything -/
def LooksIn (N : Loc → Prop) : Effect → Prop
  | .mkdir k => N k
  | .append k _ => N k
  | .utime k _ => N k
  | _ => True

theorem get_set_on {N : Loc → Prop} {fs fs' : Fs} (h : ∀ l, N l → fs'.get l = fs.get l) (k : Loc) (n : FsNode) :
    ∀ l, N l → (fs'.set k n).get l = (fs.set k n).get l := by
  intro l hN
  by_cases hl : l = k
  · subst hl
    by_cases hn : l = []
    · subst hn; rfl
    · rw [get_set_self _ _ _ hn, get_set_self _ _ _ hn]
  · rw [get_set_other _ _ _ _ hl, get_set_other _ _ _ _ hl, h l hN]

theorem get_del_on {N : Loc → Prop} {fs fs' : Fs} (h : ∀ l, N l → fs'.get l = fs.get l) (k : Loc) :
    ∀ l, N l → (fs'.del k).get l = (fs.del k).get l := by
  intro l hN
  by_cases hl : l = k
  · subst hl
    by_cases hn : l = []
    · subst hn; rfl
    · rw [get_del_self _ _ hn, get_del_self _ _ hn]
  · rw [get_del_other _ _ _ hl, get_del_other _ _ _ hl, h l hN]

theorem onFs_on {N : Loc → Prop} {fs fs' : Fs} (h : ∀ l, N l → fs'.get l = fs.get l) (e : Effect) (he : LooksIn N e) :
    ∀ l, N l → (e.onFs fs').get l = (e.onFs fs).get l := by
  cases e with
  | mkdir k =>
    unfold Effect.onFs
    simp only [h k he]
    cases fs.get k with
    | none => exact get_set_on h k _
    | some _ => exact h
  | get _ => exact h
  | trunc k now => exact get_set_on h k _
  | append k b =>
    unfold Effect.onFs
    simp only [h k he]
    cases fs.get k with
    | none => exact h
    | some x =>
      cases x with
      | file c m => exact get_set_on h k _
      | dir => exact h
  | utime k t =>
    unfold Effect.onFs
    simp only [h k he]
    cases fs.get k with
    | none => exact h
    | some x =>
      cases x with
      | file c m => exact get_set_on h k _
      | dir => exact h
  | unlink k => exact get_del_on h k
  | setState _ => exact h

section
variable {N : Loc → Prop}

theorem MomentOn.emit {s s' : St} (h : MomentOn N s s') (e : Effect) (he : LooksIn N e) : MomentOn N (s.emit e) (s'.emit e) := by
  refine ⟨onFs_on h.fs e he, ?_, ?_, h.hashes, h.last⟩
  · show (s'.world.apply e).state = (s.world.apply e).state
    unfold World.apply
    cases e <;> simp [h.state]
  · show s'.trace ++ [e] = s.trace ++ [e]
    rw [h.trace]

theorem MomentOn.seen {s s' : St} (h : MomentOn N s s') (t : Option Rat) : MomentOn N (s.seen t) (s'.seen t) := by
  cases t with
  | none => exact h
  | some t =>
    unfold St.seen
    simp only [h.last]
    split
    · exact ⟨h.fs, h.state, h.trace, h.hashes, rfl⟩
    · exact h

/-- the same result, at moments that are the same -/
def EndOn (N : Loc → Prop) {α : Type} (p p' : St × α) : Prop := MomentOn N p.1 p'.1 ∧ p'.2 = p.2

/-- a file all places on the way to which are among those -/
structure FileOn (N : Loc → Prop) (cwd : Loc) (fn : Str) : Prop where
  way : ∀ l, l <+: location cwd (dirname fn) → N l
  place : N (location cwd fn)
  dir : N (location cwd fn).dropLast

theorem mkpath_on (env : Env) : ∀ (rest : List Str) (pre : Loc) (s s' : St), (∀ l, l <+: pre ++ rest → N l) → MomentOn N s s' →
    EndOn N (mkpath env pre rest s) (mkpath env pre rest s')
  | [], _, _, _, _, h => ⟨h, rfl⟩
  | n :: rest, pre, s, s', hN, h => by
    have hn : N (pre ++ [n]) := hN _ ⟨rest, by simp⟩
    have hN' : ∀ l, l <+: (pre ++ [n]) ++ rest → N l := fun l hl => hN l (by simpa using hl)
    unfold mkpath
    rw [h.fs _ hn, h.trace]
    cases s.world.fs.get (pre ++ [n]) with
    | none =>
      simp only
      split
      · exact ⟨h, rfl⟩
      · exact mkpath_on env rest _ _ _ hN' (h.emit _ hn)
    | some x =>
      cases x with
      | file c m => exact ⟨h, rfl⟩
      | dir => exact mkpath_on env rest _ _ _ hN' h

theorem tryGet_on (env : Env) {s s' : St} (h : MomentOn N s s') (uri : Str) (l : Loc) (hl : N l) (hd : N l.dropLast) :
    EndOn N (tryGet env s uri l) (tryGet env s' uri l) := by
  unfold tryGet
  simp only [h.trace]
  have h1 := h.emit (.get uri) trivial
  cases env.serve s.trace uri with
  | fail e => exact ⟨h1, rfl⟩
  | body b broken =>
    simp only
    unfold openW Fs.isDir
    rw [h1.fs _ hl, h1.fs _ hd, h1.trace]
    by_cases hc : l = [] ∨ (s.emit (.get uri)).world.fs.get l = some .dir ∨
      ¬ ((s.emit (.get uri)).world.fs.get l.dropLast == some .dir) = true ∨ env.openFails (s.emit (.get uri)).trace l = true
    · rw [if_pos hc, if_pos hc]
      exact ⟨h1, rfl⟩
    · rw [if_neg hc, if_neg hc]
      exact ⟨(h1.emit (.trunc l _) trivial).emit (.append l _) hl, rfl⟩

theorem getLoop_on (env : Env) (ign : Bool) (uri : Str) (l : Loc) (hl : N l) (hd : N l.dropLast) : ∀ (n : Nat) (s s' : St), MomentOn N s s' →
    EndOn N (getLoop env ign uri l n s) (getLoop env ign uri l n s')
  | 0, _, _, h => ⟨h, rfl⟩
  | n + 1, s, s', h => by
    obtain ⟨h1, h2⟩ := tryGet_on env h uri l hl hd
    unfold getLoop
    simp only
    rw [h2]
    cases (tryGet env s uri l).2 with
    | none => exact ⟨h1, rfl⟩
    | some f =>
      cases f with
      | timeout =>
        simp only
        split
        · exact ⟨h1, rfl⟩
        · exact getLoop_on env ign uri l hl hd n _ _ h1
      | io => exact ⟨h1, rfl⟩
      | other => exact ⟨h1, rfl⟩

theorem setTime_on {s s' : St} (h : MomentOn N s s') (l : Loc) (hl : N l) (t : Option Rat) : EndOn N (setTime s l t) (setTime s' l t) := by
  unfold setTime
  rw [h.fs _ hl]
  cases s.world.fs.get l with
  | none => exact ⟨h, rfl⟩
  | some _ =>
    cases t with
    | none => exact ⟨h, rfl⟩
    | some t => exact ⟨(h.emit (.utime l (truncRat t)) hl).seen (some t), rfl⟩

theorem updateResource_on (env : Env) (c : ClientCfg) {s s' : St} (h : MomentOn N s s') (r : Resource) (filename : Str) (hN : FileOn N env.cwd filename) :
    EndOn N (updateResource env c s r filename) (updateResource env c s' r filename) := by
  unfold updateResource
  obtain ⟨h1, h2⟩ := mkpath_on env (location env.cwd (dirname filename)) [] s s' hN.way h
  rcases hm : mkpath env [] (location env.cwd (dirname filename)) s with ⟨s1, b⟩
  rcases hm' : mkpath env [] (location env.cwd (dirname filename)) s' with ⟨s1', b'⟩
  rw [hm, hm'] at h1 h2
  simp only at h1 h2
  subst h2
  cases b' with
  | false => exact ⟨h1, rfl⟩
  | true =>
    simp only
    split
    · exact ⟨h1, rfl⟩
    · obtain ⟨h3, h4⟩ := getLoop_on env c.ignore_failures r.uri (location env.cwd filename) hN.place hN.dir c.tries s1 s1' h1
      rcases hg : getLoop env c.ignore_failures r.uri (location env.cwd filename) c.tries s1 with ⟨s2, g⟩
      rcases hg' : getLoop env c.ignore_failures r.uri (location env.cwd filename) c.tries s1' with ⟨s2', g'⟩
      rw [hg, hg'] at h3 h4
      simp only at h3 h4
      subst h4
      obtain ⟨h5, h6⟩ := setTime_on h3 (location env.cwd filename) hN.place r.timestamp
      rcases hs : setTime s2 (location env.cwd filename) r.timestamp with ⟨s3, x⟩
      rcases hs' : setTime s2' (location env.cwd filename) r.timestamp with ⟨s3', x'⟩
      rw [hs, hs'] at h5 h6
      simp only at h5 h6
      subst h6
      cases g' with
      | raised e => exact ⟨h3, rfl⟩
      | gaveUp => exact ⟨h3, rfl⟩
      | updated => simp only [hs, hs']; cases x' <;> exact ⟨h5, rfl⟩
      | skipped => simp only [hs, hs']; cases x' <;> exact ⟨h5, rfl⟩

theorem deleteResource_on (env : Env) (c : ClientCfg) (allow : Bool) {s s' : St} (h : MomentOn N s s') (r : Resource) (filename : Str) (hN : FileOn N env.cwd filename) :
    EndOn N (deleteResource env c allow s r filename) (deleteResource env c allow s' r filename) := by
  unfold deleteResource
  have h1 := h.seen r.timestamp
  simp only [h1.fs _ hN.place, h1.trace]
  split
  · exact ⟨h1, rfl⟩
  · split
    · exact ⟨h1, rfl⟩
    · cases (s.seen r.timestamp).world.fs.get (location env.cwd filename) with
      | none => exact ⟨h1, rfl⟩
      | some x =>
        cases x with
        | dir => exact ⟨h1, rfl⟩
        | file b t =>
          simp only
          split
          · exact ⟨h1, rfl⟩
          · exact ⟨h1.emit _ trivial, rfl⟩

theorem updateOne_on (env : Env) (c : ClientCfg) {s s' : St} (h : MomentOn N s s') (r : Resource)
    (hN : ∀ fn, c.disc.mapper.srcToDst r.uri = .ok fn → FileOn N env.cwd fn) :
    EndOn N (updateOne env c s r) (updateOne env c s' r) := by
  unfold updateOne
  cases hm : c.disc.mapper.srcToDst r.uri with
  | error e => exact ⟨h, rfl⟩
  | ok filename =>
    obtain ⟨h1, h2⟩ := updateResource_on env c h r filename (hN _ hm)
    simp only
    rcases hu : updateResource env c s r filename with ⟨s1, x⟩
    rcases hu' : updateResource env c s' r filename with ⟨s1', x'⟩
    rw [hu, hu'] at h1 h2
    simp only at h1 h2
    subst h2
    cases x' <;> exact ⟨h1, rfl⟩

theorem deleteOne_on (env : Env) (c : ClientCfg) (allow : Bool) {s s' : St} (h : MomentOn N s s') (r : Resource)
    (hN : ∀ fn, c.disc.mapper.srcToDst r.uri = .ok fn → FileOn N env.cwd fn) :
    EndOn N (deleteOne env c allow s r) (deleteOne env c allow s' r) := by
  unfold deleteOne
  cases hm : c.disc.mapper.srcToDst r.uri with
  | error e => exact ⟨h, rfl⟩
  | ok filename => exact ⟨(deleteResource_on env c allow h r filename (hN _ hm)).1, rfl⟩

theorem applyOne_on (env : Env) (c : ClientCfg) (allow : Bool) {s s' : St} (h : MomentOn N s s') (r : Resource)
    (hN : ∀ fn, c.disc.mapper.srcToDst r.uri = .ok fn → FileOn N env.cwd fn) :
    EndOn N (applyOne env c allow s r) (applyOne env c allow s' r) := by
  unfold applyOne
  cases hm : c.disc.mapper.srcToDst r.uri with
  | error e => exact ⟨h, rfl⟩
  | ok filename =>
    simp only
    split
    · obtain ⟨h1, h2⟩ := updateResource_on env c h r filename (hN _ hm)
      rcases hu : updateResource env c s r filename with ⟨s1, x⟩
      rcases hu' : updateResource env c s' r filename with ⟨s1', x'⟩
      rw [hu, hu'] at h1 h2
      simp only at h1 h2
      subst h2
      cases x' <;> exact ⟨h1, rfl⟩
    · split
      · exact ⟨(deleteResource_on env c allow h r filename (hN _ hm)).1, rfl⟩
      · exact ⟨h, rfl⟩

theorem forEach_on {f : St → Resource → St × Except ClientErr Unit} :
    ∀ (rs : List Resource) (_ : ∀ r ∈ rs, ∀ {s s'}, MomentOn N s s' → EndOn N (f s r) (f s' r)) (s s' : St), MomentOn N s s' → EndOn N (forEach f rs s) (forEach f rs s')
  | [], _, _, _, h => ⟨h, rfl⟩
  | r :: rs, hf, s, s', h => by
    obtain ⟨h1, h2⟩ := hf r List.mem_cons_self h
    unfold forEach
    rcases hu : f s r with ⟨s1, x⟩
    rcases hu' : f s' r with ⟨s1', x'⟩
    rw [hu, hu'] at h1 h2
    simp only at h1 h2
    subst h2
    cases x' with
    | error e => exact ⟨h1, rfl⟩
    | ok u => exact forEach_on rs (fun r hr => hf r (List.mem_cons_of_mem _ hr)) _ _ h1

theorem storeState_on (env : Env) (c : ClientCfg) {s s' : St} (h : MomentOn N s s') : EndOn N (storeState env c s) (storeState env c s') := by
  unfold storeState
  cases c.disc.sitemap with
  | error e => exact ⟨h, rfl⟩
  | ok site =>
    simp only [h.state, h.last]
    cases setState env.ft s.world.state site (some s.last_timestamp) with
    | error e => exact ⟨h, rfl⟩
    | ok o =>
      cases o with
      | none => exact ⟨h, rfl⟩
      | some t => exact ⟨h.emit _ trivial, rfl⟩

theorem finish_on (env : Env) (c : ClientCfg) {s s' : St} (h : MomentOn N s s') :
    EndOn N (if s.last_timestamp > 0 then storeState env c s else (s, .ok ())) (if s'.last_timestamp > 0 then storeState env c s' else (s', .ok ())) := by
  rw [h.last]
  split
  · exact storeState_on env c h
  · exact ⟨h, rfl⟩

theorem baselineSync_on (env : Env) (c : ClientCfg) (allow : Bool) (src : Dict Resource) {cmp cmp' : Comparison}
    (hc : listing cmp'.created = listing cmp.created) (hu : listing cmp'.updated = listing cmp.updated)
    (hd : listing cmp'.deleted = listing cmp.deleted) {s s' : St} (h : MomentOn N s s')
    (hN : ∀ r, r ∈ listing cmp.created ∨ r ∈ listing cmp.updated ∨ r ∈ listing cmp.deleted →
      ∀ fn, c.disc.mapper.srcToDst r.uri = .ok fn → FileOn N env.cwd fn) :
    EndOn N (baselineSync env c allow src cmp s) (baselineSync env c allow src cmp' s') := by
  unfold baselineSync
  cases baselineAuthority c src with
  | error e => exact ⟨h, rfl⟩
  | ok _ =>
    simp only [iterList_eq, hc, hu, hd]
    have h0 : MomentOn N { s with last_timestamp := 0 } { s' with last_timestamp := 0 } := ⟨h.fs, h.state, h.trace, h.hashes, rfl⟩
    have step : ∀ (f : St → Resource → St × Except ClientErr Unit) (rs : List Resource),
        (∀ r ∈ rs, ∀ {s s'}, MomentOn N s s' → EndOn N (f s r) (f s' r)) → ∀ {s s' : St} (k : St → St × Except ClientErr Unit), MomentOn N s s' →
          (∀ {s s'}, MomentOn N s s' → EndOn N (k s) (k s')) →
          EndOn N (match forEach f rs s with
            | (s, .error e) => (s, .error e)
            | (s, .ok ()) => k s) (match forEach f rs s' with
            | (s, .error e) => (s, .error e)
            | (s, .ok ()) => k s) := by
      intro f rs hf s s' k hs hk
      obtain ⟨h1, h2⟩ := forEach_on rs hf s s' hs
      rcases hu : forEach f rs s with ⟨s1, x⟩
      rcases hu' : forEach f rs s' with ⟨s1', x'⟩
      rw [hu, hu'] at h1 h2
      simp only at h1 h2
      subst h2
      cases x' with
      | error e => exact ⟨h1, rfl⟩
      | ok u => exact hk h1
    exact step _ _ (fun r hr _ _ hs => updateOne_on env c hs r (hN r (.inl hr))) _ h0 (fun h1 =>
      step _ _ (fun r hr _ _ hs => updateOne_on env c hs r (hN r (.inr (.inl hr)))) _ h1 (fun h2 =>
        step _ _ (fun r hr _ _ hs => deleteOne_on env c allow hs r (hN r (.inr (.inr hr)))) _ h2 (fun h3 => finish_on env c h3)))

end

theorem near_way {sites : List (Map × Loc)} {p : Map × Loc} (hp : p ∈ sites) {names : List Str} {l : Loc} (h : l <+: p.2 ++ names) :
    NearSites sites l := by
  refine ⟨p, hp, ?_⟩
  rcases List.prefix_or_prefix_of_prefix h (List.prefix_append p.2 names) with h | h
  · exact .inr h
  · exact .inl h

/-- files below the destinations -/
theorem below_on {c : ClientCfg} {cwd : Loc} {sites : List (Map × Loc)} {fs : Fs} (h : Sites c cwd sites fs) {p : Map × Loc} (hp : p ∈ sites)
    {names : List Str} (hne : names ≠ []) (hn : ∀ n ∈ names, PlainName n) {fn : Str} (hm : c.disc.mapper.srcToDst (uriBelow p.1 names) = .ok fn) :
    FileOn (NearSites sites) cwd fn := by
  obtain ⟨fn', h1, h2, h3⟩ := h.maps_dir hp hne hn
  rw [hm] at h1
  cases h1
  refine ⟨?_, ?_, ?_⟩
  · intro l hl
    rw [h3] at hl
    exact near_way hp (hl.trans (List.dropLast_prefix _))
  · rw [h2]
    exact near_way hp (List.prefix_refl _)
  · rw [h2]
    exact near_way hp (List.dropLast_prefix _)

end Resync
