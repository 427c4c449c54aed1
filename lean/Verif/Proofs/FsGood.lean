import Verif.Proofs.ClientRun
import Verif.Proofs.Mapper
/- File systems stay proper. -/

namespace Resync
open Py Resync.Spec

/-- a proper file system with plain names -/
structure Tidy (fs : Fs) : Prop where
  proper : ProperFs fs
  names : ∀ p ∈ fs, ∀ n ∈ p.1, OneLine n

theorem map_fst_filter (fs : Fs) (l : Loc) : (fs.filter (fun p => p.1 ≠ l)).map Prod.fst = (fs.map Prod.fst).filter (fun k => k ≠ l) := by
  induction fs with
  | nil => rfl
  | cons p t ih =>
    simp only [List.filter_cons, List.map_cons]
    split <;> simp_all

theorem tidy_set {fs : Fs} (h : Tidy fs) {l : Loc} {n : FsNode} (hl : l ≠ []) (hn : ∀ x ∈ l, PlainName x)
    (hp : fs.get l.dropLast = some .dir) (hno : fs.get l ≠ some .dir) : Tidy (fs.set l n) := by
  have hself : ∀ k : Loc, fs.get k = some .dir → (fs.set l n).get k = some .dir := by
    intro k hk
    rw [get_set_other _ _ _ _ (by rintro rfl; exact hno hk)]
    exact hk
  refine ⟨⟨?_, ?_, ?_, ?_⟩, ?_⟩
  · unfold Fs.set
    rw [List.map_cons, List.nodup_cons]
    refine ⟨?_, ?_⟩
    · intro hm
      obtain ⟨p, hp, e⟩ := List.mem_map.mp hm
      have := (List.mem_filter.mp hp).2
      simp [e] at this
    · rw [map_fst_filter]
      exact h.proper.once.filter _
  · intro p hp x hx
    rcases List.mem_cons.mp hp with rfl | hp
    · exact (hn x hx).1
    · exact h.proper.names p (List.mem_filter.mp hp).1 x hx
  · intro p hp
    rcases List.mem_cons.mp hp with rfl | hp
    · exact hl
    · exact h.proper.nonroot p (List.mem_filter.mp hp).1
  · intro p hp'
    rcases List.mem_cons.mp hp' with rfl | hp'
    · exact hself _ hp
    · exact hself _ (h.proper.parents p (List.mem_filter.mp hp').1)
  · intro p hp x hx
    rcases List.mem_cons.mp hp with rfl | hp
    · exact (hn x hx).2
    · exact h.names p (List.mem_filter.mp hp).1 x hx

theorem tidy_del {fs : Fs} (h : Tidy fs) {l : Loc} (hno : fs.get l ≠ some .dir) : Tidy (fs.del l) := by
  unfold Fs.del
  have hmem : ∀ p ∈ fs.filter (fun p => p.1 ≠ l), p ∈ fs := fun p hp => (List.mem_filter.mp hp).1
  refine ⟨⟨?_, ?_, ?_, ?_⟩, ?_⟩
  · rw [map_fst_filter]; exact h.proper.once.filter _
  · intro p hp; exact h.proper.names p (hmem p hp)
  · intro p hp; exact h.proper.nonroot p (hmem p hp)
  · intro p hp
    have := h.proper.parents p (hmem p hp)
    have hg := get_del_other fs l p.1.dropLast (by intro e; rw [e] at this; exact hno this)
    unfold Fs.del at hg
    rw [hg]; exact this
  · intro p hp; exact h.names p (hmem p hp)

theorem walkFrom_plain {cur cs : List Str} (hc : ∀ n ∈ cur, PlainName n) (hs : ∀ n ∈ cs, '/' ∉ n ∧ OneLine n) :
    ∀ n ∈ walkFrom cur cs, PlainName n := by
  induction cs generalizing cur with
  | nil => exact hc
  | cons a t ih =>
    have ht : ∀ n ∈ t, '/' ∉ n ∧ OneLine n := fun n hn => hs n (by simp [hn])
    simp only [walkFrom]
    split
    · exact ih hc ht
    · rename_i h1
      split
      · exact ih (fun n hn => hc n (List.dropLast_subset _ hn)) ht
      · rename_i h2
        refine ih ?_ ht
        intro n hn
        rcases List.mem_append.mp hn with h | h
        · exact hc n h
        · rw [List.mem_singleton.mp h]
          obtain ⟨s1, s2⟩ := hs a (by simp)
          exact ⟨⟨fun e => h1 (Or.inl e), fun e => h1 (Or.inr e), h2, s1⟩, s2⟩

theorem oneLine_splitOn {p n : Str} (h : OneLine p) (hn : n ∈ splitOn '/' p) : OneLine n := by
  have key : ∀ l : List Str, OneLine (join ['/'] l) → ∀ x ∈ l, OneLine x := by
    intro l
    induction l with
    | nil => intro _ x hx; cases hx
    | cons a t ih =>
      intro h x hx
      cases t with
      | nil =>
        rw [List.mem_singleton.mp hx]
        simpa [join] using h
      | cons b u =>
        simp only [join] at h
        obtain ⟨h1, h2⟩ := oneLine_append.mp h
        rcases List.mem_cons.mp hx with e | e
        · rw [e]; exact (oneLine_append.mp h1).1
        · exact ih h2 x e
  exact key _ (by rw [join_splitOn]; exact h) n hn

theorem location_plain {cwd : Loc} (hc : ∀ n ∈ cwd, PlainName n) {p : Str} (hp : OneLine p) : ∀ n ∈ location cwd p, PlainName n := by
  have hs : ∀ n ∈ splitOn '/' p, '/' ∉ n ∧ OneLine n := fun n hn => ⟨not_mem_of_mem_splitOn hn, oneLine_splitOn hp hn⟩
  unfold location
  split
  · exact walkFrom_plain (by simp) hs
  · exact walkFrom_plain hc hs

theorem oneLine_dirname {p : Str} (hp : OneLine p) : OneLine (dirname p) := by
  have key : ∀ x ∈ dirname p, x ∈ p := by
    intro x hx
    unfold dirname headSlash rstripSlash at hx
    simp only at hx
    split at hx <;> simp only [List.mem_reverse] at hx
    · simpa using List.dropWhile_subset _ hx
    · have h1 := List.dropWhile_subset _ hx
      simp only [List.mem_reverse] at h1
      simpa using List.dropWhile_subset _ h1
  exact fun h => hp (key _ h)

theorem tidy_mkpath (env : Env) : ∀ (rest : List Str) (pre : Loc) (s : St), Tidy s.world.fs → (∀ n ∈ pre ++ rest, PlainName n) →
    s.world.fs.get pre = some .dir → Tidy (mkpath env pre rest s).1.world.fs := by
  intro rest
  induction rest with
  | nil => intro pre s h _ _; exact h
  | cons n rest ih =>
    intro pre s h hn hp
    have hn' : ∀ x ∈ (pre ++ [n]) ++ rest, PlainName x := by simpa using hn
    simp only [mkpath]
    split
    · rename_i hd
      exact ih _ s h hn' hd
    · exact h
    · rename_i hno
      split
      · exact h
      · have hset : ((s.emit (.mkdir (pre ++ [n]))).world.fs) = s.world.fs.set (pre ++ [n]) .dir := by
          simp [St.emit, World.apply, Effect.onFs, hno]
        refine ih _ _ ?_ hn' ?_
        · rw [hset]
          exact tidy_set h (by simp) (fun x hx => hn' x (List.mem_append_left _ hx)) (by simpa using hp) (by rw [hno]; simp)
        · rw [hset]; exact get_set_self _ _ _ (by simp)

theorem tidy_tryGet (env : Env) (s : St) (uri : Str) (l : Loc) (h : Tidy s.world.fs) (hl : ∀ n ∈ l, PlainName n) :
    Tidy (tryGet env s uri l).1.world.fs := by
  unfold tryGet
  simp only
  split
  · exact h
  · split
    · exact h
    · rename_i s2 hs2
      obtain ⟨h1, h2, h3, rfl⟩ := openW_some hs2
      have hd : (s.emit (.get uri)).world.fs = s.world.fs := rfl
      rw [hd] at h2 h3
      unfold Fs.isDir at h3
      have h3 : s.world.fs.get l.dropLast = some .dir := by simpa using h3
      have t1 : Tidy (s.world.fs.set l (.file [] (env.now (s.emit (.get uri)).trace))) := tidy_set h h1 hl h3 h2
      have hg := get_set_self s.world.fs l (.file [] (env.now (s.emit (.get uri)).trace)) h1
      have hp : (s.world.fs.set l (.file [] (env.now (s.emit (.get uri)).trace))).get l.dropLast = some .dir := by
        rw [get_set_other _ _ _ _ (by intro e; rw [e] at h3; exact h2 h3)]; exact h3
      simp only [St.emit, World.apply, Effect.onFs]
      simp only [St.emit, World.apply, Effect.onFs] at hg t1 hp
      rw [hg]
      exact tidy_set t1 h1 hl hp (by rw [hg]; simp)

theorem tidy_getLoop (env : Env) (ig : Bool) (uri : Str) (l : Loc) (hl : ∀ n ∈ l, PlainName n) (n : Nat) :
    ∀ s : St, Tidy s.world.fs → Tidy (getLoop env ig uri l n s).1.world.fs := by
  induction n with
  | zero => intro s h; exact h
  | succ n ih =>
    intro s h
    have ht := tidy_tryGet env s uri l h hl
    simp only [getLoop]
    split
    · exact ht
    · split
      · exact ht
      · exact ih _ ht
    · exact ht
    · exact ht

theorem tidy_setTime (s : St) (l : Loc) (t : Option Rat) (hl : ∀ n ∈ l, PlainName n) (h : Tidy s.world.fs) :
    Tidy (setTime s l t).1.world.fs := by
  unfold setTime
  split
  · exact h
  · split
    · exact h
    · rename_i t
      rw [St.seen_world]
      simp only [St.emit, World.apply, Effect.onFs]
      split
      · rename_i c m hg
        have hne : l ≠ [] := by rintro rfl; rw [get_root] at hg; cases hg
        refine tidy_set h hne hl ?_ (by rw [hg]; simp)
        exact h.proper.parents _ (mem_of_get hne hg)
      · exact h

theorem tidy_updateResource (env : Env) (c : ClientCfg) (s : St) (r : Resource) (fn : Str) (hc : ∀ n ∈ env.cwd, PlainName n)
    (hf : OneLine fn) (h : Tidy s.world.fs) : Tidy (updateResource env c s r fn).1.world.fs := by
  have hl := location_plain hc hf
  have hm := tidy_mkpath env (location env.cwd (dirname fn)) [] s h (by simpa using location_plain hc (oneLine_dirname hf)) (get_root _)
  unfold updateResource
  cases hmk : mkpath env [] (location env.cwd (dirname fn)) s with
  | mk s1 b =>
  rw [hmk] at hm
  cases b with
  | false => exact hm
  | true =>
    simp only
    split
    · exact hm
    · have hg := tidy_getLoop env c.ignore_failures r.uri _ hl c.tries s1 hm
      cases hgl : getLoop env c.ignore_failures r.uri (location env.cwd fn) c.tries s1 with
      | mk s2 g =>
      rw [hgl] at hg
      have hs := tidy_setTime s2 _ r.timestamp hl hg
      cases g with
      | raised e => exact hg
      | gaveUp => exact hg
      | updated =>
        simp only
        cases ht : setTime s2 (location env.cwd fn) r.timestamp with
        | mk s3 x =>
        rw [ht] at hs
        cases x <;> exact hs
      | skipped =>
        simp only
        cases ht : setTime s2 (location env.cwd fn) r.timestamp with
        | mk s3 x =>
        rw [ht] at hs
        cases x <;> exact hs

theorem tidy_deleteResource (env : Env) (c : ClientCfg) (allow : Bool) (s : St) (r : Resource) (fn : Str) (h : Tidy s.world.fs) :
    Tidy (deleteResource env c allow s r fn).1.world.fs := by
  have h0 : Tidy (s.seen r.timestamp).world.fs := by rw [St.seen_world]; exact h
  unfold deleteResource
  simp only
  split
  · exact h0
  · split
    · exact h0
    · split
      · rename_i hg
        split
        · exact h0
        · simp only [St.emit, World.apply, Effect.onFs]
          exact tidy_del h0 (by rw [hg]; simp)
      · exact h0

theorem tidy_forEach (f : St → Resource → St × Except ClientErr Unit) (rs : List Resource)
    (hf : ∀ r ∈ rs, ∀ s, Tidy s.world.fs → Tidy (f s r).1.world.fs) : ∀ s : St, Tidy s.world.fs → Tidy (forEach f rs s).1.world.fs := by
  induction rs with
  | nil => intro s h; exact h
  | cons r t ih =>
    intro s h
    have h1 := hf r (by simp) s h
    simp only [forEach]
    cases hr : f s r with
    | mk s1 x =>
    rw [hr] at h1
    cases x with
    | error e => exact h1
    | ok u => exact ih (fun r' hr' => hf r' (by simp [hr'])) s1 h1

end Resync
