import Verif.Spec.Links
import Verif.Proofs.Links
import Verif.Props.Repeat
/-
C108: symbolic links.  The client's model (Model/Client.lean) works on a file system without symbolic links.  Here its system calls are
done on one that has them.
-/

namespace Resync
open Py Resync.Spec

variable {sites : List (Map × Loc)}

theorem placed_tidy {c : ClientCfg} {fs : Fs} {env : Env} (hs : Sites c env.cwd sites fs) {r : Resource} (hr : Placed sites r.uri) {fn : Str}
    (hfn : c.disc.mapper.srcToDst r.uri = .ok fn) : MayFetch (fun _ _ => True) env r fn := by
  obtain ⟨p, hp, names, hne, hn, hu⟩ := hr
  obtain ⟨fn', h1, h2, -⟩ := hs.maps hp hne hn
  rw [hu, h1] at hfn
  cases hfn
  exact ⟨h2, fun _ _ _ => trivial, fun _ => trivial, fun _ _ _ _ _ _ _ => trivial, fun _ _ _ _ _ => trivial⟩

/-- what is used of a run -/
structure RunsInPlace (sites : List (Map × Loc)) (s s' : St) : Prop where
  inPlace : ∀ e ∈ doneBetween s s', InPlace sites e
  tidy : PathKeeps (fun w => Tidy w.fs) s.world (doneBetween s s')
  fits : PathFits s.world (doneBetween s s')

theorem baseline_inPlace {env : Env} {c : ClientCfg} {s : St} (allow audit : Bool) (hs : Sites c env.cwd sites s.world.fs)
    (hh : ∀ t ∈ s.hashes, HashType t) (hk : ListsKeyed env.sources)
    (hlist : ∀ src, (findResourceList env.sources c.disc).2 = .ok src → ∀ u r, (u, r) ∈ src → Placed sites u) :
    RunsInPlace sites s (baselineOrAudit env c allow audit s).1 where
  inPlace e he := by
    obtain ⟨-, s1, src, cmp, dst, hpl, -, he⟩ := (baseline_did env c allow audit s).done e he
    have pf := planFacts hk hs.proper hpl
    obtain ⟨dst', k1, k2⟩ := hs.scan env.lib (leftHashes s src) (fun t ht => hh t (leftHashes_sub ht))
    have hdst : dst' = dst := by
      have := hpl.scan
      rw [k1] at this
      cases this; rfl
    subst hdst
    refine syncEff_inPlace hs ?_ ?_ he
    · intro r hr
      exact hlist src hpl.found _ _ (mem_of_dget (plan_upd_source pf hr))
    · intro r hr
      obtain ⟨e1, -⟩ := (pf.cmp.deleted _ _).mp ((mem_iterList pf.cmp.wf.deleted).mp hr)
      obtain ⟨p, hp, names, b, t, hne, hf, hu, -⟩ := (k2 _ _).mp e1
      exact ⟨p, hp, names, hne, names_of_file hs.tidy hne hf, hu⟩
  tidy := (kept_done (kept_baseline (P := fun _ _ => True) (Q := fun _ => True) env c allow audit s hs.cwdNames (fun _ _ _ _ _ _ _ => trivial)
    ⟨⟨hs.tidy, fun _ _ _ _ => trivial⟩, trivial⟩ hk (fun src _ hf hm _ hfn => placed_tidy hs (hlist src hf _ _ hm) hfn))).mono
      (fun _ h => h.1.tidy)
  fits := doable_done (doable_baseline env c allow audit s)

theorem incremental_inPlace {env : Env} {c : ClientCfg} {s : St} (allow : Bool) (uri fd : Option Str) (hs : Sites c env.cwd sites s.world.fs)
    (hlist : ∀ uri cl, env.changeList uri = some cl → ∀ r ∈ cl, Placed sites r.uri) :
    RunsInPlace sites s (incremental env c allow uri fd s).1 where
  inPlace e he := by
    obtain ⟨s1, cl, t0, clUri, raw, kept, last, hpl, he⟩ := (incremental_did env c allow uri fd s).done e he
    have hin : ∀ r ∈ cl, Placed sites r.uri := fun r hr => hlist clUri raw hpl.read r (lastChange_mem (planned_last hpl hr)).1
    refine syncEff_inPlace hs ?_ ?_ he
    · intro r hr
      exact hin r (List.mem_of_mem_filter hr)
    · intro r hr
      exact hin r (List.mem_of_mem_filter hr)
  tidy := (kept_done (kept_incremental (P := fun _ _ => True) (Q := fun _ => True) env c allow uri fd s hs.cwdNames (fun _ _ _ _ _ _ _ => trivial)
    ⟨⟨hs.tidy, fun _ _ _ _ => trivial⟩, trivial⟩ (fun clUri cl r hf hm _ hfn => placed_tidy hs (hlist clUri cl hf r hm) hfn))).mono
      (fun _ h => h.1.tidy)
  fits := doable_done (doable_incremental env c allow uri fd s)

theorem RunsInPlace.links {s s' : St} (h : RunsInPlace sites s s') {x x' : RealFs} (hx : Shows sites x s.world.fs) (k : Nat)
    (hp : Performs x ((doneBetween s s').take k) x') :
    OutsideSame sites x x' ∧ Shows sites x' (((doneBetween s s').take k).foldl World.apply s.world).fs := by
  have hin : ∀ e ∈ (doneBetween s s').take k, InPlace sites e := fun e he => h.inPlace e (List.mem_of_mem_take he)
  exact ⟨performs_outside hp hx.noLinks hin, performs_shows hp hx hin (h.tidy.take k) (h.fits.take k)⟩

/-- C108, the part that holds, for a baseline sync (or an audit).  Sites mapped to directories of their own, to which all listed URIs
belong; a file system in which there may be symbolic links, leading anywhere, but not in the destination directories or on the way to them,
and which otherwise shows there what the client sees.  At every moment of the run nothing outside the destinations has changed, except that
directories on the way to them have been made; and in the destinations there is what the model of the client says.
Missing: with a link in a destination directory, files outside are overwritten (C108_violated). -/
theorem C108_baseline_partial (env : Env) (c : ClientCfg) (allow_deletion audit_only : Bool) (s : St)
    (hs : Sites c env.cwd sites s.world.fs) (hh : ∀ t ∈ s.hashes, HashType t) (hk : ListsKeyed env.sources)
    (hlist : ∀ src, (findResourceList env.sources c.disc).2 = .ok src → ∀ u r, (u, r) ∈ src → Placed sites u)
    (x : RealFs) (hx : Shows sites x s.world.fs) (k : Nat) (x' : RealFs)
    (hdone : Performs x ((doneBetween s (baselineOrAudit env c allow_deletion audit_only s).1).take k) x') :
    (∀ l, (∀ p ∈ sites, ¬ Within p.2 l) → x' l = x l ∨ x l = none ∧ x' l = some .dir ∧ ∃ p ∈ sites, l <+: p.2) ∧
    Shows sites x' (((doneBetween s (baselineOrAudit env c allow_deletion audit_only s).1).take k).foldl World.apply s.world).fs :=
  (baseline_inPlace allow_deletion audit_only hs hh hk hlist).links hx k hdone

/-- C108, the part that holds, for an incremental sync with change lists about files that have their places in the destinations -/
theorem C108_incremental_partial (env : Env) (c : ClientCfg) (allow_deletion : Bool) (change_list_uri from_datetime : Option Str) (s : St)
    (hs : Sites c env.cwd sites s.world.fs) (hlist : ∀ uri cl, env.changeList uri = some cl → ∀ r ∈ cl, Placed sites r.uri)
    (x : RealFs) (hx : Shows sites x s.world.fs) (k : Nat) (x' : RealFs)
    (hdone : Performs x ((doneBetween s (incremental env c allow_deletion change_list_uri from_datetime s).1).take k) x') :
    (∀ l, (∀ p ∈ sites, ¬ Within p.2 l) → x' l = x l ∨ x l = none ∧ x' l = some .dir ∧ ∃ p ∈ sites, l <+: p.2) ∧
    Shows sites x'
      (((doneBetween s (incremental env c allow_deletion change_list_uri from_datetime s).1).take k).foldl World.apply s.world).fs :=
  (incremental_inPlace allow_deletion change_list_uri from_datetime hs hlist).links hx k hdone

/-- C108 when the destinations themselves are reached through links, or not: `real` tells where they are.  Nothing outside the real
destinations changes, at any moment, and what is in them is what the model of the client says. -/
theorem C108_baseline_behind_partial (real : Loc → Loc) (env : Env) (c : ClientCfg) (allow_deletion audit_only : Bool) (s : St)
    (hs : Sites c env.cwd sites s.world.fs) (hh : ∀ t ∈ s.hashes, HashType t) (hk : ListsKeyed env.sources)
    (hlist : ∀ src, (findResourceList env.sources c.disc).2 = .ok src → ∀ u r, (u, r) ∈ src → Placed sites u)
    (x : RealFs) (hx : Behind sites real x s.world.fs) (k : Nat) (x' : RealFs)
    (hdone : Performs x ((doneBetween s (baselineOrAudit env c allow_deletion audit_only s).1).take k) x') :
    (∀ l, (∀ p ∈ sites, ¬ Within (real p.2) l) → x' l = x l) ∧
    ∀ p ∈ sites, ∀ names, names ≠ [] → x' (real p.2 ++ names) =
      ((((doneBetween s (baselineOrAudit env c allow_deletion audit_only s).1).take k).foldl World.apply s.world).fs.get (p.2 ++ names)).map realNode := by
  have h := baseline_inPlace allow_deletion audit_only hs hh hk hlist
  obtain ⟨h1, h2⟩ := performs_behind (fun p hp q hq a b e => (hs.loc_inj hq hp e).1) hdone hx
    (fun e he => h.inPlace e (List.mem_of_mem_take he)) (h.tidy.take k) (h.fits.take k)
  exact ⟨h2, h1.same⟩

/-- the same for an incremental sync -/
theorem C108_incremental_behind_partial (real : Loc → Loc) (env : Env) (c : ClientCfg) (allow_deletion : Bool)
    (change_list_uri from_datetime : Option Str) (s : St)
    (hs : Sites c env.cwd sites s.world.fs) (hlist : ∀ uri cl, env.changeList uri = some cl → ∀ r ∈ cl, Placed sites r.uri)
    (x : RealFs) (hx : Behind sites real x s.world.fs) (k : Nat) (x' : RealFs)
    (hdone : Performs x ((doneBetween s (incremental env c allow_deletion change_list_uri from_datetime s).1).take k) x') :
    (∀ l, (∀ p ∈ sites, ¬ Within (real p.2) l) → x' l = x l) ∧
    ∀ p ∈ sites, ∀ names, names ≠ [] → x' (real p.2 ++ names) =
      ((((doneBetween s (incremental env c allow_deletion change_list_uri from_datetime s).1).take k).foldl World.apply s.world).fs.get
        (p.2 ++ names)).map realNode := by
  have h := incremental_inPlace allow_deletion change_list_uri from_datetime hs hlist
  obtain ⟨h1, h2⟩ := performs_behind (fun p hp q hq a b e => (hs.loc_inj hq hp e).1) hdone hx
    (fun e he => h.inPlace e (List.mem_of_mem_take he)) (h.tidy.take k) (h.fits.take k)
  exact ⟨h2, h1.same⟩

/-- something is always performed, whatever links there are -/
theorem C108_performed (x : RealFs) (es : List Effect) : ∃ x', Performs x es x' := performs_exists es x

namespace ClientExample

/-- /d, with a link /d/a to /e/f -/
def linked : RealFs := fun l =>
  if l = ["d".toList] ∨ l = ["e".toList] then some .dir
  else if l = at_ "a" then some (.link "/e/f".toList)
  else if l = ["e".toList, "f".toList] then some (.file [9] 50)
  else none

/-- what a scan sees of it: a regular file behind a link -/
def linkedDisk : Disk where
  resolve p := if p = "/d".toList then some (.dir "d".toList true [.link "a".toList false (some (fileStat [9] 50))]) else none
  islink _ := false

def outside : Loc := ["e".toList, "f".toList]

theorem linked_leads {x : RealFs} (h1 : x ["d".toList] = some .dir) (h2 : x (at_ "a") = some (.link "/e/f".toList)) (h3 : x ["e".toList] = some .dir)
    {c : Bytes} {m : Rat} (h4 : x outside = some (.file c m)) : Leads x true [] (at_ "a") outside := by
  refine .dir (by decide) (by decide) h1 ?_
  refine .link (target := "/e/f".toList) (by decide) (by decide) h2 (.inr rfl) ?_
  have e : (if ("/e/f".toList).head? = some '/' then ([] : Loc) else [] ++ ["d".toList]) = [] := by decide
  have e2 : pathParts "/e/f".toList ++ [] = outside := by decide
  rw [e, e2]
  refine .dir (by decide) (by decide) h3 ?_
  refine .last (by decide) (by decide) ?_ ?_
  · show x outside ≠ _
    rw [h4]; simp
  · intro t ht
    have : x outside = some (.link t) := ht
    rw [h4] at this; cases this

theorem linked_put (c : Bytes) (m : Rat) : Leads (linked.put outside (some (.file c m))) true [] (at_ "a") outside :=
  linked_leads (c := c) (m := m) ((if_neg (by decide)).trans (by decide)) ((if_neg (by decide)).trans (by decide)) ((if_neg (by decide)).trans (by decide))
    (by simp [RealFs.put])

theorem put_put (x : RealFs) (l : Loc) (a b : Option RealNode) : (x.put l a).put l b = x.put l b := by
  funext k
  unfold RealFs.put
  split <;> rfl

/-- C108 fails when there is a link in the destination directory.  In /d there is a link `a` to the file /e/f.  The scan passes over the
link: the client sees an empty directory, so it fetches http://s/a to /d/a; open() follows the link, and it is /e/f, not in the
destination, that is overwritten.  The sync is reported to have succeeded. -/
theorem C108_violated :
    let r := baselineOrAudit (env [res "a" 100] [] [1, 2]) cfg false false (start [])
    (∃ m, (Builder.new cfg.disc.mapper (some []) true false).fromDisk exLib linkedDisk = .ok m ∧
      (Builder.new cfg.disc.mapper (some []) true false).fromDisk exLib ((start []).world.fs.disk []) = .ok m) ∧
    r.2 = .ok () ∧
    ∃ x', Performs linked (doneBetween (start []) r.1) x' ∧ linked outside = some (.file [9] 50) ∧ x' outside = some (.file [1, 2] 100) ∧ x' (at_ "a") = some (.link "/e/f".toList) := by
  have hdone : ∃ text, doneBetween (start []) (baselineOrAudit (env [res "a" 100] [] [1, 2]) cfg false false (start [])).1 =
      [.get (uri "a"), .trunc (at_ "a") 1000, .append (at_ "a") [1, 2], .utime (at_ "a") 100, .setState text] := by
    refine ⟨((baselineOrAudit (env [res "a" 100] [] [1, 2]) cfg false false (start [])).1.world.state).getD [], ?_⟩
    unfold doneBetween
    decide +kernel
  refine ⟨⟨[], by decide +kernel, by decide +kernel⟩, by decide +kernel, ?_⟩
  obtain ⟨text, hdone⟩ := hdone
  refine ⟨linked.put outside (some (.file [1, 2] 100)), ?_, by decide, by simp [RealFs.put], by decide⟩
  rw [hdone]
  refine .fails (fun y h => by cases h) ?_
  refine .acts (.trunc (k := outside) (linked_leads (c := [9]) (m := 50) (by decide) (by decide) (by decide) (by decide)) 1000 (c := [9]) (m := 50) (by decide) (by decide)) ?_
  refine .acts (.append (k := outside) (linked_put [] 1000) [1, 2] (c := []) (m := 1000) (by simp [RealFs.put]) (by decide)) ?_
  rw [put_put]
  refine .acts (.utime (k := outside) (linked_put _ 1000) 100 (c := [1, 2]) (m := 1000) (by simp [RealFs.put]) (by decide)) ?_
  rw [put_put]
  exact .fails (fun y h => by cases h) (.done _)

/-- /d is a link to the directory /m/d, in which there is a file c -/
def mounted : RealFs := fun l =>
  if l = ["d".toList] then some (.link "m/d".toList)
  else if l = ["m".toList] ∨ l = ["m".toList, "d".toList] then some .dir
  else if l = ["m".toList, "d".toList, "c".toList] then some (.file [7] 50)
  else none

theorem mounted_behind : Behind [(⟨base, "/d".toList⟩, ["d".toList])] (fun _ => ["m".toList, "d".toList]) mounted (start ["c"]).world.fs where
  leads p hp := by
    rw [List.mem_singleton] at hp
    subst hp
    refine .link (target := "m/d".toList) (by decide) (by decide) (by decide) (.inr rfl) ?_
    have e : (if ("m/d".toList).head? = some '/' then ([] : Loc) else []) = [] := by decide
    have e2 : pathParts "m/d".toList ++ [] = ["m".toList, "d".toList] := by decide
    rw [e, e2]
    exact .dir (by decide) (by decide) (by decide) (.dir (by decide) (by decide) (by decide) (.done _))
  dirs _ _ := .inr (by decide)
  seen p hp := by
    rw [List.mem_singleton] at hp
    subst hp
    decide
  apart := List.pairwise_singleton _ _
  same p hp names hne := by
    rw [List.mem_singleton] at hp
    subst hp
    by_cases h : names = ["c".toList]
    · subst h; decide
    · have h1 : (start ["c"]).world.fs.get (["d".toList] ++ names) = none := by
        cases hg : (start ["c"]).world.fs.get (["d".toList] ++ names) with
        | none => rfl
        | some n =>
          have hm := mem_of_get (by simp) hg
          simp only [start, disk, at_, List.map_cons, List.map_nil, List.mem_cons, Prod.mk.injEq, List.cons_append, List.nil_append, List.cons.injEq,
            true_and, List.not_mem_nil, or_false] at hm
          rcases hm with hm | hm
          · exact absurd hm.1 hne
          · exact absurd hm.1 h
      show mounted (["m".toList, "d".toList] ++ names) = _
      rw [h1]
      unfold mounted
      rw [if_neg, if_neg, if_neg]
      · rfl
      · simpa using h
      · rintro (h | h)
        · simp at h
        · simp at h; exact hne h
      · simp

/-- the hypotheses of C108_baseline_behind_partial are met by it: whatever is done with the system calls of a sync that fetches a file and
deletes another -/
example (k : Nat) (x' : RealFs)
    (h : Performs mounted ((doneBetween (start ["c"]) (baselineOrAudit (env [res "a" 100] [] [1, 2]) cfg true false (start ["c"])).1).take k) x') :
    x' ["d".toList] = some (.link "m/d".toList) ∧ ∀ l, ¬ ["m".toList, "d".toList] <+: l → x' l = mounted l := by
  have := C108_baseline_behind_partial (sites := [(⟨base, "/d".toList⟩, ["d".toList])]) (fun _ => ["m".toList, "d".toList])
    (env [res "a" 100] [] [1, 2]) cfg true false (start ["c"])
    (site ["c"] (properFs_of (by decide) (by decide) (by decide) (by decide)) (by decide)).sites (by simp [start]) (env_keyed _ _ _ (by decide)) ?_
    mounted mounted_behind k x' h
  · have hout : ∀ l, ¬ ["m".toList, "d".toList] <+: l → x' l = mounted l := fun l hl => this.1 l (fun p _ => hl)
    exact ⟨(hout _ (by decide)).trans (by decide), hout⟩
  · intro src hf u r hr
    rw [env_found (by decide +kernel) hf] at hr
    simp only [listOf, List.map_cons, List.map_nil, List.mem_cons, Prod.mk.injEq, List.not_mem_nil, or_false] at hr
    obtain ⟨rfl, -⟩ := hr
    exact ⟨_, List.mem_singleton.mpr rfl, ["a".toList], by decide, plain (by decide), by decide +kernel⟩

/-- what is done in it: five system calls, and what they leave -/
example : (doneBetween (start ["c"]) (baselineOrAudit (env [res "a" 100] [] [1, 2]) cfg true false (start ["c"])).1).take 5 =
    [.get (uri "a"), .trunc (at_ "a") 1000, .append (at_ "a") [1, 2], .utime (at_ "a") 100, .unlink (at_ "c")] := by
  unfold doneBetween
  decide +kernel

/-- /d is a directory with a file c; /e is a link that leads into it -/
def besides : RealFs := fun l =>
  if l = ["d".toList] then some .dir
  else if l = ["e".toList] then some (.link "d/c".toList)
  else if l = at_ "c" then some (.file [7] 50)
  else none

theorem besides_shows : Shows [(⟨base, "/d".toList⟩, ["d".toList])] besides (start ["c"]).world.fs := by
  rintro l h0 ⟨p, hp, hl⟩
  rw [List.mem_singleton] at hp
  subst hp
  have hd : ∃ t, l = "d".toList :: t := by
    rcases hl with ⟨t, h⟩ | ⟨t, h⟩
    · cases l with
      | nil => exact absurd rfl h0
      | cons a l =>
        simp only [List.cons_append, List.cons.injEq, List.append_eq_nil_iff] at h
        exact ⟨[], by rw [h.1, h.2.1]⟩
    · exact ⟨t, by rw [← h]; rfl⟩
  obtain ⟨t, rfl⟩ := hd
  by_cases h1 : t = []
  · subst h1; decide
  · by_cases h2 : t = ["c".toList]
    · subst h2; decide
    · have hn : (start ["c"]).world.fs.get ("d".toList :: t) = none := by
        cases hg : (start ["c"]).world.fs.get ("d".toList :: t) with
        | none => rfl
        | some n =>
          have hm := mem_of_get (by simp) hg
          simp only [start, disk, at_, List.map_cons, List.map_nil, List.mem_cons, Prod.mk.injEq, List.cons.injEq,
            true_and, List.not_mem_nil, or_false] at hm
          rcases hm with hm | hm
          · exact absurd hm.1 h1
          · exact absurd hm.1 h2
      rw [hn]
      unfold besides
      rw [if_neg, if_neg, if_neg]
      · rfl
      · simpa [at_] using h2
      · intro h
        have := (List.cons.inj h).1
        exact absurd this (by decide)
      · simpa using h1

/-- the hypotheses of C108_baseline_partial are met by it -/
example (k : Nat) (x' : RealFs)
    (h : Performs besides ((doneBetween (start ["c"]) (baselineOrAudit (env [res "a" 100] [] [1, 2]) cfg true false (start ["c"])).1).take k) x') :
    x' ["e".toList] = some (.link "d/c".toList) := by
  have := C108_baseline_partial (sites := [(⟨base, "/d".toList⟩, ["d".toList])])
    (env [res "a" 100] [] [1, 2]) cfg true false (start ["c"])
    (site ["c"] (properFs_of (by decide) (by decide) (by decide) (by decide)) (by decide)).sites (by simp [start]) (env_keyed _ _ _ (by decide)) ?_
    besides besides_shows k x' h
  · rcases this.1 ["e".toList] (by unfold Within; decide) with h | ⟨h, -⟩
    · exact h.trans (by decide)
    · exact absurd h (by decide)
  · intro src hf u r hr
    rw [env_found (by decide +kernel) hf] at hr
    simp only [listOf, List.map_cons, List.map_nil, List.mem_cons, Prod.mk.injEq, List.not_mem_nil, or_false] at hr
    obtain ⟨rfl, -⟩ := hr
    exact ⟨_, List.mem_singleton.mpr rfl, ["a".toList], by decide, plain (by decide), by decide +kernel⟩

/-- a change list: a is created, c deleted -/
def twoChanges : List Resource := [{ res "a" 100 with change := some sCreated, ts_datetime := some 100 },
  { res "c" 110 with change := some sDeleted, ts_datetime := some 110 }]

theorem changes_placed : ∀ u cl, (env [] twoChanges [1, 2]).changeList u = some cl → ∀ r ∈ cl, Placed [(⟨base, "/d".toList⟩, ["d".toList])] r.uri := by
  intro u cl h r hr
  simp only [env] at h
  split at h
  · cases h
    simp only [twoChanges, List.mem_cons, List.not_mem_nil, or_false] at hr
    rcases hr with rfl | rfl
    · exact ⟨_, List.mem_singleton.mpr rfl, ["a".toList], by decide, plain (by decide), by decide +kernel⟩
    · exact ⟨_, List.mem_singleton.mpr rfl, ["c".toList], by decide, plain (by decide), by decide +kernel⟩
  · cases h

/-- the hypotheses of C108_incremental_partial and C108_incremental_behind_partial are met -/
example (k : Nat) (x' : RealFs)
    (h : Performs besides ((doneBetween (start ["c"])
      (incremental (env [] twoChanges [1, 2]) cfg true none (some "1970-01-01T00:00:00Z".toList) (start ["c"])).1).take k) x') :
    x' ["e".toList] = some (.link "d/c".toList) := by
  have := C108_incremental_partial (sites := [(⟨base, "/d".toList⟩, ["d".toList])]) (env [] twoChanges [1, 2]) cfg true none _ (start ["c"])
    (site ["c"] (properFs_of (by decide) (by decide) (by decide) (by decide)) (by decide)).sites changes_placed besides besides_shows k x' h
  rcases this.1 ["e".toList] (by unfold Within; decide) with h | ⟨h, -⟩
  · exact h.trans (by decide)
  · exact absurd h (by decide)

example (k : Nat) (x' : RealFs)
    (h : Performs mounted ((doneBetween (start ["c"])
      (incremental (env [] twoChanges [1, 2]) cfg true none (some "1970-01-01T00:00:00Z".toList) (start ["c"])).1).take k) x') :
    x' ["d".toList] = some (.link "m/d".toList) := by
  have := C108_incremental_behind_partial (sites := [(⟨base, "/d".toList⟩, ["d".toList])]) (fun _ => ["m".toList, "d".toList])
    (env [] twoChanges [1, 2]) cfg true none _ (start ["c"])
    (site ["c"] (properFs_of (by decide) (by decide) (by decide) (by decide)) (by decide)).sites changes_placed mounted mounted_behind k x' h
  exact (this.1 ["d".toList] (by unfold Within; decide)).trans (by decide)

/-- what is done in them -/
example : (doneBetween (start ["c"])
      (incremental (env [] twoChanges [1, 2]) cfg true none (some "1970-01-01T00:00:00Z".toList) (start ["c"])).1).take 5 =
    [.get (uri "a"), .trunc (at_ "a") 1000, .append (at_ "a") [1, 2], .utime (at_ "a") 100, .unlink (at_ "c")] := by
  unfold doneBetween
  decide +kernel

end ClientExample
end Resync
