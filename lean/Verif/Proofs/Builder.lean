import Verif.Model.Builder
import Verif.Spec.Disk
import Verif.Props.Hashes
import Verif.Proofs.Dump
import Verif.Proofs.Mapper

namespace Resync
open Py Resync.Spec

/-! ### os.walk -/

/-- the files of a directory, with no directory names -/
def filesN (cs : List FNode) : List (List Str × FNode) :=
  (cs.filter (fun n => !n.isDirEntry)).map (fun n => ([], n))

mutual
/-- the walk with the names of the directories instead of their paths -/
def FNode.subN (ex : Str → Bool) : FNode → List (List Str × FNode)
  | .dir name readable cs =>
    if ex name then []
    else if readable then (filesN cs ++ subsN ex cs).map (fun x => (name :: x.1, x.2))
    else []
  | .file .. => []
  | .link .. => []

def subsN (ex : Str → Bool) : List FNode → List (List Str × FNode)
  | [] => []
  | n :: t => n.subN ex ++ subsN ex t
end

def walkN (ex : Str → Bool) (cs : List FNode) : List (List Str × FNode) := filesN cs ++ subsN ex cs

theorem filesIn_eq (path : Str) (cs : List FNode) :
    filesIn path cs = (filesN cs).map (fun x => (x.1.foldl pathJoin path, x.2)) := by
  simp [filesIn, filesN, Function.comp_def]

mutual
theorem walkSub_eq (ex : Str → Bool) (n : FNode) : ∀ path : Str,
    n.walkSub ex path = (n.subN ex).map (fun x => (x.1.foldl pathJoin path, x.2)) := by
  intro path
  match n with
  | .file .. => simp [FNode.walkSub, FNode.subN]
  | .link .. => simp [FNode.walkSub, FNode.subN]
  | .dir name readable cs =>
    simp only [FNode.walkSub, FNode.subN]
    by_cases h1 : ex name = true
    · simp [h1]
    · by_cases h2 : readable = true
      · rw [if_neg h1, if_pos h2, if_neg h1, if_pos h2, filesIn_eq, walkSubs_eq ex cs]
        simp [Function.comp_def]
      · simp [h1, h2]

theorem walkSubs_eq (ex : Str → Bool) (cs : List FNode) : ∀ path : Str,
    walkSubs ex path cs = (subsN ex cs).map (fun x => (x.1.foldl pathJoin path, x.2)) := by
  intro path
  match cs with
  | [] => simp [walkSubs, subsN]
  | n :: t =>
    simp only [walkSubs, subsN, List.map_append]
    rw [walkSub_eq ex n, walkSubs_eq ex t]
end

theorem walk_eq (ex : Str → Bool) (path : Str) (cs : List FNode) :
    walk ex path cs = (walkN ex cs).map (fun x => (x.1.foldl pathJoin path, x.2)) := by
  rw [walk, walkN, List.map_append, filesIn_eq, walkSubs_eq]

theorem subsN_flatMap (ex : Str → Bool) (cs : List FNode) : subsN ex cs = cs.flatMap (FNode.subN ex) := by
  induction cs with
  | nil => simp [subsN]
  | cons n t ih => simp [subsN, ih]

theorem mem_filesN {cs : List FNode} {x : List Str × FNode} :
    x ∈ filesN cs ↔ x.1 = [] ∧ x.2 ∈ cs ∧ x.2.isDirEntry = false := by
  obtain ⟨ds, n⟩ := x
  simp only [filesN, List.mem_map, List.mem_filter, Prod.mk.injEq]
  constructor
  · rintro ⟨m, ⟨h1, h2⟩, rfl, rfl⟩; exact ⟨rfl, h1, by simpa using h2⟩
  · rintro ⟨rfl, h1, h2⟩; exact ⟨n, ⟨h1, by simpa using h2⟩, rfl, rfl⟩

/-- what the walk meets -/
structure Met (ex : Str → Bool) (cs : List FNode) (x : List Str × FNode) : Prop where
  reach : Reach cs (x.1 ++ [x.2.name]) x.2
  entry : x.2.isDirEntry = false
  dirs : ∀ c ∈ x.1, ex c = false

mutual
theorem subN_met (ex : Str → Bool) (n : FNode) : ∀ x ∈ n.subN ex, ∃ name ds cs, n = .dir name true cs ∧
    x.1 = name :: ds ∧ ex name = false ∧ Met ex cs (ds, x.2) := by
  intro x hx
  match n with
  | .file .. => simp [FNode.subN] at hx
  | .link .. => simp [FNode.subN] at hx
  | .dir name readable cs =>
    simp only [FNode.subN] at hx
    by_cases h1 : ex name = true
    · rw [if_pos h1] at hx; simp at hx
    · by_cases h2 : readable = true
      · rw [if_neg h1, if_pos h2] at hx
        obtain ⟨y, hy, rfl⟩ := List.mem_map.mp hx
        subst h2
        refine ⟨name, y.1, cs, rfl, rfl, by simpa using h1, ?_⟩
        rcases List.mem_append.mp hy with hy | hy
        · obtain ⟨e1, e2, e3⟩ := mem_filesN.mp hy
          refine ⟨?_, e3, ?_⟩
          · show Reach cs (y.1 ++ _) _
            rw [e1]; exact .here e2
          · show ∀ c ∈ y.1, _
            rw [e1]; simp
        · exact subsN_met ex cs y hy
      · rw [if_neg h1, if_neg h2] at hx; simp at hx

theorem subsN_met (ex : Str → Bool) (cs : List FNode) : ∀ x ∈ subsN ex cs, Met ex cs x := by
  intro x hx
  match cs with
  | [] => simp [subsN] at hx
  | n :: t =>
    simp only [subsN, List.mem_append] at hx
    rcases hx with hx | hx
    · obtain ⟨name, ds, cs', e1, e2, e3, e4⟩ := subN_met ex n x hx
      refine ⟨?_, e4.entry, ?_⟩
      · rw [e2, List.cons_append, e1]
        exact .sub (List.mem_cons_self ..) e4.reach
      · intro c hc
        rw [e2] at hc
        rcases List.mem_cons.mp hc with rfl | hc
        · exact e3
        · exact e4.dirs c hc
    · have := subsN_met ex t x hx
      refine ⟨?_, this.entry, this.dirs⟩
      have hr := this.reach
      generalize x.1 ++ [x.2.name] = names at hr
      cases hr with
      | here h => exact .here (List.mem_cons_of_mem _ h)
      | sub h1 h2 => exact .sub (List.mem_cons_of_mem _ h1) h2
end

theorem reach_ne_nil {cs : List FNode} {names : List Str} {n : FNode} (h : Reach cs names n) : names ≠ [] := by
  cases h <;> simp

theorem walkN_complete {ex : Str → Bool} {cs : List FNode} {names : List Str} {n : FNode} (hr : Reach cs names n)
    (h2 : n.isDirEntry = false) : ∀ ds, names = ds ++ [n.name] → (∀ c ∈ ds, ex c = false) → (ds, n) ∈ walkN ex cs := by
  induction hr with
  | @here cs n hn =>
    intro ds e _
    have : ds = [] := by
      have := congrArg List.length e
      simp at this
      exact this
    subst this
    exact List.mem_append_left _ (mem_filesN.mpr ⟨rfl, hn, h2⟩)
  | @sub cs cs' name names n hd hr ih =>
    intro ds e hex
    cases ds with
    | nil =>
      simp only [List.nil_append, List.cons.injEq] at e
      exact absurd e.2 (reach_ne_nil hr)
    | cons d ds =>
      simp only [List.cons_append, List.cons.injEq] at e
      obtain ⟨rfl, e⟩ := e
      have := ih h2 ds e (fun c hc => hex c (by simp [hc]))
      refine List.mem_append_right _ ?_
      rw [subsN_flatMap, List.mem_flatMap]
      refine ⟨_, hd, ?_⟩
      simp only [FNode.subN]
      rw [if_neg (by simp [hex name (by simp)]), if_pos trivial]
      exact List.mem_map.mpr ⟨(ds, n), this, rfl⟩

theorem mem_walkN {ex : Str → Bool} {cs : List FNode} {x : List Str × FNode} :
    x ∈ walkN ex cs ↔ Met ex cs x := by
  constructor
  · intro h
    rcases List.mem_append.mp h with h | h
    · obtain ⟨e1, e2, e3⟩ := mem_filesN.mp h
      exact ⟨by rw [e1]; exact .here e2, e3, by rw [e1]; simp⟩
    · exact subsN_met ex cs x h
  · rintro ⟨h1, h2, h3⟩
    obtain ⟨ds, n⟩ := x
    exact walkN_complete h1 h2 ds rfl h3

theorem reach_names {cs : List FNode} {names : List Str} {n : FNode} (hcs : RealDir cs) (h : Reach cs names n) :
    ∀ c ∈ names, c ≠ [] ∧ '/' ∉ c := by
  induction h with
  | here hn =>
    obtain ⟨-, h2, -⟩ := hcs
    intro c hc
    rw [List.mem_singleton.mp hc]; exact h2 _ hn
  | sub hd _ ih =>
    obtain ⟨-, h2, h3⟩ := hcs
    intro c hc
    rcases List.mem_cons.mp hc with rfl | hc
    · exact h2 _ hd
    · exact ih (h3 _ _ _ hd) c hc

/-- the names leading to a met file -/
def namesOf (x : List Str × FNode) : List Str := x.1 ++ [x.2.name]

theorem walkN_nodup (ex : Str → Bool) {cs : List FNode} (h : RealDir cs) :
    ((walkN ex cs).map namesOf).Nodup := by
  induction h with
  | @mk cs h1 h2 h3 ih =>
    rw [walkN, List.map_append, List.nodup_append]
    refine ⟨?_, ?_, ?_⟩
    · have : (filesN cs).map namesOf = (cs.filter (fun n => !n.isDirEntry)).map (fun n => [n.name]) := by
        simp [filesN, namesOf, Function.comp_def]
      rw [this]
      have hs : ((cs.filter (fun n => !n.isDirEntry)).map FNode.name).Nodup :=
        h1.sublist (List.Sublist.map _ List.filter_sublist)
      have : (cs.filter (fun n => !n.isDirEntry)).map (fun n => [n.name]) =
          ((cs.filter (fun n => !n.isDirEntry)).map FNode.name).map (fun s => [s]) := by simp [Function.comp_def]
      rw [this]
      exact hs.map (fun a b e => by simpa using e)
    · rw [subsN_flatMap, List.map_flatMap, List.nodup_flatMap]
      refine ⟨?_, ?_⟩
      · intro n hn
        cases n with
        | file => simp [FNode.subN]
        | link => simp [FNode.subN]
        | dir name r ds =>
          simp only [FNode.subN]
          split
          · simp
          · split
            · have := ih name r ds hn
              rw [List.map_map]
              have e : (fun x => namesOf x) ∘ (fun x : List Str × FNode => (name :: x.1, x.2)) =
                  (fun l => name :: l) ∘ namesOf := by
                funext x; simp [namesOf]
              rw [show (namesOf ∘ fun x : List Str × FNode => (name :: x.1, x.2)) = _ from e, ← List.map_map]
              exact this.map (fun a b e => by simpa using e)
            · simp
      · have hp : cs.Pairwise (fun a b => a.name ≠ b.name) := by
          have := h1; rw [List.Nodup, List.pairwise_map] at this; exact this
        refine hp.imp ?_
        intro a b hab
        have hd : ∀ (n : FNode) (l : List Str), l ∈ (n.subN ex).map namesOf → l.head? = some n.name := by
          intro n l hl
          obtain ⟨x, hx, rfl⟩ := List.mem_map.mp hl
          obtain ⟨name, ds, cs', rfl, e2, -, -⟩ := subN_met ex n x hx
          simp [namesOf, e2, FNode.name]
        intro l hl1 hl2
        have e1 := hd a l hl1
        have e2 := hd b l hl2
        rw [e1] at e2
        exact hab (Option.some.inj e2)
    · intro a ha b hb
      obtain ⟨x, hx, rfl⟩ := List.mem_map.mp ha
      obtain ⟨y, hy, rfl⟩ := List.mem_map.mp hb
      intro e
      obtain ⟨e1, -, -⟩ := mem_filesN.mp hx
      rw [subsN_flatMap, List.mem_flatMap] at hy
      obtain ⟨n, -, hy⟩ := hy
      obtain ⟨name, ds, cs', -, e2, -, -⟩ := subN_met ex n y hy
      have := congrArg List.length e
      simp [namesOf, e1, e2] at this

/-! ### add_file -/

theorem new_content {hs : List Str} {c : Option Bytes} {o : HashObj} (h : HashObj.new hs (some c) = .ok o) :
    ∃ content, c = some content := by
  cases c with
  | some x => exact ⟨x, rfl⟩
  | none =>
    simp only [HashObj.new, bind_ok_iff] at h
    obtain ⟨_, _, h⟩ := h
    cases h

theorem fileResource_ok {b : Builder} {lib : HashLib} {uri file : Str} {st : Stat} {r : Resource}
    (h : b.fileResource lib uri file st = .ok r) : r = describes b lib uri file st := by
  unfold Builder.fileResource at h
  cases hh : b.set_hashes with
  | none =>
    rw [hh] at h
    simp only [Except.map, Except.ok.injEq] at h
    rw [← h]
    unfold describes
    rw [hh]
    cases b.set_path <;> cases b.set_length <;> rfl
  | some hs =>
    rw [hh] at h
    simp only at h
    cases hn : HashObj.new hs (some st.content) with
    | error e => rw [hn] at h; cases h
    | ok o =>
      rw [hn] at h
      obtain ⟨content, hc⟩ := new_content hn
      rw [hc] at hn
      simp only [Except.map, Except.ok.injEq] at h
      rw [← h, C65_set lib hs content _ o hn]
      unfold describes
      rw [hh, hc]
      simp only [decide_eq_true_eq, Option.map_some]
      cases b.set_path <;> cases b.set_length <;> rfl

/-- a file that contributes resource `r` -/
structure Contrib (b : Builder) (lib : HashLib) (f : Str × FNode) (r : Resource) : Prop where
  name : b.exclude f.2.name = false
  link : f.2.islink = true → b.include_symlinks = true
  ok : ∃ uri st, b.mapper.dstToSrc (pathJoin f.1 f.2.name) = .ok uri ∧ f.2.stat = some st ∧
    b.fileResource lib uri (pathJoin f.1 f.2.name) st = .ok r

theorem addFile_ok {b : Builder} {lib : HashLib} {rl rl' : Dict Resource} {f : Str × FNode}
    (h : b.addFile lib rl (some f.1) f.2.name f.2.islink f.2.stat = .ok rl') :
    ((∀ r, ¬ Contrib b lib f r) ∧ rl' = rl) ∨
    ∃ r, (∀ r', Contrib b lib f r' ↔ r' = r) ∧ dget rl r.uri = none ∧ rl' = dset rl r.uri r := by
  unfold Builder.addFile at h
  by_cases h1 : b.exclude f.2.name = true
  · rw [if_pos h1] at h; cases h
    exact .inl ⟨fun r hc => (by rw [hc.name] at h1; cases h1), rfl⟩
  · rw [if_neg h1] at h
    simp only at h
    by_cases h2 : f.2.islink = true ∧ ¬ b.include_symlinks = true
    · rw [if_pos h2] at h; cases h
      exact .inl ⟨fun r hc => h2.2 (hc.link h2.1), rfl⟩
    · rw [if_neg h2] at h
      cases h3 : b.mapper.dstToSrc (pathJoin f.1 f.2.name) with
      | error e => rw [h3] at h; cases h
      | ok uri =>
        rw [h3] at h
        simp only at h
        cases h4 : f.2.stat with
        | none =>
          rw [h4] at h; cases h
          refine .inl ⟨fun r hc => ?_, rfl⟩
          obtain ⟨u, st, -, hs, -⟩ := hc.ok
          rw [h4] at hs; cases hs
        | some st =>
          rw [h4] at h
          simp only at h
          cases h5 : b.fileResource lib uri (pathJoin f.1 f.2.name) st with
          | error e => rw [h5] at h; cases h
          | ok r =>
            rw [h5] at h
            simp only at h
            cases h6 : dictAdd rl r false with
            | error e => rw [h6] at h; cases h
            | ok d =>
              rw [h6] at h
              cases h
              obtain ⟨k1, k2⟩ := dictAdd_ok h6
              refine .inr ⟨r, ?_, k1, by rw [k2, dset_fresh r k1]⟩
              intro r'
              constructor
              · rintro ⟨-, -, u, st', e1, e2, e3⟩
                rw [h3] at e1; cases e1
                rw [h4] at e2; cases e2
                rw [h5] at e3; cases e3; rfl
              · rintro rfl
                exact ⟨by simpa using h1, fun hl => by by_contra hc; exact h2 ⟨hl, hc⟩, uri, st, h3, h4, h5⟩

theorem addAll_ok {b : Builder} {lib : HashLib} (fs : List (Str × FNode)) : ∀ {rl rl' : Dict Resource},
    b.addAll lib rl fs = .ok rl' →
    ∀ u r, dget rl' u = some r ↔ dget rl u = some r ∨ (r.uri = u ∧ ∃ f ∈ fs, Contrib b lib f r) := by
  induction fs with
  | nil =>
    intro rl rl' h u r
    simp only [Builder.addAll, List.foldlM_nil, epure, Except.ok.injEq] at h
    rw [h]; simp
  | cons f fs ih =>
    intro rl rl' h u r
    simp only [Builder.addAll, List.foldlM_cons, bind_ok_iff] at h
    obtain ⟨rl1, h1, h2⟩ := h
    rw [ih h2]
    rcases addFile_ok h1 with ⟨hn, rfl⟩ | ⟨x, hx, hfr, rfl⟩
    · constructor
      · rintro (h | ⟨e, g, hg, hc⟩)
        · exact .inl h
        · exact .inr ⟨e, g, by simp [hg], hc⟩
      · rintro (h | ⟨e, g, hg, hc⟩)
        · exact .inl h
        · rcases List.mem_cons.mp hg with rfl | hg
          · exact absurd hc (hn r)
          · exact .inr ⟨e, g, hg, hc⟩
    · constructor
      · rintro (h | ⟨e, g, hg, hc⟩)
        · by_cases eu : x.uri = u
          · subst eu; rw [dget_dset_self] at h; cases h
            exact .inr ⟨rfl, f, by simp, (hx _).mpr rfl⟩
          · rw [dget_dset_ne _ _ eu] at h; exact .inl h
        · exact .inr ⟨e, g, by simp [hg], hc⟩
      · rintro (h | ⟨e, g, hg, hc⟩)
        · left
          have eu : x.uri ≠ u := by rintro rfl; rw [hfr] at h; cases h
          rw [dget_dset_ne _ _ eu]; exact h
        · rcases List.mem_cons.mp hg with rfl | hg
          · left
            rw [(hx _).mp hc] at e ⊢
            rw [← e, dget_dset_self]
          · exact .inr ⟨e, g, hg, hc⟩

/-- everything os.walk meets from the start paths, which are directories -/
def scanned (b : Builder) (disk : Disk) (paths : List Str) : List (Str × FNode) :=
  paths.flatMap fun p => match disk.resolve p with
    | some (.dir _ true cs) => walk b.exclude p cs
    | _ => []

theorem fromDisk_dirs {b : Builder} {lib : HashLib} {disk : Disk} (paths : List Str) : ∀ (rl : Dict Resource),
    (∀ p ∈ paths, ∃ nm rd cs, disk.resolve p = some (.dir nm rd cs)) →
    b.fromDisk lib disk rl (some paths) = b.addAll lib rl (scanned b disk paths) := by
  unfold Builder.fromDisk
  simp only
  induction paths with
  | nil => intro rl _; rfl
  | cons p ps ih =>
    intro rl h
    obtain ⟨nm, rd, cs, hp⟩ := h p (by simp)
    have ih := fun rl => ih rl (fun q hq => h q (by simp [hq]))
    have hs : scanned b disk (p :: ps) = (if rd then walk b.exclude p cs else []) ++ scanned b disk ps := by
      unfold scanned
      rw [List.flatMap_cons, hp]
      cases rd <;> rfl
    rw [List.foldlM_cons, hs]
    unfold Builder.addAll
    rw [List.foldlM_append]
    have : b.addPath lib disk rl p = b.addAll lib rl (if rd then walk b.exclude p cs else []) := by
      unfold Builder.addPath
      rw [hp]
      cases rd <;> rfl
    rw [this]
    unfold Builder.addAll
    congr 1
    funext rl1
    exact ih rl1

theorem addFile_processed {b : Builder} {lib : HashLib} {rl rl' : Dict Resource} {f : Str × FNode}
    (h : b.addFile lib rl (some f.1) f.2.name f.2.islink f.2.stat = .ok rl')
    (h1 : b.exclude f.2.name = false) (h2 : f.2.islink = false) :
    ∃ uri, b.mapper.dstToSrc (pathJoin f.1 f.2.name) = .ok uri ∧
      ∀ st, f.2.stat = some st → ∃ r, b.fileResource lib uri (pathJoin f.1 f.2.name) st = .ok r := by
  unfold Builder.addFile at h
  rw [if_neg (by simp [h1])] at h
  simp only at h
  rw [if_neg (by simp [h2])] at h
  cases h3 : b.mapper.dstToSrc (pathJoin f.1 f.2.name) with
  | error e => rw [h3] at h; cases h
  | ok uri =>
    rw [h3] at h
    simp only at h
    refine ⟨uri, rfl, ?_⟩
    intro st hst
    rw [hst] at h
    simp only at h
    cases h5 : b.fileResource lib uri (pathJoin f.1 f.2.name) st with
    | error e => rw [h5] at h; cases h
    | ok r => exact ⟨r, rfl⟩

theorem addAll_processed {b : Builder} {lib : HashLib} (fs : List (Str × FNode)) : ∀ {rl rl' : Dict Resource},
    b.addAll lib rl fs = .ok rl' → ∀ f ∈ fs, ∃ rl1 rl2,
      b.addFile lib rl1 (some f.1) f.2.name f.2.islink f.2.stat = .ok rl2 := by
  induction fs with
  | nil => intro rl rl' _ f hf; simp at hf
  | cons g fs ih =>
    intro rl rl' h f hf
    simp only [Builder.addAll, List.foldlM_cons, bind_ok_iff] at h
    obtain ⟨rl1, h1, h2⟩ := h
    rcases List.mem_cons.mp hf with rfl | hf
    · exact ⟨_, _, h1⟩
    · exact ih h2 f hf

theorem addFile_success {b : Builder} {lib : HashLib} {rl : Dict Resource} {f : Str × FNode}
    (h1 : b.exclude f.2.name = false → (f.2.islink = true → b.include_symlinks = true) →
      ∃ uri, b.mapper.dstToSrc (pathJoin f.1 f.2.name) = .ok uri ∧
        ∀ st, f.2.stat = some st → ∃ r, b.fileResource lib uri (pathJoin f.1 f.2.name) st = .ok r)
    (h3 : ∀ r, Contrib b lib f r → dget rl r.uri = none) :
    ∃ rl', b.addFile lib rl (some f.1) f.2.name f.2.islink f.2.stat = .ok rl' := by
  unfold Builder.addFile
  by_cases e1 : b.exclude f.2.name = true
  · rw [if_pos e1]; exact ⟨_, rfl⟩
  · rw [if_neg e1]
    simp only
    by_cases e2 : f.2.islink = true ∧ ¬ b.include_symlinks = true
    · rw [if_pos e2]; exact ⟨_, rfl⟩
    · rw [if_neg e2]
      have hl : f.2.islink = true → b.include_symlinks = true := fun hl => by by_contra hc; exact e2 ⟨hl, hc⟩
      obtain ⟨uri, hu, hst⟩ := h1 (by simpa using e1) hl
      rw [hu]
      simp only
      cases hs : f.2.stat with
      | none => exact ⟨_, rfl⟩
      | some st =>
        simp only
        obtain ⟨r, hr⟩ := hst st hs
        rw [hr]
        simp only
        have := h3 r ⟨by simpa using e1, hl, uri, st, hu, hs, hr⟩
        rw [dictAdd_fresh false this]
        exact ⟨_, rfl⟩

theorem addAll_success {b : Builder} {lib : HashLib} (fs : List (Str × FNode)) : ∀ (rl : Dict Resource),
    (∀ f ∈ fs, b.exclude f.2.name = false → (f.2.islink = true → b.include_symlinks = true) →
      ∃ uri, b.mapper.dstToSrc (pathJoin f.1 f.2.name) = .ok uri ∧
        ∀ st, f.2.stat = some st → ∃ r, b.fileResource lib uri (pathJoin f.1 f.2.name) st = .ok r) →
    fs.Pairwise (fun f g => ∀ r r', Contrib b lib f r → Contrib b lib g r' → r.uri ≠ r'.uri) →
    (∀ f ∈ fs, ∀ r, Contrib b lib f r → dget rl r.uri = none) →
    ∃ rl', b.addAll lib rl fs = .ok rl' := by
  induction fs with
  | nil => intro rl _ _ _; exact ⟨rl, rfl⟩
  | cons f fs ih =>
    intro rl h1 h2 h3
    obtain ⟨rl1, hr⟩ := addFile_success (h1 f (by simp)) (h3 f (by simp))
    obtain ⟨p1, p2⟩ := List.pairwise_cons.mp h2
    obtain ⟨rl', h⟩ := ih rl1 (fun g hg => h1 g (by simp [hg])) p2 (by
      intro g hg r hc
      have hfree := h3 g (by simp [hg]) r hc
      rcases addFile_ok hr with ⟨-, rfl⟩ | ⟨x, hx, -, rfl⟩
      · exact hfree
      · rw [dget_dset_ne _ _ (p1 g hg x r ((hx x).mpr rfl) hc)]; exact hfree)
    exact ⟨rl', by simp only [Builder.addAll, List.foldlM_cons, hr, ebind_ok]; exact h⟩

end Resync
