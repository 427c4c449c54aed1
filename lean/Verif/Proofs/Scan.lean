import Verif.Proofs.FsTree
import Verif.Proofs.Path
import Verif.Props.Builder
/- What a scan of a file system finds. -/

namespace Resync
open Py Resync.Spec

theorem location_slash (cwd : Loc) (p : Str) (h : p ≠ []) : location cwd (p ++ ['/']) = location cwd p := by
  have hs : splitOn '/' (p ++ ['/']) = splitOn '/' p ++ [[]] := by
    rw [splitOn_append_sep]; simp [splitOn]
  have key : ∀ cur, walkFrom cur (splitOn '/' (p ++ ['/'])) = walkFrom cur (splitOn '/' p) := by
    intro cur
    rw [hs, walkFrom_append]
    simp [walkFrom]
  cases p with
  | nil => exact absurd rfl h
  | cons x xs =>
    by_cases hx : x = '/'
    · subst hx; simp only [List.cons_append, location]; exact key []
    · simp only [location]
      split <;> split <;> simp_all

theorem location_join (cwd : Loc) (p n : Str) (h : ProperName n) : location cwd (pathJoin p n) = location cwd p ++ [n] := by
  obtain ⟨h1, h2, h3, h4⟩ := h
  have hs : splitOn '/' n = [n] := splitOn_of_not_mem h4
  have hw : ∀ cur, walkFrom cur [n] = cur ++ [n] := by
    intro cur
    simp only [walkFrom]
    rw [if_neg (by rintro (e | e); exact h1 e; exact h2 e), if_neg (show ¬ n = ['.', '.'] from h3)]
  have hns : startsWith n ['/'] = false := by
    cases n with
    | nil => exact absurd rfl h1
    | cons x t =>
      have : x ≠ '/' := fun e => h4 (by simp [e])
      simp [startsWith, List.isPrefixOf]
      try exact fun e => this e.symm
  have hn : ∀ a : Str, location cwd (a ++ '/' :: n) = location cwd (a ++ ['/']) ++ [n] := by
    intro a
    rw [location_append, hs, hw]
  unfold pathJoin
  rw [hns, if_neg (by simp)]
  by_cases hp : p = []
  · subst hp
    rw [if_pos (Or.inl rfl), List.nil_append]
    have : location cwd n = walkFrom cwd (splitOn '/' n) := by
      cases n with
      | nil => exact absurd rfl h1
      | cons x t =>
        have : x ≠ '/' := fun e => h4 (by simp [e])
        unfold location
        split
        · rename_i heq; simp at heq; exact absurd heq.1 this
        · rfl
    rw [this, hs, hw]
    simp [location, splitOn, walkFrom]
  · by_cases he : endsWith p ['/'] = true
    · rw [if_pos (Or.inr he)]
      have : ∃ a, p = a ++ ['/'] := by
        unfold endsWith at he
        obtain ⟨a, ha⟩ := List.isSuffixOf_iff_suffix.mp he
        exact ⟨a, ha.symm⟩
      obtain ⟨a, rfl⟩ := this
      have := hn a
      simpa using this
    · rw [if_neg (by rintro (e | e); exact hp e; exact he e), hn, location_slash _ _ hp]

theorem location_filePath (cwd : Loc) (names : List Str) (h : ∀ n ∈ names, ProperName n) (p : Str) :
    location cwd (filePath p names) = location cwd p ++ names := by
  induction names generalizing p with
  | nil => simp [filePath]
  | cons n t ih =>
    have := ih (fun x hx => h x (by simp [hx])) (pathJoin p n)
    rw [show filePath p (n :: t) = filePath (pathJoin p n) t from rfl, this, location_join _ _ _ (h n (by simp))]
    simp

theorem addFile_inv_aux {b : Builder} {lib : HashLib} {rl rl' : Dict Resource} {il : Bool} (st : Option Stat)
    (path : Str) (h : (if il = true ∧ ¬b.include_symlinks = true then (Except.ok rl : Except BuildErr (Dict Resource))
        else match b.mapper.dstToSrc path with
          | .error e => .error (.map e)
          | .ok uri =>
            match st with
            | none => .ok rl
            | some st =>
              match b.fileResource lib uri path st with
              | .error e => .error e
              | .ok r =>
                match dictAdd rl r false with
                | .error _ => .error .dupe
                | .ok rl' => .ok rl') = .ok rl') :
    rl' = rl ∨ ∃ uri st0, st = some st0 ∧
        b.mapper.dstToSrc path = .ok uri ∧ dget rl uri = none ∧ rl' = dset rl uri (describes b lib uri path st0) ∧
        (il = true → b.include_symlinks = true) := by
  split at h
  · cases h; exact .inl rfl
  · rename_i h2
    cases h3 : b.mapper.dstToSrc path with
    | error e => rw [h3] at h; cases h
    | ok uri =>
      rw [h3] at h
      simp only at h
      cases st with
      | none => cases h; exact .inl rfl
      | some st =>
        simp only at h
        cases h5 : b.fileResource lib uri path st with
        | error e => rw [h5] at h; cases h
        | ok r =>
          rw [h5] at h
          simp only at h
          cases h6 : dictAdd rl r false with
          | error e => rw [h6] at h; cases h
          | ok d =>
            rw [h6] at h
            cases h
            obtain ⟨k1, k2⟩ := dictAdd_ok h6
            have hd := fileResource_ok h5
            have hu : r.uri = uri := by rw [hd]; rfl
            rw [hu] at k1
            refine .inr ⟨uri, st, rfl, rfl, k1, ?_, fun hl => by by_contra hc; exact h2 ⟨hl, hc⟩⟩
            rw [k2, ← hd, ← hu, dset_fresh r (by rw [hu]; exact k1)]

/-- the path of a file given with its directory or without -/
def fullPath : Option Str → Str → Str
  | some d, file => pathJoin d file
  | none, file => file

theorem addFile_inv {b : Builder} {lib : HashLib} {rl rl' : Dict Resource} {dir : Option Str} {file : Str} {il : Bool}
    {st : Option Stat} (h : b.addFile lib rl dir file il st = .ok rl') :
    rl' = rl ∨ ∃ path uri st0, path = fullPath dir file ∧ st = some st0 ∧
      b.mapper.dstToSrc path = .ok uri ∧ dget rl uri = none ∧ rl' = dset rl uri (describes b lib uri path st0) ∧
      (il = true → b.include_symlinks = true) := by
  unfold Builder.addFile at h
  split at h
  · cases h; exact .inl rfl
  · simp only at h
    rcases addFile_inv_aux st _ h with h | ⟨u, st0, h⟩
    · exact .inl h
    · exact .inr ⟨_, u, st0, by cases dir <;> rfl, h⟩

/-- what holds of every list entry found in a file system -/
def FoundIn (b : Builder) (lib : HashLib) (cwd : Loc) (fs : Fs) (rl : Dict Resource) : Prop :=
  WF rl ∧ ∀ u r, dget rl u = some r → ∃ path content mtime, b.mapper.dstToSrc path = .ok u ∧
    IsFile fs (location cwd path) content mtime ∧ r = describes b lib u path (fileStat content mtime)

theorem foundIn_dset {b : Builder} {lib : HashLib} {cwd : Loc} {fs : Fs} {rl : Dict Resource} (h : FoundIn b lib cwd fs rl)
    {u path : Str} {content : Bytes} {mtime : Rat} (h1 : b.mapper.dstToSrc path = .ok u)
    (h2 : IsFile fs (location cwd path) content mtime) :
    FoundIn b lib cwd fs (dset rl u (describes b lib u path (fileStat content mtime))) := by
  refine ⟨WF_dset h.1 (describes b lib u path (fileStat content mtime)), ?_⟩
  intro v r hr
  by_cases e : u = v
  · subst e
    rw [dget_dset_self] at hr
    cases hr
    exact ⟨path, content, mtime, h1, h2, rfl⟩
  · rw [dget_dset_ne _ _ e] at hr
    exact h.2 v r hr

theorem addAll_found {b : Builder} {lib : HashLib} {cwd : Loc} {fs : Fs} (l : List (Str × FNode))
    (hl : ∀ f ∈ l, ∀ st, f.2.stat = some st → ∃ content mtime, st = fileStat content mtime ∧
      IsFile fs (location cwd (pathJoin f.1 f.2.name)) content mtime) :
    ∀ {rl rl' : Dict Resource}, FoundIn b lib cwd fs rl → b.addAll lib rl l = .ok rl' → FoundIn b lib cwd fs rl' := by
  induction l with
  | nil =>
    intro rl rl' h0 h
    simp only [Builder.addAll, List.foldlM_nil, epure, Except.ok.injEq] at h
    rw [← h]; exact h0
  | cons f l ih =>
    intro rl rl' h0 h
    simp only [Builder.addAll, List.foldlM_cons, bind_ok_iff] at h
    obtain ⟨rl1, h1, h2⟩ := h
    refine ih (fun g hg => hl g (by simp [hg])) ?_ h2
    rcases addFile_inv h1 with rfl | ⟨path, uri, st, e1, e2, e3, e4, e5, -⟩
    · exact h0
    · obtain ⟨content, mtime, rfl, hf⟩ := hl f (by simp) st e2
      rw [show fullPath (some f.1) f.2.name = pathJoin f.1 f.2.name from rfl] at e1
      rw [← e1] at hf
      rw [e5]
      exact foundIn_dset h0 e3 hf

theorem disk_dir {fs : Fs} {cwd : Loc} {p nm : Str} {rd : Bool} {cs : List FNode}
    (h : (fs.disk cwd).resolve p = some (.dir nm rd cs)) :
    rd = true ∧ cs = fs.tree (fs.depth + 1) (location cwd p) ∧ fs.get (location cwd p) = some .dir := by
  unfold Fs.disk at h
  simp only at h
  split at h
  · cases h
  · cases h
  · rename_i hg
    simp only [Option.some.injEq, FNode.dir.injEq] at h
    exact ⟨h.2.1.symm, h.2.2.symm, hg⟩

theorem fromDisk_found {b : Builder} {lib : HashLib} {cwd : Loc} {fs : Fs} (hfs : ProperFs fs) (paths : List Str) :
    ∀ {rl rl' : Dict Resource}, FoundIn b lib cwd fs rl → b.fromDisk lib (fs.disk cwd) rl (some paths) = .ok rl' →
      FoundIn b lib cwd fs rl' := by
  unfold Builder.fromDisk
  simp only
  induction paths with
  | nil =>
    intro rl rl' h0 h
    simp only [List.foldlM_nil, epure, Except.ok.injEq] at h
    rw [← h]; exact h0
  | cons p ps ih =>
    intro rl rl' h0 h
    simp only [List.foldlM_cons, bind_ok_iff] at h
    obtain ⟨rl1, h1, h2⟩ := h
    refine ih ?_ h2
    unfold Builder.addPath at h1
    split at h1
    · rename_i nm rd cs hres
      obtain ⟨rfl, rfl, hg⟩ := disk_dir hres
      rw [if_pos rfl] at h1
      refine addAll_found _ ?_ h0 h1
      intro f hf st hst
      rw [walk_eq] at hf
      obtain ⟨x, hx, rfl⟩ := List.mem_map.mp hf
      have hm := (mem_walkN.mp hx).reach
      obtain ⟨j, name, y, e1, e2, e3⟩ := reach_tree hfs hm _ _ rfl
      rw [pathJoin_filePath]
      have hprop : ∀ n ∈ namesOf x, ProperName n := by
        intro n hn
        have hmem := mem_of_get (by simp) e2
        exact hfs.names _ hmem n (List.mem_append_right _ hn)
      rw [location_filePath _ _ hprop]
      cases y with
      | dir => rw [e3] at hst; simp [nodeOf, FNode.stat] at hst
      | file c m =>
        rw [e3] at hst
        simp only [nodeOf, FNode.stat, Option.some.injEq] at hst
        exact ⟨c, m, hst.symm, e2⟩
    · rename_i other hres
      rcases addFile_inv h1 with rfl | ⟨path, uri, st, e1, e2, e3, e4, e5, -⟩
      · exact h0
      · rw [show fullPath none p = p from rfl] at e1
        subst e1
        have : ∃ content mtime, st = fileStat content mtime ∧ IsFile fs (location cwd path) content mtime := by
          unfold Fs.disk at e2
          simp only at e2
          cases hg : fs.get (location cwd path) with
          | none => rw [hg] at e2; simp at e2
          | some y =>
            rw [hg] at e2
            cases y with
            | dir => simp [FNode.stat] at e2
            | file c m =>
              simp only [Option.bind_some, FNode.stat, Option.some.injEq] at e2
              exact ⟨c, m, e2.symm, hg⟩
        obtain ⟨content, mtime, rfl, hf⟩ := this
        rw [e5]
        exact foundIn_dset h0 e3 hf

theorem fromDisk_found' {b : Builder} {lib : HashLib} {cwd : Loc} {fs : Fs} (hfs : ProperFs fs) {rl : Dict Resource}
    (h : b.fromDisk lib (fs.disk cwd) = .ok rl) : FoundIn b lib cwd fs rl := by
  have : b.fromDisk lib (fs.disk cwd) = b.fromDisk lib (fs.disk cwd) [] (some (b.mapper.map Map.dst_path)) := rfl
  rw [this] at h
  exact fromDisk_found hfs _ ⟨WF_nil, by simp [dget]⟩ h

end Resync
