import Verif.Proofs.Fs
import Verif.Proofs.Builder
import Verif.Spec.Client
/- The directory trees of a file system. -/

namespace Resync
open Py Resync.Spec

theorem lookup_of_mem {fs : Fs} (h : (fs.map Prod.fst).Nodup) {p : Loc × FsNode} (hp : p ∈ fs) : fs.lookup p.1 = some p.2 := by
  induction fs with
  | nil => simp at hp
  | cons q t ih =>
    rw [List.map_cons, List.nodup_cons] at h
    rw [List.lookup_cons]
    rcases List.mem_cons.mp hp with e | e
    · subst e; simp
    · have : (p.1 == q.1) = false := by
        have : p.1 ≠ q.1 := fun e' => h.1 (by rw [← e']; exact List.mem_map.mpr ⟨p, e, rfl⟩)
        simpa using this
      rw [this]
      exact ih h.2 e

theorem mem_of_lookup {fs : Fs} {l : Loc} {n : FsNode} (h : fs.lookup l = some n) : (l, n) ∈ fs := by
  induction fs with
  | nil => simp at h
  | cons q t ih =>
    rw [List.lookup_cons] at h
    cases e : l == q.1 with
    | true =>
      rw [e] at h
      have e' : l = q.1 := by simpa using e
      simp only [Option.some.injEq] at h
      rw [e', ← h]; simp
    | false => rw [e] at h; exact List.mem_cons_of_mem _ (ih h)

theorem get_of_mem {fs : Fs} (h : ProperFs fs) {p : Loc × FsNode} (hp : p ∈ fs) : fs.get p.1 = some p.2 := by
  unfold Fs.get
  rw [if_neg (h.nonroot p hp)]
  exact lookup_of_mem h.once hp

theorem mem_of_get {fs : Fs} {l : Loc} {n : FsNode} (hl : l ≠ []) (h : fs.get l = some n) : (l, n) ∈ fs := by
  unfold Fs.get at h
  rw [if_neg hl] at h
  exact mem_of_lookup h

theorem childName_some {l k : Loc} {name : Str} (h : childName l k = some name) : k = l ++ [name] := by
  unfold childName at h
  split at h
  · rename_i hc
    obtain ⟨h1, h2⟩ := hc
    obtain ⟨t, rfl⟩ := List.isPrefixOf_iff_prefix.mp h2
    have : t.length = 1 := by simp at h1; omega
    obtain ⟨x, rfl⟩ := List.length_eq_one_iff.mp this
    simp at h
    rw [h]
  · simp at h

theorem childName_append (l : Loc) (name : Str) : childName l (l ++ [name]) = some name := by
  unfold childName
  rw [if_pos ⟨by simp, List.isPrefixOf_iff_prefix.mpr (List.prefix_append _ _)⟩]
  simp

/-- the node of the tree for an entry -/
def nodeOf (fs : Fs) (k : Nat) (l : Loc) (name : Str) : FsNode → FNode
  | .file c m => .file name false (some (fileStat c m))
  | .dir => .dir name true (fs.tree k (l ++ [name]))

theorem mem_tree {fs : Fs} (h : ProperFs fs) {k : Nat} {l : Loc} {n : FNode} :
    n ∈ fs.tree (k + 1) l ↔ ∃ name x, fs.get (l ++ [name]) = some x ∧ n = nodeOf fs k l name x := by
  rw [Fs.tree, List.mem_filterMap]
  constructor
  · rintro ⟨p, hp, hn⟩
    cases hc : childName l p.1 with
    | none => rw [hc] at hn; simp at hn
    | some name =>
      rw [hc] at hn
      have e := childName_some hc
      refine ⟨name, p.2, by rw [← e]; exact get_of_mem h hp, ?_⟩
      obtain ⟨q, x⟩ := p
      simp only at e
      subst e
      cases x <;> · simp only [Option.some.injEq] at hn; rw [← hn]; rfl
  · rintro ⟨name, x, hg, rfl⟩
    refine ⟨(l ++ [name], x), mem_of_get (by simp) hg, ?_⟩
    simp only [childName_append]
    cases x <;> rfl

theorem nodeOf_name (fs : Fs) (k : Nat) (l : Loc) (name : Str) (x : FsNode) : (nodeOf fs k l name x).name = name := by
  cases x <;> rfl

/-- what the names lead to -/
theorem reach_tree {fs : Fs} (h : ProperFs fs) {cs : List FNode} {names : List Str} {n : FNode} (hr : Reach cs names n) :
    ∀ k l, cs = fs.tree k l → ∃ j name x, names.getLast? = some name ∧ fs.get (l ++ names) = some x ∧
      n = nodeOf fs j (l ++ names.dropLast) name x := by
  induction hr with
  | here hm =>
    rintro k l rfl
    cases k with
    | zero => simp [Fs.tree] at hm
    | succ k =>
      obtain ⟨name, x, hg, rfl⟩ := (mem_tree h).mp hm
      exact ⟨k, name, x, by simp [nodeOf_name], by rw [nodeOf_name]; exact hg, by simp⟩
  | @sub cs ds nm names n hm hs ih =>
    rintro k l rfl
    cases k with
    | zero => simp [Fs.tree] at hm
    | succ k =>
      obtain ⟨name, x, hg, e⟩ := (mem_tree h).mp hm
      have hne := reach_ne_nil hs
      cases x with
      | file c m => simp [nodeOf] at e
      | dir =>
        simp only [nodeOf, FNode.dir.injEq, true_and] at e
        obtain ⟨rfl, rfl⟩ := e
        obtain ⟨j, name', x', e1, e2, e3⟩ := ih k (l ++ [nm]) rfl
        refine ⟨j, name', x', ?_, by simpa using e2, ?_⟩
        · rw [List.getLast?_cons, e1]; rfl
        · rw [e3, List.dropLast_cons_of_ne_nil hne]; simp

theorem get_prefix {fs : Fs} (h : ProperFs fs) {a : Loc} : ∀ (b : Loc), b ≠ [] → ∀ {x : FsNode}, fs.get (a ++ b) = some x →
    fs.get a = some .dir := by
  intro b
  induction b using List.reverseRecOn with
  | nil => intro hb; exact absurd rfl hb
  | append_singleton b y ih =>
    intro _ x hg
    have hm := mem_of_get (by simp) hg
    have hp := h.parents _ hm
    have e : (a ++ (b ++ [y])).dropLast = a ++ b := by rw [← List.append_assoc, List.dropLast_concat]
    simp only [e] at hp
    by_cases hb : b = []
    · subst hb; simpa using hp
    · exact ih hb hp

theorem depth_ge {fs : Fs} {p : Loc × FsNode} (hp : p ∈ fs) : p.1.length ≤ fs.depth := by
  induction fs with
  | nil => simp at hp
  | cons q t ih =>
    rw [Fs.depth, List.foldr_cons]
    rcases List.mem_cons.mp hp with e | e
    · subst e; exact le_max_left _ _
    · exact le_trans (ih e) (le_max_right _ _)

/-- every file below a directory is reached -/
theorem tree_reach {fs : Fs} (h : ProperFs fs) {c : Bytes} {m : Rat} : ∀ (names : List Str) (k : Nat) (l : Loc), names ≠ [] →
    names.length ≤ k → fs.get (l ++ names) = some (.file c m) →
    ∃ nm, Reach (fs.tree k l) names (.file nm false (some (fileStat c m))) := by
  intro names
  induction names with
  | nil => intro k l hn; exact absurd rfl hn
  | cons a t ih =>
    intro k l _ hk hg
    cases k with
    | zero => simp at hk
    | succ k =>
      by_cases ht : t = []
      · subst ht
        have : FNode.file a false (some (fileStat c m)) ∈ fs.tree (k + 1) l := (mem_tree h).mpr ⟨a, _, hg, rfl⟩
        exact ⟨a, Reach.here this⟩
      · have e : l ++ a :: t = (l ++ [a]) ++ t := by simp
        rw [e] at hg
        obtain ⟨nm, hr⟩ := ih k (l ++ [a]) ht (by simpa using hk) hg
        have hd := get_prefix h t ht hg
        have : FNode.dir a true (fs.tree k (l ++ [a])) ∈ fs.tree (k + 1) l := (mem_tree h).mpr ⟨a, _, hd, rfl⟩
        exact ⟨nm, Reach.sub this hr⟩

theorem realDir_tree {fs : Fs} (h : ProperFs fs) : ∀ (k : Nat) (l : Loc), RealDir (fs.tree k l) := by
  intro k
  induction k with
  | zero => intro l; exact RealDir.mk (by simp [Fs.tree]) (by simp [Fs.tree]) (by simp [Fs.tree])
  | succ k ih =>
    intro l
    refine RealDir.mk ?_ ?_ ?_
    · rw [Fs.tree]
      have hn := h.once
      have hmem : ∀ p ∈ fs, True := fun _ _ => trivial
      have aux : ∀ fs' : Fs, (fs'.map Prod.fst).Nodup → ((fs'.filterMap (fun p : Loc × FsNode =>
          match childName l p.1 with
          | none => none
          | some name =>
            match p.2 with
            | .file content mtime => some (.file name false (some (fileStat content mtime)))
            | .dir => some (.dir name true (Fs.tree fs k p.1)))).map FNode.name).Nodup ∧
          ∀ x ∈ (fs'.filterMap (fun p : Loc × FsNode =>
          match childName l p.1 with
          | none => none
          | some name =>
            match p.2 with
            | .file content mtime => some (.file name false (some (fileStat content mtime)))
            | .dir => some (.dir name true (Fs.tree fs k p.1)))).map FNode.name, l ++ [x] ∈ fs'.map Prod.fst := by
        intro fs'
        induction fs' with
        | nil => intro _; simp
        | cons p t iht =>
          intro hnd
          rw [List.map_cons, List.nodup_cons] at hnd
          obtain ⟨i1, i2⟩ := iht hnd.2
          obtain ⟨q, x⟩ := p
          rw [List.filterMap_cons]
          cases hc : childName l q with
          | none =>
            simp only [hc]
            exact ⟨i1, fun y hy => List.mem_cons_of_mem _ (i2 y hy)⟩
          | some name =>
            have e := childName_some hc
            have hnew : name ∉ ((t.filterMap (fun p : Loc × FsNode =>
              match childName l p.1 with
              | none => none
              | some name =>
                match p.2 with
                | .file content mtime => some (.file name false (some (fileStat content mtime)))
                | .dir => some (.dir name true (Fs.tree fs k p.1)))).map FNode.name) := by
              intro hy
              have := i2 _ hy
              rw [← e] at this
              exact hnd.1 this
            cases x <;>
            · simp only [hc, List.map_cons, FNode.name, List.nodup_cons]
              refine ⟨⟨hnew, i1⟩, ?_⟩
              intro y hy
              rcases List.mem_cons.mp hy with e' | e'
              · rw [e', ← e]; simp
              · exact List.mem_cons_of_mem _ (i2 y e')
      exact (aux fs hn).1
    · intro n hn
      obtain ⟨name, x, hg, rfl⟩ := (mem_tree h).mp hn
      rw [nodeOf_name]
      have := h.names _ (mem_of_get (by simp) hg) name (by simp)
      exact ⟨this.1, this.2.2.2⟩
    · intro name r ds hd
      obtain ⟨name', x, hg, e⟩ := (mem_tree h).mp hd
      cases x with
      | file c m => simp [nodeOf] at e
      | dir =>
        simp only [nodeOf, FNode.dir.injEq] at e
        rw [e.2.2]
        exact ih _

end Resync
