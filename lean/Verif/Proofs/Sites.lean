import Verif.Props.ScanMappings
import Verif.Proofs.OneSite
/- Several sites mapped to directories. -/

namespace Resync
open Py Resync.Spec

theorem Spec.OneSite.sites {c : ClientCfg} {cwd : Loc} {m : Map} {root : Loc} {fs : Fs} (h : OneSite c cwd m root fs) :
    Sites c cwd [(m, root)] fs where
  mapper := h.mapper
  nonempty := by simp
  src := by intro p hp; rw [List.mem_singleton.mp hp]; exact h.src
  dst := by intro p hp; rw [List.mem_singleton.mp hp]; exact h.dst
  place := by intro p hp; rw [List.mem_singleton.mp hp]; exact h.place
  apart := List.pairwise_singleton _ _
  proper := h.proper
  names := h.names
  cwdNames := h.cwdNames
  notFile := by intro p hp; rw [List.mem_singleton.mp hp]; exact h.notFile

theorem Spec.Sites.one {c : ClientCfg} {cwd : Loc} {m : Map} {root : Loc} {fs : Fs} (h : Sites c cwd [(m, root)] fs) :
    OneSite c cwd m root fs where
  mapper := h.mapper
  src := h.src (m, root) (by simp)
  dst := h.dst (m, root) (by simp)
  place := h.place (m, root) (by simp)
  proper := h.proper
  names := h.names
  cwdNames := h.cwdNames
  notFile := h.notFile (m, root) (by simp)

theorem Spec.ListRegular.below {m : Map} {root : Loc} {src : Dict Resource} (h : ListRegular m src) : ListBelow [(m, root)] src := by
  intro u r hr
  obtain ⟨names, h1, h2, h3⟩ := h u r hr
  exact ⟨(m, root), by simp, names, h1, h2, h3⟩

theorem join_concat {l : List Str} (x : Str) (h : l ≠ []) : join ['/'] (l ++ [x]) = join ['/'] l ++ '/' :: x := by
  induction l with
  | nil => exact absurd rfl h
  | cons a t ih =>
    cases t with
    | nil => simp [join]
    | cons b t =>
      have := ih (by simp)
      simp only [List.cons_append, join] at this ⊢
      rw [this]; simp

section
variable {c : ClientCfg} {cwd : Loc} {sites : List (Map × Loc)} {fs : Fs}

theorem Spec.Sites.tidy (h : Sites c cwd sites fs) : Tidy fs := ⟨h.proper, h.names⟩

/-- the file of a URI below one of the sites -/
theorem Spec.Sites.maps (h : Sites c cwd sites fs) {p : Map × Loc} (hp : p ∈ sites) {names : List Str}
    (hne : names ≠ []) (hn : ∀ n ∈ names, PlainName n) :
    ∃ fn, c.disc.mapper.srcToDst (uriBelow p.1 names) = .ok fn ∧ OneLine fn ∧ location cwd fn = p.2 ++ names := by
  refine ⟨p.1.dst_path ++ '/' :: join ['/'] names, ?_, oneLine_below (h.dst p hp).2.1 (fun c hc => (hn c hc).2), ?_⟩
  · rw [h.mapper]
    refine srcToDst_below ?_ ?_ (List.mem_map.mpr ⟨p, hp, rfl⟩) (oneLine_below (h.src p hp).2 (fun c hc => (hn c hc).2))
    · intro m hm
      obtain ⟨q, hq, rfl⟩ := List.mem_map.mp hm
      exact (h.src q hq).1
    · rw [List.pairwise_map]
      exact h.apart.imp (fun x => x.1)
  · have h1 := pathJoinAll_join p.1.dst_path names (h.dst p hp).2.2.1 (h.dst p hp).2.2.2 (fun c hc => ⟨(hn c hc).1.1, (hn c hc).1.2.2.2⟩)
    have h2 := location_filePath cwd names (fun n hn' => (hn n hn').1) p.1.dst_path
    rw [filePath, h1] at h2
    rw [h.place p hp, ← h2]
    cases names with
    | nil => exact absurd rfl hne
    | cons a t => simp [join]

theorem Spec.Sites.mapsTo (h : Sites c cwd sites fs) {p : Map × Loc} (hp : p ∈ sites) {names : List Str}
    (hne : names ≠ []) (hn : ∀ n ∈ names, PlainName n) {l : Loc} : MapsTo c cwd (uriBelow p.1 names) l ↔ l = p.2 ++ names := by
  obtain ⟨fn, h1, -, h3⟩ := h.maps hp hne hn
  constructor
  · rintro ⟨fn', e1, e2⟩
    rw [h1] at e1
    cases e1
    rw [e2, h3]
  · rintro rfl
    exact ⟨fn, h1, h3.symm⟩

/-- the file of a regular URI, and its directory -/
theorem Spec.Sites.maps_dir (h : Sites c cwd sites fs) {p : Map × Loc} (hp : p ∈ sites)
    {names : List Str} (hne : names ≠ []) (hn : ∀ n ∈ names, PlainName n) :
    ∃ fn, c.disc.mapper.srcToDst (uriBelow p.1 names) = .ok fn ∧ location cwd fn = p.2 ++ names ∧
      location cwd (dirname fn) = (p.2 ++ names).dropLast := by
  have hloc : ∀ ns : List Str, ns ≠ [] → (∀ n ∈ ns, PlainName n) →
      location cwd (p.1.dst_path ++ '/' :: join ['/'] ns) = p.2 ++ ns := by
    intro ns hne hn
    have h1 := pathJoinAll_join p.1.dst_path ns (h.dst p hp).2.2.1 (h.dst p hp).2.2.2 (fun c hc => ⟨(hn c hc).1.1, (hn c hc).1.2.2.2⟩)
    have h2 := location_filePath cwd ns (fun n hn' => (hn n hn').1) p.1.dst_path
    rw [filePath, h1] at h2
    rw [h.place p hp, ← h2]
    cases ns with
    | nil => exact absurd rfl hne
    | cons a t => simp [join]
  refine ⟨p.1.dst_path ++ '/' :: join ['/'] names, ?_, hloc names hne hn, ?_⟩
  · rw [h.mapper]
    refine srcToDst_below ?_ ?_ (List.mem_map.mpr ⟨p, hp, rfl⟩) (oneLine_below (h.src p hp).2 (fun c hc => (hn c hc).2))
    · intro m hm
      obtain ⟨q, hq, rfl⟩ := List.mem_map.mp hm
      exact (h.src q hq).1
    · rw [List.pairwise_map]
      exact h.apart.imp (fun x => x.1)
  · have hd : ∀ u, p.1.dst_path ≠ u ++ ['/'] := by
      intro u e
      apply (h.dst p hp).2.2.2
      rw [e]; simp
    obtain ⟨init, last, rfl⟩ : ∃ init last, names = init ++ [last] := ⟨names.dropLast, names.getLast hne, (List.dropLast_append_getLast hne).symm⟩
    have hlast := hn last (by simp)
    have hinit : ∀ n ∈ init, PlainName n := fun n hn' => hn n (by simp [hn'])
    rw [← List.append_assoc, List.dropLast_concat]
    by_cases hi : init = []
    · subst hi
      have e : join ['/'] ([] ++ [last]) = last := by simp [join]
      rw [e, dirname_append hlast.1.2.2.2 hd (h.dst p hp).2.2.1, h.place p hp]
      simp
    · have e : p.1.dst_path ++ '/' :: join ['/'] (init ++ [last]) = (p.1.dst_path ++ '/' :: join ['/'] init) ++ '/' :: last := by
        rw [join_concat _ hi]; simp
      rw [e, dirname_append hlast.1.2.2.2 ?_ (by simp), hloc init hi hinit]
      intro u hu
      obtain ⟨i', x, rfl⟩ : ∃ i' x, init = i' ++ [x] := ⟨init.dropLast, init.getLast hi, (List.dropLast_append_getLast hi).symm⟩
      have hx := (hinit x (by simp)).1
      obtain ⟨y, hy⟩ : ∃ y, p.1.dst_path ++ '/' :: join ['/'] (i' ++ [x]) = y ++ x := by
        by_cases hi' : i' = []
        · subst hi'; exact ⟨p.1.dst_path ++ ['/'], by simp [join]⟩
        · exact ⟨p.1.dst_path ++ '/' :: (join ['/'] i' ++ ['/']), by rw [join_concat _ hi']; simp⟩
      rw [hy] at hu
      have h1 := congrArg List.getLast? hu
      rw [List.getLast?_append_of_ne_nil _ hx.1] at h1
      simp only [List.getLast?_append, List.getLast?_singleton, Option.some_or] at h1
      exact hx.2.2.2 (List.mem_of_getLast? h1)

theorem pairwise_mem {α : Type} {R : α → α → Prop} {l : List α} (h : l.Pairwise R) (hs : ∀ a b, R a b → R b a) {a b : α}
    (ha : a ∈ l) (hb : b ∈ l) (hne : a ≠ b) : R a b := by
  induction l with
  | nil => cases ha
  | cons x t ih =>
    obtain ⟨p1, p2⟩ := List.pairwise_cons.mp h
    rcases List.mem_cons.mp ha with rfl | ha' <;> rcases List.mem_cons.mp hb with rfl | hb'
    · exact absurd rfl hne
    · exact p1 _ hb'
    · exact hs _ _ (p1 _ ha')
    · exact ih p2 ha' hb'

theorem Spec.Sites.apart_of (h : Sites c cwd sites fs) {p q : Map × Loc} (hp : p ∈ sites) (hq : q ∈ sites) (hne : p ≠ q) :
    Apart p.1.src_uri q.1.src_uri ∧ Apart p.1.dst_path q.1.dst_path ∧ ¬ p.2 <+: q.2 ∧ ¬ q.2 <+: p.2 :=
  pairwise_mem h.apart (fun _ _ ⟨x1, x2, x3, x4⟩ => ⟨x1.symm, x2.symm, x4, x3⟩) hp hq hne

/-- different files have different URIs -/
theorem Spec.Sites.uri_inj (h : Sites c cwd sites fs) {p q : Map × Loc} (hp : p ∈ sites) (hq : q ∈ sites) {a b : List Str}
    (ha : a ≠ []) (hb : b ≠ []) (ha' : ∀ n ∈ a, PlainName n) (hb' : ∀ n ∈ b, PlainName n) (e : uriBelow p.1 a = uriBelow q.1 b) :
    p = q ∧ a = b := by
  by_cases hpq : p = q
  · subst hpq
    exact ⟨rfl, uriBelow_inj ha hb (fun n hn => (ha' n hn).1) (fun n hn => (hb' n hn).1) e⟩
  · exact absurd e ((h.apart_of hp hq hpq).1.ne _ _)

/-- different URIs have different files -/
theorem Spec.Sites.loc_inj (h : Sites c cwd sites fs) {p q : Map × Loc} (hp : p ∈ sites) (hq : q ∈ sites) {a b : List Str}
    (e : p.2 ++ a = q.2 ++ b) : p = q ∧ a = b := by
  by_cases hpq : p = q
  · subst hpq
    exact ⟨rfl, List.append_cancel_left e⟩
  · obtain ⟨-, -, h1, h2⟩ := h.apart_of hp hq hpq
    have e1 : p.2 <+: p.2 ++ a := List.prefix_append _ _
    have e2 : q.2 <+: p.2 ++ a := by rw [e]; exact List.prefix_append _ _
    rcases List.prefix_or_prefix_of_prefix e1 e2 with x | x
    · exact absurd x h1
    · exact absurd x h2

/-- A scan finds the files below the destinations, and nothing else -/
theorem Spec.Sites.scan (h : Sites c cwd sites fs) (lib : HashLib) (hashes : List Str) (hh : ∀ t ∈ hashes, HashType t) :
    ∃ dst, (Builder.new c.disc.mapper (some hashes) true false).fromDisk lib (fs.disk cwd) = .ok dst ∧
      ∀ u r, dget dst u = some r ↔ ∃ p ∈ sites, ∃ names content mtime, names ≠ [] ∧ IsFile fs (p.2 ++ names) content mtime ∧
        u = uriBelow p.1 names ∧
        r = describes (Builder.new c.disc.mapper (some hashes) true false) lib u (p.1.dst_path ++ '/' :: join ['/'] names)
          (fileStat content mtime) := by
  have hset : ∀ hs, (Builder.new c.disc.mapper (some hashes) true false).set_hashes = some hs → hs = hashes := by
    intro hs he
    unfold Builder.new at he
    cases hashes with
    | nil => simp at he
    | cons a t => simpa using he.symm
  have hres : ∀ p ∈ sites, (fs.disk cwd).resolve p.1.dst_path = none ∧ fs.get p.2 = none ∨
      fs.get p.2 = some .dir ∧
        (fs.disk cwd).resolve p.1.dst_path = some (.dir (p.2.getLast?.getD []) true (fs.tree (fs.depth + 1) p.2)) := by
    intro p hp
    cases hg : fs.get p.2 with
    | none =>
      refine .inl ⟨?_, rfl⟩
      unfold Fs.disk
      simp only
      rw [← h.place p hp, hg]
    | some x =>
      cases x with
      | file b t => exact absurd ⟨b, t, hg⟩ (h.notFile p hp)
      | dir =>
        refine .inr ⟨rfl, ?_⟩
        unfold Fs.disk
        simp only
        rw [← h.place p hp, hg]
  have hreach : ∀ root names n, Reach (fs.tree (fs.depth + 1) root) names n → ∃ j name x, names.getLast? = some name ∧
      fs.get (root ++ names) = some x ∧ n = nodeOf fs j (root ++ names.dropLast) name x :=
    fun root names n hr => reach_tree h.proper hr _ _ rfl
  have hel : ∀ root names st, Eligible (Excluded (Builder.new c.disc.mapper (some hashes) true false)) (fs.tree (fs.depth + 1) root) names st ↔
      names ≠ [] ∧ ∃ content mtime, IsFile fs (root ++ names) content mtime ∧ st = fileStat content mtime := by
    intro root names st
    constructor
    · rintro ⟨⟨nm, sp, hr⟩, -⟩
      obtain ⟨j, name, x, k1, k2, k3⟩ := hreach _ _ _ hr
      refine ⟨reach_ne_nil hr, ?_⟩
      cases x with
      | dir => simp [nodeOf] at k3
      | file b t =>
        simp only [nodeOf, FNode.file.injEq, Option.some.injEq] at k3
        exact ⟨b, t, k2, k3.2.2⟩
    · rintro ⟨hne, b, t, hf, rfl⟩
      have hm := mem_of_get (by simp [hne]) hf
      have hd := depth_ge hm
      obtain ⟨nm, hr⟩ := tree_reach h.proper names (fs.depth + 1) root hne (by simp at hd; omega) hf
      exact ⟨⟨nm, false, hr⟩, by rintro x - ⟨p, hp, -⟩; cases hp⟩
  have hmem : ∀ m, m ∈ (Builder.new c.disc.mapper (some hashes) true false).mapper ↔ ∃ p ∈ sites, p.1 = m := by
    intro m
    rw [newBuilder_mapper, h.mapper, List.mem_map]
  obtain ⟨dst, k1, k2⟩ := C42_mappings (Builder.new c.disc.mapper (some hashes) true false) lib (fs.disk cwd) rfl
    (by
      intro m hm
      obtain ⟨p, hp, rfl⟩ := (hmem m).mp hm
      exact h.dst p hp)
    (by
      rw [newBuilder_mapper, h.mapper, List.pairwise_map]
      exact h.apart.imp (fun x => ⟨x.1, x.2.1⟩))
    (by
      intro m hm
      obtain ⟨p, hp, rfl⟩ := (hmem m).mp hm
      rcases hres p hp with ⟨e, -⟩ | ⟨-, e⟩
      · exact .inl e
      · refine .inr ⟨_, _, _, e, realDir_tree h.proper _ _, ?_, ?_⟩
        · intro names n hr
          obtain ⟨j, name, x, -, k2, -⟩ := hreach _ _ _ hr
          exact fun c hc => (names_of_file h.tidy (reach_ne_nil hr) k2 c hc).2
        · intro _ names st he
          obtain ⟨-, b, t, -, rfl⟩ := (hel _ _ _).mp he
          simp [fileStat])
    (by
      intro hs he
      rw [hset hs he]
      exact hh)
  refine ⟨dst, k1, ?_⟩
  intro u r
  rw [k2]
  constructor
  · rintro ⟨m, hm, nm, cs, names, st, e0, he, e1, e2⟩
    obtain ⟨p, hp, rfl⟩ := (hmem m).mp hm
    rcases hres p hp with ⟨e, -⟩ | ⟨-, e⟩
    · rw [e] at e0; cases e0
    · rw [e] at e0; cases e0
      obtain ⟨hne, b, t, hf, rfl⟩ := (hel _ _ _).mp he
      exact ⟨p, hp, names, b, t, hne, hf, e1, e2⟩
  · rintro ⟨p, hp, names, b, t, hne, hf, e1, e2⟩
    rcases hres p hp with ⟨-, e⟩ | ⟨-, e⟩
    · have := get_prefix h.proper names hne hf
      rw [e] at this
      cases this
    · exact ⟨p.1, (hmem _).mpr ⟨p, hp, rfl⟩, _, _, names, _, e, (hel _ _ _).mpr ⟨hne, b, t, hf, rfl⟩, e1, e2⟩

end
end Resync
