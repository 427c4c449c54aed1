import Verif.Proofs.Dump
/-
C38–C41: dumps.
-/

namespace Resync
open Py Resync.Spec

/-! ### C41: check_files -/

/-- C41.  check_files() succeeds exactly when every resource names a file of at most max_size bytes whose
size is the recorded length (if there is one). -/
theorem C41_iff (cfg : DumpCfg) (getsize : Str → Option Int) (rs : List Resource) :
    (∃ x, (checkFiles cfg true true getsize rs none 0).2 = .ok x) ↔
      ∀ r ∈ rs, FileAgrees cfg.max_size getsize r := by
  constructor
  · rintro ⟨x, h⟩
    rcases hc : checkFiles cfg true true getsize rs none 0 with ⟨rs', res⟩
    rw [hc] at h
    simp only at h
    subst h
    exact (checkFiles_ok cfg getsize rs none 0 rs' x hc).1
  · intro h
    obtain ⟨rs', x, hx⟩ := checkFiles_success cfg getsize rs h none 0
    exact ⟨x, by rw [hx]⟩

/-- C41.  After a successful check_files() every resource has a path, its length is the size on disk and at
most max_size, nothing else about the resources has changed, and total_size is the sum. -/
theorem C41_lengths (cfg : DumpCfg) (getsize : Str → Option Int) (rs rs' : List Resource) (x : Option Str × Int)
    (h : checkFiles cfg true true getsize rs none 0 = (rs', .ok x)) :
    (∀ r ∈ rs', ∃ p n, r.path = some p ∧ getsize p = some n ∧ r.length = some n ∧ n ≤ cfg.max_size) ∧
    List.Forall₂ (fun r r' => r' = { r with length := r'.length }) rs rs' ∧
    x.2 = totalLength rs' := by
  obtain ⟨h1, h2, h3, -, -⟩ := checkFiles_ok cfg getsize rs none 0 rs' x h
  refine ⟨?_, ?_, by omega⟩
  · intro r hr
    rw [h2] at hr
    obtain ⟨a, ha, rfl⟩ := List.mem_map.mp hr
    obtain ⟨p, n, e1, e2, e3, -⟩ := (h1 a ha).ok
    exact ⟨p, n, e1, e2, by simp [sized, e1, e2], e3⟩
  · rw [h2]
    clear h h1 h2 h3
    induction rs with
    | nil => exact .nil
    | cons a t ih => exact .cons rfl ih

/-- C41.  When check_files() fails, the exception is DumpError and names a fault of some resource, or it is
the OS error for a file that is missing. -/
theorem C41_errors (cfg : DumpCfg) (getsize : Str → Option Int) (rs rs' : List Resource) (e : DumpErr)
    (h : checkFiles cfg true true getsize rs none 0 = (rs', .error e)) :
    (e = .noPath ∧ ∃ r ∈ rs, r.path = none) ∨
    (e = .os ∧ ∃ r ∈ rs, ∃ p, r.path = some p ∧ getsize p = none) ∨
    (e = .size ∧ ∃ r ∈ rs, ∃ p n len, r.path = some p ∧ getsize p = some n ∧ r.length = some len ∧ len ≠ n) ∨
    (e = .tooBig ∧ ∃ r ∈ rs, ∃ p n, r.path = some p ∧ getsize p = some n ∧ n > cfg.max_size) :=
  checkFiles_error cfg getsize rs none 0 rs' e h

/-- C41.  Nothing is written when check_files() fails. -/
theorem C41_nothing_written (cfg : DumpCfg) (cwd : Str) (getsize : Str → Option Int) (rs : List Resource)
    (base : Str) (sep : Bool) (h : ∃ r ∈ rs, ¬ FileAgrees cfg.max_size getsize r) :
    ∃ e, writeDump cfg cwd getsize rs base sep = ([], .error e) := by
  rcases hc : checkFiles cfg true true getsize rs none 0 with ⟨rs', e | x⟩
  · exact ⟨e, by simp only [writeDump, hc]⟩
  · obtain ⟨r, hr, hn⟩ := h
    exact absurd ((checkFiles_ok cfg getsize rs none 0 rs' x hc).1 r hr) hn

/-- files of the examples -/
def exSizes (p : Str) : Option Int :=
  if p = "/d/a".toList then some 10 else if p = "/d/s/b".toList then some 20
  else if p = "/d/c".toList then some 30 else none

def exDumpRes (u p : String) (len : Option Int) : Resource :=
  { uri := u.toList, path := some p.toList, length := len }

def exDumpList : List Resource :=
  [exDumpRes "http://e/a" "/d/a" none, exDumpRes "http://e/b" "/d/s/b" (some 20), exDumpRes "http://e/c" "/d/c" none]

def exDumpCfg : DumpCfg where
  max_size := 35
  max_files := 2

example : (∃ x, (checkFiles exDumpCfg true true exSizes exDumpList none 0).2 = .ok x) ∧
    (checkFiles exDumpCfg true true exSizes [exDumpRes "http://e/a" "/d/a" (some 9)] none 0).2 = .error .size ∧
    (checkFiles exDumpCfg true true exSizes [exDumpRes "http://e/a" "/d/none" none] none 0).2 = .error .os ∧
    (checkFiles { max_size := 5 } true true exSizes exDumpList none 0).2 = .error .tooBig :=
  ⟨⟨_, rfl⟩, by decide, by decide, by decide⟩

/-! ### C38: the manifests partition the resources -/

/-- C38.  The manifests of a dump hold the resources in order, none is empty, and none has more than max_files
entries. -/
theorem C38_partition (cfg : DumpCfg) (rs : List Resource) (ms : List (Dict Resource))
    (h : partitionDumps cfg rs = (ms, .ok ())) :
    (ms.map (fun m => m.map (·.2))).flatten = rs ∧ (∀ m ∈ ms, m ≠ []) ∧
    (0 < cfg.max_files → ∀ m ∈ ms, m.length ≤ cfg.max_files) := by
  obtain ⟨h1, h2⟩ := partLoop_spec cfg rs [] 0 0 ms _ WF_nil rfl (by omega) rfl (.inl rfl) (.inr (by simp)) h
  refine ⟨(h2 rfl).trans (List.nil_append rs), fun m hm => (h1 m hm).ne, ?_⟩
  intro hpos m hm
  have := (h1 m hm).files
  omega

/-- C38.  Iterating over the manifests gives the resources in order, when they come sorted by URI as a
ResourceList delivers them. -/
theorem C38_iteration (cfg : DumpCfg) (rs : List Resource) (ms : List (Dict Resource)) (hs : SortedByUri rs)
    (h : partitionDumps cfg rs = (ms, .ok ())) : (ms.map manifestEntries).flatten = rs := by
  obtain ⟨h1, h2⟩ := partLoop_spec cfg rs [] 0 0 ms _ WF_nil rfl (by omega) rfl (.inl rfl) (.inr (by simp)) h
  have h3 : (ms.map added).flatten = rs := by simpa [added] using h2 rfl
  have hs' : ((ms.map added).flatten).Pairwise (fun a b => a.uri < b.uri) := by rw [h3]; exact hs
  rw [List.pairwise_flatten] at hs'
  have : ms.map manifestEntries = ms.map added := by
    refine List.map_congr_left fun m hm => manifestEntries_sorted (h1 m hm).wf ?_
    exact hs'.1 _ (List.mem_map_of_mem hm)
  rw [this, h3]

/-- C38.  In whatever order the resources come, no resource is lost and none appears twice. -/
theorem C38_iteration_perm (cfg : DumpCfg) (rs : List Resource) (ms : List (Dict Resource))
    (h : partitionDumps cfg rs = (ms, .ok ())) : ((ms.map manifestEntries).flatten).Perm rs := by
  obtain ⟨h1, h2⟩ := partLoop_spec cfg rs [] 0 0 ms _ WF_nil rfl (by omega) rfl (.inl rfl) (.inr (by simp)) h
  have h3 : (ms.map added).flatten = rs := by simpa [added] using h2 rfl
  rw [← h3]
  clear h h2 h3
  induction ms with
  | nil => exact .refl _
  | cons m ms ih =>
    simp only [List.map_cons, List.flatten_cons]
    exact (manifestEntries_perm (h1 m (by simp)).wf).append (ih (fun a ha => h1 a (by simp [ha])))

/-- C38.  Partitioning succeeds for resources with distinct URIs and known lengths (check_files() sets them). -/
theorem C38_success (cfg : DumpCfg) (rs : List Resource) (hd : (rs.map (·.uri)).Nodup)
    (hl : ∀ r ∈ rs, r.length ≠ none) : ∃ ms, partitionDumps cfg rs = (ms, .ok ()) :=
  partLoop_success cfg rs [] 0 0 (by simpa [dkeys] using hd) hl

def exSized : List Resource := exDumpList.map (sized exSizes)

example : SortedByUri exSized ∧ (exSized.map (·.uri)).Nodup ∧ (∀ r ∈ exSized, r.length ≠ none) ∧
    (partitionDumps exDumpCfg exSized).1.map (fun m => m.length) = [2, 1] := by
  refine ⟨by unfold SortedByUri; decide, by decide, by decide, by decide⟩

/-- C38.  What Dump.write() puts on disk: it returns the number of packages; package i is called
basename + five-digit i + ".zip"; the manifests inside, taken together, list every resource once and in order. -/
theorem C38_written (cfg : DumpCfg) (cwd : Str) (getsize : Str → Option Int) (rs : List Resource) (base : Str)
    (sep : Bool) (effs : List DumpEff) (n : Nat) (hs : SortedByUri rs)
    (h : writeDump cfg cwd getsize rs base sep = (effs, .ok n)) :
    (packages effs).length = n ∧
    (packages effs).map (·.file) = (List.range n).map (fun i => base ++ natPad 5 i ++ ".zip".toList) ∧
    ((packages effs).flatMap (·.inner)).map (·.uri) = rs.map (·.uri) ∧
    (∀ p ∈ packages effs, p.inner ≠ [] ∧ p.members.length = p.inner.length ∧
      (0 < cfg.max_files → p.inner.length ≤ cfg.max_files)) := by
  obtain ⟨pre, tot, ls, -, h1, h2, h3, h4⟩ := writeDump_ok hs h
  have hlen : (packages effs).length = n := by
    rw [← h4.length_eq, List.length_zip, h1]; simp
  have key : ∀ (is : List Nat) (ls : List (List Resource)) (ps : List Package), is.length = ls.length →
      List.Forall₂ (fun (x : Nat × List Resource) p =>
        writeZip cwd pre (base ++ natPad 5 x.1 ++ ".zip".toList) x.2 = .ok p) (is.zip ls) ps →
      ps.map (·.file) = is.map (fun i => base ++ natPad 5 i ++ ".zip".toList) ∧
      (ps.flatMap (·.inner)).map (·.uri) = ls.flatten.map (·.uri) ∧
      (∀ p ∈ ps, ∃ l ∈ ls, p.inner.length = l.length ∧ p.members.length = l.length) := by
    intro is
    induction is with
    | nil =>
      intro ls ps hl hf
      cases ls with
      | nil => cases hf; simp
      | cons _ _ => simp at hl
    | cons i is ih =>
      intro ls ps hl hf
      cases ls with
      | nil => simp at hl
      | cons l ls =>
        rw [List.zip_cons_cons] at hf
        cases hf with
        | cons hz hf =>
          rename_i p ps
          obtain ⟨a1, a2, a3⟩ := ih ls ps (by simpa using hl) hf
          obtain ⟨b1, b2, b3, b4⟩ := writeZip_entries hz
          refine ⟨by simp [a1, b1], ?_, ?_⟩
          · rw [List.flatMap_cons, List.map_append, a2, List.flatten_cons, List.map_append, b4]
          · intro q hq
            rcases List.mem_cons.mp hq with rfl | hq
            · exact ⟨l, by simp, b2, b3⟩
            · obtain ⟨l', hl', c⟩ := a3 q hq
              exact ⟨l', by simp [hl'], c⟩
  obtain ⟨k1, k2, k3⟩ := key (List.range n) ls (packages effs) (by simp [h1]) h4
  refine ⟨hlen, k1, ?_, ?_⟩
  · rw [k2, h2, List.map_map]; rfl
  · intro p hp
    obtain ⟨l, hl, e1, e2⟩ := k3 p hp
    obtain ⟨n1, n2⟩ := h3 l hl
    refine ⟨?_, by omega, fun hpos => by omega⟩
    intro e
    rw [e] at e1
    exact n1 (List.length_eq_zero_iff.mp e1.symm)

example : ∃ effs, writeDump exDumpCfg "/home".toList exSizes exDumpList "/tmp/rd_".toList false = (effs, .ok 2) ∧
    (packages effs).map (fun p => (String.ofList p.file, p.inner.map (fun r => String.ofList r.uri), p.members.map (fun m => (String.ofList m.1, String.ofList m.2)))) =
      [("/tmp/rd_00000.zip", ["http://e/a", "http://e/b"], [("a", "/d/a"), ("s/b", "/d/s/b")]),
       ("/tmp/rd_00001.zip", ["http://e/c"], [("c", "/d/c")])] := ⟨_, rfl, by decide⟩

/-! ### C39: the size of packages -/

/-- C39, what holds: without its last file a package is below max_size, and a package is below max_size plus
the size of its last file, thus below twice max_size.  What is missing: the bound max_size itself, see
`C39_violated`. -/
theorem C39_partial (cfg : DumpCfg) (cwd : Str) (getsize : Str → Option Int) (rs : List Resource)
    (rs' : List Resource) (x : Option Str × Int) (ms : List (Dict Resource)) (hpos : 0 < cfg.max_size)
    (hc : checkFiles cfg true true getsize rs none 0 = (rs', .ok x))
    (h : partitionDumps cfg rs' = (ms, .ok ())) (m : Dict Resource) (hm : m ∈ ms) :
    totalLength (m.map (·.2)).dropLast < cfg.max_size ∧ totalLength (m.map (·.2)) < 2 * cfg.max_size := by
  obtain ⟨h1, h2⟩ := partLoop_spec cfg rs' [] 0 0 ms _ WF_nil rfl (by omega) rfl (.inl rfl) (.inr (by simp)) h
  have h3 : (ms.map added).flatten = rs' := (h2 rfl).trans (List.nil_append _)
  have hmem : ∀ r ∈ added m, r ∈ rs' := by
    intro r hr
    rw [← h3, List.mem_flatten]
    exact ⟨_, List.mem_map_of_mem hm, hr⟩
  have hok := h1 m hm
  have hne : added m ≠ [] := by simpa [added] using hok.ne
  have hlast := (C41_lengths cfg getsize rs rs' x hc).1 _ (hmem _ (List.getLast_mem hne))
  obtain ⟨p, n, -, -, e3, e4⟩ := hlast
  have hd : totalLength (added m).dropLast < cfg.max_size := by
    rcases hok.size with h | h
    · exact h
    · have : (added m).dropLast = [] := by
        rw [← List.length_eq_zero_iff, List.length_dropLast]; simp [added, h]
      rw [this]; exact hpos
  refine ⟨hd, ?_⟩
  have : totalLength (added m) = totalLength (added m).dropLast + n := by
    conv => lhs; rw [← List.dropLast_append_getLast hne]
    rw [totalLength_append]; simp [totalLength, e3]
  show totalLength (added m) < _
  omega

example : ∃ ms, (partitionDumps exDumpCfg (checkFiles exDumpCfg true true exSizes exDumpList none 0).1) = (ms, .ok ()) ∧
    (ms.map (fun m => totalLength (m.map (·.2)))) = [30, 30] := ⟨_, rfl, by decide⟩

/-- C39 does not hold: two files of one byte less than max_size go into one package, for every max_size
of at least 3. -/
theorem C39_violated (cfg : DumpCfg) (h1 : 3 ≤ cfg.max_size) (h2 : 3 ≤ cfg.max_files) (a b : Resource)
    (hab : a.uri ≠ b.uri) (ha : a.length = some (cfg.max_size - 1)) (hb : b.length = some (cfg.max_size - 1)) :
    ∃ m, partitionDumps cfg [a, b] = ([m], .ok ()) ∧ totalLength (m.map (·.2)) > cfg.max_size := by
  refine ⟨[(a.uri, a), (b.uri, b)], ?_, ?_⟩
  · have e1 : dictAdd [] a false = .ok [(a.uri, a)] := rfl
    have e2 : dictAdd [(a.uri, a)] b false = .ok [(a.uri, a), (b.uri, b)] := by
      simp [dictAdd, dget, dset, hab]
    simp only [partitionDumps, partLoop, e1, ha]
    rw [if_neg (by omega)]
    simp only [e2, hb]
    rw [if_pos (by omega)]
    simp
  · simp only [List.map_cons, List.map_nil, totalLength, ha, hb, Option.getD_some]
    omega

example : ∃ effs p, writeDump { max_size := 25 } "/".toList exSizes
      [exDumpRes "http://e/a" "/d/a" none, exDumpRes "http://e/b" "/d/s/b" none] "x".toList false = (effs, .ok 1) ∧
    packages effs = [p] ∧ totalLength p.inner = 30 := ⟨_, _, rfl, rfl, by decide⟩

/-! ### C40: paths in the archive -/

/-- C40.  Paths of different files get different archive paths, whatever the common prefix. -/
theorem C40_distinct (cwd : Str) (hc : IsAbs cwd) (pre : Option Str) (p q a : Str) (hp : p ≠ []) (hq : q ≠ [])
    (h1 : archivePath cwd pre p = some a) (h2 : archivePath cwd pre q = some a) :
    location (location [] cwd) p = location (location [] cwd) q :=
  archivePath_injective hc pre hp hq h1 h2

example : archivePath "/h".toList (some "/d".toList) "/d/s/b".toList = some "s/b".toList ∧
    archivePath "/h".toList (some "/d".toList) "/d/./s//b".toList = some "s/b".toList := by decide

/-- C40.  In a written dump every entry of a manifest.xml comes with the archive member it names, that member is
a copy of the resource's file, and apart from path and length the entry is the resource. -/
theorem C40_members (cfg : DumpCfg) (cwd : Str) (hc : IsAbs cwd) (getsize : Str → Option Int) (hg : getsize [] = none)
    (rs : List Resource) (base : Str) (sep : Bool) (effs : List DumpEff) (n : Nat) (hs : SortedByUri rs)
    (hd : DistinctFiles (location [] cwd) (rs.filterMap (·.path)))
    (h : writeDump cfg cwd getsize rs base sep = (effs, .ok n)) :
    List.Forall₂ (fun r (x : Resource × (Str × Str)) =>
        r.path = some x.2.2 ∧ x.1.path = some x.2.1 ∧
        x.1 = { r with path := x.1.path, length := getsize x.2.2 })
      rs ((packages effs).flatMap (fun p => p.inner.zip p.members)) := by
  obtain ⟨pre, tot, ls, hck, h1, h2, -, h4⟩ := writeDump_ok hs h
  have hagree := (checkFiles_ok cfg getsize rs none 0 _ _ hck).1
  have hne : ∀ r ∈ rs, ∀ p, r.path = some p → p ≠ [] := by
    rintro r hr p hp rfl
    obtain ⟨q, m, e1, e2, -⟩ := (hagree r hr).ok
    rw [hp] at e1; cases e1
    rw [hg] at e2; cases e2
  have hinj : ∀ r ∈ rs.map (sized getsize), ∀ r' ∈ rs.map (sized getsize), ∀ p q a, r.path = some p → r'.path = some q →
      archivePath cwd pre p = some a → archivePath cwd pre q = some a → p = q := by
    intro r hr r' hr' p q a hp hq ha ha'
    obtain ⟨r0, hr0, rfl⟩ := List.mem_map.mp hr
    obtain ⟨r1, hr1, rfl⟩ := List.mem_map.mp hr'
    have hp : r0.path = some p := hp
    have hq : r1.path = some q := hq
    exact hd p (List.mem_filterMap.mpr ⟨r0, hr0, hp⟩) q (List.mem_filterMap.mpr ⟨r1, hr1, hq⟩)
      (archivePath_injective hc pre (hne r0 hr0 p hp) (hne r1 hr1 q hq) ha ha')
  have key : ∀ (is : List Nat) (ls : List (List Resource)) (ps : List Package), is.length = ls.length →
      (∀ r ∈ ls.flatten, r ∈ rs.map (sized getsize)) →
      List.Forall₂ (fun (x : Nat × List Resource) p =>
        writeZip cwd pre (base ++ natPad 5 x.1 ++ ".zip".toList) x.2 = .ok p) (is.zip ls) ps →
      List.Forall₂ (fun r (x : Resource × (Str × Str)) => Packed cwd pre r x.1 x.2) ls.flatten
        (ps.flatMap (fun p => p.inner.zip p.members)) := by
    intro is
    induction is with
    | nil =>
      intro ls ps hl _ hf
      cases ls with
      | nil => cases hf; exact .nil
      | cons _ _ => simp at hl
    | cons i is ih =>
      intro ls ps hl hmem hf
      cases ls with
      | nil => simp at hl
      | cons l ls =>
        rw [List.zip_cons_cons] at hf
        cases hf with
        | cons hz hf =>
          rename_i p ps
          have a := ih ls ps (by simpa using hl) (fun r hr => hmem r (by simp only [List.flatten_cons, List.mem_append]; exact .inr hr)) hf
          have hl' : ∀ r ∈ l, r ∈ rs.map (sized getsize) :=
            fun r hr => hmem r (by simp only [List.flatten_cons, List.mem_append]; exact .inl hr)
          obtain ⟨-, -, -, b⟩ := writeZip_ok hz (fun r hr r' hr' => hinj r (hl' r hr) r' (hl' r' hr'))
          rw [List.flatten_cons, List.flatMap_cons]
          exact List.rel_append b a
  have := key (List.range n) ls (packages effs) (by simp [h1]) (fun r hr => by rw [← h2]; exact hr) h4
  rw [h2, List.forall₂_map_left_iff] at this
  refine this.imp ?_
  rintro r ⟨e, m⟩ ⟨k1, k2, k3⟩
  have k1 : r.path = some m.2 := k1
  have k3 : e = { sized getsize r with path := some m.1 } := k3
  subst k3
  refine ⟨k1, rfl, ?_⟩
  show { sized getsize r with path := some m.1 } = { r with path := some m.1, length := getsize m.2 }
  have k4 : (sized getsize r).length = getsize m.2 := by
    have : r.path = some m.2 := k1
    simp [sized, this]
  exact congrArg (fun x => { r with path := some m.1, length := x }) k4

example : IsAbs "/h".toList ∧ exSizes [] = none ∧ SortedByUri exDumpList ∧
    DistinctFiles (location [] "/h".toList) (exDumpList.filterMap (·.path)) ∧
    (writeDump exDumpCfg "/h".toList exSizes exDumpList "x".toList false).2.toOption = some 2 := by
  refine ⟨⟨_, rfl⟩, by decide, by unfold SortedByUri; decide, ?_, by decide⟩
  unfold DistinctFiles; decide

/-- C40.  An archive path (relative to a common prefix) has no '..' component exactly when the file is in the
directory the prefix denotes, or below it. -/
theorem C40_inside_iff (cwd : Str) (hc : IsAbs cwd) (pre p a : Str) (hpre : pre ≠ []) (hp : p ≠ [])
    (h : archivePath cwd (some pre) p = some a) :
    NoDotDot a ↔ Within (location (location [] cwd) pre) (location (location [] cwd) p) := by
  have : archivePath cwd (some pre) p = relpath cwd p pre := by
    unfold archivePath
    split
    · rename_i h; cases h
    · rename_i h; cases h; exact absurd rfl hpre
    · rename_i h; cases h; rfl
  rw [this] at h
  exact relpath_noDotDot hc hp h

/-- C40, what holds: if all files are below directory `d` and at least one lies directly in it, then
no archive path has a '..' component.  What is missing: files that lie in different subdirectories only,
see `C40_violated`. -/
theorem C40_inside_partial (cfg : DumpCfg) (cwd : Str) (hc : IsAbs cwd) (getsize : Str → Option Int)
    (rs rs' : List Resource) (pre : Option Str) (tot : Int) (d : Str) (hd : d ≠ []) (hl : d.getLast? ≠ some '/')
    (hck : checkFiles cfg true true getsize rs none 0 = (rs', .ok (pre, tot)))
    (hbelow : ∀ r ∈ rs, ∃ rel, r.path = some (d ++ '/' :: rel) ∧ NoDotDot rel)
    (hdirect : ∃ r ∈ rs, ∃ f, r.path = some (d ++ '/' :: f) ∧ '/' ∉ f) :
    ∀ r ∈ rs, ∀ p, r.path = some p → ∃ a, archivePath cwd pre p = some a ∧ NoDotDot a := by
  obtain ⟨r0, hr0, f, hf, hnf⟩ := hdirect
  obtain ⟨-, -, -, h4, h5⟩ := checkFiles_ok cfg getsize rs none 0 rs' _ hck
  have hpre : pre = some d := by
    cases pre with
    | none =>
      have := (h5.mp rfl).2
      rw [this] at hr0; simp at hr0
    | some q =>
      obtain ⟨-, k2, k3⟩ := h4 q rfl
      have e1 : q <+: d := by
        have := k2 r0 hr0 _ hf
        rwa [(dirname_below hd hl f).2 hnf] at this
      have e2 : d <+: q := by
        refine k3 d (by simp) ?_
        intro r hr p hp
        obtain ⟨rel, e, -⟩ := hbelow r hr
        rw [hp] at e; cases e
        exact (dirname_below hd hl rel).1
      rw [e1.eq_of_length (le_antisymm e1.length_le e2.length_le)]
  subst hpre
  intro r hr p hp
  obtain ⟨rel, e, hrel⟩ := hbelow r hr
  rw [hp] at e
  have e : p = d ++ '/' :: rel := Option.some.inj e
  have hpne : p ≠ [] := by rw [e]; simp
  obtain ⟨a, ha⟩ := archivePath_some hc (some d) hpne
  refine ⟨a, ha, (C40_inside_iff cwd hc d p a hd hpne ha).mpr ?_⟩
  rw [e, location_append]
  have hdl : location (location [] cwd) (d ++ ['/']) = location (location [] cwd) d := by
    have : splitOn '/' (d ++ ['/']) = splitOn '/' d ++ [[]] := by
      rw [splitOn_append_sep]; simp [splitOn]
    generalize location [] cwd = L
    cases d with
    | nil => exact absurd rfl hd
    | cons c t =>
      unfold location
      split
      · rename_i heq; cases heq
        rw [this, walkFrom_append]; simp [walkFrom]
      · rename_i hno
        split
        · rename_i heq; cases heq; exact absurd rfl (hno _)
        · rw [this, walkFrom_append]; simp [walkFrom]
  rw [hdl]
  exact walkFrom_noDotDot _ hrel

example : ∃ rs' pre tot, checkFiles exDumpCfg true true exSizes exDumpList none 0 = (rs', .ok (pre, tot)) ∧
    pre = some "/d".toList ∧
    (∀ r ∈ exDumpList, ∃ rel, r.path = some ("/d".toList ++ '/' :: rel) ∧ NoDotDot rel) ∧
    (∃ r ∈ exDumpList, ∃ f, r.path = some ("/d".toList ++ '/' :: f) ∧ '/' ∉ f) := by
  refine ⟨_, _, _, rfl, rfl, ?_, ?_⟩
  · intro r hr
    simp only [exDumpList, List.mem_cons, List.not_mem_nil, or_false] at hr
    rcases hr with rfl | rfl | rfl
    · exact ⟨"a".toList, rfl, by unfold NoDotDot; decide⟩
    · exact ⟨"s/b".toList, rfl, by unfold NoDotDot; decide⟩
    · exact ⟨"c".toList, rfl, by unfold NoDotDot; decide⟩
  · exact ⟨exDumpRes "http://e/a" "/d/a" none, by simp [exDumpList], "a".toList, rfl, by decide⟩

/-- two directories with a common beginning of their names -/
def exAbAc (p : Str) : Option Int :=
  if p = "/tmp/ab/x".toList then some 1 else if p = "/tmp/ac/y".toList then some 1 else none

/-- C40 does not hold: the common prefix is computed character by character, so files in /tmp/ab and /tmp/ac
are archived as ../ab/x and ../ac/y. -/
theorem C40_violated : ∃ effs p,
    writeDump {} "/".toList exAbAc [exDumpRes "http://e/x" "/tmp/ab/x" none, exDumpRes "http://e/y" "/tmp/ac/y" none]
      "/tmp/o".toList false = (effs, .ok 1) ∧ packages effs = [p] ∧
    p.members.map (·.1) = ["../ab/x".toList, "../ac/y".toList] ∧ ∀ m ∈ p.members, ¬ NoDotDot m.1 :=
  ⟨_, _, rfl, rfl, by decide, by unfold NoDotDot; decide⟩

/-- C40 does not hold either for a resource whose file is called manifest.xml: it gets the archive path under
which the manifest of the package is stored. -/
theorem C40_manifest_name_violated : ∃ effs p,
    writeDump {} "/".toList (fun p => if p = "/d/manifest.xml".toList then some 1 else none)
      [exDumpRes "http://e/x" "/d/manifest.xml" none] "/tmp/o".toList false = (effs, .ok 1) ∧
    packages effs = [p] ∧ p.members.map (·.1) = ["manifest.xml".toList] :=
  ⟨_, _, rfl, rfl, by decide⟩

/-- C40: the separate manifest written next to a package is written before the paths are replaced, so it lists
the local paths of the files, not the paths in the archive. -/
theorem C40_separate_manifest_violated : ∃ name ms p,
    writeDump exDumpCfg "/".toList exSizes [exDumpRes "http://e/a" "/d/a" none] "/tmp/o".toList true =
      ([.manifest name ms, .package p], .ok 1) ∧
    ms.map (·.path) = [some "/d/a".toList] ∧ p.members.map (·.1) = ["a".toList] :=
  ⟨_, _, _, rfl, by decide, by decide⟩

theorem partLoop_mem (cfg : DumpCfg) (rs : List Resource) : ∀ (d : Dict Resource) (size : Int) (n : Nat),
    ∀ m ∈ (partLoop cfg rs d size n).1, ∀ k r, dget m k = some r → dget d k = some r ∨ r ∈ rs := by
  induction rs with
  | nil =>
    intro d size n m hm k r hk
    simp only [partLoop] at hm
    split at hm
    · rw [List.mem_singleton.mp hm] at hk; exact .inl hk
    · cases hm
  | cons a t ih =>
    intro d size n m hm k r hk
    have hdset : ∀ d', dictAdd d a false = .ok d' → dget d' k = some r → dget d k = some r ∨ r ∈ a :: t := by
      intro d' h1 h2
      have : d' = dset d a.uri a := by
        unfold dictAdd at h1
        split at h1
        · cases h1
        · cases h1; rfl
      rw [this] at h2
      by_cases e : k = a.uri
      · rw [e, dget_dset_self] at h2
        cases h2; exact .inr (by simp)
      · rw [dget_dset_ne _ _ (Ne.symm e)] at h2
        exact .inl h2
    rw [partLoop] at hm
    split at hm
    · cases hm
    · rename_i d' hadd
      split at hm
      · cases hm
      · split at hm
        · rcases List.mem_cons.mp hm with rfl | hm
          · exact hdset _ hadd hk
          · rcases ih _ _ _ m hm k r hk with h | h
            · cases h
            · exact .inr (by simp [h])
        · rcases ih _ _ _ m hm k r hk with h | h
          · exact hdset _ hadd h
          · exact .inr (by simp [h])

theorem warcRecords_mem (cwd : Str) (pre : Option Str) (rs : List Resource) :
    ∀ x ∈ (warcRecords cwd pre rs).1, ∃ r ∈ rs, x.url = r.uri ∧ some x.payload = r.path ∧ x.date = r.timestamp ∧
      some x.location = archivePath cwd pre x.payload := by
  induction rs with
  | nil => intro x hx; simp [warcRecords] at hx
  | cons a t ih =>
    intro x hx
    rw [warcRecords] at hx
    split at hx
    · cases hx
    · rename_i p hp
      split at hx
      · cases hx
      · rcases List.mem_cons.mp hx with rfl | hx
        · exact ⟨a, by simp, rfl, hp.symm, rfl, by symm; assumption⟩
        · obtain ⟨r, h1, h2⟩ := ih x hx
          exact ⟨r, by simp [h1], h2⟩

/-- C38 does not hold for the format WARC: whenever there is something to dump, write() ends with an exception, with and without the
library; no ZIP file has been written, at most one WARC file, and the content of its records are not the files but their
paths.  (They have the dates of the resources, and as locations the names that the files would have in a ZIP file.) -/
theorem C38_warc_violated (cfg : DumpCfg) (hf : cfg.format = "warc".toList) (cwd : Str) (getsize : Str → Option Int) (rs : List Resource)
    (hrs : rs ≠ []) (base : Str) (sep : Bool) :
    (∃ e, (writeDump cfg cwd getsize rs base sep).2 = .error e) ∧ packages (writeDump cfg cwd getsize rs base sep).1 = [] ∧
    ∀ file recs, DumpEff.warc file recs ∈ (writeDump cfg cwd getsize rs base sep).1 → file = base ++ "00000.warc".toList ∧
      ∀ x ∈ recs, ∃ r ∈ rs, x.url = r.uri ∧ some x.payload = r.path ∧ x.date = r.timestamp ∧
        ∃ pre size, (checkFiles cfg true true getsize rs none 0).2 = .ok (pre, size) ∧ some x.location = archivePath cwd pre x.payload := by
  unfold writeDump
  rcases hc : checkFiles cfg true true getsize rs none 0 with ⟨rs', e | x⟩
  · exact ⟨⟨e, rfl⟩, rfl, by simp⟩
  · obtain ⟨h1, h2, -⟩ := checkFiles_ok cfg getsize rs none 0 rs' x hc
    obtain ⟨pre, tot⟩ := x
    dsimp only
    rcases hp : partitionDumps cfg rs' with ⟨ms, res⟩
    have hmem := partLoop_mem cfg rs' [] 0 0
    rw [show partLoop cfg rs' [] 0 0 = (ms, res) from hp] at hmem
    dsimp only
    cases ms with
    | nil =>
      have hres : ∃ e, res = .error e := by
        cases res with
        | error e => exact ⟨e, rfl⟩
        | ok u =>
          obtain ⟨hflat, -⟩ := C38_partition cfg rs' [] hp
          rw [h2] at hflat
          simp at hflat
          exact absurd hflat hrs
      obtain ⟨e, rfl⟩ := hres
      simp only [writePackages]
      exact ⟨⟨e, rfl⟩, rfl, by simp⟩
    | cons m ms =>
      have hrec : ∀ y ∈ (warcRecords cwd pre (manifestEntries m)).1, ∃ r ∈ rs, y.url = r.uri ∧ some y.payload = r.path ∧
          y.date = r.timestamp ∧ ∃ pre' size, Except.ok (pre, tot) = (Except.ok (pre', size) : Except DumpErr _) ∧
            some y.location = archivePath cwd pre' y.payload := by
        intro y hy
        obtain ⟨r, hr, e1, e2, e3, e4⟩ := warcRecords_mem cwd pre _ y hy
        obtain ⟨k, -, hk⟩ := List.mem_filterMap.mp hr
        rcases hmem m (by simp) k r hk with h | h
        · cases h
        · rw [h2] at h
          obtain ⟨r0, h3, rfl⟩ := List.mem_map.mp h
          refine ⟨r0, h3, ?_, ?_, ?_, _, _, rfl, e4⟩
          · rw [e1]; rfl
          · rw [e2]; rfl
          · rw [e3]; rfl
      rw [writePackages]
      dsimp only
      rw [if_neg (by rw [hf]; decide), if_pos hf]
      have hww : (writeWarc cfg cwd pre (base ++ natPad 5 0 ++ '.' :: cfg.format) (manifestEntries m)).1 = [] ∨
          ∃ recs, (writeWarc cfg cwd pre (base ++ natPad 5 0 ++ '.' :: cfg.format) (manifestEntries m)).1 = [.warc (base ++ "00000.warc".toList) recs] ∧
            ∀ y ∈ recs, ∃ r ∈ rs, y.url = r.uri ∧ some y.payload = r.path ∧
              y.date = r.timestamp ∧ ∃ pre' size, Except.ok (pre, tot) = (Except.ok (pre', size) : Except DumpErr _) ∧
                some y.location = archivePath cwd pre' y.payload := by
        have hname : base ++ natPad 5 0 ++ '.' :: cfg.format = base ++ "00000.warc".toList := by
          rw [hf, List.append_assoc]; rfl
        rw [hname]
        unfold writeWarc
        split
        · exact .inl rfl
        · right
          rcases hw : warcRecords cwd pre (manifestEntries m) with ⟨recs, e | u⟩ <;> rw [hw] at hrec <;> exact ⟨recs, rfl, hrec⟩
      revert hww
      rcases writeWarc cfg cwd pre (base ++ natPad 5 0 ++ '.' :: cfg.format) (manifestEntries m) with ⟨effs, e⟩
      intro hww
      dsimp only at hww ⊢
      refine ⟨⟨_, rfl⟩, ?_⟩
      rcases hww with rfl | ⟨recs, rfl, hrecs⟩
      · refine ⟨by cases sep <;> rfl, ?_⟩
        intro file recs h
        cases sep <;> simp at h
      · refine ⟨by cases sep <;> rfl, ?_⟩
        intro file recs' h
        have h : file = base ++ "00000.warc".toList ∧ recs' = recs := by
          cases sep <;> simpa using h
        obtain ⟨rfl, rfl⟩ := h
        exact ⟨rfl, hrecs⟩

example : ∃ file rec, writeDump { format := "warc".toList, warc_library := true } "/".toList exSizes [exDumpRes "http://e/a" "/d/a" none]
    "/tmp/o".toList false = ([.warc file [rec]], .error .attr) ∧ rec.payload = "/d/a".toList :=
  ⟨_, _, rfl, by decide⟩

end Resync
