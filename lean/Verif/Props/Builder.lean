import Verif.Proofs.Builder
/-
C42: scanning the disk.
-/

namespace Resync
open Py Resync.Spec

theorem exclude_iff (b : Builder) (c : Str) : b.exclude c = true ↔ Excluded b c := by
  simp only [Builder.exclude, List.any_eq_true, Excluded, Option.isSome_iff_exists]

theorem pathJoin_filePath (p : Str) (x : List Str × FNode) :
    pathJoin (x.1.foldl pathJoin p) x.2.name = filePath p (namesOf x) := by
  simp [filePath, namesOf]

/-- a file in the walk for every eligible file -/
theorem eligible_walk {b : Builder} (p : Str) {cs : List FNode} {names : List Str} {st : Stat}
    (h : Eligible (Excluded b) cs names st) : ∃ d nm sp, (d, FNode.file nm sp (some st)) ∈ walk b.exclude p cs ∧
      b.exclude nm = false ∧ pathJoin d nm = filePath p names := by
  obtain ⟨⟨nm, sp, hr⟩, hex⟩ := h
  have hne := reach_ne_nil hr
  have hlast : ∃ ds, names = ds ++ [nm] := by
    clear hex
    generalize hn : FNode.file nm sp (some st) = n at hr
    induction hr with
    | here h => subst hn; exact ⟨[], rfl⟩
    | sub _ h ih =>
      obtain ⟨ds, e⟩ := ih (reach_ne_nil h) hn
      exact ⟨_ :: ds, by rw [e]; rfl⟩
  obtain ⟨ds, rfl⟩ := hlast
  have hx : (ds, FNode.file nm sp (some st)) ∈ walkN b.exclude cs := by
    refine mem_walkN.mpr ⟨hr, rfl, ?_⟩
    intro c hc
    have := hex c (List.mem_append_left _ hc)
    rw [← exclude_iff] at this
    simpa using this
  refine ⟨ds.foldl pathJoin p, nm, sp, ?_, ?_, by simp [filePath]⟩
  · rw [walk_eq]; exact List.mem_map.mpr ⟨_, hx, rfl⟩
  · have := hex nm (by simp)
    rw [← exclude_iff] at this
    simpa using this

/-- a file that contributes is eligible -/
theorem contrib_eligible {b : Builder} {lib : HashLib} (hl : b.include_symlinks = false) {p : Str} {cs : List FNode}
    {r : Resource} {x : List Str × FNode} (hx : x ∈ walkN b.exclude cs)
    (hc : Contrib b lib (x.1.foldl pathJoin p, x.2) r) :
    ∃ uri st, Eligible (Excluded b) cs (namesOf x) st ∧ b.mapper.dstToSrc (filePath p (namesOf x)) = .ok uri ∧
        r = describes b lib uri (filePath p (namesOf x)) st := by
  have hm := mem_walkN.mp hx
  obtain ⟨uri, st, e1, e2, e3⟩ := hc.ok
  simp only [pathJoin_filePath] at e1 e2 e3
  refine ⟨uri, st, ⟨?_, ?_⟩, e1, fileResource_ok e3⟩
  · have hr := hm.reach
    have hlk := hc.link
    obtain ⟨ds, n⟩ := x
    cases n with
    | file nm sp st' =>
      simp only [FNode.stat] at e2
      subst e2
      exact ⟨nm, sp, hr⟩
    | link nm d st' =>
      have := hlk rfl
      rw [hl] at this; cases this
    | dir => simp [FNode.stat] at e2
  · intro c hc' hex
    rw [← exclude_iff] at hex
    rcases List.mem_append.mp hc' with h | h
    · rw [hm.dirs c h] at hex; cases hex
    · rw [List.mem_singleton.mp h, hc.name] at hex; cases hex

theorem fromDisk_start (b : Builder) (lib : HashLib) (disk : Disk) (rl : Dict Resource) (paths : Option (List Str)) :
    b.fromDisk lib disk rl paths = b.fromDisk lib disk rl (some (startPaths b paths)) := by
  cases paths <;> rfl

/-- C42.  In a scan of directories that succeeds, each eligible file (not a directory, not a link, no excluded
name on the way) below one of the start paths (those given, or else the destination of
each mapping) is mapped to a URI, and the list has the resource that describes the file
for that URI. -/
theorem C42_complete (b : Builder) (lib : HashLib) (disk : Disk) (paths : Option (List Str)) (rl : Dict Resource)
    (hdirs : ∀ p ∈ startPaths b paths, ∃ nm rd cs, disk.resolve p = some (.dir nm rd cs))
    (h : b.fromDisk lib disk [] paths = .ok rl)
    (p : Str) (hp : p ∈ startPaths b paths) (nm : Str) (cs : List FNode) (hres : disk.resolve p = some (.dir nm true cs))
    (names : List Str) (st : Stat) (he : Eligible (Excluded b) cs names st) :
    ∃ u, b.mapper.dstToSrc (filePath p names) = .ok u ∧
      dget rl u = some (describes b lib u (filePath p names) st) := by
  rw [fromDisk_start, fromDisk_dirs _ [] hdirs] at h
  obtain ⟨d, nm, sp, hw, hx, hj⟩ := eligible_walk p he
  have hf : (d, FNode.file nm sp (some st)) ∈ scanned b disk (startPaths b paths) := by
    unfold scanned
    rw [List.mem_flatMap]
    exact ⟨p, hp, by rw [hres]; exact hw⟩
  obtain ⟨rl1, rl2, h1⟩ := addAll_processed _ h _ hf
  obtain ⟨u, hu, hst⟩ := addFile_processed h1 hx rfl
  obtain ⟨r, hr⟩ := hst st rfl
  have hj : pathJoin d (FNode.file nm sp (some st)).name = filePath p names := hj
  have hc : Contrib b lib (d, FNode.file nm sp (some st)) r := ⟨hx, by simp [FNode.islink], u, st, hu, rfl, hr⟩
  simp only [hj] at hu hr
  refine ⟨u, hu, ?_⟩
  have hd := fileResource_ok hr
  rw [addAll_ok _ h, ← hd]
  exact .inr ⟨by rw [hd]; rfl, _, hf, hc⟩

/-- C42.  ... and the list has nothing else. -/
theorem C42_sound (b : Builder) (lib : HashLib) (disk : Disk) (paths : Option (List Str)) (rl : Dict Resource)
    (hl : b.include_symlinks = false)
    (hdirs : ∀ p ∈ startPaths b paths, ∃ nm rd cs, disk.resolve p = some (.dir nm rd cs))
    (h : b.fromDisk lib disk [] paths = .ok rl) (u : Str) (r : Resource) (hr : dget rl u = some r) :
    ∃ p ∈ startPaths b paths, ∃ nm cs names st, disk.resolve p = some (.dir nm true cs) ∧
      Eligible (Excluded b) cs names st ∧ b.mapper.dstToSrc (filePath p names) = .ok u ∧
      r = describes b lib u (filePath p names) st := by
  rw [fromDisk_start, fromDisk_dirs _ [] hdirs] at h
  rw [addAll_ok _ h] at hr
  simp only [dget, reduceCtorEq, false_or] at hr
  obtain ⟨e, f, hf, hc⟩ := hr
  unfold scanned at hf
  obtain ⟨p, hp, hf⟩ := List.mem_flatMap.mp hf
  obtain ⟨nm, rd, cs, hres⟩ := hdirs p hp
  rw [hres] at hf
  cases rd with
  | false => simp at hf
  | true =>
    simp only at hf
    rw [walk_eq] at hf
    obtain ⟨x, hx, rfl⟩ := List.mem_map.mp hf
    obtain ⟨uri, st, h1, h2, h3⟩ := contrib_eligible hl hx hc
    have : uri = u := by rw [← e, h3]; rfl
    subst this
    exact ⟨p, hp, nm, cs, _, st, hres, h1, h2, h3⟩

/-- C42.  The usual case, one mapping whose destination is a directory: the scan succeeds for every directory tree
(with one-line names), and lists exactly the eligible files, `d/x/y` under URI `base/x/y`.  Hashes, if asked for, are
supported and the files can be read. -/
theorem C42_one_mapping (b : Builder) (lib : HashLib) (disk : Disk) (m : Map) (nm : Str) (cs : List FNode)
    (hm : b.mapper = [m]) (hl : b.include_symlinks = false)
    (hlit : LiteralOrDot m.dst_path) (hd : m.dst_path ≠ []) (hd' : m.dst_path.getLast? ≠ some '/') (h1 : OneLine m.dst_path)
    (hres : disk.resolve m.dst_path = some (.dir nm true cs)) (hreal : RealDir cs)
    (hone : ∀ names n, Reach cs names n → ∀ c ∈ names, OneLine c)
    (hhash : ∀ hs, b.set_hashes = some hs → (∀ t ∈ hs, t = "md5".toList ∨ t = "sha-1".toList ∨ t = "sha-256".toList) ∧
      ∀ names st, Eligible (Excluded b) cs names st → st.content ≠ none) :
    ∃ rl, b.fromDisk lib disk = .ok rl ∧ ∀ u r, dget rl u = some r ↔ ∃ names st, Eligible (Excluded b) cs names st ∧
      u = m.src_uri ++ '/' :: join ['/'] names ∧
      r = describes b lib u (m.dst_path ++ '/' :: join ['/'] names) st := by
  have hpaths : b.fromDisk lib disk = b.fromDisk lib disk [] (some [m.dst_path]) := by
    simp [Builder.fromDisk, hm]
  have hfp : ∀ names n, Reach cs names n → filePath m.dst_path names = m.dst_path ++ '/' :: join ['/'] names := by
    intro names n hr
    have hn := reach_names hreal hr
    have := pathJoinAll_join m.dst_path names hd hd' hn
    rw [filePath, this]
    cases names with
    | nil => exact absurd rfl (reach_ne_nil hr)
    | cons a t => simp [join]
  have hmap : ∀ names n, Reach cs names n → b.mapper.dstToSrc (filePath m.dst_path names) =
      .ok (m.src_uri ++ '/' :: join ['/'] names) := by
    intro names n hr
    have ho : OneLine (m.dst_path ++ '/' :: join ['/'] names) := by
      refine oneLine_append.mpr ⟨h1, ?_⟩
      have : ∀ l : List Str, (∀ c ∈ l, OneLine c) → OneLine (join ['/'] l) := by
        intro l
        induction l with
        | nil => intro _; simp [join, OneLine]
        | cons a t ih =>
          intro h
          cases t with
          | nil => simpa [join] using h a (by simp)
          | cons c u =>
            have := ih (fun x hx => h x (by simp [hx]))
            simp only [join]
            exact oneLine_append.mpr ⟨oneLine_append.mpr ⟨h a (by simp), by simp [OneLine]⟩, this⟩
      have := this names (hone names n hr)
      intro hmem
      rcases List.mem_cons.mp hmem with h | h
      · revert h; decide
      · exact this h
    have := translate_of_translates (repl := m.src_uri) hlit ho (.inr ⟨join ['/'] names, rfl, rfl⟩)
    rw [hfp names n hr, hm]
    simp [Mapper.dstToSrc, Map.dstToSrc, this]
  have hdirs : ∀ p ∈ [m.dst_path], ∃ nm rd cs, disk.resolve p = some (.dir nm rd cs) := by
    intro p hp; rw [List.mem_singleton.mp hp]; exact ⟨nm, true, cs, hres⟩
  have hsc : scanned b disk [m.dst_path] = walk b.exclude m.dst_path cs := by simp [scanned, hres]
  have hsucc : ∃ rl, b.fromDisk lib disk [] (some [m.dst_path]) = .ok rl := by
    rw [fromDisk_dirs _ [] hdirs, hsc]
    refine addAll_success _ [] ?_ ?_ (by simp [dget])
    · intro f hf hex hlk
      rw [walk_eq] at hf
      obtain ⟨x, hx, rfl⟩ := List.mem_map.mp hf
      have hmet := mem_walkN.mp hx
      simp only [pathJoin_filePath]
      refine ⟨_, hmap _ _ hmet.reach, ?_⟩
      intro st hst
      have hel : Eligible (Excluded b) cs (namesOf x) st := by
        refine ⟨?_, ?_⟩
        · have hr := hmet.reach
          obtain ⟨ds, n⟩ := x
          cases n with
          | file nm sp st' => simp only [FNode.stat] at hst; subst hst; exact ⟨nm, sp, hr⟩
          | link => have := hlk rfl; rw [hl] at this; cases this
          | dir => simp [FNode.stat] at hst
        · intro c hc hex'
          rw [← exclude_iff] at hex'
          rcases List.mem_append.mp hc with h | h
          · rw [hmet.dirs c h] at hex'; cases hex'
          · have hex : b.exclude x.2.name = false := hex
            rw [List.mem_singleton.mp h, hex] at hex'; cases hex'
      unfold Builder.fileResource
      cases hh : b.set_hashes with
      | none => exact ⟨_, rfl⟩
      | some hs =>
        obtain ⟨k1, k2⟩ := hhash hs hh
        obtain ⟨content, hcont⟩ := Option.ne_none_iff_exists'.mp (k2 _ _ hel)
        have hnew : ∃ o, HashObj.new hs (some st.content) = .ok o := by
          cases ho : HashObj.new hs (some st.content) with
          | ok o => exact ⟨o, rfl⟩
          | error e =>
            exfalso
            obtain ⟨c1, c2⟩ := C65_errors hs st.content
            cases e with
            | unsupported =>
              obtain ⟨t, ht, n1, n2, n3⟩ := c1.mp ho
              rcases k1 t ht with e | e | e
              · exact n1 e
              · exact n2 e
              · exact n3 e
            | os =>
              have := (c2.mp ho).1
              rw [hcont] at this; cases this
        obtain ⟨o, ho⟩ := hnew
        simp only [ho]
        exact ⟨_, rfl⟩
    · rw [walk_eq, List.pairwise_map]
      have hnd := walkN_nodup b.exclude hreal
      rw [List.Nodup, List.pairwise_map] at hnd
      refine List.Pairwise.imp_of_mem ?_ hnd
      intro x y hx hy hne r r' hc hc'
      obtain ⟨u1, s1, a1, a2, a3⟩ := contrib_eligible hl hx hc
      obtain ⟨u2, s2, b1, b2, b3⟩ := contrib_eligible hl hy hc'
      have mx := (mem_walkN.mp hx).reach
      have my := (mem_walkN.mp hy).reach
      have ex := hmap _ _ mx
      have ey := hmap _ _ my
      rw [show x.1 ++ [x.2.name] = namesOf x from rfl] at ex mx
      rw [show y.1 ++ [y.2.name] = namesOf y from rfl] at ey my
      rw [a2] at ex; rw [b2] at ey
      cases ex; cases ey
      rw [a3, b3]
      intro e
      have e : m.src_uri ++ '/' :: join ['/'] (namesOf x) = m.src_uri ++ '/' :: join ['/'] (namesOf y) := e
      have e := List.append_cancel_left e
      simp only [List.cons.injEq, true_and] at e
      apply hne
      have k1 := splitOn_join (c := '/') (reach_ne_nil mx) (fun c hc => (reach_names hreal mx c hc).2)
      have k2 := splitOn_join (c := '/') (reach_ne_nil my) (fun c hc => (reach_names hreal my c hc).2)
      rw [← k1, ← k2, e]
  obtain ⟨rl, hrl⟩ := hsucc
  refine ⟨rl, by rw [hpaths, hrl], ?_⟩
  intro u r
  constructor
  · intro hr
    obtain ⟨p, hp, nm', cs', names, st, e1, e2, e3, e4⟩ := C42_sound b lib disk (some _) rl hl hdirs hrl u r hr
    rw [List.mem_singleton.mp (show p ∈ [m.dst_path] from hp)] at e1 e3 e4
    rw [hres] at e1; cases e1
    have e2' := e2
    obtain ⟨⟨fn, sp, hreach⟩, -⟩ := e2'
    rw [hmap _ _ hreach] at e3; cases e3
    exact ⟨names, st, e2, rfl, by rw [e4, hfp _ _ hreach]⟩
  · rintro ⟨names, st, he, rfl, rfl⟩
    obtain ⟨u, hu, hget⟩ := C42_complete b lib disk (some _) rl hdirs hrl m.dst_path (by simp [startPaths]) nm cs hres names st he
    obtain ⟨⟨fn, sp, hreach⟩, -⟩ := he
    rw [hmap _ _ hreach] at hu; cases hu
    rw [hget, hfp _ _ hreach]

/-! A tree with a nested file, an excluded directory, an excluded name, a link and a FIFO. -/

namespace BuilderExample

def st (n : Int) : Stat := { mtime := 5, size := n, content := some [1, 2] }

def tree : List FNode :=
  [.file "a".toList false (some (st 1)),
   .dir "sub".toList true [.file "b".toList false (some (st 2)), .file "x.bak".toList false (some (st 3))],
   .dir ".git".toList true [.file "c".toList false (some (st 4))],
   .link "l".toList false (some (st 5))]

def disk : Disk := { resolve := fun p => if p = "/d".toList then some (.dir "d".toList true tree) else none
                     islink := fun _ => false }

def m : Map := { src_uri := "http://h".toList, dst_path := "/d".toList }

def dotGit : List Re := match compileExcludes [".git".toList, "x".toList] with
  | .ok rs => rs
  | .error _ => []

def b : Builder := { mapper := [m], excludes := dotGit }

def lib : HashLib := { md5 := fun _ => [], sha1 := fun _ => [], sha256 := fun _ => [] }

/-- what the scan of this tree finds -/
example : (b.fromDisk lib disk).toOption.map dkeys = some ["http://h/a".toList, "http://h/sub/b".toList] := by
  decide +kernel

/-- two mappings: both destinations are scanned -/
example : ({ b with mapper := [m, { src_uri := "http://k".toList, dst_path := "/e".toList }] }.fromDisk lib
    { resolve := fun p => if p = "/d".toList ∨ p = "/e".toList then some (.dir "d".toList true tree) else none
      islink := fun _ => false }).toOption.map dkeys =
    some ["http://h/a".toList, "http://h/sub/b".toList, "http://k/a".toList, "http://k/sub/b".toList] := by
  decide +kernel

/-- the hypotheses of `C42_one_mapping` hold for it -/
example : ∃ rl, b.fromDisk lib disk = .ok rl ∧ ∀ u r, dget rl u = some r ↔ ∃ names st, Eligible (Excluded b) tree names st ∧
      u = m.src_uri ++ '/' :: join ['/'] names ∧
      r = describes b lib u (m.dst_path ++ '/' :: join ['/'] names) st := by
  refine C42_one_mapping b lib disk m "d".toList tree rfl rfl ?_ (by decide) (by decide) (by unfold OneLine; decide) rfl ?_ ?_ ?_
  · unfold LiteralOrDot; decide
  · refine .mk (by decide) (by decide) ?_
    intro name r ds h
    simp only [tree, List.mem_cons, List.not_mem_nil, or_false, reduceCtorEq, false_or, FNode.dir.injEq] at h
    rcases h with ⟨-, -, rfl⟩ | ⟨-, -, rfl⟩
    · exact .mk (by decide) (by decide) (by intro _ _ _ h; simp at h)
    · exact .mk (by decide) (by decide) (by intro _ _ _ h; simp at h)
  · intro names n h c hc
    cases h with
    | here h =>
      rw [List.mem_singleton] at hc
      subst hc
      simp only [tree, List.mem_cons, List.not_mem_nil, or_false] at h
      rcases h with rfl | rfl | rfl | rfl <;> (unfold OneLine; decide)
    | sub h h' =>
      simp only [tree, List.mem_cons, List.not_mem_nil, or_false, reduceCtorEq, false_or, FNode.dir.injEq] at h
      rcases h with ⟨rfl, -, rfl⟩ | ⟨rfl, -, rfl⟩
      · cases h' with
        | here h =>
          simp only [List.mem_cons, List.not_mem_nil, or_false] at h hc
          rcases h with rfl | rfl <;> rcases hc with rfl | rfl <;> (unfold OneLine; decide)
        | sub h _ => simp at h
      · cases h' with
        | here h =>
          simp only [List.mem_cons, List.not_mem_nil, or_false] at h hc
          rcases h with rfl
          rcases hc with rfl | rfl <;> (unfold OneLine; decide)
        | sub h _ => simp at h
  · intro hs h; cases h

end BuilderExample

/-- C42, "regular": it fails for sockets, FIFOs and devices, which are listed like files. -/
theorem C42_special_violated : ∃ (b : Builder) (lib : HashLib) (disk : Disk) (nm : Str) (st : Stat) (rl : Dict Resource),
    disk.resolve "/d".toList = some (.dir "d".toList true [.file nm true (some st)]) ∧
    b.fromDisk lib disk = .ok rl ∧ dkeys rl = ["http://h/".toList ++ nm] :=
  ⟨{ mapper := [BuilderExample.m] }, BuilderExample.lib,
    { resolve := fun p => if p = "/d".toList then some (.dir "d".toList true [.file "fifo".toList true (some (BuilderExample.st 0))]) else none
      islink := fun _ => false },
    "fifo".toList, BuilderExample.st 0,
    [("http://h/fifo".toList, { uri := "http://h/fifo".toList, timestamp := some 5, length := some 0 })],
    rfl, by decide +kernel, by decide⟩

/-- C42: when a directory is below two start paths the scan does not list its files once, it fails. -/
theorem C42_overlap_violated : ∃ (b : Builder) (lib : HashLib) (disk : Disk),
    b.fromDisk lib disk [] (some ["/d".toList, "/d".toList]) = .error .dupe :=
  ⟨BuilderExample.b, BuilderExample.lib, BuilderExample.disk, by decide +kernel⟩

end Resync
