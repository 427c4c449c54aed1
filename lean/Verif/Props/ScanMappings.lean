import Verif.Proofs.ScanMappings
/-
C42 for several mappings.
-/

namespace Resync
open Py Resync.Spec

/-- C42.  Several mappings, whose destinations are apart from each other, as are their sources, and whose destinations are
directories or do not exist yet: the scan succeeds for all directory trees (with one-line names), and lists exactly the eligible files
below the destinations, `d/x/y` under URI `base/x/y` for the mapping of `base` to `d`.  Hashes, if asked for, are supported
and the files can be read. -/
theorem C42_mappings (b : Builder) (lib : HashLib) (disk : Disk) (hl : b.include_symlinks = false)
    (hdst : ∀ m ∈ b.mapper, LiteralOrDot m.dst_path ∧ OneLine m.dst_path ∧ m.dst_path ≠ [] ∧ m.dst_path.getLast? ≠ some '/')
    (hap : b.mapper.Pairwise (fun a b => Apart a.src_uri b.src_uri ∧ Apart a.dst_path b.dst_path))
    (hplace : ∀ m ∈ b.mapper, disk.resolve m.dst_path = none ∨ ∃ nm rd cs, disk.resolve m.dst_path = some (.dir nm rd cs) ∧ RealDir cs ∧
      (∀ names n, Reach cs names n → ∀ c ∈ names, OneLine c) ∧
      (b.set_hashes ≠ none → ∀ names st, Eligible (Excluded b) cs names st → st.content ≠ none))
    (hhash : ∀ hs, b.set_hashes = some hs → ∀ t ∈ hs, t = "md5".toList ∨ t = "sha-1".toList ∨ t = "sha-256".toList) :
    ∃ rl, b.fromDisk lib disk = .ok rl ∧ ∀ u r, dget rl u = some r ↔ ∃ m ∈ b.mapper, ∃ nm cs names st,
      disk.resolve m.dst_path = some (.dir nm true cs) ∧ Eligible (Excluded b) cs names st ∧
      u = m.src_uri ++ '/' :: join ['/'] names ∧
      r = describes b lib u (m.dst_path ++ '/' :: join ['/'] names) st := by
  have hlitd : ∀ m ∈ b.mapper, LiteralOrDot m.dst_path := fun m hm => (hdst m hm).1
  have hapd : b.mapper.Pairwise (fun a b => Apart a.dst_path b.dst_path) := hap.imp (fun h => h.2)
  have haps : b.mapper.Pairwise (fun a b => Apart a.src_uri b.src_uri) := hap.imp (fun h => h.1)
  have hpaths : b.fromDisk lib disk = b.fromDisk lib disk [] (some (b.mapper.map (·.dst_path))) := rfl
  -- a directory that is scanned
  have hdir : ∀ m ∈ b.mapper, ∀ nm rd cs, disk.resolve m.dst_path = some (.dir nm rd cs) → RealDir cs ∧
      (∀ names n, Reach cs names n → ∀ c ∈ names, OneLine c) ∧
      (b.set_hashes ≠ none → ∀ names st, Eligible (Excluded b) cs names st → st.content ≠ none) := by
    intro m hm nm rd cs hr
    rcases hplace m hm with h | ⟨nm', rd', cs', h, h2⟩
    · rw [h] at hr; cases hr
    · rw [h] at hr; cases hr
      exact h2
  have hfp : ∀ m ∈ b.mapper, ∀ nm rd cs, disk.resolve m.dst_path = some (.dir nm rd cs) → ∀ names n, Reach cs names n →
      filePath m.dst_path names = m.dst_path ++ '/' :: join ['/'] names := by
    intro m hm nm rd cs hr names n hre
    have hn := reach_names (hdir m hm nm rd cs hr).1 hre
    have := pathJoinAll_join m.dst_path names (hdst m hm).2.2.1 (hdst m hm).2.2.2 hn
    rw [filePath, this]
    cases names with
    | nil => exact absurd rfl (reach_ne_nil hre)
    | cons a t => simp [join]
  have hmap : ∀ m ∈ b.mapper, ∀ nm rd cs, disk.resolve m.dst_path = some (.dir nm rd cs) → ∀ names n, Reach cs names n →
      b.mapper.dstToSrc (filePath m.dst_path names) = .ok (m.src_uri ++ '/' :: join ['/'] names) := by
    intro m hm nm rd cs hr names n hre
    rw [hfp m hm nm rd cs hr names n hre]
    refine dstToSrc_below hlitd hapd hm ?_
    refine oneLine_append.mpr ⟨(hdst m hm).2.1, ?_⟩
    have : ∀ l : List Str, (∀ c ∈ l, OneLine c) → OneLine (join ['/'] l) := by
      intro l
      induction l with
      | nil => intro _; simp [join, OneLine]
      | cons a t ih =>
        intro h
        cases t with
        | nil => simpa [join] using h a (by simp)
        | cons c u =>
          have := ih (fun x hx => h x (by simp [hx]))
          simp only [join]
          exact oneLine_append.mpr ⟨oneLine_append.mpr ⟨h a (by simp), by simp [OneLine]⟩, this⟩
    have := this names ((hdir m hm nm rd cs hr).2.1 names n hre)
    intro hmem
    rcases List.mem_cons.mp hmem with h | h
    · revert h; decide
    · exact this h
  have hpl : ∀ p ∈ b.mapper.map (·.dst_path), (∃ nm rd cs, disk.resolve p = some (.dir nm rd cs)) ∨
      disk.resolve p = none ∧ ∃ u, b.mapper.dstToSrc p = .ok u := by
    intro p hp
    obtain ⟨m, hm, rfl⟩ := List.mem_map.mp hp
    rcases hplace m hm with h | ⟨nm, rd, cs, h, -⟩
    · exact .inr ⟨h, dstToSrc_self hlitd hm (hdst m hm).2.1⟩
    · exact .inl ⟨nm, rd, cs, h⟩
  have hscan : ∀ f, f ∈ scanned b disk (b.mapper.map (·.dst_path)) ↔ ∃ m ∈ b.mapper, ∃ nm cs x, disk.resolve m.dst_path = some (.dir nm true cs) ∧
      x ∈ walkN b.exclude cs ∧ f = (x.1.foldl pathJoin m.dst_path, x.2) := by
    intro f
    unfold scanned
    rw [List.mem_flatMap]
    constructor
    · rintro ⟨p, hp, hf⟩
      obtain ⟨m, hm, rfl⟩ := List.mem_map.mp hp
      split at hf
      · rename_i nm cs hr
        rw [walk_eq] at hf
        obtain ⟨x, hx, rfl⟩ := List.mem_map.mp hf
        exact ⟨m, hm, nm, cs, x, hr, hx, rfl⟩
      · cases hf
    · rintro ⟨m, hm, nm, cs, x, hr, hx, rfl⟩
      refine ⟨m.dst_path, List.mem_map.mpr ⟨m, hm, rfl⟩, ?_⟩
      simp only [hr, walk_eq]
      exact List.mem_map.mpr ⟨x, hx, rfl⟩
  -- what a file contributes
  have hcontrib : ∀ m ∈ b.mapper, ∀ nm cs x, disk.resolve m.dst_path = some (.dir nm true cs) → x ∈ walkN b.exclude cs → ∀ r,
      Contrib b lib (x.1.foldl pathJoin m.dst_path, x.2) r → ∃ st, Eligible (Excluded b) cs (namesOf x) st ∧
        r = describes b lib (m.src_uri ++ '/' :: join ['/'] (namesOf x)) (m.dst_path ++ '/' :: join ['/'] (namesOf x)) st := by
    intro m hm nm cs x hr hx r hc
    obtain ⟨u1, s1, a1, a2, a3⟩ := contrib_eligible hl hx hc
    have mx := (mem_walkN.mp hx).reach
    rw [show x.1 ++ [x.2.name] = namesOf x from rfl] at mx
    rw [hmap m hm nm true cs hr _ _ mx] at a2
    cases a2
    exact ⟨s1, a1, by rw [a3, hfp m hm nm true cs hr _ _ mx]⟩
  have hsucc : ∃ rl, b.addAll lib [] (scanned b disk (b.mapper.map (·.dst_path))) = .ok rl := by
    refine addAll_success _ [] ?_ ?_ (by simp [dget])
    · intro f hf hex hlk
      obtain ⟨m, hm, nm, cs, x, hr, hx, rfl⟩ := (hscan f).mp hf
      have hmet := mem_walkN.mp hx
      simp only [pathJoin_filePath]
      refine ⟨_, hmap m hm nm true cs hr _ _ hmet.reach, ?_⟩
      intro st hst
      have hel : Eligible (Excluded b) cs (namesOf x) st := by
        refine ⟨?_, ?_⟩
        · have hr := hmet.reach
          obtain ⟨ds, n⟩ := x
          cases n with
          | file nm sp st' => simp only [FNode.stat] at hst; subst hst; exact ⟨nm, sp, hr⟩
          | link => have := hlk rfl; rw [hl] at this; cases this
          | dir => simp [FNode.stat] at hst
        · intro c hc hex'
          rw [← exclude_iff] at hex'
          rcases List.mem_append.mp hc with h | h
          · rw [hmet.dirs c h] at hex'; cases hex'
          · have hex : b.exclude x.2.name = false := hex
            rw [List.mem_singleton.mp h, hex] at hex'; cases hex'
      unfold Builder.fileResource
      cases hh : b.set_hashes with
      | none => exact ⟨_, rfl⟩
      | some hs =>
        obtain ⟨content, hcont⟩ := Option.ne_none_iff_exists'.mp ((hdir m hm nm true cs hr).2.2 (by rw [hh]; simp) _ _ hel)
        have hnew : ∃ o, HashObj.new hs (some st.content) = .ok o := by
          cases ho : HashObj.new hs (some st.content) with
          | ok o => exact ⟨o, rfl⟩
          | error e =>
            exfalso
            obtain ⟨c1, c2⟩ := C65_errors hs st.content
            cases e with
            | unsupported =>
              obtain ⟨t, ht, n1, n2, n3⟩ := c1.mp ho
              rcases hhash hs hh t ht with e | e | e
              · exact n1 e
              · exact n2 e
              · exact n3 e
            | os =>
              have := (c2.mp ho).1
              rw [hcont] at this; cases this
        obtain ⟨o, ho⟩ := hnew
        simp only [ho]
        exact ⟨_, rfl⟩
    · unfold scanned
      rw [List.pairwise_flatMap]
      refine ⟨?_, ?_⟩
      · intro p hp
        obtain ⟨m, hm, rfl⟩ := List.mem_map.mp hp
        split
        · rename_i nm cs hr
          rw [walk_eq, List.pairwise_map]
          have hreal := (hdir m hm nm true cs hr).1
          have hnd := walkN_nodup b.exclude hreal
          rw [List.Nodup, List.pairwise_map] at hnd
          refine List.Pairwise.imp_of_mem ?_ hnd
          intro x y hx hy hne r r' hc hc'
          obtain ⟨s1, a1, a3⟩ := hcontrib m hm nm cs x hr hx r hc
          obtain ⟨s2, b1, b3⟩ := hcontrib m hm nm cs y hr hy r' hc'
          have mx := (mem_walkN.mp hx).reach
          have my := (mem_walkN.mp hy).reach
          rw [a3, b3]
          intro e
          have e : m.src_uri ++ '/' :: join ['/'] (namesOf x) = m.src_uri ++ '/' :: join ['/'] (namesOf y) := e
          have e := List.append_cancel_left e
          simp only [List.cons.injEq, true_and] at e
          apply hne
          have k1 := splitOn_join (c := '/') (reach_ne_nil mx) (fun c hc => (reach_names hreal mx c hc).2)
          have k2 := splitOn_join (c := '/') (reach_ne_nil my) (fun c hc => (reach_names hreal my c hc).2)
          rw [show namesOf x = x.1 ++ [x.2.name] from rfl, show namesOf y = y.1 ++ [y.2.name] from rfl] at e ⊢
          rw [← k1, ← k2, e]
        · exact List.Pairwise.nil
      · rw [List.pairwise_map]
        refine List.Pairwise.imp_of_mem ?_ haps
        intro m m' hm hm' hmm f hf g hg r r' hc hc'
        split at hf
        · rename_i nm cs hr
          split at hg
          · rename_i nm' cs' hr'
            rw [walk_eq] at hf hg
            obtain ⟨x, hx, rfl⟩ := List.mem_map.mp hf
            obtain ⟨y, hy, rfl⟩ := List.mem_map.mp hg
            obtain ⟨s1, a1, a3⟩ := hcontrib m hm nm cs x hr hx r hc
            obtain ⟨s2, b1, b3⟩ := hcontrib m' hm' nm' cs' y hr' hy r' hc'
            rw [a3, b3]
            exact hmm.ne _ _
          · cases hg
        · cases hf
  obtain ⟨rl, hrl⟩ := hsucc
  refine ⟨rl, by rw [hpaths, fromDisk_places _ [] hpl, hrl], ?_⟩
  intro u r
  rw [addAll_ok _ hrl]
  simp only [dget, reduceCtorEq, false_or]
  constructor
  · rintro ⟨e, f, hf, hc⟩
    obtain ⟨m, hm, nm, cs, x, hr, hx, rfl⟩ := (hscan f).mp hf
    obtain ⟨st, h1, h2⟩ := hcontrib m hm nm cs x hr hx r hc
    have : u = m.src_uri ++ '/' :: join ['/'] (namesOf x) := by rw [← e, h2]; rfl
    subst this
    exact ⟨m, hm, nm, cs, namesOf x, st, hr, h1, rfl, h2⟩
  · rintro ⟨m, hm, nm, cs, names, st, hr, he, rfl, rfl⟩
    refine ⟨rfl, ?_⟩
    obtain ⟨d, fnm, sp, hw, hx, hj⟩ := eligible_walk m.dst_path he
    have hf : (d, FNode.file fnm sp (some st)) ∈ scanned b disk (b.mapper.map (·.dst_path)) := by
      unfold scanned
      rw [List.mem_flatMap]
      exact ⟨m.dst_path, List.mem_map.mpr ⟨m, hm, rfl⟩, by simp only [hr]; exact hw⟩
    refine ⟨_, hf, ?_⟩
    obtain ⟨rl1, rl2, h1⟩ := addAll_processed _ hrl _ hf
    obtain ⟨u', hu, hst⟩ := addFile_processed h1 hx rfl
    obtain ⟨r, hr'⟩ := hst st rfl
    have hj : pathJoin d (FNode.file fnm sp (some st)).name = filePath m.dst_path names := hj
    obtain ⟨⟨fn, sp', hreach⟩, -⟩ := he
    have hu' := hmap m hm nm true cs hr _ _ hreach
    have hc : Contrib b lib (d, FNode.file fnm sp (some st)) r := ⟨hx, by simp [FNode.islink], u', st, hu, rfl, hr'⟩
    simp only [hj] at hu hr'
    rw [hu'] at hu
    cases hu
    have hd := fileResource_ok hr'
    rw [hfp m hm nm true cs hr _ _ hreach] at hd
    rw [← hd]
    exact hc

namespace BuilderExample

theorem tree_real : RealDir tree := by
  refine .mk (by decide) (by decide) ?_
  intro name r ds h
  simp only [tree, List.mem_cons, List.not_mem_nil, or_false, reduceCtorEq, false_or, FNode.dir.injEq] at h
  rcases h with ⟨-, -, rfl⟩ | ⟨-, -, rfl⟩
  · exact .mk (by decide) (by decide) (by intro _ _ _ h; simp at h)
  · exact .mk (by decide) (by decide) (by intro _ _ _ h; simp at h)

theorem tree_names {names : List Str} {n : FNode} (h : Reach tree names n) : ∀ c ∈ names, OneLine c := by
  intro c hc
  cases h with
  | here h =>
    rw [List.mem_singleton] at hc
    subst hc
    simp only [tree, List.mem_cons, List.not_mem_nil, or_false] at h
    rcases h with rfl | rfl | rfl | rfl <;> (unfold OneLine; decide)
  | sub h h' =>
    simp only [tree, List.mem_cons, List.not_mem_nil, or_false, reduceCtorEq, false_or, FNode.dir.injEq] at h
    rcases h with ⟨rfl, -, rfl⟩ | ⟨rfl, -, rfl⟩
    · cases h' with
      | here h =>
        simp only [List.mem_cons, List.not_mem_nil, or_false] at h hc
        rcases h with rfl | rfl <;> rcases hc with rfl | rfl <;> (unfold OneLine; decide)
      | sub h _ => simp at h
    · cases h' with
      | here h =>
        simp only [List.mem_cons, List.not_mem_nil, or_false] at h hc
        rcases h with rfl
        rcases hc with rfl | rfl <;> (unfold OneLine; decide)
      | sub h _ => simp at h

/-- three mappings, whose bases share a good deal -/
def three : Mapper := [m, { src_uri := "http://hb/d".toList, dst_path := "/d2".toList },
  { src_uri := "http://hb/e".toList, dst_path := "/e".toList }]

/-- the last destination does not exist -/
def disk3 : Disk := { resolve := fun p => if p = "/d".toList ∨ p = "/d2".toList then some (.dir "d".toList true tree) else none
                      islink := fun _ => false }

/-- the hypotheses of `C42_mappings` are met -/
example : ∃ rl, { b with mapper := three }.fromDisk lib disk3 = .ok rl := by
  refine (C42_mappings { b with mapper := three } lib disk3 rfl ?_ ?_ ?_ (by intro hs h; cases h)).imp (fun _ h => h.1)
  · unfold LiteralOrDot OneLine
    decide +kernel
  · have h : ∀ (a b : Str) (i : Nat), ((a ++ ['/'])[i]?.getD '.' ≠ (b ++ ['/'])[i]?.getD '.' ∧ (a ++ ['/'])[i]?.getD '.' ≠ '.' ∧
        (b ++ ['/'])[i]?.getD '.' ≠ '.') → Apart a b := by
      intro a b i ⟨h1, h2, h3⟩
      cases ha : (a ++ ['/'])[i]? with
      | none => simp [ha] at h2
      | some x =>
        cases hb : (b ++ ['/'])[i]? with
        | none => simp [hb] at h3
        | some y =>
          simp only [ha, hb, Option.getD_some] at h1 h2 h3
          exact ⟨i, x, y, ha, hb, h1, h2, h3⟩
    refine .cons ?_ (.cons ?_ (.cons ?_ .nil))
    · intro q hq
      simp only [List.mem_cons, List.not_mem_nil, or_false] at hq
      rcases hq with rfl | rfl
      · exact ⟨h _ _ 8 (by decide), h _ _ 2 (by decide)⟩
      · exact ⟨h _ _ 8 (by decide), h _ _ 1 (by decide)⟩
    · intro q hq
      simp only [List.mem_cons, List.not_mem_nil, or_false] at hq
      rcases hq with rfl
      exact ⟨h _ _ 10 (by decide), h _ _ 1 (by decide)⟩
    · simp
  · intro x hx
    by_cases hd : x.dst_path = "/d".toList ∨ x.dst_path = "/d2".toList
    · exact .inr ⟨"d".toList, true, tree, if_pos hd, tree_real, fun _ _ h => tree_names h, fun h => absurd rfl h⟩
    · exact .inl (if_neg hd)

/-- and this is what the scan finds -/
example : ({ b with mapper := three }.fromDisk lib disk3).toOption.map dkeys =
    some ["http://h/a".toList, "http://h/sub/b".toList, "http://hb/d/a".toList, "http://hb/d/sub/b".toList] := by
  decide +kernel

end BuilderExample

end Resync
