import Verif.Props.Follow
import Mathlib.Tactic.Tauto
/-
C106: a directory that is followed.
-/

namespace Resync
open Py Resync.Spec

namespace FollowExample

def sta : Stat := { mtime := 5, size := 2, content := some [1, 2] }
def stb : Stat := { mtime := 7, size := 1, content := some [9] }
def stb' : Stat := { mtime := 20, size := 1, content := some [8] }
def stn : Stat := { mtime := 21, size := 0, content := some [] }

/-- the directory /d as it is first: a and sub/b -/
def tree : List FNode := [.file "a".toList false (some sta), .dir "sub".toList true [.file "b".toList false (some stb)]]

/-- and later: sub/b changed, sub/n created, a deleted -/
def tree2 : List FNode := [.dir "sub".toList true [.file "b".toList false (some stb'), .file "n".toList false (some stn)]]

/-- or, without the deletion -/
def tree3 : List FNode := .file "a".toList false (some sta) :: tree2

def diskOf (cs : List FNode) : Disk :=
  { resolve := fun p => if p = "/d".toList then some (.dir "d".toList true cs) else none, islink := fun _ => false }

def m : Map := { src_uri := "http://h".toList, dst_path := "/d".toList }

def cfg : WriteCfg where
  mapper := [m]
  hashes := ["md5".toList]
  max_sitemap_entries := some 3

def wenv : WriteEnv := { WriteExample.env with disk := diskOf tree }

def written : Output := (writeResourceList cfg wenv none (some "/d/list.xml".toList) none false).1

/-- the documents under http://h/ are the files below /d/ -/
def served (u : Str) : Option Elem :=
  match u with
  | 'h' :: 't' :: 't' :: 'p' :: ':' :: '/' :: '/' :: 'h' :: '/' :: g => fileDoc (runFs (fun _ => none) written.files ("/d/".toList ++ g))
  | _ => none

/-- later the list can be read at its URI -/
def wenv' (cs : List FNode) : WriteEnv := { WriteExample.env with disk := diskOf cs, docAt := served }

def mm : Map := { src_uri := "http://h".toList, dst_path := "/e".toList }

def cc : ClientCfg where
  disc := { mapper := [mm], sitemap_name := some "http://h/list.xml".toList }
  spec_version := "1.0".toList

def env : Env := { ClientExample.env [] [] [] with
  sources := Sources.ofDocs served [mm] true (fun _ => false)
  serve := fun _ u => if u = "http://h/a".toList then .body [1, 2] none else .body [9] none }

def changesWritten (cs : List FNode) : Output :=
  (writeChangeList cfg (wenv' cs) none (some "/d/changes.xml".toList) "http://h/list.xml".toList none false none false).1

def env' (cs : List FNode) : Env := { ClientExample.env [] [] [] with
  changeList := readChangeList (fun _ => fileDoc (runFs (fun _ => none) (changesWritten cs).files "/d/changes.xml".toList))
  serve := fun _ u => if u = "http://h/a".toList then .body [1, 2] none else if u = "http://h/sub/b".toList then .body [8] none else .body [] none }

def start : St := { world := { fs := [] } }

theorem reach_tree {names : List Str} {n : FNode} (h : Reach tree names n) :
    (names = ["a".toList] ∧ n = .file "a".toList false (some sta)) ∨ (∃ ds, names = ["sub".toList] ∧ n = .dir "sub".toList true ds) ∨
    (names = ["sub".toList, "b".toList] ∧ n = .file "b".toList false (some stb)) := by
  cases h with
  | here h =>
    simp only [tree, List.mem_cons, List.not_mem_nil, or_false] at h
    rcases h with rfl | rfl <;> simp [FNode.name]
  | sub h h' =>
    simp only [tree, List.mem_cons, List.not_mem_nil, or_false, reduceCtorEq, false_or, FNode.dir.injEq] at h
    obtain ⟨rfl, -, rfl⟩ := h
    cases h' with
    | here h =>
      simp only [List.mem_cons, List.not_mem_nil, or_false] at h
      subst h
      simp [FNode.name]
    | sub h _ => simp at h

theorem reach_tree3 {names : List Str} {n : FNode} (h : Reach tree3 names n) :
    (names = ["a".toList] ∧ n = .file "a".toList false (some sta)) ∨ (∃ ds, names = ["sub".toList] ∧ n = .dir "sub".toList true ds) ∨
    (names = ["sub".toList, "b".toList] ∧ n = .file "b".toList false (some stb')) ∨
    (names = ["sub".toList, "n".toList] ∧ n = .file "n".toList false (some stn)) := by
  cases h with
  | here h =>
    simp only [tree3, tree2, List.mem_cons, List.not_mem_nil, or_false] at h
    rcases h with rfl | rfl <;> simp [FNode.name]
  | sub h h' =>
    simp only [tree3, tree2, List.mem_cons, List.not_mem_nil, or_false, reduceCtorEq, false_or, FNode.dir.injEq] at h
    obtain ⟨rfl, -, rfl⟩ := h
    cases h' with
    | here h =>
      simp only [List.mem_cons, List.not_mem_nil, or_false] at h
      rcases h with rfl | rfl <;> simp [FNode.name]
    | sub h _ => simp at h

theorem reach_tree2 {names : List Str} {n : FNode} (h : Reach tree2 names n) :
    (∃ ds, names = ["sub".toList] ∧ n = .dir "sub".toList true ds) ∨
    (names = ["sub".toList, "b".toList] ∧ n = .file "b".toList false (some stb')) ∨
    (names = ["sub".toList, "n".toList] ∧ n = .file "n".toList false (some stn)) := by
  cases h with
  | here h =>
    simp only [tree2, List.mem_cons, List.not_mem_nil, or_false] at h
    subst h
    simp [FNode.name]
  | sub h h' =>
    simp only [tree2, List.mem_cons, List.not_mem_nil, or_false, FNode.dir.injEq] at h
    obtain ⟨rfl, -, rfl⟩ := h
    cases h' with
    | here h =>
      simp only [List.mem_cons, List.not_mem_nil, or_false] at h
      rcases h with rfl | rfl <;> simp [FNode.name]
    | sub h _ => simp at h

theorem realOf : ∀ cs, cs = tree ∨ cs = tree2 ∨ cs = tree3 → RealDir cs := by
  rintro cs (rfl | rfl | rfl)
  all_goals
    refine .mk (by decide) (by decide) ?_
    intro name r ds h
    simp only [tree, tree2, tree3, List.mem_cons, List.not_mem_nil, or_false, reduceCtorEq, false_or, FNode.dir.injEq] at h
    obtain ⟨-, -, rfl⟩ := h
    exact .mk (by decide) (by decide) (by intro _ _ _ h; simp at h)

/-- the names and files there are in any of them -/
theorem reach_any {cs : List FNode} (hcs : cs = tree ∨ cs = tree2 ∨ cs = tree3) {names : List Str} {n : FNode} (h : Reach cs names n) :
    (∀ x ∈ names, x ∈ ["a".toList, "sub".toList, "b".toList, "n".toList]) ∧
    ∀ nm sp st, n = .file nm sp st → st = some sta ∨ st = some stb ∨ st = some stb' ∨ st = some stn := by
  rcases hcs with rfl | rfl | rfl
  · rcases reach_tree h with ⟨rfl, rfl⟩ | ⟨_, rfl, rfl⟩ | ⟨rfl, rfl⟩ <;> refine ⟨by decide, ?_⟩ <;> intro nm sp st e <;> cases e <;> simp
  · rcases reach_tree2 h with ⟨_, rfl, rfl⟩ | ⟨rfl, rfl⟩ | ⟨rfl, rfl⟩ <;> refine ⟨by decide, ?_⟩ <;> intro nm sp st e <;> cases e <;> simp
  · rcases reach_tree3 h with ⟨rfl, rfl⟩ | ⟨_, rfl, rfl⟩ | ⟨rfl, rfl⟩ | ⟨rfl, rfl⟩ <;> refine ⟨by decide, ?_⟩ <;> intro nm sp st e <;> cases e <;> simp

theorem stats {st : Stat} (h : some st = some sta ∨ some st = some stb ∨ some st = some stb' ∨ some st = some stn) :
    st.content ≠ none ∧ 0 ≤ st.mtime ∧ st.mtime ≤ 253402300798 := by
  simp only [Option.some.injEq] at h
  rcases h with rfl | rfl | rfl | rfl <;> simp [sta, stb, stb', stn] <;> norm_num

theorem treeOf (we : WriteEnv) (cs : List FNode) (hcs : cs = tree ∨ cs = tree2 ∨ cs = tree3) (hd : we.disk = diskOf cs)
    (hl : we.lib = WriteExample.env.lib) (h1 : we.scan_start = WriteExample.env.scan_start) (h2 : we.scan_end = WriteExample.env.scan_end) :
    Tree cfg we m cs where
  site :=
    { mapper := rfl
      src_literal := by unfold LiteralOrDot; decide
      src_line := by unfold OneLine; decide
      src_chars := by unfold XmlOk; decide
      dst_literal := by unfold LiteralOrDot; decide
      dst_line := by unfold OneLine; decide
      dst_ne := by decide
      dst_slash := by decide
      dir := ⟨"d".toList, by rw [hd]; rfl⟩
      real := realOf cs hcs
      patterns := by intro p hp; cases hp
      names := by
        intro names n h x hx
        have all : ∀ y ∈ ["a".toList, "sub".toList, "b".toList, "n".toList], OneLine y ∧ XmlOk y ∧ '\r' ∉ y := by unfold OneLine XmlOk; decide
        exact all x ((reach_any hcs h).1 x hx)
      times := by
        intro names nm sp st h
        obtain ⟨-, a, b⟩ := stats ((reach_any hcs h).2 _ _ _ rfl)
        unfold InYears
        constructor <;> linarith
      hash_types := by decide
      readable := by
        intro _ names nm sp st h
        exact (stats ((reach_any hcs h).2 _ _ _ rfl)).1
      digests := by rw [hl]; exact WriteExample.site.digests
      scan := by rw [h1, h2]; exact WriteExample.site.scan }
  dots := by
    intro names n h x hx
    have all : ∀ y ∈ ["a".toList, "sub".toList, "b".toList, "n".toList], y ≠ ".".toList ∧ y ≠ "..".toList := by decide
    exact all x ((reach_any hcs h).1 x hx)
  readable := by
    rintro names st ⟨⟨nm, sp, h⟩, -⟩
    exact (stats ((reach_any hcs h).2 _ _ _ rfl)).1
  years := by
    rintro names st ⟨⟨nm, sp, h⟩, -⟩
    exact (stats ((reach_any hcs h).2 _ _ _ rfl)).2

theorem not_excluded (x : Str) : ¬ ExcludedBy cfg x := by
  rintro ⟨p, hp, -⟩
  cases hp

theorem eligible_tree {names : List Str} {st : Stat} : Eligible (ExcludedBy cfg) tree names st ↔
    (names = ["a".toList] ∧ st = sta) ∨ (names = ["sub".toList, "b".toList] ∧ st = stb) := by
  constructor
  · rintro ⟨⟨nm, sp, h⟩, -⟩
    rcases reach_tree h with ⟨hn, h⟩ | ⟨_, -, h⟩ | ⟨hn, h⟩ <;> cases h
    · exact .inl ⟨hn, rfl⟩
    · exact .inr ⟨hn, rfl⟩
  · rintro (⟨rfl, rfl⟩ | ⟨rfl, rfl⟩)
    · exact ⟨⟨_, _, .here (n := .file "a".toList false (some sta)) (by simp [tree])⟩, fun x _ => not_excluded x⟩
    · exact ⟨⟨_, _, .sub (cs := tree) (ds := [.file "b".toList false (some stb)]) (by simp [tree])
        (.here (n := .file "b".toList false (some stb)) (by simp))⟩, fun x _ => not_excluded x⟩

theorem eligible_tree2 {names : List Str} {st : Stat} : Eligible (ExcludedBy cfg) tree2 names st ↔
    (names = ["sub".toList, "b".toList] ∧ st = stb') ∨ (names = ["sub".toList, "n".toList] ∧ st = stn) := by
  constructor
  · rintro ⟨⟨nm, sp, h⟩, -⟩
    rcases reach_tree2 h with ⟨_, -, h⟩ | ⟨hn, h⟩ | ⟨hn, h⟩ <;> cases h
    · exact .inl ⟨hn, rfl⟩
    · exact .inr ⟨hn, rfl⟩
  · rintro (⟨rfl, rfl⟩ | ⟨rfl, rfl⟩)
    · exact ⟨⟨_, _, .sub (cs := tree2) (ds := [.file "b".toList false (some stb'), .file "n".toList false (some stn)]) (by simp [tree2])
        (.here (n := .file "b".toList false (some stb')) (by simp))⟩, fun x _ => not_excluded x⟩
    · exact ⟨⟨_, _, .sub (cs := tree2) (ds := [.file "b".toList false (some stb'), .file "n".toList false (some stn)]) (by simp [tree2])
        (.here (n := .file "n".toList false (some stn)) (by simp))⟩, fun x _ => not_excluded x⟩

theorem eligible_tree3 {names : List Str} {st : Stat} : Eligible (ExcludedBy cfg) tree3 names st ↔
    (names = ["a".toList] ∧ st = sta) ∨ (names = ["sub".toList, "b".toList] ∧ st = stb') ∨ (names = ["sub".toList, "n".toList] ∧ st = stn) := by
  constructor
  · rintro ⟨⟨nm, sp, h⟩, -⟩
    rcases reach_tree3 h with ⟨hn, h⟩ | ⟨_, -, h⟩ | ⟨hn, h⟩ | ⟨hn, h⟩ <;> cases h
    · exact .inl ⟨hn, rfl⟩
    · exact .inr (.inl ⟨hn, rfl⟩)
    · exact .inr (.inr ⟨hn, rfl⟩)
  · rintro (⟨rfl, rfl⟩ | ⟨rfl, rfl⟩ | ⟨rfl, rfl⟩)
    · exact ⟨⟨_, _, .here (n := .file "a".toList false (some sta)) (by simp [tree3])⟩, fun x _ => not_excluded x⟩
    · exact ⟨⟨_, _, .sub (cs := tree3) (ds := [.file "b".toList false (some stb'), .file "n".toList false (some stn)]) (by simp [tree3, tree2])
        (.here (n := .file "b".toList false (some stb')) (by simp))⟩, fun x _ => not_excluded x⟩
    · exact ⟨⟨_, _, .sub (cs := tree3) (ds := [.file "b".toList false (some stb'), .file "n".toList false (some stn)]) (by simp [tree3, tree2])
        (.here (n := .file "n".toList false (some stn)) (by simp))⟩, fun x _ => not_excluded x⟩

/-- the names of files in either state -/
theorem eligible_any {cs : List FNode} (hcs : cs = tree2 ∨ cs = tree3) {names : List Str} {st : Stat}
    (h : Eligible (ExcludedBy cfg) tree names st ∨ Eligible (ExcludedBy cfg) cs names st) :
    names = ["a".toList] ∨ names = ["sub".toList, "b".toList] ∨ names = ["sub".toList, "n".toList] := by
  rw [eligible_tree] at h
  rcases hcs with rfl | rfl
  · rw [eligible_tree2] at h; tauto
  · rw [eligible_tree3] at h; tauto

theorem followed (cs : List FNode) (hcs : cs = tree2 ∨ cs = tree3) :
    Followed cfg wenv (wenv' cs) m tree cs "list.xml".toList "changes.xml".toList none none (fun _ => none) (fun _ => none) cc env (env' cs) mm
      (some "changes.xml".toList) where
  mirror :=
    { site := (treeOf wenv tree (.inl rfl) rfl rfl rfl rfl).site
      multi := rfl
      file := ⟨by unfold OneLine; decide, by unfold XmlOk; decide, by decide⟩
      linksOk := by simp
      stat := WriteExample.statOk
      dots := (treeOf wenv tree (.inl rfl) rfl rfl rfl rfl).dots
      scheme := .inl ⟨"//h".toList, rfl⟩
      same := rfl
      found := ⟨served, _, rfl, fun g => rfl⟩
      told := rfl }
  old := treeOf wenv tree (.inl rfl) rfl rfl rfl rfl
  new := treeOf (wenv' cs) cs (.inr hcs) rfl rfl rfl rfl
  lib := rfl
  reference := fun g => rfl
  clinksOk := by simp
  fits := by
    have key : ∀ cs ∈ [tree2, tree3], ((changeListEntries cfg (wenv' cs) none "http://h/list.xml".toList none false).toOption.map
      (fun cl => decide (cl.length ≤ 3))) = some true := by decide +kernel
    intro cl hcl
    have := key cs (by rcases hcs with rfl | rfl <;> simp)
    rw [show m.src_uri ++ '/' :: "list.xml".toList = "http://h/list.xml".toList from rfl] at hcl
    rw [hcl] at this
    have h3 : cl.length ≤ 3 := by simpa [Except.toOption] using this
    exact h3
  asked := by decide +kernel
  changes := ⟨_, rfl, rfl⟩
  stays := ⟨rfl, rfl⟩
  auth := .inr ⟨⟨_, rfl⟩, ⟨_, rfl⟩, by
    intro names st h
    rcases eligible_any hcs h with rfl | rfl | rfl <;> exact ⟨⟨_, rfl, by decide +kernel⟩, ⟨_, rfl, by decide +kernel⟩⟩⟩
  served := by
    intro names st h
    rcases eligible_tree.mp h with ⟨rfl, rfl⟩ | ⟨rfl, rfl⟩ <;>
      exact ⟨delivers_always (by decide) (fun tr => ⟨_, rfl⟩), fun tr b hb => by cases hb; rfl⟩
  served' := by
    intro names st h
    rcases hcs with rfl | rfl
    · rcases eligible_tree2.mp h with ⟨rfl, rfl⟩ | ⟨rfl, rfl⟩ <;>
        exact ⟨delivers_always (by decide) (fun tr => ⟨_, rfl⟩), fun tr b hb => by cases hb; rfl⟩
    · rcases eligible_tree3.mp h with ⟨rfl, rfl⟩ | ⟨rfl, rfl⟩ | ⟨rfl, rfl⟩ <;>
        exact ⟨delivers_always (by decide) (fun tr => ⟨_, rfl⟩), fun tr b hb => by cases hb; rfl⟩
  disk := ⟨⟨fun _ _ => rfl, fun _ _ => rfl, fun _ _ => rfl⟩, ⟨fun _ _ => rfl, fun _ _ => rfl, fun _ _ => rfl⟩⟩

/-- the places of the files -/
def places (l : Loc) : Prop :=
  l = ["e".toList, "a".toList] ∨ l = ["e".toList, "sub".toList, "b".toList] ∨ l = ["e".toList, "sub".toList, "n".toList]

theorem setUp : SetUp cc (m.src_uri ++ '/' :: "list.xml".toList) where
  safe := by decide +kernel
  source := rfl
  named := by decide
  real := rfl
  strict := rfl
  tries := by decide

theorem destination (cs : List FNode) (hcs : cs = tree2 ∨ cs = tree3) : Destination cfg tree cs cc env mm ["e".toList] places start.world where
  stands :=
    { mapped := Spec.OneSite.sites
        { mapper := rfl
          src := by unfold LiteralOrDot OneLine; decide
          dst := by unfold LiteralOrDot OneLine; decide
          place := by decide
          proper := ClientExample.properFs_of (by decide) (by decide) (by decide) (by decide)
          names := by decide
          cwdNames := by intro n hn; cases hn
          notFile := by rintro ⟨b, t, h⟩; cases h }
      room := by
        constructor
        · rintro a b (rfl | rfl | rfl) (rfl | rfl | rfl) h <;> first | rfl | (exfalso; revert h; decide)
        · rintro l (rfl | rfl | rfl) <;> decide
        · rintro l - p - - ⟨b, t, h⟩
          unfold IsFile at h
          cases p <;> cases h
      copy := by
        intro p hp names hne hn content t
        constructor
        · intro h
          unfold IsFile at h
          simp only [List.mem_singleton] at hp
          subst hp
          cases h
        · rintro ⟨t, h, -⟩
          cases h
      state := ⟨[], by simp, rfl⟩ }
  room := by
    intro names st h
    rcases eligible_any hcs h with rfl | rfl | rfl
    · exact .inl rfl
    · exact .inr (.inl rfl)
    · exact .inr (.inr rfl)

/-- the second run: what the first has left, and nothing else -/
def second : St := { world := (baselineOrAudit env cc true false start).1.world }

theorem first_time : ∃ names st, Eligible (ExcludedBy cfg) tree names st ∧ 1 ≤ st.mtime :=
  ⟨["a".toList], sta, eligible_tree.mpr (.inl ⟨rfl, rfl⟩), by decide +kernel⟩

/-- with a change, a creation and a deletion, from a time on that is before all of them -/
example : CopyOf cfg tree2 ["e".toList]
    (incremental (env' tree2) cc true (some "changes.xml".toList) (some "1970-01-01T00:00:03Z".toList) second).1.world.fs := by
  refine (C106_follow_partial (followed tree2 (.inl rfl)) ratFt_ok setUp rfl start (by simp [start]) ["e".toList] places
    (destination tree2 (.inl rfl)) first_time second rfl rfl (some "1970-01-01T00:00:03Z".toList) 3 (by decide +kernel)
    (by unfold InYears; constructor <;> norm_num) ?_).2.2.2
  constructor
  · intro names st st' h h'
    rw [eligible_tree] at h
    rw [eligible_tree2] at h'
    rcases h with ⟨rfl, rfl⟩ | ⟨rfl, rfl⟩ <;> rcases h' with ⟨h', rfl⟩ | ⟨h', rfl⟩
    · exact absurd h' (by decide)
    · exact absurd h' (by decide)
    · exact .inr (by decide +kernel)
    · exact absurd h' (by decide)
  · intro names st' h' _
    rw [eligible_tree2] at h'
    rcases h' with ⟨-, rfl⟩ | ⟨-, rfl⟩ <;> decide +kernel
  · intro names st h _
    rw [eligible_tree] at h
    rcases h with ⟨-, rfl⟩ | ⟨-, rfl⟩ <;> decide +kernel

/-- without the deletion, from the stored time -/
example : CopyOf cfg tree3 ["e".toList]
    (incremental (env' tree3) cc true (some "changes.xml".toList) none second).1.world.fs := by
  refine (C106_stored_partial (followed tree3 (.inr rfl)) ratFt_ok setUp rfl start (by simp [start]) ["e".toList] places
    (destination tree3 (.inr rfl)) first_time second rfl rfl ?_ ?_).2
  · intro names st h
    rw [eligible_tree] at h
    rcases h with ⟨rfl, rfl⟩ | ⟨rfl, rfl⟩
    · exact ⟨sta, eligible_tree3.mpr (.inl ⟨rfl, rfl⟩)⟩
    · exact ⟨stb', eligible_tree3.mpr (.inr (.inl ⟨rfl, rfl⟩))⟩
  · intro names st' h'
    rw [eligible_tree3] at h'
    rcases h' with ⟨rfl, rfl⟩ | ⟨rfl, rfl⟩ | ⟨rfl, rfl⟩
    · exact .inl (eligible_tree.mpr (.inl ⟨rfl, rfl⟩))
    · refine .inr ⟨?_, ?_⟩
      · intro names1 st1 h1
        rw [eligible_tree] at h1
        rcases h1 with ⟨-, rfl⟩ | ⟨-, rfl⟩ <;> decide +kernel
      · intro st h1
        rw [eligible_tree] at h1
        rcases h1 with ⟨h, -⟩ | ⟨-, rfl⟩
        · exact absurd h (by decide)
        · decide +kernel
    · refine .inr ⟨?_, ?_⟩
      · intro names1 st1 h1
        rw [eligible_tree] at h1
        rcases h1 with ⟨-, rfl⟩ | ⟨-, rfl⟩ <;> decide +kernel
      · intro st h1
        rw [eligible_tree] at h1
        rcases h1 with ⟨h, -⟩ | ⟨h, -⟩ <;> exact absurd h (by decide)

end FollowExample

open FollowExample in
/-- C106 fails: with the deletion, from the stored time, the sync succeeds and the file that is gone stays -/
theorem C106_violated : (incremental (env' tree2) cc true (some "changes.xml".toList) none second).2 = .ok () ∧
    HasFile (incremental (env' tree2) cc true (some "changes.xml".toList) none second).1.world.fs ["e".toList, "a".toList] ∧
    ¬ CopyOf cfg tree2 ["e".toList] (incremental (env' tree2) cc true (some "changes.xml".toList) none second).1.world.fs := by
  refine ⟨by decide +kernel, C106_deleted_stays_violated (followed tree2 (.inl rfl)) ratFt_ok setUp rfl start (by simp [start]) ["e".toList] places
    (destination tree2 (.inl rfl)) second rfl ?_ ["a".toList] sta (eligible_tree.mpr (.inl ⟨rfl, rfl⟩)) ?_
    ["sub".toList, "b".toList] stb (eligible_tree.mpr (.inr ⟨rfl, rfl⟩)) (by decide +kernel) (by decide +kernel) true⟩
  · intro names st st' h h'
    rw [eligible_tree] at h
    rw [eligible_tree2] at h'
    rcases h with ⟨rfl, rfl⟩ | ⟨rfl, rfl⟩ <;> rcases h' with ⟨h', rfl⟩ | ⟨h', rfl⟩
    · exact absurd h' (by decide)
    · exact absurd h' (by decide)
    · exact .inr (by decide +kernel)
    · exact absurd h' (by decide)
  · intro st' h
    rw [eligible_tree2] at h
    rcases h with ⟨h, -⟩ | ⟨h, -⟩ <;> exact absurd h (by decide)

end Resync
