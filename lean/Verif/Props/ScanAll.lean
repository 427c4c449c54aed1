import Verif.Proofs.ScanAll
/-
C42 for all start paths, files as well as directories, with links left out or included.
-/

namespace Resync
open Py Resync.Spec

/-- C42.  Whatever the start paths are (directories, files, or not there), and whether or not links are included: a scan
that succeeds leaves in the list what was there before and, for each file to be found, the resource that describes it
under the URI its path is mapped to; and nothing else. -/
theorem C42_any_start (b : Builder) (lib : HashLib) (disk : Disk) (rl0 : Dict Resource) (paths : Option (List Str))
    (rl : Dict Resource) (h : b.fromDisk lib disk rl0 paths = .ok rl) (u : Str) (r : Resource) :
    dget rl u = some r ↔ dget rl0 u = some r ∨ ∃ p ∈ startPaths b paths, ∃ path st, Found b disk p path st ∧
      b.mapper.dstToSrc path = .ok u ∧ r = describes b lib u path st := by
  rw [fromDisk_start, fromDisk_all] at h
  rw [addAll_ok _ h]
  refine or_congr_right ⟨?_, ?_⟩
  · rintro ⟨e, f, hf, hc⟩
    obtain ⟨rl1, rl2, hr⟩ := addAll_processed _ h f hf
    obtain ⟨p, hp, hm⟩ := List.mem_flatMap.mp hf
    obtain ⟨h1, h2, st, h3, hu, hd⟩ := (contrib_iff hr u r).mp ⟨e, hc⟩
    exact ⟨p, hp, _, st, found_iff.mpr ⟨f, hm, h1, h2, h3, rfl⟩, hu, hd⟩
  · rintro ⟨p, hp, path, st, hf, hu, rfl⟩
    obtain ⟨u', hu', f, hm, -, hc⟩ := found_contrib h hp hf
    rw [hu] at hu'; cases hu'
    exact ⟨rfl, f, List.mem_flatMap.mpr ⟨p, hp, hm⟩, hc⟩

/-- C42.  A scan that succeeds mapped every file it found, to a URI that was not in the list before; and two files found,
below one start path or from two, have different URIs: none is lost by being replaced. -/
theorem C42_no_clash (b : Builder) (lib : HashLib) (disk : Disk) (rl0 : Dict Resource) (paths : Option (List Str))
    (rl : Dict Resource) (h : b.fromDisk lib disk rl0 paths = .ok rl) :
    (∀ p ∈ startPaths b paths, ∀ path st, Found b disk p path st →
      ∃ u, b.mapper.dstToSrc path = .ok u ∧ dget rl0 u = none) ∧
    ∀ p ∈ startPaths b paths, ∀ q ∈ startPaths b paths, ∀ path path' st st', Found b disk p path st →
      Found b disk q path' st' → p ≠ q ∨ path ≠ path' → b.mapper.dstToSrc path ≠ b.mapper.dstToSrc path' := by
  rw [fromDisk_start, fromDisk_all] at h
  generalize startPaths b paths = ps at h
  obtain ⟨h1, h2⟩ := addAll_fresh _ h
  refine ⟨?_, ?_⟩
  · intro p hp path st hf
    obtain ⟨u, hu, f, hm, -, hc⟩ := found_contrib h hp hf
    exact ⟨u, hu, h1 f (List.mem_flatMap.mpr ⟨p, hp, hm⟩) _ hc⟩
  · intro p hp q hq path path' st st' hf hf' hne e
    obtain ⟨u, hu, f, hm, rfl, hc⟩ := found_contrib h hp hf
    obtain ⟨u', hu', g, hm', rfl, hc'⟩ := found_contrib h hq hf'
    rw [hu, hu'] at e; cases e
    obtain ⟨w1, w2⟩ := List.pairwise_flatMap.mp h2
    by_cases hpq : p = q
    · subst hpq
      rcases hne with hne | hne
      · exact hne rfl
      · have hfg : f ≠ g := by rintro rfl; exact hne rfl
        rcases pairwise_either (w1 p hp) hm hm' hfg with w | w
        · exact w _ _ hc hc' rfl
        · exact w _ _ hc' hc rfl
    · rcases pairwise_either w2 hp hq hpq with w | w
      · exact w f hm g hm' _ _ hc hc' rfl
      · exact w g hm' f hm _ _ hc' hc rfl

/-! A disk with a file, a link to a file, a link to a directory and a dangling link, scanned with links, together with a
single file. -/

namespace ScanAllExample

def b : Builder := { BuilderExample.b with include_symlinks := true }

def tree : List FNode :=
  [.file "a".toList false (some (BuilderExample.st 1)),
   .link "l".toList false (some (BuilderExample.st 2)),
   .link "k".toList true (some (BuilderExample.st 3)),
   .link "gone".toList false none]

def disk : Disk :=
  { resolve := fun p => if p = "/d/t".toList then some (.dir "t".toList true tree)
      else if p = "/d/one".toList then some (.file "one".toList false (some (BuilderExample.st 4))) else none
    islink := fun p => decide (p = "/d/one".toList) }

def starts : Option (List Str) := some ["/d/t".toList, "/d/one".toList, "/d/none".toList]

/-- what is found, and the links followed -/
example : (b.fromDisk BuilderExample.lib disk [] starts).toOption.map (fun rl => rl.map (fun e => (e.1, e.2.length))) =
    some [("http://h/t/a".toList, some 1), ("http://h/t/l".toList, some 2), ("http://h/one".toList, some 4)] := by
  decide +kernel

/-- without links -/
example : (BuilderExample.b.fromDisk BuilderExample.lib disk [] starts).toOption.map dkeys =
    some ["http://h/t/a".toList] := by
  decide +kernel

/-- the scan that the theorems speak of succeeds -/
example : ∃ rl, b.fromDisk BuilderExample.lib disk [] starts = .ok rl := by
  have : (b.fromDisk BuilderExample.lib disk [] starts).toOption.isSome = true := by decide +kernel
  cases h : b.fromDisk BuilderExample.lib disk [] starts with
  | ok rl => exact ⟨rl, rfl⟩
  | error e => rw [h] at this; cases this

/-- a file reached by a link is found -/
example : Found b disk "/d/t".toList "/d/t/l".toList (BuilderExample.st 2) :=
  .below (names := ["l".toList]) (nm := "t".toList) (cs := tree) (n := .link "l".toList false (some (BuilderExample.st 2)))
    rfl (.here (.tail _ (.head _))) ⟨rfl, rfl, rfl⟩ (by
      intro c hc hex
      rw [List.mem_singleton.mp hc, ← exclude_iff] at hex
      revert hex; decide +kernel)

def disk2 : Disk :=
  { resolve := fun p => if p = "/d/t/a".toList then some (.file "a".toList false (some (BuilderExample.st 1)))
      else disk.resolve p
    islink := disk.islink }

/-- two start paths, one below the other: the scan fails rather than list a file twice -/
example : (b.fromDisk BuilderExample.lib disk2 [] (some ["/d/t".toList, "/d/t/a".toList])).toOption.map dkeys = none := by
  decide +kernel

end ScanAllExample

end Resync
