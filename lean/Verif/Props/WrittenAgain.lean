import Verif.Model.WrittenAgain
import Verif.Proofs.Dump
import Verif.Props.Dump
import Verif.Proofs.Resource
/-
C94: writing a list or a dump leaves it as it was, so that it can be written again.
-/

namespace Resync
open Py Resync.Spec

theorem dset_twice {α : Type} (d : Dict α) (k : Str) (v : α) : dset (dset d k v) k v = dset d k v := by
  induction d with
  | nil => simp [dset]
  | cons p t ih =>
    by_cases h : p.1 = k
    · simp [dset, h]
    · simp [dset, h, ih]

theorem updateFirst_twice (ln : List Link) (rel uri : Str) :
    updateFirst (updateFirst ln rel (fun l => dset l sHref uri)) rel (fun l => dset l sHref uri) =
      updateFirst ln rel (fun l => dset l sHref uri) := by
  induction ln with
  | nil => rfl
  | cons l t ih =>
    by_cases h : dget l sRel = some rel
    · have h' : dget (dset l sHref uri) sRel = some rel := by rw [dget_dset_ne _ _ (by decide), h]
      simp only [updateFirst, if_pos h, if_pos h', dset_twice]
    · simp only [updateFirst, if_neg h, ih]

theorem setIndexLink_present {ln : List Link} (h : (findLink ln sIndex).isSome) (uri : Str) :
    setIndexLink ln uri = updateFirst ln sIndex (fun l => dset l sHref uri) := by
  simp [setIndexLink, linkSetList, h, addAtts]

theorem findLink_setIndex {ln : List Link} (h : (findLink ln sIndex).isSome) (uri : Str) :
    (findLink (updateFirst ln sIndex (fun l => dset l sHref uri)) sIndex).isSome := by
  induction ln with
  | nil => simp [findLink] at h
  | cons l t ih =>
    by_cases hl : dget l sRel = some sIndex
    · have h' : dget (dset l sHref uri) sRel = some sIndex := by rw [dget_dset_ne _ _ (by decide), hl]
      simp only [updateFirst, if_pos hl, findLink, List.find?_cons, h', decide_true, Option.isSome_some]
    · have : updateFirst (l :: t) sIndex (fun l => dset l sHref uri) = l :: updateFirst t sIndex (fun l => dset l sHref uri) := by
        simp only [updateFirst, if_neg hl]
      rw [this]
      simp only [findLink, List.find?_cons, hl, decide_false] at h ⊢
      exact ih h

theorem sharedIndexLink_again (ln : List Link) (uri : Str) :
    setIndexLink (sharedIndexLink ln uri) uri = setIndexLink ln uri ∧
      sharedIndexLink (sharedIndexLink ln uri) uri = sharedIndexLink ln uri := by
  unfold sharedIndexLink
  by_cases h : (findLink ln sIndex).isSome
  · rw [if_pos h]
    have h2 : (findLink (setIndexLink ln uri) sIndex).isSome := by
      rw [setIndexLink_present h]; exact findLink_setIndex h uri
    have h3 : setIndexLink (setIndexLink ln uri) uri = setIndexLink ln uri := by
      rw [setIndexLink_present h2, setIndexLink_present h, updateFirst_twice]
    rw [if_pos h2]
    exact ⟨h3, h3⟩
  · rw [if_neg h, if_neg h]
    exact ⟨rfl, rfl⟩

theorem writeParts_links (l : LBI) (env : StatEnv) (basename index_uri : Str) (ln : List Link)
    (h : setIndexLink ln index_uri = setIndexLink l.ln index_uri) : ∀ (n : Nat) (chunk : List Resource)
    (nxt : Option Resource) (it index : List Resource),
    writeParts { l with ln := ln } env basename index_uri n chunk nxt it index =
      writeParts l env basename index_uri n chunk nxt it index := by
  intro n
  induction n with
  | zero => intros; rfl
  | succ n ih =>
    intro chunk nxt it index
    simp only [writeParts, h, ih]

/-- C94 for lists: whatever writing a list does, writing it to the same place again writes the same. -/
theorem C94_list_again (l : LBI) (env : StatEnv) (basename : Str) :
    (l.afterWrite basename).write env basename = l.write env basename := by
  unfold LBI.afterWrite
  split
  · rename_i chunk nxt it hc
    split
    · split
      · rename_i index_uri u h1 h2
        obtain ⟨e1, e2⟩ := sharedIndexLink_again l.ln index_uri
        simp only [LBI.write, hc, h1, e2, writeParts_links l env basename index_uri _ e1]
      · rfl
    · rfl
  · rfl

/-- C94 for lists: nothing but the address of an index link is changed. -/
theorem C94_list_same_otherwise (l : LBI) (basename : Str) :
    ∃ ln, l.afterWrite basename = { l with ln := ln } ∧ ln.length = l.ln.length ∧
      List.Forall₂ (fun a b => a = b ∨ (dget a sRel = some sIndex ∧ ∃ uri, b = dset a sHref uri)) l.ln ln := by
  have hrefl : ∀ ln : List Link, List.Forall₂ (fun a b => a = b ∨ (dget a sRel = some sIndex ∧ ∃ uri, b = dset a sHref uri)) ln ln :=
    fun ln => List.forall₂_same.mpr (fun _ _ => .inl rfl)
  unfold LBI.afterWrite
  split
  · split
    · split
      · rename_i index_uri u h1 h2
        refine ⟨_, rfl, ?_, ?_⟩
        · unfold sharedIndexLink
          split
          · rename_i h; rw [setIndexLink_present h, length_updateFirst]
          · rfl
        · unfold sharedIndexLink
          split
          · rename_i h
            rw [setIndexLink_present h]
            clear h h1 h2
            generalize l.ln = ln
            induction ln with
            | nil => exact .nil
            | cons x t ih =>
              simp only [updateFirst]
              split
              · rename_i hx; exact .cons (.inr ⟨hx, index_uri, rfl⟩) (hrefl t)
              · exact .cons (.inl rfl) ih
          · exact hrefl _
      · exact ⟨l.ln, rfl, rfl, hrefl _⟩
    · exact ⟨l.ln, rfl, rfl, hrefl _⟩
  · exact ⟨l.ln, rfl, rfl, hrefl _⟩

/-- C94 for lists: a list without an index link is as it was after writing. -/
theorem C94_list_unchanged_partial (l : LBI) (basename : Str) (h : ∀ x ∈ l.ln, dget x sRel ≠ some sIndex) :
    l.afterWrite basename = l := by
  obtain ⟨ln, e, -, hf⟩ := C94_list_same_otherwise l basename
  have : ln = l.ln := by
    generalize l.ln = a at h hf
    clear e
    induction hf with
    | nil => rfl
    | cons hx _ ih =>
      rcases hx with rfl | ⟨hx, -⟩
      · rw [ih (fun x hx => h x (by simp [hx]))]
      · exact absurd hx (h _ (by simp))
  rw [e, this]

/-- a list with an index link, in two files -/
def exIndexed : LBI where
  resources := [{ uri := "http://e/a".toList }, { uri := "http://e/b".toList }]
  ln := [[(sRel, sIndex), (sHref, "http://e/all.xml".toList)]]
  max_sitemap_entries := some 1
  mapper := some [⟨"http://e".toList, "/d".toList⟩]

/-- C94 is violated for lists: writing a large list changes an index link of it, which then stays changed: written as a single
document it would point to the index of the multi-file document. -/
theorem C94_list_violated : (exIndexed.afterWrite "/d/rl.xml".toList).ln ≠ exIndexed.ln := by decide +kernel

example : (exIndexed.afterWrite "/d/rl.xml".toList).ln = [[(sRel, sIndex), (sHref, "http://e/rl.xml".toList)]] := by
  decide +kernel

/-! ### dumps -/

theorem sized_sized (getsize : Str → Option Int) (r : Resource) : sized getsize (sized getsize r) = sized getsize r := by
  simp [sized]

/-- C94 for dumps: what a successful write leaves is the same resources in the same order, with the sizes of their files and
with paths in the archives. -/
theorem C94_dump_after (cfg : DumpCfg) (cwd : Str) (getsize : Str → Option Int) (rs : List Resource) (base : Str) (sep : Bool)
    (effs : List DumpEff) (n : Nat) (h : writeDump cfg cwd getsize rs base sep = (effs, .ok n)) (hne : rs ≠ []) :
    ∃ pre : Str, (∀ r ∈ rs, ∀ p, r.path = some p → pre <+: dirname p) ∧
      dumpAfter cfg cwd getsize rs = rs.map (fun r =>
        { r with length := r.path.bind getsize
                 path := r.path.map (fun p => if pre = [] then p else (relpath cwd p pre).getD p) }) := by
  unfold writeDump at h
  unfold dumpAfter
  rcases hc : checkFiles cfg true true getsize rs none 0 with ⟨rs', e | ⟨pre, tot⟩⟩
  · rw [hc] at h; simp at h
  · rw [hc] at h
    simp only at h ⊢
    obtain ⟨k1, rfl, -, k4, k5⟩ := checkFiles_ok cfg getsize rs none 0 rs' _ hc
    rcases hp : partitionDumps cfg (rs.map (sized getsize)) with ⟨ms, res⟩
    rw [hp] at h
    simp only at h
    rcases hw : writePackages cfg cwd pre base sep ms 0 with ⟨effs1, e | k⟩
    · rw [hw] at h; simp at h
    · rw [hw] at h
      simp only [Prod.mk.injEq] at h
      obtain ⟨rfl, h2⟩ := h
      cases res with
      | error e => cases h2
      | ok u =>
        cases h2
        obtain ⟨g1, g2⟩ := partLoop_spec cfg _ [] 0 0 ms _ WF_nil rfl (by omega) rfl (.inl rfl) (.inr (by simp)) hp
        have g3 : (ms.map added).flatten = rs.map (sized getsize) := (g2 rfl).trans (List.nil_append _)
        have hms : ms ≠ [] := by
          rintro rfl
          cases rs with
          | nil => exact hne rfl
          | cons _ _ => simp at g3
        obtain ⟨-, hz, -⟩ := writePackages_ok cfg cwd pre base sep ms 0 k _ hw
        rw [if_pos (hz hms)]
        have g3' : (ms.map (fun m => m.map Prod.snd)).flatten = rs.map (sized getsize) := g3
        rw [g3', List.drop_length, List.append_nil, List.map_map]
        cases pre with
        | none => exact absurd ((k5.mp rfl).2) hne
        | some pre =>
          refine ⟨pre, (k4 pre rfl).2.1, List.map_congr_left fun r _ => ?_⟩
          simp only [Function.comp, archived, sized]
          cases hpath : r.path with
          | none => simp
          | some p =>
            cases pre with
            | nil => simp [archivePath]
            | cons c t =>
              have ha : archivePath cwd (some (c :: t)) p = relpath cwd p (c :: t) := rfl
              cases hr : relpath cwd p (c :: t) <;> simp [ha, hr]

theorem checkFiles_sized (cfg : DumpCfg) (getsize : Str → Option Int) (rs : List Resource)
    (h : ∀ r ∈ rs, FileAgrees cfg.max_size getsize r) : ∀ (pre : Option Str) (tot : Int),
    checkFiles cfg true true getsize (rs.map (sized getsize)) pre tot = checkFiles cfg true true getsize rs pre tot := by
  induction rs with
  | nil => intros; rfl
  | cons r rs ih =>
    intro pre tot
    obtain ⟨p, n, h1, h2, h3, h4⟩ := (h r (by simp)).ok
    have hc := (checkFile_ok cfg getsize r (sized getsize r) p n).mpr ⟨h1, h2, h3, h4, by simp [sized, h1, h2]⟩
    have hc' := (checkFile_ok cfg getsize (sized getsize r) (sized getsize r) p n).mpr
      ⟨h1, h2, h3, .inr (by simp [sized, h1, h2]), by simp [sized, h1, h2]⟩
    simp only [List.map_cons, checkFiles, hc, hc', ih (fun a ha => h a (by simp [ha]))]

/-- C94 for dumps, when there is no common directory (so that files are archived under their own paths): writing again writes the
same dump. -/
theorem C94_dump_again_partial (cfg : DumpCfg) (cwd : Str) (getsize : Str → Option Int) (rs : List Resource) (base : Str)
    (sep : Bool) (effs : List DumpEff) (n : Nat) (h : writeDump cfg cwd getsize rs base sep = (effs, .ok n))
    (hd : ∀ pre : Str, (∀ r ∈ rs, ∀ p, r.path = some p → pre <+: dirname p) → pre = []) :
    writeDump cfg cwd getsize (dumpAfter cfg cwd getsize rs) base sep = writeDump cfg cwd getsize rs base sep := by
  by_cases hne : rs = []
  · subst hne
    have : dumpAfter cfg cwd getsize [] = [] := by
      simp [dumpAfter, checkFiles, partitionDumps, partLoop]
    rw [this]
  obtain ⟨pre, hpre, he⟩ := C94_dump_after cfg cwd getsize rs base sep effs n h hne
  have h0 := hd pre hpre
  subst h0
  have he : dumpAfter cfg cwd getsize rs = rs.map (sized getsize) := by
    rw [he]
    refine List.map_congr_left fun r _ => ?_
    simp [sized]
  rw [he]
  rcases hc : checkFiles cfg true true getsize rs none 0 with ⟨rs', e | x⟩
  · rw [writeDump, hc] at h; simp at h
  · obtain ⟨k1, k2, -⟩ := checkFiles_ok cfg getsize rs none 0 rs' _ hc
    have := checkFiles_sized cfg getsize rs k1 none 0
    unfold writeDump
    rw [this]

/-- two files below the current directory -/
def exHereList : List Resource := [exDumpRes "http://e/a" "a" none, exDumpRes "http://e/b" "s/b" (some 20)]

def exHereSizes (p : Str) : Option Int := if p = "a".toList then some 10 else if p = "s/b".toList then some 20 else none

example : (∃ effs, writeDump { max_size := 25 } "/h".toList exHereSizes exHereList "/tmp/rd_".toList false = (effs, .ok 1)) ∧
    ∀ pre : Str, (∀ r ∈ exHereList, ∀ p, r.path = some p → pre <+: dirname p) → pre = [] := by
  refine ⟨⟨_, rfl⟩, fun pre h => ?_⟩
  have := h (exDumpRes "http://e/a" "a" none) (by simp [exHereList]) "a".toList rfl
  exact List.prefix_nil.mp this

/-- C94 is violated for dumps: after the dump has been written (and `dump.write` has returned 2), writing it again fails; the
files are looked for under their names in the archives. -/
theorem C94_dump_violated : ∃ effs,
    writeDump exDumpCfg "/home".toList exSizes exDumpList "/tmp/rd_".toList true = (effs, .ok 2) ∧
    writeDump exDumpCfg "/home".toList exSizes (dumpAfter exDumpCfg "/home".toList exSizes exDumpList) "/tmp/rd_".toList true =
      ([], .error .os) :=
  ⟨_, rfl, by decide +kernel⟩

/-- as exSizes, with a file `a` in the current directory as large as /d/a -/
def exSizesHere (p : Str) : Option Int := if p = "a".toList then some 10 else exSizes p

/-- C94 is violated for dumps in another way: if there happen to be files of the same names and sizes in the current directory,
the second dump has the contents of those. -/
theorem C94_dump_wrong_file_violated : ∃ e1 e2 p1 p2,
    writeDump {} "/home".toList exSizesHere [exDumpRes "http://e/a" "/d/a" none] "/tmp/rd_".toList false = (e1, .ok 1) ∧
    writeDump {} "/home".toList exSizesHere
      (dumpAfter {} "/home".toList exSizesHere [exDumpRes "http://e/a" "/d/a" none]) "/tmp/rd_".toList false = (e2, .ok 1) ∧
    e1 = [.package p1] ∧ e2 = [.package p2] ∧ p1.members = [("a".toList, "/d/a".toList)] ∧
    p2.members = [("a".toList, "a".toList)] :=
  ⟨_, _, _, _, rfl, rfl, rfl, rfl, by decide +kernel, by decide +kernel⟩

end Resync
