import Verif.Props.ClientWrite
import Verif.Props.ClientChanges
import Verif.Props.Mirror
import Verif.Spec.Order
/-
C114: what is published depends on the files alone.
-/

namespace Resync
open Py Resync.Spec

theorem dkeys_mem {d : Dict Resource} {u : Str} : u ∈ dkeys d ↔ ∃ r, dget d u = some r := by
  rw [← dget_isSome_iff, Option.isSome_iff_exists]

theorem listing_ext {d e : Dict Resource} (hd : WF d) (he : WF e) (h : ∀ u r, dget d u = some r ↔ dget e u = some r) :
    listing d = listing e := by
  have hg : dget d = dget e := by
    funext u
    cases h1 : dget e u with
    | some r => exact (h u r).mpr h1
    | none =>
      cases h2 : dget d u with
      | none => rfl
      | some r => rw [(h u r).mp h2] at h1; cases h1
  unfold listing
  rw [hg]
  congr 1
  apply sortStr_eq_of_perm
  rw [List.perm_ext_iff_of_nodup hd.1 he.1]
  intro u
  rw [dkeys_mem, dkeys_mem, hg]

theorem changeEntries_ext {h h' : Heap} (w0 : WF (h 0).dict) (w1 : WF (h 1).dict) (w0' : WF (h' 0).dict) (w1' : WF (h' 1).dict)
    (e0 : listing (h 0).dict = listing (h' 0).dict) (e1 : listing (h 1).dict = listing (h' 1).dict) :
    changeEntries h 0 1 = changeEntries h' 0 1 := by
  obtain ⟨g, c, a1, -, a3, a4⟩ := compare_spec h 0 1 (by decide) w0 w1
  obtain ⟨g', c', b1, -, b3, b4⟩ := compare_spec h' 0 1 (by decide) w0' w1'
  rw [e0, e1] at a3
  unfold changeEntries
  rw [a1, b1]
  simp only [bind, Except.bind, iterAll_listing]
  rw [listing_ext a4.updated b4.updated (fun u r => (a3.updated u r).trans (b3.updated u r).symm),
    listing_ext a4.deleted b4.deleted (fun u r => (a3.deleted u r).trans (b3.deleted u r).symm),
    listing_ext a4.created b4.created (fun u r => (a3.created u r).trans (b3.created u r).symm)]

theorem build_ext {c : WriteCfg} {env : WriteEnv} {m : Map} {cs cs' : List FNode} {disk' : Disk} (site : Site c env m cs)
    (site' : Site c { env with disk := disk' } m cs')
    (h : ∀ names st, Eligible (ExcludedBy c) cs' names st ↔ Eligible (ExcludedBy c) cs names st) (b : Bool) :
    ∃ rl rl', buildResourceList c env none b = .ok rl ∧ buildResourceList c { env with disk := disk' } none b = .ok rl' ∧
      WF rl.dict ∧ WF rl'.dict ∧ listing rl'.dict = listing rl.dict ∧ rl'.obj = rl.obj := by
  obtain ⟨rl, ex, a1, a2, a3, a4, a5⟩ := build_site site b
  obtain ⟨rl', ex', b1, b2, b3, b4, b5⟩ := build_site site' b
  have hl : listing rl'.dict = listing rl.dict := by
    apply listing_ext b2 a2
    intro u r
    rw [a5, b5]
    simp only [describes_client]
    constructor
    · rintro ⟨names, st, k1, k2, k3⟩
      exact ⟨names, st, (h names st).mp k1, k2, k3⟩
    · rintro ⟨names, st, k1, k2, k3⟩
      exact ⟨names, st, (h names st).mpr k1, k2, k3⟩
  refine ⟨rl, rl', a1, b1, a2, b2, hl, ?_⟩
  rw [iterAll_listing] at a3 b3
  rw [hl] at b3
  have : rl'.obj.resources = rl.obj.resources := (Except.ok.inj b3).symm.trans (Except.ok.inj a3)
  rw [a4, b4, this]
  rfl

/-- C114.  What `write_resource_list` writes, as documents, on standard output or as a dump, is the same for any two directories with
the same files that are not excluded: it does not depend on the order in which the file system lists the entries, on excluded
files, links or empty directories. -/
theorem C114_list {c : WriteCfg} {env : WriteEnv} {m : Map} {cs cs' : List FNode} {disk' : Disk} (site : Site c env m cs)
    (site' : Site c { env with disk := disk' } m cs')
    (h : ∀ names st, Eligible (ExcludedBy c) cs' names st ↔ Eligible (ExcludedBy c) cs names st)
    (outfile : Option Str) (links : Option (List Link)) (dump : Bool) :
    writeResourceList c { env with disk := disk' } none outfile links dump = writeResourceList c env none outfile links dump := by
  obtain ⟨rl, rl', h1, h2, -, -, -, h6⟩ := build_ext site site' h dump
  unfold writeResourceList
  rw [h1, h2]
  simp only [h6]
  rfl

/-- C114, for change lists against a reference list. -/
theorem C114_changes {c : WriteCfg} {env : WriteEnv} {m : Map} {cs cs' : List FNode} {disk' : Disk} (site : Site c env m cs)
    (site' : Site c { env with disk := disk' } m cs')
    (h : ∀ names st, Eligible (ExcludedBy c) cs' names st ↔ Eligible (ExcludedBy c) cs names st)
    (outfile : Option Str) (ref : Str) (newref : Option Str) (empty : Bool) (links : Option (List Link)) (dump : Bool) :
    writeChangeList c { env with disk := disk' } none outfile ref newref empty links dump =
      writeChangeList c env none outfile ref newref empty links dump := by
  have hent : changeListEntries c { env with disk := disk' } none ref newref dump = changeListEntries c env none ref newref dump := by
    unfold changeListEntries
    have hr : ∀ x, readReference c { env with disk := disk' } x = readReference c env x := fun _ => rfl
    rw [hr]
    cases hold : readReference c env ref with
    | error e => rfl
    | ok old =>
      cases newref with
      | some n => rfl
      | none =>
        obtain ⟨rl, rl', h1, h2, h3, h4, h5, -⟩ := build_ext site site' h dump
        rw [h1, h2]
        simp only [Except.map]
        have wo := readReference_WF hold
        rw [changeEntries_ext (h := fun o => if o = 0 then { dict := old } else { dict := rl'.dict })
          (h' := fun o => if o = 0 then { dict := old } else { dict := rl.dict }) wo h4 wo h3 rfl h5]
  unfold writeChangeList
  rw [hent]
  rfl

theorem reordered_symm {cs cs' : List FNode} (h : Reordered cs cs') : Reordered cs' cs := by
  induction h with
  | perm h => exact .perm h.symm
  | inside _ ih => exact .inside ih
  | trans _ _ ih1 ih2 => exact .trans ih2 ih1

theorem reordered_reach {cs cs' : List FNode} (h : Reordered cs cs') : ∀ {names : List Str} {n : FNode}, Reach cs names n →
    ∃ n', Reach cs' names n' ∧ ∀ nm sp st, n = .file nm sp st → n' = n := by
  induction h with
  | perm h =>
    intro names n hr
    refine ⟨n, ?_, fun _ _ _ _ => rfl⟩
    cases hr with
    | here hm => exact .here (h.mem_iff.mp hm)
    | sub hm hs => exact .sub (h.mem_iff.mp hm) hs
  | @inside a b ds ds' name _ ih =>
    intro names n hr
    cases hr with
    | here hm =>
      rcases List.mem_append.mp hm with hm | hm
      · exact ⟨n, .here (List.mem_append_left _ hm), fun _ _ _ _ => rfl⟩
      · rcases List.mem_cons.mp hm with rfl | hm
        · exact ⟨.dir name true ds', .here (n := .dir name true ds') (by simp), by intro _ _ _ h; cases h⟩
        · exact ⟨n, .here (by simp [hm]), fun _ _ _ _ => rfl⟩
    | sub hm hs =>
      rcases List.mem_append.mp hm with hm | hm
      · exact ⟨n, .sub (List.mem_append_left _ hm) hs, fun _ _ _ _ => rfl⟩
      · rcases List.mem_cons.mp hm with e | hm
        · cases e
          obtain ⟨n', h1, h2⟩ := ih hs
          exact ⟨n', .sub (name := name) (ds := ds') (by simp) h1, h2⟩
        · exact ⟨n, .sub (by simp [hm]) hs, fun _ _ _ _ => rfl⟩
  | trans _ _ ih1 ih2 =>
    intro names n hr
    obtain ⟨n1, h1, h2⟩ := ih1 hr
    obtain ⟨n2, h3, h4⟩ := ih2 h1
    refine ⟨n2, h3, ?_⟩
    intro nm sp st e
    have e1 := h2 nm sp st e
    rw [← e1]
    exact h4 nm sp st (e1.trans e)

theorem reordered_real {cs cs' : List FNode} (h : Reordered cs cs') : RealDir cs → RealDir cs' := by
  induction h with
  | perm h =>
    rintro ⟨h1, h2, h3⟩
    exact ⟨(h.map _).nodup_iff.mp h1, fun n hn => h2 n (h.mem_iff.mpr hn), fun name r ds hd => h3 name r ds (h.mem_iff.mpr hd)⟩
  | @inside a b ds ds' name _ ih =>
    rintro ⟨h1, h2, h3⟩
    refine ⟨by simpa [FNode.name] using h1, ?_, ?_⟩
    · intro n hn
      rcases List.mem_append.mp hn with hn | hn
      · exact h2 n (List.mem_append_left _ hn)
      · rcases List.mem_cons.mp hn with rfl | hn
        · exact h2 (.dir name true ds) (by simp)
        · exact h2 n (by simp [hn])
    · intro nm r es hn
      rcases List.mem_append.mp hn with hn | hn
      · exact h3 nm r es (List.mem_append_left _ hn)
      · rcases List.mem_cons.mp hn with e | hn
        · cases e
          exact ih (h3 name true ds (by simp))
        · exact h3 nm r es (by simp [hn])
  | trans _ _ ih1 ih2 => exact fun hr => ih2 (ih1 hr)

theorem reordered_eligible {ex : Str → Prop} {cs cs' : List FNode} (h : Reordered cs cs') {names : List Str} {st : Stat}
    (he : Eligible ex cs names st) : Eligible ex cs' names st := by
  obtain ⟨⟨nm, sp, hr⟩, hx⟩ := he
  obtain ⟨n', h1, h2⟩ := reordered_reach h hr
  rw [h2 _ _ _ rfl] at h1
  exact ⟨⟨nm, sp, h1⟩, hx⟩

theorem reordered_site {c : WriteCfg} {env : WriteEnv} {m : Map} {cs cs' : List FNode} {disk' : Disk} (site : Site c env m cs)
    (h : Reordered cs cs') (hdir : ∃ nm, disk'.resolve m.dst_path = some (.dir nm true cs')) : Site c { env with disk := disk' } m cs' := by
  have back : ∀ {names nm sp st}, Reach cs' names (.file nm sp (some st)) → Reach cs names (.file nm sp (some st)) := by
    intro names nm sp st hr
    obtain ⟨n', h1, h2⟩ := reordered_reach (reordered_symm h) hr
    rw [h2 _ _ _ rfl] at h1
    exact h1
  exact { mapper := site.mapper, src_literal := site.src_literal, src_line := site.src_line, src_chars := site.src_chars
          dst_literal := site.dst_literal, dst_line := site.dst_line, dst_ne := site.dst_ne, dst_slash := site.dst_slash
          dir := hdir, real := reordered_real h site.real, patterns := site.patterns
          names := by
            intro names n hr
            obtain ⟨n', h1, -⟩ := reordered_reach (reordered_symm h) hr
            exact site.names names n' h1
          times := fun names nm sp st hr => site.times names nm sp st (back hr)
          hash_types := site.hash_types
          readable := fun hh names nm sp st hr => site.readable hh names nm sp st (back hr)
          digests := site.digests, scan := site.scan }

/-- C114, in whatever order the file system lists the entries of the directories: the same documents are written. -/
theorem C114_order {c : WriteCfg} {env : WriteEnv} {m : Map} {cs cs' : List FNode} {disk' : Disk} (site : Site c env m cs)
    (h : Reordered cs cs') (hdir : ∃ nm, disk'.resolve m.dst_path = some (.dir nm true cs')) :
    (∀ outfile links dump, writeResourceList c { env with disk := disk' } none outfile links dump =
      writeResourceList c env none outfile links dump) ∧
    (∀ outfile ref newref empty links dump, writeChangeList c { env with disk := disk' } none outfile ref newref empty links dump =
      writeChangeList c env none outfile ref newref empty links dump) := by
  have site' := reordered_site site h hdir
  have he : ∀ names st, Eligible (ExcludedBy c) cs' names st ↔ Eligible (ExcludedBy c) cs names st :=
    fun names st => ⟨reordered_eligible (reordered_symm h), reordered_eligible h⟩
  exact ⟨fun o l d => C114_list site site' he o l d, fun o r n e l d => C114_changes site site' he o r n e l d⟩

namespace OrderExample
open MirrorExample (tree cfg wenv m sta stb site)

/-- the same directory, found in another order: first the link, then .git, sub and a, and what is in sub after what is beside it -/
def other : Disk := { resolve := fun p => if p = "/d".toList then some (.dir "d".toList true tree.reverse) else none, islink := fun _ => false }

example : writeResourceList cfg { wenv with disk := other } none (some "/d/list.xml".toList) none false =
    writeResourceList cfg wenv none (some "/d/list.xml".toList) none false :=
  (C114_order site (.perm (List.reverse_perm tree).symm) ⟨"d".toList, rfl⟩).1 _ _ _

/-- it is a directory that can be published, in more than one document -/
example : (writeResourceList cfg { wenv with disk := other } none (some "/d/list.xml".toList) none false).1.files.length ≠ 0 := by
  decide +kernel

/-- entries of a directory further down exchanged -/
example (x y : FNode) : Reordered [.dir "sub".toList true [x, y]] [.dir "sub".toList true [y, x]] :=
  .inside (a := []) (b := []) (.perm (List.Perm.swap y x []))

/-- without the link and with one more empty directory: the hypotheses of the first form -/
def bare : List FNode :=
  [.dir "sub".toList true [.file "b".toList false (some stb)], .dir "empty".toList true [], .file "a".toList false (some sta),
   .dir ".git".toList true [.file "c".toList false (some stb)]]

theorem bare_files {names : List Str} {st : Stat} : (∃ nm sp, Reach bare names (.file nm sp (some st))) ↔
    ∃ nm sp, Reach tree names (.file nm sp (some st)) := by
  constructor
  · rintro ⟨nm, sp, h⟩
    cases h with
    | here h =>
      simp only [bare, List.mem_cons, reduceCtorEq, false_or, FNode.file.injEq, List.not_mem_nil, or_false] at h
      obtain ⟨rfl, rfl, h⟩ := h
      exact ⟨_, _, .here (n := .file "a".toList false (some st)) (by simp [tree, h])⟩
    | sub h h' =>
      simp only [bare, List.mem_cons, reduceCtorEq, false_or, FNode.dir.injEq, List.not_mem_nil, or_false] at h
      rcases h with ⟨rfl, -, rfl⟩ | ⟨rfl, -, rfl⟩ | ⟨rfl, -, rfl⟩
      · exact ⟨nm, sp, .sub (by simp [tree]) h'⟩
      · cases h' with
        | here h => simp at h
        | sub h _ => simp at h
      · exact ⟨nm, sp, .sub (by simp [tree]) h'⟩
  · rintro ⟨nm, sp, h⟩
    cases h with
    | here h =>
      simp only [tree, List.mem_cons, reduceCtorEq, false_or, FNode.file.injEq, List.not_mem_nil, or_false] at h
      obtain ⟨rfl, rfl, h⟩ := h
      exact ⟨_, _, .here (n := .file "a".toList false (some st)) (by simp [bare, h])⟩
    | sub h h' =>
      simp only [tree, List.mem_cons, reduceCtorEq, false_or, FNode.dir.injEq, List.not_mem_nil, or_false] at h
      rcases h with ⟨rfl, -, rfl⟩ | ⟨rfl, -, rfl⟩
      · exact ⟨nm, sp, .sub (by simp [bare]) h'⟩
      · exact ⟨nm, sp, .sub (by simp [bare]) h'⟩

example : ∀ names st, Eligible (ExcludedBy cfg) bare names st ↔ Eligible (ExcludedBy cfg) tree names st :=
  fun _ _ => and_congr_left (fun _ => bare_files)

end OrderExample

end Resync
