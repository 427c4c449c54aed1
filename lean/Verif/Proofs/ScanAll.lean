import Verif.Spec.ScanAll
import Verif.Props.Builder
/-
Lemmas for C42 from any start path, with links.
-/

namespace Resync
open Py Resync.Spec

theorem addFile_made {b : Builder} {lib : HashLib} {rl rl' : Dict Resource} {f : Str × FNode}
    (h : b.addFile lib rl (some f.1) f.2.name f.2.islink f.2.stat = .ok rl')
    (h1 : b.exclude f.2.name = false) (h2 : f.2.islink = true → b.include_symlinks = true) :
    ∃ uri, b.mapper.dstToSrc (pathJoin f.1 f.2.name) = .ok uri ∧
      ∀ st, f.2.stat = some st → ∃ r, b.fileResource lib uri (pathJoin f.1 f.2.name) st = .ok r := by
  unfold Builder.addFile at h
  rw [if_neg (by simp [h1])] at h
  simp only at h
  rw [if_neg (show ¬ (f.2.islink = true ∧ ¬ b.include_symlinks = true) from fun hc => hc.2 (h2 hc.1))] at h
  cases h3 : b.mapper.dstToSrc (pathJoin f.1 f.2.name) with
  | error e => rw [h3] at h; cases h
  | ok uri =>
    rw [h3] at h
    simp only at h
    refine ⟨uri, rfl, ?_⟩
    intro st hst
    rw [hst] at h
    simp only at h
    cases h5 : b.fileResource lib uri (pathJoin f.1 f.2.name) st with
    | error e => rw [h5] at h; cases h
    | ok r => exact ⟨r, rfl⟩

/-- a file that contributes, when everything scanned was dealt with -/
theorem contrib_iff {b : Builder} {lib : HashLib} {f : Str × FNode} {rl rl' : Dict Resource}
    (h : b.addFile lib rl (some f.1) f.2.name f.2.islink f.2.stat = .ok rl') (u : Str) (r : Resource) :
    (r.uri = u ∧ Contrib b lib f r) ↔ b.exclude f.2.name = false ∧ (f.2.islink = true → b.include_symlinks = true) ∧
      ∃ st, f.2.stat = some st ∧ b.mapper.dstToSrc (pathJoin f.1 f.2.name) = .ok u ∧
        r = describes b lib u (pathJoin f.1 f.2.name) st := by
  constructor
  · rintro ⟨rfl, h1, h2, uri, st, e1, e2, e3⟩
    have hd := fileResource_ok e3
    have : r.uri = uri := by rw [hd]; rfl
    rw [this]
    exact ⟨h1, h2, st, e2, e1, hd⟩
  · rintro ⟨h1, h2, st, e2, e1, rfl⟩
    obtain ⟨uri, hu, hst⟩ := addFile_made h h1 h2
    rw [e1] at hu; cases hu
    obtain ⟨r, hr⟩ := hst st e2
    have hd := fileResource_ok hr
    exact ⟨rfl, h1, h2, u, st, e1, e2, by rw [hr, hd]⟩

theorem pathJoin_nil (p : Str) : pathJoin [] p = p := by
  unfold pathJoin
  split
  · rfl
  · simp

/-- a single file, as an entry -/
def asEntry (path : Str) (islink : Bool) (st : Option Stat) : FNode :=
  if islink then .link path false st else .file path false st

theorem mem_walk_entry {b : Builder} {p : Str} {cs : List FNode} {path : Str} {st : Stat} :
    (∃ f ∈ walk b.exclude p cs, b.exclude f.2.name = false ∧ (f.2.islink = true → b.include_symlinks = true) ∧
        f.2.stat = some st ∧ path = pathJoin f.1 f.2.name) ↔
    ∃ names n, Reach cs names n ∧ FileEntry b.include_symlinks n st ∧ (∀ c ∈ names, ¬ Excluded b c) ∧
      path = filePath p names := by
  constructor
  · rintro ⟨f, hf, h1, h2, h3, rfl⟩
    rw [walk_eq] at hf
    obtain ⟨x, hx, rfl⟩ := List.mem_map.mp hf
    have hm := mem_walkN.mp hx
    refine ⟨namesOf x, x.2, hm.reach, ?_, ?_, pathJoin_filePath p x⟩
    · have he := hm.entry
      obtain ⟨ds, n⟩ := x
      cases n with
      | file nm sp st' => exact h3
      | link nm d st' => exact ⟨h2 rfl, he, h3⟩
      | dir => cases h3
    · intro c hc hex
      rw [← exclude_iff] at hex
      rcases List.mem_append.mp hc with h | h
      · rw [hm.dirs c h] at hex; cases hex
      · have h1 : b.exclude x.2.name = false := h1
        rw [List.mem_singleton.mp h, h1] at hex; cases hex
  · rintro ⟨names, n, hr, he, hex, rfl⟩
    have hlast : ∃ ds, names = ds ++ [n.name] := by
      clear hex he
      induction hr with
      | here h => exact ⟨[], rfl⟩
      | sub _ h ih =>
        obtain ⟨ds, e⟩ := ih
        exact ⟨_ :: ds, by rw [e]; rfl⟩
    obtain ⟨ds, rfl⟩ := hlast
    have hex' : ∀ c ∈ ds ++ [n.name], b.exclude c = false := by
      intro c hc
      have := hex c hc
      rw [← exclude_iff] at this
      simpa using this
    have hent : n.isDirEntry = false := by
      cases n with
      | file => rfl
      | link nm d st' => exact he.2.1
      | dir => cases he
    have hx : (ds, n) ∈ walkN b.exclude cs :=
      mem_walkN.mpr ⟨hr, hent, fun c hc => hex' c (List.mem_append_left _ hc)⟩
    refine ⟨(ds.foldl pathJoin p, n), by rw [walk_eq]; exact List.mem_map.mpr ⟨_, hx, rfl⟩, hex' _ (by simp), ?_, ?_,
      by simp [filePath]⟩
    · intro hl
      cases n with
      | file => cases hl
      | link nm d st' => exact he.1
      | dir => cases he
    · cases n with
      | file nm sp st' => exact he
      | link nm d st' => exact he.2.2
      | dir => cases he

/-- everything that is looked at from start path `p` -/
def entriesAt (b : Builder) (disk : Disk) (p : Str) : List (Str × FNode) :=
  match disk.resolve p with
  | some (.dir _ rd cs) => if rd then walk b.exclude p cs else []
  | other => [([], asEntry p (disk.islink p) (other.bind FNode.stat))]

theorem addAll_single (b : Builder) (lib : HashLib) (rl : Dict Resource) (path : Str) (il : Bool) (st : Option Stat) :
    b.addAll lib rl [([], asEntry path il st)] = b.addFile lib rl none path il st := by
  have : b.addAll lib rl [([], asEntry path il st)] =
      b.addFile lib rl (some []) (asEntry path il st).name (asEntry path il st).islink (asEntry path il st).stat := by
    simp only [Builder.addAll, List.foldlM_cons, List.foldlM_nil]
    cases b.addFile lib rl (some []) (asEntry path il st).name (asEntry path il st).islink (asEntry path il st).stat <;> rfl
  rw [this]
  have e1 : (asEntry path il st).name = path := by unfold asEntry; split <;> rfl
  have e2 : (asEntry path il st).islink = il := by cases il <;> rfl
  have e3 : (asEntry path il st).stat = st := by unfold asEntry; split <;> rfl
  rw [e1, e2, e3]
  unfold Builder.addFile
  simp only [pathJoin_nil]

theorem addPath_eq (b : Builder) (lib : HashLib) (disk : Disk) (rl : Dict Resource) (p : Str) :
    b.addPath lib disk rl p = b.addAll lib rl (entriesAt b disk p) := by
  unfold Builder.addPath entriesAt
  cases disk.resolve p with
  | none => exact (addAll_single ..).symm
  | some n =>
    cases n with
    | file a c d => exact (addAll_single ..).symm
    | link a c d => exact (addAll_single ..).symm
    | dir nm rd cs => cases rd <;> rfl

theorem fromDisk_all (b : Builder) (lib : HashLib) (disk : Disk) (ps : List Str) : ∀ rl,
    b.fromDisk lib disk rl (some ps) = b.addAll lib rl (ps.flatMap (entriesAt b disk)) := by
  unfold Builder.fromDisk
  simp only
  induction ps with
  | nil => intro rl; rfl
  | cons p ps ih =>
    intro rl
    rw [List.foldlM_cons, List.flatMap_cons, addPath_eq]
    unfold Builder.addAll
    rw [List.foldlM_append]
    congr 1
    funext rl1
    exact ih rl1

theorem found_iff {b : Builder} {disk : Disk} {p path : Str} {st : Stat} :
    Found b disk p path st ↔ ∃ f ∈ entriesAt b disk p, b.exclude f.2.name = false ∧
      (f.2.islink = true → b.include_symlinks = true) ∧ f.2.stat = some st ∧ path = pathJoin f.1 f.2.name := by
  have key : ∀ n? : Option FNode, disk.resolve p = n? → (∀ nm rd cs, n? ≠ some (.dir nm rd cs)) →
      entriesAt b disk p = [([], asEntry p (disk.islink p) (n?.bind FNode.stat))] →
      (Found b disk p path st ↔ ∃ f ∈ entriesAt b disk p, b.exclude f.2.name = false ∧
      (f.2.islink = true → b.include_symlinks = true) ∧ f.2.stat = some st ∧ path = pathJoin f.1 f.2.name) := by
    intro n? hres hnd he
    have e1 : (asEntry p (disk.islink p) (n?.bind FNode.stat)).name = p := by unfold asEntry; split <;> rfl
    have e2 : (asEntry p (disk.islink p) (n?.bind FNode.stat)).islink = disk.islink p := by
      unfold asEntry; cases disk.islink p <;> rfl
    have e3 : (asEntry p (disk.islink p) (n?.bind FNode.stat)).stat = n?.bind FNode.stat := by
      unfold asEntry; split <;> rfl
    simp only [he, List.mem_singleton, exists_eq_left, e1, e2, e3, pathJoin_nil]
    constructor
    · intro hf
      cases hf with
      | below hd => rw [hres] at hd; exact absurd hd (hnd _ _ _)
      | @itself n _ hn hnd' hst hex hl =>
        rw [hres] at hn; subst hn
        exact ⟨by rw [← exclude_iff] at hex; simpa using hex, hl, hst, rfl⟩
    · rintro ⟨h1, h2, hst, rfl⟩
      obtain ⟨n, rfl, hn⟩ := Option.bind_eq_some_iff.mp hst
      refine .itself hres (fun nm rd cs e => hnd nm rd cs (by rw [e])) hn ?_ h2
      rw [← exclude_iff, h1]; simp
  cases hres : disk.resolve p with
  | none => exact key none hres (by simp) (by unfold entriesAt; rw [hres])
  | some n =>
    cases n with
    | file a c d => exact key _ hres (by simp) (by unfold entriesAt; rw [hres])
    | link a c d => exact key _ hres (by simp) (by unfold entriesAt; rw [hres])
    | dir nm rd cs =>
      have he : entriesAt b disk p = if rd then walk b.exclude p cs else [] := by unfold entriesAt; rw [hres]
      rw [he]
      cases rd with
      | false =>
        refine ⟨fun hf => ?_, fun ⟨f, hf, _⟩ => by simp at hf⟩
        exfalso
        cases hf with
        | below hd => rw [hres] at hd; cases hd
        | itself hn hnd => rw [hres] at hn; cases hn; exact hnd _ _ _ rfl
      | true =>
        rw [if_pos rfl, mem_walk_entry]
        constructor
        · intro hf
          cases hf with
          | itself hn hnd => rw [hres] at hn; cases hn; exact absurd rfl (hnd _ _ _)
          | @below nm' cs' names n _ hd hreach he hex =>
            rw [hres] at hd; cases hd
            exact ⟨names, n, hreach, he, hex, rfl⟩
        · rintro ⟨names, n, g1, g2, g3, rfl⟩
          exact .below hres g1 g2 g3

theorem pairwise_either {α : Type} {R : α → α → Prop} {l : List α} (h : l.Pairwise R) {a b : α} (ha : a ∈ l) (hb : b ∈ l)
    (hab : a ≠ b) : R a b ∨ R b a := by
  induction h with
  | nil => simp at ha
  | @cons x l h1 _ ih =>
    rcases List.mem_cons.mp ha with ea | ha'
    · rcases List.mem_cons.mp hb with eb | hb'
      · exact absurd (ea.trans eb.symm) hab
      · rw [ea]; exact .inl (h1 b hb')
    · rcases List.mem_cons.mp hb with eb | hb'
      · rw [eb]; exact .inr (h1 a ha')
      · exact ih ha' hb'

/-- the entry of a file found contributes its description -/
theorem found_contrib {b : Builder} {lib : HashLib} {disk : Disk} {rl0 rl : Dict Resource} {ps : List Str}
    (h : b.addAll lib rl0 (ps.flatMap (entriesAt b disk)) = .ok rl) {p : Str} (hp : p ∈ ps) {path : Str} {st : Stat}
    (hf : Found b disk p path st) : ∃ u, b.mapper.dstToSrc path = .ok u ∧ ∃ f ∈ entriesAt b disk p,
      path = pathJoin f.1 f.2.name ∧ Contrib b lib f (describes b lib u path st) := by
  obtain ⟨f, hm, h1, h2, h3, rfl⟩ := found_iff.mp hf
  obtain ⟨rl1, rl2, hr⟩ := addAll_processed _ h f (List.mem_flatMap.mpr ⟨p, hp, hm⟩)
  obtain ⟨u, hu, -⟩ := addFile_made hr h1 h2
  exact ⟨u, hu, f, hm, rfl, ((contrib_iff hr u _).mpr ⟨h1, h2, st, h3, hu, rfl⟩).2⟩

theorem addAll_fresh {b : Builder} {lib : HashLib} (fs : List (Str × FNode)) : ∀ {rl rl' : Dict Resource},
    b.addAll lib rl fs = .ok rl' → (∀ f ∈ fs, ∀ r, Contrib b lib f r → dget rl r.uri = none) ∧
      fs.Pairwise (fun f g => ∀ r r', Contrib b lib f r → Contrib b lib g r' → r.uri ≠ r'.uri) := by
  induction fs with
  | nil => intro rl rl' _; exact ⟨by simp, .nil⟩
  | cons g fs ih =>
    intro rl rl' h
    simp only [Builder.addAll, List.foldlM_cons, bind_ok_iff] at h
    obtain ⟨rl1, h1, h2⟩ := h
    obtain ⟨i1, i2⟩ := ih h2
    rcases addFile_ok h1 with ⟨hn, rfl⟩ | ⟨x, hx, hfr, rfl⟩
    · refine ⟨?_, List.pairwise_cons.mpr ⟨fun f _ r r' hc => absurd hc (hn r), i2⟩⟩
      intro f hf r hc
      rcases List.mem_cons.mp hf with rfl | hf
      · exact absurd hc (hn r)
      · exact i1 f hf r hc
    · have hne : ∀ f ∈ fs, ∀ r, Contrib b lib f r → x.uri ≠ r.uri := by
        intro f hf r hc e
        have := i1 f hf r hc
        rw [← e, dget_dset_self] at this; cases this
      refine ⟨?_, List.pairwise_cons.mpr ⟨?_, i2⟩⟩
      · intro f hf r hc
        rcases List.mem_cons.mp hf with rfl | hf
        · rw [(hx r).mp hc]; exact hfr
        · have := i1 f hf r hc
          rwa [dget_dset_ne _ _ (hne f hf r hc)] at this
      · intro f hf r r' hc hc'
        rw [(hx r).mp hc]
        exact hne f hf r' hc'

end Resync
