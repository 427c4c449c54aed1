import Verif.Props.ListIndex
import Verif.Props.Bytes
import Verif.Proofs.ExplorerOptions

/-!
# C102: the checksums in an index are those of the component documents

A list with more entries than one document may have is written as several component documents and an index.  Each entry of the index
has the MD5 sum of its component.  Whenever the index is completely written, at the end or at any crash point, every entry refers to a
component, that component is completely written, and the sum in the entry is that of the bytes then in the file.

`env.md5 f` is what `Hashes(['md5'], file).md5` gives when it is evaluated, straight after the component was closed; the hypothesis `hstat`
says that this is the sum of the bytes just written there.  That these are still the bytes of the file when the index is complete, and that
the sum is recorded in the entry with the URI of the same file, is what is proved.
-/

namespace Resync
open Py Resync.Spec

namespace Spec

/-- the `hash` attribute of the metadata of an entry -/
def entryHash (e : Elem) : Option Str := (e.findall "rs:md".toList).head?.bind (fun m => dget m.attrib "hash".toList)

end Spec

theorem runBytes_append (s : Sitemap) (enc : Str) (disk : Str → Option Bytes) (a b : List FsEff) :
    runBytes s enc disk (a ++ b) = runBytes s enc (runBytes s enc disk a) b := by
  induction a generalizing disk with
  | nil => rfl
  | cons e t ih => cases e <;> exact ih _

theorem runBytes_other (s : Sitemap) (enc : Str) (disk : Str → Option Bytes) (tr : List FsEff) (f : Str)
    (h : ∀ e ∈ tr, e.file ≠ f) : runBytes s enc disk tr f = disk f := by
  induction tr generalizing disk with
  | nil => rfl
  | cons e t ih =>
    have h1 := h e (by simp)
    have h2 := ih (h := fun e he => h e (by simp [he]))
    cases e with
    | openW g => rw [runBytes, h2]; exact if_neg (Ne.symm h1)
    | finish g d => rw [runBytes, h2]; exact if_neg (Ne.symm h1)

theorem runBytes_partEffs (s : Sitemap) (enc : Str) (disk : Str → Option Bytes) (basename : Str) (k : Nat) (docs : List Elem) (i : Nat)
    (hi : i < docs.length) :
    runBytes s enc disk (partEffs basename k docs) (partName basename (k + i)) = some (bytesOf s enc docs[i]) := by
  induction docs generalizing k i disk with
  | nil => simp at hi
  | cons t ts ih =>
    simp only [partEffs, runBytes]
    cases i with
    | zero =>
      rw [runBytes_other]
      · simp
      · intro e he h
        obtain ⟨j, hj, hf⟩ := partEffs_files basename (k + 1) ts e he
        rw [hf] at h
        have := partName_injective basename h
        omega
    | succ i =>
      have := ih (fun g => if g = partName basename k then some (bytesOf s enc t) else
        if g = partName basename k then some [] else disk g) (k + 1) i (by simpa using hi)
      have e : k + (i + 1) = k + 1 + i := by omega
      rw [e]
      simpa using this

theorem finish_partEffs (basename : Str) (k : Nat) (docs : List Elem) (i : Nat) (hi : i < docs.length) :
    FsEff.finish (partName basename (k + i)) docs[i] ∈ partEffs basename k docs := by
  induction docs generalizing k i with
  | nil => simp at hi
  | cons t ts ih =>
    simp only [partEffs, List.mem_cons]
    cases i with
    | zero => right; left; rfl
    | succ i =>
      right; right
      have := ih (k + 1) i (by simpa using hi)
      have e : k + (i + 1) = k + 1 + i := by omega
      rw [e]
      simpa using this

/-- only a successful write finishes the index -/
theorem finished_ok (l : LBI) (env : StatEnv) (basename : Str) (m : Nat) (hm : l.max_sitemap_entries = some m)
    (hlen : max 1 m < l.resources.length) (doc : Elem) (h : FsEff.finish basename doc ∈ (l.write env basename).1) :
    (l.write env basename).2 = .ok () := by
  rw [write_multi l env basename m hm hlen] at h ⊢
  cases ha : l.allow_multifile with
  | false => rw [ha] at h; simp at h
  | true =>
    rw [ha] at h
    simp only [not_true, if_false] at h ⊢
    cases hmf : mapFile l.mapper basename with
    | error e => rw [hmf] at h; simp at h
    | ok iu =>
      rw [hmf] at h
      simp only at h ⊢
      have hf := partsRun_files l env basename iu (chunkSeq m l.resources) []
      rcases hp : partsRun l env basename iu (chunkSeq m l.resources) [] with ⟨effs, e | index⟩
      · rw [hp] at h hf
        obtain ⟨k, hk⟩ := hf _ h
        exact absurd hk.symm (partName_ne basename k)
      · rw [hp] at h hf
        simp only [List.mem_append] at h ⊢
        rcases h with h | h
        · obtain ⟨k, hk⟩ := hf _ h
          exact absurd hk.symm (partName_ne basename k)
        · cases hd : indexDoc l iu index with
          | error e => rw [hd] at h; simp [writeDoc] at h
          | ok t => rfl

/-- what an entry of the index says -/
theorem entry_hash {s : Sitemap} {env : StatEnv} {basename u : Str} {k : Nat} {e : Elem}
    (h : resourceEtreeElement s (entryOf env basename k u) "sitemap".toList = .ok e) :
    entryUri e = some u ∧ entryHash e = some ("md5:".toList ++ env.md5 (partName basename k)) := by
  have hmd : mdAtts (entryOf env basename k u) (mdAttKeys s) = .ok [(kHash, "md5:".toList ++ env.md5 (partName basename k))] := by
    unfold mdAttKeys
    cases s.spec_1_0 <;> rfl
  simp only [resourceEtreeElement, bind_ok_iff, epure] at h
  obtain ⟨lm, _, a, ha, h⟩ := h
  rw [hmd] at ha
  cases ha
  cases h
  cases lm <;> exact ⟨rfl, rfl⟩

theorem entries_hashes {s : Sitemap} {env : StatEnv} {basename : Str} {us : List Str} (k : Nat) {es : List Elem}
    (h : resourceElements s "sitemap".toList (entriesOf env basename k us) = .ok es) :
    es.length = us.length ∧ ∀ i (h1 : i < es.length) (h2 : i < us.length), entryUri es[i] = some us[i] ∧
      entryHash es[i] = some ("md5:".toList ++ env.md5 (partName basename (k + i))) := by
  induction us generalizing k es with
  | nil => cases h; exact ⟨rfl, fun i h1 => absurd h1 (by simp)⟩
  | cons u us ih =>
    simp only [entriesOf, resourceElements, bind_ok_iff, epure] at h
    obtain ⟨e, he, es', hes, h⟩ := h
    cases h
    obtain ⟨h1, h2⟩ := ih (k + 1) hes
    refine ⟨by simp [h1], fun i hi hi' => ?_⟩
    cases i with
    | zero => exact entry_hash he
    | succ i =>
      have := h2 i (by simpa using hi) (by simpa using hi')
      have e : k + (i + 1) = k + 1 + i := by omega
      rw [e]
      simpa using this

/-- Let `pre` be what was done up to some point of a write of a list which needs several documents.  If the index has been completely
written then for every entry of it there is a file, the one for whose URI the entry stands, that holds the bytes with the sum recorded in
the entry.  There are as many entries as components, and their URIs are different unless the mapper gives the same URI for different
files. -/
theorem C102_fixity (l : LBI) (env : StatEnv) (basename : Str) (m : Nat) (hm : l.max_sitemap_entries = some m)
    (hlen : max 1 m < l.resources.length) (enc : Str) (md5 : Bytes → Str)
    (hstat : ∀ f doc, FsEff.finish f doc ∈ (l.write env basename).1 → f ≠ basename → env.md5 f = md5 (bytesOf l.sitemap enc doc))
    (pre : List FsEff) (hpre : pre <+: (l.write env basename).1) (doc : Elem) (hidx : FsEff.finish basename doc ∈ pre)
    (disk : Str → Option Bytes) :
    ∃ (mp : Mapper) (docs : List Elem), l.mapper = some mp ∧ 2 ≤ docs.length ∧
      runBytes l.sitemap enc disk pre basename = some (bytesOf l.sitemap enc doc) ∧
      (entries "sitemap" doc).length = docs.length ∧
      ∀ i (h : i < docs.length) (h' : i < (entries "sitemap" doc).length), ∃ u,
        entryUri (entries "sitemap" doc)[i] = some u ∧
        mp.dstToSrc (partName basename i) = .ok u ∧
        runBytes l.sitemap enc disk pre (partName basename i) = some (bytesOf l.sitemap enc docs[i]) ∧
        entryHash (entries "sitemap" doc)[i] = some ("md5:".toList ++ md5 (bytesOf l.sitemap enc docs[i])) := by
  have hok := finished_ok l env basename m hm hlen doc (hpre.subset hidx)
  obtain ⟨iu, docs, us, idx, hiu, h1, h2, h3, h4, h5⟩ := write_multi_ok l env basename m hm hlen hok
  have hdoc : doc = idx ∧ pre = partEffs basename 0 docs ++ [.openW basename, .finish basename idx] := by
    have hmem := hpre.subset hidx
    rw [h5] at hmem hpre hstat
    have hnot : FsEff.finish basename doc ∉ partEffs basename 0 docs ++ [.openW basename] := by
      intro hin
      rw [List.mem_append] at hin
      rcases hin with hin | hin
      · obtain ⟨k, _, hk⟩ := partEffs_files basename 0 docs _ hin
        exact absurd hk.symm (partName_ne basename k)
      · simp at hin
    have hsplit : partEffs basename 0 docs ++ [FsEff.openW basename, FsEff.finish basename idx] =
        (partEffs basename 0 docs ++ [FsEff.openW basename]) ++ [FsEff.finish basename idx] := by simp
    rw [hsplit] at hmem hpre ⊢
    refine ⟨?_, ?_⟩
    · rcases List.mem_append.mp hmem with h | h
      · exact absurd h hnot
      · simpa using h
    · rcases List.prefix_concat_iff.mp hpre with h | h
      · exact h
      · exact absurd (h.subset hidx) hnot
  obtain ⟨rfl, rfl⟩ := hdoc
  have hus : us.length = docs.length := by rw [h2, h1.length_eq]
  obtain ⟨mp, hmp⟩ : ∃ mp, l.mapper = some mp := by
    cases hl : l.mapper with
    | none => rw [hl] at hiu; cases hiu
    | some mp => exact ⟨mp, rfl⟩
  obtain ⟨he1, he2⟩ := entries_hashes 0 (entries_sitemap h4)
  have htwo : 2 ≤ docs.length := by
    rw [← hus, h2]
    unfold chunkSeq
    have hd : l.resources.drop (max 1 m) ≠ [] := by
      intro h
      rw [List.drop_eq_nil_iff] at h
      omega
    rw [slices_cons (by omega) hd]
    simp
  refine ⟨mp, docs, hmp, htwo, ?_, by rw [he1, hus], ?_⟩
  · rw [runBytes_append]
    simp [runBytes]
  · intro i hi hi'
    have hiu' : i < us.length := by omega
    obtain ⟨e1, e2⟩ := he2 i hi' hiu'
    refine ⟨us[i], e1, ?_, ?_, ?_⟩
    · have := h3 i hiu'
      rw [hmp] at this
      exact mapFile_ok.mp this
    · rw [runBytes_append, runBytes_other]
      · have := runBytes_partEffs l.sitemap enc disk basename 0 docs i hi
        simpa using this
      · intro e he h
        simp only [List.mem_cons, List.not_mem_nil, or_false] at he
        rcases he with rfl | rfl <;> exact absurd h.symm (partName_ne basename i)
    · rw [e2]
      have hf := finish_partEffs basename 0 docs i hi
      rw [hstat (partName basename (0 + i)) docs[i] (by rw [h5]; exact List.mem_append_left _ hf) (partName_ne basename _)]

/-- Writing over an older list: from the first event of the second write on, the complete old index is still there and has the sum of the
old first component, which is now an empty file.  A reader who checks the sums (this library does not) is told so. -/
theorem C102_rewrite_violated (l l' : LBI) (env env' : StatEnv) (basename : Str) (m m' : Nat) (hm : l.max_sitemap_entries = some m)
    (hlen : max 1 m < l.resources.length) (hok : (l.write env basename).2 = .ok ()) (hm' : l'.max_sitemap_entries = some m')
    (hlen' : max 1 m' < l'.resources.length) (hok' : (l'.write env' basename).2 = .ok ()) (enc : Str) (md5 : Bytes → Str)
    (hstat : ∀ f doc, FsEff.finish f doc ∈ (l.write env basename).1 → f ≠ basename → env.md5 f = md5 (bytesOf l.sitemap enc doc))
    (hmd5 : ∀ b, b ≠ [] → md5 b ≠ md5 []) (disk : Str → Option Bytes) :
    ∃ (pre : List FsEff) (mp : Mapper) (doc e : Elem) (u : Str), pre <+: (l'.write env' basename).1 ∧ l.mapper = some mp ∧
      runBytes l'.sitemap enc (runBytes l.sitemap enc disk (l.write env basename).1) pre basename = some (bytesOf l.sitemap enc doc) ∧
      e ∈ entries "sitemap" doc ∧ entryUri e = some u ∧ mp.dstToSrc (partName basename 0) = .ok u ∧
      runBytes l'.sitemap enc (runBytes l.sitemap enc disk (l.write env basename).1) pre (partName basename 0) = some [] ∧
      entryHash e ≠ some ("md5:".toList ++ md5 []) := by
  obtain ⟨iu, docs, us, idx, -, -, -, -, -, h5⟩ := write_multi_ok l env basename m hm hlen hok
  obtain ⟨iu', docs', us', idx', -, h1', -, -, -, h5'⟩ := write_multi_ok l' env' basename m' hm' hlen' hok'
  obtain ⟨mp, docs2, hmp, htwo, hb, hl, hall⟩ := C102_fixity l env basename m hm hlen enc md5 hstat _ (List.prefix_refl _) idx
    (by rw [h5]; simp) disk
  obtain ⟨u, e1, e2, e3, e4⟩ := hall 0 (by omega) (by omega)
  have hne : docs' ≠ [] := by
    intro h
    rw [h] at h1'
    unfold chunkSeq at h1'
    cases h1'
  obtain ⟨d, ds, rfl⟩ := List.exists_cons_of_ne_nil hne
  refine ⟨[.openW (partName basename 0)], mp, idx, _, u, ?_, hmp, ?_, List.getElem_mem (by omega : 0 < _), e1, e2, ?_, ?_⟩
  · rw [h5']
    exact ⟨.finish (partName basename 0) d :: (partEffs basename 1 ds ++ [.openW basename, .finish basename idx']), rfl⟩
  · rw [runBytes_other]
    · exact hb
    · intro e he
      simp only [List.mem_singleton] at he
      subst he
      exact partName_ne basename 0
  · simp [runBytes]
  · rw [e4]
    intro h
    have h' := List.append_cancel_left (Option.some.inj h)
    exact hmd5 _ (bytesOf_ne _ _ _) h'

/-! The hypotheses are met: three resources, at most two in each document, and for a sum the number of bytes -/

namespace FixityExample

def sum (b : Bytes) : Str := natStr b.length
def env : StatEnv where
  mtime := fun _ => 0
  md5 := fun f => sum ((runBytes {} "utf-8".toList (fun _ => none) ((exList 2).write exEnv exBase).1 f).getD [])

theorem truthful : ∀ f doc, FsEff.finish f doc ∈ ((exList 2).write env exBase).1 → f ≠ exBase →
    env.md5 f = sum (bytesOf (exList 2).sitemap "utf-8".toList doc) := by
  have h : ((exList 2).write env exBase).1.all (fun e => match e with
      | .finish f doc => f == exBase || env.md5 f == sum (bytesOf (exList 2).sitemap "utf-8".toList doc)
      | _ => true) = true := by decide +kernel
  intro f doc hf hne
  have := List.all_eq_true.mp h _ hf
  simp only [Bool.or_eq_true, beq_iff_eq] at this
  exact this.resolve_left hne

example : ((exList 2).write env exBase).2 = .ok () ∧ max 1 2 < (exList 2).resources.length ∧
    (∀ b : Bytes, b ≠ [] → sum b ≠ sum []) ∧
    (written ((exList 2).write env exBase).1).map (fun p => (entries "sitemap" p.2).map entryHash) =
      [[], [], [some "md5:329".toList, some "md5:287".toList]] := by
  refine ⟨by decide +kernel, by decide, ?_, by decide +kernel⟩
  intro b hb h
  exact hb (List.length_eq_zero_iff.mp (natStr_inj h))

end FixityExample

end Resync
