import Verif.Model.Hashes
import Verif.Proofs.SitemapDoc
import Mathlib.Data.List.Induction
import Mathlib.Tactic.Tauto
/-
C65: hashing files block by block.
-/

namespace Resync
open Py

theorem readLoop_eq (b : Int) (hb : b ≠ 0) (rest : Bytes) : ∀ o : HashObj,
    HashObj.readLoop b o rest = o.update rest := by
  have main : ∀ n, ∀ rest : Bytes, rest.length ≤ n → ∀ o : HashObj, HashObj.readLoop b o rest = o.update rest := by
    intro n
    induction n with
    | zero =>
      intro rest hn o
      have : rest = [] := List.length_eq_zero_iff.mp (by omega)
      subst this
      rw [HashObj.readLoop]
      have : readBlock b [] = [] := by simp [readBlock]
      simp only [this, dite_true]
      cases o
      simp [HashObj.update]
    | succ n ih =>
      intro rest hn o
      rw [HashObj.readLoop]
      by_cases h : readBlock b rest = []
      · simp only [h, dite_true]
        have : rest = [] := by
          unfold readBlock at h
          split at h
          · exact h
          · rw [List.take_eq_nil_iff] at h
            rcases h with h | h
            · omega
            · exact h
        subst this
        cases o
        simp [HashObj.update]
      · simp only [h, dite_false]
        have hpre : readBlock b rest ++ rest.drop (readBlock b rest).length = rest := by
          unfold readBlock
          split
          · simp
          · have := List.take_append_drop b.toNat rest
            conv => rhs; rw [← this]
            congr 1
            rw [List.length_take]
            by_cases hl : b.toNat ≤ rest.length
            · rw [Nat.min_eq_left hl]
            · rw [Nat.min_eq_right (by omega), List.drop_of_length_le (by omega), List.drop_of_length_le (by omega)]
        have hpos : 0 < (readBlock b rest).length := List.length_pos_iff.mpr h
        rw [ih _ (by simp only [List.length_drop]; omega)]
        conv => rhs; rw [← hpre]
        cases o
        simp [HashObj.update, Function.comp_def]
  exact fun o => main rest.length rest le_rfl o

theorem hashSet_ok (names : List Str) : ∀ set out : List Str, hashSet set names = .ok out →
    (∀ h ∈ set, h ∈ hashNames) →
    (∀ h, h ∈ out ↔ h ∈ set ∨ h ∈ names) ∧ (∀ h ∈ out, h ∈ hashNames) := by
  induction names with
  | nil => intro set out h hs; cases h; exact ⟨by simp, hs⟩
  | cons n t ih =>
    intro set out h hs
    simp only [hashSet] at h
    by_cases hn : n ∈ hashNames
    · rw [if_pos hn] at h
      obtain ⟨a, b⟩ := ih _ _ h (by
        intro x hx
        split at hx
        · exact hs x hx
        · rcases List.mem_cons.mp hx with rfl | hx
          · exact hn
          · exact hs x hx)
      refine ⟨?_, b⟩
      intro x
      rw [a]
      split
      · rename_i hm
        constructor
        · rintro (hx | hx)
          · exact .inl hx
          · exact .inr (by simp [hx])
        · rintro (hx | hx)
          · exact .inl hx
          · rcases List.mem_cons.mp hx with rfl | hx
            · exact .inl hm
            · exact .inr hx
      · simp only [List.mem_cons]; tauto
    · rw [if_neg hn] at h; cases h

theorem hashSet_error (names : List Str) : ∀ set : List Str,
    hashSet set names = .error .unsupported ↔ ∃ h ∈ names, h ∉ hashNames := by
  induction names with
  | nil => intro set; simp [hashSet]
  | cons n t ih =>
    intro set
    simp only [hashSet]
    by_cases hn : n ∈ hashNames
    · rw [if_pos hn, ih]; simp [hn]
    · rw [if_neg hn]; simp [hn]

theorem setOn_eq (lib : HashLib) (o : HashObj) (r : Resource) : ∀ names : List Str, (∀ h ∈ names, h ∈ hashNames) →
    names.foldl (fun r h =>
      if h = sMd5 then { r with md5 := o.md5 lib }
      else if h = sSha1 then { r with sha1 := o.sha1 lib }
      else if h = sSha256 then { r with sha256 := o.sha256 lib }
      else r) r =
    { r with
      md5 := if sMd5 ∈ names then o.md5 lib else r.md5
      sha1 := if sSha1 ∈ names then o.sha1 lib else r.sha1
      sha256 := if sSha256 ∈ names then o.sha256 lib else r.sha256 } := by
  intro names
  induction names using List.reverseRecOn with
  | nil => intro _; simp
  | append_singleton t n ih =>
    intro h
    have hn : n ∈ hashNames := h n (by simp)
    rw [List.foldl_append, ih (fun x hx => h x (by simp [hx]))]
    have e1 : sMd5 ≠ sSha1 := by decide
    have e2 : sMd5 ≠ sSha256 := by decide
    have e3 : sSha1 ≠ sSha256 := by decide
    simp only [hashNames, List.mem_cons, List.not_mem_nil, or_false] at hn
    rcases hn with rfl | rfl | rfl
    · simp [e1.symm, e2.symm]
    · simp [e1, e1.symm, e3.symm]
    · simp [e2, e2.symm, e3, e3.symm]

/-- C65.  compute_for_file() on an object for some hash types gives the digests of the whole content, for any
block size but 0, whatever was hashed with the object before. -/
theorem C65_block_size (lib : HashLib) (o : HashObj) (content : Bytes) (block_size : Int) (hb : block_size ≠ 0) :
    ∃ o', o.computeForFile (some content) block_size = .ok o' ∧ o'.hashes = o.hashes ∧
      (sMd5 ∈ o.hashes → o'.md5 lib = some (lib.md5 content)) ∧
      (sSha1 ∈ o.hashes → o'.sha1 lib = some (lib.sha1 content)) ∧
      (sSha256 ∈ o.hashes → o'.sha256 lib = some (lib.sha256 content)) := by
  refine ⟨_, rfl, ?_⟩
  rw [readLoop_eq block_size hb]
  refine ⟨rfl, ?_, ?_, ?_⟩ <;> intro h <;>
    simp [HashObj.md5, HashObj.sha1, HashObj.sha256, HashObj.update, HashObj.init, h]

/-- C65.  `Hashes(types, file).set(resource)`: exactly the requested digests are set, each to the digest of the
file's whole content; nothing else about the resource changes. -/
theorem C65_set (lib : HashLib) (types : List Str) (content : Bytes) (r : Resource) (o : HashObj)
    (h : HashObj.new types (some (some content)) = .ok o) :
    o.setOn lib r =
      { r with
        md5 := if "md5".toList ∈ types then some (lib.md5 content) else r.md5
        sha1 := if "sha-1".toList ∈ types then some (lib.sha1 content) else r.sha1
        sha256 := if "sha-256".toList ∈ types then some (lib.sha256 content) else r.sha256 } := by
  simp only [HashObj.new, bind_ok_iff] at h
  obtain ⟨set, h1, h2⟩ := h
  obtain ⟨k1, k2⟩ := hashSet_ok types [] set h1 (by simp)
  obtain ⟨o', g1, g2, g3, g4, g5⟩ := C65_block_size lib { hashes := set } content 16384 (by decide)
  rw [g1] at h2
  cases h2
  have g2 : o.hashes = set := g2
  unfold HashObj.setOn
  rw [g2, setOn_eq lib o r set k2]
  have m : ∀ x : Str, x ∈ set ↔ x ∈ types := by intro x; rw [k1]; simp
  have m1 := m sMd5
  have m2 := m sSha1
  have m3 := m sSha256
  show _ = { r with
        md5 := if sMd5 ∈ types then some (lib.md5 content) else r.md5
        sha1 := if sSha1 ∈ types then some (lib.sha1 content) else r.sha1
        sha256 := if sSha256 ∈ types then some (lib.sha256 content) else r.sha256 }
  rw [← if_congr m1 rfl rfl, ← if_congr m2 rfl rfl, ← if_congr m3 rfl rfl]
  congr 1
  · split
    · rename_i h; exact g3 h
    · rfl
  · split
    · rename_i h; exact g4 h
    · rfl
  · split
    · rename_i h; exact g5 h
    · rfl

/-- C65.  Creating the object fails exactly for an unsupported type (checked first) or a file that cannot be
opened. -/
theorem C65_errors (types : List Str) (content : Option Bytes) :
    (HashObj.new types (some content) = .error .unsupported ↔
      ∃ t ∈ types, t ≠ "md5".toList ∧ t ≠ "sha-1".toList ∧ t ≠ "sha-256".toList) ∧
    (HashObj.new types (some content) = .error .os ↔ content = none ∧
      ∀ t ∈ types, t = "md5".toList ∨ t = "sha-1".toList ∨ t = "sha-256".toList) := by
  have hmem : ∀ t : Str, t ∉ hashNames ↔ t ≠ "md5".toList ∧ t ≠ "sha-1".toList ∧ t ≠ "sha-256".toList := by
    intro t
    show t ∉ [sMd5, sSha1, sSha256] ↔ t ≠ sMd5 ∧ t ≠ sSha1 ∧ t ≠ sSha256
    simp
  have hmem' : ∀ t : Str, t ∈ hashNames ↔ t = "md5".toList ∨ t = "sha-1".toList ∨ t = "sha-256".toList := by
    intro t
    show t ∈ [sMd5, sSha1, sSha256] ↔ t = sMd5 ∨ t = sSha1 ∨ t = sSha256
    simp
  simp only [← hmem, ← hmem']
  cases hs : hashSet [] types with
  | error e =>
    have he : e = .unsupported := by cases e with
      | unsupported => rfl
      | os =>
        exfalso
        have : ∀ (names set : List Str), hashSet set names ≠ .error .os := by
          intro names
          induction names with
          | nil => intro set h; cases h
          | cons n t ih =>
            intro set h
            simp only [hashSet] at h
            split at h
            · exact ih _ h
            · cases h
        exact this _ _ hs
    subst he
    have hx := (hashSet_error types []).mp hs
    have hn : HashObj.new types (some content) = .error .unsupported := by simp only [HashObj.new, hs]; rfl
    rw [hn]
    refine ⟨by simp [hx], ?_⟩
    simp only [Except.error.injEq, reduceCtorEq, false_iff, not_and]
    intro _ hall
    obtain ⟨t, ht, hn⟩ := hx
    exact hn (hall t ht)
  | ok set =>
    have hx : ¬ ∃ h ∈ types, h ∉ hashNames := by
      intro h
      have := (hashSet_error types []).mpr h
      rw [hs] at this; cases this
    have hall : ∀ t ∈ types, t ∈ hashNames := by
      intro t ht; by_contra hc; exact hx ⟨t, ht, hc⟩
    cases content with
    | none =>
      have hn : HashObj.new types (some none) = .error .os := by simp only [HashObj.new, hs]; rfl
      rw [hn]
      exact ⟨by simpa using hall, by simpa using hall⟩
    | some c =>
      have hn : ∃ o, HashObj.new types (some (some c)) = .ok o := ⟨_, by simp only [HashObj.new, hs]; rfl⟩
      obtain ⟨o, hn⟩ := hn
      rw [hn]
      exact ⟨by simpa using hall, by simp⟩

/-- The block size must not be 0: then nothing is read: the digest is that of no content. -/
theorem C65_block_size_zero (lib : HashLib) (types : List Str) (content : Bytes) (h : sMd5 ∈ types) :
    ∃ o', HashObj.computeForFile { hashes := types } (some content) 0 = .ok o' ∧
      o'.md5 lib = some (lib.md5 []) := by
  refine ⟨_, rfl, ?_⟩
  rw [HashObj.readLoop]
  simp [readBlock, HashObj.md5, HashObj.init, h]

example : (∃ o, HashObj.new ["md5".toList, "sha-256".toList] (some (some [1, 2, 3])) = .ok o) ∧
    HashObj.new ["md4".toList] (some (some [1])) = .error .unsupported := ⟨⟨_, rfl⟩, rfl⟩

end Resync
