import Verif.Model.HashReuse
import Verif.Props.Hashes
/-
C65 (continued): an object made without a file, used for file after file.
-/

namespace Resync
open Py

theorem tried_hashes (o : HashObj) (c : Option Bytes) (b : Int) : (o.tried c b).hashes = o.hashes := by
  have hl : ∀ n, ∀ rest : Bytes, rest.length ≤ n → ∀ o : HashObj, (HashObj.readLoop b o rest).hashes = o.hashes := by
    intro n
    induction n with
    | zero =>
      intro rest hn o
      have : rest = [] := List.length_eq_zero_iff.mp (by omega)
      subst this
      rw [HashObj.readLoop]
      simp [readBlock]
    | succ n ih =>
      intro rest hn o
      rw [HashObj.readLoop]
      by_cases h : readBlock b rest = []
      · simp [h]
      · simp only [h, dite_false]
        have := List.length_pos_iff.mpr h
        rw [ih _ (by simp only [List.length_drop]; omega)]
        rfl
  cases c with
  | none => rfl
  | some c => exact hl _ c (Nat.le_refl _) _

theorem triedAll_hashes (files : List (Option Bytes × Int)) : ∀ o : HashObj, (o.triedAll files).hashes = o.hashes := by
  induction files with
  | nil => intro o; rfl
  | cons f t ih =>
    intro o
    show ((o.tried f.1 f.2).triedAll t).hashes = o.hashes
    rw [ih, tried_hashes]

theorem new_none {types : List Str} {o : HashObj} (h : HashObj.new types none = .ok o) :
    (∀ t, t ∈ o.hashes ↔ t ∈ types) ∧ (∀ t ∈ o.hashes, t ∈ hashNames) ∧
      o.md5_calc = none ∧ o.sha1_calc = none ∧ o.sha256_calc = none := by
  simp only [HashObj.new, bind_ok_iff] at h
  obtain ⟨set, h1, h2⟩ := h
  obtain ⟨k1, k2⟩ := hashSet_ok types [] set h1 (by simp)
  cases h2
  exact ⟨fun t => by rw [k1]; simp, k2, rfl, rfl, rfl⟩

/-- C65.  `Hashes(types)` without a file, then compute_for_file() for any files, readable or not and with any
block sizes, and at last for a readable file: set() puts exactly the digests asked for, each that of the whole
content of this last file, just as an object made for that file alone. -/
theorem C65_reuse (lib : HashLib) (types : List Str) (o : HashObj) (h : HashObj.new types none = .ok o)
    (earlier : List (Option Bytes × Int)) (content : Bytes) (block_size : Int) (hb : block_size ≠ 0) (r : Resource) :
    ∃ o', (o.triedAll earlier).computeForFile (some content) block_size = .ok o' ∧
      o'.setOn lib r =
        { r with
          md5 := if "md5".toList ∈ types then some (lib.md5 content) else r.md5
          sha1 := if "sha-1".toList ∈ types then some (lib.sha1 content) else r.sha1
          sha256 := if "sha-256".toList ∈ types then some (lib.sha256 content) else r.sha256 } ∧
      ∃ o'', HashObj.new types (some (some content)) = .ok o'' ∧ o''.setOn lib r = o'.setOn lib r := by
  obtain ⟨m, k2, -⟩ := new_none h
  obtain ⟨o', g1, g2, g3, g4, g5⟩ := C65_block_size lib (o.triedAll earlier) content block_size hb
  rw [triedAll_hashes] at g2 g3 g4 g5
  have key : o'.setOn lib r =
        { r with
          md5 := if "md5".toList ∈ types then some (lib.md5 content) else r.md5
          sha1 := if "sha-1".toList ∈ types then some (lib.sha1 content) else r.sha1
          sha256 := if "sha-256".toList ∈ types then some (lib.sha256 content) else r.sha256 } := by
    unfold HashObj.setOn
    rw [g2, setOn_eq lib o' r o.hashes k2]
    show _ = { r with
        md5 := if sMd5 ∈ types then some (lib.md5 content) else r.md5
        sha1 := if sSha1 ∈ types then some (lib.sha1 content) else r.sha1
        sha256 := if sSha256 ∈ types then some (lib.sha256 content) else r.sha256 }
    rw [← if_congr (m sMd5) rfl rfl, ← if_congr (m sSha1) rfl rfl, ← if_congr (m sSha256) rfl rfl]
    congr 1
    · split
      · rename_i h; exact g3 h
      · rfl
    · split
      · rename_i h; exact g4 h
      · rfl
    · split
      · rename_i h; exact g5 h
      · rfl
  refine ⟨o', g1, key, ?_⟩
  simp only [HashObj.new, bind_ok_iff] at h
  obtain ⟨set, h1, h2⟩ := h
  have hn : ∃ o'', HashObj.new types (some (some content)) = .ok o'' := ⟨_, by simp only [HashObj.new, h1]; rfl⟩
  obtain ⟨o'', hn⟩ := hn
  exact ⟨o'', hn, by rw [C65_set lib types content r o'' hn, key]⟩

/-- C65.  Before any file was hashed there are no digests, and set() takes away those the resource has: for each
type asked for it puts None. -/
theorem C65_unused (lib : HashLib) (types : List Str) (o : HashObj) (h : HashObj.new types none = .ok o) (r : Resource) :
    o.md5 lib = none ∧ o.sha1 lib = none ∧ o.sha256 lib = none ∧
    o.setOn lib r =
      { r with
        md5 := if "md5".toList ∈ types then none else r.md5
        sha1 := if "sha-1".toList ∈ types then none else r.sha1
        sha256 := if "sha-256".toList ∈ types then none else r.sha256 } := by
  obtain ⟨m, k2, n1, n2, n3⟩ := new_none h
  refine ⟨by simp [HashObj.md5, n1], by simp [HashObj.sha1, n2], by simp [HashObj.sha256, n3], ?_⟩
  unfold HashObj.setOn
  rw [setOn_eq lib o r o.hashes k2]
  show _ = { r with
        md5 := if sMd5 ∈ types then none else r.md5
        sha1 := if sSha1 ∈ types then none else r.sha1
        sha256 := if sSha256 ∈ types then none else r.sha256 }
  rw [← if_congr (m sMd5) rfl rfl, ← if_congr (m sSha1) rfl rfl, ← if_congr (m sSha256) rfl rfl]
  simp [HashObj.md5, HashObj.sha1, HashObj.sha256, n1, n2, n3]

/-- C65.  After a file that cannot be opened the object does not keep the digests of the file before: for each
type asked for it holds the digest of no content, which looks like that of an empty file. -/
theorem C65_after_failure (lib : HashLib) (types : List Str) (o : HashObj) (h : HashObj.new types none = .ok o)
    (earlier : List (Option Bytes × Int)) (block_size : Int) (r : Resource) :
    (o.triedAll earlier).computeForFile none block_size = .error .os ∧
    ((o.triedAll earlier).tried none block_size).setOn lib r =
      { r with
        md5 := if "md5".toList ∈ types then some (lib.md5 []) else r.md5
        sha1 := if "sha-1".toList ∈ types then some (lib.sha1 []) else r.sha1
        sha256 := if "sha-256".toList ∈ types then some (lib.sha256 []) else r.sha256 } := by
  refine ⟨rfl, ?_⟩
  obtain ⟨o', g1, g2, -⟩ := C65_reuse lib types o h earlier [] 1 (by decide) r
  have e : (o.triedAll earlier).tried none block_size = o' := by
    have : (o.triedAll earlier).computeForFile (some []) 1 = .ok (o.triedAll earlier).init := by
      show Except.ok (HashObj.readLoop 1 _ []) = _
      rw [HashObj.readLoop]
      simp [readBlock]
    rw [this] at g1
    cases g1
    rfl
  rw [e, g2]

example : ∃ o, HashObj.new ["md5".toList, "sha-256".toList] none = .ok o ∧
    (o.triedAll [(some [1, 2, 3], 2), (none, 16384)]).hashes.length = 2 := ⟨_, rfl, by rw [triedAll_hashes]; decide⟩

end Resync
