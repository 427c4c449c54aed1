import Verif.Proofs.FsGood
import Verif.Props.ClientAuthority
import Mathlib.Tactic.Linarith
import Mathlib.Algebra.Order.Field.Rat
import Mathlib.Tactic.NormNum
import Mathlib.Tactic.Push
/- One site mapped to one directory. -/

namespace Resync
open Py Resync.Spec

theorem Spec.OneSite.tidy {c : ClientCfg} {cwd : Loc} {m : Map} {root : Loc} {fs : Fs} (h : OneSite c cwd m root fs) : Tidy fs :=
  ⟨h.proper, h.names⟩

theorem oneLine_join {l : List Str} (h : ∀ c ∈ l, OneLine c) : OneLine (join ['/'] l) := by
  induction l with
  | nil => simp [join, OneLine]
  | cons a t ih =>
    cases t with
    | nil => simpa [join] using h a (by simp)
    | cons c u =>
      have := ih (fun x hx => h x (by simp [hx]))
      simp only [join]
      exact oneLine_append.mpr ⟨oneLine_append.mpr ⟨h a (by simp), by simp [OneLine]⟩, this⟩

theorem oneLine_below {b : Str} {l : List Str} (hb : OneLine b) (h : ∀ c ∈ l, OneLine c) : OneLine (b ++ '/' :: join ['/'] l) := by
  refine oneLine_append.mpr ⟨hb, ?_⟩
  intro hm
  rcases List.mem_cons.mp hm with e | e
  · revert e; decide
  · exact oneLine_join h e

theorem uriBelow_inj {m : Map} {a b : List Str} (ha : a ≠ []) (hb : b ≠ []) (ha' : ∀ n ∈ a, ProperName n) (hb' : ∀ n ∈ b, ProperName n)
    (h : uriBelow m a = uriBelow m b) : a = b := by
  unfold uriBelow at h
  have h1 := List.append_cancel_left h
  simp only [List.cons.injEq, true_and] at h1
  rw [← splitOn_join ha (fun p hp => (ha' p hp).2.2.2), ← splitOn_join hb (fun p hp => (hb' p hp).2.2.2), h1]

/-- the file of a regular URI -/
theorem Spec.OneSite.maps {c : ClientCfg} {cwd : Loc} {m : Map} {root : Loc} {fs : Fs} (h : OneSite c cwd m root fs) {names : List Str}
    (hne : names ≠ []) (hn : ∀ n ∈ names, PlainName n) :
    ∃ fn, c.disc.mapper.srcToDst (uriBelow m names) = .ok fn ∧ OneLine fn ∧ location cwd fn = root ++ names := by
  refine ⟨m.dst_path ++ '/' :: join ['/'] names, ?_, oneLine_below h.dst.2.1 (fun c hc => (hn c hc).2), ?_⟩
  · have := translate_of_translates (repl := m.dst_path) h.src.1 (oneLine_below h.src.2 (fun c hc => (hn c hc).2))
      (.inr ⟨join ['/'] names, rfl, rfl⟩)
    rw [h.mapper]
    simp only [Mapper.srcToDst, Map.srcToDst, uriBelow, this]
  · have h1 := pathJoinAll_join m.dst_path names h.dst.2.2.1 h.dst.2.2.2 (fun c hc => ⟨(hn c hc).1.1, (hn c hc).1.2.2.2⟩)
    have h2 := location_filePath cwd names (fun n hn' => (hn n hn').1) m.dst_path
    rw [filePath, h1] at h2
    rw [h.place, ← h2]
    cases names with
    | nil => exact absurd rfl hne
    | cons a t => simp [join]

theorem Spec.OneSite.mapsTo {c : ClientCfg} {cwd : Loc} {m : Map} {root : Loc} {fs : Fs} (h : OneSite c cwd m root fs) {names : List Str}
    (hne : names ≠ []) (hn : ∀ n ∈ names, PlainName n) {l : Loc} : MapsTo c cwd (uriBelow m names) l ↔ l = root ++ names := by
  obtain ⟨fn, h1, -, h3⟩ := h.maps hne hn
  constructor
  · rintro ⟨fn', e1, e2⟩
    rw [h1] at e1
    cases e1
    rw [e2, h3]
  · rintro rfl
    exact ⟨fn, h1, h3.symm⟩

theorem names_of_file {fs : Fs} (h : Tidy fs) {root : Loc} {names : List Str} (hne : names ≠ []) {x : FsNode}
    (hf : fs.get (root ++ names) = some x) : ∀ n ∈ names, PlainName n := by
  have hm := mem_of_get (by simp [hne]) hf
  intro n hn
  exact ⟨h.proper.names _ hm n (List.mem_append_right _ hn), h.names _ hm n (List.mem_append_right _ hn)⟩

/-- A scan finds the files below the destination, and nothing else -/
theorem Spec.OneSite.scan {c : ClientCfg} {cwd : Loc} {m : Map} {root : Loc} {fs : Fs} (h : OneSite c cwd m root fs) (lib : HashLib)
    (hashes : List Str) (hh : ∀ t ∈ hashes, HashType t) :
    ∃ dst, (Builder.new c.disc.mapper (some hashes) true false).fromDisk lib (fs.disk cwd) = .ok dst ∧
      ∀ u r, dget dst u = some r ↔ ∃ names content mtime, names ≠ [] ∧ IsFile fs (root ++ names) content mtime ∧ u = uriBelow m names ∧
        r = describes (Builder.new c.disc.mapper (some hashes) true false) lib u (m.dst_path ++ '/' :: join ['/'] names)
          (fileStat content mtime) := by
  have hset : ∀ hs, (Builder.new c.disc.mapper (some hashes) true false).set_hashes = some hs → hs = hashes := by
    intro hs he
    unfold Builder.new at he
    cases hashes with
    | nil => simp at he
    | cons a t => simpa using he.symm
  cases hg : fs.get root with
  | none =>
    refine ⟨[], ?_, ?_⟩
    · have e1 : (fs.disk cwd).resolve m.dst_path = none := by
        unfold Fs.disk
        simp only
        rw [← h.place, hg]
      have htr := translate_of_translates (repl := m.src_uri) h.dst.1 h.dst.2.1 (.inl ⟨rfl, rfl⟩)
      unfold Builder.fromDisk
      simp only [newBuilder_mapper, h.mapper, List.map_cons, List.map_nil, List.foldlM_cons, List.foldlM_nil]
      unfold Builder.addPath
      rw [e1]
      simp only [Option.bind_none, Builder.addFile]
      have hex : (Builder.new [m] (some hashes) true false).exclude m.dst_path = false := rfl
      have hlk : (fs.disk cwd).islink m.dst_path = false := rfl
      rw [hex, hlk]
      simp only [Bool.false_eq_true, if_false, false_and, newBuilder_mapper, Mapper.dstToSrc, Map.dstToSrc, htr]
      rfl
    · intro u r
      simp only [dget, reduceCtorEq, false_iff, not_exists, not_and]
      intro names content mtime hne hf
      have := get_prefix h.proper names hne hf
      rw [hg] at this
      cases this
  | some x =>
    cases x with
    | file b t => exact absurd ⟨b, t, hg⟩ h.notFile
    | dir =>
      have e1 : (fs.disk cwd).resolve m.dst_path = some (.dir (root.getLast?.getD []) true (fs.tree (fs.depth + 1) root)) := by
        unfold Fs.disk
        simp only
        rw [← h.place, hg]
      have hreach : ∀ names n, Reach (fs.tree (fs.depth + 1) root) names n → ∃ j name x, names.getLast? = some name ∧
          fs.get (root ++ names) = some x ∧ n = nodeOf fs j (root ++ names.dropLast) name x :=
        fun names n hr => reach_tree h.proper hr _ _ rfl
      have hel : ∀ names st, Eligible (Excluded (Builder.new c.disc.mapper (some hashes) true false)) (fs.tree (fs.depth + 1) root) names st ↔
          names ≠ [] ∧ ∃ content mtime, IsFile fs (root ++ names) content mtime ∧ st = fileStat content mtime := by
        intro names st
        constructor
        · rintro ⟨⟨nm, sp, hr⟩, -⟩
          obtain ⟨j, name, x, k1, k2, k3⟩ := hreach _ _ hr
          refine ⟨reach_ne_nil hr, ?_⟩
          cases x with
          | dir => simp [nodeOf] at k3
          | file b t =>
            simp only [nodeOf, FNode.file.injEq, Option.some.injEq] at k3
            exact ⟨b, t, k2, k3.2.2⟩
        · rintro ⟨hne, b, t, hf, rfl⟩
          have hm := mem_of_get (by simp [hne]) hf
          have hd := depth_ge hm
          obtain ⟨nm, hr⟩ := tree_reach h.proper names (fs.depth + 1) root hne (by simp at hd; omega) hf
          exact ⟨⟨nm, false, hr⟩, by rintro x - ⟨p, hp, -⟩; cases hp⟩
      obtain ⟨dst, k1, k2⟩ := C42_one_mapping (Builder.new c.disc.mapper (some hashes) true false) lib (fs.disk cwd) m _ _
        (by rw [newBuilder_mapper]; exact h.mapper) rfl h.dst.1 h.dst.2.2.1 h.dst.2.2.2 h.dst.2.1 e1 (realDir_tree h.proper _ _)
        (by
          intro names n hr
          obtain ⟨j, name, x, -, k2, -⟩ := hreach _ _ hr
          exact fun c hc => (names_of_file h.tidy (reach_ne_nil hr) k2 c hc).2)
        (by
          intro hs he
          rw [hset hs he]
          refine ⟨hh, ?_⟩
          intro names st he
          obtain ⟨-, b, t, -, rfl⟩ := (hel _ _).mp he
          simp [fileStat])
      refine ⟨dst, k1, ?_⟩
      intro u r
      rw [k2]
      constructor
      · rintro ⟨names, st, he, e1, e2⟩
        obtain ⟨hne, b, t, hf, rfl⟩ := (hel _ _).mp he
        exact ⟨names, b, t, hne, hf, e1, e2⟩
      · rintro ⟨names, b, t, hne, hf, e1, e2⟩
        exact ⟨names, _, (hel _ _).mpr ⟨hne, b, t, hf, rfl⟩, e1, e2⟩

/-- the digests left to compute are never of a type the source has -/
theorem not_leftHashes {s : St} {src : Dict Resource} (hw : WF src) {t : Str} (h : t ∈ leftHashes s src) : ¬ ListHas src t := by
  rw [← mem_listHashes hw]
  unfold leftHashes pruneHashes at h
  split at h
  · simpa using (List.mem_filter.mp h).2
  · rename_i hn
    have : s.hashes = [] := by simpa using hn
    rw [this] at h
    cases h

theorem leftHashes_sub {s : St} {src : Dict Resource} {t : Str} (h : t ∈ leftHashes s src) : t ∈ s.hashes := by
  unfold leftHashes pruneHashes at h
  split at h
  · exact (List.mem_filter.mp h).1
  · exact h

/-- a scanned file is the same as a listed resource exactly if time and length agree -/
theorem describes_eq {mp : Mapper} {s : St} {src : Dict Resource} (hw : WF src) {lib : HashLib} {u path : Str} {b : Bytes} {t : Rat}
    {r : Resource} (hr : dget src u = some r) :
    (describes (Builder.new mp (some (leftHashes s src)) true false) lib u path (fileStat b t)).eq (some r) = true ↔ Agrees r b t := by
  have hu : r.uri = u := hw.2 u r hr
  have hmem := mem_of_dget hr
  have hwant : ∀ t, (match (Builder.new mp (some (leftHashes s src)) true false).set_hashes with
      | some hs => decide (t ∈ hs)
      | none => false) = true → t ∈ leftHashes s src := by
    intro t ht
    unfold Builder.new at ht
    cases hl : leftHashes s src with
    | nil => rw [hl] at ht; simp at ht
    | cons a x => rw [hl] at ht; simpa using ht
  have key : ∀ (w : Bool) (x y : Option Str), (w = true → y = none) → bothDiffer (if w = true then x else none) y = false := by
    intro w x y h
    cases w with
    | false => rfl
    | true => rw [h rfl]; simp [bothDiffer]
  have d1 : bothDiffer (describes (Builder.new mp (some (leftHashes s src)) true false) lib u path (fileStat b t)).md5 r.md5 = false := by
    refine key _ _ _ (fun hc => ?_)
    by_contra hv
    exact not_leftHashes hw (hwant _ hc) ⟨u, r, hmem, .inl ⟨rfl, hv⟩⟩
  have d2 : bothDiffer (describes (Builder.new mp (some (leftHashes s src)) true false) lib u path (fileStat b t)).sha1 r.sha1 = false := by
    refine key _ _ _ (fun hc => ?_)
    by_contra hv
    exact not_leftHashes hw (hwant _ hc) ⟨u, r, hmem, .inr (.inl ⟨rfl, hv⟩)⟩
  have d3 : bothDiffer (describes (Builder.new mp (some (leftHashes s src)) true false) lib u path (fileStat b t)).sha256 r.sha256 = false := by
    refine key _ _ _ (fun hc => ?_)
    by_contra hv
    exact not_leftHashes hw (hwant _ hc) ⟨u, r, hmem, .inr (.inr ⟨rfl, hv⟩)⟩
  have dl : bothDiffer (describes (Builder.new mp (some (leftHashes s src)) true false) lib u path (fileStat b t)).length r.length = true ↔
      ∃ n, r.length = some n ∧ n ≠ (b.length : Int) := by
    have : (describes (Builder.new mp (some (leftHashes s src)) true false) lib u path (fileStat b t)).length = some (b.length : Int) := rfl
    rw [this]
    cases r.length with
    | none => simp [bothDiffer]
    | some n =>
      simp only [bothDiffer, decide_eq_true_eq, Option.some.injEq, exists_eq_left']
      exact ne_comm
  have dt : timesDiffer (describes (Builder.new mp (some (leftHashes s src)) true false) lib u path (fileStat b t)).timestamp r.timestamp 1 = false ↔
      ∃ x, r.timestamp = some x ∧ t - x < 1 ∧ x - t < 1 := by
    have : (describes (Builder.new mp (some (leftHashes s src)) true false) lib u path (fileStat b t)).timestamp = some t := rfl
    rw [this]
    cases r.timestamp with
    | none => simp [timesDiffer]
    | some x =>
      simp only [timesDiffer, Option.some.injEq, exists_eq_left']
      rw [decide_eq_false_iff_not, not_le]
      unfold pyAbs
      split
      · constructor
        · intro h; constructor <;> linarith
        · intro h; linarith [h.1, h.2]
      · constructor
        · intro h; constructor <;> linarith
        · intro h; linarith [h.1, h.2]
  have e0 : (describes (Builder.new mp (some (leftHashes s src)) true false) lib u path (fileStat b t)).uri = u := rfl
  unfold Resource.eq Resource.equal Agrees
  simp only [e0, hu, ne_eq, not_true_eq_false, if_false, d1, d2, d3, Bool.false_eq_true]
  rw [← dt]
  have dl' : (∀ n, r.length = some n → n = (b.length : Int)) ↔
      bothDiffer (describes (Builder.new mp (some (leftHashes s src)) true false) lib u path (fileStat b t)).length r.length = false := by
    rw [← Bool.not_eq_true, dl]
    push Not
    rfl
  rw [dl']
  generalize timesDiffer _ r.timestamp 1 = x
  generalize bothDiffer _ r.length = y
  cases x <;> cases y <;> simp

theorem truncRat_near (t : Rat) : (truncRat t : Rat) - t < 1 ∧ t - (truncRat t : Rat) < 1 := by
  have hd : (0 : Rat) < t.den := by exact_mod_cast t.den_pos
  have h1 : t * t.den = t.num := Rat.mul_den_eq_num t
  have h2 : t.num = t.den * truncRat t + t.num.tmod t.den := (Int.mul_tdiv_add_tmod t.num t.den).symm
  have h3 : (t.num.tmod t.den).natAbs < t.den := by
    have := Int.natAbs_tmod t.num t.den
    rw [this]
    exact Nat.mod_lt _ t.den_pos
  have h4 : ((t.num.tmod t.den : Int) : Rat) = (t - truncRat t) * t.den := by
    have : (t.num : Rat) = t.den * truncRat t + (t.num.tmod t.den : Int) := by exact_mod_cast h2
    linarith [this, h1]
  have h5 : t.num.tmod t.den < t.den ∧ -(t.den : Int) < t.num.tmod t.den := by omega
  have h6 : ((t.num.tmod t.den : Int) : Rat) < t.den := by exact_mod_cast h5.1
  have h7 : -(t.den : Rat) < ((t.num.tmod t.den : Int) : Rat) := by exact_mod_cast h5.2
  rw [h4] at h6 h7
  constructor
  · have : -1 < t - truncRat t := by
      by_contra hc
      have := mul_le_mul_of_nonneg_right (not_lt.mp hc) hd.le
      linarith
    linarith
  · by_contra hc
    have := mul_le_mul_of_nonneg_right (not_lt.mp hc) hd.le
    linarith

end Resync
