import Verif.Props.Builder
/- Several mappings apart from each other. -/

namespace Resync
open Py Resync.Spec

theorem Spec.Apart.symm {a b : Str} (h : Apart a b) : Apart b a := by
  obtain ⟨i, x, y, h1, h2, h3, h4, h5⟩ := h
  exact ⟨i, y, x, h2, h1, fun e => h3 e.symm, h5, h4⟩

theorem DotEq.get {b p : Str} (h : DotEq b p) {i : Nat} {x : Char} (hx : b[i]? = some x) (hd : x ≠ '.') : p[i]? = some x := by
  induction h generalizing i with
  | nil => simp at hx
  | same c _ ih =>
    cases i with
    | zero => simpa using hx
    | succ i => simpa using ih (by simpa using hx)
  | dot c _ _ ih =>
    cases i with
    | zero =>
      simp only [List.getElem?_cons_zero, Option.some.injEq] at hx
      exact absurd hx.symm hd
    | succ i => simpa using ih (by simpa using hx)

/-- nothing below `b` is covered by `a` -/
theorem Spec.Apart.not_covers {a b : Str} (h : Apart a b) (t : Str) : ¬ DotCovers a (b ++ '/' :: t) := by
  rintro ⟨p, rest, e, hd, hr⟩
  obtain ⟨i, x, y, h1, h2, h3, h4, h5⟩ := h
  have hib : i ≤ b.length := by
    have := (List.getElem?_eq_some_iff.mp h2).1
    simp at this; omega
  have hia : i ≤ a.length := by
    have := (List.getElem?_eq_some_iff.mp h1).1
    simp at this; omega
  have hy : (b ++ '/' :: t)[i]? = some y := by
    rw [← h2]
    rcases Nat.lt_or_ge i b.length with hlt | hge
    · rw [List.getElem?_append_left hlt, List.getElem?_append_left hlt]
    · have : i = b.length := by omega
      subst this
      simp
  have hlen := DotEq.length hd
  rcases Nat.lt_or_ge i a.length with hlt | hge
  · rw [List.getElem?_append_left hlt] at h1
    have := DotEq.get hd h1 h4
    rw [e, List.getElem?_append_left (by omega), this] at hy
    exact h3 (Option.some.inj hy)
  · have hi : i = a.length := by omega
    subst hi
    simp only [List.getElem?_concat_length, Option.some.injEq] at h1
    subst h1
    rw [e, List.getElem?_append_right (by omega), hlen] at hy
    rcases hr with rfl | ⟨t', rfl⟩
    · have := congrArg List.length e
      simp at this
      omega
    · simp only [Nat.sub_self, List.getElem?_cons_zero, Option.some.injEq] at hy
      exact h3 hy

theorem Spec.Apart.ne {a b : Str} (h : Apart a b) (t t' : Str) : a ++ '/' :: t ≠ b ++ '/' :: t' := by
  intro e
  refine h.not_covers t' ⟨a, '/' :: t, e.symm, DotEq.refl _, .inr ⟨t, rfl⟩⟩

/-- a path below the destination of one of the mappings, the others being apart from it -/
theorem dstToSrc_below {ms : Mapper} (hlit : ∀ m ∈ ms, LiteralOrDot m.dst_path)
    (hap : ms.Pairwise (fun a b => Apart a.dst_path b.dst_path)) {m : Map} (hm : m ∈ ms) {t : Str} (h1 : OneLine (m.dst_path ++ '/' :: t)) :
    Mapper.dstToSrc ms (m.dst_path ++ '/' :: t) = .ok (m.src_uri ++ '/' :: t) := by
  induction ms with
  | nil => cases hm
  | cons a ms ih =>
    obtain ⟨p1, p2⟩ := List.pairwise_cons.mp hap
    unfold Mapper.dstToSrc
    rcases List.mem_cons.mp hm with rfl | hm'
    · have := translate_of_translates (repl := m.src_uri) (hlit m hm) h1 (.inr ⟨t, rfl, rfl⟩)
      simp only [Map.dstToSrc, this]
    · have := (translate_none_iff_dot (repl := a.src_uri) (hlit a (by simp)) h1).mpr ((p1 m hm').not_covers t)
      simp only [Map.dstToSrc, this]
      exact ih (fun x hx => hlit x (by simp [hx])) p2 hm'

/-- the same for URIs -/
theorem srcToDst_below {ms : Mapper} (hlit : ∀ m ∈ ms, LiteralOrDot m.src_uri)
    (hap : ms.Pairwise (fun a b => Apart a.src_uri b.src_uri)) {m : Map} (hm : m ∈ ms) {t : Str} (h1 : OneLine (m.src_uri ++ '/' :: t)) :
    Mapper.srcToDst ms (m.src_uri ++ '/' :: t) = .ok (m.dst_path ++ '/' :: t) := by
  induction ms with
  | nil => cases hm
  | cons a ms ih =>
    obtain ⟨p1, p2⟩ := List.pairwise_cons.mp hap
    unfold Mapper.srcToDst
    rcases List.mem_cons.mp hm with rfl | hm'
    · have := translate_of_translates (repl := m.dst_path) (hlit m hm) h1 (.inr ⟨t, rfl, rfl⟩)
      simp only [Map.srcToDst, this]
    · have := (translate_none_iff_dot (repl := a.dst_path) (hlit a (by simp)) h1).mpr ((p1 m hm').not_covers t)
      simp only [Map.srcToDst, this]
      exact ih (fun x hx => hlit x (by simp [hx])) p2 hm'

/-- the destination itself is mapped to something -/
theorem dstToSrc_self {ms : Mapper} (hlit : ∀ m ∈ ms, LiteralOrDot m.dst_path) {m : Map} (hm : m ∈ ms) (h1 : OneLine m.dst_path) :
    ∃ u, Mapper.dstToSrc ms m.dst_path = .ok u := by
  induction ms with
  | nil => cases hm
  | cons a ms ih =>
    unfold Mapper.dstToSrc
    obtain ⟨o, ho⟩ := translate_ok_of_dot a.src_uri m.dst_path (hlit a (by simp))
    rw [Map.dstToSrc, ho]
    cases o with
    | some u => exact ⟨u, rfl⟩
    | none =>
      rcases List.mem_cons.mp hm with rfl | hm'
      · rw [translate_of_translates (hlit m hm) h1 (.inl ⟨rfl, rfl⟩)] at ho
        cases ho
      · exact ih (fun x hx => hlit x (by simp [hx])) hm'

/-- start paths that do not exist add nothing -/
theorem fromDisk_places {b : Builder} {lib : HashLib} {disk : Disk} (paths : List Str) : ∀ (rl : Dict Resource),
    (∀ p ∈ paths, (∃ nm rd cs, disk.resolve p = some (.dir nm rd cs)) ∨ disk.resolve p = none ∧ ∃ u, b.mapper.dstToSrc p = .ok u) →
    b.fromDisk lib disk rl (some paths) = b.addAll lib rl (scanned b disk paths) := by
  unfold Builder.fromDisk
  simp only
  induction paths with
  | nil => intro rl _; rfl
  | cons p ps ih =>
    intro rl h
    have ih := fun rl => ih rl (fun q hq => h q (by simp [hq]))
    rw [List.foldlM_cons]
    rcases h p (by simp) with ⟨nm, rd, cs, hp⟩ | ⟨hp, u, hu⟩
    · have hs : scanned b disk (p :: ps) = (if rd then walk b.exclude p cs else []) ++ scanned b disk ps := by
        unfold scanned
        rw [List.flatMap_cons, hp]
        cases rd <;> rfl
      rw [hs]
      unfold Builder.addAll
      rw [List.foldlM_append]
      have : b.addPath lib disk rl p = b.addAll lib rl (if rd then walk b.exclude p cs else []) := by
        unfold Builder.addPath
        rw [hp]
        cases rd <;> rfl
      rw [this]
      unfold Builder.addAll
      congr 1
      funext rl1
      exact ih rl1
    · have hs : scanned b disk (p :: ps) = scanned b disk ps := by
        unfold scanned
        rw [List.flatMap_cons, hp]
        rfl
      have : b.addPath lib disk rl p = .ok rl := by
        unfold Builder.addPath
        rw [hp]
        simp only [Option.bind_none, Builder.addFile, hu]
        split
        · rfl
        · split <;> rfl
      rw [hs, this, ebind_ok]
      exact ih rl

end Resync
