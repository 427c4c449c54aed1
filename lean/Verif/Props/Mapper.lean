import Verif.Proofs.Mapper
import Verif.Proofs.Path
import Verif.Spec.Path
import Mathlib.Tactic.Tauto
/-
C01–C08: mapping between source URIs and destination paths (mapper.py).
-/

namespace Resync
open Py Resync.Spec

instance (a b : List Str) : Decidable (Within a b) := inferInstanceAs (Decidable (a <+: b))
instance (s : Str) : Decidable (OneLine s) := inferInstanceAs (Decidable ('\n' ∉ s))
instance (s : Str) : Decidable (Literal s) := inferInstanceAs (Decidable (∀ c ∈ s, _))
instance (s : Str) : Decidable (LiteralOrDot s) := inferInstanceAs (Decidable (∀ c ∈ s, _))

/-! ## C01 translation is prefix substitution, first match wins -/

/-- One mapping, source to destination: the result is exactly the documented translation. -/
theorem C01_map_src_to_dst_partial (m : Map) (uri out : Str) (hb : Literal m.src_uri) (hu : OneLine uri) :
    m.srcToDst uri = .ok (some out) ↔ Translates m.src_uri m.dst_path uri out :=
  translate_iff_literal hb hu

/-- One mapping, destination to source. -/
theorem C01_map_dst_to_src_partial (m : Map) (path out : Str) (hb : Literal m.dst_path) (hu : OneLine path) :
    m.dstToSrc path = .ok (some out) ↔ Translates m.dst_path m.src_uri path out :=
  translate_iff_literal hb hu

/-- Neither direction raises for such bases; "not covered" is reported as `None`. -/
theorem C01_map_total_partial (m : Map) (uri : Str) (hb : Literal m.src_uri) (hu : OneLine uri)
    (hno : ¬ ∃ out, Translates m.src_uri m.dst_path uri out) : m.srcToDst uri = .ok none := by
  obtain ⟨o, ho⟩ := translate_ok_of_dot m.dst_path uri (Literal.toDot hb)
  cases o with
  | none => exact ho
  | some out => exact absurd ⟨out, (translate_iff_literal hb hu).mp ho⟩ hno

/-- Whole mapper: the first mapping that covers the URI determines the result. -/
theorem C01_src_to_dst_partial (ms : Mapper) (uri out : Str) (hb : ∀ m ∈ ms, Literal m.src_uri)
    (hu : OneLine uri) :
    Mapper.srcToDst ms uri = .ok out ↔
      ∃ pre m post, ms = pre ++ m :: post ∧ Translates m.src_uri m.dst_path uri out ∧
        ∀ m' ∈ pre, ¬ ∃ o, Translates m'.src_uri m'.dst_path uri o := by
  induction ms with
  | nil => simp [Mapper.srcToDst]
  | cons m ms ih =>
    have hm := hb m (by simp)
    have ih := ih (fun m' h => hb m' (by simp [h]))
    by_cases hc : ∃ o, Translates m.src_uri m.dst_path uri o
    · obtain ⟨o, ho⟩ := hc
      have he : m.srcToDst uri = .ok (some o) := (C01_map_src_to_dst_partial m uri o hm hu).mpr ho
      simp only [Mapper.srcToDst, he]
      constructor
      · intro h
        cases h
        exact ⟨[], m, ms, rfl, ho, by simp⟩
      · rintro ⟨pre, m', post, e, ht, hpre⟩
        cases pre with
        | nil =>
          simp at e
          obtain ⟨rfl, rfl⟩ := e
          have := (C01_map_src_to_dst_partial m uri out hm hu).mpr ht
          rw [he] at this; simpa using this
        | cons p ps =>
          simp at e
          obtain ⟨rfl, rfl⟩ := e
          exact absurd ⟨o, ho⟩ (hpre m (by simp))
    · have he : m.srcToDst uri = .ok none := C01_map_total_partial m uri hm hu hc
      simp only [Mapper.srcToDst, he, ih]
      constructor
      · rintro ⟨pre, m', post, rfl, ht, hpre⟩
        refine ⟨m :: pre, m', post, rfl, ht, ?_⟩
        intro m'' h
        rcases List.mem_cons.mp h with rfl | h
        · exact hc
        · exact hpre m'' h
      · rintro ⟨pre, m', post, e, ht, hpre⟩
        cases pre with
        | nil => simp at e; obtain ⟨rfl, rfl⟩ := e; exact absurd ⟨out, ht⟩ hc
        | cons p ps =>
          simp at e
          obtain ⟨rfl, rfl⟩ := e
          exact ⟨ps, m', post, rfl, ht, fun m'' h => hpre m'' (by simp [h])⟩

/-- Whole mapper: `MapperError` exactly when no mapping covers the URI. -/
theorem C01_src_to_dst_error_partial (ms : Mapper) (uri : Str) (hb : ∀ m ∈ ms, Literal m.src_uri)
    (hu : OneLine uri) :
    Mapper.srcToDst ms uri = .error .mapper ↔
      ∀ m ∈ ms, ¬ ∃ o, Translates m.src_uri m.dst_path uri o := by
  induction ms with
  | nil => simp [Mapper.srcToDst]
  | cons m ms ih =>
    have hm := hb m (by simp)
    have ih := ih (fun m' h => hb m' (by simp [h]))
    by_cases hc : ∃ o, Translates m.src_uri m.dst_path uri o
    · obtain ⟨o, ho⟩ := hc
      have he : m.srcToDst uri = .ok (some o) := (C01_map_src_to_dst_partial m uri o hm hu).mpr ho
      simp only [Mapper.srcToDst, he]
      constructor
      · intro h; cases h
      · intro h; exact absurd ⟨o, ho⟩ (h m (by simp))
    · have he : m.srcToDst uri = .ok none := C01_map_total_partial m uri hm hu hc
      simp only [Mapper.srcToDst, he, ih, List.mem_cons, forall_eq_or_imp]
      exact ⟨fun h => ⟨hc, h⟩, fun h => h.2⟩

/-- The two directions are the same code with the attributes swapped. -/
theorem dstToSrc_swap (ms : Mapper) (path : Str) : Mapper.dstToSrc ms path =
    Mapper.srcToDst (ms.map (fun m => ⟨m.dst_path, m.src_uri⟩)) path := by
  induction ms with
  | nil => rfl
  | cons m ms ih => simp only [Mapper.dstToSrc, List.map_cons, Mapper.srcToDst, ih]; rfl

/-- `MapperError` for paths exactly when no mapping covers the path. -/
theorem C01_dst_to_src_error_partial (ms : Mapper) (path : Str) (hb : ∀ m ∈ ms, Literal m.dst_path)
    (hu : OneLine path) :
    Mapper.dstToSrc ms path = .error .mapper ↔
      ∀ m ∈ ms, ¬ ∃ o, Translates m.dst_path m.src_uri path o := by
  rw [dstToSrc_swap, C01_src_to_dst_error_partial _ path (by simpa using hb) hu]
  simp

/-- The same for destination paths. -/
theorem C01_dst_to_src_partial (ms : Mapper) (path out : Str) (hb : ∀ m ∈ ms, Literal m.dst_path)
    (hu : OneLine path) :
    Mapper.dstToSrc ms path = .ok out ↔
      ∃ pre m post, ms = pre ++ m :: post ∧ Translates m.dst_path m.src_uri path out ∧
        ∀ m' ∈ pre, ¬ ∃ o, Translates m'.dst_path m'.src_uri path o := by
  rw [dstToSrc_swap, C01_src_to_dst_partial _ path out (by simpa using hb) hu]
  constructor
  · rintro ⟨pre, m, post, e, ht, hpre⟩
    obtain ⟨pre', rest', rfl, rfl, h2⟩ := List.map_eq_append_iff.mp e
    obtain ⟨m', post', rfl, rfl, rfl⟩ := List.map_eq_cons_iff.mp h2
    refine ⟨pre', m', post', rfl, ht, ?_⟩
    intro m'' hm''
    exact hpre ⟨m''.dst_path, m''.src_uri⟩ (List.mem_map.mpr ⟨m'', hm'', rfl⟩)
  · rintro ⟨pre, m, post, rfl, ht, hpre⟩
    refine ⟨pre.map (fun m => ⟨m.dst_path, m.src_uri⟩), ⟨m.dst_path, m.src_uri⟩, _, by simp; rfl, ht, ?_⟩
    intro m'' hm''
    obtain ⟨m0, h0, rfl⟩ := List.mem_map.mp hm''
    exact hpre m0 h0

/-- With '.' in the bases (every real host name): a URI that literally starts with the base is
still translated as documented. -/
theorem C01_covered_uri_is_translated (m : Map) (uri out : Str) (hb : LiteralOrDot m.src_uri)
    (hu : OneLine uri) (h : Translates m.src_uri m.dst_path uri out) :
    m.srcToDst uri = .ok (some out) :=
  translate_of_translates hb hu h

/-- A mapping whose base may have dots in it, on a URI which the base covers literally if it covers
it at all with the dots as wildcards: the result is exactly the documented translation. -/
theorem map_exact {base repl uri : Str} (hb : LiteralOrDot base) (hu : OneLine uri)
    (hd : DotCovers base uri → ∃ o, Translates base repl uri o) (out : Str) :
    translate base repl uri = .ok (some out) ↔ Translates base repl uri out := by
  constructor
  · intro h
    have hc : DotCovers base uri := by
      by_cases hn : DotCovers base uri
      · exact hn
      · rw [(translate_none_iff_dot (repl := repl) hb hu).mpr hn] at h
        cases h
    obtain ⟨o, ho⟩ := hd hc
    have := translate_of_translates hb hu ho
    rw [h] at this
    injection this with this
    injection this with this
    rw [this]; exact ho
  · exact translate_of_translates hb hu

theorem map_exact_none {base repl uri : Str} (hb : LiteralOrDot base) (hu : OneLine uri)
    (hd : DotCovers base uri → ∃ o, Translates base repl uri o)
    (hno : ¬ ∃ o, Translates base repl uri o) : translate base repl uri = .ok none :=
  (translate_none_iff_dot hb hu).mpr (fun h => hno (hd h))

/-- Whole mapper, with host names and file names as bases: the first mapping that covers the URI
determines the result, for every URI which no base covers only by reading its dots as wildcards.
Without that condition the claim is false (`C03_violated`). -/
theorem C01_src_to_dst_dots_partial (ms : Mapper) (uri out : Str)
    (hb : ∀ m ∈ ms, LiteralOrDot m.src_uri) (hu : OneLine uri)
    (hd : ∀ m ∈ ms, DotCovers m.src_uri uri → ∃ o, Translates m.src_uri m.dst_path uri o) :
    Mapper.srcToDst ms uri = .ok out ↔
      ∃ pre m post, ms = pre ++ m :: post ∧ Translates m.src_uri m.dst_path uri out ∧
        ∀ m' ∈ pre, ¬ ∃ o, Translates m'.src_uri m'.dst_path uri o := by
  induction ms with
  | nil => simp [Mapper.srcToDst]
  | cons m ms ih =>
    have hm := map_exact (repl := m.dst_path) (hb m (by simp)) hu (hd m (by simp))
    have ih := ih (fun m' h => hb m' (by simp [h])) (fun m' h => hd m' (by simp [h]))
    by_cases hc : ∃ o, Translates m.src_uri m.dst_path uri o
    · obtain ⟨o, ho⟩ := hc
      have he : m.srcToDst uri = .ok (some o) := (hm o).mpr ho
      simp only [Mapper.srcToDst, he]
      constructor
      · intro h
        cases h
        exact ⟨[], m, ms, rfl, ho, by simp⟩
      · rintro ⟨pre, m', post, e, ht, hpre⟩
        cases pre with
        | nil =>
          simp at e
          obtain ⟨rfl, rfl⟩ := e
          have : m.srcToDst uri = .ok (some out) := (hm out).mpr ht
          rw [he] at this; simpa using this
        | cons p ps =>
          simp at e
          obtain ⟨rfl, rfl⟩ := e
          exact absurd ⟨o, ho⟩ (hpre m (by simp))
    · have he : m.srcToDst uri = .ok none :=
        map_exact_none (hb m (by simp)) hu (hd m (by simp)) hc
      simp only [Mapper.srcToDst, he, ih]
      constructor
      · rintro ⟨pre, m', post, rfl, ht, hpre⟩
        refine ⟨m :: pre, m', post, rfl, ht, ?_⟩
        intro m'' h
        rcases List.mem_cons.mp h with rfl | h
        · exact hc
        · exact hpre m'' h
      · rintro ⟨pre, m', post, e, ht, hpre⟩
        cases pre with
        | nil => simp at e; obtain ⟨rfl, rfl⟩ := e; exact absurd ⟨out, ht⟩ hc
        | cons p ps =>
          simp at e
          obtain ⟨rfl, rfl⟩ := e
          exact ⟨ps, m', post, rfl, ht, fun m'' h => hpre m'' (by simp [h])⟩

/-- And `MapperError` exactly when no mapping covers the URI. -/
theorem C01_src_to_dst_dots_error_partial (ms : Mapper) (uri : Str)
    (hb : ∀ m ∈ ms, LiteralOrDot m.src_uri) (hu : OneLine uri)
    (hd : ∀ m ∈ ms, DotCovers m.src_uri uri → ∃ o, Translates m.src_uri m.dst_path uri o) :
    Mapper.srcToDst ms uri = .error .mapper ↔
      ∀ m ∈ ms, ¬ ∃ o, Translates m.src_uri m.dst_path uri o := by
  induction ms with
  | nil => simp [Mapper.srcToDst]
  | cons m ms ih =>
    have ih := ih (fun m' h => hb m' (by simp [h])) (fun m' h => hd m' (by simp [h]))
    by_cases hc : ∃ o, Translates m.src_uri m.dst_path uri o
    · obtain ⟨o, ho⟩ := hc
      have he : m.srcToDst uri = .ok (some o) :=
        (map_exact (hb m (by simp)) hu (hd m (by simp)) o).mpr ho
      simp only [Mapper.srcToDst, he]
      constructor
      · intro h; cases h
      · intro h; exact absurd ⟨o, ho⟩ (h m (by simp))
    · have he : m.srcToDst uri = .ok none :=
        map_exact_none (hb m (by simp)) hu (hd m (by simp)) hc
      simp only [Mapper.srcToDst, he, ih, List.mem_cons, forall_eq_or_imp]
      exact ⟨fun h => ⟨hc, h⟩, fun h => h.2⟩

/-- The same for paths, with dots in the destination bases. -/
theorem C01_dst_to_src_dots_partial (ms : Mapper) (path out : Str)
    (hb : ∀ m ∈ ms, LiteralOrDot m.dst_path) (hu : OneLine path)
    (hd : ∀ m ∈ ms, DotCovers m.dst_path path → ∃ o, Translates m.dst_path m.src_uri path o) :
    Mapper.dstToSrc ms path = .ok out ↔
      ∃ pre m post, ms = pre ++ m :: post ∧ Translates m.dst_path m.src_uri path out ∧
        ∀ m' ∈ pre, ¬ ∃ o, Translates m'.dst_path m'.src_uri path o := by
  rw [dstToSrc_swap, C01_src_to_dst_dots_partial _ path out (by simpa using hb) hu
    (by simpa using hd)]
  constructor
  · rintro ⟨pre, m, post, e, ht, hpre⟩
    obtain ⟨pre', rest', rfl, rfl, h2⟩ := List.map_eq_append_iff.mp e
    obtain ⟨m', post', rfl, rfl, rfl⟩ := List.map_eq_cons_iff.mp h2
    refine ⟨pre', m', post', rfl, ht, ?_⟩
    intro m'' hm''
    exact hpre ⟨m''.dst_path, m''.src_uri⟩ (List.mem_map.mpr ⟨m'', hm'', rfl⟩)
  · rintro ⟨pre, m, post, rfl, ht, hpre⟩
    refine ⟨pre.map (fun m => ⟨m.dst_path, m.src_uri⟩), ⟨m.dst_path, m.src_uri⟩, _, by simp; rfl, ht, ?_⟩
    intro m'' hm''
    obtain ⟨m0, h0, rfl⟩ := List.mem_map.mp hm''
    exact hpre m0 h0

/-- `MapperError` for paths, with dots in the destination bases. -/
theorem C01_dst_to_src_dots_error_partial (ms : Mapper) (path : Str)
    (hb : ∀ m ∈ ms, LiteralOrDot m.dst_path) (hu : OneLine path)
    (hd : ∀ m ∈ ms, DotCovers m.dst_path path → ∃ o, Translates m.dst_path m.src_uri path o) :
    Mapper.dstToSrc ms path = .error .mapper ↔
      ∀ m ∈ ms, ¬ ∃ o, Translates m.dst_path m.src_uri path o := by
  rw [dstToSrc_swap, C01_src_to_dst_dots_error_partial _ path (by simpa using hb) hu
    (by simpa using hd)]
  simp

/-- A name that ends in a line feed, which a file system allows: `$` matches before it, so a string
that no base covers is translated, and the line feed is lost. -/
theorem C01_line_feed_violated :
    ∃ (ms : Mapper) (s out : Str), (∀ m ∈ ms, Literal m.src_uri) ∧
      (∀ m ∈ ms, ¬ ∃ o, Translates m.src_uri m.dst_path s o) ∧ Mapper.srcToDst ms s = .ok out := by
  refine ⟨[⟨"http://h/a".toList, "/x".toList⟩], "http://h/a\n".toList, "/x/".toList, by decide, ?_,
    by decide⟩
  intro m hm
  rw [List.mem_singleton.mp hm]
  rintro ⟨o, ⟨h, -⟩ | ⟨t, h, -⟩⟩
  · exact absurd h (by decide)
  · have h2 := congrArg (fun l : Str => l[10]?) h
    exact absurd h2 (by
      show ¬ (some '\n' = some '/')
      decide)

-- non-vacuity
example : Literal (Map.new "http://localhost/a/".toList "/tmp/x".toList).src_uri ∧
    OneLine "http://localhost/a/b".toList ∧
    Translates "http://localhost/a".toList "/tmp/x".toList "http://localhost/a/b".toList
      "/tmp/x/b".toList := by
  refine ⟨by decide, by decide, .inr ⟨"b".toList, by decide, by decide⟩⟩
example : Mapper.srcToDst [⟨"http://h/a".toList, "/x".toList⟩, ⟨"http://h".toList, "/y".toList⟩]
    "http://h/a/1".toList = .ok "/x/1".toList := by decide
example : Mapper.srcToDst [⟨"http://h/a".toList, "/x".toList⟩, ⟨"http://h".toList, "/y".toList⟩]
    "http://h/b/1".toList = .ok "/y/b/1".toList := by decide
example : Mapper.srcToDst [⟨"http://h/a".toList, "/x".toList⟩] "http://h/ab".toList
    = .error .mapper := by decide
example : LiteralOrDot "http://example.org/a".toList := by decide
-- two sites with host names, and a URI of the second one: the conditions of the theorems with dots
example : ∀ m ∈ ([⟨"http://a.org/x".toList, "/x.d".toList⟩, ⟨"http://b.org/x".toList, "/y.d".toList⟩] : Mapper),
    DotCovers m.src_uri "http://b.org/x/1".toList →
      ∃ o, Translates m.src_uri m.dst_path "http://b.org/x/1".toList o := by
  intro m hm
  simp only [List.mem_cons, List.not_mem_nil, or_false] at hm
  rcases hm with rfl | rfl
  · intro h
    have h0 := (translate_none_iff_dot (repl := []) (by decide) (by decide)).not.mpr (not_not.mpr h)
    exact absurd (by decide) h0
  · exact fun _ => ⟨_, .inr ⟨"1".toList, by decide, rfl⟩⟩
example : Mapper.srcToDst [⟨"http://a.org/x".toList, "/x.d".toList⟩, ⟨"http://b.org/x".toList, "/y.d".toList⟩]
    "http://b.org/x/1".toList = .ok "/y.d/1".toList := by decide

/-! ## C02 disk and back -/

/-- A URI strictly below a mapped base, translated to a path, translates back to itself, provided
no earlier mapping has a destination that covers that path. -/
theorem C02_round_trip_partial (pre post : Mapper) (m : Map) (t : Str)
    (hsrc : ∀ m' ∈ pre ++ [m], LiteralOrDot m'.src_uri)
    (hdst : ∀ m' ∈ pre ++ [m], LiteralOrDot m'.dst_path)
    (hu : OneLine (m.src_uri ++ '/' :: t)) (hd : OneLine m.dst_path)
    (hfirst : ∀ m' ∈ pre, ¬ DotCovers m'.src_uri (m.src_uri ++ '/' :: t))
    (hback : ∀ m' ∈ pre, ¬ DotCovers m'.dst_path (m.dst_path ++ '/' :: t)) :
    ∃ path, Mapper.srcToDst (pre ++ m :: post) (m.src_uri ++ '/' :: t) = .ok path ∧
      Mapper.dstToSrc (pre ++ m :: post) path = .ok (m.src_uri ++ '/' :: t) := by
  refine ⟨m.dst_path ++ '/' :: t, ?_, ?_⟩
  · clear hback hdst
    induction pre with
    | nil =>
      have := translate_of_translates (repl := m.dst_path) (hsrc m (by simp)) hu (.inr ⟨t, rfl, rfl⟩)
      simp [Mapper.srcToDst, Map.srcToDst, this]
    | cons p ps ih =>
      have hp : p.srcToDst (m.src_uri ++ '/' :: t) = .ok none :=
        (translate_none_iff_dot (hsrc p (by simp)) hu).mpr (hfirst p (by simp))
      simp only [List.cons_append, Mapper.srcToDst, hp]
      exact ih (fun m' h => hsrc m' (by simp at h ⊢; tauto)) (fun m' h => hfirst m' (by simp [h]))
  · have hu' : OneLine (m.dst_path ++ '/' :: t) :=
      oneLine_append.mpr ⟨hd, (oneLine_append.mp hu).2⟩
    clear hfirst hsrc
    induction pre with
    | nil =>
      have := translate_of_translates (repl := m.src_uri) (hdst m (by simp)) hu' (.inr ⟨t, rfl, rfl⟩)
      simp [Mapper.dstToSrc, Map.dstToSrc, this]
    | cons p ps ih =>
      have hp : p.dstToSrc (m.dst_path ++ '/' :: t) = .ok none :=
        (translate_none_iff_dot (hdst p (by simp)) hu').mpr (hback p (by simp))
      simp only [List.cons_append, Mapper.dstToSrc, hp]
      exact ih (fun m' h => hdst m' (by simp at h ⊢; tauto)) (fun m' h => hback m' (by simp [h]))

/-- The single-mapping case, the one the command line produces most often. -/
theorem C02_round_trip_single_partial (m : Map) (t : Str) (hsrc : LiteralOrDot m.src_uri)
    (hdst : LiteralOrDot m.dst_path) (hu : OneLine (m.src_uri ++ '/' :: t)) (hd : OneLine m.dst_path) :
    ∃ path, Mapper.srcToDst [m] (m.src_uri ++ '/' :: t) = .ok path ∧
      Mapper.dstToSrc [m] path = .ok (m.src_uri ++ '/' :: t) :=
  C02_round_trip_partial [] [] m t (by simpa using hsrc) (by simpa using hdst) hu hd (by simp) (by simp)

/-- Conversely a scanned file below a destination goes to a URI that maps back to the file. -/
theorem C02_round_trip_file_partial (m : Map) (t : Str) (hsrc : LiteralOrDot m.src_uri)
    (hdst : LiteralOrDot m.dst_path) (hu : OneLine (m.dst_path ++ '/' :: t)) (hs : OneLine m.src_uri) :
    ∃ uri, Mapper.dstToSrc [m] (m.dst_path ++ '/' :: t) = .ok uri ∧
      Mapper.srcToDst [m] uri = .ok (m.dst_path ++ '/' :: t) := by
  refine ⟨m.src_uri ++ '/' :: t, ?_, ?_⟩
  · have := translate_of_translates (repl := m.src_uri) hdst hu (.inr ⟨t, rfl, rfl⟩)
    simp [Mapper.dstToSrc, Map.dstToSrc, this]
  · have hu' : OneLine (m.src_uri ++ '/' :: t) :=
      oneLine_append.mpr ⟨hs, (oneLine_append.mp hu).2⟩
    have := translate_of_translates (repl := m.dst_path) hsrc hu' (.inr ⟨t, rfl, rfl⟩)
    simp [Mapper.srcToDst, Map.srcToDst, this]

example : LiteralOrDot "http://example.org/a".toList ∧ LiteralOrDot "/tmp/a.b".toList ∧
    OneLine ("http://example.org/a".toList ++ '/' :: "r/1.html".toList) ∧ OneLine "/tmp/a.b".toList := by
  decide
example : Mapper.srcToDst [⟨"http://example.org/a".toList, "/tmp/a.b".toList⟩]
    "http://example.org/a/r/1.html".toList = .ok "/tmp/a.b/r/1.html".toList ∧
    Mapper.dstToSrc [⟨"http://example.org/a".toList, "/tmp/a.b".toList⟩]
    "/tmp/a.b/r/1.html".toList = .ok "http://example.org/a/r/1.html".toList := by decide

/-- A directory name with a plus sign: the URI is translated to a path in that directory, and the
path is then not recognised, so the file just written is not part of the next disk scan. -/
theorem C02_violated :
    ∃ (m : Map) (t path : Str), OneLine (m.src_uri ++ '/' :: t) ∧ OneLine m.dst_path ∧
      Mapper.srcToDst [m] (m.src_uri ++ '/' :: t) = .ok path ∧
      Mapper.dstToSrc [m] path = .error .mapper :=
  ⟨⟨"http://h/c".toList, "/data/c+".toList⟩, "1".toList, "/data/c+/1".toList, by decide, by decide,
    by decide, by decide⟩

/-! ## C03 bases are literal text – violated -/

/-- For bases without any regular expression syntax, only URIs that literally start with the base
are translated.  (Partial: real bases contain '.', for which the claim is false, see
`C03_violated`.) -/
theorem C03_literal_base_partial (m : Map) (uri out : Str) (hb : Literal m.src_uri)
    (hu : OneLine uri) (h : m.srcToDst uri = .ok (some out)) : m.src_uri <+: uri := by
  rcases (C01_map_src_to_dst_partial m uri out hb hu).mp h with ⟨rfl, _⟩ | ⟨t, rfl, _⟩
  · exact List.prefix_refl _
  · exact List.prefix_append _ _

/-- With dots in the base, the URI agrees with the base up to characters at the dots. -/
theorem C03_dot_base_partial (m : Map) (uri out : Str) (hb : LiteralOrDot m.src_uri)
    (hu : OneLine uri) (h : m.srcToDst uri = .ok (some out)) : DotCovers m.src_uri uri := by
  obtain ⟨p, rest, e, hd, hr⟩ := (translate_iff_dot hb hu).mp h
  refine ⟨p, rest, e, hd, ?_⟩
  rcases hr with ⟨rfl, _⟩ | ⟨t, rfl, _⟩
  · exact .inl rfl
  · exact .inr ⟨t, rfl⟩

/-- The full claim is false of the code: the base is used as a regular expression, so a URI on
a different host is accepted. -/
theorem C03_violated : ¬ ∀ (m : Map) (uri out : Str), OneLine uri →
    m.srcToDst uri = .ok (some out) → m.src_uri <+: uri := by
  intro h
  have := h (Map.new "http://a.org".toList "/tmp".toList) "http://aXorg/b".toList
    "/tmp/b".toList (by decide) (by decide)
  revert this; decide

/-- Also a URI which does literally start with its base can fail to be translated. -/
theorem C03_violated_not_recognised : ¬ ∀ (m : Map) (uri out : Str), OneLine uri →
    Translates m.src_uri m.dst_path uri out → m.srcToDst uri = .ok (some out) := by
  intro h
  have := h (Map.new "http://a/c++".toList "/tmp".toList) "http://a/c++/b".toList
    "/tmp/b".toList (by decide) (.inr ⟨"b".toList, by decide, by decide⟩)
  revert this; decide

/-! ## C04 trailing slashes – violated for two or more -/

/-- One trailing slash on either base makes no difference. (Partial: exactly one slash.) -/
theorem C04_one_trailing_slash_partial (s d : Str) (hs : OneLine s) (hd : OneLine d)
    (hs' : ∀ u, s ≠ u ++ ['/']) (hd' : ∀ u, d ≠ u ++ ['/']) :
    Map.new (s ++ ['/']) (d ++ ['/']) = Map.new s d ∧
    Map.new (s ++ ['/']) d = Map.new s d ∧ Map.new s (d ++ ['/']) = Map.new s d := by
  simp [Map.new, strip_of_slash hs, strip_of_slash hd, strip_of_no_slash hs hs',
    strip_of_no_slash hd hd']

/-- What the code does with any number of slashes: exactly one is removed. -/
theorem C04_removes_exactly_one (s : Str) (n : Nat) (hs : OneLine s) :
    (Map.new (s ++ List.replicate (n + 1) '/') []).src_uri = s ++ List.replicate n '/' := by
  have h : OneLine (s ++ List.replicate n '/') := by
    rw [oneLine_append]; refine ⟨hs, ?_⟩
    simp [OneLine, List.mem_replicate]
  have := strip_of_slash h
  simp only [Map.new]
  rw [List.replicate_succ', ← List.append_assoc, this]

/-- The claim for all numbers of slashes is false: with two slashes the resources under the base
are no longer mapped. -/
theorem C04_violated : ¬ ∀ (s d uri : Str) (n : Nat), OneLine s → OneLine d → OneLine uri →
    (Map.new (s ++ List.replicate n '/') d).srcToDst uri = (Map.new s d).srcToDst uri := by
  intro h
  have := h "http://h".toList "/tmp".toList "http://h/a".toList 2 (by decide) (by decide) (by decide)
  revert this; decide

example : (∀ u, "http://h".toList ≠ u ++ ['/']) := by
  intro u h
  have := congrArg List.getLast? h
  simp at this

/-! ## C05 duplicate mappings are rejected – violated with trailing slashes -/

/-- no trailing slash on any part of the argument -/
def NoTrailingSlash (arg : Str) : Prop :=
  ∀ piece ∈ splitOn '=' arg, OneLine piece ∧ ∀ u, piece ≠ u ++ ['/']

theorem parseEntries_distinct (ms : Mapper) (args : List Str) (out : Mapper)
    (h : parseEntries ms args = .ok out) (hargs : ∀ a ∈ args, NoTrailingSlash a)
    (hms : ms.Pairwise (fun a b => a.src_uri ≠ b.src_uri ∧ a.dst_path ≠ b.dst_path)) :
    out.Pairwise (fun a b => a.src_uri ≠ b.src_uri ∧ a.dst_path ≠ b.dst_path) := by
  induction args generalizing ms with
  | nil => simp [parseEntries] at h; subst h; exact hms
  | cons a as ih =>
    simp only [parseEntries] at h
    split at h
    · rename_i src dst hsplit
      split at h
      · simp at h
      · rename_i hany
        apply ih _ h (fun b hb => hargs b (by simp [hb]))
        rw [List.pairwise_append]
        refine ⟨hms, by simp, ?_⟩
        intro m hm b hb
        have hb' : b = Map.new src dst := by simpa using hb
        subst hb'
        have hA := hargs a (by simp)
        have h1 := hA src (by simp [hsplit])
        have h2 := hA dst (by simp [hsplit])
        simp only [Map.new, strip_of_no_slash h1.1 h1.2, strip_of_no_slash h2.1 h2.2]
        simp only [List.any_eq_true, not_exists, not_and, Bool.or_eq_true, decide_eq_true_eq,
          not_or] at hany
        have := hany m hm
        exact ⟨fun e => this.1 e.symm, fun e => this.2 e.symm⟩
    · simp at h

/-- Partial: no argument part ends in a slash. -/
theorem C05_no_duplicates_partial (uw : Char → Bool) (args : List Str) (udp : Bool) (ms : Mapper)
    (h : Mapper.parse uw args udp = .ok ms) (hargs : ∀ a ∈ args, NoTrailingSlash a) :
    ms.Pairwise (fun a b => a.src_uri ≠ b.src_uri ∧ a.dst_path ≠ b.dst_path) := by
  unfold Mapper.parse at h
  split at h
  · split at h
    · split at h
      · cases h; simp
      · cases h
    · exact parseEntries_distinct [] _ ms h hargs (by simp)
  · split at h
    · cases h; simp
    · exact parseEntries_distinct [] _ ms h hargs (by simp)
  · exact parseEntries_distinct [] _ ms h hargs (by simp)

/-- The full claim is false: a trailing slash hides a duplicate. -/
theorem C05_violated : ¬ ∀ (args : List Str) (ms : Mapper),
    Mapper.parse (fun _ => false) args false = .ok ms →
    ms.Pairwise (fun a b => a.src_uri ≠ b.src_uri ∧ a.dst_path ≠ b.dst_path) := by
  intro h
  have := h ["http://h=/x".toList, "http://h/=/y".toList]
    [⟨"http://h".toList, "/x".toList⟩, ⟨"http://h".toList, "/y".toList⟩] (by decide)
  revert this; decide

/-- Accepted arguments: exactly one '=' each, mappings in argument order. -/
theorem C05_order (args : List (Str × Str)) (ms : Mapper)
    (h : parseEntries [] (args.map (fun a => a.1 ++ '=' :: a.2)) = .ok ms)
    (heq : ∀ a ∈ args, '=' ∉ a.1 ∧ '=' ∉ a.2) :
    ms = args.map (fun a => Map.new a.1 a.2) := by
  suffices ∀ ms0, parseEntries ms0 (args.map (fun a => a.1 ++ '=' :: a.2)) = .ok ms →
      ms = ms0 ++ args.map (fun a => Map.new a.1 a.2) by simpa using this [] h
  clear h
  induction args with
  | nil => intro ms0 h; simp [parseEntries] at h; simp [h]
  | cons a as ih =>
    intro ms0 h
    have ha := heq a (by simp)
    simp only [List.map_cons, parseEntries, splitOn_append_sep, splitOn_of_not_mem ha.1,
      splitOn_of_not_mem ha.2, List.singleton_append] at h
    split at h
    · simp at h
    · rw [ih (fun b hb => heq b (by simp [hb])) _ h]; simp

example : Mapper.parse (fun _ => false) ["http://h/a=/x".toList, "http://h/b=/y".toList] false =
    .ok [⟨"http://h/a".toList, "/x".toList⟩, ⟨"http://h/b".toList, "/y".toList⟩] := by decide
example : Mapper.parse (fun _ => false) ["http://h/a=/x".toList, "http://h/a=/y".toList] false =
    .error .mapper := by decide

/-! ## C06 unsafe mappings are detected -/

/-- Both paths absolute (same number of leading slashes as `normpath` counts them) and local:
if the mapping is reported safe then neither directory contains the other.
(Partial: absolute paths.) -/
theorem C06_absolute_partial (m : Map) (cwd : List Str) (u : Url)
    (hloc : urlparse m.src_uri = some u) (hscheme : u.scheme = [])
    (habs : initialSlashes m.src_uri ≠ 0)
    (hsame : initialSlashes m.src_uri = initialSlashes m.dst_path)
    (h : m.isUnsafe = .ok false) :
    ¬ Within (location cwd m.src_uri) (location cwd m.dst_path) ∧
    ¬ Within (location cwd m.dst_path) (location cwd m.src_uri) := by
  simp only [Map.isUnsafe, hloc, hscheme, ne_eq, not_true_eq_false, if_false] at h
  simp only [Except.ok.injEq, Bool.or_eq_false_iff, decide_eq_false_iff_not] at h
  rw [commonPrefix_eq_left, commonPrefix_comm, commonPrefix_eq_left] at h
  have h1 := normpath_abs cwd habs
  have h2 := normpath_abs cwd (hsame ▸ habs)
  rw [h1, h2, ← hsame] at h
  constructor
  · intro hw
    exact h.1 ((List.prefix_append_right_inj _).mpr (join_prefix hw))
  · intro hw
    exact h.2 ((List.prefix_append_right_inj _).mpr (join_prefix hw))

/-- Both paths relative without '..' and neither the current directory itself. (Partial.) -/
theorem C06_relative_partial (m : Map) (cwd : List Str) (u : Url)
    (hloc : urlparse m.src_uri = some u) (hscheme : u.scheme = [])
    (hs : initialSlashes m.src_uri = 0) (hd : initialSlashes m.dst_path = 0)
    (hs2 : ['.', '.'] ∉ splitOn '/' m.src_uri) (hd2 : ['.', '.'] ∉ splitOn '/' m.dst_path)
    (hs3 : location cwd m.src_uri ≠ cwd) (hd3 : location cwd m.dst_path ≠ cwd)
    (h : m.isUnsafe = .ok false) :
    ¬ Within (location cwd m.src_uri) (location cwd m.dst_path) ∧
    ¬ Within (location cwd m.dst_path) (location cwd m.src_uri) := by
  simp only [Map.isUnsafe, hloc, hscheme, ne_eq, not_true_eq_false, if_false] at h
  simp only [Except.ok.injEq, Bool.or_eq_false_iff, decide_eq_false_iff_not] at h
  rw [commonPrefix_eq_left, commonPrefix_comm, commonPrefix_eq_left] at h
  obtain ⟨ns, e1, n1⟩ := normpath_rel cwd hs hs2
  obtain ⟨ds, e2, n2⟩ := normpath_rel cwd hd hd2
  have hns : ns ≠ [] := by rintro rfl; simp at e1; exact hs3 e1
  have hds : ds ≠ [] := by rintro rfl; simp at e2; exact hd3 e2
  rw [n1 hns, n2 hds] at h
  rw [e1, e2]
  constructor
  · intro hw; exact h.1 (join_prefix ((List.prefix_append_right_inj _).mp hw))
  · intro hw; exact h.2 (join_prefix ((List.prefix_append_right_inj _).mp hw))

/-- The whole mapper: reported safe means every mapping is reported safe. -/
theorem C06_mapper (ms : Mapper) (h : Mapper.isUnsafe ms = .ok false) :
    ∀ m ∈ ms, m.isUnsafe = .ok false := by
  induction ms with
  | nil => simp
  | cons m ms ih =>
    simp only [Mapper.isUnsafe] at h
    split at h
    · cases h
    · cases h
    · rename_i hm
      intro m' hm'
      rcases List.mem_cons.mp hm' with rfl | hm'
      · exact hm
      · exact ih h m' hm'

/-- The full claim is false: source "." and a destination below it are reported safe, as are
an absolute and a relative spelling of the same directory. -/
theorem C06_violated : ¬ ∀ (m : Map) (cwd : List Str), m.isUnsafe = .ok false →
    (∃ u, urlparse m.src_uri = some u ∧ u.scheme = []) →
    ¬ Within (location cwd m.src_uri) (location cwd m.dst_path) := by
  intro h
  have := h (Map.new ".".toList "x".toList) ["w".toList] (by decide)
    ⟨⟨[], [], ".".toList, [], [], []⟩, by decide, rfl⟩
  revert this; decide

theorem C06_violated_absolute_vs_relative : ¬ ∀ (m : Map) (cwd : List Str),
    m.isUnsafe = .ok false → (∃ u, urlparse m.src_uri = some u ∧ u.scheme = []) →
    location cwd m.src_uri ≠ location cwd m.dst_path := by
  intro h
  have := h (Map.new "/w/x".toList "x".toList) ["w".toList] (by decide)
    ⟨⟨[], [], "/w/x".toList, [], [], []⟩, by decide, rfl⟩
  revert this; decide

/-- The same directory with an equal spelling is always reported unsafe. -/
theorem C06_same_path_unsafe (p : Str) (u : Url) (hloc : urlparse p = some u)
    (hscheme : u.scheme = []) : (⟨p, p⟩ : Map).isUnsafe = .ok true := by
  have : normpath p = commonPrefix (normpath p) (normpath p) :=
    commonPrefix_eq_left.mpr (List.prefix_refl _)
  simp [Map.isUnsafe, hloc, hscheme, ← this]

example : (Map.new "/data/a".toList "/data/b/".toList).isUnsafe = .ok false ∧
    initialSlashes "/data/a".toList = initialSlashes "/data/b".toList ∧
    initialSlashes "/data/a".toList ≠ 0 := by decide
example : (Map.new "a/b".toList "a/c".toList).isUnsafe = .ok false ∧
    location ["w".toList] "a/b".toList ≠ ["w".toList] := by decide
example : (Map.new "/data".toList "/data/x/..".toList).isUnsafe = .ok true := by decide

/-! ## C07 destination confinement – violated by '..' -/

/-- A covered URI whose remainder has no '..' component is placed inside the destination.
(Partial: no '..' component.) -/
theorem C07_confined_partial (m : Map) (uri path : Str) (cwd : List Str)
    (hb : LiteralOrDot m.src_uri) (hu : OneLine uri)
    (h : m.srcToDst uri = .ok (some path)) (hdd : ['.', '.'] ∉ splitOn '/' uri) :
    Within (location cwd (m.dst_path ++ ['/'])) (location cwd path) := by
  obtain ⟨p, rest, rfl, hd, hr⟩ := (translate_iff_dot hb hu).mp h
  rcases hr with ⟨rfl, rfl⟩ | ⟨t, rfl, rfl⟩
  · exact List.prefix_refl _
  · rw [location_append (t := t)]
    refine walkFrom_noDotDot _ ?_
    intro hmem
    apply hdd
    rw [splitOn_append_sep]
    exact List.mem_append.mpr (.inr hmem)

/-- The full claim is false: a source can name files outside the destination. -/
theorem C07_violated : ¬ ∀ (m : Map) (uri path : Str) (cwd : List Str), OneLine uri →
    m.srcToDst uri = .ok (some path) →
    Within (location cwd (m.dst_path ++ ['/'])) (location cwd path) := by
  intro h
  have := h (Map.new "http://h".toList "/home/me/copy".toList) "http://h/../.bashrc".toList
    "/home/me/copy/../.bashrc".toList [] (by decide) (by decide)
  revert this; decide

example : (Map.new "http://h".toList "/home/me".toList).srcToDst "http://h/a..b/c".toList
    = .ok (some "/home/me/a..b/c".toList) ∧ ['.', '.'] ∉ splitOn '/' "http://h/a..b/c".toList := by
  decide

/-! ## C08 default path is a safe name -/

theorem mem_collapse {c : Char} {s : Str} (h : c ∈ collapseUnderscores s) : c ∈ s := by
  induction s with
  | nil => simp [collapseUnderscores] at h
  | cons a t ih =>
    cases t with
    | nil => simpa [collapseUnderscores] using h
    | cons b u =>
      simp only [collapseUnderscores] at h
      split at h
      · exact List.mem_cons_of_mem _ (ih h)
      · rcases List.mem_cons.mp h with rfl | h
        · simp
        · exact List.mem_cons_of_mem _ (ih h)

theorem stripStart_head {s : Str} : ∀ c t, stripStart s = c :: t → c ≠ '_' ∧ c ≠ '.' := by
  intro c t h
  induction s with
  | nil => simp [stripStart] at h
  | cons a u ih =>
    simp only [stripStart, List.dropWhile_cons] at h ih
    split at h
    · exact ih h
    · rename_i hn
      injection h with h1 h2
      subst h1
      constructor <;> rintro rfl <;> simp [isUnderscoreDot] at hn

theorem stripEnd_last {s : Str} : ∀ c t, stripEnd s = t ++ [c] → c ≠ '_' ∧ c ≠ '.' := by
  intro c t h
  have : stripStart s.reverse = c :: t.reverse := by
    have := congrArg List.reverse h
    simpa [stripEnd, stripStart] using this
  exact stripStart_head c _ this

theorem stripStart_suffix (s : Str) : stripStart s <:+ s := by
  unfold stripStart; exact List.dropWhile_suffix _

theorem stripEnd_prefix (s : Str) : stripEnd s <+: s := by
  have h := stripStart_suffix s.reverse
  have h2 := List.reverse_prefix.mpr h
  simpa [stripEnd, stripStart] using h2

/-- A URI with a network location gives a name made of word characters, '-' and '.', without '/',
not starting or ending with '.' or '_'. -/
theorem C08_safe_name (uw : Char → Bool) (uri name : Str) (u : Url)
    (hu : urlparse uri = some u) (hn : u.netloc ≠ [])
    (h : pathFromUri uw uri = .ok name) :
    (∀ c ∈ name, isWord uw c ∨ c = '-' ∨ c = '.') ∧ '/' ∉ name ∧
    (∀ c t, name = c :: t → c ≠ '_' ∧ c ≠ '.') ∧ (∀ c t, name = t ++ [c] → c ≠ '_' ∧ c ≠ '.') := by
  simp only [pathFromUri, hu, hn, if_false, Except.ok.injEq] at h
  subst h
  have hchars : ∀ c ∈ stripStart (stripEnd (collapseUnderscores (List.map
      (fun c => if isWord uw c || c == '-' || c == '.' then c else '_')
      (join ['/'] [u.netloc, u.path])))), isWord uw c ∨ c = '-' ∨ c = '.' := by
    intro c hc
    have h1 := (stripStart_suffix _).subset hc
    have h2 := (stripEnd_prefix _).subset h1
    have h3 := mem_collapse h2
    obtain ⟨d, _, rfl⟩ := List.mem_map.mp h3
    split
    · rename_i hw
      simp only [Bool.or_eq_true, beq_iff_eq] at hw
      tauto
    · left; simp [isWord, isWordAscii]
  refine ⟨hchars, ?_, fun c t h => stripStart_head c t h, ?_⟩
  · intro hs
    have := hchars _ hs
    simp [isWord, isWordAscii, isAsciiAlpha, isDigit] at this
  · intro c t ht
    obtain ⟨v, hv⟩ := stripStart_suffix (stripEnd (collapseUnderscores (List.map
      (fun c => if isWord uw c || c == '-' || c == '.' then c else '_')
      (join ['/'] [u.netloc, u.path]))))
    rw [ht] at hv
    exact stripEnd_last c (v ++ t) (by rw [← hv, List.append_assoc])

/-- A URI without network location (a local path) is used as it is. -/
theorem C08_local_path (uw : Char → Bool) (uri : Str) (u : Url)
    (hu : urlparse uri = some u) (hn : u.netloc = []) : pathFromUri uw uri = .ok uri := by
  simp [pathFromUri, hu, hn]

example : pathFromUri (fun _ => false) "http://example.org/a b/../c/".toList =
    .ok "example.org_a_b_.._c".toList := by decide
example : urlparse "http://example.org/a b".toList =
    some ⟨"http".toList, "example.org".toList, "/a b".toList, [], [], []⟩ := by decide

end Resync
