import Verif.Spec.ClientWrite
import Verif.Proofs.Scan
import Verif.Props.Builder
import Verif.Props.AnyTime
import Verif.Props.Mapper
/-
Lemmas about building and writing a resource list.
-/

namespace Resync
open Py Resync.Spec

theorem compileExcludes_ok {ps : List Str} (h : ∀ p ∈ ps, ∃ re, compile p = .ok re) :
    ∃ ex, compileExcludes ps = .ok ex ∧ ∀ r, r ∈ ex ↔ ∃ p ∈ ps, compile p = .ok r := by
  induction ps with
  | nil => exact ⟨[], rfl, by simp⟩
  | cons p t ih =>
    obtain ⟨ex, h1, h2⟩ := ih (fun q hq => h q (by simp [hq]))
    obtain ⟨re, hre⟩ := h p (by simp)
    refine ⟨re :: ex, ?_, ?_⟩
    · rw [compileExcludes, hre]; simp only [h1, ebind_ok]; rfl
    · intro r
      rw [List.mem_cons, h2]
      constructor
      · rintro (rfl | ⟨q, hq, h⟩)
        · exact ⟨p, by simp, hre⟩
        · exact ⟨q, by simp [hq], h⟩
      · rintro ⟨q, hq, hc⟩
        rcases List.mem_cons.mp hq with rfl | hq
        · rw [hre] at hc; exact .inl (Except.ok.inj hc).symm
        · exact .inr ⟨q, hq, hc⟩

theorem addAll_WF {b : Builder} {lib : HashLib} (l : List (Str × FNode)) : ∀ {rl rl' : Dict Resource}, WF rl →
    b.addAll lib rl l = .ok rl' → WF rl' := by
  unfold Builder.addAll
  induction l with
  | nil =>
    intro rl rl' h0 h
    simp only [List.foldlM_nil, epure, Except.ok.injEq] at h
    rw [← h]; exact h0
  | cons p ps ih =>
    intro rl rl' h0 h
    simp only [List.foldlM_cons, bind_ok_iff] at h
    obtain ⟨rl1, h1, h2⟩ := h
    refine ih ?_ h2
    rcases addFile_inv h1 with rfl | ⟨path, uri, st, e1, e2, e3, e4, e5, -⟩
    · exact h0
    · rw [e5]; exact WF_dset h0 (describes b lib uri path st)

theorem fromDisk_WF {b : Builder} {lib : HashLib} {disk : Disk} (paths : List Str) : ∀ {rl rl' : Dict Resource}, WF rl →
    b.fromDisk lib disk rl (some paths) = .ok rl' → WF rl' := by
  unfold Builder.fromDisk
  simp only
  induction paths with
  | nil =>
    intro rl rl' h0 h
    simp only [List.foldlM_nil, epure, Except.ok.injEq] at h
    rw [← h]; exact h0
  | cons p ps ih =>
    intro rl rl' h0 h
    simp only [List.foldlM_cons, bind_ok_iff] at h
    obtain ⟨rl1, h1, h2⟩ := h
    refine ih ?_ h2
    unfold Builder.addPath at h1
    split at h1
    · split at h1
      · exact addAll_WF _ h0 h1
      · cases h1; exact h0
    · rcases addFile_inv h1 with rfl | ⟨path, uri, st, e1, e2, e3, e4, e5, -⟩
      · exact h0
      · rw [e5]; exact WF_dset h0 (describes b lib uri path st)

/-- the builder that build_resource_list makes -/
def clientBuilder (c : WriteCfg) (ex : List Re) (set_path : Bool) : Builder :=
  { Builder.new c.mapper (some c.hashes) true false with set_path := set_path, excludes := ex }

theorem eligible_congr {p q : Str → Prop} (h : ∀ x, p x ↔ q x) {cs : List FNode} {names : List Str} {st : Stat} :
    Eligible p cs names st ↔ Eligible q cs names st := by
  unfold Eligible; simp only [h]

theorem build_site {c : WriteCfg} {env : WriteEnv} {m : Map} {cs : List FNode} (site : Site c env m cs) (set_path : Bool) :
    ∃ rl ex, buildResourceList c env none set_path = .ok rl ∧ WF rl.dict ∧ iterAll rl.dict = .ok rl.obj.resources ∧
      rl.obj = { resources := rl.obj.resources, md := scanTimes env, capability_name := some "resourcelist".toList,
                 allow_multifile := c.allow_multifile, mapper := some c.mapper,
                 max_sitemap_entries := some (c.max_sitemap_entries.getD 50000) } ∧
      ∀ u r, dget rl.dict u = some r ↔ ∃ names st, Eligible (ExcludedBy c) cs names st ∧ u = siteUri m names ∧
        r = describes (clientBuilder c ex set_path) env.lib u (m.dst_path ++ '/' :: join ['/'] names) st := by
  obtain ⟨ex, hex, hmem⟩ := compileExcludes_ok site.patterns
  obtain ⟨nm, hdir⟩ := site.dir
  have hxc : ∀ x, Excluded (clientBuilder c ex set_path) x ↔ ExcludedBy c x := by
    intro x
    constructor
    · rintro ⟨re, hre, h⟩
      obtain ⟨p, hp, hc⟩ := (hmem re).mp hre
      exact ⟨p, hp, re, hc, h⟩
    · rintro ⟨p, hp, re, hc, h⟩
      exact ⟨re, (hmem re).mpr ⟨p, hp, hc⟩, h⟩
  have hh : ∀ hs, (clientBuilder c ex set_path).set_hashes = some hs → hs = c.hashes ∧ c.hashes ≠ [] := by
    intro hs h
    unfold clientBuilder Builder.new at h
    simp only at h
    split at h
    · rename_i a t he
      cases h
      simp only [Option.some.injEq] at he
      rw [he]; exact ⟨rfl, by simp⟩
    · cases h
  obtain ⟨d, h1, h2⟩ := C42_one_mapping (clientBuilder c ex set_path) env.lib env.disk m nm cs site.mapper rfl site.dst_literal
    site.dst_ne site.dst_slash site.dst_line hdir site.real (fun names n h x hx => (site.names names n h x hx).1)
    (by
      intro hs h
      obtain ⟨rfl, hne⟩ := hh hs h
      refine ⟨site.hash_types, ?_⟩
      rintro names st ⟨⟨nm, sp, hr⟩, -⟩
      exact site.readable hne names nm sp st hr)
  have hwf : WF d := fromDisk_WF _ WF_nil (by
    have : (clientBuilder c ex set_path).fromDisk env.lib env.disk =
      (clientBuilder c ex set_path).fromDisk env.lib env.disk [] (some ((clientBuilder c ex set_path).mapper.map Map.dst_path)) := rfl
    rw [this] at h1; exact h1)
  have hit := iterAll_listing d
  let l : LBI := { resources := listing d, md := scanTimes env, capability_name := some "resourcelist".toList,
                   allow_multifile := c.allow_multifile, mapper := some c.mapper,
                   max_sitemap_entries := some (c.max_sitemap_entries.getD 50000) }
  refine ⟨ListObj.mk d l, ex, ?_, hwf, hit, ?_, ?_⟩
  rotate_left
  · rfl
  · intro u r
    rw [h2]
    simp only [eligible_congr hxc]
    rfl
  · unfold buildResourceList
    rw [if_neg (by rw [site.mapper]; simp), hex]
    simp only
    have : ({ Builder.new c.mapper (some c.hashes) true false with set_path := set_path, excludes := ex } : Builder) =
      clientBuilder c ex set_path := rfl
    rw [this, show Option.map (splitOn ',') none = none from rfl, h1]
    simp only [hit]
    rfl

theorem endsWith_below (d f t : Str) (h : '/' ∉ t) : endsWith (d ++ '/' :: f) t = endsWith f t := by
  have key : t <:+ d ++ '/' :: f ↔ t <:+ f := by
    constructor
    · intro hs
      have h2 : '/' :: f <:+ d ++ '/' :: f := List.suffix_append _ _
      by_cases hl : t.length ≤ f.length
      · exact List.suffix_of_suffix_length_le hs ((List.suffix_cons _ _).trans h2) hl
      · have := List.suffix_of_suffix_length_le h2 hs (by simp only [List.length_cons]; omega)
        exact absurd (this.subset (by simp)) h
    · intro hs
      exact hs.trans ((List.suffix_cons _ _).trans (List.suffix_append _ _))
  unfold endsWith
  rw [Bool.eq_iff_iff, List.isSuffixOf_iff_suffix, List.isSuffixOf_iff_suffix]
  exact key

theorem partName_below (d f : Str) (i : Nat) : partName (d ++ '/' :: f) i = d ++ '/' :: partName f i := by
  unfold partName
  rw [endsWith_below d f _ (by decide)]
  split
  · rename_i h
    unfold endsWith at h
    rw [List.isSuffixOf_iff_suffix] at h
    have hl := h.length_le
    have e4 : (".xml".toList).length = 4 := rfl
    rw [e4] at hl
    have : (d ++ '/' :: f).take ((d ++ '/' :: f).length - 4) = d ++ '/' :: f.take (f.length - 4) := by
      rw [List.take_append, List.length_append, List.length_cons]
      rw [List.take_of_length_le (by omega)]
      rw [show d.length + (f.length + 1) - 4 - d.length = (f.length - 4) + 1 by omega, List.take_succ_cons]
    rw [this]; simp
  · simp

theorem mem_partName {f : Str} {i : Nat} {x : Char} (h : x ∈ partName f i) :
    x ∈ f ∨ isDigit x = true ∨ x ∈ ".xml".toList := by
  unfold partName at h
  split at h
  · rw [List.mem_append, List.mem_append] at h
    rcases h with (h | h) | h
    · exact .inl (List.mem_of_mem_take h)
    · exact .inr (.inl (natPad_digits _ _ _ h))
    · exact .inr (.inr h)
  · rw [List.mem_append, List.mem_append] at h
    rcases h with (h | h) | h
    · exact .inl h
    · exact .inr (.inl (natPad_digits _ _ _ h))
    · exact .inr (.inr h)

theorem textOk_partName {f : Str} (h : TextOk f) (i : Nat) : TextOk (partName f i) := by
  obtain ⟨h1, h2, h3⟩ := h
  refine ⟨?_, ?_, ?_⟩
  · intro hx
    rcases mem_partName hx with h | h | h
    · exact h1 h
    · revert h; decide
    · revert h; decide
  · intro x hx
    rcases mem_partName hx with h | h | h
    · exact h2 x h
    · exact xmlChar_digit h
    · exact (show ∀ x ∈ ".xml".toList, isXmlChar x = true by decide) x h
  · intro hx
    rcases mem_partName hx with h | h | h
    · exact h3 h
    · revert h; decide
    · revert h; decide

theorem site_dstToSrc {c : WriteCfg} {env : WriteEnv} {m : Map} {cs : List FNode} (site : Site c env m cs) {f : Str}
    (hf : OneLine f) : c.mapper.dstToSrc (m.dst_path ++ '/' :: f) = .ok (m.src_uri ++ '/' :: f) := by
  have hu : OneLine (m.dst_path ++ '/' :: f) := oneLine_append.mpr ⟨site.dst_line, by
    intro h; rcases List.mem_cons.mp h with h | h
    · exact absurd h (by decide)
    · exact hf h⟩
  have := translate_of_translates (repl := m.src_uri) site.dst_literal hu (.inr ⟨f, rfl, rfl⟩)
  simp [site.mapper, Mapper.dstToSrc, Map.dstToSrc, this]

theorem site_srcToDst {c : WriteCfg} {env : WriteEnv} {m : Map} {cs : List FNode} (site : Site c env m cs) {f : Str}
    (hf : OneLine f) : c.mapper.srcToDst (m.src_uri ++ '/' :: f) = .ok (m.dst_path ++ '/' :: f) := by
  have hu : OneLine (m.src_uri ++ '/' :: f) := oneLine_append.mpr ⟨site.src_line, by
    intro h; rcases List.mem_cons.mp h with h | h
    · exact absurd h (by decide)
    · exact hf h⟩
  have := translate_of_translates (repl := m.dst_path) site.src_literal hu (.inr ⟨f, rfl, rfl⟩)
  simp [site.mapper, Mapper.srcToDst, Map.srcToDst, this]

theorem textOk_append {a b : Str} (ha : TextOk a) (hb : TextOk b) : TextOk (a ++ b) := by
  refine ⟨oneLine_append.mpr ⟨ha.1, hb.1⟩, ?_, ?_⟩
  · intro x hx
    rcases List.mem_append.mp hx with h | h
    · exact ha.2.1 x h
    · exact hb.2.1 x h
  · rw [List.mem_append]; exact fun h => h.elim ha.2.2 hb.2.2

theorem textOk_cons {b : Str} (hb : TextOk b) : TextOk ('/' :: b) :=
  textOk_append (a := ['/']) ⟨by unfold OneLine; decide, by unfold XmlOk; decide, by decide⟩ hb

theorem textOk_join {names : List Str} (h : ∀ x ∈ names, TextOk x) : TextOk (join ['/'] names) := by
  induction names with
  | nil => exact ⟨by unfold OneLine; decide, by unfold XmlOk; decide, by decide⟩
  | cons a t ih =>
    cases t with
    | nil => simpa [join] using h a (by simp)
    | cons b t =>
      have : join ['/'] (a :: b :: t) = a ++ '/' :: join ['/'] (b :: t) := by simp [join]
      rw [this]
      exact textOk_append (h a (by simp)) (textOk_cons (ih (fun x hx => h x (by simp [hx]))))

theorem site_src {c : WriteCfg} {env : WriteEnv} {m : Map} {cs : List FNode} (site : Site c env m cs) : TextOk m.src_uri :=
  ⟨site.src_line, site.src_chars⟩

theorem site_mapsBack {c : WriteCfg} {env : WriteEnv} {m : Map} {cs : List FNode} (site : Site c env m cs) {f : Str}
    (hf : TextOk f) : MapsBack c.mapper (m.dst_path ++ '/' :: f) (m.src_uri ++ '/' :: f) := by
  have := textOk_append (site_src site) (textOk_cons hf)
  exact ⟨site_dstToSrc site hf.1, site_srcToDst site hf.1, by simp, this.2.1, this.2.2⟩

theorem describes_client (c : WriteCfg) (ex : List Re) (b : Bool) (lib : HashLib) (u path : Str) (st : Stat) :
    describes (clientBuilder c ex b) lib u path st =
      { uri := u, timestamp := some st.mtime, length := some st.size, path := if b then some path else none,
        md5 := if "md5".toList ∈ c.hashes then st.content.map lib.md5 else none,
        sha1 := if "sha-1".toList ∈ c.hashes then st.content.map lib.sha1 else none,
        sha256 := if "sha-256".toList ∈ c.hashes then st.content.map lib.sha256 else none } := by
  unfold describes clientBuilder Builder.new
  cases c.hashes with
  | nil => simp
  | cons a l => simp only [decide_eq_true_eq]; rfl

theorem site_expressible {c : WriteCfg} {env : WriteEnv} {m : Map} {cs : List FNode} (site : Site c env m cs) {ex : List Re}
    {names : List Str} {st : Stat} (h : Eligible (ExcludedBy c) cs names st) (path : Str) :
    Expressible (describes (clientBuilder c ex false) env.lib (siteUri m names) path st) := by
  obtain ⟨⟨nm, sp, hr⟩, -⟩ := h
  have hu : TextOk (siteUri m names) :=
    textOk_append (site_src site) (textOk_cons (textOk_join (fun x hx => site.names names _ hr x hx)))
  rw [describes_client]
  constructor
  · unfold timeless
    simp only
    refine ⟨?_, hu.2.1, hu.2.2, .inl rfl, ?_, ?_, ?_, ?_, ?_, ?_, ?_, ?_, ?_, ?_, ?_, ?_, ?_⟩
    · simp [siteUri]
    all_goals try (intro t ht; cases ht; done)
    · intro t ht
      simp only at ht
      split at ht
      · obtain ⟨b, -, rfl⟩ := Option.map_eq_some_iff.mp ht
        exact (site.digests b).1
      · cases ht
    · intro t ht
      simp only at ht
      split at ht
      · obtain ⟨b, -, rfl⟩ := Option.map_eq_some_iff.mp ht
        exact (site.digests b).2.1
      · cases ht
    · intro t ht
      simp only at ht
      split at ht
      · obtain ⟨b, -, rfl⟩ := Option.map_eq_some_iff.mp ht
        exact (site.digests b).2.2
      · cases ht
  · intro t ht
    simp only [reduceCtorEq, Option.some.injEq, or_false] at ht
    rw [← ht]
    exact site.times names nm sp st hr

theorem entryFor_recorded {c : WriteCfg} {lib : HashLib} {ex : List Re} {u path : Str} {st : Stat} {e : Resource}
    (h : RecordedNear false false (describes (clientBuilder c ex false) lib u path st) e) :
    e.uri = u ∧ EntryFor lib c.hashes st e := by
  obtain ⟨a, hn, hr⟩ := h
  have ht := hn.rest
  have ets := hn.timestamp
  have f : ∀ {α : Type} (g : Resource → α), (∀ r, g (timeless r) = g r) → g a =
      g (describes (clientBuilder c ex false) lib u path st) := by
    intro α g hg
    rw [← hg a, ht, hg]
  rw [describes_client] at ets f
  have hts : ∃ x, a.timestamp = some x := by
    cases hx : a.timestamp with
    | none => rw [hx] at ets; exact ets.elim
    | some x => exact ⟨x, rfl⟩
  obtain ⟨x, hx⟩ := hts
  refine ⟨?_, ?_, ?_, ?_, ?_, ?_, ?_⟩
  · rw [hr.uri, f (·.uri) (fun _ => rfl)]
  · rw [hr.timestamp, if_neg (by rw [hx]; simp)]; exact ets
  · intro hm
    rw [hr.timestamp, if_neg (by rw [hx]; simp)]
    exact hn.exact _ hm (by rw [describes_client])
  · rw [hr.length, f (·.length) (fun _ => rfl)]
  · rw [hr.md5, f (·.md5) (fun _ => rfl)]
  · rw [hr.sha1, f (·.sha1) (fun _ => rfl)]
  · rw [hr.sha256, f (·.sha256) (fun _ => rfl)]

theorem describesDir_of {c : WriteCfg} {env : WriteEnv} {m : Map} {cs : List FNode} {ex : List Re} {d e : Dict Resource}
    (hd : ∀ u r, dget d u = some r ↔ ∃ names st, Eligible (ExcludedBy c) cs names st ∧ u = siteUri m names ∧
        r = describes (clientBuilder c ex false) env.lib u (m.dst_path ++ '/' :: join ['/'] names) st)
    (h : SameListNear false false d e) : DescribesDir c env.lib m cs e := by
  constructor
  · intro names st hel
    have h1 := (hd (siteUri m names) _).mpr ⟨names, st, hel, rfl, rfl⟩
    have h2 := h (siteUri m names)
    rw [h1] at h2
    cases hy : dget e (siteUri m names) with
    | none => rw [hy] at h2; exact h2.elim
    | some y =>
      rw [hy] at h2
      exact ⟨y, rfl, (entryFor_recorded h2).2⟩
  · intro u y hy
    have h2 := h u
    rw [hy] at h2
    cases hx : dget d u with
    | none => rw [hx] at h2; exact h2.elim
    | some x =>
      rw [hx] at h2
      obtain ⟨names, st, h3, h4, h5⟩ := (hd u x).mp hx
      subst h5
      have := entryFor_recorded h2
      exact ⟨this.1, names, st, h3, h4, this.2⟩

end Resync
