import Verif.Model.UrlAuthority
import Verif.Proofs.Url
/-
C09, C10: URL authority (url_authority.py).
-/

namespace Resync
open Py Resync.Spec

/-- a directory path as it stands in a URL before the last '/': empty (root) or '/...' not
ending in '/' -/
def UrlDir (d : Str) : Prop := (d = [] ∨ ∃ t, d = '/' :: t) ∧ ∀ u, d ≠ u ++ ['/']

/-- what the code takes as the directory -/
theorem dirname_urlDir {d file : Str} (hd : UrlDir d) (hf : '/' ∉ file) :
    dirname (d ++ '/' :: file) = if d = [] then ['/'] else d := by
  by_cases h : d = []
  · subst h; simpa using dirname_root hf
  · rw [if_neg h, dirname_append hf hd.2 h]

theorem parse_webUrl {scheme host dir file : Str} (hs : SchemeName scheme) (hh : HostName host)
    (hd : UrlDir dir) (hp : PlainPath (dir ++ '/' :: file)) :
    urlparse (webUrl scheme host dir file) = some ⟨scheme, host, dir ++ '/' :: file, [], [], []⟩ := by
  have := urlparse_webUrl (path := dir ++ '/' :: file) hs hh hp (by
    rcases hd.1 with rfl | ⟨t, rfl⟩
    · right; exact ⟨file, rfl⟩
    · right; exact ⟨t ++ '/' :: file, rfl⟩)
  simpa [webUrl] using this

theorem hasAuthorityOver_some (a : UrlAuthority) {url : Str} {u : Url} (hu : urlparse url = some u) :
    ∃ b, a.hasAuthorityOver url = some b ∧
      (b = true ↔ u.scheme = a.master_scheme ∧ SameOrSubDomain u.netloc a.master_netloc ∧
        (a.strict = true → a.master_path <+: dirname u.path)) := by
  have hsub : SameOrSubDomain u.netloc a.master_netloc ↔
      ¬ (u.netloc ≠ a.master_netloc ∧ ¬ endsWith u.netloc ('.' :: a.master_netloc) = true) := by
    constructor
    · rintro (h | ⟨sub, h⟩) ⟨h1, h2⟩
      · exact h1 h
      · exact h2 (List.isSuffixOf_iff_suffix.mpr ⟨sub, h.symm⟩)
    · intro h
      by_cases hh : u.netloc = a.master_netloc
      · exact .inl hh
      · have he : endsWith u.netloc ('.' :: a.master_netloc) = true := by
          exact Decidable.byContradiction fun h3 => h ⟨hh, h3⟩
        obtain ⟨t, ht⟩ := List.isSuffixOf_iff_suffix.mp he
        exact .inr ⟨t, ht.symm⟩
  have hpath : (a.strict = true → a.master_path <+: dirname u.path) ↔
      ¬ (a.strict = true ∧ dirname u.path ≠ a.master_path ∧
        ¬ startsWith (dirname u.path) a.master_path = true) := by
    constructor
    · rintro h ⟨h1, h2, h3⟩
      exact h3 (List.isPrefixOf_iff_prefix.mpr (h h1))
    · intro h h1
      by_cases hh : dirname u.path = a.master_path
      · rw [hh]; exact List.prefix_refl _
      · have : startsWith (dirname u.path) a.master_path = true := by
          exact Decidable.byContradiction fun h3 => h ⟨h1, hh, h3⟩
        exact List.isPrefixOf_iff_prefix.mp this
  rw [hsub, hpath]
  simp only [UrlAuthority.hasAuthorityOver, hu]
  by_cases h1 : u.scheme = a.master_scheme
  · rw [if_neg (by simpa using h1)]
    split
    · rename_i h2
      exact ⟨false, rfl, by simp only [Bool.false_eq_true, false_iff]; exact fun h => h.2.1 h2⟩
    · rename_i h2
      split
      · rename_i h3
        exact ⟨false, rfl, by simp only [Bool.false_eq_true, false_iff]; exact fun h => h.2.2 h3⟩
      · rename_i h3
        exact ⟨true, rfl, by simp only [true_iff]; exact ⟨h1, h2, h3⟩⟩
  · exact ⟨false, by simp [h1], by simp [h1]⟩

theorem new_some {url : Str} {m : Url} (strict : Bool) (h : urlparse url = some m) :
    UrlAuthority.new (some url) strict = some ⟨strict, m.scheme, m.netloc, dirname m.path⟩ := by
  simp only [UrlAuthority.new, h]

/-! ## C09 lax authority -/

/-- For web URLs written out: authority iff same scheme and same host or sub-domain. -/
theorem C09_lax_authority (sch1 host1 dir1 f1 sch2 host2 dir2 f2 : Str)
    (h1 : SchemeName sch1 ∧ HostName host1 ∧ UrlDir dir1 ∧ PlainPath (dir1 ++ '/' :: f1))
    (h2 : SchemeName sch2 ∧ HostName host2 ∧ UrlDir dir2 ∧ PlainPath (dir2 ++ '/' :: f2)) :
    ∃ a, UrlAuthority.new (some (webUrl sch1 host1 dir1 f1)) false = some a ∧
      ∃ b, a.hasAuthorityOver (webUrl sch2 host2 dir2 f2) = some b ∧
        (b = true ↔ sch2 = sch1 ∧ SameOrSubDomain host2 host1) := by
  have p1 := parse_webUrl h1.1 h1.2.1 h1.2.2.1 h1.2.2.2
  have p2 := parse_webUrl h2.1 h2.2.1 h2.2.2.1 h2.2.2.2
  refine ⟨_, new_some false p1, ?_⟩
  obtain ⟨b, hb, hiff⟩ := hasAuthorityOver_some _ p2
  exact ⟨b, hb, by simpa using hiff⟩

/-- For all URLs, in terms of their parsed parts. -/
theorem C09_lax_authority_parsed (master url : Str) (m u : Url) (hm : urlparse master = some m)
    (hu : urlparse url = some u) :
    ∃ a, UrlAuthority.new (some master) false = some a ∧
      (a.hasAuthorityOver url = some true ↔
        u.scheme = m.scheme ∧ SameOrSubDomain u.netloc m.netloc) := by
  refine ⟨_, new_some false hm, ?_⟩
  obtain ⟨b, hb, hiff⟩ := hasAuthorityOver_some _ hu
  rw [hb]; simpa using hiff

/-- Without a master URL nothing with a web scheme other than the dummy is covered. -/
theorem C09_no_master (url : Str) (u : Url) (hu : urlparse url = some u)
    (h : u.scheme ≠ "none".toList) :
    ∃ a, UrlAuthority.new none false = some a ∧ a.hasAuthorityOver url = some false := by
  refine ⟨_, rfl, ?_⟩
  obtain ⟨b, hb, hiff⟩ := hasAuthorityOver_some _ hu
  cases b with
  | false => exact hb
  | true => exact absurd (hiff.mp rfl).1 h

example : webUrl "http".toList "example.org".toList "/a".toList "b.xml".toList =
    "http://example.org/a/b.xml".toList := by decide
example : (UrlAuthority.new (some "http://example.org/a/b.xml".toList) false).bind
    (·.hasAuthorityOver "http://sub.example.org/z".toList) = some true := by decide
example : (UrlAuthority.new (some "http://example.org/a/b.xml".toList) false).bind
    (·.hasAuthorityOver "http://badexample.org/z".toList) = some false := by decide
example : SchemeName "http".toList ∧ HostName "example.org:80".toList ∧ UrlDir "/a".toList ∧
    PlainPath "/a/b.xml".toList := by
  refine ⟨⟨⟨'h', "ttp".toList, by decide, by decide⟩, by decide⟩, ?_, ⟨.inr ⟨_, rfl⟩, ?_⟩, ?_⟩
  · unfold HostName noneOf; decide
  · intro u h
    have := congrArg List.getLast? h
    simp at this
  · unfold PlainPath noneOf; decide

/-! ## C10 strict authority – violated for sibling directories sharing a textual prefix -/

/-- Completeness: a resource on the same host in the master's directory or any directory below it
is covered. (Partial: only this direction of the claim holds.) -/
theorem C10_below_is_covered_partial (sch host dir1 f1 sub f2 : Str)
    (h1 : SchemeName sch ∧ HostName host ∧ UrlDir dir1 ∧ PlainPath (dir1 ++ '/' :: f1))
    (h2 : UrlDir (dir1 ++ sub) ∧ PlainPath ((dir1 ++ sub) ++ '/' :: f2))
    (hf : '/' ∉ f1 ∧ '/' ∉ f2) (hsub : sub = [] ∨ ∃ t, sub = '/' :: t) :
    ∃ a, UrlAuthority.new (some (webUrl sch host dir1 f1)) true = some a ∧
      a.hasAuthorityOver (webUrl sch host (dir1 ++ sub) f2) = some true := by
  have p1 := parse_webUrl h1.1 h1.2.1 h1.2.2.1 h1.2.2.2
  have p2 := parse_webUrl h1.1 h1.2.1 h2.1 h2.2
  refine ⟨_, new_some true p1, ?_⟩
  obtain ⟨b, hb, hiff⟩ := hasAuthorityOver_some _ p2
  rw [hb, Option.some.injEq, hiff]
  refine ⟨rfl, .inl rfl, fun _ => ?_⟩
  simp only [dirname_urlDir h1.2.2.1 hf.1, dirname_urlDir h2.1 hf.2]
  by_cases hd : dir1 = []
  · subst hd
    rcases hsub with rfl | ⟨t, rfl⟩ <;> simp
  · simp [hd]

/-- Soundness as far as it goes: the query directory starts, as text, with the master directory.
(Partial: the text may continue inside a directory name.) -/
theorem C10_textual_prefix_partial (sch host dir1 f1 sch2 host2 dir2 f2 : Str)
    (h1 : SchemeName sch ∧ HostName host ∧ UrlDir dir1 ∧ PlainPath (dir1 ++ '/' :: f1))
    (h2 : SchemeName sch2 ∧ HostName host2 ∧ UrlDir dir2 ∧ PlainPath (dir2 ++ '/' :: f2))
    (hf : '/' ∉ f1 ∧ '/' ∉ f2) (a : UrlAuthority)
    (ha : UrlAuthority.new (some (webUrl sch host dir1 f1)) true = some a)
    (h : a.hasAuthorityOver (webUrl sch2 host2 dir2 f2) = some true) :
    sch2 = sch ∧ SameOrSubDomain host2 host ∧ dir1 <+: dir2 := by
  have p1 := parse_webUrl h1.1 h1.2.1 h1.2.2.1 h1.2.2.2
  have p2 := parse_webUrl h2.1 h2.2.1 h2.2.2.1 h2.2.2.2
  rw [new_some true p1, Option.some.injEq] at ha
  subst ha
  obtain ⟨b, hb, hiff⟩ := hasAuthorityOver_some _ p2
  rw [hb, Option.some.injEq, hiff] at h
  obtain ⟨hs, hh, hp⟩ := h
  refine ⟨hs, hh, ?_⟩
  have hp := hp rfl
  simp only [dirname_urlDir h1.2.2.1 hf.1, dirname_urlDir h2.2.2.1 hf.2] at hp
  by_cases hd : dir1 = []
  · subst hd; exact List.nil_prefix
  · rw [if_neg hd] at hp
    by_cases he : dir2 = []
    · rw [if_pos he] at hp
      rcases List.prefix_cons_iff.mp hp with hz | ⟨t, hz, ht⟩
      · exact absurd hz hd
      · have : t = [] := List.prefix_nil.mp ht
        subst this
        exact absurd hz (h1.2.2.1.2 [])
    · rwa [if_neg he] at hp

/-- The claim itself is false: `/dir2/` is accepted for a master in `/dir/`. -/
theorem C10_violated : ¬ ∀ (a : UrlAuthority) (sch host dir1 f1 dir2 f2 : Str),
    UrlAuthority.new (some (webUrl sch host dir1 f1)) true = some a →
    a.hasAuthorityOver (webUrl sch host dir2 f2) = some true →
    dir2 = dir1 ∨ ∃ t, dir2 = dir1 ++ '/' :: t := by
  intro h
  have := h ⟨true, "http".toList, "h".toList, "/dir".toList⟩ "http".toList "h".toList "/dir".toList
    "a".toList "/dir2".toList "b".toList (by decide) (by decide)
  rcases this with h1 | ⟨t, h1⟩
  · revert h1; decide
  · have e : "/dir2".toList = "/dir".toList ++ ['2'] := by decide
    rw [e] at h1
    have := List.append_cancel_left h1
    simp at this

example : (UrlAuthority.new (some "http://h/dir/a".toList) true).bind
    (·.hasAuthorityOver "http://h/dir/sub/b".toList) = some true := by decide
example : (UrlAuthority.new (some "http://h/dir/a".toList) true).bind
    (·.hasAuthorityOver "http://h/other/b".toList) = some false := by decide

end Resync
