import Verif.Props.CommandRuns
/-
C110 for resync-explorer: from the words of the command line to the exploration.
-/

namespace Resync
open Py Resync.Spec

/-- C110, resync-explorer: for a proper command line the exploration starts as the options say. -/
theorem C110_explore_options (w : ExpWorld) (cv : Convert) (gs : List (OptDef × Option Str)) (argv inputs : List Str)
    (h : CommandFor exploreParser cv gs [] argv) :
    ∃ a : ExploreArgs, exploreCommand w cv argv inputs = exploreMain w a inputs ∧
      a.sitemap = (givenFor "--sitemap" gs).getLast? ∧
      a.hash = (if givenFor "--hash" gs = [] then none else some (givenFor "--hash" gs)) ∧
      (a.checksum = true ↔ givenFor "--checksum" gs ≠ []) ∧
      (a.noauth = true ↔ givenFor "--noauth" gs ≠ []) ∧ a.access_token = (givenFor "--access-token" gs).getLast? ∧
      a.delay = (givenFor "--delay" gs).getLast?.bind cv.float := by
  have hp := C110_parsers.2.2
  obtain ⟨ns, hns, hset⟩ := C110_accepts exploreParser hp cv gs [] argv h
  have hh : HoldsArgs exploreParser cv gs ns := ⟨hp, command_opts h, hset⟩
  obtain ⟨s1, s2, -, -, -, -, s7⟩ := holds_shared hh true (by decide +kernel)
  obtain ⟨s7, s8, s9⟩ := s7 rfl
  refine ⟨exploreArgs ns, ?_, holds_str hh "--sitemap" (opt ["--sitemap".toList] "sitemap".toList .store) (by decide +kernel)
    List.mem_cons_self (.inl rfl), s1, s2, s7, s8, s9⟩
  unfold exploreCommand
  rw [hns]

/-- C110, violated: resync-explorer takes options that do nothing.  The exploration depends on --sitemap only, and whether it is begun at
all on --hash, --checksum and --delay: lines that agree in these give the same, whatever else they say, for instance with
--changelist-uri, --max-sitemap-entries, --reference, --outfile, --multifile or --from. -/
theorem C110_explore_ignored_violated (w : ExpWorld) (cv : Convert) (gs gs' : List (OptDef × Option Str)) (argv argv' inputs : List Str)
    (h : CommandFor exploreParser cv gs [] argv) (h' : CommandFor exploreParser cv gs' [] argv')
    (h1 : givenFor "--sitemap" gs = givenFor "--sitemap" gs') (h2 : givenFor "--hash" gs = givenFor "--hash" gs')
    (h3 : givenFor "--checksum" gs = givenFor "--checksum" gs') (h4 : givenFor "--delay" gs = givenFor "--delay" gs') :
    exploreCommand w cv argv inputs = exploreCommand w cv argv' inputs := by
  obtain ⟨a, e, a1, a2, a3, -, -, a6⟩ := C110_explore_options w cv gs argv inputs h
  obtain ⟨b, e', b1, b2, b3, -, -, b6⟩ := C110_explore_options w cv gs' argv' inputs h'
  rw [e, e']
  have k1 : a.sitemap = b.sitemap := by rw [a1, b1, h1]
  have k2 : a.hash = b.hash := by rw [a2, b2, h2]
  have k3 : a.checksum = b.checksum := by rw [Bool.eq_iff_iff, a3, b3, h3]
  have k4 : a.delay = b.delay := by rw [a6, b6, h4]
  have k5 : hashOption a.toSharedArgs = hashOption b.toSharedArgs := by
    unfold hashOption
    rw [k2, k3]
  have k6 : processShared a.toSharedArgs true = none ↔ processShared b.toSharedArgs true = none := by
    unfold processShared
    rw [k5, k4]
    cases hashOption b.toSharedArgs with
    | none => simp
    | some x =>
      simp only [if_true]
      cases b.delay with
      | none => simp
      | some d => simp only; split <;> [simp; split] <;> simp
  unfold exploreMain
  rw [k1]
  rcases ha : processShared a.toSharedArgs true with _ | x
  · rw [k6.mp ha]
  · rcases hb : processShared b.toSharedArgs true with _ | y
    · rw [k6.mpr hb] at ha; cases ha
    · rfl

namespace ExploreCommandExample

def cv : Convert := ⟨fun _ => none, fun _ => none⟩
def sitemapOpt : OptDef := opt ["--sitemap".toList] "sitemap".toList .store
def referenceOpt : OptDef := opt ["--reference".toList] "reference".toList .store

/-- `resync-explorer --sitemap u` -/
theorem one : CommandFor exploreParser cv [(sitemapOpt, some "u".toList)] [] ["--sitemap".toList, "u".toList] where
  words := by
    refine ⟨[(sitemapOpt, some "u".toList)], ["--sitemap".toList, "u".toList], [], [], ?_, .nil, rfl, rfl⟩
    exact .cons (g := [(sitemapOpt, some "u".toList)]) (ws := ["--sitemap".toList, "u".toList]) (.next (by decide +kernel)
      ⟨by decide, by decide⟩ (.full (by decide)) (by intro t h; cases h)) .nil
  plain := by intro m hm; cases hm
  mapping := .inr rfl
  values := by
    intro g hg
    simp only [List.mem_cons, List.not_mem_nil, or_false] at hg
    subst hg
    trivial
  mode := ⟨[], by decide +kernel, fun h => absurd rfl h⟩

/-- `resync-explorer --sitemap u --reference r` -/
theorem two : CommandFor exploreParser cv [(sitemapOpt, some "u".toList), (referenceOpt, some "r".toList)] []
    ["--sitemap".toList, "u".toList, "--reference".toList, "r".toList] where
  words := by
    refine ⟨[(sitemapOpt, some "u".toList), (referenceOpt, some "r".toList)], ["--sitemap".toList, "u".toList, "--reference".toList, "r".toList],
      [], [], ?_, .nil, rfl, rfl⟩
    refine .cons (g := [(sitemapOpt, some "u".toList)]) (ws := ["--sitemap".toList, "u".toList]) (.next (by decide +kernel)
      ⟨by decide, by decide⟩ (.full (by decide)) (by intro t h; cases h)) ?_
    exact .cons (g := [(referenceOpt, some "r".toList)]) (ws := ["--reference".toList, "r".toList]) (.next (by decide +kernel)
      ⟨by decide, by decide⟩ (.full (by decide)) (by intro t h; cases h)) .nil
  plain := by intro m hm; cases hm
  mapping := .inr rfl
  values := by
    intro g hg
    simp only [List.mem_cons, List.not_mem_nil, or_false] at hg
    rcases hg with rfl | rfl <;> trivial
  mode := ⟨[], by decide +kernel, fun h => absurd rfl h⟩

example (w : ExpWorld) (inputs : List Str) : exploreCommand w cv ["--sitemap".toList, "u".toList, "--reference".toList, "r".toList] inputs =
    exploreCommand w cv ["--sitemap".toList, "u".toList] inputs :=
  C110_explore_ignored_violated w cv _ _ _ _ inputs two one (by decide +kernel) (by decide +kernel) (by decide +kernel) (by decide +kernel)

end ExploreCommandExample

end Resync
