import Verif.Props.Scripts
import Verif.Props.Mirror
/-
C80: publishing with resync-build and copying with resync-sync.
-/

namespace Resync
open Py Resync.Spec

/-- the argument `uri=path` -/
def mapArg (src dst : Str) : Str := src ++ '=' :: dst

theorem mappings_one (uw : Char → Bool) (m : Map) (h1 : '=' ∉ m.src_uri) (h2 : '=' ∉ m.dst_path) (o1 : OneLine m.src_uri)
    (o2 : OneLine m.dst_path) (s1 : m.src_uri.getLast? ≠ some '/') (s2 : m.dst_path.getLast? ≠ some '/') :
    mappings uw [mapArg m.src_uri m.dst_path] = .ok [m] := by
  have hs : ∀ (p : Str), p.getLast? ≠ some '/' → ∀ u, p ≠ u ++ ['/'] := by
    rintro p hp u rfl
    simp at hp
  have hsplit : splitOn '=' (mapArg m.src_uri m.dst_path) = [m.src_uri, m.dst_path] := by
    unfold mapArg
    rw [splitOn_append_sep, splitOn_of_not_mem h1, splitOn_of_not_mem h2]; rfl
  have hc : (mapArg m.src_uri m.dst_path).contains '=' = true := by simp [mapArg]
  unfold mappings
  rw [if_neg (by simp)]
  simp only [Mapper.parse]
  rw [if_neg (by rw [hc]; simp)]
  simp only [parseEntries, hsplit, List.any_nil, Bool.false_eq_true, if_false, List.nil_append, Map.new,
    strip_of_no_slash o1 (hs _ s1), strip_of_no_slash o2 (hs _ s2)]

/-- the digests asked for with --hash and --checksum -/
def SharedArgs.hashTypes (a : SharedArgs) : List Str := a.hash.getD [] ++ (if a.checksum then ["md5".toList] else [])

/-- The settings with which resync-build writes lists when it is given one mapping. -/
def BuildArgs.settings (b : BuildArgs) (m : Map) : WriteCfg := b.client [m] (some b.hashTypes)

theorem hashOption_ok {a : SharedArgs} (h : a.checksum = true → a.hash ≠ none) :
    ∃ hash, hashOption a = some hash ∧ hash.getD [] = a.hashTypes := by
  unfold hashOption SharedArgs.hashTypes
  cases hc : a.checksum with
  | false => exact ⟨_, rfl, by simp⟩
  | true =>
    cases hh : a.hash with
    | none => exact absurd hh (h hc)
    | some l => exact ⟨_, rfl, rfl⟩

theorem linkTo_ok {rel href : Str} (hr : XmlOk rel) (hu : XmlOk href) : LinkOk (linkTo rel href) := by
  have hd : ∀ k, dget (linkTo rel href) k =
      if "rel".toList = k then some rel else if "href".toList = k then some href else none := by
    intro k; simp only [linkTo, dget]
  have hk : dkeys (linkTo rel href) = ["rel".toList, "href".toList] := rfl
  refine ⟨by rw [hk]; decide, by rw [hk]; decide, rfl, rfl, ?_, ?_, ?_⟩
  · intro k v hv
    rw [hd] at hv
    split at hv
    · cases hv; exact hr
    · split at hv
      · cases hv; exact hu
      · cases hv
  · intro v hv; rw [hd, if_neg (by decide), if_neg (by decide)] at hv; cases hv
  · intro v hv; rw [hd, if_neg (by decide), if_neg (by decide)] at hv; cases hv

/-- A directory is published: resync-build --write-resourcelist is called with its URI and path and the name of a file in
it (`f`) for the list. -/
structure Publishes (wenv : WriteEnv) (b : BuildArgs) (m : Map) (cs : List FNode) (f : Str) : Prop where
  mode : b.mode = .resourcelist
  map : b.map = [mapArg m.src_uri m.dst_path]
  outfile : b.outfile = some (m.dst_path ++ '/' :: f)
  paths : b.paths = none
  multi : b.multifile = false
  checksum : b.checksum = true → b.hash ≠ none
  links : ∃ parsed, parseLinks b.link = .ok parsed ∧ ∀ x ∈ b.links parsed, LinkOk x
  site : Site (b.settings m) wenv m cs
  equals : '=' ∉ m.src_uri ∧ '=' ∉ m.dst_path
  slash : m.src_uri.getLast? ≠ some '/'
  file : TextOk f
  stat : StatOk wenv.stat
  dots : ∀ names n, Reach cs names n → ∀ x ∈ names, x ≠ ".".toList ∧ x ≠ "..".toList
  scheme : (∃ t, m.src_uri = "http:".toList ++ t) ∨ (∃ t, m.src_uri = "https:".toList ++ t)

theorem Publishes.run_links {wenv : WriteEnv} {b : BuildArgs} {m : Map} {cs : List FNode} {f : Str} (h : Publishes wenv b m cs f)
    {parsed : List Link} (h1 : parseLinks b.link = .ok parsed) : (∀ x ∈ b.links parsed, LinkOk x) ∧
      buildMain wenv b = .of (writeResourceList (b.settings m) wenv none (some (m.dst_path ++ '/' :: f)) (some (b.links parsed)) false) := by
  obtain ⟨parsed', h1', h2⟩ := h.links
  rw [h1] at h1'
  cases h1'
  refine ⟨h2, ?_⟩
  obtain ⟨hash, h3, h4⟩ := hashOption_ok h.checksum
  unfold buildMain processShared
  rw [h3]
  simp only [Bool.false_eq_true, if_false]
  rw [h.map, mappings_one wenv.uw m h.equals.1 h.equals.2 h.site.src_line h.site.dst_line h.slash h.site.dst_slash]
  simp only [h1, h.mode, h.paths, h.outfile]
  have : b.client [m] hash = b.settings m := by
    unfold BuildArgs.settings BuildArgs.client
    rw [h4]; rfl
  rw [this]

theorem Publishes.run {wenv : WriteEnv} {b : BuildArgs} {m : Map} {cs : List FNode} {f : Str} (h : Publishes wenv b m cs f) :
    ∃ links, (∀ x ∈ links, LinkOk x) ∧
      buildMain wenv b = .of (writeResourceList (b.settings m) wenv none (some (m.dst_path ++ '/' :: f)) (some links) false) := by
  obtain ⟨parsed, h1, -⟩ := h.links
  exact ⟨_, h.run_links h1⟩

/-- A mirror: resync-sync --baseline is called with the URI, another path, and the URI of the list. -/
structure Mirrors (w : SyncWorld) (a : SyncArgs) (m mm : Map) (f : Str) : Prop where
  mode : a.mode = .baseline
  map : a.map = [mapArg mm.src_uri mm.dst_path]
  sitemap : a.sitemap = some (m.src_uri ++ '/' :: f)
  multi : a.multifile = false
  options : OptionsOk a.toSharedArgs
  hashes : ∀ t ∈ a.hashTypes, HashType t
  dryrun : a.dryrun = false
  ignore : a.ignore_failures = false
  tries : ∀ n, a.tries = some n → 0 ≤ n
  same : mm.src_uri = m.src_uri
  equals : '=' ∉ mm.dst_path

theorem Mirrors.run {w : SyncWorld} {a : SyncArgs} {m mm : Map} {f : Str} (h : Mirrors w a m mm f) (h1 : '=' ∉ m.src_uri)
    (o1 : OneLine m.src_uri) (s1 : m.src_uri.getLast? ≠ some '/') (o2 : OneLine mm.dst_path) (s2 : mm.dst_path.getLast? ≠ some '/')
    (world : World) : ∃ settings, syncMain w a world =
      let r := baselineOrAudit (w.envFor [mm] true) (a.client w.uw [mm]) a.delete false { world := world, hashes := a.hashTypes }
      { st := r.1, exit := .ofClient r.2, settings := settings } := by
  refine ⟨(syncMain w a world).settings, ?_⟩
  have hset := syncMain_settings w a world h.options
  rw [hset]
  unfold syncMain
  rw [processShared_ok h.options, h.map, mappings_one w.uw mm (by rw [h.same]; exact h1) h.equals (by rw [h.same]; exact o1) o2
    (by rw [h.same]; exact s1) s2]
  simp only [h.mode, h.multi, Bool.not_false]
  have : (if a.checksum = true then Option.map (· ++ ["md5".toList]) a.hash else a.hash).getD [] = a.hashTypes := by
    unfold SharedArgs.hashTypes
    cases hc : a.checksum with
    | false => simp
    | true =>
      cases hh : a.hash with
      | none => exact absurd hh (h.options.1 hc)
      | some l => rfl
  rw [this]

/-- C80 (publish and copy).  A directory is published with resync-build --write-resourcelist, in one document or in several; the
documents and the files are served under its URI; resync-sync --baseline is run at a place where there is nothing, told
where the list is.  If the list has authority over the files (or --noauth is given), and making directories and files does not
fail, both programs end with status 0 and the place is then a copy of the directory. -/
theorem C80_publish_and_copy {wenv : WriteEnv} {b : BuildArgs} {m mm : Map} {cs : List FNode} {f : Str} {w : SyncWorld}
    {a : SyncArgs} (hp : Publishes wenv b m cs f) (hm : Mirrors w a m mm f)
    (before : Str → Option FileState) (hdocs : Serves m (runFs before (buildMain wenv b).files) w.docAt)
    (world : World) (root : Loc) (hone : OneSite (a.client w.uw [mm]) w.env.cwd mm root world.fs)
    (hsafe : Mapper.isUnsafe [mm] = .ok false) (hsome : ∃ names st, Eligible (ExcludedBy (b.settings m)) cs names st)
    (hauth : a.noauth = true ∨ ∀ names st, Eligible (ExcludedBy (b.settings m)) cs names st →
      Authorised a.strictauth (m.src_uri ++ '/' :: f) (siteUri m names))
    (hserve : ∀ names st, Eligible (ExcludedBy (b.settings m)) cs names st →
      ∃ bytes, st.content = some bytes ∧ ∀ tr, w.env.serve tr (siteUri m names) = .body bytes none)
    (hmkdir : ∀ tr l, w.env.mkdirFails tr l = false) (hopen : ∀ tr l, w.env.openFails tr l = false)
    (hu : ∀ tr l, w.env.unlinkFails tr l = false)
    (hway : ∀ p, p <+: root → ¬ HasFile world.fs p) (hempty : ∀ l, Within root l → l ≠ root → world.fs.get l = none)
    (hyears : ∀ names st, Eligible (ExcludedBy (b.settings m)) cs names st → st.mtime < 253402300799)
    (hft : FloatOk w.env.ft) (ops : List (Str × Option Rat)) (hops : ∀ op ∈ ops, op.1 ≠ [])
    (hstate : setAll w.env.ft none ops = .ok world.state) :
    (buildMain wenv b).exit.status = 0 ∧ (syncMain w a world).exit.status = 0 ∧
    CopyOf (b.settings m) cs root (syncMain w a world).st.world.fs := by
  obtain ⟨links, hl, hb⟩ := hp.run
  obtain ⟨settings, hr⟩ := hm.run hp.equals.1 hp.site.src_line hp.slash hone.dst.2.1 hone.dst.2.2.2 world
  have hfiles : (buildMain wenv b).files =
      (writeResourceList (b.settings m) wenv none (some (m.dst_path ++ '/' :: f)) (some links) false).1.files := by rw [hb]; rfl
  rw [hfiles] at hdocs
  have hne : m.src_uri ++ '/' :: f ≠ [] := by simp
  have mirror : Mirror (b.settings m) wenv m cs f (some links) before (a.client w.uw [mm]) (w.envFor [mm] true) mm := {
    site := hp.site
    multi := by show (!b.multifile) = true; rw [hp.multi]; rfl
    file := hp.file
    linksOk := hl
    stat := hp.stat
    dots := hp.dots
    scheme := hp.scheme
    same := hm.same
    found := ⟨w.docAt, w.uw, rfl, hdocs⟩
    told := by
      show given a.sitemap = _
      rw [hm.sitemap]
      generalize m.src_uri ++ '/' :: f = s at hne
      cases s with
      | nil => exact absurd rfl hne
      | cons c t => rfl }
  have ht : 0 < (a.client w.uw [mm]).tries := by
    show 0 < (match a.tries with
      | none => 20
      | some n => if n = 0 then 20 else n.toNat)
    cases hn : a.tries with
    | none => decide
    | some n =>
      simp only
      have := hm.tries n hn
      split <;> omega
  obtain ⟨h1, h2⟩ := C78_mirror_made mirror { world := world, hashes := a.hashTypes } root hone hm.hashes a.delete hm.dryrun hm.ignore ht
    hsafe hsome hauth hserve hmkdir hopen hu hway hempty hyears hft ops hops hstate
  refine ⟨?_, ?_, ?_⟩
  · rw [hb]
    have := (C73_published_list_partial (b.settings m) wenv m cs hp.site mirror.multi f hp.file (some links) hl hp.stat before
      { docAt := w.docAt } ⟨rfl, rfl, rfl⟩ (by
        rcases hp.scheme with h | h
        · exact .inl h
        · exact .inr ⟨h, rfl⟩) hdocs).1
    simp only [BuildRun.of, this]; rfl
  · rw [hr]; simp only [h1]; rfl
  · rw [hr]; exact h2

namespace ScriptsExample
open MirrorExample

/-- resync-build --write-resourcelist --outfile /d/list.xml --hash md5 --exclude .git --max-sitemap-entries 1
--capabilitylist-link http://h/caps.xml --link describedby,http://h/about http://h=/d -/
def build : BuildArgs where
  mode := .resourcelist
  map := ["http://h=/d".toList]
  outfile := some "/d/list.xml".toList
  hash := some ["md5".toList]
  exclude := some [".git".toList]
  max_sitemap_entries := some 1
  capabilitylist_link := some "http://h/caps.xml".toList
  link := some ["describedby,http://h/about".toList]

/-- resync-sync --baseline --delete --sitemap http://h/list.xml http://h=/e -/
def sync : SyncArgs where
  mode := .baseline
  map := ["http://h=/e".toList]
  sitemap := some "http://h/list.xml".toList
  delete := true

/-- the documents under http://h/ are the files below /d/ -/
def docsOf (fs : Str → Option FileState) (u : Str) : Option Elem :=
  match u with
  | 'h' :: 't' :: 't' :: 'p' :: ':' :: '/' :: '/' :: 'h' :: '/' :: g => fileDoc (fs ("/d/".toList ++ g))
  | _ => none

def docs : Str → Option Elem := docsOf (runFs (fun _ => none) (buildMain wenv build).files)

theorem served_docs (fs : Str → Option FileState) : Serves m fs (docsOf fs) := fun _ => rfl

def world : SyncWorld where
  env := menv
  docAt := docs

theorem settings_eq : build.settings m = cfg := rfl

theorem publishes : Publishes wenv build m tree "list.xml".toList where
  mode := rfl
  map := rfl
  outfile := rfl
  paths := rfl
  multi := rfl
  checksum := by decide
  links := ⟨[linkTo "describedby".toList "http://h/about".toList], by decide, by
    intro x hx
    have : x ∈ [linkTo "up".toList "http://h/caps.xml".toList, linkTo "describedby".toList "http://h/about".toList] := hx
    simp only [List.mem_cons, List.not_mem_nil, or_false] at this
    rcases this with rfl | rfl <;> exact linkTo_ok (by unfold XmlOk; decide) (by unfold XmlOk; decide)⟩
  site := site
  equals := by decide
  slash := by decide
  file := mirror.file
  stat := mirror.stat
  dots := mirror.dots
  scheme := mirror.scheme

theorem mirrors : Mirrors world sync m mm "list.xml".toList where
  mode := rfl
  map := rfl
  sitemap := rfl
  multi := rfl
  options := ⟨by decide, by intro d h; cases h⟩
  hashes := by intro t h; cases h
  dryrun := rfl
  ignore := rfl
  tries := by intro n h; cases h
  same := rfl
  equals := by decide

/-- all hypotheses hold -/
theorem copied : (syncMain world sync { fs := [] }).exit.status = 0 ∧ CopyOf cfg tree ["e".toList] (syncMain world sync { fs := [] }).st.world.fs := by
  refine (C80_publish_and_copy publishes mirrors (fun _ => none) (served_docs _) { fs := [] } ["e".toList] ⟨rfl, one.src, one.dst, one.place, one.proper,
    one.names, one.cwdNames, one.notFile⟩ (by decide +kernel)
    ⟨["a".toList], sta, ⟨⟨"a".toList, false, .here (n := .file "a".toList false (some sta)) (by simp [tree])⟩, ?_⟩⟩ (.inr ?_) ?_ (fun _ _ => rfl) (fun _ _ => rfl)
    (fun _ _ => rfl) ?_ ?_ late ratFt_ok [] (by simp) rfl).2
  · intro x hx
    simp only [List.mem_cons, List.not_mem_nil, or_false] at hx
    subst hx
    exact not_excluded
  · intro names st h
    rcases eligible_cases names st h with ⟨rfl, rfl⟩ | ⟨rfl, rfl⟩ | ⟨rfl, rfl⟩ <;> exact ⟨_, rfl, by decide +kernel⟩
  · intro names st h
    rcases eligible_cases names st h with ⟨rfl, rfl⟩ | ⟨rfl, rfl⟩ | ⟨rfl, rfl⟩
    · exact ⟨_, rfl, fun _ => rfl⟩
    · exact ⟨_, rfl, fun _ => rfl⟩
    · exact ⟨_, rfl, fun _ => rfl⟩
  · rintro p - ⟨b, t, h⟩
    unfold IsFile at h
    cases p <;> cases h
  · intro l h1 h2
    cases l with
    | nil => simp [Within] at h1
    | cons x t => rfl

/-- C80 fails for --exclude: "exclude resources with URI or filename matching the python regex supplied" has no effect in
resync-sync; the excluded resource is copied. -/
theorem C80_exclude_violated :
    (∀ w a world ex, syncMain w { a with exclude := ex } world = syncMain w a world) ∧
    ∃ t, IsFile (syncMain world { sync with exclude := some ["a".toList] } { fs := [] }).st.world.fs ["e".toList, "a".toList] [1, 2] t := by
  have key : ∀ w a world ex, syncMain w { a with exclude := ex } world = syncMain w a world := fun _ _ _ _ => rfl
  refine ⟨key, ?_⟩
  rw [key]
  obtain ⟨b, t, h1, h2, -⟩ := copied.2.complete ["a".toList] sta
    ⟨⟨"a".toList, false, .here (n := .file "a".toList false (some sta)) (by simp [tree])⟩, by
      intro x hx
      simp only [List.mem_cons, List.not_mem_nil, or_false] at hx
      subst hx
      exact not_excluded⟩
  cases h1
  exact ⟨t, h2⟩

end ScriptsExample

/-- C80 fails for --checksum: "use md5 checksum in addition to last modification time and size (same as --hash=md5)".  Used
by itself, it stops the program before anything is done, while --hash=md5 does not. -/
theorem C80_checksum_violated :
    (∀ (w : SyncWorld) (a : SyncArgs) (world : World), a.hash = none →
      (syncMain w { a with checksum := true } world).exit = .crash ∧ (syncMain w { a with checksum := true } world).done = []) ∧
    ∃ (w : SyncWorld) (a : SyncArgs) (world : World), a.hash = none ∧
      (syncMain w { a with hash := some ["md5".toList] } world).exit = .done := by
  constructor
  · intro w a world h
    have : processShared { a.toSharedArgs with checksum := true } true = none := by
      unfold processShared hashOption
      simp only [if_true, h]
    unfold syncMain SyncRun.done
    simp only [this]
    exact ⟨trivial, trivial⟩
  · refine ⟨{ env := MirrorExample.menv, docAt := fun _ => some (.mk (smTag "urlset") [] none []) },
      { mode := .parse, sitemap := some "s.xml".toList }, { fs := [] }, rfl, ?_⟩
    decide +kernel

/-- C80 fails for --tries: "set number of tries to TRIES" with TRIES = 0 gives the default of 20 tries. -/
theorem C80_tries_violated (w : SyncWorld) (a : SyncArgs) (world : World) :
    syncMain w { a with tries := some 0 } world = syncMain w { a with tries := some 20 } world := rfl

end Resync
