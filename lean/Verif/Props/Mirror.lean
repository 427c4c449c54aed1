import Verif.Props.ClientWrite
import Verif.Props.ClientResult
import Verif.Props.ClientEffects
import Verif.Props.ClientProgress
/-
C78: publishing a directory and synchronising an empty place with it makes a copy.
-/

namespace Resync
open Py Resync.Spec

/-- whenever the server delivers a file completely, it delivers what is in it -/
def Honest (c : WriteCfg) (m : Map) (cs : List FNode) (env : Env) : Prop :=
  ∀ tr names st b, Eligible (ExcludedBy c) cs names st → env.serve tr (siteUri m names) = .body b none → st.content = some b

/-- The destination with the place `root` holds the files of the directory that are not excluded, with their contents and their
modification times up to little more than a second, and no other file. -/
structure CopyOf (c : WriteCfg) (cs : List FNode) (root : Loc) (fs : Fs) : Prop where
  complete : ∀ names st, Eligible (ExcludedBy c) cs names st → ∃ b t, st.content = some b ∧ IsFile fs (root ++ names) b t ∧
    t - st.mtime < 1 + 1 / 1000000 ∧ st.mtime - t < 1 + 1 / 1000000
  sound : ∀ l, Within root l → HasFile fs l → ∃ names st, Eligible (ExcludedBy c) cs names st ∧ l = root ++ names

/-- The published list, found by a mirror that has been told where it is. -/
structure Mirror (c : WriteCfg) (wenv : WriteEnv) (m : Map) (cs : List FNode) (f : Str) (links : Option (List Link))
    (before : Str → Option FileState) (cc : ClientCfg) (env : Env) (mm : Map) : Prop where
  site : Site c wenv m cs
  multi : c.allow_multifile = true
  file : TextOk f
  linksOk : ∀ x ∈ links.getD [], LinkOk x
  stat : StatOk wenv.stat
  dots : ∀ names n, Reach cs names n → ∀ x ∈ names, x ≠ ".".toList ∧ x ≠ "..".toList
  scheme : (∃ t, m.src_uri = "http:".toList ++ t) ∨ (∃ t, m.src_uri = "https:".toList ++ t)
  same : mm.src_uri = m.src_uri
  found : ∃ docAt uw, env.sources = Sources.ofDocs docAt [mm] true uw ∧
    Serves m (runFs before (writeResourceList c wenv none (some (m.dst_path ++ '/' :: f)) links false).1.files) docAt
  told : cc.disc.sitemap_name = some (m.src_uri ++ '/' :: f)

theorem reach_ne {cs : List FNode} {names : List Str} {n : FNode} (h : Reach cs names n) : names ≠ [] := by
  cases h <;> simp

theorem Mirror.plain {c : WriteCfg} {wenv : WriteEnv} {m : Map} {cs : List FNode} {f : Str} {links : Option (List Link)}
    {before : Str → Option FileState} {cc : ClientCfg} {env : Env} {mm : Map} (h : Mirror c wenv m cs f links before cc env mm)
    {names : List Str} {st : Stat} (he : Eligible (ExcludedBy c) cs names st) :
    names ≠ [] ∧ (∀ n ∈ names, PlainName n) ∧ siteUri m names = uriBelow mm names := by
  obtain ⟨⟨nm, sp, hr⟩, -⟩ := he
  refine ⟨reach_ne hr, ?_, by unfold siteUri uriBelow; rw [h.same]⟩
  intro x hx
  obtain ⟨h1, h2⟩ := reach_names h.site.real hr x hx
  obtain ⟨h3, h4⟩ := h.dots _ _ hr x hx
  exact ⟨⟨h1, h3, h4, h2⟩, (h.site.names _ _ hr x hx).1⟩

/-- what the mirror finds is a list that describes the directory -/
theorem Mirror.finds {c : WriteCfg} {wenv : WriteEnv} {m : Map} {cs : List FNode} {f : Str} {links : Option (List Link)}
    {before : Str → Option FileState} {cc : ClientCfg} {env : Env} {mm : Map} (h : Mirror c wenv m cs f links before cc env mm) :
    ListsKeyed env.sources ∧ ∃ src, (findResourceList env.sources cc.disc).2 = .ok src ∧ WF src ∧
      DescribesDir c wenv.lib m cs src ∧ ListRegular mm src := by
  obtain ⟨docAt, uw, hs, hserve⟩ := h.found
  have hk : ListsKeyed env.sources := by rw [hs]; exact listsKeyed_ofDocs docAt [mm] true uw
  refine ⟨hk, ?_⟩
  obtain ⟨-, l, h1, h2, -⟩ := C73_published_list_partial c wenv m cs h.site h.multi f h.file links h.linksOk h.stat before
    { allow_multifile := true, mapper := some [mm], uw := uw, docAt := docAt } ⟨rfl, rfl, rfl⟩
    (by rcases h.scheme with h | h; exact .inl h; exact .inr ⟨h, rfl⟩) hserve
  have hf : (findResourceList env.sources cc.disc).2 = .ok l.resources := by
    unfold findResourceList
    rw [h.told]
    simp only [readResourceList, hs, Sources.ofDocs, h1]
  have hw := found_WF (c := cc) hk hf
  refine ⟨_, hf, hw, h2, ?_⟩
  intro u r hr
  obtain ⟨-, names, st, he, rfl, -⟩ := h2.sound u r (dget_of_mem hw.1 hr)
  obtain ⟨a, b, e⟩ := h.plain he
  exact ⟨names, a, b, e⟩

/-- C78.  A directory is published with `write_resource_list` (in one document or in several), the documents and files are served
under its URI, and a baseline sync, told where the list is, is run at a destination without files.  If the sync succeeds,
the destination is a copy of the directory. -/
theorem C78_mirror {c : WriteCfg} {wenv : WriteEnv} {m : Map} {cs : List FNode} {f : Str} {links : Option (List Link)}
    {before : Str → Option FileState} {cc : ClientCfg} {env : Env} {mm : Map} (h : Mirror c wenv m cs f links before cc env mm)
    (hserve : Honest c m cs env) (s : St) (root : Loc) (hone : OneSite cc env.cwd mm root s.world.fs)
    (hh : ∀ t ∈ s.hashes, HashType t) (allow_deletion : Bool)
    (hd : cc.dryrun = false) (hi : cc.ignore_failures = false) (ht : 0 < cc.tries) (hu : ∀ tr l, env.unlinkFails tr l = false)
    (hempty : ∀ l, Within root l → ¬ HasFile s.world.fs l)
    (hok : (baselineOrAudit env cc allow_deletion false s).2 = .ok ()) :
    CopyOf c cs root (baselineOrAudit env cc allow_deletion false s).1.world.fs := by
  obtain ⟨hk, src, hfound, hw, hdesc, hreg⟩ := h.finds
  constructor
  · intro names st he
    obtain ⟨e, h1, h2⟩ := hdesc.complete names st he
    obtain ⟨hne, hn, hu'⟩ := h.plain he
    obtain ⟨l, h3, b, t, h4, h5, h6⟩ := C50_first_sync env cc allow_deletion s mm root src hone hh hk hfound hreg hd hi ht hu hempty hok
      (siteUri m names) e (mem_of_dget h1)
    rw [hu', hone.mapsTo hne hn] at h3
    subst h3
    obtain ⟨pre, -, h7⟩ := h4
    rw [hw.2 _ _ h1] at h7
    have htime := h2.lastmod
    cases hts : e.timestamp with
    | none => rw [hts] at htime; exact htime.elim
    | some x =>
      rw [hts] at htime
      obtain ⟨t1, t2⟩ := htime
      have := h6 x hts
      obtain ⟨t3, t4⟩ := truncRat_near x
      exact ⟨b, t, hserve _ _ _ _ he h7, h5, by rw [this]; linarith, by rw [this]; linarith⟩
  · rintro l hl hf
    have key : ∃ u r, (u, r) ∈ src ∧ MapsTo cc env.cwd u l := by
      cases allow_deletion with
      | true => exact (C50_partial env cc true s mm root src hone hh hk hfound hreg hd hi ht hu hok).2 rfl l hl hf
      | false =>
        by_contra hcon
        obtain ⟨b, t, hf⟩ := hf
        refine hempty l hl ⟨b, t, ?_⟩
        refine (C49_baseline_no_deletion env cc false s hk hone.proper l ?_ _ ?_ b t).mp hf
        · rintro uri hm ⟨src', r, h1, h2⟩
          rw [hfound] at h1
          cases h1
          exact hcon ⟨uri, r, h2, hm⟩
        · exact (baseline_did env cc false false s).final
    obtain ⟨u, r, h1, h2⟩ := key
    obtain ⟨-, names, st, he, rfl, -⟩ := hdesc.sound u r (dget_of_mem hw.1 h1)
    obtain ⟨hne, hn, hu'⟩ := h.plain he
    rw [hu', hone.mapsTo hne hn] at h2
    exact ⟨names, st, he, h2⟩

theorem reach_file_prefix {a : List Str} : ∀ {cs : List FNode} {b : List Str} {nm : Str} {sp : Bool} {st : Option Stat} {n : FNode}, RealDir cs →
    Reach cs a (.file nm sp st) → Reach cs b n → a <+: b → a = b := by
  induction a with
  | nil => intro cs b nm sp st n _ h _ _; exact absurd rfl (reach_ne h)
  | cons x t ih =>
    intro cs b nm sp st n hreal h h' hp
    obtain ⟨t2, rfl, hpt⟩ : ∃ t2, b = x :: t2 ∧ t <+: t2 := by
      obtain ⟨t', rfl⟩ := hp
      exact ⟨t ++ t', rfl, List.prefix_append _ _⟩
    cases hreal with
    | mk hnd hnm hsub =>
      have same : ∀ y ∈ cs, ∀ z ∈ cs, y.name = z.name → y = z := by
        intro y hy z hz e
        exact List.inj_on_of_nodup_map hnd hy hz e
      cases h with
      | here h1 =>
        cases h' with
        | here h2 => rfl
        | sub h2 _ =>
          have := same _ h1 _ h2 rfl
          cases this
      | sub h1 h1' =>
        cases h' with
        | here h2 => exact absurd (List.prefix_nil.mp hpt) (reach_ne h1')
        | sub h2 h2' =>
          have := same _ h1 _ h2 rfl
          simp only [FNode.dir.injEq, true_and] at this
          subst this
          have := ih (hsub _ _ _ h1) h1' h2' hpt
          rw [this]

/-- When there is nothing at the destination, deletion makes no difference. -/
theorem baseline_empty {env : Env} {c : ClientCfg} {s : St} {m : Map} {root : Loc} (hone : OneSite c env.cwd m root s.world.fs)
    (hh : ∀ t ∈ s.hashes, HashType t) (hk : ListsKeyed env.sources)
    (hempty : ∀ l, Within root l → ¬ HasFile s.world.fs l) (allow : Bool) :
    baselineOrAudit env c allow false s = baselineOrAudit env c true false s := by
  unfold baselineOrAudit
  cases hp : baselinePlan env c false s with
  | mk s1 res =>
    cases res with
    | error e => rfl
    | ok p =>
      obtain ⟨src, cmp⟩ := p
      simp only
      split
      · rfl
      · obtain ⟨dst, hpl⟩ := baselinePlan_ok hp
        have pf := planFacts hk hone.proper hpl
        obtain ⟨dst', k1, k2⟩ := hone.scan env.lib (leftHashes s src) (fun t ht => hh t (leftHashes_sub ht))
        have hdst : dst' = dst := by
          have := hpl.scan
          rw [k1] at this
          cases this; rfl
        subst hdst
        have hnil : cmp.deleted = [] := by
          apply dict_empty
          intro u r hu
          obtain ⟨h1, -⟩ := (pf.cmp.deleted _ _).mp hu
          obtain ⟨names, b, t, -, hf, -⟩ := (k2 _ _).mp h1
          exact hempty _ ⟨names, rfl⟩ ⟨b, t, hf⟩
        unfold baselineSync
        rw [hnil]
        rfl

/-- C78, with nothing going wrong.  If moreover the mapping of the mirror is safe, there is a file to publish, the list has authority
over the files (or the mirror does not ask), the server delivers the files, the disk does what it is asked, there is nothing at
the destination, the times are before the last second of the year 9999, and nobody but the client has written its state file, then the sync succeeds and makes the copy. -/
theorem C78_mirror_made {c : WriteCfg} {wenv : WriteEnv} {m : Map} {cs : List FNode} {f : Str} {links : Option (List Link)}
    {before : Str → Option FileState} {cc : ClientCfg} {env : Env} {mm : Map} (h : Mirror c wenv m cs f links before cc env mm)
    (s : St) (root : Loc) (hone : OneSite cc env.cwd mm root s.world.fs) (hh : ∀ t ∈ s.hashes, HashType t) (allow_deletion : Bool)
    (hd : cc.dryrun = false) (hi : cc.ignore_failures = false) (ht : 0 < cc.tries)
    (hsafe : cc.disc.mapper.isUnsafe = .ok false) (hsome : ∃ names st, Eligible (ExcludedBy c) cs names st)
    (hauth : cc.noauth = true ∨
      ∀ names st, Eligible (ExcludedBy c) cs names st → Authorised cc.strictauth (m.src_uri ++ '/' :: f) (siteUri m names))
    (hserve : ∀ names st, Eligible (ExcludedBy c) cs names st →
      ∃ b, st.content = some b ∧ ∀ tr, env.serve tr (siteUri m names) = .body b none)
    (hmkdir : ∀ tr l, env.mkdirFails tr l = false) (hopen : ∀ tr l, env.openFails tr l = false) (hu : ∀ tr l, env.unlinkFails tr l = false)
    (hway : ∀ p, p <+: root → ¬ HasFile s.world.fs p) (hempty : ∀ l, Within root l → l ≠ root → s.world.fs.get l = none)
    (hyears : ∀ names st, Eligible (ExcludedBy c) cs names st → st.mtime < 253402300799)
    (hft : FloatOk env.ft) (ops : List (Str × Option Rat)) (hops : ∀ op ∈ ops, op.1 ≠ []) (hstate : setAll env.ft none ops = .ok s.world.state) :
    (baselineOrAudit env cc allow_deletion false s).2 = .ok () ∧
    CopyOf c cs root (baselineOrAudit env cc allow_deletion false s).1.world.fs := by
  obtain ⟨hk, src, hfound, hw, hdesc, hreg⟩ := h.finds
  have hlisted : ∀ u r, (u, r) ∈ src → ∃ names st, Eligible (ExcludedBy c) cs names st ∧ u = siteUri m names := by
    intro u r hr
    obtain ⟨-, names, st, he, hu, -⟩ := hdesc.sound u r (dget_of_mem hw.1 hr)
    exact ⟨names, st, he, hu⟩
  have hfile : ∀ names, FileListed mm src names → ∃ st, Eligible (ExcludedBy c) cs names st := by
    rintro names ⟨h1, h2, r, h3⟩
    obtain ⟨names', st, he, e⟩ := hlisted _ _ h3
    obtain ⟨p1, p2, p3⟩ := h.plain he
    rw [p3] at e
    have := uriBelow_inj h1 p1 (fun n hn => (h2 n hn).1) (fun n hn => (p2 n hn).1) e
    subst this
    exact ⟨st, he⟩
  have hno : ∀ l, Within root l → ¬ HasFile s.world.fs l := by
    rintro l hl
    by_cases e : l = root
    · rw [e]; exact hone.notFile
    · rintro ⟨b, t, hf⟩
      unfold IsFile at hf
      rw [hempty l hl e] at hf
      cases hf
  have hok := C79_baseline_succeeds_partial env hft cc allow_deletion s mm root src hone hh hk hsafe hfound (by
      obtain ⟨names, st, he⟩ := hsome
      obtain ⟨e, h1, -⟩ := hdesc.complete names st he
      rintro rfl
      cases h1) hreg (m.src_uri ++ '/' :: f) (by unfold DiscCfg.sitemap; rw [h.told]) (by simp) (by
      refine hauth.imp id ?_
      intro ha u r hr
      obtain ⟨names, st, he, rfl⟩ := hlisted u r hr
      exact ha names st he) hd ht (by
      intro u r hr tr
      obtain ⟨names, st, he, rfl⟩ := hlisted u r hr
      obtain ⟨b, -, h2⟩ := hserve names st he
      exact ⟨b, h2 tr⟩) hmkdir hopen (by
      constructor
      · intro a b ha hb hab
        obtain ⟨sa, ⟨na, pa, ra⟩, -⟩ := hfile a ha
        obtain ⟨sb, ⟨nb, pb, rb⟩, -⟩ := hfile b hb
        exact reach_file_prefix h.site.real ra rb hab
      · rintro names ⟨h1, -, -⟩
        rw [hempty _ ⟨names, rfl⟩ (by simpa using h1)]
        simp
      · rintro names - p hp hp'
        rcases List.prefix_or_prefix_of_prefix hp (List.prefix_append root names) with h1 | h1
        · exact hway p h1
        · exact hno p h1) (by
      intro u r t hr hrt
      obtain ⟨-, names, st, he, -, h5⟩ := hdesc.sound u r (dget_of_mem hw.1 hr)
      have h6 := h5.lastmod
      rw [hrt] at h6
      have h7 := hyears names st he
      have h8 : t < st.mtime + 1 / 1000000 := h6.2
      unfold Before10000
      linarith) (by
      intro names b t hf
      exact absurd ⟨b, t, hf⟩ (hno _ ⟨names, rfl⟩)) ops hops hstate
  refine ⟨hok, C78_mirror h ?_ s root hone hh allow_deletion hd hi ht hu hno hok⟩
  intro tr names st b he hb
  obtain ⟨b', h1, h2⟩ := hserve names st he
  rw [h2 tr] at hb
  cases hb
  exact h1

/-- C78, the next run.  After a successful first sync from an honest server (and if the sizes in the directory are those of the
contents), a second sync or an audit against the same list, with or without deletion, with any hash types and whatever the
server does now, finds nothing to create, update or delete, succeeds and does nothing. -/
theorem C78_then_in_sync {c : WriteCfg} {wenv : WriteEnv} {m : Map} {cs : List FNode} {f : Str} {links : Option (List Link)}
    {before : Str → Option FileState} {cc : ClientCfg} {env : Env} {mm : Map} (h : Mirror c wenv m cs f links before cc env mm)
    (hserve : Honest c m cs env) (s : St) (root : Loc) (hone : OneSite cc env.cwd mm root s.world.fs)
    (hh : ∀ t ∈ s.hashes, HashType t) (allow_deletion : Bool)
    (hd : cc.dryrun = false) (hi : cc.ignore_failures = false) (ht : 0 < cc.tries) (hu : ∀ tr l, env.unlinkFails tr l = false)
    (hempty : ∀ l, Within root l → ¬ HasFile s.world.fs l)
    (hsize : ∀ names st, Eligible (ExcludedBy c) cs names st → ∀ b, st.content = some b → st.size = (b.length : Int))
    (hok : (baselineOrAudit env cc allow_deletion false s).2 = .ok ())
    -- the second run
    (env2 : Env) (s2 : St) (audit_only allow2 : Bool) (hcwd : env2.cwd = env.cwd) (hsrc : env2.sources = env.sources)
    (hfs : s2.world.fs = (baselineOrAudit env cc allow_deletion false s).1.world.fs) (hh2 : ∀ t ∈ s2.hashes, HashType t) :
    (∃ src cmp, (baselinePlan env2 cc audit_only s2).2 = .ok (src, cmp) ∧ cmp.created = [] ∧ cmp.updated = [] ∧ cmp.deleted = []) ∧
    (baselineOrAudit env2 cc allow2 audit_only s2).2 = .ok () ∧
    doneBetween s2 (baselineOrAudit env2 cc allow2 audit_only s2).1 = [] ∧
    (baselineOrAudit env2 cc allow2 audit_only s2).1.world = s2.world := by
  obtain ⟨hk, src, hfound, hw, hdesc, hreg⟩ := h.finds
  rw [baseline_empty hone hh hk hempty] at hok hfs
  obtain ⟨⟨cmp, h1⟩, h2⟩ := C51_partial env cc s mm root src hone hh hk hfound hreg hd hi ht hu (by
      intro u r hr
      obtain ⟨-, names, st, he, -, hen⟩ := hdesc.sound u r (dget_of_mem hw.1 hr)
      have := hen.lastmod
      intro e
      rw [e] at this
      exact this) (by
      intro u r hr tr b hb n hn
      obtain ⟨-, names, st, he, rfl, hen⟩ := hdesc.sound u r (dget_of_mem hw.1 hr)
      have h1 := hen.length
      rw [hn] at h1
      cases h1
      exact hsize names st he b (hserve tr names st b he hb)) hok env2 s2 audit_only allow2 hcwd (by rw [hsrc]; exact hfound) hfs hh2
  exact ⟨⟨src, cmp, h1⟩, h2⟩

namespace MirrorExample

def sta : Stat := { mtime := 5, size := 2, content := some [1, 2] }
def stb : Stat := { mtime := 7, size := 1, content := some [9] }

/-- the directory /d to be published: a, sub/b, .git/c and a link -/
def tree : List FNode :=
  [.file "a".toList false (some sta), .dir "sub".toList true [.file "b".toList false (some stb)],
   .dir ".git".toList true [.file "c".toList false (some stb)], .link "l".toList false (some stb)]

def disk : Disk := { resolve := fun p => if p = "/d".toList then some (.dir "d".toList true tree) else none, islink := fun _ => false }

def m : Map := { src_uri := "http://h".toList, dst_path := "/d".toList }

/-- one entry per document -/
def cfg : WriteCfg where
  mapper := [m]
  hashes := ["md5".toList]
  exclude_patterns := [".git".toList]
  max_sitemap_entries := some 1

def wenv : WriteEnv := { WriteExample.env with disk := disk }

theorem reach_cases {names : List Str} {n : FNode} (h : Reach tree names n) :
    (names = ["a".toList] ∧ n = .file "a".toList false (some sta)) ∨ (∃ ds, names = ["sub".toList] ∧ n = .dir "sub".toList true ds) ∨
    (names = ["sub".toList, "b".toList] ∧ n = .file "b".toList false (some stb)) ∨
    (∃ ds, names = [".git".toList] ∧ n = .dir ".git".toList true ds) ∨
    (names = [".git".toList, "c".toList] ∧ n = .file "c".toList false (some stb)) ∨
    (names = ["l".toList] ∧ n = .link "l".toList false (some stb)) := by
  cases h with
  | here h =>
    simp only [tree, List.mem_cons, List.not_mem_nil, or_false] at h
    rcases h with rfl | rfl | rfl | rfl <;> simp [FNode.name]
  | sub h h' =>
    simp only [tree, List.mem_cons, List.not_mem_nil, or_false, reduceCtorEq, false_or, FNode.dir.injEq] at h
    rcases h with ⟨rfl, -, rfl⟩ | ⟨rfl, -, rfl⟩
    all_goals
      cases h' with
      | here h =>
        simp only [List.mem_cons, List.not_mem_nil, or_false] at h
        subst h
        simp [FNode.name]
      | sub h _ => simp at h

theorem real : RealDir tree := by
  refine .mk (by decide) (by decide) ?_
  intro name r ds h
  simp only [tree, List.mem_cons, List.not_mem_nil, or_false, reduceCtorEq, false_or, FNode.dir.injEq] at h
  rcases h with ⟨-, -, rfl⟩ | ⟨-, -, rfl⟩
  · exact .mk (by decide) (by decide) (by intro _ _ _ h; simp at h)
  · exact .mk (by decide) (by decide) (by intro _ _ _ h; simp at h)

theorem reach_names' {names : List Str} {n : FNode} (h : Reach tree names n) :
    ∀ x ∈ names, x ∈ ["a".toList, "sub".toList, "b".toList, ".git".toList, "c".toList, "l".toList] := by
  rcases reach_cases h with ⟨rfl, -⟩ | ⟨_, rfl, -⟩ | ⟨rfl, -⟩ | ⟨_, rfl, -⟩ | ⟨rfl, -⟩ | ⟨rfl, -⟩ <;> decide

theorem site : Site cfg wenv m tree where
  mapper := rfl
  src_literal := by unfold LiteralOrDot; decide
  src_line := by unfold OneLine; decide
  src_chars := by unfold XmlOk; decide
  dst_literal := by unfold LiteralOrDot; decide
  dst_line := by unfold OneLine; decide
  dst_ne := by decide
  dst_slash := by decide
  dir := ⟨"d".toList, rfl⟩
  real := real
  patterns := by
    have h : ∀ p ∈ cfg.exclude_patterns, (compile p).toOption.isSome := by decide +kernel
    intro p hp
    have := h p hp
    cases hc : compile p with
    | error e => rw [hc] at this; cases this
    | ok re => exact ⟨re, rfl⟩
  names := by
    intro names n h x hx
    have all : ∀ y ∈ ["a".toList, "sub".toList, "b".toList, ".git".toList, "c".toList, "l".toList],
      OneLine y ∧ XmlOk y ∧ '\r' ∉ y := by unfold OneLine XmlOk; decide
    exact all x (reach_names' h x hx)
  times := by
    intro names nm sp s h
    have : s = sta ∨ s = stb := by
      rcases reach_cases h with ⟨-, h⟩ | ⟨_, -, h⟩ | ⟨-, h⟩ | ⟨_, -, h⟩ | ⟨-, h⟩ | ⟨-, h⟩ <;> cases h
      · exact .inl rfl
      · exact .inr rfl
      · exact .inr rfl
    rcases this with rfl | rfl
    · show InYears 5
      unfold InYears; constructor <;> norm_num
    · show InYears 7
      unfold InYears; constructor <;> norm_num
  hash_types := by decide
  readable := by
    intro _ names nm sp s h
    rcases reach_cases h with ⟨-, h⟩ | ⟨_, -, h⟩ | ⟨-, h⟩ | ⟨_, -, h⟩ | ⟨-, h⟩ | ⟨-, h⟩ <;> cases h <;> simp [sta, stb]
  digests := WriteExample.site.digests
  scan := WriteExample.site.scan

def written : Output := (writeResourceList cfg wenv none (some "/d/list.xml".toList) none false).1

/-- the documents under http://h/ are the files below /d/ -/
def served (u : Str) : Option Elem :=
  match u with
  | 'h' :: 't' :: 't' :: 'p' :: ':' :: '/' :: '/' :: 'h' :: '/' :: g => fileDoc (runFs (fun _ => none) written.files ("/d/".toList ++ g))
  | _ => none

def mm : Map := { src_uri := "http://h".toList, dst_path := "/e".toList }

def cc : ClientCfg where
  disc := { mapper := [mm], sitemap_name := some "http://h/list.xml".toList }

def menv : Env := { ClientExample.env [] [] [] with
  sources := Sources.ofDocs served [mm] true (fun _ => false)
  serve := fun _ u => if u = "http://h/a".toList then .body [1, 2] none else .body [9] none }

/-- a disk without anything -/
def start : St := { world := { fs := [] } }

theorem mirror : Mirror cfg wenv m tree "list.xml".toList none (fun _ => none) cc menv mm where
  site := site
  multi := rfl
  file := ⟨by unfold OneLine; decide, by unfold XmlOk; decide, by decide⟩
  linksOk := by simp
  stat := WriteExample.statOk
  dots := by
    intro names n h x hx
    have all : ∀ y ∈ ["a".toList, "sub".toList, "b".toList, ".git".toList, "c".toList, "l".toList],
      y ≠ ".".toList ∧ y ≠ "..".toList := by decide
    exact all x (reach_names' h x hx)
  scheme := .inl ⟨"//h".toList, rfl⟩
  same := rfl
  found := ⟨served, _, rfl, fun g => rfl⟩
  told := rfl

theorem one : OneSite cc menv.cwd mm ["e".toList] start.world.fs where
  mapper := rfl
  src := by unfold LiteralOrDot OneLine; decide
  dst := by unfold LiteralOrDot OneLine; decide
  place := by decide
  proper := ClientExample.properFs_of (by decide) (by decide) (by decide) (by decide)
  names := by decide
  cwdNames := by intro n hn; cases hn
  notFile := by rintro ⟨b, t, h⟩; cases h

theorem not_excluded : ¬ ExcludedBy cfg "a".toList := by
  rintro ⟨p, hp, re, hc, x, hx⟩
  simp only [cfg, List.mem_cons, List.not_mem_nil, or_false] at hp
  subst hp
  have key : (match compile ".git".toList with
    | .ok re => (re.matchStart "a".toList).isNone
    | .error _ => true) = true := by decide +kernel
  rw [hc] at key
  simp only [hx] at key
  cases key

theorem eligible_cases : ∀ names st, Eligible (ExcludedBy cfg) tree names st →
    names = ["a".toList] ∧ st = sta ∨ names = ["sub".toList, "b".toList] ∧ st = stb ∨ names = [".git".toList, "c".toList] ∧ st = stb := by
  rintro names st ⟨⟨nm, sp, h⟩, -⟩
  rcases reach_cases h with ⟨hn, h⟩ | ⟨_, -, h⟩ | ⟨hn, h⟩ | ⟨_, -, h⟩ | ⟨hn, h⟩ | ⟨-, h⟩ <;> cases h
  · exact .inl ⟨hn, rfl⟩
  · exact .inr (.inl ⟨hn, rfl⟩)
  · exact .inr (.inr ⟨hn, rfl⟩)

theorem late : ∀ names st, Eligible (ExcludedBy cfg) tree names st → st.mtime < 253402300799 := by
  intro names st h
  rcases eligible_cases names st h with ⟨-, rfl⟩ | ⟨-, rfl⟩ | ⟨-, rfl⟩ <;> decide +kernel

/-- all hypotheses hold: /e becomes a copy of /d without .git -/
theorem made : (baselineOrAudit menv cc false false start).2 = .ok () ∧
    CopyOf cfg tree ["e".toList] (baselineOrAudit menv cc false false start).1.world.fs := by
  refine C78_mirror_made mirror start ["e".toList] one (by simp [start]) false rfl rfl (by decide) (by decide +kernel)
    ⟨["a".toList], sta, ⟨⟨"a".toList, false, .here (n := .file "a".toList false (some sta)) (by simp [tree])⟩, ?_⟩⟩ (.inr ?_) ?_ (fun _ _ => rfl) (fun _ _ => rfl)
    (fun _ _ => rfl) ?_ ?_ late ratFt_ok [] (by simp) rfl
  · intro x hx
    simp only [List.mem_cons, List.not_mem_nil, or_false] at hx
    subst hx
    exact not_excluded
  · intro names st h
    rcases eligible_cases names st h with ⟨rfl, rfl⟩ | ⟨rfl, rfl⟩ | ⟨rfl, rfl⟩ <;> exact ⟨_, rfl, by decide +kernel⟩
  · intro names st h
    rcases eligible_cases names st h with ⟨rfl, rfl⟩ | ⟨rfl, rfl⟩ | ⟨rfl, rfl⟩
    · exact ⟨_, rfl, fun _ => rfl⟩
    · exact ⟨_, rfl, fun _ => rfl⟩
    · exact ⟨_, rfl, fun _ => rfl⟩
  · rintro p - ⟨b, t, h⟩
    unfold IsFile at h
    cases p <;> cases h
  · intro l h1 h2
    cases l with
    | nil => simp [Within] at h1
    | cons x t => rfl

/-- and the next run, with deletion, has nothing to do -/
example : doneBetween (baselineOrAudit menv cc false false start).1
    (baselineOrAudit menv cc true false (baselineOrAudit menv cc false false start).1).1 = [] := by
  refine (C78_then_in_sync mirror ?_ start ["e".toList] one (by simp [start]) false rfl rfl (by decide) (fun _ _ => rfl) ?_ ?_ made.1 menv _ false true rfl rfl
    rfl ?_).2.2.1
  · intro tr names st b h hb
    rcases eligible_cases names st h with ⟨rfl, rfl⟩ | ⟨rfl, rfl⟩ | ⟨rfl, rfl⟩ <;> cases hb <;> rfl
  · rintro l - ⟨b, t, h⟩
    unfold IsFile at h
    cases l <;> cases h
  · intro names st h b hb
    rcases eligible_cases names st h with ⟨rfl, rfl⟩ | ⟨rfl, rfl⟩ | ⟨rfl, rfl⟩ <;> cases hb <;> rfl
  · have : (baselineOrAudit menv cc false false start).1.hashes = [] := by decide +kernel
    simp [this]

end MirrorExample

end Resync
