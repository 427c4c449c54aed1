import Verif.Proofs.ClientWrite
/-
C73: what a published resource list says about the directory.
-/

namespace Resync
open Py Resync.Spec

/-- whoever reads the list from the server gets each document that was written under the URI of its file -/
def Serves (m : Map) (fs : Str → Option FileState) (docAt : Str → Option Elem) : Prop :=
  ∀ g, docAt (m.src_uri ++ '/' :: g) = fileDoc (fs (m.dst_path ++ '/' :: g))

theorem write_site {c : WriteCfg} {env : WriteEnv} {m : Map} {cs : List FNode} (site : Site c env m cs)
    (links : Option (List Link)) (outfile : Option Str) :
    ∃ (rl : ListObj) (ex : List Re), WF rl.dict ∧ iterAll rl.dict = .ok rl.obj.resources ∧
      rl.obj = { resources := rl.obj.resources, md := scanTimes env, capability_name := some "resourcelist".toList,
                 allow_multifile := c.allow_multifile, mapper := some c.mapper,
                 max_sitemap_entries := some (c.max_sitemap_entries.getD 50000) } ∧
      (∀ u r, dget rl.dict u = some r ↔ ∃ names st, Eligible (ExcludedBy c) cs names st ∧ u = siteUri m names ∧
        r = describes (clientBuilder c ex false) env.lib u (m.dst_path ++ '/' :: join ['/'] names) st) ∧
      ∀ f, writeResourceList c env none (some f) links false =
        LBI.writeTo { rl.obj with ln := links.getD rl.obj.ln } env f := by
  obtain ⟨rl, ex, h1, h2, h3, h4, h5⟩ := build_site site false
  refine ⟨rl, ex, h2, h3, h4, h5, ?_⟩
  intro f
  unfold writeResourceList
  rw [h1]
  rfl

theorem writeTo_files (l : LBI) (env : WriteEnv) (f : Str) : (l.writeTo env f).1.files = (l.write env.stat f).1 := by
  unfold LBI.writeTo
  split <;> rename_i h <;> rw [h]

theorem writeTo_ok (l : LBI) (env : WriteEnv) (f : Str) : (l.writeTo env f).2 = .ok () ↔ (l.write env.stat f).2 = .ok () := by
  unfold LBI.writeTo
  split <;> rename_i h <;> rw [h] <;> simp

theorem isFileUri_http (uw : Char → Bool) (t : Str) : isFileUri uw ("http:".toList ++ t) = false := by
  show isFileUri uw ('h' :: 't' :: 't' :: 'p' :: ':' :: t) = false
  simp [isFileUri, schemeMatch34, startsWith, isWord, List.isPrefixOf]
  decide

theorem isFileUri_https (uw : Char → Bool) (t : Str) : isFileUri uw ("https:".toList ++ t) = true := by
  show isFileUri uw ('h' :: 't' :: 't' :: 'p' :: 's' :: ':' :: t) = true
  simp [isFileUri, schemeMatch34]

/-- the list that is read, entry by entry what the scan has found -/
theorem published_near (c : WriteCfg) (env : WriteEnv) (m : Map) (cs : List FNode) (site : Site c env m cs)
    (hmulti : c.allow_multifile = true) (f : Str) (hf : TextOk f) (links : Option (List Link))
    (hln : ∀ x ∈ links.getD [], LinkOk x) (hstat : StatOk env.stat) (before : Str → Option FileState)
    (cfg : ReadCfg) (hcfg : cfg.sitemap = {} ∧ cfg.capability_name = some "resourcelist".toList ∧ cfg.allow_multifile = true)
    (hscheme : (∃ t, m.src_uri = "http:".toList ++ t) ∨ (∃ t, m.src_uri = "https:".toList ++ t) ∧ cfg.check_url_authority = false)
    (hserve : Serves m (runFs before
      (writeResourceList c env none (some (m.dst_path ++ '/' :: f)) links false).1.files) cfg.docAt) :
    (writeResourceList c env none (some (m.dst_path ++ '/' :: f)) links false).2 = .ok () ∧
    ∃ (l : Cont (Dict Resource)) (d : Dict Resource) (ex : List Re), readList cfg { resources := [] } (m.src_uri ++ '/' :: f) = .ok l ∧
      SameListNear false false d l.resources ∧
      (∀ u r, dget d u = some r ↔ ∃ names st, Eligible (ExcludedBy c) cs names st ∧ u = siteUri m names ∧
        r = describes (clientBuilder c ex false) env.lib u (m.dst_path ++ '/' :: join ['/'] names) st) ∧
      dget l.md "capability".toList = some "resourcelist".toList ∧
      dget l.md "md_at".toList = some env.scan_start ∧ dget l.md "md_completed".toList = some env.scan_end ∧
      ((∀ x ∈ links.getD [], dget x "rel".toList ≠ some "index".toList) → SameLinks (links.getD []) l.ln) := by
  obtain ⟨rl, ex, h1, h2, h3, h4, h5⟩ := write_site site links (some (m.dst_path ++ '/' :: f))
  rw [h5, writeTo_files] at hserve
  rw [h5, writeTo_ok]
  obtain ⟨d, l⟩ := rl
  simp only at h1 h2 h3 h4 hserve ⊢
  have hmd : defaultCapability (scanTimes env) (some "resourcelist".toList) = [(kMdAt, env.scan_start),
      (kMdCompleted, env.scan_end), (kCapability, "resourcelist".toList)] := rfl
  have e1 : l.md = scanTimes env := by rw [h3]
  have e2 : l.capability_name = some "resourcelist".toList := by rw [h3]
  have e3 : l.ln = [] := by rw [h3]
  have e4 : l.sitemap = {} := by rw [h3]
  have e5 : l.allow_multifile = true := by rw [h3]; exact hmulti
  have e6 : l.mapper = some c.mapper := by rw [h3]
  have e7 : l.max_sitemap_entries = some (c.max_sitemap_entries.getD 50000) := by rw [h3]
  have e8 : l.sitemapindex = false := by rw [h3]
  have hpart : ∀ i, partName (m.dst_path ++ '/' :: f) i = m.dst_path ++ '/' :: partName f i := partName_below _ _
  have hmb := site_mapsBack site hf
  have key := C31_any_time_remote_partial d h1 (by
      intro k r hr
      obtain ⟨names, st, h6, rfl, rfl⟩ := (h4 k r).mp hr
      exact site_expressible site h6 _)
    { l with ln := links.getD l.ln } h2 _ e7 e8 e5 "resourcelist".toList e2 (by
      show dget (defaultCapability l.md l.capability_name) _ = _
      rw [e1, e2, hmd]; rfl) (by
      show MdOk _ (defaultCapability l.md l.capability_name)
      rw [e1, e2, hmd, e4]
      refine ⟨show List.Nodup [kMdAt, kMdCompleted, kCapability] by decide,
        show ∀ k ∈ [kMdAt, kMdCompleted, kCapability], k ∈ mdAttKeys {} by decide, ?_, by unfold ValidChange; exact .inl rfl, ?_⟩
      · intro k v hv
        simp only [dget] at hv
        split at hv
        · cases hv; exact site.scan.1
        · split at hv
          · cases hv; exact site.scan.2
          · split at hv
            · cases hv; unfold XmlOk; decide
            · cases hv
      · intro v hv
        exact absurd hv (by rw [show dget _ "length".toList = none from rfl]; simp))
    (by
      intro x hx
      rw [e3] at hx; exact hln x hx)
    c.mapper e6 (m.dst_path ++ '/' :: f) env.stat cfg ⟨by rw [hcfg.1]; exact e4.symm, hcfg.2.1, hcfg.2.2⟩ (m.src_uri ++ '/' :: f)
    hmb.out hmb.chars (by
      rcases hscheme with ⟨t, ht⟩ | ⟨⟨t, ht⟩, hau⟩
      · left; rw [ht, List.append_assoc]; exact isFileUri_http _ _
      · right
        refine ⟨hau, ?_⟩
        intro i _ u hu
        rw [hpart, site_dstToSrc site (textOk_partName hf i).1] at hu
        rw [← Except.ok.inj hu, ht, List.append_assoc]; exact isFileUri_https _ _)
    (by
      intro i _
      rw [hpart]
      exact ⟨⟨_, site_mapsBack site (textOk_partName hf i)⟩, by rw [← hpart]; exact hstat _⟩)
    before (by
      intro p u hp hu
      have : ∃ g, OneLine g ∧ p = m.dst_path ++ '/' :: g := by
        rcases hp with rfl | ⟨i, rfl⟩
        · exact ⟨f, hf.1, rfl⟩
        · exact ⟨_, (textOk_partName hf i).1, hpart i⟩
      obtain ⟨g, hg, rfl⟩ := this
      rw [site_dstToSrc site hg] at hu
      rw [← Except.ok.inj hu]
      exact hserve g)
  obtain ⟨k1, c', k2, k3, k4, k5⟩ := key
  refine ⟨k1, c', d, ex, k2, ?_, h4, ?_⟩
  · rw [e4] at k3
    exact k3
  · have k4 : SameMap [(kMdAt, env.scan_start), (kMdCompleted, env.scan_end), (kCapability, "resourcelist".toList)] c'.md := by
      rw [← hmd, ← e1, ← e2]; exact k4
    refine ⟨(k4 _).symm, (k4 _).symm, (k4 _).symm, ?_⟩
    rw [e3] at k5; exact k5

/-- C73.  In the usual situation (see `Site`), `write_resource_list` to a file `f` of the directory succeeds, whatever the number
of files and the limit of entries per document, and whoever reads the list from the server gets exactly one entry for each file
that is not excluded, describing it, the times of the scan, and the given links (which are
not to contain one to an index: that relation is set by the program).  Missing: directories with a file name that XML cannot express
(C73_violated). -/
theorem C73_published_list_partial (c : WriteCfg) (env : WriteEnv) (m : Map) (cs : List FNode) (site : Site c env m cs)
    (hmulti : c.allow_multifile = true) (f : Str) (hf : TextOk f) (links : Option (List Link))
    (hln : ∀ x ∈ links.getD [], LinkOk x) (hstat : StatOk env.stat) (before : Str → Option FileState)
    (cfg : ReadCfg) (hcfg : cfg.sitemap = {} ∧ cfg.capability_name = some "resourcelist".toList ∧ cfg.allow_multifile = true)
    (hscheme : (∃ t, m.src_uri = "http:".toList ++ t) ∨ (∃ t, m.src_uri = "https:".toList ++ t) ∧ cfg.check_url_authority = false)
    (hserve : Serves m (runFs before
      (writeResourceList c env none (some (m.dst_path ++ '/' :: f)) links false).1.files) cfg.docAt) :
    (writeResourceList c env none (some (m.dst_path ++ '/' :: f)) links false).2 = .ok () ∧
    ∃ l, readList cfg { resources := [] } (m.src_uri ++ '/' :: f) = .ok l ∧ DescribesDir c env.lib m cs l.resources ∧
      dget l.md "capability".toList = some "resourcelist".toList ∧
      dget l.md "md_at".toList = some env.scan_start ∧ dget l.md "md_completed".toList = some env.scan_end ∧
      ((∀ x ∈ links.getD [], dget x "rel".toList ≠ some "index".toList) → SameLinks (links.getD []) l.ln) := by
  obtain ⟨k1, l, d, ex, k2, k3, k4, k5⟩ := published_near c env m cs site hmulti f hf links hln hstat before cfg hcfg hscheme hserve
  exact ⟨k1, l, k2, describesDir_of k4 k3, k5⟩

namespace WriteExample
open BuilderExample (tree m st disk)

theorem tree_real : RealDir tree := by
  refine .mk (by decide) (by decide) ?_
  intro name r ds h
  simp only [tree, List.mem_cons, List.not_mem_nil, or_false, reduceCtorEq, false_or, FNode.dir.injEq] at h
  rcases h with ⟨-, -, rfl⟩ | ⟨-, -, rfl⟩
  · exact .mk (by decide) (by decide) (by intro _ _ _ h; simp at h)
  · exact .mk (by decide) (by decide) (by intro _ _ _ h; simp at h)

/-- everything in the tree -/
theorem tree_reach {names : List Str} {n : FNode} (h : Reach tree names n) :
    (∀ x ∈ names, x ∈ ["a".toList, "sub".toList, ".git".toList, "l".toList, "b".toList, "x.bak".toList, "c".toList]) ∧
    ∀ s, n.stat = some s → ∃ k, s = st k := by
  cases h with
  | here h =>
    simp only [tree, List.mem_cons, List.not_mem_nil, or_false] at h
    rcases h with rfl | rfl | rfl | rfl <;> refine ⟨by decide, ?_⟩ <;> intro s hs <;>
      simp only [FNode.stat, Option.some.injEq, reduceCtorEq] at hs
    · exact ⟨_, hs.symm⟩
    · exact ⟨_, hs.symm⟩
  | sub h h' =>
    simp only [tree, List.mem_cons, List.not_mem_nil, or_false, reduceCtorEq, false_or, FNode.dir.injEq] at h
    rcases h with ⟨rfl, -, rfl⟩ | ⟨rfl, -, rfl⟩
    · cases h' with
      | here h =>
        simp only [List.mem_cons, List.not_mem_nil, or_false] at h
        rcases h with rfl | rfl <;> refine ⟨by decide, ?_⟩ <;> intro s hs <;>
          simp only [FNode.stat, Option.some.injEq] at hs <;> exact ⟨_, hs.symm⟩
      | sub h _ => simp at h
    · cases h' with
      | here h =>
        simp only [List.mem_cons, List.not_mem_nil, or_false] at h
        subst h
        refine ⟨by decide, ?_⟩
        intro s hs
        simp only [FNode.stat, Option.some.injEq] at hs
        exact ⟨_, hs.symm⟩
      | sub h _ => simp at h

/-- one entry per document, so that an index is needed -/
def cfg : WriteCfg where
  mapper := [m]
  hashes := ["md5".toList]
  exclude_patterns := [".git".toList, "x".toList]
  max_sitemap_entries := some 1

def env : WriteEnv where
  lib := { md5 := fun _ => "d41d8cd9".toList, sha1 := fun _ => [], sha256 := fun _ => [] }
  disk := disk
  scan_start := "2020-01-01T00:00:00Z".toList
  scan_end := "2020-01-01T00:00:01Z".toList
  stat := exEnv
  docAt := fun _ => none

theorem site : Site cfg env m tree where
  mapper := rfl
  src_literal := by unfold LiteralOrDot; decide
  src_line := by unfold OneLine; decide
  src_chars := by unfold XmlOk; decide
  dst_literal := by unfold LiteralOrDot; decide
  dst_line := by unfold OneLine; decide
  dst_ne := by decide
  dst_slash := by decide
  dir := ⟨"d".toList, rfl⟩
  real := tree_real
  patterns := by
    have h : ∀ p ∈ cfg.exclude_patterns, (compile p).toOption.isSome := by decide +kernel
    intro p hp
    have := h p hp
    cases hc : compile p with
    | error e => rw [hc] at this; cases this
    | ok re => exact ⟨re, rfl⟩
  names := by
    intro names n h x hx
    have := (tree_reach h).1 x hx
    have all : ∀ y ∈ ["a".toList, "sub".toList, ".git".toList, "l".toList, "b".toList, "x.bak".toList, "c".toList],
      OneLine y ∧ XmlOk y ∧ '\r' ∉ y := by unfold OneLine XmlOk; decide
    exact all x this
  times := by
    intro names nm sp s h
    obtain ⟨k, rfl⟩ := (tree_reach h).2 s rfl
    show InYears 5
    unfold InYears; constructor <;> norm_num
  hash_types := by decide
  readable := by
    intro _ names nm sp s h
    obtain ⟨k, rfl⟩ := (tree_reach h).2 s rfl
    simp [st]
  digests := by
    intro b
    refine ⟨?_, ?_, ?_⟩
    · show XmlOk "d41d8cd9".toList ∧ NoSpace "d41d8cd9".toList
      unfold XmlOk NoSpace; decide
    · show XmlOk [] ∧ NoSpace []
      unfold XmlOk NoSpace; decide
    · show XmlOk [] ∧ NoSpace []
      unfold XmlOk NoSpace; decide
  scan := by
    show XmlOk "2020-01-01T00:00:00Z".toList ∧ XmlOk "2020-01-01T00:00:01Z".toList
    unfold XmlOk; decide

theorem statOk : StatOk exEnv := by
  intro p
  refine ⟨?_, ?_⟩
  · show InYears 0
    unfold InYears; constructor <;> norm_num
  · show XmlOk "Q2hlY2sgSW50ZWdyaXR5IQ==".toList ∧ NoSpace "Q2hlY2sgSW50ZWdyaXR5IQ==".toList
    unfold XmlOk NoSpace; decide

def written : Output := (writeResourceList cfg env none (some "/d/list.xml".toList) none false).1

/-- the server: under http://h/x the file /d/x -/
def served (u : Str) : Option Elem :=
  match u with
  | 'h' :: 't' :: 't' :: 'p' :: ':' :: '/' :: '/' :: 'h' :: '/' :: g => fileDoc (runFs (fun _ => none) written.files ("/d/".toList ++ g))
  | _ => none

/-- all hypotheses hold: the list, in an index and two documents, describes the directory -/
example : ∃ l, readList { docAt := served } { resources := [] } "http://h/list.xml".toList = .ok l ∧
    DescribesDir cfg env.lib m tree l.resources := by
  obtain ⟨-, l, h1, h2, -⟩ := C73_published_list_partial cfg env m tree site rfl "list.xml".toList
    ⟨by unfold OneLine; decide, by unfold XmlOk; decide, by decide⟩ none (by simp) statOk (fun _ => none)
    { docAt := served } ⟨rfl, rfl, rfl⟩ (.inl ⟨"//h".toList, rfl⟩) (fun g => rfl)
  exact ⟨l, h1, h2⟩

/-- the files written -/
example : (Spec.written written.files).map (·.1) = ["/d/list00000.xml".toList, "/d/list00001.xml".toList, "/d/list.xml".toList] := by
  decide +kernel

/-- an eligible file and one that is not -/
example : Eligible (ExcludedBy cfg) tree ["sub".toList, "b".toList] (st 2) ∧ ¬ Eligible (ExcludedBy cfg) tree [".git".toList, "c".toList] (st 4) := by
  have he : ∀ x, ExcludedBy cfg x ↔ Builder.exclude (clientBuilder cfg BuilderExample.dotGit false) x = true := by
    have hc : compileExcludes cfg.exclude_patterns = .ok BuilderExample.dotGit := by rfl
    obtain ⟨ex, h1, h2⟩ := compileExcludes_ok site.patterns
    rw [hc] at h1; cases h1
    intro x
    simp only [Builder.exclude, List.any_eq_true, Option.isSome_iff_exists]
    constructor
    · rintro ⟨p, hp, re, h3, h4⟩
      exact ⟨re, (h2 re).mpr ⟨p, hp, h3⟩, h4⟩
    · rintro ⟨re, h3, h4⟩
      obtain ⟨p, hp, h5⟩ := (h2 re).mp h3
      exact ⟨p, hp, re, h5, h4⟩
  constructor
  · refine ⟨⟨"b".toList, false, .sub (name := "sub".toList)
      (ds := [.file "b".toList false (some (st 2)), .file "x.bak".toList false (some (st 3))])
      (List.mem_cons_of_mem _ List.mem_cons_self) (.here (n := .file "b".toList false (some (st 2))) List.mem_cons_self)⟩, ?_⟩
    intro x hx
    rw [he]
    revert x
    decide +kernel
  · rintro ⟨-, h⟩
    exact h ".git".toList (by simp) ((he _).mpr (by decide +kernel))

/-- a name with a character that XML does not allow -/
def badDisk : Disk := { resolve := fun p => if p = "/d".toList then some (.dir "d".toList true
                          [.file "a".toList false (some (st 1)), .file ['b', Char.ofNat 1] false (some (st 2))]) else none
                        islink := fun _ => false }

end WriteExample

/-- One file with such a name, and the list is written without complaint but cannot be read at all. -/
theorem C73_violated : ∃ (c : WriteCfg) (env : WriteEnv) (m : Map) (cs : List FNode) (cfg : ReadCfg),
    c.mapper = [m] ∧ RealDir cs ∧ (∃ nm, env.disk.resolve m.dst_path = some (.dir nm true cs)) ∧
    (writeResourceList c env none (some (m.dst_path ++ "/list.xml".toList)) none false).2 = .ok () ∧
    Serves m (runFs (fun _ => none)
      (writeResourceList c env none (some (m.dst_path ++ "/list.xml".toList)) none false).1.files) cfg.docAt ∧
    (match readList cfg { resources := [] } (m.src_uri ++ "/list.xml".toList) with | .error e => e = .io | .ok _ => False) := by
  let c : WriteCfg := { mapper := [BuilderExample.m] }
  let env : WriteEnv := { WriteExample.env with disk := WriteExample.badDisk }
  let out := (writeResourceList c env none (some "/d/list.xml".toList) none false).1.files
  let served (u : Str) : Option Elem := match u with
    | 'h' :: 't' :: 't' :: 'p' :: ':' :: '/' :: '/' :: 'h' :: '/' :: g => fileDoc (runFs (fun _ => none) out ("/d/".toList ++ g))
    | _ => none
  refine ⟨c, env, BuilderExample.m, _, { docAt := served }, rfl, ?_, ⟨"d".toList, rfl⟩, by decide +kernel, fun g => rfl, ?_⟩
  · refine .mk (by decide) (by decide) ?_
    intro name r ds h
    simp at h
  · have h : (match readList { docAt := served } { resources := [] } "http://h/list.xml".toList with
      | .error e => decide (e = .io) | .ok _ => false) = true := by decide +kernel
    show (match readList { docAt := served } { resources := [] } "http://h/list.xml".toList with
      | .error e => e = .io | .ok _ => False)
    revert h
    cases readList { docAt := served } { resources := [] } "http://h/list.xml".toList with
    | error e => intro h; exact of_decide_eq_true h
    | ok c => intro h; cases h

end Resync
