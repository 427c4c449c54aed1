import Verif.Props.ScriptsCopy
import Verif.Props.ChangeDocs
import Verif.Props.ClientDescribe
import Verif.Props.ClientUtils
/-
C81: what resync-build writes, and what it does with its options.
-/

namespace Resync
open Py Resync.Spec

/-- the link an option asks for -/
def optLink (rel : Str) : Option Str → List Link
  | none => []
  | some href => if href = [] then [] else [[("rel".toList, rel), ("href".toList, href)]]

theorem insertLink_eq (rel : Str) (o : Option Str) (l : List Link) : insertLink rel o l = optLink rel o ++ l := by
  rcases o with _ | _ | ⟨c, t⟩ <;> rfl

/-- The options can be used: --checksum comes with --hash, the mapping arguments make a mapping (or there are none), and the
texts of the --link options stand for the links `more`. -/
structure BuildOk (env : WriteEnv) (a : BuildArgs) (mapper : Mapper) (more : List Link) : Prop where
  checksum : a.checksum = true → a.hash ≠ none
  map : mappings env.uw a.map = .ok mapper
  link : parseLinks a.link = .ok more

theorem processShared_build {a : SharedArgs} (h : a.checksum = true → a.hash ≠ none) :
    ∃ hash, processShared a false = some (hash, []) ∧ hash.getD [] = a.hashTypes := by
  obtain ⟨hash, h1, h2⟩ := hashOption_ok h
  refine ⟨hash, ?_, h2⟩
  unfold processShared
  rw [h1]
  simp

/-- C81 (capability list).  resync-build --write-capabilitylist 'name=uri,...' --outfile f, with different names and URIs, ends
with status 0; the document in `f`, read as a capability list, has exactly these names and URIs, and the links that the options
ask for: the one to the description, then "up" to the source description, then those of --link.  --capabilitylist-link is not
used here. -/
theorem C81_capability_list (env : WriteEnv) (a : BuildArgs) (mapper : Mapper) (more : List Link) (hok : BuildOk env a mapper more)
    (ps : Dict Str) (hne : ps ≠ []) (htext : ∀ p ∈ ps, '=' ∉ p.1 ∧ '=' ∉ p.2 ∧ ',' ∉ p.1 ∧ ',' ∉ p.2)
    (hmode : a.mode = .capabilitylist (join [','] (ps.map pairText)))
    (hnames : (ps.map (·.1)).Nodup) (hdist : (ps.map (·.2)).Nodup)
    (hchars : ∀ n u, (n, u) ∈ ps → (u ≠ [] ∧ XmlOk u ∧ '\r' ∉ u) ∧ XmlOk n)
    (hln : ∀ x ∈ optLink "describedby".toList a.describedby_link ++ (optLink "up".toList a.sourcedescription_link ++ more), LinkOk x)
    (f : Str) (hf : a.outfile = some f) (before : Str → Option FileState) :
    (buildMain env a).exit.status = 0 ∧ (buildMain env a).dumps = [] ∧
    ∃ doc c n, fileDoc (runFs before (buildMain env a).files f) = some doc ∧
      parseXml {} listAdd { resources := [] } doc (some "capabilitylist".toList) none = .ok (c, false, n) ∧
      (∀ name uri, (uri, some name) ∈ c.resources.map announces ↔ (name, uri) ∈ ps) ∧ c.resources.length = ps.length ∧
      SameLinks (optLink "describedby".toList a.describedby_link ++ (optLink "up".toList a.sourcedescription_link ++ more)) c.ln := by
  obtain ⟨hash, h1, h2⟩ := processShared_build hok.checksum
  have htne : join [','] (ps.map pairText) ≠ [] := by
    obtain ⟨p, t, rfl⟩ := List.exists_cons_of_ne_nil hne
    cases t with
    | nil => simp [join, pairText]
    | cons q t => simp [join, pairText]
  have hlinks : a.links more = optLink "describedby".toList a.describedby_link ++ (optLink "up".toList a.sourcedescription_link ++ more) := by
    unfold BuildArgs.links
    rw [hmode]
    cases he : join [','] (ps.map pairText) with
    | nil => exact absurd he htne
    | cons c t => simp [insertLink_eq]
  have hrun : buildMain env a = .of (writeCapabilityList (some ps) (some f) (some (optLink "describedby".toList a.describedby_link ++
      (optLink "up".toList a.sourcedescription_link ++ more)))) := by
    unfold buildMain
    rw [h1]
    simp only [hok.map, hok.link, hmode]
    rw [if_neg htne, C64_capabilities ps hne htext hnames, hlinks, hf]
  obtain ⟨k1, raw, doc, c, n, k2, k3, k4, k5, k6, k7, -, k8⟩ := C75_capability_list ps hdist hchars (some _) hln f before
  rw [hrun]
  refine ⟨?_, ?_, doc, c, n, k4, k5, k6, k7, k8⟩
  · simp only [BuildRun.of, k1]; rfl
  · simp only [BuildRun.of]
    obtain ⟨d, e1, -, -⟩ := addCapabilities_ok ps [] WF_nil (by intro p _; rfl) hdist
    unfold writeCapabilityList writeSingle
    rw [Option.getD_some, e1]
    simp only
    split <;> rfl

/-- C81 (source description).  resync-build --write-sourcedescription 'uri,...' --outfile f, with up to 50000 different URIs, ends
with status 0; the document in `f`, read as a source description, has exactly these URIs as capability lists, and the links that
the options ask for: the one to the description, then those of --link.  --capabilitylist-link and --sourcedescription-link are not
used here. -/
theorem C81_source_description (env : WriteEnv) (a : BuildArgs) (mapper : Mapper) (more : List Link) (hok : BuildOk env a mapper more)
    (us : List Str) (hne : us ≠ []) (htext : ∀ u ∈ us, ',' ∉ u)
    (hmode : a.mode = .sourcedescription (join [','] us)) (hdist : us.Nodup) (hlen : us.length ≤ 50000)
    (hchars : ∀ u ∈ us, u ≠ [] ∧ XmlOk u ∧ '\r' ∉ u)
    (hln : ∀ x ∈ optLink "describedby".toList a.describedby_link ++ more, LinkOk x)
    (f : Str) (hf : a.outfile = some f) (before : Str → Option FileState) :
    (buildMain env a).exit.status = 0 ∧
    ∃ doc c n, fileDoc (runFs before (buildMain env a).files f) = some doc ∧
      parseXml {} listAdd { resources := [] } doc (some "description".toList) none = .ok (c, false, n) ∧
      (c.resources.map (·.uri)).Perm us ∧ (∀ r ∈ c.resources, r.capability = some "capabilitylist".toList) ∧
      SameLinks (optLink "describedby".toList a.describedby_link ++ more) c.ln := by
  obtain ⟨hash, h1, h2⟩ := processShared_build hok.checksum
  have htne : join [','] us ≠ [] := by
    obtain ⟨u, t, rfl⟩ := List.exists_cons_of_ne_nil hne
    have := (hchars u (by simp)).1
    cases t with
    | nil => simpa [join] using this
    | cons q t => simp [join]
  have hlinks : a.links more = optLink "describedby".toList a.describedby_link ++ more := by
    unfold BuildArgs.links
    rw [hmode]
    cases he : join [','] us with
    | nil => exact absurd he htne
    | cons c t => simp [insertLink_eq]
  have hsplit : parseCapabilityLists (join [','] us) = us := by
    unfold parseCapabilityLists
    exact splitOn_join hne htext
  have hrun : buildMain env a = .of (writeSourceDescription env (some us) (some f) (some (optLink "describedby".toList a.describedby_link ++
      more))) := by
    unfold buildMain
    rw [h1]
    simp only [hok.map, hok.link, hmode]
    rw [if_neg htne, hsplit, hlinks, hf]
  obtain ⟨k1, raw, doc, c, n, k2, k3, k4, k5, k6, -, k7, k8⟩ := C75_source_description_partial env us hdist hlen hchars (some _) hln f before
  rw [hrun]
  refine ⟨?_, doc, c, n, k4, k5, k6, k7, k8⟩
  simp only [BuildRun.of, k1]; rfl

/-- C81 (change list).  resync-build --write-changelist --reference ref --outfile f, where the list at `ref` and the new state
(the list at --newreference, or else the directory) can be read and can be expressed and their differences fit into one document,
ends with status 0; the document in `f`, read as a change list, has changes that take the old state to the new one, and the links
that the options ask for: the one to the description, then "up" to the capability list, then those of --link. -/
theorem C81_change_list_partial (env : WriteEnv) (a : BuildArgs) (mapper : Mapper) (more : List Link) (hok : BuildOk env a mapper more)
    (hmode : a.mode = .changelist) (ref : Str) (href : a.reference = some ref) (hrne : ref ≠ []) (hempty : a.empty = false)
    (old new : Dict Resource)
    (hold : readReference (a.client mapper (some a.hashTypes)) env ref = .ok old)
    (hnew : newState (a.client mapper (some a.hashTypes)) env a.paths (given a.newreference) = .ok new)
    (eo : ∀ k r, dget old k = some r → Expressible r) (en : ∀ k r, dget new k = some r → Expressible r)
    (hfit : ∀ cl, changeListEntries (a.client mapper (some a.hashTypes)) env a.paths ref (given a.newreference) false = .ok cl →
      cl.length ≤ max 1 ((a.client mapper (some a.hashTypes)).max_sitemap_entries.getD 50000))
    (hln : ∀ x ∈ optLink "describedby".toList a.describedby_link ++ (optLink "up".toList a.capabilitylist_link ++ more), LinkOk x)
    (f : Str) (hf : a.outfile = some f) (before : Str → Option FileState) :
    (buildMain env a).exit.status = 0 ∧
    ∃ doc c n, fileDoc (runFs before (buildMain env a).files f) = some doc ∧
      parseXml {} listAdd { resources := [] } doc (some "changelist".toList) none = .ok (c, false, n) ∧
      (∀ docAt uri, docAt uri = some doc → readChangeList docAt uri = some c.resources) ∧
      (c.resources.map (·.uri)).Nodup ∧ (∀ r ∈ c.resources, ∃ r0, RightEntry (dget old) (dget new) r0 ∧ RecordedNear false false r0 r) ∧
      TakesTo (dget old) c.resources (dget new) ∧
      SameLinks (optLink "describedby".toList a.describedby_link ++ (optLink "up".toList a.capabilitylist_link ++ more)) c.ln := by
  obtain ⟨hash, h1, h2⟩ := processShared_build hok.checksum
  have hlinks : a.links more = optLink "describedby".toList a.describedby_link ++ (optLink "up".toList a.capabilitylist_link ++ more) := by
    unfold BuildArgs.links
    rw [hmode]
    simp [insertLink_eq]
  have hcl : a.client mapper hash = a.client mapper (some a.hashTypes) := by
    unfold BuildArgs.client; rw [h2]; rfl
  obtain ⟨k1, doc, c, n, k2, k3, k4, k5, k6, -, k7⟩ := C74_change_list_partial (a.client mapper (some a.hashTypes)) env a.paths
    (given a.newreference) ref f (some _) hln old new hold hnew eo en hfit before
  have hgiven : (given (some ref)).isNone = false := by
    cases ref with
    | nil => exact absurd rfl hrne
    | cons x t => rfl
  have hexit : (BuildRun.of (writeChangeList (a.client mapper (some a.hashTypes)) env a.paths (some f) ref
      (given a.newreference) false (some (optLink "describedby".toList a.describedby_link ++
        (optLink "up".toList a.capabilitylist_link ++ more))) false)).exit = .done := by
    simp only [BuildRun.of, k1]; rfl
  have hrun : ∃ out, buildMain env a = { (BuildRun.of (writeChangeList (a.client mapper (some a.hashTypes)) env a.paths (some f) ref
      (given a.newreference) false (some (optLink "describedby".toList a.describedby_link ++
        (optLink "up".toList a.capabilitylist_link ++ more))) false)) with stdout := out } := by
    refine ⟨(BuildRun.of (writeChangeList (a.client mapper (some a.hashTypes)) env a.paths (some f) ref
      (given a.newreference) false (some (optLink "describedby".toList a.describedby_link ++
        (optLink "up".toList a.capabilitylist_link ++ more))) false)).stdout ++ [.line (dumpMessage false)], ?_⟩
    unfold buildMain
    rw [h1]
    simp only [hok.map, hok.link, hmode, buildChangeList, hgiven, Bool.false_eq_true, false_and, if_false, href, hempty, hlinks, hf, hcl,
      Option.getD_some]
    rw [if_pos hexit]
  obtain ⟨out, hrun⟩ := hrun
  rw [hrun]
  refine ⟨?_, doc, c, n, k2, k3, ?_, k4, k5, k6, k7⟩
  · simp only [BuildRun.of, k1]; rfl
  · intro docAt uri h
    refine readChangeList_ok h k3 ?_
    intro r hr
    obtain ⟨r0, h, hn⟩ := k5 r hr
    rw [(recordedNear_change hn).1]
    rcases h.kind with h | h | h <;> rw [h] <;> rfl

/-- C81 (resource list).  resync-build --write-resourcelist in the usual situation (see `Publishes`): whoever reads the list from
the server finds the links that the options ask for: the one to the description, then "up" to the capability list, then those of
--link, if none of these is a link to an index. -/
theorem C81_resource_list (wenv : WriteEnv) (b : BuildArgs) (m : Map) (cs : List FNode) (f : Str) (hp : Publishes wenv b m cs f)
    (more : List Link) (hmore : parseLinks b.link = .ok more) (hidx : ∀ x ∈ more, dget x "rel".toList ≠ some "index".toList)
    (before : Str → Option FileState)
    (cfg : ReadCfg) (hcfg : cfg.sitemap = {} ∧ cfg.capability_name = some "resourcelist".toList ∧ cfg.allow_multifile = true)
    (hauth : (∃ t, m.src_uri = "http:".toList ++ t) ∨ cfg.check_url_authority = false)
    (hserve : Serves m (runFs before (buildMain wenv b).files) cfg.docAt) :
    (buildMain wenv b).exit.status = 0 ∧
    ∃ l, readList cfg { resources := [] } (m.src_uri ++ '/' :: f) = .ok l ∧ DescribesDir (b.settings m) wenv.lib m cs l.resources ∧
      SameLinks (optLink "describedby".toList b.describedby_link ++ (optLink "up".toList b.capabilitylist_link ++ more)) l.ln := by
  have hlinks : b.links more = optLink "describedby".toList b.describedby_link ++ (optLink "up".toList b.capabilitylist_link ++ more) := by
    unfold BuildArgs.links
    rw [hp.mode]
    simp [insertLink_eq]
  obtain ⟨hl, hb⟩ := hp.run_links hmore
  rw [hb] at hserve ⊢
  obtain ⟨k1, l, k2, k3, -, -, -, k4⟩ := C73_published_list_partial (b.settings m) wenv m cs hp.site
    (by show (!b.multifile) = true; rw [hp.multi]; rfl) f hp.file (some (b.links more)) hl hp.stat before cfg hcfg (by
      rcases hp.scheme with h | h
      · exact .inl h
      · rcases hauth with h' | h'
        · exact .inl h'
        · exact .inr ⟨h, h'⟩) hserve
  refine ⟨?_, l, k2, k3, ?_⟩
  · simp only [BuildRun.of, k1]; rfl
  · rw [← hlinks]
    refine k4 ?_
    intro x hx
    rw [Option.getD_some, hlinks] at hx
    rcases List.mem_append.mp hx with hx | hx
    · revert hx
      rcases b.describedby_link with _ | _ | ⟨c, t⟩ <;> simp only [optLink, if_true, List.not_mem_nil, false_implies, reduceCtorEq, if_false, List.mem_singleton]
      rintro rfl; simp only [dget, if_true]; decide
    · rcases List.mem_append.mp hx with hx | hx
      · revert hx
        rcases b.capabilitylist_link with _ | _ | ⟨c, t⟩ <;> simp only [optLink, if_true, List.not_mem_nil, false_implies, reduceCtorEq, if_false, List.mem_singleton]
        rintro rfl; simp only [dget, if_true]; decide
      · exact hidx x hx

/-! ### What resync-build does with its other options -/

theorem print_only (l : LBI) : l.print.1.files = [] ∧ l.print.1.dumps = [] := by
  unfold LBI.print
  cases l.asXml false "/tmp/sitemap.xml".toList <;> exact ⟨rfl, rfl⟩

theorem writeTo_dumps (l : LBI) (env : WriteEnv) (f : Str) : (l.writeTo env f).1.dumps = [] := by
  unfold LBI.writeTo
  split <;> rfl

theorem writeSingle_out (cap : Str) (ln : List Link) (rs : List Resource) (o : Option Str) :
    (writeSingle cap ln rs o).1.dumps = [] ∧ (o = none → (writeSingle cap ln rs o).1.files = []) := by
  unfold writeSingle
  cases o with
  | none => simp only; split <;> exact ⟨rfl, fun _ => rfl⟩
  | some f => simp only; split <;> exact ⟨rfl, by simp⟩

theorem writeChangeList_out (c : WriteCfg) (env : WriteEnv) (paths : Option Str) (o : Option Str) (ref : Str) (newref : Option Str)
    (empty : Bool) (links : Option (List Link)) (dump : Bool) :
    (writeChangeList c env paths o ref newref empty links dump).1.dumps = [] ∧
    (o = none → (writeChangeList c env paths o ref newref empty links dump).1.files = []) := by
  unfold writeChangeList
  split
  · exact ⟨rfl, fun _ => rfl⟩
  · cases o with
    | none => exact ⟨(print_only _).2, fun _ => (print_only _).1⟩
    | some f => exact ⟨writeTo_dumps _ _ _, by simp⟩

theorem writeResourceList_out (c : WriteCfg) (env : WriteEnv) (paths : Option Str) (o : Option Str) (links : Option (List Link)) :
    (writeResourceList c env paths o links false).1.dumps = [] ∧
    (o = none → (writeResourceList c env paths o links false).1.files = []) := by
  unfold writeResourceList
  split
  · exact ⟨rfl, fun _ => rfl⟩
  · simp only [Bool.false_eq_true, if_false]
    cases o with
    | none =>
      simp only
      rename_i rl _
      have := print_only { rl.obj with ln := links.getD rl.obj.ln }
      split
      · rename_i o' h
        rw [h] at this
        exact ⟨this.2, fun _ => this.1⟩
      · exact ⟨this.2, fun _ => this.1⟩
    | some f => exact ⟨writeTo_dumps _ _ _, by simp⟩

theorem writeCapabilityList_out (caps : Option (Dict Str)) (o : Option Str) (links : Option (List Link)) :
    (writeCapabilityList caps o links).1.dumps = [] ∧ (o = none → (writeCapabilityList caps o links).1.files = []) := by
  unfold writeCapabilityList
  split
  · exact ⟨rfl, fun _ => rfl⟩
  · exact writeSingle_out _ _ _ _

theorem writeSourceDescription_out (env : WriteEnv) (uris : Option (List Str)) (o : Option Str) (links : Option (List Link)) :
    (writeSourceDescription env uris o links).1.dumps = [] ∧ (o = none → (writeSourceDescription env uris o links).1.files = []) := by
  unfold writeSourceDescription
  split
  · exact ⟨rfl, fun _ => rfl⟩
  · split
    · exact ⟨rfl, fun _ => rfl⟩
    · cases o with
      | none => exact ⟨(print_only _).2, fun _ => (print_only _).1⟩
      | some f => exact ⟨writeTo_dumps _ _ _, by simp⟩

theorem buildChangeList_out (a : BuildArgs) (env : WriteEnv) (c : WriteCfg) (links : List Link) (dump : Bool) :
    (buildChangeList a env c links dump).dumps = [] ∧ (a.outfile = none → (buildChangeList a env c links dump).files = []) := by
  unfold buildChangeList
  split
  · exact ⟨rfl, fun _ => rfl⟩
  · have := writeChangeList_out c env a.paths a.outfile (a.reference.getD []) (given a.newreference) a.empty (some links) dump
    simp only
    split <;> exact this

/-- C81 (where the output goes).  Only --write-resourcedump writes a dump.  Without --outfile the other modes write no file at
all; the document goes to standard output. -/
theorem C81_where (env : WriteEnv) (a : BuildArgs) (h : a.mode ≠ .resourcedump) :
    (buildMain env a).dumps = [] ∧ (a.outfile = none → (buildMain env a).files = []) := by
  unfold buildMain
  split
  · exact ⟨rfl, fun _ => rfl⟩
  · split
    · exact ⟨rfl, fun _ => rfl⟩
    · simp only
      split
      · exact ⟨rfl, fun _ => rfl⟩
      · split
        · exact writeResourceList_out _ _ _ _ _
        · rename_i hm; exact absurd hm h
        · exact buildChangeList_out _ _ _ _ _
        · exact buildChangeList_out _ _ _ _ _
        · split
          · exact ⟨rfl, fun _ => rfl⟩
          · split
            · exact ⟨rfl, fun _ => rfl⟩
            · exact writeCapabilityList_out _ _ _
        · split
          · exact ⟨rfl, fun _ => rfl⟩
          · exact writeSourceDescription_out _ _ _ _

/-- C81 (usage).  A change list or change dump without --reference (or with an empty one) and without --empty is refused: status
2, nothing read into any output. -/
theorem C81_usage (env : WriteEnv) (a : BuildArgs) (mapper : Mapper) (more : List Link) (hok : BuildOk env a mapper more)
    (hmode : a.mode = .changelist ∨ a.mode = .changedump) (href : a.reference = none ∨ a.reference = some [])
    (hempty : a.empty = false) :
    (buildMain env a).exit.status = 2 ∧ (buildMain env a).files = [] ∧ (buildMain env a).dumps = [] ∧ (buildMain env a).stdout = [] := by
  obtain ⟨hash, h1, h2⟩ := processShared_build hok.checksum
  have hg : (given a.reference).isNone = true := by rcases href with h | h <;> rw [h] <;> rfl
  unfold buildMain
  rw [h1]
  rcases hmode with h | h <;>
    simp only [hok.map, hok.link, h, buildChangeList, hg, hempty, Bool.false_eq_true, not_false_iff, and_self, if_true, Exit.status]

/-- C81 fails for --dryrun ("don't update local resources, say what would be done"): it makes no difference in resync-build;
files are written as without it. -/
theorem C81_dryrun_violated :
    (∀ env a dry, buildMain env { a with dryrun := dry } = buildMain env a) ∧
    ∃ env a doc, a.dryrun = true ∧ FsEff.finish "/d/caps.xml".toList doc ∈ (buildMain env a).files := by
  refine ⟨fun _ _ _ => rfl, WriteExample.env, { mode := .capabilitylist "resourcelist=http://h/rl.xml".toList, dryrun := true, outfile := some "/d/caps.xml".toList }, ?_⟩
  exact ⟨_, rfl, List.mem_cons_of_mem _ List.mem_cons_self⟩

theorem ofWrite_error (e : WriteErr) : Exit.ofWrite (.error e) ≠ .done := by
  cases e <;> simp [Exit.ofWrite]

/-- C81 fails for change lists on standard output: whenever resync-build --write-changelist succeeds, it prints another line after
the document, so that the output is not a document. -/
theorem C81_stdout_violated :
    (∀ env a, a.mode = .changelist → a.outfile = none → (buildMain env a).exit = .done →
      ∃ doc, (buildMain env a).stdout = [.doc doc, .line "OOPS - FIXME - Wrinting dump to False not yet implemented".toList]) ∧
    ∃ env a, a.mode = .changelist ∧ a.outfile = none ∧ (buildMain env a).exit = .done := by
  refine ⟨?_, WriteExample.env, { mode := .changelist, empty := true }, rfl, rfl, by decide +kernel⟩
  intro env a hm ho
  unfold buildMain
  split
  · intro h; cases h
  · split
    · intro h; cases h
    · simp only
      split
      · intro h; cases h
      · simp only [hm]
        unfold buildChangeList
        split
        · intro h; cases h
        · simp only
          intro hd
          split at hd
          · rename_i he
            rw [if_pos he]
            rw [ho] at he ⊢
            unfold writeChangeList at he ⊢
            split at he
            · exact absurd he (ofWrite_error _)
            · rename_i cl _
              simp only at he ⊢
              unfold LBI.print at he ⊢
              split at he
              · rename_i e _
                exact absurd he (ofWrite_error (.lb e))
              · exact ⟨_, rfl⟩
          · rename_i he; exact absurd hd he

/-- C81 fails for --write-changedump: it never writes a dump, but a change list, and the exit status is that of success. -/
theorem C81_changedump_violated :
    (∀ env a, a.mode = .changedump → (buildMain env a).dumps = []) ∧
    ∃ env a, a.mode = .changedump ∧ a.outfile = some "/d/dump.zip".toList ∧ (buildMain env a).exit.status = 0 ∧
      ∃ doc, fileDoc (runFs (fun _ => none) (buildMain env a).files "/d/dump.zip".toList) = some doc ∧
        readChangeList (fun _ => some doc) [] = some [] := by
  refine ⟨fun env a h => (C81_where env a (by rw [h]; simp)).1, WriteExample.env,
    { mode := .changedump, empty := true, outfile := some "/d/dump.zip".toList }, rfl, rfl, by decide +kernel, ?_⟩
  have : (fileDoc (runFs (fun _ => none) (buildMain WriteExample.env
      { mode := .changedump, empty := true, outfile := some "/d/dump.zip".toList }).files "/d/dump.zip".toList)).bind
      (fun doc => readChangeList (fun _ => some doc) []) = some [] := by
    decide +kernel
  exact Option.bind_eq_some_iff.mp this

namespace ScriptsExample
open MirrorExample WriteExample

/-- the hypotheses of C81_capability_list hold: two capabilities, links to the source description and to a description -/
example : ∃ (a : BuildArgs) (ps : Dict Str), BuildOk WriteExample.env a [] [[("rel".toList, "license".toList), ("href".toList, "http://h/l".toList)]] ∧
    ps.length = 2 ∧ (∀ p ∈ ps, '=' ∉ p.1 ∧ '=' ∉ p.2 ∧ ',' ∉ p.1 ∧ ',' ∉ p.2) ∧
    a.mode = .capabilitylist (join [','] (ps.map pairText)) ∧ (ps.map (·.1)).Nodup ∧ (ps.map (·.2)).Nodup ∧
    a.sourcedescription_link = some "http://h/.well-known/resourcesync".toList ∧ a.outfile = some "/d/caps.xml".toList :=
  ⟨{ mode := .capabilitylist "resourcelist=http://h/rl.xml,changelist=http://h/cl.xml".toList, link := some ["license,http://h/l".toList],
     sourcedescription_link := some "http://h/.well-known/resourcesync".toList, outfile := some "/d/caps.xml".toList },
   [("resourcelist".toList, "http://h/rl.xml".toList), ("changelist".toList, "http://h/cl.xml".toList)],
   ⟨by decide, rfl, by decide⟩, rfl, by decide, by decide, by decide, by decide, rfl, rfl⟩

/-- ... those of C81_source_description -/
example : ∃ a : BuildArgs, BuildOk WriteExample.env a [] [] ∧
    a.mode = .sourcedescription (join [','] ["http://h/b".toList, "http://h/a".toList]) ∧ (∀ u ∈ ["http://h/b".toList, "http://h/a".toList], ',' ∉ u) :=
  ⟨{ mode := .sourcedescription "http://h/b,http://h/a".toList }, ⟨by decide, rfl, by decide⟩, by decide, by decide⟩

/-- ... those of C81_change_list_partial: an old and a new list -/
def changes : BuildArgs where
  mode := .changelist
  map := ["http://h=/d".toList]
  reference := some "old.xml".toList
  newreference := some "new.xml".toList
  outfile := some "/d/changes.xml".toList
  capabilitylist_link := some "http://h/caps.xml".toList

example : (buildMain ChangesExample.env changes).exit.status = 0 ∧
    ∃ doc c n, fileDoc (runFs (fun _ => none) (buildMain ChangesExample.env changes).files "/d/changes.xml".toList) = some doc ∧
      parseXml {} listAdd { resources := [] } doc (some "changelist".toList) none = .ok (c, false, n) ∧
      TakesTo (dget ChangesExample.old) c.resources (dget ChangesExample.new) ∧
      SameLinks [[("rel".toList, "up".toList), ("href".toList, "http://h/caps.xml".toList)]] c.ln := by
  obtain ⟨h1, doc, c, n, h2, h3, -, -, -, h4, h5⟩ := C81_change_list_partial ChangesExample.env changes [⟨"http://h".toList, "/d".toList⟩] []
    ⟨by decide, by decide +kernel, by decide⟩ rfl "old.xml".toList rfl (by decide) rfl ChangesExample.old ChangesExample.new
    (by decide +kernel) (by decide +kernel) (fun k r h => (ChangesExample.expr (.inl h)).1) (fun k r h => (ChangesExample.expr (.inr h)).1) (by
      intro cl hcl
      have e : changeListEntries (changes.client [⟨"http://h".toList, "/d".toList⟩] (some changes.hashTypes)) ChangesExample.env none "old.xml".toList
          (some "new.xml".toList) false = .ok [{ ChangesExample.a' with change := some sUpdated }, { ChangesExample.b with change := some sDeleted }, { ChangesExample.d with change := some sCreated }] := by
        decide +kernel
      have : Except.ok cl = _ := hcl.symm.trans e
      cases this
      decide) (by
      intro x hx
      have : x ∈ [linkTo "up".toList "http://h/caps.xml".toList] := hx
      rw [List.mem_singleton] at this
      rw [this]
      exact linkTo_ok (by unfold XmlOk; decide) (by unfold XmlOk; decide)) "/d/changes.xml".toList rfl (fun _ => none)
  exact ⟨h1, doc, c, n, h2, h3, h4, h5⟩

/-- ... those of C81_resource_list (the directory of `publishes`), with a second link -/
example : (buildMain wenv build).exit.status = 0 ∧ ∃ l, readList { docAt := docsOf (runFs (fun _ => none) (buildMain wenv build).files) } { resources := [] }
    "http://h/list.xml".toList = .ok l ∧
    SameLinks [[("rel".toList, "up".toList), ("href".toList, "http://h/caps.xml".toList)],
      [("rel".toList, "describedby".toList), ("href".toList, "http://h/about".toList)]] l.ln := by
  obtain ⟨h1, l, h2, -, h3⟩ := C81_resource_list wenv build m tree "list.xml".toList publishes [linkTo "describedby".toList "http://h/about".toList]
    (by decide) (by decide) (fun _ => none) { docAt := docsOf (runFs (fun _ => none) (buildMain wenv build).files) } ⟨rfl, rfl, rfl⟩ (.inr rfl)
    (served_docs _)
  exact ⟨h1, l, h2, h3⟩

/-- ... and those of C81_usage -/
example : BuildOk WriteExample.env { mode := .changelist } [] [] := ⟨by decide, rfl, rfl⟩

end ScriptsExample

end Resync
