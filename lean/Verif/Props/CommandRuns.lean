import Verif.Props.CommandLine
/-
C110: what the programs do with their command lines.
-/

namespace Resync
open Py Resync.Spec

theorem givesAll_opts {p : ParserDef} {gs : List (OptDef × Option Str)} {ws : List Str} (h : GivesAll p gs ws) : ∀ g ∈ gs, g.1 ∈ p.opts := by
  induction h with
  | nil => simp
  | cons hg _ ih =>
    intro g hgm
    rcases List.mem_append.mp hgm with hgm | hgm
    · cases hg with
      | flag ho => simp at hgm; rw [hgm]; exact ho
      | next ho => simp at hgm; rw [hgm]; exact ho
      | number ho => simp at hgm; rw [hgm]; exact ho
      | equals ho => simp at hgm; rw [hgm]; exact ho
      | letter ho => simp at hgm; rw [hgm]; exact ho
      | letters _ hl =>
        obtain ⟨x, hx, rfl⟩ := List.mem_map.mp hgm
        exact (hl x hx).1
    · exact ih g hgm

theorem command_opts {p : ParserDef} {cv : Convert} {gs : List (OptDef × Option Str)} {ms argv : List Str} (h : CommandFor p cv gs ms argv) :
    ∀ g ∈ gs, g.1 ∈ p.opts := by
  obtain ⟨gs₁, ws₁, gs₂, ws₂, h1, h2, rfl, -⟩ := h.words
  intro g hg
  rcases List.mem_append.mp hg with hg | hg
  · exact givesAll_opts h1 g hg
  · exact givesAll_opts h2 g hg

theorem givenFor_eq {p : ParserDef} (hp : ParserOk p) {gs : List (OptDef × Option Str)} (hg : ∀ g ∈ gs, g.1 ∈ p.opts) {o : OptDef}
    (ho : o ∈ p.opts) {s : String} (hs : s.toList ∈ o.strings) : givenFor s gs = valuesOf o gs := by
  unfold givenFor valuesOf
  congr 1
  apply List.filter_congr
  intro g hgm
  apply decide_eq_decide.mpr
  constructor
  · intro h
    exact hp.strings _ (hg g hgm) _ ho _ h hs
  · intro h
    rw [h]
    exact hs

/-- a namespace that holds what was given -/
structure HoldsArgs (p : ParserDef) (cv : Convert) (gs : List (OptDef × Option Str)) (ns : Dict ArgVal) : Prop where
  ok : ParserOk p
  opts : ∀ g ∈ gs, g.1 ∈ p.opts
  ns : ∀ o ∈ p.opts, dget ns o.dest = setting cv o (valuesOf o gs)

theorem holds_flag {p : ParserDef} {cv : Convert} {gs : List (OptDef × Option Str)} {ns : Dict ArgVal} (h : HoldsArgs p cv gs ns) (s : String)
    (o : OptDef) (ho : o ∈ p.opts) (hs : s.toList ∈ o.strings) (hk : o.kind = .flag) : argFlag ns o.dest = true ↔ givenFor s gs ≠ [] := by
  rw [givenFor_eq h.ok h.opts ho hs]
  unfold argFlag
  rw [h.ns o ho]
  unfold setting
  rw [hk]
  cases hl : (valuesOf o gs).getLast? with
  | none => rw [List.getLast?_eq_none_iff] at hl; simp [hl]
  | some v =>
    simp only [ne_eq, true_iff]
    intro e
    rw [e] at hl
    cases hl

theorem holds_str {p : ParserDef} {cv : Convert} {gs : List (OptDef × Option Str)} {ns : Dict ArgVal} (h : HoldsArgs p cv gs ns) (s : String)
    (o : OptDef) (ho : o ∈ p.opts) (hs : s.toList ∈ o.strings) (hk : o.kind = .store ∨ ∃ cs, o.kind = .choice cs) :
    argStr ns o.dest = (givenFor s gs).getLast? := by
  rw [givenFor_eq h.ok h.opts ho hs]
  unfold argStr
  rw [h.ns o ho]
  unfold setting
  rcases hk with hk | ⟨cs, hk⟩ <;>
  · rw [hk]
    cases (valuesOf o gs).getLast? <;> rfl

theorem holds_int {p : ParserDef} {cv : Convert} {gs : List (OptDef × Option Str)} {ns : Dict ArgVal} (h : HoldsArgs p cv gs ns) (s : String)
    (o : OptDef) (ho : o ∈ p.opts) (hs : s.toList ∈ o.strings) (hk : o.kind = .int) :
    argInt ns o.dest = (givenFor s gs).getLast?.bind cv.int := by
  rw [givenFor_eq h.ok h.opts ho hs]
  unfold argInt
  rw [h.ns o ho]
  unfold setting
  rw [hk]
  cases (valuesOf o gs).getLast? with
  | none => rfl
  | some v =>
    dsimp only [Option.bind_some]
    cases cv.int v <;> rfl

theorem holds_float {p : ParserDef} {cv : Convert} {gs : List (OptDef × Option Str)} {ns : Dict ArgVal} (h : HoldsArgs p cv gs ns) (s : String)
    (o : OptDef) (ho : o ∈ p.opts) (hs : s.toList ∈ o.strings) (hk : o.kind = .float) :
    argFloat ns o.dest = (givenFor s gs).getLast?.bind cv.float := by
  rw [givenFor_eq h.ok h.opts ho hs]
  unfold argFloat
  rw [h.ns o ho]
  unfold setting
  rw [hk]
  cases (valuesOf o gs).getLast? with
  | none => rfl
  | some v =>
    dsimp only [Option.bind_some]
    cases cv.float v <;> rfl

theorem holds_list {p : ParserDef} {cv : Convert} {gs : List (OptDef × Option Str)} {ns : Dict ArgVal} (h : HoldsArgs p cv gs ns) (s : String)
    (o : OptDef) (ho : o ∈ p.opts) (hs : s.toList ∈ o.strings) (hk : o.kind = .append) :
    argList ns o.dest = if givenFor s gs = [] then none else some (givenFor s gs) := by
  rw [givenFor_eq h.ok h.opts ho hs]
  unfold argList
  rw [h.ns o ho]
  unfold setting
  rw [hk]
  cases hl : (valuesOf o gs).getLast? with
  | none => rw [List.getLast?_eq_none_iff] at hl; simp [hl]
  | some v =>
    dsimp only
    rw [if_neg]
    intro e
    rw [e] at hl
    cases hl

theorem holds_shared {p : ParserDef} {cv : Convert} {gs : List (OptDef × Option Str)} {ns : Dict ArgVal} (h : HoldsArgs p cv gs ns)
    (r : Bool) (hr : ∀ o ∈ sharedOptions r, o ∈ p.opts) :
    (sharedArgs ns).hash = (if givenFor "--hash" gs = [] then none else some (givenFor "--hash" gs)) ∧
    ((sharedArgs ns).checksum = true ↔ givenFor "--checksum" gs ≠ []) ∧
    (sharedArgs ns).from_datetime = (givenFor "--from" gs).getLast? ∧
    (sharedArgs ns).exclude = (if givenFor "--exclude" gs = [] then none else some (givenFor "--exclude" gs)) ∧
    ((sharedArgs ns).multifile = true ↔ givenFor "--multifile" gs ≠ []) ∧
    (sharedArgs ns).spec_version = (givenFor "--spec-version" gs).getLast?.getD "1.1".toList ∧
    (r = true → ((sharedArgs ns).noauth = true ↔ givenFor "--noauth" gs ≠ []) ∧
      (sharedArgs ns).access_token = (givenFor "--access-token" gs).getLast? ∧
      (sharedArgs ns).delay = (givenFor "--delay" gs).getLast?.bind cv.float) := by
  have hm : ∀ r, opt ["--hash".toList] "hash".toList .append ∈ sharedOptions r ∧
      opt ["--checksum".toList] "checksum".toList .flag ∈ sharedOptions r ∧
      opt ["--from".toList] "from_datetime".toList .store ∈ sharedOptions r ∧
      opt ["--exclude".toList] "exclude".toList .append ∈ sharedOptions r ∧
      opt ["--multifile".toList, "-m".toList] "multifile".toList .flag ∈ sharedOptions r ∧
      opt ["--spec-version".toList] "spec_version".toList (.choice ["1.0".toList, "1.1".toList]) ∈ sharedOptions r := by
    decide +kernel
  obtain ⟨m1, m2, m3, m4, m5, m6⟩ := hm r
  refine ⟨holds_list h "--hash" _ (hr _ m1) List.mem_cons_self rfl, holds_flag h "--checksum" _ (hr _ m2) List.mem_cons_self rfl,
    holds_str h "--from" _ (hr _ m3) List.mem_cons_self (.inl rfl), holds_list h "--exclude" _ (hr _ m4) List.mem_cons_self rfl,
    holds_flag h "--multifile" _ (hr _ m5) List.mem_cons_self rfl, ?_, ?_⟩
  · have := holds_str h "--spec-version" _ (hr _ m6) List.mem_cons_self (.inr ⟨_, rfl⟩)
    exact congrArg (fun x => Option.getD x "1.1".toList) this
  · rintro rfl
    have hm' : opt ["--noauth".toList] "noauth".toList .flag ∈ sharedOptions true ∧
        opt ["--access-token".toList] "access_token".toList .store ∈ sharedOptions true ∧
        opt ["--delay".toList] "delay".toList .float ∈ sharedOptions true := by decide +kernel
    exact ⟨holds_flag h "--noauth" _ (hr _ hm'.1) List.mem_cons_self rfl,
      holds_str h "--access-token" _ (hr _ hm'.2.1) List.mem_cons_self (.inl rfl),
      holds_float h "--delay" _ (hr _ hm'.2.2) List.mem_cons_self rfl⟩

/-- two modes are not given together -/
theorem not_both {p : ParserDef} {cv : Convert} {gs : List (OptDef × Option Str)} {ms argv : List Str} (hp : ParserOk p)
    (h : CommandFor p cv gs ms argv) {s s' : String} {o o' : OptDef} (ho : o ∈ p.opts) (ho' : o' ∈ p.opts) (hs : s.toList ∈ o.strings)
    (hs' : s'.toList ∈ o'.strings) (hm : o.dest ∈ p.modes) (hm' : o'.dest ∈ p.modes) (hne : o.dest ≠ o'.dest) (hg : givenFor s gs ≠ []) :
    givenFor s' gs = [] := by
  by_contra hg'
  have hopts := command_opts h
  rw [givenFor_eq hp hopts ho hs] at hg
  rw [givenFor_eq hp hopts ho' hs'] at hg'
  obtain ⟨m, h1, -⟩ := h.mode
  have key : ∀ o : OptDef, o.dest ∈ p.modes → valuesOf o gs ≠ [] → o.dest = m := by
    intro o hom hv
    unfold valuesOf at hv
    rw [ne_eq, List.map_eq_nil_iff, List.filter_eq_nil_iff] at hv
    simp only [not_forall] at hv
    obtain ⟨g, hgm, e⟩ := hv
    have e : g.1 = o := by simpa using e
    rw [← e]
    exact h1 g hgm (e ▸ hom)
  exact hne ((key o hm hg).trans (key o' hm' hg').symm)

/-- some mode is given -/
theorem some_mode {p : ParserDef} {cv : Convert} {gs : List (OptDef × Option Str)} {ms argv : List Str}
    (h : CommandFor p cv gs ms argv) (hne : p.modes ≠ []) : ∃ o ∈ p.opts, o.dest ∈ p.modes ∧ valuesOf o gs ≠ [] := by
  obtain ⟨m, -, h2⟩ := h.mode
  obtain ⟨g, hg, hgm⟩ := h2 hne
  refine ⟨g.1, command_opts h g hg, hgm, ?_⟩
  unfold valuesOf
  rw [ne_eq, List.map_eq_nil_iff, List.filter_eq_nil_iff]
  intro hall
  exact hall g hg (by simp)

def baselineOption : OptDef := opt ["--baseline".toList, "-b".toList] "baseline".toList .flag
def incrementalOption : OptDef := opt ["--incremental".toList, "--inc".toList, "-i".toList] "incremental".toList .flag
def auditOption : OptDef := opt ["--audit".toList, "-a".toList] "audit".toList .flag
def parseOption : OptDef := opt ["--parse".toList, "-p".toList] "parse".toList .flag
def deleteOption : OptDef := opt ["--delete".toList] "delete".toList .flag
def dryrunOption : OptDef := opt ["--dryrun".toList, "-n".toList] "dryrun".toList .flag

/-- C110 (resync-sync).  A proper command line of resync-sync runs the program with the settings that the options name. -/
theorem C110_sync_options (w : SyncWorld) (cv : Convert) (world : World) (gs : List (OptDef × Option Str)) (ms argv : List Str)
    (h : CommandFor syncParser cv gs ms argv) :
    ∃ a : SyncArgs, syncCommand w cv argv world = syncMain w a world ∧ a.map = ms ∧
      (a.mode = .baseline ↔ givenFor "--baseline" gs ≠ []) ∧ (a.mode = .incremental ↔ givenFor "--incremental" gs ≠ []) ∧
      (a.mode = .audit ↔ givenFor "--audit" gs ≠ []) ∧ (a.mode = .parse ↔ givenFor "--parse" gs ≠ []) ∧
      a.sitemap = (givenFor "--sitemap" gs).getLast? ∧ a.capabilitylist = (givenFor "--capabilitylist" gs).getLast? ∧
      a.changelist_uri = (givenFor "--changelist-uri" gs).getLast? ∧
      (a.delete = true ↔ givenFor "--delete" gs ≠ []) ∧ (a.strictauth = true ↔ givenFor "--strictauth" gs ≠ []) ∧
      (a.dryrun = true ↔ givenFor "--dryrun" gs ≠ []) ∧ (a.ignore_failures = true ↔ givenFor "--ignore-failures" gs ≠ []) ∧
      a.tries = (givenFor "--tries" gs).getLast?.bind cv.int ∧
      a.hash = (if givenFor "--hash" gs = [] then none else some (givenFor "--hash" gs)) ∧
      (a.checksum = true ↔ givenFor "--checksum" gs ≠ []) ∧ a.from_datetime = (givenFor "--from" gs).getLast? ∧
      (a.multifile = true ↔ givenFor "--multifile" gs ≠ []) ∧
      a.spec_version = (givenFor "--spec-version" gs).getLast?.getD "1.1".toList ∧
      (a.noauth = true ↔ givenFor "--noauth" gs ≠ []) ∧ a.access_token = (givenFor "--access-token" gs).getLast? ∧
      a.delay = (givenFor "--delay" gs).getLast?.bind cv.float := by
  have hp := C110_parsers.1
  obtain ⟨ns, hns, hset⟩ := C110_accepts syncParser hp cv gs ms argv h
  have hh : HoldsArgs syncParser cv gs ns := ⟨hp, command_opts h, hset⟩
  obtain ⟨s1, s2, s3, -, s5, s6, s7⟩ := holds_shared hh true (by decide +kernel)
  obtain ⟨s7, s8, s9⟩ := s7 rfl
  have mb : baselineOption ∈ syncParser.opts := by decide +kernel
  have mi : incrementalOption ∈ syncParser.opts := by decide +kernel
  have ma : auditOption ∈ syncParser.opts := by decide +kernel
  have mp : parseOption ∈ syncParser.opts := by decide +kernel
  have fb := holds_flag hh "--baseline" baselineOption mb List.mem_cons_self rfl
  have fi := holds_flag hh "--incremental" incrementalOption mi List.mem_cons_self rfl
  have fa := holds_flag hh "--audit" auditOption ma List.mem_cons_self rfl
  have fp := holds_flag hh "--parse" parseOption mp List.mem_cons_self rfl
  have db : baselineOption.dest ∈ syncParser.modes := by decide +kernel
  have di : incrementalOption.dest ∈ syncParser.modes := by decide +kernel
  have da : auditOption.dest ∈ syncParser.modes := by decide +kernel
  have dp : parseOption.dest ∈ syncParser.modes := by decide +kernel
  have nbi := not_both hp h mb mi (s := "--baseline") (s' := "--incremental") List.mem_cons_self List.mem_cons_self db di (by decide +kernel)
  have nba := not_both hp h mb ma (s := "--baseline") (s' := "--audit") List.mem_cons_self List.mem_cons_self db da (by decide +kernel)
  have nbp := not_both hp h mb mp (s := "--baseline") (s' := "--parse") List.mem_cons_self List.mem_cons_self db dp (by decide +kernel)
  have nai := not_both hp h ma mi (s := "--audit") (s' := "--incremental") List.mem_cons_self List.mem_cons_self da di (by decide +kernel)
  have nap := not_both hp h ma mp (s := "--audit") (s' := "--parse") List.mem_cons_self List.mem_cons_self da dp (by decide +kernel)
  have nip := not_both hp h mi mp (s := "--incremental") (s' := "--parse") List.mem_cons_self List.mem_cons_self di dp (by decide +kernel)
  have hsome : givenFor "--baseline" gs ≠ [] ∨ givenFor "--incremental" gs ≠ [] ∨ givenFor "--audit" gs ≠ [] ∨ givenFor "--parse" gs ≠ [] := by
    obtain ⟨o, ho, hm, hv⟩ := some_mode h (by decide)
    have hall : ∀ o ∈ syncParser.opts, o.dest ∈ syncParser.modes → o = baselineOption ∨ o = incrementalOption ∨ o = auditOption ∨
        o = parseOption := by decide +kernel
    rw [givenFor_eq hp hh.opts mb List.mem_cons_self, givenFor_eq hp hh.opts mi List.mem_cons_self,
      givenFor_eq hp hh.opts ma List.mem_cons_self, givenFor_eq hp hh.opts mp List.mem_cons_self]
    rcases hall o ho hm with rfl | rfl | rfl | rfl
    · exact .inl hv
    · exact .inr (.inl hv)
    · exact .inr (.inr (.inl hv))
    · exact .inr (.inr (.inr hv))
  have hmode : ∀ m, (syncArgs ns ms).mode = m ↔ (if argFlag ns baselineOption.dest then SyncMode.baseline
    else if argFlag ns auditOption.dest then .audit
    else if argFlag ns incrementalOption.dest then .incremental
    else .parse) = m := fun m => Iff.rfl
  refine ⟨syncArgs ns ms, ?_, rfl, ?_, ?_, ?_, ?_, holds_str hh "--sitemap" (opt ["--sitemap".toList] "sitemap".toList .store) (by decide +kernel) List.mem_cons_self (.inl rfl),
    holds_str hh "--capabilitylist" (opt ["--capabilitylist".toList, "--capability-list".toList] "capabilitylist".toList .store) (by decide +kernel) List.mem_cons_self (.inl rfl),
    holds_str hh "--changelist-uri" (opt ["--changelist-uri".toList, "--change-list-uri".toList] "changelist_uri".toList .store) (by decide +kernel) List.mem_cons_self (.inl rfl),
    holds_flag hh "--delete" deleteOption (by decide +kernel) List.mem_cons_self rfl,
    holds_flag hh "--strictauth" (opt ["--strictauth".toList] "strictauth".toList .flag) (by decide +kernel) List.mem_cons_self rfl,
    holds_flag hh "--dryrun" dryrunOption (by decide +kernel) List.mem_cons_self rfl,
    holds_flag hh "--ignore-failures" (opt ["--ignore-failures".toList] "ignore_failures".toList .flag) (by decide +kernel) List.mem_cons_self rfl,
    holds_int hh "--tries" (opt ["--tries".toList, "-t".toList] "tries".toList .int) (by decide +kernel) List.mem_cons_self rfl,
    s1, s2, s3, s5, s6, s7, s8, s9⟩
  · unfold syncCommand
    rw [hns]
  all_goals
    rw [hmode]
    by_cases hb : givenFor "--baseline" gs ≠ []
    · simp [fb.mpr hb, hb, nbi hb, nba hb, nbp hb]
    · have hb' : argFlag ns baselineOption.dest = false := by
        rw [← Bool.not_eq_true]; exact fun h => hb (fb.mp h)
      by_cases ha : givenFor "--audit" gs ≠ []
      · simp [hb', fa.mpr ha, ha, nai ha, nap ha, hb]
      · have ha' : argFlag ns auditOption.dest = false := by
          rw [← Bool.not_eq_true]; exact fun h => ha (fa.mp h)
        by_cases hi : givenFor "--incremental" gs ≠ []
        · simp [hb', ha', fi.mpr hi, hi, nip hi, hb, ha]
        · have hi' : argFlag ns incrementalOption.dest = false := by
            rw [← Bool.not_eq_true]; exact fun h => hi (fi.mp h)
          have hpp : givenFor "--parse" gs ≠ [] := by
            rcases hsome with h | h | h | h
            · exact absurd h hb
            · exact absurd h hi
            · exact absurd h ha
            · exact h
          simp only [ne_eq, not_not] at hb ha hi
          simp [hb', ha', hi', hb, ha, hi, hpp]

theorem other_modes {p : ParserDef} {cv : Convert} {gs : List (OptDef × Option Str)} {ms argv : List Str} (h : CommandFor p cv gs ms argv)
    {o : OptDef} (hm : o.dest ∈ p.modes) (hv : valuesOf o gs ≠ []) : ∀ o' ∈ p.opts, o'.dest ∈ p.modes → o'.dest ≠ o.dest → valuesOf o' gs = [] := by
  obtain ⟨m, h1, -⟩ := h.mode
  have key : ∀ o : OptDef, o.dest ∈ p.modes → valuesOf o gs ≠ [] → o.dest = m := by
    intro o hom hv
    unfold valuesOf at hv
    rw [ne_eq, List.map_eq_nil_iff, List.filter_eq_nil_iff] at hv
    simp only [not_forall] at hv
    obtain ⟨g, hgm, e⟩ := hv
    have e : g.1 = o := by simpa using e
    rw [← e]
    exact h1 g hgm (e ▸ hom)
  intro o' ho' hm' hne
  by_contra hv'
  exact hne ((key o' hm' hv').trans (key o hm hv).symm)

def resourcelistMode : OptDef := opt ["--write-resourcelist".toList, "--write-resource-list".toList] "write_resourcelist".toList .flag
def resourcedumpMode : OptDef := opt ["--write-resourcedump".toList, "--write-resource-dump".toList, "-d".toList] "write_resourcedump".toList .flag
def changelistMode : OptDef := opt ["--write-changelist".toList, "--write-change-list".toList] "write_changelist".toList .flag
def changedumpMode : OptDef := opt ["--write-changedump".toList, "--write-change-dump".toList] "write_changedump".toList .flag
def capabilitylistMode : OptDef := opt ["--write-capabilitylist".toList, "--write-capability-list".toList] "write_capabilitylist".toList .store
def sourcedescriptionMode : OptDef := opt ["--write-sourcedescription".toList, "--write-source-description".toList] "write_sourcedescription".toList .store

/-- C110 (resync-build).  A proper command line of resync-build runs the program with the settings that the options name. -/
theorem C110_build_options (env : WriteEnv) (cv : Convert) (gs : List (OptDef × Option Str)) (ms argv : List Str)
    (h : CommandFor buildParser cv gs ms argv) :
    ∃ a : BuildArgs, buildCommand env cv argv = buildMain env a ∧ a.map = ms ∧
      (a.mode = .resourcelist ↔ givenFor "--write-resourcelist" gs ≠ []) ∧
      (a.mode = .resourcedump ↔ givenFor "--write-resourcedump" gs ≠ []) ∧
      (a.mode = .changelist ↔ givenFor "--write-changelist" gs ≠ []) ∧
      (a.mode = .changedump ↔ givenFor "--write-changedump" gs ≠ []) ∧
      (∀ t, a.mode = .capabilitylist t ↔ (givenFor "--write-capabilitylist" gs).getLast? = some t) ∧
      (∀ t, a.mode = .sourcedescription t ↔ (givenFor "--write-sourcedescription" gs).getLast? = some t) ∧
      a.outfile = (givenFor "--outfile" gs).getLast? ∧ a.paths = (givenFor "--paths" gs).getLast? ∧
      a.reference = (givenFor "--reference" gs).getLast? ∧ a.newreference = (givenFor "--newreference" gs).getLast? ∧
      a.link = (if givenFor "--link" gs = [] then none else some (givenFor "--link" gs)) ∧
      a.describedby_link = (givenFor "--describedby-link" gs).getLast? ∧
      a.sourcedescription_link = (givenFor "--sourcedescription-link" gs).getLast? ∧
      a.capabilitylist_link = (givenFor "--capabilitylist-link" gs).getLast? ∧
      (a.empty = true ↔ givenFor "--empty" gs ≠ []) ∧ (a.warc = true ↔ givenFor "--warc" gs ≠ []) ∧
      (a.dryrun = true ↔ givenFor "--dryrun" gs ≠ []) ∧
      a.max_sitemap_entries = ((givenFor "--max-sitemap-entries" gs).getLast?.bind cv.int).map Int.toNat ∧
      a.hash = (if givenFor "--hash" gs = [] then none else some (givenFor "--hash" gs)) ∧
      (a.checksum = true ↔ givenFor "--checksum" gs ≠ []) ∧ a.from_datetime = (givenFor "--from" gs).getLast? ∧
      a.exclude = (if givenFor "--exclude" gs = [] then none else some (givenFor "--exclude" gs)) ∧
      (a.multifile = true ↔ givenFor "--multifile" gs ≠ []) ∧
      a.spec_version = (givenFor "--spec-version" gs).getLast?.getD "1.1".toList := by
  have hp := C110_parsers.2.1
  obtain ⟨ns, hns, hset⟩ := C110_accepts buildParser hp cv gs ms argv h
  have hh : HoldsArgs buildParser cv gs ns := ⟨hp, command_opts h, hset⟩
  obtain ⟨s1, s2, s3, s4, s5, s6, -⟩ := holds_shared hh false (by decide +kernel)
  have m_rl : resourcelistMode ∈ buildParser.opts := by decide +kernel
  have d_rl : resourcelistMode.dest ∈ buildParser.modes := by decide +kernel
  have g_rl := givenFor_eq hp hh.opts m_rl (s := "--write-resourcelist") List.mem_cons_self
  have f_rl := holds_flag hh "--write-resourcelist" resourcelistMode m_rl List.mem_cons_self rfl
  have m_rd : resourcedumpMode ∈ buildParser.opts := by decide +kernel
  have d_rd : resourcedumpMode.dest ∈ buildParser.modes := by decide +kernel
  have g_rd := givenFor_eq hp hh.opts m_rd (s := "--write-resourcedump") List.mem_cons_self
  have f_rd := holds_flag hh "--write-resourcedump" resourcedumpMode m_rd List.mem_cons_self rfl
  have m_cl : changelistMode ∈ buildParser.opts := by decide +kernel
  have d_cl : changelistMode.dest ∈ buildParser.modes := by decide +kernel
  have g_cl := givenFor_eq hp hh.opts m_cl (s := "--write-changelist") List.mem_cons_self
  have f_cl := holds_flag hh "--write-changelist" changelistMode m_cl List.mem_cons_self rfl
  have m_cd : changedumpMode ∈ buildParser.opts := by decide +kernel
  have d_cd : changedumpMode.dest ∈ buildParser.modes := by decide +kernel
  have g_cd := givenFor_eq hp hh.opts m_cd (s := "--write-changedump") List.mem_cons_self
  have f_cd := holds_flag hh "--write-changedump" changedumpMode m_cd List.mem_cons_self rfl
  have m_cap : capabilitylistMode ∈ buildParser.opts := by decide +kernel
  have d_cap : capabilitylistMode.dest ∈ buildParser.modes := by decide +kernel
  have g_cap := givenFor_eq hp hh.opts m_cap (s := "--write-capabilitylist") List.mem_cons_self
  have f_cap := holds_str hh "--write-capabilitylist" capabilitylistMode m_cap List.mem_cons_self (.inl rfl)
  have m_sd : sourcedescriptionMode ∈ buildParser.opts := by decide +kernel
  have d_sd : sourcedescriptionMode.dest ∈ buildParser.modes := by decide +kernel
  have g_sd := givenFor_eq hp hh.opts m_sd (s := "--write-sourcedescription") List.mem_cons_self
  have f_sd := holds_str hh "--write-sourcedescription" sourcedescriptionMode m_sd List.mem_cons_self (.inl rfl)
  have hmode : ∀ m, (buildArgs ns ms).mode = m ↔ (if argFlag ns resourcelistMode.dest then BuildMode.resourcelist
    else if argFlag ns resourcedumpMode.dest then .resourcedump
    else if argFlag ns changelistMode.dest then .changelist
    else if argFlag ns changedumpMode.dest then .changedump
    else match argStr ns capabilitylistMode.dest with
      | some t => .capabilitylist t
      | none => .sourcedescription ((argStr ns sourcedescriptionMode.dest).getD [])) = m := fun m => Iff.rfl
  have hnoflag : ∀ (s : String) (d : Str), (argFlag ns d = true ↔ givenFor s gs ≠ []) → givenFor s gs = [] → argFlag ns d = false := by
    intro s d h1 h2
    rw [← Bool.not_eq_true, h1, h2]
    simp
  obtain ⟨o, ho, hm, hv⟩ := some_mode h (by decide)
  have hoth := other_modes h hm hv
  have hall : ∀ o ∈ buildParser.opts, o.dest ∈ buildParser.modes → o = resourcelistMode ∨ o = resourcedumpMode ∨ o = changelistMode ∨
      o = changedumpMode ∨ o = capabilitylistMode ∨ o = sourcedescriptionMode := by decide +kernel
  refine ⟨buildArgs ns ms, by unfold buildCommand; rw [hns], rfl, ?_⟩
  refine (fun (hmodes : _ ∧ _ ∧ _ ∧ _ ∧ _ ∧ _) => ⟨hmodes.1, hmodes.2.1, hmodes.2.2.1, hmodes.2.2.2.1, hmodes.2.2.2.2.1, hmodes.2.2.2.2.2,
    holds_str hh "--outfile" (opt ["--outfile".toList] "outfile".toList .store) (by decide +kernel) List.mem_cons_self (.inl rfl),
    holds_str hh "--paths" (opt ["--paths".toList] "paths".toList .store) (by decide +kernel) List.mem_cons_self (.inl rfl),
    holds_str hh "--reference" (opt ["--reference".toList] "reference".toList .store) (by decide +kernel) List.mem_cons_self (.inl rfl),
    holds_str hh "--newreference" (opt ["--newreference".toList] "newreference".toList .store) (by decide +kernel) List.mem_cons_self (.inl rfl),
    holds_list hh "--link" (opt ["--link".toList] "link".toList .append) (by decide +kernel) List.mem_cons_self rfl,
    holds_str hh "--describedby-link" (opt ["--describedby-link".toList] "describedby_link".toList .store) (by decide +kernel) List.mem_cons_self (.inl rfl),
    holds_str hh "--sourcedescription-link" (opt ["--sourcedescription-link".toList, "--source-description-link".toList] "sourcedescription_link".toList .store) (by decide +kernel) List.mem_cons_self (.inl rfl),
    holds_str hh "--capabilitylist-link" (opt ["--capabilitylist-link".toList, "--capability-list-link".toList] "capabilitylist_link".toList .store) (by decide +kernel) List.mem_cons_self (.inl rfl),
    holds_flag hh "--empty" (opt ["--empty".toList] "empty".toList .flag) (by decide +kernel) List.mem_cons_self rfl,
    holds_flag hh "--warc" (opt ["--warc".toList] "warc".toList .flag) (by decide +kernel) List.mem_cons_self rfl,
    holds_flag hh "--dryrun" dryrunOption (by decide +kernel) List.mem_cons_self rfl,
    congrArg (Option.map Int.toNat) (holds_int hh "--max-sitemap-entries" (opt ["--max-sitemap-entries".toList] "max_sitemap_entries".toList .int) (by decide +kernel) List.mem_cons_self rfl),
    s1, s2, s3, s4, s5, s6⟩) ?_
  simp only [hmode]
  rcases hall o ho hm with rfl | rfl | rfl | rfl | rfl | rfl
  · have z_rd := g_rd.trans (hoth _ m_rd d_rd (by decide +kernel))
    have z_cl := g_cl.trans (hoth _ m_cl d_cl (by decide +kernel))
    have z_cd := g_cd.trans (hoth _ m_cd d_cd (by decide +kernel))
    have z_cap := g_cap.trans (hoth _ m_cap d_cap (by decide +kernel))
    have z_sd := g_sd.trans (hoth _ m_sd d_sd (by decide +kernel))
    rw [← g_rl] at hv
    have e_rl := f_rl.mpr hv
    have e_rd := hnoflag _ _ f_rd z_rd
    have e_cl := hnoflag _ _ f_cl z_cl
    have e_cd := hnoflag _ _ f_cd z_cd
    simp [e_rl, e_rd, z_rd, e_cl, z_cl, e_cd, z_cd, f_cap, z_cap, f_sd, z_sd, hv]
  · have z_rl := g_rl.trans (hoth _ m_rl d_rl (by decide +kernel))
    have z_cl := g_cl.trans (hoth _ m_cl d_cl (by decide +kernel))
    have z_cd := g_cd.trans (hoth _ m_cd d_cd (by decide +kernel))
    have z_cap := g_cap.trans (hoth _ m_cap d_cap (by decide +kernel))
    have z_sd := g_sd.trans (hoth _ m_sd d_sd (by decide +kernel))
    rw [← g_rd] at hv
    have e_rl := hnoflag _ _ f_rl z_rl
    have e_rd := f_rd.mpr hv
    have e_cl := hnoflag _ _ f_cl z_cl
    have e_cd := hnoflag _ _ f_cd z_cd
    simp [e_rl, z_rl, e_rd, e_cl, z_cl, e_cd, z_cd, f_cap, z_cap, f_sd, z_sd, hv]
  · have z_rl := g_rl.trans (hoth _ m_rl d_rl (by decide +kernel))
    have z_rd := g_rd.trans (hoth _ m_rd d_rd (by decide +kernel))
    have z_cd := g_cd.trans (hoth _ m_cd d_cd (by decide +kernel))
    have z_cap := g_cap.trans (hoth _ m_cap d_cap (by decide +kernel))
    have z_sd := g_sd.trans (hoth _ m_sd d_sd (by decide +kernel))
    rw [← g_cl] at hv
    have e_rl := hnoflag _ _ f_rl z_rl
    have e_rd := hnoflag _ _ f_rd z_rd
    have e_cl := f_cl.mpr hv
    have e_cd := hnoflag _ _ f_cd z_cd
    simp [e_rl, z_rl, e_rd, z_rd, e_cl, e_cd, z_cd, f_cap, z_cap, f_sd, z_sd, hv]
  · have z_rl := g_rl.trans (hoth _ m_rl d_rl (by decide +kernel))
    have z_rd := g_rd.trans (hoth _ m_rd d_rd (by decide +kernel))
    have z_cl := g_cl.trans (hoth _ m_cl d_cl (by decide +kernel))
    have z_cap := g_cap.trans (hoth _ m_cap d_cap (by decide +kernel))
    have z_sd := g_sd.trans (hoth _ m_sd d_sd (by decide +kernel))
    rw [← g_cd] at hv
    have e_rl := hnoflag _ _ f_rl z_rl
    have e_rd := hnoflag _ _ f_rd z_rd
    have e_cl := hnoflag _ _ f_cl z_cl
    have e_cd := f_cd.mpr hv
    simp [e_rl, z_rl, e_rd, z_rd, e_cl, z_cl, e_cd, f_cap, z_cap, f_sd, z_sd, hv]
  · have z_rl := g_rl.trans (hoth _ m_rl d_rl (by decide +kernel))
    have z_rd := g_rd.trans (hoth _ m_rd d_rd (by decide +kernel))
    have z_cl := g_cl.trans (hoth _ m_cl d_cl (by decide +kernel))
    have z_cd := g_cd.trans (hoth _ m_cd d_cd (by decide +kernel))
    have z_sd := g_sd.trans (hoth _ m_sd d_sd (by decide +kernel))
    rw [← g_cap] at hv
    have e_rl := hnoflag _ _ f_rl z_rl
    have e_rd := hnoflag _ _ f_rd z_rd
    have e_cl := hnoflag _ _ f_cl z_cl
    have e_cd := hnoflag _ _ f_cd z_cd
    obtain ⟨v, hlast⟩ : ∃ v, (givenFor "--write-capabilitylist" gs).getLast? = some v := by
      cases hl : (givenFor "--write-capabilitylist" gs).getLast? with
      | none => rw [List.getLast?_eq_none_iff] at hl; exact absurd hl hv
      | some v => exact ⟨v, rfl⟩
    simp [e_rl, z_rl, e_rd, z_rd, e_cl, z_cl, e_cd, z_cd, f_cap, f_sd, z_sd, hlast, hv]
  · have z_rl := g_rl.trans (hoth _ m_rl d_rl (by decide +kernel))
    have z_rd := g_rd.trans (hoth _ m_rd d_rd (by decide +kernel))
    have z_cl := g_cl.trans (hoth _ m_cl d_cl (by decide +kernel))
    have z_cd := g_cd.trans (hoth _ m_cd d_cd (by decide +kernel))
    have z_cap := g_cap.trans (hoth _ m_cap d_cap (by decide +kernel))
    rw [← g_sd] at hv
    have e_rl := hnoflag _ _ f_rl z_rl
    have e_rd := hnoflag _ _ f_rd z_rd
    have e_cl := hnoflag _ _ f_cl z_cl
    have e_cd := hnoflag _ _ f_cd z_cd
    obtain ⟨v, hlast⟩ : ∃ v, (givenFor "--write-sourcedescription" gs).getLast? = some v := by
      cases hl : (givenFor "--write-sourcedescription" gs).getLast? with
      | none => rw [List.getLast?_eq_none_iff] at hl; exact absurd hl hv
      | some v => exact ⟨v, rfl⟩
    simp [e_rl, z_rl, e_rd, z_rd, e_cl, z_cl, e_cd, z_cd, f_cap, z_cap, f_sd, hlast, hv]

theorem syncArgs_congr {ns ns' : Dict ArgVal} (ms : List Str) (h : ∀ o ∈ syncParser.opts, dget ns o.dest = dget ns' o.dest)
    (hrem : ∀ d ∈ ["noauth".toList, "access_token".toList, "delay".toList], dget ns d = dget ns' d) : syncArgs ns ms = syncArgs ns' ms := by
  have hd : ∀ d ∈ ["hash".toList, "checksum".toList, "from_datetime".toList, "exclude".toList, "multifile".toList, "spec_version".toList, "baseline".toList, "audit".toList, "incremental".toList, "sitemap".toList, "capabilitylist".toList, "changelist_uri".toList, "delete".toList, "strictauth".toList, "dryrun".toList, "ignore_failures".toList, "max_sitemap_entries".toList, "tries".toList], dget ns d = dget ns' d := by
    intro d hd
    have hall : ∀ d ∈ ["hash".toList, "checksum".toList, "from_datetime".toList, "exclude".toList, "multifile".toList, "spec_version".toList, "baseline".toList, "audit".toList, "incremental".toList, "sitemap".toList, "capabilitylist".toList, "changelist_uri".toList, "delete".toList, "strictauth".toList, "dryrun".toList, "ignore_failures".toList, "max_sitemap_entries".toList, "tries".toList], ∃ o ∈ syncParser.opts, o.dest = d := by decide +kernel
    obtain ⟨o, ho, rfl⟩ := hall d hd
    exact h o ho
  simp only [List.forall_mem_cons, List.not_mem_nil, false_implies, implies_true, and_true] at hd hrem
  obtain ⟨a0, a1, a2, a3, a4, a5, a6, a7, a8, a9, a10, a11, a12, a13, a14, a15, a16, a17⟩ := hd
  obtain ⟨b0, b1, b2⟩ := hrem
  have hF : ∀ d, dget ns d = dget ns' d → argFlag ns d = argFlag ns' d := by intro d h; unfold argFlag; rw [h]
  have hS : ∀ d, dget ns d = dget ns' d → argStr ns d = argStr ns' d := by intro d h; unfold argStr; rw [h]
  have hI : ∀ d, dget ns d = dget ns' d → argInt ns d = argInt ns' d := by intro d h; unfold argInt; rw [h]
  have hD : ∀ d, dget ns d = dget ns' d → argFloat ns d = argFloat ns' d := by intro d h; unfold argFloat; rw [h]
  have hL : ∀ d, dget ns d = dget ns' d → argList ns d = argList ns' d := by intro d h; unfold argList; rw [h]
  simp only [syncArgs, sharedArgs, hF _ b0, hS _ b0, hI _ b0, hD _ b0, hL _ b0, hF _ b1, hS _ b1, hI _ b1, hD _ b1, hL _ b1, hF _ b2, hS _ b2, hI _ b2, hD _ b2, hL _ b2, hF _ a0, hS _ a0, hI _ a0, hD _ a0, hL _ a0, hF _ a1, hS _ a1, hI _ a1, hD _ a1, hL _ a1, hF _ a2, hS _ a2, hI _ a2, hD _ a2, hL _ a2, hF _ a3, hS _ a3, hI _ a3, hD _ a3, hL _ a3, hF _ a4, hS _ a4, hI _ a4, hD _ a4, hL _ a4, hF _ a5, hS _ a5, hI _ a5, hD _ a5, hL _ a5, hF _ a6, hS _ a6, hI _ a6, hD _ a6, hL _ a6, hF _ a7, hS _ a7, hI _ a7, hD _ a7, hL _ a7, hF _ a8, hS _ a8, hI _ a8, hD _ a8, hL _ a8, hF _ a9, hS _ a9, hI _ a9, hD _ a9, hL _ a9, hF _ a10, hS _ a10, hI _ a10, hD _ a10, hL _ a10, hF _ a11, hS _ a11, hI _ a11, hD _ a11, hL _ a11, hF _ a12, hS _ a12, hI _ a12, hD _ a12, hL _ a12, hF _ a13, hS _ a13, hI _ a13, hD _ a13, hL _ a13, hF _ a14, hS _ a14, hI _ a14, hD _ a14, hL _ a14, hF _ a15, hS _ a15, hI _ a15, hD _ a15, hL _ a15, hF _ a16, hS _ a16, hI _ a16, hD _ a16, hL _ a16, hF _ a17, hS _ a17, hI _ a17, hD _ a17, hL _ a17]

theorem buildArgs_congr {ns ns' : Dict ArgVal} (ms : List Str) (h : ∀ o ∈ buildParser.opts, dget ns o.dest = dget ns' o.dest)
    (hrem : ∀ d ∈ ["noauth".toList, "access_token".toList, "delay".toList], dget ns d = dget ns' d) : buildArgs ns ms = buildArgs ns' ms := by
  have hd : ∀ d ∈ ["hash".toList, "checksum".toList, "from_datetime".toList, "exclude".toList, "multifile".toList, "spec_version".toList, "write_resourcelist".toList, "write_resourcedump".toList, "write_changelist".toList, "write_changedump".toList, "write_capabilitylist".toList, "write_sourcedescription".toList, "outfile".toList, "paths".toList, "reference".toList, "newreference".toList, "link".toList, "describedby_link".toList, "sourcedescription_link".toList, "capabilitylist_link".toList, "empty".toList, "warc".toList, "dryrun".toList, "max_sitemap_entries".toList], dget ns d = dget ns' d := by
    intro d hd
    have hall : ∀ d ∈ ["hash".toList, "checksum".toList, "from_datetime".toList, "exclude".toList, "multifile".toList, "spec_version".toList, "write_resourcelist".toList, "write_resourcedump".toList, "write_changelist".toList, "write_changedump".toList, "write_capabilitylist".toList, "write_sourcedescription".toList, "outfile".toList, "paths".toList, "reference".toList, "newreference".toList, "link".toList, "describedby_link".toList, "sourcedescription_link".toList, "capabilitylist_link".toList, "empty".toList, "warc".toList, "dryrun".toList, "max_sitemap_entries".toList], ∃ o ∈ buildParser.opts, o.dest = d := by decide +kernel
    obtain ⟨o, ho, rfl⟩ := hall d hd
    exact h o ho
  simp only [List.forall_mem_cons, List.not_mem_nil, false_implies, implies_true, and_true] at hd hrem
  obtain ⟨a0, a1, a2, a3, a4, a5, a6, a7, a8, a9, a10, a11, a12, a13, a14, a15, a16, a17, a18, a19, a20, a21, a22, a23⟩ := hd
  obtain ⟨b0, b1, b2⟩ := hrem
  have hF : ∀ d, dget ns d = dget ns' d → argFlag ns d = argFlag ns' d := by intro d h; unfold argFlag; rw [h]
  have hS : ∀ d, dget ns d = dget ns' d → argStr ns d = argStr ns' d := by intro d h; unfold argStr; rw [h]
  have hI : ∀ d, dget ns d = dget ns' d → argInt ns d = argInt ns' d := by intro d h; unfold argInt; rw [h]
  have hD : ∀ d, dget ns d = dget ns' d → argFloat ns d = argFloat ns' d := by intro d h; unfold argFloat; rw [h]
  have hL : ∀ d, dget ns d = dget ns' d → argList ns d = argList ns' d := by intro d h; unfold argList; rw [h]
  simp only [buildArgs, sharedArgs, hF _ b0, hS _ b0, hI _ b0, hD _ b0, hL _ b0, hF _ b1, hS _ b1, hI _ b1, hD _ b1, hL _ b1, hF _ b2, hS _ b2, hI _ b2, hD _ b2, hL _ b2, hF _ a0, hS _ a0, hI _ a0, hD _ a0, hL _ a0, hF _ a1, hS _ a1, hI _ a1, hD _ a1, hL _ a1, hF _ a2, hS _ a2, hI _ a2, hD _ a2, hL _ a2, hF _ a3, hS _ a3, hI _ a3, hD _ a3, hL _ a3, hF _ a4, hS _ a4, hI _ a4, hD _ a4, hL _ a4, hF _ a5, hS _ a5, hI _ a5, hD _ a5, hL _ a5, hF _ a6, hS _ a6, hI _ a6, hD _ a6, hL _ a6, hF _ a7, hS _ a7, hI _ a7, hD _ a7, hL _ a7, hF _ a8, hS _ a8, hI _ a8, hD _ a8, hL _ a8, hF _ a9, hS _ a9, hI _ a9, hD _ a9, hL _ a9, hF _ a10, hS _ a10, hI _ a10, hD _ a10, hL _ a10, hF _ a11, hS _ a11, hI _ a11, hD _ a11, hL _ a11, hF _ a12, hS _ a12, hI _ a12, hD _ a12, hL _ a12, hF _ a13, hS _ a13, hI _ a13, hD _ a13, hL _ a13, hF _ a14, hS _ a14, hI _ a14, hD _ a14, hL _ a14, hF _ a15, hS _ a15, hI _ a15, hD _ a15, hL _ a15, hF _ a16, hS _ a16, hI _ a16, hD _ a16, hL _ a16, hF _ a17, hS _ a17, hI _ a17, hD _ a17, hL _ a17, hF _ a18, hS _ a18, hI _ a18, hD _ a18, hL _ a18, hF _ a19, hS _ a19, hI _ a19, hD _ a19, hL _ a19, hF _ a20, hS _ a20, hI _ a20, hD _ a20, hL _ a20, hF _ a21, hS _ a21, hI _ a21, hD _ a21, hL _ a21, hF _ a22, hS _ a22, hI _ a22, hD _ a22, hL _ a22, hF _ a23, hS _ a23, hI _ a23, hD _ a23, hL _ a23]

/-- C110 (order).  Two proper command lines with the same mapping arguments that set the options alike have the same effect: the order of
the options, and how they are written, does not matter. -/
theorem C110_order (cv : Convert) (gs gs' : List (OptDef × Option Str)) (ms argv argv' : List Str) :
    (CommandFor syncParser cv gs ms argv → CommandFor syncParser cv gs' ms argv' →
      (∀ o ∈ syncParser.opts, setting cv o (valuesOf o gs) = setting cv o (valuesOf o gs')) →
      ∀ w world, syncCommand w cv argv world = syncCommand w cv argv' world) ∧
    (CommandFor buildParser cv gs ms argv → CommandFor buildParser cv gs' ms argv' →
      (∀ o ∈ buildParser.opts, setting cv o (valuesOf o gs) = setting cv o (valuesOf o gs')) →
      ∀ env, buildCommand env cv argv = buildCommand env cv argv') := by
  constructor
  · intro h h' hs w world
    obtain ⟨ns, hns, hset⟩ := C110_accepts syncParser C110_parsers.1 cv gs ms argv h
    obtain ⟨ns', hns', hset'⟩ := C110_accepts syncParser C110_parsers.1 cv gs' ms argv' h'
    have hall : ∀ o ∈ syncParser.opts, dget ns o.dest = dget ns' o.dest := fun o ho => by rw [hset o ho, hset' o ho, hs o ho]
    unfold syncCommand
    rw [hns, hns']
    dsimp only
    rw [syncArgs_congr ms hall]
    intro d hd
    have hopt : ∀ d ∈ ["noauth".toList, "access_token".toList, "delay".toList], ∃ o ∈ syncParser.opts, o.dest = d := by decide +kernel
    obtain ⟨o, ho, rfl⟩ := hopt d hd
    exact hall o ho
  · intro h h' hs env
    have hp := C110_parsers.2.1
    obtain ⟨ns, hns, hset⟩ := C110_accepts buildParser hp cv gs ms argv h
    obtain ⟨ns', hns', hset'⟩ := C110_accepts buildParser hp cv gs' ms argv' h'
    have hall : ∀ o ∈ buildParser.opts, dget ns o.dest = dget ns' o.dest := fun o ho => by rw [hset o ho, hset' o ho, hs o ho]
    have hnone : ∀ argv ns, buildParser.parse cv argv = .ok (ns, ms) → ∀ d ∈ ["noauth".toList, "access_token".toList, "delay".toList],
        dget ns d = none := by
      intro argv ns hns d hd
      by_contra hne
      obtain ⟨toks, s, hc, hl, rfl, -, -, -⟩ := parse_ok hns
      obtain ⟨acts, h1, h2, -⟩ := loop_acts (Nat.le_refl _) hl
      rcases ran_key h1 hne with h | ⟨a, ha, e⟩
      · exact h rfl
      · obtain ⟨w, o', str, eq, ex, nx, t, hw, ht, hbt⟩ := h2 a ha
        have g1 := ((take_mentions hp (classify_mem hc hw).2 ht).2 a hbt).1
        have hopt : ∀ d ∈ ["noauth".toList, "access_token".toList, "delay".toList], ∀ o ∈ buildParser.opts, o.dest ≠ d := by decide +kernel
        exact hopt d hd a.1 g1 e
    unfold buildCommand
    rw [hns, hns']
    dsimp only
    rw [buildArgs_congr ms hall]
    intro d hd
    rw [hnone argv ns hns d hd, hnone argv' ns' hns' d hd]

end Resync
