import Verif.Props.CommandRuns
/-
C110: what a command line of resync-sync can and cannot do.
-/

namespace Resync
open Py Resync.Spec

theorem sync_refused_same {w : SyncWorld} {cv : Convert} {argv : List Str} {world : World} {e : ParseEnd}
    (h : syncParser.parse cv argv = .error e) :
    (syncCommand w cv argv world).st.trace = [] ∧ (syncCommand w cv argv world).st.world = world ∧
    (e = .usage → (syncCommand w cv argv world).exit.status = 2) := by
  unfold syncCommand
  rw [h]
  cases e
  · exact ⟨rfl, rfl, fun _ => rfl⟩
  · exact ⟨rfl, rfl, fun h => by cases h⟩

/-- C110 (refused lines).  If the command line is refused, nothing is done; the exit status says so.  (Asked for help, the program does
nothing either.) -/
theorem C110_refused (w : SyncWorld) (cv : Convert) (argv : List Str) (world : World) (e : ParseEnd)
    (h : syncParser.parse cv argv = .error e) :
    (syncCommand w cv argv world).done = [] ∧ (syncCommand w cv argv world).st.world = world ∧
    (∀ w', (syncCommand w cv argv world).AtSomeMoment world w' → w' = world) ∧
    (e = .usage → (syncCommand w cv argv world).exit.status = 2) := by
  obtain ⟨h1, h2, h3⟩ := sync_refused_same (w := w) (world := world) h
  exact ⟨h1, h2, fun w' hw => moment_refused ⟨h1, h2⟩ hw, h3⟩

theorem sync_flag_word {cv : Convert} {argv : List Str} {ns : Dict ArgVal} {map : List Str} (h : syncParser.parse cv argv = .ok (ns, map))
    {o : OptDef} (ho : o ∈ syncParser.opts) (hk : o.kind = .flag) {s : Str} (hn : NamedBy syncParser o s) (hw : StandsIn s argv) :
    argFlag ns o.dest = true := by
  unfold argFlag
  rw [(C110_word_counts syncParser C110_parsers.1 cv argv ns map h o ho s hn hw).2 hk]

theorem flag_off {p : ParserDef} {cv : Convert} {argv : List Str} {ns : Dict ArgVal} {map : List Str} (h : p.parse cv argv = .ok (ns, map))
    {d d' : Str} (hd : d ∈ p.modes) (hd' : d' ∈ p.modes) (hne : d ≠ d') (hf : argFlag ns d = true) : argFlag ns d' = false := by
  obtain ⟨m, -, -, huniq⟩ := C110_one_mode p cv argv ns map h (by intro e; rw [e] at hd; cases hd)
  have key : ∀ d ∈ p.modes, argFlag ns d = true → d = m := by
    intro d hd hf
    apply huniq d hd
    intro hnone
    unfold argFlag at hf
    rw [hnone] at hf
    cases hf
  rw [← Bool.not_eq_true]
  intro hf'
  exact hne ((key d hd hf).trans (key d' hd' hf').symm)

/-- C110 (--audit, --parse).  If a word before any `--` names --audit or --parse, then whatever else the command line says, nothing is
requested, written or removed, and the status file stays as it is. -/
theorem C110_only_looks (w : SyncWorld) (cv : Convert) (argv : List Str) (world : World) (s : Str) (hs : StandsIn s argv)
    (hn : NamedBy syncParser auditOption s ∨ NamedBy syncParser parseOption s) :
    (syncCommand w cv argv world).done = [] ∧ (syncCommand w cv argv world).st.world = world ∧
    ∀ w', (syncCommand w cv argv world).AtSomeMoment world w' → w' = world := by
  cases hp : syncParser.parse cv argv with
  | error e =>
    obtain ⟨h1, h2, h3, -⟩ := C110_refused w cv argv world e hp
    exact ⟨h1, h2, h3⟩
  | ok r =>
    obtain ⟨ns, map⟩ := r
    have e : syncCommand w cv argv world = syncMain w (syncArgs ns map) world := by unfold syncCommand; rw [hp]
    rw [e]
    apply C80_only_looks
    have hmode : (syncArgs ns map).mode = (if argFlag ns baselineOption.dest then SyncMode.baseline
      else if argFlag ns auditOption.dest then .audit
      else if argFlag ns incrementalOption.dest then .incremental
      else .parse) := rfl
    rw [hmode]
    have db : baselineOption.dest ∈ syncParser.modes := by decide +kernel
    have di : incrementalOption.dest ∈ syncParser.modes := by decide +kernel
    have da : auditOption.dest ∈ syncParser.modes := by decide +kernel
    have dp : parseOption.dest ∈ syncParser.modes := by decide +kernel
    rcases hn with hn | hn
    · have hf := sync_flag_word hp (by decide +kernel) rfl hn hs
      rw [flag_off hp da db (by decide +kernel) hf, hf]
      exact .inl rfl
    · have hf := sync_flag_word hp (by decide +kernel) rfl hn hs
      rw [flag_off hp dp db (by decide +kernel) hf, flag_off hp dp da (by decide +kernel) hf, flag_off hp dp di (by decide +kernel) hf]
      exact .inr rfl

/-- C110 (--dryrun).  If a word before any `--` names --dryrun, then whatever else the command line says, nothing is downloaded, and the
files stay as they are. -/
theorem C110_dryrun (w : SyncWorld) (cv : Convert) (argv : List Str) (world : World) (s : Str) (hs : StandsIn s argv)
    (hn : NamedBy syncParser dryrunOption s) :
    (∀ u, Effect.get u ∉ (syncCommand w cv argv world).done) ∧
    ∀ w', (syncCommand w cv argv world).AtSomeMoment world w' → SameFiles w'.fs world.fs := by
  cases hp : syncParser.parse cv argv with
  | error e =>
    obtain ⟨h1, h2, h3, -⟩ := C110_refused w cv argv world e hp
    refine ⟨?_, ?_⟩
    · intro u hu; rw [h1] at hu; cases hu
    · intro w' hw; rw [h3 w' hw]; exact fun _ _ _ => Iff.rfl
  | ok r =>
    obtain ⟨ns, map⟩ := r
    have e : syncCommand w cv argv world = syncMain w (syncArgs ns map) world := by unfold syncCommand; rw [hp]
    rw [e]
    exact C80_dryrun_partial w (syncArgs ns map) world (sync_flag_word hp (by decide +kernel) rfl hn hs)

/-- C110 (--delete).  A file goes away only if a word of the command line is `--delete`, or the beginning of it with at least five
characters; and never if a word names --dryrun. -/
theorem C110_delete (w : SyncWorld) (cv : Convert) (argv : List Str) (world : World) (l : Loc) (hf : HasFile world.fs l) (w' : World)
    (hw : (syncCommand w cv argv world).AtSomeMoment world w') (hgone : ¬ HasFile w'.fs l) :
    (∃ s, StandsIn s argv ∧ s <+: "--delete".toList ∧ 5 ≤ s.length) ∧
    ∀ s, StandsIn s argv → ¬ NamedBy syncParser dryrunOption s := by
  cases hp : syncParser.parse cv argv with
  | error e =>
    exfalso
    obtain ⟨-, -, h3, -⟩ := C110_refused w cv argv world e hp
    rw [h3 w' hw] at hgone
    exact hgone hf
  | ok r =>
    obtain ⟨ns, map⟩ := r
    have e : syncCommand w cv argv world = syncMain w (syncArgs ns map) world := by unfold syncCommand; rw [hp]
    rw [e] at hw
    obtain ⟨hd, hn⟩ := C80_delete w (syncArgs ns map) world l hf w' hw hgone
    refine ⟨?_, ?_⟩
    · have hd' : argFlag ns deleteOption.dest = true := hd
      obtain ⟨s, hs, hm⟩ := C110_meant syncParser C110_parsers.1 cv argv ns map hp deleteOption (by decide +kernel) (by
        intro hnone
        unfold argFlag at hd'
        rw [hnone] at hd'
        cases hd')
      refine ⟨s, hs, ?_⟩
      cases hm with
      | named hn =>
        cases hn with
        | full h =>
          have : s = "--delete".toList := by simpa [deleteOption, opt] using h
          rw [this]
          exact ⟨List.prefix_refl _, by decide⟩
        | begun h h1 h2 h3 h4 h5 =>
          have hsd : s <+: "--delete".toList := by
            have := List.mem_singleton.mp h
            rwa [this] at h4
          refine ⟨hsd, ?_⟩
          by_contra hlt
          have hde : s <+: "--de".toList :=
            List.prefix_of_prefix_length_le hsd (by decide) (by
              have : ("--de".toList).length = 4 := by decide
              omega)
          have := h5 (opt ["--delay".toList] "delay".toList .float) (by decide +kernel) "--delay".toList List.mem_cons_self
            (hde.trans (by decide))
          exact absurd this.1 (by decide)
      | equals hv _ => exact absurd rfl hv.1
      | inside hc h _ =>
        exfalso
        have := congrArg List.length (List.mem_singleton.mp h)
        simp at this
    · intro s hs hnm
      have : argFlag ns dryrunOption.dest = true := sync_flag_word hp (by decide +kernel) rfl hnm hs
      have hn' : argFlag ns dryrunOption.dest = false := hn
      rw [this] at hn'
      cases hn'

/-- the same, for the ways in which --dryrun and --audit can be written out -/
example : NamedBy syncParser dryrunOption "--dryrun".toList ∧ NamedBy syncParser dryrunOption "-n".toList ∧
    NamedBy syncParser dryrunOption "--dry".toList ∧ NamedBy syncParser auditOption "-a".toList ∧
    NamedBy syncParser auditOption "--au".toList := by
  refine ⟨.full (by decide), .full (by decide), .begun (s := "--dryrun".toList) (by decide) (by decide) (by decide) (by decide)
    (by decide) (by decide +kernel), .full (by decide),
    .begun (s := "--audit".toList) (by decide) (by decide) (by decide) (by decide) (by decide) (by decide +kernel)⟩

/-! ### Where the order of the words matters -/

/-- C110, violated: options cannot stand between the mapping arguments.  `resync-sync URI --baseline PATH` is refused, for every URI and
every path. -/
theorem C110_between_violated (cv : Convert) (uri path : Str) (hu : PlainWord uri) (hp : PlainWord path) :
    syncParser.parse cv [uri, "--baseline".toList, path] = .error .usage ∧
    (∃ ns, syncParser.parse cv ["--baseline".toList, uri, path] = .ok (ns, [uri, path])) ∧
    ∃ ns, syncParser.parse cv [uri, path, "--baseline".toList] = .ok (ns, [uri, path]) := by
  have hok := C110_parsers.1
  obtain ⟨t1, n1⟩ := plain_token syncParser hu
  obtain ⟨t2, n2⟩ := plain_token syncParser hp
  have tb : syncParser.parseOptional "--baseline".toList = .ok (.opt (some baselineOption) "--baseline".toList false none) :=
    parseOptional_found (find_of_string hok (by decide +kernel) List.mem_cons_self)
  have hg : GivesAll syncParser [(baselineOption, none)] ["--baseline".toList] :=
    .cons (gs := []) (wss := []) (.flag (by decide +kernel) (by intro h; exact h.1 rfl) (.full List.mem_cons_self)) .nil
  have hacc : ∀ ws₁ gs₁ ws₂ gs₂, GivesAll syncParser gs₁ ws₁ → GivesAll syncParser gs₂ ws₂ → gs₁ ++ gs₂ = [(baselineOption, none)] →
      ∃ ns, syncParser.parse cv (ws₁ ++ ([uri, path] ++ ws₂)) = .ok (ns, [uri, path]) := by
    intro ws₁ gs₁ ws₂ gs₂ h1 h2 e
    obtain ⟨ns, h, -⟩ := C110_accepts syncParser hok cv (gs₁ ++ gs₂) [uri, path] _
      ⟨⟨gs₁, ws₁, gs₂, ws₂, h1, h2, rfl, rfl⟩, by simp [hu, hp], .inl rfl, by rw [e]; simp [Acceptable, baselineOption, opt],
        "baseline".toList, by rw [e]; simp [baselineOption, opt], by
          rw [e]; intro _; exact ⟨_, List.mem_cons_self, by decide +kernel⟩⟩
    exact ⟨ns, h⟩
  refine ⟨?_, hacc _ _ [] [] hg .nil rfl, hacc [] [] _ _ .nil hg rfl⟩
  have hc : syncParser.classify [uri, "--baseline".toList, path] =
      .ok [(uri, .arg), ("--baseline".toList, .opt (some baselineOption) "--baseline".toList false none), (path, .arg)] :=
    classify_cons n1 t1 (classify_cons (by decide) tb (classify_cons n2 t2 rfl))
  have hloop : syncParser.loop cv [(uri, .arg), ("--baseline".toList, .opt (some baselineOption) "--baseline".toList false none), (path, .arg)]
      { closed := !syncParser.positional } =
      .ok { ns := [("baseline".toList, .yes)], seen := ["baseline".toList], map := [uri], closed := true, extras := [path] } := by
    rw [ParserDef.loop]
    have := loop_one (p := syncParser) (cv := cv) (w := "--baseline".toList) (o := baselineOption) (str := "--baseline".toList) (eq := false)
      (ex := none) (gs := [(baselineOption, none)]) (fun nx => rfl) [(path, .arg)] { map := [uri], closed := false }
      { ns := [("baseline".toList, .yes)], seen := ["baseline".toList], map := [uri], closed := true } rfl
    refine Eq.trans this ?_
    rw [ParserDef.loop, ParserDef.loop]
    rfl
  unfold ParserDef.parse
  rw [hc]
  dsimp only
  rw [hloop]
  rfl

/-- C110, violated: an abbreviation is refused as ambiguous although all strings that it begins belong to one option. -/
theorem C110_spellings_violated (cv : Convert) (argv : List Str) (h : StandsIn "--change".toList argv) :
    (∀ o ∈ syncParser.opts, ∀ s ∈ o.strings, "--change".toList <+: s → o.dest = "changelist_uri".toList) ∧
    syncParser.parse cv argv = .error .usage := by
  refine ⟨by decide +kernel, ?_⟩
  have hbad : syncParser.parseOptional "--change".toList = .error .usage := by decide +kernel
  obtain ⟨pre, post, rfl, hpre⟩ := h
  have hpo : ∀ w e, syncParser.parseOptional w = .error e → e = .usage := by
    intro w e he
    have hb : ∀ e, syncParser.parseBegun w = .error e → e = .usage := by
      intro e he
      unfold ParserDef.parseBegun at he
      split at he
      · cases he; rfl
      · cases he
      · split at he
        · cases he
        · split at he <;> cases he
    unfold ParserDef.parseOptional at he
    split at he
    · split at he
      · cases he
      · split at he
        · cases he
        · split at he
          · split at he
            · cases he
            · exact hb e he
          · exact hb e he
    · cases he
  have hcl : syncParser.classify (pre ++ "--change".toList :: post) = .error .usage := by
    induction pre with
    | nil =>
      rw [List.nil_append]
      unfold ParserDef.classify
      rw [if_neg (by decide), hbad]
    | cons s pre ih =>
      rw [List.cons_append]
      unfold ParserDef.classify
      rw [if_neg (by rintro rfl; simp at hpre), ih (by intro h; exact hpre (List.mem_cons_of_mem _ h))]
      cases hs : syncParser.parseOptional s with
      | error e => rw [hpo s e hs]
      | ok t => rfl
  unfold ParserDef.parse
  rw [hcl]

/-! ### A line in several forms -/

namespace CommandExample

def cv : Convert := { int := fun s => if s = "5".toList then some 5 else none, float := fun _ => none }

def uri : Str := "http://a/".toList
def path : Str := "/tmp/d".toList

def hashOpt : OptDef := opt ["--hash".toList] "hash".toList .append
def triesOpt : OptDef := opt ["--tries".toList, "-t".toList] "tries".toList .int
def verboseOpt : OptDef := opt ["--verbose".toList, "-v".toList] "verbose".toList .flag

def gs : List (OptDef × Option Str) :=
  [(baselineOption, none), (hashOpt, some "md5".toList), (triesOpt, some "5".toList), (hashOpt, some "sha-256".toList), (dryrunOption, none),
   (verboseOpt, none), (deleteOption, none)]

def argv : List Str :=
  ["--base".toList, "--hash".toList, "md5".toList, uri, path, "-t5".toList, "--has=sha-256".toList, "-nv".toList, "--delete".toList]

theorem proper : CommandFor syncParser cv gs [uri, path] argv where
  words := by
    refine ⟨[(baselineOption, none), (hashOpt, some "md5".toList)], ["--base".toList, "--hash".toList, "md5".toList],
      [(triesOpt, some "5".toList), (hashOpt, some "sha-256".toList), (dryrunOption, none), (verboseOpt, none), (deleteOption, none)],
      ["-t5".toList, "--has=sha-256".toList, "-nv".toList, "--delete".toList], ?_, ?_, rfl, rfl⟩
    · refine .cons (g := [(baselineOption, none)]) (ws := ["--base".toList]) (.flag (by decide +kernel) (fun h => h.1 rfl)
        (.begun (s := "--baseline".toList) (by decide) (by decide) (by decide) (by decide) (by decide) (by decide +kernel))) ?_
      refine .cons (g := [(hashOpt, some "md5".toList)]) (ws := ["--hash".toList, "md5".toList]) (.next (by decide +kernel)
        ⟨by decide, by decide⟩ (.full (by decide)) (by intro t h; cases h)) .nil
    · refine .cons (g := [(triesOpt, some "5".toList)]) (ws := ["-t5".toList]) (.letter (by decide +kernel) ⟨by decide, by decide⟩ (by decide)
        (by decide) (by decide)) ?_
      refine .cons (g := [(hashOpt, some "sha-256".toList)]) (ws := ["--has=sha-256".toList]) (.equals (w := "--has".toList) (by decide +kernel)
        ⟨by decide, by decide⟩ (.begun (s := "--hash".toList) (by decide) (by decide) (by decide) (by decide) (by decide) (by decide +kernel))) ?_
      refine .cons (g := [(dryrunOption, none), (verboseOpt, none)]) (ws := ["-nv".toList])
        (.letters (l := [('n', dryrunOption), ('v', verboseOpt)]) (by decide) ?_) ?_
      · intro x hx
        simp only [List.mem_cons, List.not_mem_nil, or_false] at hx
        rcases hx with rfl | rfl
        · exact ⟨by decide +kernel, fun h => h.1 rfl, by decide, by decide⟩
        · exact ⟨by decide +kernel, fun h => h.1 rfl, by decide, by decide⟩
      · exact .cons (g := [(deleteOption, none)]) (ws := ["--delete".toList]) (gs := []) (wss := []) (.flag (by decide +kernel) (fun h => h.1 rfl)
          (.full (by decide))) .nil
  plain := by
    intro m hm
    simp only [List.mem_cons, List.not_mem_nil, or_false] at hm
    rcases hm with rfl | rfl <;> (intro t h; cases h)
  mapping := .inl rfl
  values := by
    intro g hg
    simp only [gs, List.mem_cons, List.not_mem_nil, or_false] at hg
    rcases hg with rfl | rfl | rfl | rfl | rfl | rfl | rfl
    · trivial
    · trivial
    · show cv.int ((some "5".toList).getD []) ≠ none
      decide
    · trivial
    · trivial
    · trivial
    · trivial
  mode := ⟨"baseline".toList, by decide +kernel, fun _ => ⟨(baselineOption, none), List.mem_cons_self, by decide +kernel⟩⟩

/-- what is given: two hashes, in order; five tries; --delete with --dryrun -/
example : givenFor "--hash" gs = ["md5".toList, "sha-256".toList] ∧ givenFor "--tries" gs = ["5".toList] ∧ givenFor "--delete" gs ≠ [] ∧
    givenFor "--audit" gs = [] := by decide +kernel

/-- a word that is unknown, and one that is not -/
example : (∀ o ∈ syncParser.opts, ∀ s ∈ o.strings, ¬ "--frobnicate".toList <+: s) ∧
    ¬ ∀ o ∈ syncParser.opts, ∀ s ∈ o.strings, ¬ "--max".toList <+: s := by decide +kernel

/-- lines that are refused: a value is missing, a letter is unknown, a value is none of the choices -/
example : (∃ e, syncParser.parse cv ["-b".toList, "--sitemap".toList, "--delete".toList, uri] = .error e) ∧
    (∃ e, syncParser.parse cv ["-b".toList, "-nx".toList] = .error e) ∧
    syncParser.parse cv ["-b".toList, "--spec-version=2".toList] = .error .usage :=
  ⟨C110_missing_value syncParser C110_parsers.1 cv ["-b".toList] ["--delete".toList, uri] "--sitemap".toList
      (opt ["--sitemap".toList] "sitemap".toList .store) (by decide +kernel) ⟨by decide, by decide⟩ (.full List.mem_cons_self) (by decide)
      (.inr ⟨_, deleteOption, _, rfl, by decide +kernel, .full List.mem_cons_self⟩),
    C110_unknown_letter syncParser C110_parsers.1 cv _ [('n', dryrunOption)] 'x' []
      (by
        intro x hx
        rw [List.mem_singleton] at hx
        subst hx
        exact ⟨by decide +kernel, fun h => h.1 rfl, by decide, by decide⟩)
      (by simp) (by decide) (by decide +kernel) ⟨["-b".toList], [], rfl, by decide⟩,
    by decide +kernel⟩

/-- a file can go away: some line with --delete is accepted -/
example : ∃ ns map, syncParser.parse cv ["-b".toList, "--dele".toList, uri, path] = .ok (ns, map) ∧ argFlag ns "delete".toList = true := by
  refine ⟨[("baseline".toList, .yes), ("delete".toList, .yes)], [uri, path], by decide +kernel, by decide⟩

/-- `--` ends the options: what follows it is a mapping argument, as it is written -/
example : ∃ ns, syncParser.parse cv ["-b".toList, "--".toList, uri, "--delete".toList] = .ok (ns, [uri, "--delete".toList]) ∧
    argFlag ns "delete".toList = false := by
  refine ⟨[("baseline".toList, .yes)], by decide +kernel, by decide⟩

end CommandExample

end Resync
