import Verif.Proofs.Logging
import Verif.Props.CommandRuns
import Verif.Props.W3CDatetime
/-
C111: what of the messages of the programs is seen on the console and in the log file.
-/

namespace Resync
open Py Resync.Spec

theorem times_one (s : Str) : times 1 s = s := by simp [times]
theorem times_zero (s : Str) : times 0 s = [] := rfl

theorem lineAt_console (t : Str) (r : Record) : lineAt .console t r = r.msg ++ "\n".toList := rfl
theorem lineAt_file (f t : Str) (r : Record) : lineAt (.file f) t r = logLine t r := rfl

/-- C111.  The law for all histories of calls of init_logging: a message is shown on the console once for each call that asks for
messages of its level and each of the loggers chosen in that call that are at or above the one the message is logged with; and in the
same way in a log file. -/
theorem C111_law (as : List (LogArgs × Rat)) (r : Record) (hn : LoggerName r.name) {t : Str} (ht : formatTime r.created = some t)
    (h : ∃ a ∈ as, (a.1.human = true ∨ a.1.to_file = true) ∧ ∃ q ∈ chosen a.1, AtOrAbove q r.name) :
    writtenTo .console ((afterCalls as).log r) =
      times ((as.map (fun a => if wantsConsole a.1 r.level then chosenAbove a.1 r.name else 0)).sum) (r.msg ++ "\n".toList) ∧
    ∀ f, writtenTo (.file f) ((afterCalls as).log r) =
      times ((as.map (fun a => if wantsFile a.1 f r.level then chosenAbove a.1 r.name else 0)).sum) (logLine t r) := by
  constructor
  · rw [log_written as .console r hn ht h]
    congr 2
    apply List.map_congr_left
    intro a _
    rw [callCount_console]
    split <;> simp
  · intro f
    rw [log_written as (.file f) r hn ht h]
    congr 2
    apply List.map_congr_left
    intro a _
    rw [callCount_file]
    split <;> simp

/-- C111.  Exactly once: after a single call, when just one of the loggers chosen is at or above the one the message is logged with. -/
theorem C111_once_partial (a : LogArgs) (now : Rat) (r : Record) (hn : LoggerName r.name) {t : Str} (ht : formatTime r.created = some t)
    (hw : a.human = true ∨ a.to_file = true) (h1 : chosenAbove a r.name = 1) :
    writtenTo .console ((afterCalls [(a, now)]).log r) = (if wantsConsole a r.level then r.msg ++ "\n".toList else []) ∧
    ∀ f, writtenTo (.file f) ((afterCalls [(a, now)]).log r) = (if wantsFile a f r.level then logLine t r else []) := by
  have hq : ∃ q ∈ chosen a, AtOrAbove q r.name := by
    unfold chosenAbove at h1
    obtain ⟨q, hq⟩ := List.exists_mem_of_length_pos (l := (chosen a).dedup.filter (fun q => AtOrAbove q r.name)) (by omega)
    obtain ⟨h2, h3⟩ := List.mem_filter.mp hq
    exact ⟨q, List.mem_dedup.mp h2, by simpa using h3⟩
  obtain ⟨k1, k2⟩ := C111_law [(a, now)] r hn ht ⟨_, List.mem_singleton.mpr rfl, hw, hq⟩
  constructor
  · rw [k1, List.map_singleton, List.sum_singleton, h1]
    split
    · exact times_one _
    · rfl
  · intro f
    rw [k2 f, List.map_singleton, List.sum_singleton, h1]
    split
    · exact times_one _
    · rfl

theorem below_resync {n : Str} (h : AtOrAbove "resync".toList n) : LoggerName n ∧ n.head? = some 'r' := by
  rcases h with h | h | ⟨rest, h⟩
  · exact absurd h (by decide)
  · subst h; exact ⟨⟨by decide, by decide⟩, rfl⟩
  · subst h; exact ⟨⟨by simp, by simp⟩, rfl⟩

theorem default_above {a : LogArgs} (h1 : a.default_logger = "client".toList) (h2 : a.extra_loggers = []) {n : Str}
    (h : AtOrAbove "resync".toList n) : chosenAbove a n = 1 := by
  unfold chosenAbove chosen
  rw [h1, h2]
  have hd : ["client".toList, "resync".toList].dedup = ["client".toList, "resync".toList] := by decide
  rw [hd]
  have hc : ¬ AtOrAbove "client".toList n := by
    obtain ⟨-, hh⟩ := below_resync h
    rintro (e | e | ⟨rest, e⟩)
    · exact absurd e (by decide)
    · subst e; exact absurd hh (by decide)
    · subst e; exact absurd hh (by simp)
  rw [List.filter_cons_of_neg (by simpa using hc), List.filter_cons_of_pos (by simpa using h), List.filter_nil]
  rfl

/-- C111 (programs).  What the options of the three programs do: every message of resync's own loggers is shown on the console exactly
once if it is a warning, or with --verbose at least an information, and not otherwise; with --logger every message but those for
evaluation, and these too with --eval, makes one line at the end of the file given with --logfile, or else of a file named after the
program. -/
theorem C111_programs (p : ParserDef) (args : Dict ArgVal → LogArgs) (file : Str)
    (hp : (p = syncParser ∨ p = buildParser) ∧ args = clientLogArgs ∧ file = "resync-client.log".toList ∨
      p = exploreParser ∧ args = explorerLogArgs ∧ file = "resync-explorer.log".toList)
    (cv : Convert) (gs : List (OptDef × Option Str)) (ms argv : List Str) (h : CommandFor p cv gs ms argv) :
    ∃ ns, p.parse cv argv = .ok (ns, ms) ∧ ∀ (now : Rat) (r : Record) (t : Str), formatTime r.created = some t → AtOrAbove "resync".toList r.name →
      (writtenTo .console ((initLogging (args ns) now {}).1.log r) =
        if r.level = .warning ∨ r.level = .info ∧ givenFor "--verbose" gs ≠ [] then r.msg ++ "\n".toList else []) ∧
      ∀ f, writtenTo (.file f) ((initLogging (args ns) now {}).1.log r) =
        if givenFor "--logger" gs ≠ [] ∧ f = (givenFor "--logfile" gs).getLast?.getD file ∧
            (r.level ≠ .debug ∨ givenFor "--eval" gs ≠ []) then logLine t r else [] := by
  have hok : ParserOk p := by
    rcases hp with ⟨rfl | rfl, -⟩ | ⟨rfl, -⟩
    · exact C110_parsers.1
    · exact C110_parsers.2.1
    · exact C110_parsers.2.2
  obtain ⟨ns, hns, hset⟩ := C110_accepts p hok cv gs ms argv h
  have hh : HoldsArgs p cv gs ns := ⟨hok, command_opts h, hset⟩
  refine ⟨ns, hns, ?_⟩
  have hopts : opt ["--logger".toList, "-l".toList] "logger".toList .flag ∈ p.opts ∧
      opt ["--logfile".toList] "logfile".toList .store ∈ p.opts ∧
      opt ["--verbose".toList, "-v".toList] "verbose".toList .flag ∈ p.opts := by
    rcases hp with ⟨rfl | rfl, -⟩ | ⟨rfl, -⟩ <;> decide +kernel
  have v1 : argFlag ns "logger".toList = true ↔ _ := holds_flag hh "--logger" _ hopts.1 List.mem_cons_self rfl
  have v2 : argStr ns "logfile".toList = _ := holds_str hh "--logfile" _ hopts.2.1 List.mem_cons_self (.inl rfl)
  have v3 : argFlag ns "verbose".toList = true ↔ _ := holds_flag hh "--verbose" _ hopts.2.2 List.mem_cons_self rfl
  have hargs : (args ns).human = true ∧ (args ns).default_logger = "client".toList ∧ (args ns).extra_loggers = [] ∧
      ((args ns).verbose = true ↔ givenFor "--verbose" gs ≠ []) ∧ ((args ns).to_file = true ↔ givenFor "--logger" gs ≠ []) ∧
      (args ns).logfile.getD (args ns).default_logfile = (givenFor "--logfile" gs).getLast?.getD file ∧
      ((args ns).eval_mode = true ↔ givenFor "--eval" gs ≠ []) := by
    rcases hp with ⟨hp, rfl, rfl⟩ | ⟨rfl, rfl, rfl⟩
    · have he : opt ["--eval".toList, "-e".toList] "eval".toList .flag ∈ p.opts := by rcases hp with rfl | rfl <;> decide +kernel
      exact ⟨rfl, rfl, rfl, v3, v1, congrArg (fun x => Option.getD x _) v2, holds_flag hh "--eval" _ he List.mem_cons_self rfl⟩
    · refine ⟨rfl, rfl, rfl, v3, v1, congrArg (fun x => Option.getD x _) v2, ?_⟩
      have hno : ∀ o ∈ exploreParser.opts, "--eval".toList ∉ o.strings := by decide +kernel
      have : givenFor "--eval" gs = [] := by
        unfold givenFor
        rw [List.map_eq_nil_iff, List.filter_eq_nil_iff]
        intro g hg
        simpa using hno _ (hh.opts g hg)
      rw [this]
      simp [explorerLogArgs]
  obtain ⟨a1, a2, a3, a4, a5, a6, a7⟩ := hargs
  intro now r t ht hr
  obtain ⟨k1, k2⟩ := C111_once_partial (args ns) now r (below_resync hr).1 ht (.inl a1) (default_above a2 a3 hr)
  refine ⟨k1.trans ?_, fun f => (k2 f).trans ?_⟩
  · apply if_congr _ rfl rfl
    unfold wantsConsole
    rw [a1, a4]
    simp
  · apply if_congr _ rfl rfl
    unfold wantsFile
    rw [a5, a6, a7]
    constructor
    · rintro ⟨h1, h2, h3⟩
      refine ⟨h1, h2.symm, ?_⟩
      rcases h3 with h3 | h3 | h3
      · exact .inl (by rw [h3]; decide)
      · exact .inl (by rw [h3]; decide)
      · exact .inr h3.2
    · rintro ⟨h1, h2, h3⟩
      refine ⟨h1, h2.symm, ?_⟩
      cases hl : r.level with
      | warning => exact .inl rfl
      | info => exact .inr (.inl rfl)
      | debug =>
        rw [hl] at h3
        exact .inr (.inr ⟨rfl, h3.resolve_left (fun h => h rfl)⟩)

/-- C111.  Others are left alone: what is logged with a logger that is not below one of those chosen goes where it went before. -/
theorem C111_others (as : List (LogArgs × Rat)) (a : LogArgs) (now : Rat) (r : Record)
    (h : ∀ q ∈ chosen a, ¬ AtOrAbove q r.name) :
    (afterCalls (as ++ [(a, now)])).log r = (afterCalls as).log r := by
  have hafter : afterCalls (as ++ [(a, now)]) = (initLogging a now (afterCalls as)).1 := by
    rw [afterCalls_eq, afterCalls_eq, List.foldl_append]; rfl
  have hw : LogWf (afterCalls as) := by
    rw [afterCalls_eq]
    exact (history as {} fresh_wf).1
  have hch : ∀ q ∈ chainOf r.name, q ∉ a.names := by
    intro q hq hm
    refine h q hm ?_
    by_cases hn : r.name = []
    · unfold chainOf at hq
      rw [if_pos hn, List.mem_singleton] at hq
      exact .inl hq
    · exact (mem_chainOf q hn).mp hq
  have hlev : (afterCalls (as ++ [(a, now)])).effectiveLevel r.name = (afterCalls as).effectiveLevel r.name := by
    unfold Logging.effectiveLevel
    have key : ∀ xs : List Str, (∀ q ∈ xs, q ∉ a.names) →
        xs.findSome? (fun n => ((afterCalls (as ++ [(a, now)])).logger n).level) = xs.findSome? (fun n => ((afterCalls as).logger n).level) := by
      intro xs
      induction xs with
      | nil => intro _; rfl
      | cons x xs ih =>
        intro hx
        rw [List.findSome?_cons, List.findSome?_cons, ih (fun q hq => hx q (List.mem_cons_of_mem _ hq)), hafter, level_init,
          if_neg (hx x List.mem_cons_self)]
    rw [key _ hch]
  have hhs : (afterCalls (as ++ [(a, now)])).handlersFor r.name = (afterCalls as).handlersFor r.name := by
    unfold Logging.handlersFor
    have key : ∀ xs : List Str, (∀ q ∈ xs, q ∉ a.names) →
        xs.flatMap (handlersAt (afterCalls (as ++ [(a, now)]))) = xs.flatMap (handlersAt (afterCalls as)) := by
      intro xs
      induction xs with
      | nil => intro _; rfl
      | cons x xs ih =>
        intro hx
        rw [List.flatMap_cons, List.flatMap_cons, ih (fun q hq => hx q (List.mem_cons_of_mem _ hq)), hafter, handlersAt_init a now hw,
          if_neg (hx x List.mem_cons_self), List.append_nil]
    exact key _ hch
  unfold Logging.log
  rw [hlev, hhs]

/-- C111.  The time in a line of the log file is a W3C datetime in UTC that denotes the time of the message to half a microsecond. -/
theorem C111_time (q : Rat) (s : Str) (h : formatTime q = some s) :
    ∃ v, Denotes s v ∧ strToDatetime s = some v ∧ q - 1 / 2000000 ≤ v ∧ v ≤ q + 1 / 2000000 := by
  simp only [formatTime, utcFromTimestamp, Option.map_eq_some_iff] at h
  obtain ⟨t, ht, rfl⟩ := h
  generalize hn : roundHalfEven (q * 1000000) = n at ht
  obtain ⟨hn1, hn2⟩ := roundHalfEven_near (q * 1000000)
  rw [hn] at hn1 hn2
  have hb : -62135596800000000 ≤ n ∧ n < 253402300800000000 := by
    simp only [utcFromMicros] at ht
    split at ht
    · rename_i hb
      simp only [epochOrd, maxOrd] at hb
      omega
    · simp at ht
  obtain ⟨t', ht', hv, hm, hd, hnn⟩ := utcFromMicros_spec hb.1 hb.2
  rw [ht] at ht'
  cases ht'
  have hq : (n : Rat) = t.timegm * 1000000 + t.micro := by rw [← hnn]; push_cast; rfl
  have htg := timegm_eq t hv.1 hv.2.2.1 hv.2.2.2.1 hv.2.2.2.2.1
  refine ⟨(n : Rat) / 1000000, .inr ⟨_, _, _, isoformat_form hv hm, hv, ?_⟩,
    (strToDatetime_iff _ _).mpr (.inr ⟨_, [], _, _, _, by simp, .inl rfl, isoformat_form hv hm, hv, ?_⟩), ?_, ?_⟩
  · rw [← htg, hq]; push_cast; ring
  · rw [← htg, hq]; push_cast; ring
  · linarith
  · linarith

/-- C111.  Before any call of init_logging, messages of all loggers are shown on the console if they are warnings, and nothing else
is written. -/
theorem C111_before (r : Record) : (afterCalls []).log r = if r.level = .warning then [(.console, r.msg ++ "\n".toList)] else [] := by
  have hlog : ∀ n, (({} : Logging).logger n).handlers = [] := by
    intro n
    unfold Logging.logger
    simp only [dget]
    split <;> rfl
  have hfor : (afterCalls []).handlersFor r.name = [] := by
    unfold Logging.handlersFor
    rw [List.flatMap_eq_nil_iff]
    intro n _
    rw [show afterCalls [] = {} from rfl, hlog n]
    rfl
  have heff : (afterCalls []).effectiveLevel r.name = 30 := by
    have key : ∀ xs : List Str, (xs ++ [[]]).findSome? (fun n => ((afterCalls []).logger n).level) = some .warning := by
      intro xs
      induction xs with
      | nil => rfl
      | cons x xs ih =>
        rw [List.cons_append, List.findSome?_cons, show afterCalls [] = {} from rfl, fresh_level]
        split
        · split at * <;> first | (rename_i h; cases h; rfl) | (rename_i h; cases h)
        · exact ih
    unfold Logging.effectiveLevel chainOf
    split
    · rename_i h
      split at h
      · rw [show [[]] = ([] : List Str) ++ [[]] from rfl, key] at h; cases h; rfl
      · rw [← List.cons_append, key] at h; cases h; rfl
    · rename_i h
      split at h
      · rw [show [[]] = ([] : List Str) ++ [[]] from rfl, key] at h; cases h
      · rw [← List.cons_append, key] at h; cases h
  unfold Logging.log
  rw [heff, hfor]
  cases hl : r.level <;> simp [Level.number, lastResort, Handler.handle, Handler.format, hl]

/-- C111.  A call that asks for a log file says so: in the file, and with --verbose on the console. -/
theorem C111_announced (a : LogArgs) (now : Rat) {t : Str} (ht : formatTime now = some t) (hn : LoggerName a.default_logger)
    (h1 : chosenAbove a a.default_logger = 1) (hf : a.to_file = true) :
    let text := "Writing detailed log to ".toList ++ a.logfile.getD a.default_logfile
    writtenTo .console (initLogging a now {}).2 = (if a.human = true ∧ a.verbose = true then text ++ "\n".toList else []) ∧
    writtenTo (.file (a.logfile.getD a.default_logfile)) (initLogging a now {}).2 =
      logLine t { name := a.default_logger, level := .info, msg := text, created := now } := by
  dsimp only
  have e : (initLogging a now {}).2 = (afterCalls [(a, now)]).log ⟨a.default_logger, .info, "Writing detailed log to ".toList ++ a.logfile.getD a.default_logfile, now⟩ := by
    show (if a.to_file = true then _ else []) = _
    rw [if_pos hf]
    rfl
  obtain ⟨k1, k2⟩ := C111_once_partial a now ⟨a.default_logger, .info, "Writing detailed log to ".toList ++ a.logfile.getD a.default_logfile, now⟩ hn ht (.inr hf) h1
  rw [e, k1, k2]
  constructor
  · apply if_congr _ rfl rfl
    unfold wantsConsole
    simp
  · rw [if_pos ⟨hf, rfl, .inr (.inl rfl)⟩]

/-- without a log file nothing is written by the call -/
theorem C111_unannounced (a : LogArgs) (now : Rat) (lg : Logging) (hf : a.to_file = false) : (initLogging a now lg).2 = [] := by
  show (if a.to_file = true then _ else []) = _
  rw [if_neg (by rw [hf]; decide)]

end Resync
