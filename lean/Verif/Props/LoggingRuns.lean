import Verif.Props.Logging
import Verif.Props.ClientExample
import Verif.Proofs.SitemapRT
/-
C111: log files read back, and the messages of a sync.
-/

namespace Resync
open Py Resync.Spec

theorem fileText_cons (f : Str) (lg : Logging) (r : Record) (rs : List Record) :
    fileText f lg (r :: rs) = writtenTo (.file f) (lg.log r) ++ fileText f lg rs := by
  unfold fileText Logging.logAll
  rw [List.flatMap_cons, writtenTo_append]

theorem consoleText_cons (lg : Logging) (r : Record) (rs : List Record) :
    consoleText lg (r :: rs) = writtenTo .console (lg.log r) ++ consoleText lg rs := by
  unfold consoleText Logging.logAll
  rw [List.flatMap_cons, writtenTo_append]

theorem formatTime_chars {q : Rat} {s : Str} (h : formatTime q = some s) : ' ' ∉ s ∧ '\n' ∉ s := by
  simp only [formatTime, Option.map_eq_some_iff] at h
  obtain ⟨t, -, rfl⟩ := h
  have hd : ∀ w n, ' ' ∉ fixedDigits w n := fun w n hc => absurd (fixedDigits_digits w n _ hc) (by decide)
  have hd' : ∀ w n, '\n' ∉ fixedDigits w n := fun w n hc => absurd (fixedDigits_digits w n _ hc) (by decide)
  unfold DT.isoformat
  constructor
  · split <;> simp [hd]
  · split <;> simp [hd']

/-- what stands before the first separator and what comes after it are determined -/
theorem split_at {c : Char} : ∀ {a a' x x' : Str}, c ∉ a → c ∉ a' → a ++ c :: x = a' ++ c :: x' → a = a' ∧ x = x'
  | [], [], _, _, _, _, h => ⟨rfl, (List.cons.inj h).2⟩
  | [], d :: _, _, _, _, h', h => absurd ((List.cons.inj h).1 ▸ List.mem_cons_self) h'
  | d :: _, [], _, _, h', _, h => absurd ((List.cons.inj h).1.symm ▸ List.mem_cons_self) h'
  | d :: a, d' :: a', x, x', h1, h2, h => by
    obtain ⟨e1, e2⟩ := List.cons.inj h
    obtain ⟨e3, e4⟩ := split_at (fun hm => h1 (List.mem_cons_of_mem _ hm)) (fun hm => h2 (List.mem_cons_of_mem _ hm)) e2
    exact ⟨by rw [e1, e3], e4⟩

/-- a record that makes one line: names without blanks, texts without newlines -/
structure LineRecord (r : Record) : Prop where
  below : AtOrAbove "resync".toList r.name
  name : ' ' ∉ r.name ∧ '\n' ∉ r.name
  msg : '\n' ∉ r.msg
  time : ∃ t, formatTime r.created = some t

theorem level_chars (l : Level) : ' ' ∉ l.name ∧ '\n' ∉ l.name := by cases l <;> decide

theorem logLine_eq (t : Str) (r : Record) :
    logLine t r = (t ++ ' ' :: '|' :: ' ' :: (r.name ++ ' ' :: '|' :: ' ' :: (r.level.name ++ ' ' :: '|' :: ' ' :: r.msg))) ++ '\n' :: [] := by
  unfold logLine
  cases r.level <;> simp [Level.name]

theorem logLine_inj {t t' : Str} {r r' : Record} (h : LineRecord r) (h' : LineRecord r') (ht : formatTime r.created = some t)
    (ht' : formatTime r'.created = some t') {x x' : Str} (e : logLine t r ++ x = logLine t' r' ++ x') :
    (t = t' ∧ r.name = r'.name ∧ r.level = r'.level ∧ r.msg = r'.msg) ∧ x = x' := by
  have nl : ∀ {t : Str} {r : Record}, LineRecord r → formatTime r.created = some t →
      '\n' ∉ (t ++ ' ' :: '|' :: ' ' :: (r.name ++ ' ' :: '|' :: ' ' :: (r.level.name ++ ' ' :: '|' :: ' ' :: r.msg))) := by
    intro t r h ht
    have := (formatTime_chars ht).2
    have := (level_chars r.level).2
    simp only [List.mem_append, List.mem_cons, not_or]
    exact ⟨by assumption, by decide, by decide, by decide, h.name.2, by decide, by decide, by decide, by assumption, by decide, by decide, by decide, h.msg⟩
  have snoc : ∀ (a x : Str), (a ++ '\n' :: []) ++ x = a ++ '\n' :: x := by simp
  rw [logLine_eq, logLine_eq, snoc, snoc] at e
  obtain ⟨e1, e2⟩ := split_at (nl h ht) (nl h' ht') e
  obtain ⟨e3, e4⟩ := split_at (formatTime_chars ht).1 (formatTime_chars ht').1 e1
  obtain ⟨e5, e6⟩ := split_at h.name.1 h'.name.1 (List.cons.inj (List.cons.inj e4).2).2
  obtain ⟨e7, e8⟩ := split_at (level_chars _).1 (level_chars _).1 (List.cons.inj (List.cons.inj e6).2).2
  refine ⟨⟨e3, e5, ?_, (List.cons.inj (List.cons.inj e8).2).2⟩, e2⟩
  revert e7
  cases r.level <;> cases r'.level <;> decide

/-- C111 (reading a log).  A log file can be read back: records whose texts have no newline leave a text from which the times, loggers,
levels and messages of all that was to be written can be told.
Missing: messages with newlines, see `C111_forged_violated`. -/
theorem C111_lines_partial (a : LogArgs) (now : Rat) (h1 : a.default_logger = "client".toList) (h2 : a.extra_loggers = [])
    (hw : a.human = true ∨ a.to_file = true) (f : Str) :
    ∀ (rs rs' : List Record), (∀ r ∈ rs, LineRecord r) → (∀ r ∈ rs', LineRecord r) →
      fileText f (afterCalls [(a, now)]) rs = fileText f (afterCalls [(a, now)]) rs' →
      ((rs.filter (fun r => wantsFile a f r.level)).map (fun r => (formatTime r.created, r.name, r.level, r.msg))) =
      ((rs'.filter (fun r => wantsFile a f r.level)).map (fun r => (formatTime r.created, r.name, r.level, r.msg))) := by
  have lines : ∀ rs : List Record, (∀ r ∈ rs, LineRecord r) → fileText f (afterCalls [(a, now)]) rs =
      (rs.filter (fun r => wantsFile a f r.level)).flatMap (fun r => logLine ((formatTime r.created).getD []) r) := by
    intro rs
    induction rs with
    | nil => intro _; rfl
    | cons r rs ih =>
      intro h
      have hr := h r List.mem_cons_self
      obtain ⟨t, ht⟩ := hr.time
      rw [fileText_cons, (C111_once_partial a now r (below_resync hr.below).1 ht hw (default_above h1 h2 hr.below)).2 f,
        ih (fun x hx => h x (List.mem_cons_of_mem _ hx))]
      by_cases hwf : wantsFile a f r.level
      · rw [if_pos hwf, List.filter_cons_of_pos (by simpa using hwf), List.flatMap_cons, ht]
        rfl
      · rw [if_neg hwf, List.filter_cons_of_neg (by simpa using hwf)]
        rfl
  have key : ∀ rs rs' : List Record, (∀ r ∈ rs, LineRecord r) → (∀ r ∈ rs', LineRecord r) →
      rs.flatMap (fun r => logLine ((formatTime r.created).getD []) r) = rs'.flatMap (fun r => logLine ((formatTime r.created).getD []) r) →
      rs.map (fun r => (formatTime r.created, r.name, r.level, r.msg)) = rs'.map (fun r => (formatTime r.created, r.name, r.level, r.msg)) := by
    intro rs
    induction rs with
    | nil =>
      intro rs' _ _ e
      cases rs' with
      | nil => rfl
      | cons r' rs' =>
        rw [List.flatMap_nil, List.flatMap_cons, logLine_eq] at e
        exact absurd e (by simp)
    | cons r rs ih =>
      intro rs' h h' e
      cases rs' with
      | nil =>
        rw [List.flatMap_nil, List.flatMap_cons, logLine_eq] at e
        exact absurd e (by simp)
      | cons r' rs' =>
        have hr := h r List.mem_cons_self
        have hr' := h' r' List.mem_cons_self
        obtain ⟨t, ht⟩ := hr.time
        obtain ⟨t', ht'⟩ := hr'.time
        rw [List.flatMap_cons, List.flatMap_cons, ht, ht'] at e
        obtain ⟨⟨e1, e2, e3, e4⟩, e5⟩ := logLine_inj hr hr' ht ht' e
        rw [List.map_cons, List.map_cons, ih rs' (fun x hx => h x (List.mem_cons_of_mem _ hx)) (fun x hx => h' x (List.mem_cons_of_mem _ hx)) e5,
          ht, ht', e1, e2, e3, e4]
  intro rs rs' h h' e
  rw [lines rs h, lines rs' h'] at e
  exact key _ _ (fun r hr => h r (List.mem_of_mem_filter hr)) (fun r hr => h' r (List.mem_of_mem_filter hr)) e

/-- the arguments the programs call init_logging with when `--logger` is given -/
def toFileArgs : LogArgs := { to_file := true, default_logfile := "resync-client.log".toList }

/-- C111, violated (1): `--eval` by itself does nothing, although it is said to "output evaluation of source/client synchronization
performance": whatever is logged, what is written is what is written without it.  So does `--logfile` without `--logger`. -/
theorem C111_eval_violated (a : LogArgs) (now : Rat) (ha : a.to_file = false) (name : Option Str) (rs : List Record) :
    initLogging { a with eval_mode := true, logfile := name } now {} = initLogging { a with eval_mode := false, logfile := none } now {} ∧
    (afterCalls [({ a with eval_mode := true, logfile := name }, now)]).logAll rs =
      (afterCalls [({ a with eval_mode := false, logfile := none }, now)]).logAll rs := by
  obtain ⟨tf, lf, dl, hu, ve, em, dn, ex⟩ := a
  subst ha
  exact ⟨rfl, rfl⟩

/-- C111, violated (2): after two calls of init_logging every warning of resync is shown twice; and after one call in which a logger
below `resync` is asked for as well, those of that logger. -/
theorem C111_twice_violated (a b : LogArgs) (now now' : Rat) (r : Record) {t : Str} (ht : formatTime r.created = some t)
    (hl : r.level = .warning) (ha : a.human = true) (ha1 : a.default_logger = "client".toList) :
    (b.human = true → b.default_logger = "client".toList → a.extra_loggers = [] → b.extra_loggers = [] → AtOrAbove "resync".toList r.name →
      writtenTo .console ((afterCalls [(a, now), (b, now')]).log r) = r.msg ++ "\n".toList ++ (r.msg ++ "\n".toList)) ∧
    (a.extra_loggers = ["resync.client".toList] → r.name = "resync.client".toList →
      writtenTo .console ((afterCalls [(a, now)]).log r) = r.msg ++ "\n".toList ++ (r.msg ++ "\n".toList)) := by
  constructor
  · intro hb hb1 hae hbe hr
    obtain ⟨k, -⟩ := C111_law [(a, now), (b, now')] r (below_resync hr).1 ht
      ⟨_, List.mem_cons_self, .inl ha, "resync".toList, List.mem_cons_of_mem _ List.mem_cons_self, hr⟩
    rw [k]
    simp only [List.map_cons, List.map_nil, List.sum_cons, List.sum_nil, default_above ha1 hae hr, default_above hb1 hbe hr]
    rw [if_pos ⟨ha, .inl hl⟩, if_pos ⟨hb, .inl hl⟩]
    simp [times]
  · intro he hn
    have hr : AtOrAbove "resync".toList r.name := by rw [hn]; decide
    obtain ⟨k, -⟩ := C111_law [(a, now)] r (below_resync hr).1 ht
      ⟨_, List.mem_cons_self, .inl ha, "resync".toList, List.mem_cons_of_mem _ List.mem_cons_self, hr⟩
    have h2 : chosenAbove a r.name = 2 := by
      unfold chosenAbove chosen
      rw [ha1, he, hn]
      decide
    rw [k]
    simp only [List.map_cons, List.map_nil, List.sum_cons, List.sum_nil, h2]
    rw [if_pos ⟨ha, .inl hl⟩]
    simp [times]

/-! ## The messages of a sync -/

theorem record_below (ev : Resource → Str) (m : LogMsg) (reason : Str) (created : Rat) :
    AtOrAbove "resync".toList (LogMsg.record ev m reason created).name := .inr (.inr ⟨"client".toList, rfl⟩)

/-- what is shown of a list of messages -/
theorem console_of_messages (a : LogArgs) (now : Rat) (ha : a.human = true) (h1 : a.default_logger = "client".toList)
    (h2 : a.extra_loggers = []) (ev : Resource → Str) (p : LogMsg → Bool) (hp : ∀ m, p m = true ↔ wantsConsole a m.level)
    {log : List LogMsg} {rs : List Record} (h : RecordsOf ev log rs) (ht : ∀ r ∈ rs, ∃ t, formatTime r.created = some t) :
    ∃ seen, RecordsOf ev (log.filter p) seen ∧ seen.Sublist rs ∧
      consoleText (afterCalls [(a, now)]) rs = seen.flatMap (fun r => r.msg ++ "\n".toList) := by
  induction h with
  | nil => exact ⟨[], .nil, .slnil, rfl⟩
  | @cons m r log rs hr h ih =>
    obtain ⟨seen, i1, i2, i3⟩ := ih (fun x hx => ht x (List.mem_cons_of_mem _ hx))
    obtain ⟨reason, created, rfl⟩ := hr
    obtain ⟨t, htm⟩ := ht _ List.mem_cons_self
    have hb := record_below ev m reason created
    have k := (C111_once_partial a now _ (below_resync hb).1 htm (.inl ha) (default_above h1 h2 hb)).1
    rw [consoleText_cons, k, i3]
    by_cases hm : p m = true
    · refine ⟨_ :: seen, ?_, i2.cons_cons _, ?_⟩
      · rw [List.filter_cons_of_pos hm]
        exact .cons ⟨reason, created, rfl⟩ i1
      · rw [if_pos (show wantsConsole a (LogMsg.record ev m reason created).level from (hp m).mp hm), List.flatMap_cons]
    · refine ⟨seen, ?_, i2.cons _, ?_⟩
      · rw [List.filter_cons_of_neg hm]; exact i1
      · rw [if_neg (show ¬ wantsConsole a (LogMsg.record ev m reason created).level from fun hc => hm ((hp m).mpr hc)), List.nil_append]

/-- C111 (sync).  Of the messages about resources, a sync without --verbose shows those about failures, and nothing else; -/
theorem C111_quiet (a : LogArgs) (now : Rat) (ha : a.human = true) (hv : a.verbose = false) (h1 : a.default_logger = "client".toList)
    (h2 : a.extra_loggers = []) (ev : Resource → Str) (log : List LogMsg) (rs : List Record) (h : RecordsOf ev log rs)
    (ht : ∀ r ∈ rs, ∃ t, formatTime r.created = some t) :
    ∃ seen, RecordsOf ev (log.filter isFailure) seen ∧ seen.Sublist rs ∧
      consoleText (afterCalls [(a, now)]) rs = seen.flatMap (fun r => r.msg ++ "\n".toList) := by
  refine console_of_messages a now ha h1 h2 ev isFailure ?_ h ht
  intro m
  unfold wantsConsole
  rw [ha, hv]
  cases m <;> simp [isFailure, LogMsg.level]

/-- C111 (sync).  ... and with --verbose all but the events. -/
theorem C111_verbose (a : LogArgs) (now : Rat) (ha : a.human = true) (hv : a.verbose = true) (h1 : a.default_logger = "client".toList)
    (h2 : a.extra_loggers = []) (ev : Resource → Str) (log : List LogMsg) (rs : List Record) (h : RecordsOf ev log rs)
    (ht : ∀ r ∈ rs, ∃ t, formatTime r.created = some t) :
    ∃ seen, RecordsOf ev (log.filter (fun m => ¬ isEvent m)) seen ∧ seen.Sublist rs ∧
      consoleText (afterCalls [(a, now)]) rs = seen.flatMap (fun r => r.msg ++ "\n".toList) := by
  refine console_of_messages a now ha h1 h2 ev _ ?_ h ht
  intro m
  unfold wantsConsole
  rw [ha, hv]
  cases m <;> simp [isEvent, LogMsg.level]

/-- C111, violated (3): that a file fetched does not have the length or digest stated is not shown without --verbose: the console of
such a sync is that of a perfect one.  (`check_hashes` is said to show a warning.) -/
theorem C111_silent_violated (a : LogArgs) (now : Rat) (ha : a.human = true) (hv : a.verbose = false) (h1 : a.default_logger = "client".toList)
    (h2 : a.extra_loggers = []) (ev : Resource → Str) (env : Env) (c : ClientCfg) (allow_deletion : Bool) (s : St) (rs : List Record)
    (h : RecordsOf ev (baselineLog env c allow_deletion false s).2.2 rs) (ht : ∀ r ∈ rs, ∃ t, formatTime r.created = some t)
    (hf : ∀ m ∈ (baselineLog env c allow_deletion false s).2.2, isFailure m = false) :
    consoleText (afterCalls [(a, now)]) rs = [] := by
  obtain ⟨seen, k1, -, k3⟩ := C111_quiet a now ha hv h1 h2 ev _ rs h ht
  have : ((baselineLog env c allow_deletion false s).2.2).filter isFailure = [] := by
    rw [List.filter_eq_nil_iff]
    intro m hm
    rw [hf m hm]
    decide
  rw [this] at k1
  cases k1
  exact k3

/-- C111, violated (4): a source can put lines of its own into the log.  For any line there is a document with an <rs:md> element the
reader takes without objection, and the one warning it makes is written as two lines, the second of which begins as that line does. -/
theorem C111_forged_violated (s : Sitemap) (context time time' : Str) (created : Rat) (line : Record) :
    ∃ e : Elem, (∃ md, mdFromEtree s e = .ok md) ∧ ∃ w first, capabilityWarning s e context created = [w] ∧
      logLine time w = logLine time { w with msg := first } ++ logLine time' { line with msg := line.msg ++ "' in ".toList ++ context } := by
  have hd : (logLine time' line).dropLast =
      time' ++ ' ' :: '|' :: ' ' :: (line.name ++ ' ' :: '|' :: ' ' :: (line.level.name ++ ' ' :: '|' :: ' ' :: line.msg)) := by
    rw [logLine_eq]
    exact List.dropLast_concat
  generalize hc : '\n' :: (logLine time' line).dropLast = cap
  have hg : grabAtts (mdAttKeys s) [(kCapability, cap)] = [(kCapability, cap)] := by
    unfold mdAttKeys
    cases s.spec_1_0 <;> rfl
  refine ⟨.mk (rsTag "md") [(kCapability, cap)] none [], ?_, ?_⟩
  · unfold mdFromEtree
    rw [show (Elem.mk (rsTag "md") [(kCapability, cap)] none []).attrib = [(kCapability, cap)] from rfl, hg]
    exact ⟨_, rfl⟩
  · have hk : cap ∉ knownCapabilities := by
      have : ∀ k ∈ knownCapabilities, '\n' ∉ k := by decide +kernel
      intro hm
      exact this _ hm (hc ▸ List.mem_cons_self)
    let w : Record := ⟨"resync.sitemap".toList, .warning, "Unknown capability name '".toList ++ cap ++ "' in ".toList ++ context, created⟩
    refine ⟨w, "Unknown capability name '".toList, ?_, ?_⟩
    · unfold capabilityWarning
      rw [show (Elem.mk (rsTag "md") [(kCapability, cap)] none []).attrib = [(kCapability, cap)] from rfl, hg]
      have : dget [(kCapability, cap)] kCapability = some cap := rfl
      rw [this]
      exact if_neg hk
    · simp only [logLine_eq, w]
      rw [← hc, hd]
      simp

/-- C111.  Documents of the kinds resync writes make no such warning: an <rs:md> element without a capability, or with that of one
of these kinds. -/
theorem C111_own_documents (s : Sitemap) (e : Elem) (context : Str) (created : Rat)
    (h : dget (grabAtts (mdAttKeys s) e.attrib) kCapability = none ∨
      ∃ c ∈ ["resourcelist", "changelist", "resourcedump", "changedump", "resourcedump-manifest", "changedump-manifest", "capabilitylist",
        "description"], dget (grabAtts (mdAttKeys s) e.attrib) kCapability = some c.toList) :
    capabilityWarning s e context created = [] := by
  unfold capabilityWarning
  rcases h with h | ⟨c, hc, h⟩
  · rw [h]
  · rw [h]
    have : ∀ c ∈ ["resourcelist", "changelist", "resourcedump", "changedump", "resourcedump-manifest", "changedump-manifest",
        "capabilitylist", "description"], c.toList ∈ knownCapabilities := by decide +kernel
    exact if_pos (this c hc)

/-- the resource and the file a message is about, the digests, lengths or number of tries, and the reason -/
def LogMsg.about (reason : Str) : LogMsg → List Str
  | .start _ u f => [u, f]
  | .wouldGet u f => [u, f]
  | .failedTries u n => [u, natStr n, reason]
  | .failedGet u => [u, reason]
  | .size u got expected => [u, natStr got, intStr expected]
  | .hash _ u got expected => [u, got, expected]
  | .wouldDelete u f => [u, f]
  | .deleted u f => [u, f]
  | .failedDelete u f => [u, f, reason]
  | .noDelete u => [u]
  | .retrying => []
  | .event _ => []

local macro "fits" : tactic => `(tactic| (unfold LogMsg.text; simp only [LogMsg.about, List.zipWith_cons_cons, List.zipWith_nil_right, List.flatten_cons,
  List.flatten_nil, List.getLast?_cons_cons, List.getLast?_singleton, Option.getD_some, List.append_assoc, List.append_nil, List.nil_append]))

/-- C111.  The text of a message has in it the URI and file it is about, and the digests, the lengths (found, then expected), the number of tries and the reason if there are such, in this
order. -/
theorem C111_names (ev : Resource → Str) (reason : Str) (m : LogMsg) :
    ∃ parts : List Str, parts.length = (m.about reason).length + 1 ∧
      m.text ev reason = (List.zipWith (· ++ ·) parts (m.about reason)).flatten ++ parts.getLast?.getD [] := by
  cases m with
  | start c u f => exact ⟨[c ++ ": ".toList, " -> ".toList, []], by simp only [LogMsg.about, List.length_cons, List.length_nil], by fits⟩
  | wouldGet u f => exact ⟨["dryrun: would GET ".toList, " --> ".toList, []], by simp only [LogMsg.about, List.length_cons, List.length_nil], by fits⟩
  | retrying => exact ⟨["Download timed out, retrying...".toList], by simp only [LogMsg.about, List.length_cons, List.length_nil], by fits⟩
  | failedTries u n => exact ⟨["Failed to GET ".toList, " after ".toList, " tries -- ".toList, []], by simp only [LogMsg.about, List.length_cons, List.length_nil], by fits⟩
  | failedGet u => exact ⟨["Failed to GET ".toList, " -- ".toList, []], by simp only [LogMsg.about, List.length_cons, List.length_nil], by fits⟩
  | event r => exact ⟨["Event: ".toList ++ ev r], by simp only [LogMsg.about, List.length_cons, List.length_nil], by fits⟩
  | size u g x => exact ⟨["Downloaded size for ".toList, " of ".toList, " bytes does not match expected ".toList,
      " bytes".toList], by simp only [LogMsg.about, List.length_cons, List.length_nil], by fits⟩
  | hash ty u g x => exact ⟨[hashName ty ++ " mismatch for ".toList, ", got ".toList, " but expected ".toList, []], by simp only [LogMsg.about, List.length_cons, List.length_nil], by fits⟩
  | wouldDelete u f => exact ⟨["dryrun: would delete ".toList, " -> ".toList, []], by simp only [LogMsg.about, List.length_cons, List.length_nil], by fits⟩
  | deleted u f => exact ⟨["deleted: ".toList, " -> ".toList, []], by simp only [LogMsg.about, List.length_cons, List.length_nil], by fits⟩
  | failedDelete u f => exact ⟨["Failed to DELETE ".toList, " -> ".toList, " : ".toList, []], by simp only [LogMsg.about, List.length_cons, List.length_nil], by fits⟩
  | noDelete u => exact ⟨["nodelete: would delete ".toList, " (--delete to enable)".toList], by simp only [LogMsg.about, List.length_cons, List.length_nil], by fits⟩

namespace ClientExample

/-- a sync of a file of another length than stated: there is a message about that, and no failure -/
example :
    let log := (baselineLog (env [{ res "a" 100 with length := some 3 }] [] [1, 2]) cfg true false (start [])).2.2
    .size (uri "a") 2 3 ∈ log ∧ (∀ m ∈ log, isFailure m = false) := by decide +kernel

/-- the lines of a file, and what is on the console: one warning, one information, one event -/
example :
    let lg := afterCalls [(toFileArgs, 0)]
    let rs := [LogMsg.record (fun r => r.uri) (.failedGet (uri "a")) "x".toList 0,
      LogMsg.record (fun r => r.uri) (.noDelete (uri "a")) [] (3 / 2), LogMsg.record (fun r => r.uri) (.event (res "a" 100)) [] 2]
    (consoleText lg rs = "Failed to ".toList ++ "GET ".toList ++ uri "a" ++ " -- x\n".toList) ∧
    (fileText "resync-client.log".toList lg rs).take 62 = "1970-01-01".toList ++ "T00:00:00Z".toList ++ " | resync.".toList ++ "client | W".toList ++
      "ARNING | F".toList ++ "ailed to G".toList ++ "ET".toList ∧
    ((fileText "resync-client.log".toList lg rs).filter (· = '\n')).length = 2 := by decide +kernel

/-- the hypotheses of the theorems above: these records are one line each, their logger is below `resync`, and just one logger chosen
is at or above it -/
example : LineRecord (LogMsg.record (fun r => r.uri) (.noDelete (uri "a")) [] (3 / 2)) :=
  ⟨record_below _ _ _ _, by decide +kernel, by decide +kernel, ⟨"1970-01-01".toList ++ "T00:00:01.".toList ++ "500000Z".toList, by decide +kernel⟩⟩

example : chosenAbove toFileArgs "resync.client".toList = 1 ∧ LoggerName "resync.client".toList ∧
    (∀ q ∈ chosen toFileArgs, ¬ AtOrAbove q "urllib3.connectionpool".toList) := by
  refine ⟨by decide +kernel, ⟨by decide, by decide⟩, by decide +kernel⟩

end ClientExample

/-- C111.  A message about a digest names its type, in capital letters: what it says of an md5 digest begins with "MD5 mismatch for", and so on. -/
theorem C111_digest_named (ev : Resource → Str) (reason type uri got expected : Str) (h : HashType type) :
    ∃ name, (LogMsg.hash type uri got expected).text ev reason =
        name ++ " mismatch for ".toList ++ uri ++ ", got ".toList ++ got ++ " but expected ".toList ++ expected ∧
      name.map Char.toLower = type ∧ (∀ ch ∈ name, ch.isLower = false) := by
  refine ⟨hashName type, rfl, ?_⟩
  rcases h with rfl | rfl | rfl <;> decide

example : (LogMsg.hash "sha-1".toList "http://h/a".toList "x".toList "y".toList).text (fun _ => []) [] =
    "SHA-1 mismatch for http://h/a, got x but expected y".toList := by decide

end Resync
