import Verif.Model.ClientLog
import Verif.Model.CommandLine
import Verif.Model.W3CDatetime
/-
Model of client_utils.py 26-81, `UTCFormatter` and `init_logging`, of the parts of Python's `logging` it relies on, and of the calls of
init_logging in the three programs.

Of `logging`: the loggers with their levels and handlers, the way of a record from a logger to the handlers of that logger and of those
above it, the handler of last resort, and the two formats used.  Simplifications: `propagate` and `disabled` have their defaults,
which nothing in resync changes, and there are no filters; a log file can be opened and written to; names of loggers neither begin
with a dot nor have two dots in a row; output is text (no encoding); a time outside the range of `datetime` writes nothing.
-/

namespace Resync
open Py

/-- the levels used in resync -/
inductive Level
  | debug
  | info
  | warning
deriving DecidableEq, Repr

/-- logging.DEBUG, logging.INFO, logging.WARNING -/
def Level.number : Level → Nat
  | .debug => 10
  | .info => 20
  | .warning => 30

/-- logging.getLevelName -/
def Level.name : Level → Str
  | .debug => "DEBUG".toList
  | .info => "INFO".toList
  | .warning => "WARNING".toList

/-- where a handler writes to: StreamHandler() is standard error, FileHandler(filename) the end of that file -/
inductive Dest
  | console
  | file (name : Str)
deriving DecidableEq, Repr

/-- a handler: its level, where it writes, and whether lines are in the format of client_utils.py 52-53 (57-59 otherwise) -/
structure Handler where
  level : Level
  dest : Dest
  detailed : Bool
deriving DecidableEq, Repr

/-- a logger: its level (NOTSET: none) and its handlers, as places in the list of all handlers made -/
structure LoggerState where
  level : Option Level := none
  handlers : List Nat := []
deriving DecidableEq, Repr

/-- the state of `logging`: the handlers made and the loggers by name, the root logger under the empty name -/
structure Logging where
  handlers : List Handler := []
  loggers : Dict LoggerState := [([], { level := some .warning })]
deriving DecidableEq, Repr

/-- `logging.getLogger(name)` -/
def Logging.logger (lg : Logging) (name : Str) : LoggerState := (dget lg.loggers name).getD {}

/-- the names of the loggers above one: what comes before each dot, the longest first (`Manager._fixupParents`); `done` is the part of
the name already seen -/
def namesAbove (done : Str) : Str → List Str
  | [] => []
  | c :: t => namesAbove (done ++ [c]) t ++ (if c = '.' then [done] else [])

/-- the logger itself, those above it, and the root -/
def chainOf (name : Str) : List Str :=
  if name = [] then [[]] else name :: (namesAbove [] name ++ [[]])

/-- `getEffectiveLevel`: the number of the first level set; 0 if there is none -/
def Logging.effectiveLevel (lg : Logging) (name : Str) : Nat :=
  match (chainOf name).findSome? (fun n => (lg.logger n).level) with
  | some l => l.number
  | none => 0

/-- one call of logger.debug, logger.info or logger.warning -/
structure Record where
  name : Str
  level : Level
  msg : Str
  /-- record.created: time.time() at the time of the call -/
  created : Rat

/-- client_utils.py 32-35 `formatTime` -/
def formatTime (created : Rat) : Option Str := (utcFromTimestamp created).map (fun t => t.isoformat ++ ['Z'])

/-- client_utils.py 52-53, '%(asctime)s | %(name)s | %(levelname)s | %(message)s', and 59, '%(message)s'; `emit` adds a newline -/
def Handler.format (h : Handler) (r : Record) : Option Str :=
  if h.detailed then
    (formatTime r.created).map (fun t =>
      t ++ " | ".toList ++ r.name ++ " | ".toList ++ r.level.name ++ " | ".toList ++ r.msg ++ ['\n'])
  else some (r.msg ++ ['\n'])

/-- `Handler.handle` of a record whose level is high enough for the handler -/
def Handler.handle (h : Handler) (r : Record) : List (Dest × Str) :=
  if h.level.number ≤ r.level.number then
    match h.format r with
    | some line => [(h.dest, line)]
    | none => []
  else []

/-- `Logger.callHandlers`: the handlers of the logger, then those of the logger above, ... -/
def Logging.handlersFor (lg : Logging) (name : Str) : List Handler :=
  (chainOf name).flatMap (fun n => (lg.logger n).handlers.filterMap (fun i => lg.handlers[i]?))

/-- `logging.lastResort` -/
def lastResort : Handler := { level := .warning, dest := .console, detailed := false }

/-- logger.debug(msg) and so on: what is written where -/
def Logging.log (lg : Logging) (r : Record) : List (Dest × Str) :=
  if lg.effectiveLevel r.name ≤ r.level.number then
    match lg.handlersFor r.name with
    | [] => lastResort.handle r
    | hs => hs.flatMap (fun h => h.handle r)
  else []

/-- several records, one after the other -/
def Logging.logAll (lg : Logging) (rs : List Record) : List (Dest × Str) := rs.flatMap lg.log

/-- what is written to one place, in order -/
def writtenTo (d : Dest) (ws : List (Dest × Str)) : Str := (ws.filter (fun w => w.1 = d)).flatMap (·.2)

/-- the arguments of `init_logging` with their defaults, client_utils.py 38-40 -/
structure LogArgs where
  to_file : Bool := false
  logfile : Option Str := none
  default_logfile : Str := "/tmp/resync.log".toList
  human : Bool := true
  verbose : Bool := false
  eval_mode : Bool := false
  default_logger : Str := "client".toList
  extra_loggers : List Str := []
deriving DecidableEq, Repr

/-- client_utils.py 61-62 -/
def LogArgs.file (a : LogArgs) : Str := a.logfile.getD a.default_logfile

/-- client_utils.py 55-65: the handlers made, that for humans first -/
def LogArgs.handlers (a : LogArgs) : List Handler :=
  (if a.human then [{ level := if a.verbose then .info else .warning, dest := .console, detailed := false }] else []) ++
  (if a.to_file then [{ level := if a.eval_mode then .debug else .info, dest := .file a.file, detailed := true }] else [])

/-- client_utils.py 67-70 -/
def LogArgs.names (a : LogArgs) : List Str := [a.default_logger, "resync".toList] ++ a.extra_loggers

/-- `Logger.addHandler`: not twice to the same logger -/
def LoggerState.addHandlers (l : LoggerState) : List Nat → LoggerState
  | [] => l
  | i :: is => LoggerState.addHandlers (if i ∈ l.handlers then l else { l with handlers := l.handlers ++ [i] }) is

/-- client_utils.py 71-77: the loop over the loggers; `is` are the handlers made -/
def setLoggers (is : List Nat) : List Str → Dict LoggerState → Dict LoggerState
  | [], d => d
  | n :: ns, d => setLoggers is ns (dset d n (({ (dget d n).getD {} with level := some .debug } : LoggerState).addHandlers is))

/-- client_utils.py 38-81 `init_logging`: the state afterwards, and what is written (79-81) -/
def initLogging (a : LogArgs) (now : Rat) (lg : Logging) : Logging × List (Dest × Str) :=
  let hs := a.handlers
  let is := (List.range hs.length).map (· + lg.handlers.length)
  let lg' : Logging := { handlers := lg.handlers ++ hs, loggers := setLoggers is a.names lg.loggers }
  (lg', if a.to_file then
      lg'.log { name := a.default_logger, level := .info, msg := "Writing detailed log to ".toList ++ a.file, created := now }
    else [])

/-- resync-sync 109-110 and resync-build 125-126 -/
def clientLogArgs (ns : Dict ArgVal) : LogArgs where
  to_file := argFlag ns "logger".toList
  logfile := argStr ns "logfile".toList
  default_logfile := "resync-client.log".toList
  verbose := argFlag ns "verbose".toList
  eval_mode := argFlag ns "eval".toList

/-- resync-explorer 69-70 -/
def explorerLogArgs (ns : Dict ArgVal) : LogArgs where
  to_file := argFlag ns "logger".toList
  logfile := argStr ns "logfile".toList
  default_logfile := "resync-explorer.log".toList
  verbose := argFlag ns "verbose".toList

/-! ## The messages of a sync -/

/-- the level at which client.py logs each of the messages about resources -/
def LogMsg.level : LogMsg → Level
  | .event _ => .debug
  | .failedTries .. => .warning
  | .failedGet _ => .warning
  | .failedDelete .. => .warning
  | _ => .info

/-- the name of the type of digest in messages -/
def hashName (type : Str) : Str := if type = sMd5 then "MD5".toList else if type = sSha1 then "SHA-1".toList else "SHA-256".toList

/-- the text of a message; `ev` is `repr` of a resource, `reason` the text of the exception -/
def LogMsg.text (ev : Resource → Str) (reason : Str) : LogMsg → Str
  | .start change uri filename => change ++ ": ".toList ++ uri ++ " -> ".toList ++ filename
  | .wouldGet uri filename => "dryrun: would GET ".toList ++ uri ++ " --> ".toList ++ filename
  | .retrying => "Download timed out, retrying...".toList
  | .failedTries uri tries => "Failed to GET ".toList ++ uri ++ " after ".toList ++ natStr tries ++ " tries -- ".toList ++ reason
  | .failedGet uri => "Failed to GET ".toList ++ uri ++ " -- ".toList ++ reason
  | .event r => "Event: ".toList ++ ev r
  | .size uri got expected => "Downloaded size for ".toList ++ uri ++ " of ".toList ++ natStr got ++
      " bytes does not match expected ".toList ++ intStr expected ++ " bytes".toList
  | .hash type uri got expected => hashName type ++
      " mismatch for ".toList ++ uri ++ ", got ".toList ++ got ++ " but expected ".toList ++ expected
  | .wouldDelete uri filename => "dryrun: would delete ".toList ++ uri ++ " -> ".toList ++ filename
  | .deleted uri filename => "deleted: ".toList ++ uri ++ " -> ".toList ++ filename
  | .failedDelete uri filename => "Failed to DELETE ".toList ++ uri ++ " -> ".toList ++ filename ++ " : ".toList ++ reason
  | .noDelete uri => "nodelete: would delete ".toList ++ uri ++ " (--delete to enable)".toList

/-- `self.logger.info(...)` and so on in client.py: the record of a message; the reasons and times are arbitrary -/
def LogMsg.record (ev : Resource → Str) (m : LogMsg) (reason : Str) (created : Rat) : Record where
  name := "resync.client".toList
  level := m.level
  msg := m.text ev reason
  created := created

/-! ## A message about a document -/

/-- sitemap.py 96-103 -/
def knownCapabilities : List Str :=
  ["resourcelist".toList, "changelist".toList, "resourcedump".toList, "changedump".toList, "resourcedump-manifest".toList,
   "changedump-manifest".toList, "capabilitylist".toList, "description".toList, "resourcelist-archive".toList,
   "resourcedump-archive".toList, "changelist-archive".toList, "changedump-archive".toList]

/-- sitemap.py 378-379: the warning of `md_from_etree` about the capability of an <rs:md> element -/
def capabilityWarning (s : Sitemap) (e : Elem) (context : Str) (created : Rat) : List Record :=
  match dget (grabAtts (mdAttKeys s) e.attrib) kCapability with
  | none => []
  | some c =>
    if c ∈ knownCapabilities then []
    else [{ name := "resync.sitemap".toList, level := .warning,
            msg := "Unknown capability name '".toList ++ c ++ "' in ".toList ++ context, created := created }]

end Resync
