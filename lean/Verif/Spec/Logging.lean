import Verif.Model.Logging
import Mathlib.Data.List.Dedup
/-
What ought to be seen of the messages of a program, and where (C111).
-/

namespace Resync.Spec
open Py

/-- A logger is at or above another one in the hierarchy of dotted names: it is the same, the part before a dot, or the root -/
def AtOrAbove (p n : Str) : Prop := p = [] ∨ p = n ∨ ∃ rest, n = p ++ '.' :: rest

instance (p n : Str) : Decidable (AtOrAbove p n) :=
  decidable_of_iff (p = [] ∨ p = n ∨ p ++ ['.'] <+: n)
    ⟨fun h => h.imp_right (fun h => h.imp_right (fun ⟨t, h⟩ => ⟨t, by rw [← h]; simp⟩)),
      fun h => h.imp_right (fun h => h.imp_right (fun ⟨t, h⟩ => ⟨t, by rw [h]; simp⟩))⟩

/-- a proper name of a logger -/
def LoggerName (n : Str) : Prop := n ≠ [] ∧ n.head? ≠ some '.'

/-- A call of init_logging asks for messages of this level on the console -/
def wantsConsole (a : LogArgs) (l : Level) : Prop := a.human = true ∧ (l = .warning ∨ l = .info ∧ a.verbose = true)

/-- ... and in this file -/
def wantsFile (a : LogArgs) (f : Str) (l : Level) : Prop :=
  a.to_file = true ∧ a.logfile.getD a.default_logfile = f ∧ (l = .warning ∨ l = .info ∨ l = .debug ∧ a.eval_mode = true)

instance (a : LogArgs) (l : Level) : Decidable (wantsConsole a l) := by unfold wantsConsole; infer_instance
instance (a : LogArgs) (f : Str) (l : Level) : Decidable (wantsFile a f l) := by unfold wantsFile; infer_instance

/-- the loggers a call of init_logging is about -/
def chosen (a : LogArgs) : List Str := a.default_logger :: "resync".toList :: a.extra_loggers

/-- how many of them are at or above this one -/
def chosenAbove (a : LogArgs) (n : Str) : Nat := ((chosen a).dedup.filter (fun q => AtOrAbove q n)).length

/-- a line of a log file -/
def logLine (time : Str) (r : Record) : Str :=
  time ++ " | ".toList ++ r.name ++ " | ".toList ++
    (match r.level with
      | .debug => "DEBUG".toList
      | .info => "INFO".toList
      | .warning => "WARNING".toList) ++ " | ".toList ++ r.msg ++ "\n".toList

/-- `n` times the same text -/
def times (n : Nat) (s : Str) : Str := (List.replicate n s).flatten

/-- the state of logging in a program that has called init_logging with these arguments, one call after the other -/
def afterCalls : List (LogArgs × Rat) → Logging
  | [] => {}
  | as => as.foldl (fun lg a => (initLogging a.1 a.2 lg).1) {}

/-- the text on the console when these records are logged -/
def consoleText (lg : Logging) (rs : List Record) : Str := writtenTo .console (lg.logAll rs)

/-- the text added to a file when these records are logged -/
def fileText (f : Str) (lg : Logging) (rs : List Record) : Str := writtenTo (.file f) (lg.logAll rs)

/-- the records are those of these messages of the client, in order, whatever their times and the texts of exceptions -/
def RecordsOf (ev : Resource → Str) (log : List LogMsg) (rs : List Record) : Prop :=
  List.Forall₂ (fun m r => ∃ reason created, r = LogMsg.record ev m reason created) log rs

/-- messages about something that could not be done -/
def isFailure : LogMsg → Bool
  | .failedTries .. => true
  | .failedGet _ => true
  | .failedDelete .. => true
  | _ => false

/-- messages for evaluation -/
def isEvent : LogMsg → Bool
  | .event _ => true
  | _ => false

end Resync.Spec
