import Verif.Py.ConfigParser
/-
Model of /repo/resync/client_state.py.

The state file is its text, `none` if there is no file.
Simplification: `\w` is taken as ASCII letters, digits and '_' (Python also keeps other letters and digits).
-/

namespace Resync
open Py

/-- str() of a timestamp and float() of a text; `none` is a ValueError -/
structure FloatText (T : Type) where
  str : T → Str
  float : Str → Option T

inductive StateErr
  /-- of configparser -/
  | cfg (e : CfgErr)
  /-- ValueError of float() -/
  | value
deriving DecidableEq, Repr

/-- ASCII part of `\w` -/
def isWordChar (c : Char) : Bool := c.isAlphanum || c == '_'

/-- client_state.py 68-75 `config_site_to_name` -/
def configSiteToName (name : Str) : Str := name.map (fun c => if isWordChar c then c else '_')

def statusSection : Str := "incremental".toList

/-- parser.read(self.status_file): a file that cannot be opened is passed over -/
def readStatus : Option Str → Except StateErr Cfg
  | none => .ok {}
  | some text =>
    match cfgRead text with
    | .error e => .error (.cfg e)
    | .ok c => .ok c

/-- client_state.py 34-46: the parser as changed by `set_state` -/
def changeStatus {T : Type} (ft : FloatText T) (parser : Cfg) (site : Str) (timestamp : Option T) : Cfg :=
  let parser := if (dget parser.sections statusSection).isSome then parser else parser.addSection statusSection
  match timestamp with
  | none => parser.removeOption statusSection (configSiteToName site)
  | some t => parser.set statusSection (configSiteToName site) (ft.str t)

/-- client_state.py 28-49 `set_state`: the new file -/
def setState {T : Type} (ft : FloatText T) (file : Option Str) (site : Str) (timestamp : Option T) :
    Except StateErr (Option Str) :=
  match readStatus file with
  | .error e => .error e
  | .ok parser => .ok (some (changeStatus ft parser site timestamp).write)

/-- client_state.py 51-66 `get_state` -/
def getState {T : Type} (ft : FloatText T) (file : Option Str) (site : Str) : Except StateErr (Option T) :=
  match readStatus file with
  | .error e => .error e
  | .ok parser =>
    match parser.get statusSection (configSiteToName site) with
    | .error .noSection => .ok none
    | .error .noOption => .ok none
    | .error e => .error (.cfg e)
    | .ok v =>
      match ft.float v with
      | some t => .ok (some t)
      | none => .error .value

/-! Several clients and crashes: the steps of set_state as the operating system sees them. -/

/-- where a client is in set_state: before reading, after reading (with the parser as changed), after
open(..., 'w') has emptied the file, done, failed -/
inductive SetPc
  | start
  | read (parser : Cfg)
  | truncated (parser : Cfg)
  | done
  | failed (e : StateErr)
deriving DecidableEq

/-- one step of a client; the file is written from its beginning, as opening with 'w' does -/
def setStep {T : Type} (ft : FloatText T) (site : Str) (timestamp : Option T) :
    SetPc → Option Str → SetPc × Option Str
  | .start, file =>
    match readStatus file with
    | .error e => (.failed e, file)
    | .ok parser => (.read (changeStatus ft parser site timestamp), file)
  | .read parser, _ => (.truncated parser, some [])
  | .truncated parser, file =>
    let text := parser.write
    (.done, some (text ++ (file.getD []).drop text.length))
  | .done, file => (.done, file)
  | .failed e, file => (.failed e, file)

/-- two clients run under a schedule: `true` lets the first make a step, `false` the second -/
def runTwo {T : Type} (ft : FloatText T) (s1 s2 : Str × Option T) :
    List Bool → SetPc × SetPc × Option Str → SetPc × SetPc × Option Str
  | [], st => st
  | true :: sch, (p1, p2, f) =>
    let (p1', f') := setStep ft s1.1 s1.2 p1 f
    runTwo ft s1 s2 sch (p1', p2, f')
  | false :: sch, (p1, p2, f) =>
    let (p2', f') := setStep ft s2.1 s2.2 p2 f
    runTwo ft s1 s2 sch (p1, p2', f')

/-- the contents the file can have after a crash during set_state: not yet opened, or opened and any part of the text
written -/
inductive CrashFile {T : Type} (ft : FloatText T) (file : Option Str) (site : Str) (timestamp : Option T) : Option Str → Prop
  | before : CrashFile ft file site timestamp file
  | during (text rest : Str) : setState ft file site timestamp = .ok (some (text ++ rest)) →
      CrashFile ft file site timestamp (some text)

end Resync
