import Verif.Py.Dict
/-
Python's configparser.ConfigParser() with its default settings: reading and writing of configuration text.
Models the standard library (trusted), not /repo code.

Simplifications: lines end with '\n' only; the lower case of non-ASCII letters is not modelled; interpolation of
values with '%' is not modelled (reading such a value is an error here); the kinds of parsing errors are not
distinguished.
-/

namespace Py

/-- s.lower() -/
def lower (s : Str) : Str := s.map Char.toLower

/-- s.rstrip() -/
def rstrip (s : Str) : Str := (s.reverse.dropWhile isSpace).reverse

/-- s.strip() -/
def strip (s : Str) : Str := rstrip (s.dropWhile isSpace)

/-- the lines of a text, as iterating over a file gives them, without the line ends -/
def textLines (s : Str) : List Str :=
  let ls := splitOn '\n' s
  if ls.getLast? = some [] then ls.dropLast else ls

inductive CfgErr
  /-- ParsingError, DuplicateOptionError, DuplicateSectionError, MissingSectionHeaderError -/
  | parse
  | noSection
  | noOption
  | interpolation
deriving DecidableEq, Repr

/-- a ConfigParser object -/
structure Cfg where
  defaults : Dict Str := []
  sections : Dict (Dict Str) := []
deriving DecidableEq

/-- state of `_read`; values are lists of lines -/
structure CfgRead where
  defaults : Dict (List Str) := []
  sections : Dict (Dict (List Str)) := []
  /-- `cursect`/`sectname` -/
  cur : Option Str := none
  optname : Str := []
  indent : Nat := 0
  /-- `elements_added`: sections, options -/
  secs : List Str := []
  opts : List (Str × Str) := []
  /-- `e` is not None -/
  bad : Bool := false

def defaultSection : Str := "DEFAULT".toList

/-- `cursect`, as a dict -/
def CfgRead.curDict (s : CfgRead) (sec : Str) : Dict (List Str) :=
  if sec = defaultSection then s.defaults else (dget s.sections sec).getD []

/-- `cursect[...] = ...` -/
def CfgRead.setCur (s : CfgRead) (sec : Str) (d : Dict (List Str)) : CfgRead :=
  if sec = defaultSection then { s with defaults := d } else { s with sections := dset s.sections sec d }

/-- cursect[optname].append(value), if there is a current option -/
def CfgRead.appendCur (s : CfgRead) (sec value : Str) : CfgRead :=
  let d := s.curDict sec
  s.setCur sec (dset d s.optname ((dget d s.optname).getD [] ++ [value]))

/-- SECTCRE `\[(?P<header>.+)\]` at the start of a line -/
def sectionHeader (value : Str) : Option Str :=
  match value with
  | '[' :: t =>
    let h := (t.reverse.dropWhile (· != ']')).reverse
    -- h ends with the last ']', the header is what precedes it
    if h.length ≥ 2 then some h.dropLast else none
  | _ => none

/-- OPTCRE `(?P<option>.*?)\s*(?:(?P<vi>=|:)\s*(?P<value>.*))$` -/
def optionLine (value : Str) : Option (Str × Str) :=
  let isDelim (c : Char) : Bool := c == '=' || c == ':'
  let before := value.takeWhile (fun c => !isDelim c)
  match value.dropWhile (fun c => !isDelim c) with
  | [] => none
  | _ :: after => some (rstrip before, after.dropWhile isSpace)

/-- one line in `_read` -/
def CfgRead.line (s : CfgRead) (line : Str) : Except CfgErr CfgRead :=
  let stripped := strip line
  let comment : Bool := startsWith stripped ['#'] || startsWith stripped [';']
  let value := if comment then [] else stripped
  if value = [] then
    match s.cur with
    | some sec => if comment = false ∧ s.optname ≠ [] then .ok (s.appendCur sec []) else .ok s
    | none => .ok s
  else
    let indent := (line.takeWhile isSpace).length
    if s.cur ≠ none ∧ s.optname ≠ [] ∧ indent > s.indent then .ok (s.appendCur (s.cur.getD []) value)
    else
      let s := { s with indent := indent }
      match sectionHeader value with
      | some sec =>
        if (dget s.sections sec).isSome then
          if sec ∈ s.secs then .error .parse
          else .ok { s with cur := some sec, secs := sec :: s.secs, optname := [] }
        else if sec = defaultSection then .ok { s with cur := some sec, optname := [] }
        else .ok { s with sections := dset s.sections sec [], cur := some sec, secs := sec :: s.secs, optname := [] }
      | none =>
        match s.cur with
        | none => .error .parse
        | some sec =>
          match optionLine value with
          | none => .ok { s with bad := true }
          | some (opt, val) =>
            let s := if opt = [] then { s with bad := true } else s
            let opt := lower (rstrip opt)
            if (sec, opt) ∈ s.opts then .error .parse
            else
              let s := { s with opts := (sec, opt) :: s.opts, optname := opt }
              .ok (s.setCur sec (dset (s.curDict sec) opt [strip val]))

/-- `_join_multiline_values` -/
def joinValues (d : Dict (List Str)) : Dict Str := d.map (fun p => (p.1, rstrip (join ['\n'] p.2)))

/-- `_read` into a new parser -/
def cfgRead (text : Str) : Except CfgErr Cfg := do
  let s ← (textLines text).foldlM CfgRead.line {}
  if s.bad then .error .parse
  else .ok { defaults := joinValues s.defaults, sections := s.sections.map (fun p => (p.1, joinValues p.2)) }

/-- `_write_section` -/
def writeSection (name : Str) (d : Dict Str) : Str :=
  '[' :: name ++ "]\n".toList ++
    (d.flatMap (fun p => p.1 ++ " = ".toList ++ p.2.flatMap (fun c => if c = '\n' then ['\n', '\t'] else [c]) ++ ['\n'])) ++ ['\n']

/-- `write` -/
def Cfg.write (c : Cfg) : Str :=
  (if c.defaults = [] then [] else writeSection defaultSection c.defaults) ++
    c.sections.flatMap (fun p => writeSection p.1 p.2)

/-- `get` -/
def Cfg.get (c : Cfg) (sec opt : Str) : Except CfgErr Str :=
  let find (d : Dict Str) : Except CfgErr Str :=
    match dget d (lower opt) with
    | some v => if '%' ∈ v then .error .interpolation else .ok v
    | none =>
      match dget c.defaults (lower opt) with
      | some v => if '%' ∈ v then .error .interpolation else .ok v
      | none => .error .noOption
  match dget c.sections sec with
  | some d => find d
  | none => if sec = defaultSection then find c.defaults else .error .noSection

/-- `add_section` for a section that is not there -/
def Cfg.addSection (c : Cfg) (sec : Str) : Cfg := { c with sections := dset c.sections sec [] }

/-- `set` in a section that is there -/
def Cfg.set (c : Cfg) (sec opt v : Str) : Cfg :=
  { c with sections := dset c.sections sec (dset ((dget c.sections sec).getD []) (lower opt) v) }

/-- `remove_option` in a section that is there -/
def Cfg.removeOption (c : Cfg) (sec opt : Str) : Cfg :=
  { c with sections := dset c.sections sec (ddel ((dget c.sections sec).getD []) (lower opt)) }

end Py
