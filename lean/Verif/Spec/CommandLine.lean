import Verif.Model.CommandLine
/-
How command lines are written and what they mean (C110).
-/

namespace Resync.Spec
open Py

/-- a word that does not look like an option -/
def PlainWord (w : Str) : Prop := ∀ t, w ≠ '-' :: t

/-- A set of options without contradictions: no string and no destination belongs to two options; strings are `-x` or `--x...`, without
an equals sign; there are at least two of the latter kind; no `-x` has a digit or a dot for `x`. -/
structure ParserOk (p : ParserDef) : Prop where
  once : p.opts.Nodup ∧ ∀ o ∈ p.opts, o.strings.Nodup
  strings : ∀ o ∈ p.opts, ∀ o' ∈ p.opts, ∀ s ∈ o.strings, s ∈ o'.strings → o = o'
  dests : ∀ o ∈ p.opts, ∀ o' ∈ p.opts, o.dest = o'.dest → o = o'
  shape : ∀ o ∈ p.opts, ∀ s ∈ o.strings, s.take 1 = ['-'] ∧ '=' ∉ s ∧ (s.take 2 = ['-', '-'] → 2 < s.length) ∧
    (s.take 2 ≠ ['-', '-'] → s.length = 2)
  several : ∃ o ∈ p.opts, ∃ s ∈ o.strings, ∃ o' ∈ p.opts, ∃ s' ∈ o'.strings, s ≠ s' ∧ ['-', '-'] <+: s ∧ ['-', '-'] <+: s'
  digits : ∀ o ∈ p.opts, ∀ s ∈ o.strings, ∀ c ∈ (s.drop 1).take 1, isDigit c = false ∧ c ≠ '.'

/-- option `o` is named by word `w`: by one of its strings, or by the beginning of a long one of them with which no other string
of any option begins -/
inductive NamedBy (p : ParserDef) (o : OptDef) : Str → Prop
  | full {s : Str} : s ∈ o.strings → NamedBy p o s
  | begun {w s : Str} : s ∈ o.strings → ['-', '-'] <+: w → 2 < w.length → '=' ∉ w → w <+: s →
      (∀ o' ∈ p.opts, ∀ s' ∈ o'.strings, w <+: s' → o' = o ∧ s' = s) → NamedBy p o w

/-- the option has a value -/
def HasValue (o : OptDef) : Prop := o.kind ≠ .flag ∧ o.kind ≠ .help

/-- a negative number as argparse writes them: `-12`, `-1.5`, `-.5` -/
inductive NegativeNumber : Str → Prop
  | whole {d : Str} : d ≠ [] → (∀ c ∈ d, isDigit c = true) → NegativeNumber ('-' :: d)
  | fraction {d f : Str} : (∀ c ∈ d, isDigit c = true) → f ≠ [] → (∀ c ∈ f, isDigit c = true) → NegativeNumber ('-' :: (d ++ '.' :: f))

/-- Words of a command line that give options: `--flag`; `--opt value`; `--opt -1`; `--opt=value`; `-ovalue`; `-abc` for `-a -b -c` -/
inductive OptionWords (p : ParserDef) : List (OptDef × Option Str) → List Str → Prop
  | flag {o : OptDef} {w : Str} : o ∈ p.opts → ¬ HasValue o → NamedBy p o w → OptionWords p [(o, none)] [w]
  | next {o : OptDef} {w v : Str} : o ∈ p.opts → HasValue o → NamedBy p o w → PlainWord v → OptionWords p [(o, some v)] [w, v]
  | number {o : OptDef} {w v : Str} : o ∈ p.opts → HasValue o → NamedBy p o w → NegativeNumber v → OptionWords p [(o, some v)] [w, v]
  | equals {o : OptDef} {w v : Str} : o ∈ p.opts → HasValue o → NamedBy p o w → OptionWords p [(o, some v)] [w ++ '=' :: v]
  | letter {o : OptDef} {c d : Char} {t : Str} : o ∈ p.opts → HasValue o → ['-', c] ∈ o.strings → c ≠ '-' → d ≠ '=' →
      OptionWords p [(o, some (d :: t))] ['-' :: c :: d :: t]
  | letters {l : List (Char × OptDef)} : 1 < l.length →
      (∀ x ∈ l, x.2 ∈ p.opts ∧ ¬ HasValue x.2 ∧ ['-', x.1] ∈ x.2.strings ∧ x.1 ≠ '-') →
      OptionWords p (l.map (fun x => (x.2, none))) ['-' :: l.map (·.1)]

/-- the words of several options -/
inductive GivesAll (p : ParserDef) : List (OptDef × Option Str) → List Str → Prop
  | nil : GivesAll p [] []
  | cons {g gs ws wss} : OptionWords p g ws → GivesAll p gs wss → GivesAll p (g ++ gs) (ws ++ wss)

/-- the word mentions the option: it names it, with or without `=` and a value, or has its letter among others after one dash -/
inductive Mentions (p : ParserDef) (o : OptDef) : Str → Prop
  | named {w : Str} : NamedBy p o w → Mentions p o w
  | equals {w v : Str} : HasValue o → NamedBy p o w → Mentions p o (w ++ '=' :: v)
  | inside {t : Str} {c : Char} : c ∈ t → ['-', c] ∈ o.strings → t.head? ≠ some '-' → Mentions p o ('-' :: t)

/-- the values given for option `o`, in order -/
def valuesOf (o : OptDef) (gs : List (OptDef × Option Str)) : List Str :=
  (gs.filter (fun g => g.1 = o)).map (fun g => g.2.getD [])

/-- what an option is set to by the values given for it: the last one counts, except for repeatable options -/
def setting (cv : Convert) (o : OptDef) (vs : List Str) : Option ArgVal :=
  match vs.getLast? with
  | none => none
  | some v =>
    match o.kind with
    | .flag => some .yes
    | .help => none
    | .store => some (.str v)
    | .choice _ => some (.str v)
    | .int => (cv.int v).map .int
    | .float => (cv.float v).map .float
    | .append => some (.list vs)

/-- a value that the option accepts -/
def Acceptable (cv : Convert) (g : OptDef × Option Str) : Prop :=
  match g.1.kind with
  | .help => False
  | .int => cv.int (g.2.getD []) ≠ none
  | .float => cv.float (g.2.getD []) ≠ none
  | .choice cs => g.2.getD [] ∈ cs
  | _ => True

/-- A proper command line: options, then the mapping arguments, then options; all values acceptable; exactly one of the modes, if
there are modes. `gs` is what the options give, `ms` are the mapping arguments. -/
structure CommandFor (p : ParserDef) (cv : Convert) (gs : List (OptDef × Option Str)) (ms : List Str) (argv : List Str) : Prop where
  words : ∃ gs₁ ws₁ gs₂ ws₂, GivesAll p gs₁ ws₁ ∧ GivesAll p gs₂ ws₂ ∧ gs = gs₁ ++ gs₂ ∧ argv = ws₁ ++ (ms ++ ws₂)
  plain : ∀ m ∈ ms, PlainWord m
  mapping : p.positional = true ∨ ms = []
  values : ∀ g ∈ gs, Acceptable cv g
  mode : ∃ m, (∀ g ∈ gs, g.1.dest ∈ p.modes → g.1.dest = m) ∧ (p.modes ≠ [] → ∃ g ∈ gs, g.1.dest ∈ p.modes)

/-- the values given for the option written `s` -/
def givenFor (s : String) (gs : List (OptDef × Option Str)) : List Str :=
  (gs.filter (fun g => s.toList ∈ g.1.strings)).map (fun g => g.2.getD [])

/-- the word stands before any `--` -/
def StandsIn (w : Str) (argv : List Str) : Prop := ∃ pre post, argv = pre ++ w :: post ∧ ['-', '-'] ∉ pre

end Resync.Spec
