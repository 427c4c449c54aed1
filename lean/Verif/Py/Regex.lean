import Verif.Py.Str
/-
A backtracking matcher for the part of Python's `re` that the code relies on.
Models CPython's `re` (trusted), not /repo code.

`Re.m` returns the list of all ways to match, in the order in which the
backtracking engine tries them; `re.match` is its first element.
-/

namespace Py

/-- Regular expressions: what `re.compile` produces for the supported syntax. -/
inductive Re where
  | eps
  | chr (p : Char → Bool)
  | cat (a b : Re)
  | alt (a b : Re)
  | star (a : Re)          -- greedy
  | opt (a : Re)           -- greedy
  | grp (n : Nat) (a : Re)
  | bos                    -- `^`
  | eos                    -- `$`

/-- Matcher state: number of characters consumed, remaining input, captures (latest first). -/
structure MSt where
  pos : Nat
  rest : Str
  caps : List (Nat × Str)
deriving DecidableEq, Repr

/-- Greedy iteration.  As in `sre`, an iteration which consumes nothing ends the loop, but its groups
are kept; `n` bounds the iterations and is always given as the length of the remaining input. -/
def starIter (f : MSt → List MSt) : Nat → MSt → List MSt
  | 0, st => f st ++ [st]
  | n + 1, st =>
    (f st).flatMap (fun st' => if st'.rest.length < st.rest.length then starIter f n st' else [st']) ++ [st]

def Re.m : Re → MSt → List MSt
  | .eps, st => [st]
  | .chr p, st =>
    match st.rest with
    | [] => []
    | c :: cs => if p c then [{ st with pos := st.pos + 1, rest := cs }] else []
  | .cat a b, st => (a.m st).flatMap b.m
  | .alt a b, st => a.m st ++ b.m st
  | .star a, st => starIter a.m st.rest.length st
  | .opt a, st => a.m st ++ [st]
  | .grp n a, st =>
    (a.m st).map fun st' =>
      { st' with caps := (n, st.rest.take (st.rest.length - st'.rest.length)) :: st'.caps }
  | .bos, st => if st.pos = 0 then [st] else []
  | .eos, st => if st.rest = [] ∨ st.rest = ['\n'] then [st] else []

/-- `a+` -/
def Re.plus (a : Re) : Re := .cat a (.star a)

/-- `.` without DOTALL -/
def Re.dot : Re := .chr (fun c => c != '\n')

/-- a literal character -/
def Re.lit (c : Char) : Re := .chr (fun d => d == c)

/-- sequence of items -/
def Re.seq : List Re → Re
  | [] => .eps
  | a :: t => .cat a (Re.seq t)

/-- `re.match(r, s)`: the first successful match starting at the beginning. -/
def Re.matchStart (r : Re) (s : Str) : Option MSt := (r.m ⟨0, s, []⟩).head?

/-- `m.group(n)` (`none` is Python's `None` for a group which did not participate). -/
def MSt.group (st : MSt) (n : Nat) : Option Str := st.caps.lookup n

/-! ### Pattern syntax -/

/-- Outcome of compiling a pattern: `bad` is Python's `re.error`; `outside` marks syntax this
model does not cover (character sets, escapes, counted repeats, lazy and possessive quantifiers, extensions). -/
inductive ReErr where
  | bad
  | outside
deriving DecidableEq, Repr

/-- An item of the sequence being parsed, with how it may be followed. -/
inductive ItemKind where
  | atom      -- may be repeated
  | anchor    -- `^` or `$`: "nothing to repeat"
  | rep       -- already repeated: "multiple repeat"
deriving DecidableEq, Repr

/-- One open group (or the top level): finished alternatives and the current sequence, both reversed. -/
structure Frame where
  alts : List Re
  cur : List (ItemKind × Re)

/-- Parser state: the current frame, the enclosing frames with the number of the group they are
waiting for, and the next group number. -/
structure PSt where
  top : Frame
  stack : List (Nat × Frame)
  next : Nat

def Frame.toRe (f : Frame) : Re :=
  (f.alts).foldl (fun acc a => .alt a acc) (Re.seq (f.cur.reverse.map (·.2)))

def PSt.push (s : PSt) (k : ItemKind) (r : Re) : PSt :=
  { s with top := { s.top with cur := (k, r) :: s.top.cur } }

/-- apply a repeat operator to the last item -/
def PSt.repeatLast (s : PSt) (c : Char) (f : Re → Re) : Except ReErr PSt :=
  match s.top.cur with
  | (.atom, r) :: t => .ok { s with top := { s.top with cur := (.rep, f r) :: t } }
  | (.anchor, _) :: _ => .error .bad
  | (.rep, _) :: _ => if c = '*' then .error .bad else .error .outside
  | [] => if c = '?' then .error .outside else .error .bad

/-- one character of the pattern -/
def PSt.step (s : PSt) (c : Char) : Except ReErr PSt :=
  if c = '(' then
    .ok { top := ⟨[], []⟩, stack := (s.next, s.top) :: s.stack, next := s.next + 1 }
  else if c = ')' then
    match s.stack with
    | [] => .error .bad
    | (n, f) :: st =>
      .ok { s with top := { f with cur := (.atom, .grp n s.top.toRe) :: f.cur }, stack := st }
  else if c = '|' then
    .ok { s with top := ⟨Re.seq (s.top.cur.reverse.map (·.2)) :: s.top.alts, []⟩ }
  else if c = '*' then s.repeatLast c .star
  else if c = '+' then s.repeatLast c .plus
  else if c = '?' then s.repeatLast c .opt
  else if c = '.' then .ok (s.push .atom .dot)
  else if c = '^' then .ok (s.push .anchor .bos)
  else if c = '$' then .ok (s.push .anchor .eos)
  else if c = '[' ∨ c = '\\' ∨ c = '{' then .error .outside
  else .ok (s.push .atom (.lit c))

def PSt.run (s : PSt) : Str → Except ReErr PSt
  | [] => .ok s
  | c :: cs => match s.step c with
    | .ok s' => s'.run cs
    | .error e => .error e

/-- `re.compile(p)` -/
def compile (p : Str) : Except ReErr Re :=
  match (PSt.run ⟨⟨[], []⟩, [], 1⟩ p) with
  | .error e => .error e
  | .ok s => if s.stack.isEmpty then .ok s.top.toRe else .error .bad

end Py
