import Verif.Spec.Repeat
/-
Specification vocabulary for syncs that overlap (C99): a file system that is shared by several processes, each of which has at most one
file open for writing, with a position of its own in it.  Times of files are left out.
-/

namespace Resync.Spec
open Py

/-- a file (which one, and what is in it) or a directory -/
inductive SharedNode
  | dir
  | file (inode : Nat) (content : Bytes)
deriving DecidableEq

/-- A file system while processes are at work on it: what there is, the files opened (where, which file, and the position), and the number
of the next new file -/
structure Shared where
  node : Loc → Option SharedNode
  opened : Nat → Option (Loc × Nat × Nat) := fun _ => none
  next : Nat := 0

/-- f.write(b) at position `o` of a file: what was there is overwritten; if the file has become shorter, the gap is filled with zeros -/
def writeAt (content : Bytes) (o : Nat) (b : Bytes) : Bytes :=
  if b = [] then content
  else (content ++ List.replicate (o - content.length) 0).take o ++ b ++ content.drop (o + b.length)

/-- `p` does something.  open(…, 'wb') makes a new file or empties the one that is there, and the position is at the start; bytes are
written to the file that was opened, at the position, wherever that file is now (it may have been removed). -/
def Shared.step (x : Shared) : Nat × Effect → Shared
  | (p, .trunc l _) =>
    match x.node l with
    | some (.file i _) =>
      { x with node := fun k => if k = l then some (.file i []) else x.node k
               opened := fun q => if q = p then some (l, i, 0) else x.opened q }
    | _ =>
      { node := fun k => if k = l then some (.file x.next []) else x.node k
        opened := fun q => if q = p then some (l, x.next, 0) else x.opened q
        next := x.next + 1 }
  | (p, .append l b) =>
    match x.opened p with
    | some (k, i, o) =>
      if k = l then
        { x with node := fun k => if k = l then
                                    (match x.node l with
                                    | some (.file j content) => some (.file j (if j = i then writeAt content o b else content))
                                    | n => n)
                                  else x.node k
                 opened := fun q => if q = p then some (l, i, o + b.length) else x.opened q }
      else x
    | none => x
  | (_, .mkdir l) =>
    match x.node l with
    | none => { x with node := fun k => if k = l then some .dir else x.node k }
    | some _ => x
  | (_, .unlink l) => { x with node := fun k => if k = l then none else x.node k }
  | (_, .get _) => x
  | (_, .utime _ _) => x
  | (_, .setState _) => x

/-- what is done, in the order in which it is done, and by whom -/
abbrev Schedule := List (Nat × Effect)

/-- the file system afterwards -/
def Shared.run (x : Shared) (σ : Schedule) : Shared := σ.foldl Shared.step x

/-- what is in the file at `l`, if there is one -/
def Shared.contents (x : Shared) (l : Loc) : Option Bytes :=
  match x.node l with
  | some (.file _ b) => some b
  | _ => none

/-- a file system with nobody at work on it -/
def Shared.of (fs : Fs) : Shared where
  node l := match fs.get l with
    | none => none
    | some .dir => some .dir
    | some (.file b _) => some (.file 0 b)
  next := 1

/-- what `p` does in a schedule -/
def own (p : Nat) (σ : Schedule) : List Effect := σ.filterMap (fun x => if x.1 = p then some x.2 else none)

/-- The same things, with bytes written in one or more pieces -/
inductive InPieces : List Effect → List Effect → Prop
  | done : InPieces [] []
  | next (e : Effect) {es fs : List Effect} : InPieces es fs → InPieces (e :: es) (e :: fs)
  | piece (l : Loc) (b b' : Bytes) {es fs : List Effect} : InPieces (.append l b' :: es) fs →
      InPieces (.append l (b ++ b') :: es) (.append l b :: fs)

/-- what a process has been started for -/
inductive Task
  | baseline (allow_deletion audit : Bool)
  | incremental (allow_deletion : Bool) (uri from_datetime : Option Str)

/-- A process: its surroundings and options, how things look to it when it starts, and what it is to do.  That others change things
while it runs shows in its surroundings: what they answer may depend on everything, and a file or directory may fail to be made or
removed at any time. -/
structure Process where
  env : Env
  c : ClientCfg
  s : St
  task : Task

/-- the run from beginning to end -/
def Process.result (p : Process) : St × Except ClientErr Unit :=
  match p.task with
  | .baseline allow audit => baselineOrAudit p.env p.c allow audit p.s
  | .incremental allow uri fd => incremental p.env p.c allow uri fd p.s

/-- everything it does -/
def Process.does (p : Process) : List Effect := doneBetween p.s p.result.1

/-- In this schedule every process does what it does in its order; it may be ended at any moment, also in the middle of writing -/
def Overlap (P : Nat → Process) (σ : Schedule) : Prop := ∀ p, ∃ all, InPieces (P p).does all ∧ own p σ <+: all

/-- `p` comes to its end in this schedule, with success; failures have not been ignored -/
structure Finishes (P : Nat → Process) (σ : Schedule) (p : Nat) : Prop where
  all : InPieces (P p).does (own p σ)
  ok : (P p).result.2 = .ok ()
  strict : (P p).c.ignore_failures = false

/-- `p` opens the file at `l` for writing -/
def Opens (σ : Schedule) (p : Nat) (l : Loc) : Prop := ∃ t, (p, .trunc l t) ∈ σ

/-- and nobody does after it -/
def OpensLast (σ : Schedule) (p : Nat) (l : Loc) : Prop :=
  ∃ before t after, σ = before ++ (p, .trunc l t) :: after ∧ ∀ q, ¬ Opens after q l

/-- No byte is wrong, but there may be gaps (zeros), and the end may be missing -/
def Patches (whole b : Bytes) : Prop :=
  b.length ≤ whole.length ∧ ∀ (i : Nat) (x : UInt8), b[i]? = some x → whole[i]? = some x ∨ x = 0

/-- Processes at work for these sites, against a server on which every resource has one content (C97) -/
def FaithfulProcesses (cwd : Loc) (sites : List (Map × Loc)) (content : Str → Bytes) (P : Nat → Process) : Prop :=
  ∀ p, FaithfulRun cwd sites content (P p).env (P p).c ∧ Sites (P p).c cwd sites (P p).s.world.fs

end Resync.Spec
