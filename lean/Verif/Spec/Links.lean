import Verif.Spec.Repeat
/-
Specification vocabulary for C108: a file system with symbolic links.  Names of files are followed as path_resolution(7) says; the
operating system is trusted to do this.  Hard links, mount points and permissions are left out.
-/

namespace Resync.Spec
open Py

/-- what can be at a place -/
inductive RealNode
  | file (content : Bytes) (mtime : Rat)
  | dir
  | link (target : Str)
deriving DecidableEq

/-- a file system with symbolic links; the root is a directory whatever it says about it -/
abbrev RealFs := Loc → Option RealNode

/-- Starting in directory `here`, these names lead to a place.  A symbolic link on the way is followed; one at the end only if `follow`
(open and utime do, mkdir and unlink do not).  All but the last must be there.  Links in a circle lead nowhere. -/
inductive Leads (x : RealFs) (follow : Bool) : Loc → List Str → Loc → Prop
  | done (here : Loc) : Leads x follow here [] here
  | dot {here rest l} : Leads x follow here rest l → Leads x follow here (['.'] :: rest) l
  | parent {here rest l} : Leads x follow here.dropLast rest l → Leads x follow here (['.', '.'] :: rest) l
  | dir {here : Loc} {name : Str} {rest : List Str} {l : Loc} (h1 : name ≠ ['.']) (h2 : name ≠ ['.', '.'])
      (hd : x (here ++ [name]) = some .dir) : Leads x follow (here ++ [name]) rest l → Leads x follow here (name :: rest) l
  | link {here : Loc} {name : Str} {rest : List Str} {l : Loc} (h1 : name ≠ ['.']) (h2 : name ≠ ['.', '.']) {target : Str}
      (hl : x (here ++ [name]) = some (.link target)) (hf : rest ≠ [] ∨ follow = true) :
      Leads x follow (if target.head? = some '/' then [] else here) (pathParts target ++ rest) l → Leads x follow here (name :: rest) l
  | last {here : Loc} {name : Str} (h1 : name ≠ ['.']) (h2 : name ≠ ['.', '.']) (hd : x (here ++ [name]) ≠ some .dir)
      (hl : ∀ target, x (here ++ [name]) = some (.link target) → follow = false) : Leads x follow here [name] (here ++ [name])

def RealFs.put (x : RealFs) (l : Loc) (n : Option RealNode) : RealFs := fun k => if k = l then n else x k

/-- What a system call does if it succeeds: the names of the effect lead to the place where something changes. -/
inductive Acts (x : RealFs) : Effect → RealFs → Prop
  | mkdir {l k : Loc} (h : Leads x false [] l k) (hn : x k = none) (hr : k ≠ []) : Acts x (.mkdir l) (x.put k (some .dir))
  | create {l k : Loc} (h : Leads x true [] l k) (now : Rat) (hn : x k = none) (hr : k ≠ []) :
      Acts x (.trunc l now) (x.put k (some (.file [] now)))
  | trunc {l k : Loc} (h : Leads x true [] l k) (now : Rat) {c : Bytes} {m : Rat} (hn : x k = some (.file c m)) (hr : k ≠ []) :
      Acts x (.trunc l now) (x.put k (some (.file [] now)))
  | append {l k : Loc} (h : Leads x true [] l k) (b : Bytes) {c : Bytes} {m : Rat} (hn : x k = some (.file c m)) (hr : k ≠ []) :
      Acts x (.append l b) (x.put k (some (.file (c ++ b) m)))
  | utime {l k : Loc} (h : Leads x true [] l k) (t : Int) {c : Bytes} {m : Rat} (hn : x k = some (.file c m)) (hr : k ≠ []) :
      Acts x (.utime l t) (x.put k (some (.file c t)))
  | unlink {l k : Loc} (h : Leads x false [] l k) {n : RealNode} (hn : x k = some n) (hd : n ≠ .dir) (hr : k ≠ []) :
      Acts x (.unlink l) (x.put k none)

/-- a sequence of effects, of which some may fail (a call that can do nothing fails) -/
inductive Performs : RealFs → List Effect → RealFs → Prop
  | done (x : RealFs) : Performs x [] x
  | acts {x y z : RealFs} {e : Effect} {es : List Effect} : Acts x e y → Performs y es z → Performs x (e :: es) z
  | fails {x z : RealFs} {e : Effect} {es : List Effect} : (∀ y, ¬ Acts x e y) → Performs x es z → Performs x (e :: es) z

/-- on the way to a destination, or in it -/
def Near (sites : List (Map × Loc)) (l : Loc) : Prop := ∃ p ∈ sites, l <+: p.2 ∨ Within p.2 l

/-- there is no symbolic link on the way to the destinations or in them -/
def NoLinks (sites : List (Map × Loc)) (x : RealFs) : Prop := ∀ l, l ≠ [] → Near sites l → ∀ target, x l ≠ some (.link target)

def realNode : FsNode → RealNode
  | .file c m => .file c m
  | .dir => .dir

/-- at the destinations and on the way to them there is what the client sees there -/
def Shows (sites : List (Map × Loc)) (x : RealFs) (fs : Fs) : Prop := ∀ l, l ≠ [] → Near sites l → x l = (fs.get l).map realNode

/-- The destinations are reached through links, or not, and are directories: `real` tells where they really are.  Links do not make two
of them overlap, there is none in them, and what is in them is what the client sees. -/
structure Behind (sites : List (Map × Loc)) (real : Loc → Loc) (x : RealFs) (fs : Fs) : Prop where
  leads : ∀ p ∈ sites, Leads x true [] p.2 (real p.2)
  dirs : ∀ p ∈ sites, real p.2 = [] ∨ x (real p.2) = some .dir
  seen : ∀ p ∈ sites, fs.get p.2 = some .dir
  apart : sites.Pairwise (fun p q => ¬ real p.2 <+: real q.2 ∧ ¬ real q.2 <+: real p.2)
  same : ∀ p ∈ sites, ∀ names, names ≠ [] → x (real p.2 ++ names) = (fs.get (p.2 ++ names)).map realNode

end Resync.Spec
