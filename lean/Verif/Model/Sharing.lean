import Verif.Model.Resource
/-
Model of resource.py with object identity: resources, lists of links and links are objects in a memory,
so that two resources may have the same list of links.

Simplifications: a list of links given to the constructor or assigned to `ln` is a new list of new
dicts (the caller keeps no other reference to it); objects are never reclaimed.
-/

namespace Resync
open Py

/-- resource.py 56-91: a Resource object. Its own attributes are in `own` (whose `ln` is not used); `ln`
is None or a reference to a list object. -/
structure Obj where
  own : Resource
  ln : Option Nat
deriving DecidableEq, Repr

/-- The objects of a running program: link dicts, lists of references to them, and resources. -/
structure Memory where
  dicts : List Link := []
  lists : List (List Nat) := []
  objs : List Obj := []
deriving DecidableEq, Repr

/-- the links in list object `l` -/
def Memory.links (m : Memory) (l : Nat) : List Link := (m.lists.getD l []).map (fun d => m.dicts.getD d [])

/-- what the attributes of a resource object read as -/
def Memory.view (m : Memory) (o : Obj) : Resource := { o.own with ln := o.ln.map m.links }

/-- what the resources of the program read as, in the order in which they were made -/
def Memory.views (m : Memory) : List Resource := m.objs.map m.view

/-- a new list object with new dicts -/
def Memory.newList (m : Memory) (ls : List Link) : Memory :=
  { m with dicts := m.dicts ++ ls, lists := m.lists ++ [List.range' m.dicts.length ls.length] }

/-- resource.py 130-131 and assignments to `ln`: the memory, and the value of `ln` -/
def Memory.giveLn (m : Memory) : Option (List Link) → Memory × Option Nat
  | none => (m, none)
  | some ls => (m.newList ls, some m.lists.length)

/-- resource.py 62-149 `__init__`: `Resource(..., resource=src)`. `setattr(self, 'ln', getattr(resource, 'ln'))`
(95-100) makes the new object refer to the same list; an argument `ln` replaces that (130-131). -/
def Memory.create (m : Memory) (src : Option Nat) (a : ResArgs) : Memory × Option ResErr :=
  let o := src.bind (fun i => m.objs[i]?)
  match Resource.new { a with resource := o.map m.view } with
  | .error e => (m, some e)
  | .ok r =>
    let g : Memory × Option Nat := if a.ln.isSome then m.giveLn a.ln else (m, o.bind (·.ln))
    ({ g.1 with objs := g.1.objs ++ [⟨{ r with ln := none }, g.2⟩] }, none)

/-- resource.py 330-341 `link`: the first dict in the list with the given rel -/
def Memory.findRef (m : Memory) (l : Nat) (rel : Str) : Option Nat :=
  (m.lists.getD l []).find? (fun d => dget (m.dicts.getD d []) sRel = some rel)

/-- resource.py 348-375 `link_set` on object `i`, which is `o` -/
def Memory.linkSet (m : Memory) (i : Nat) (o : Obj) (rel href : Str) (dup : Bool) (atts : List (Str × Str)) :
    Memory :=
  let new : Link := addAtts [(sRel, rel), (sHref, href)] atts
  match o.ln with
  | none =>
    let m' := m.newList [new]
    { m' with objs := m'.objs.set i { o with ln := some m.lists.length } }
  | some l =>
    match m.findRef l rel, dup with
    | some d, false =>
      { m with dicts := m.dicts.set d (addAtts (dset (m.dicts.getD d []) sHref href) atts) }
    | _, _ =>
      { m with dicts := m.dicts ++ [new], lists := m.lists.set l (m.lists.getD l [] ++ [m.dicts.length]) }

/-- resource.py 151-425: one assignment or link operation on object `i` -/
def Memory.assign (m : Memory) (i : Nat) (op : ResOp) : Memory × Option ResErr :=
  match m.objs[i]? with
  | none => (m, none)
  | some o =>
    match op with
    | .setLn v =>
      let g := m.giveLn v
      ({ g.1 with objs := g.1.objs.set i { o with ln := g.2 } }, none)
    | .linkSet rel href dup atts => (m.linkSet i o rel href dup atts, none)
    | op =>
      let p := o.own.step op
      ({ m with objs := m.objs.set i { o with own := p.1 } }, p.2)

/-- One statement of a program that uses resources. -/
inductive ResCmd
  /-- `r_n = Resource(..., resource=r_src)`, or without `resource` -/
  | create (src : Option Nat) (a : ResArgs)
  /-- an assignment or link operation on `r_i` -/
  | assign (i : Nat) (op : ResOp)

/-- a statement run; an exception leaves what has been done so far -/
def Memory.exec (m : Memory) : ResCmd → Memory
  | .create src a => (m.create src a).1
  | .assign i op => (m.assign i op).1

/-- a program run (each statement's exception is caught) -/
def Memory.run (m : Memory) (p : List ResCmd) : Memory := p.foldl Memory.exec m

end Resync
