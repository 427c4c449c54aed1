import Verif.Model.Resource
/-
Model of the container part of /repo/resync/resource_list.py, resource_set.py.

A ResourceList is an object with identity: its `resources` dictionary also stores the state of the
iterators made from it (`_sorted_iter_next_list`), so two iterations over one list share state.  The
heap maps object numbers to such objects.
-/

namespace Resync
open Py

/-- Exceptions of the list classes. -/
inductive ListErr
  /-- ResourceListDupeError / ResourceSetDupeError -/
  | dupe
  /-- KeyError -/
  | key
  /-- ChangeTypeError -/
  | changeType
  /-- other exceptions raised while building a Resource -/
  | value
  /-- plain Exception of prune_updates_before -/
  | noTime
  /-- TypeError (comparing with None) -/
  | type
  /-- not a Python exception: the loop bound of the model was too small (shown never to happen) -/
  | fuel
deriving DecidableEq, Repr

/-- resource_list.py 48-71 `ResourceListDict`: the dictionary and the shared iterator state.
`nextList` is `_sorted_iter_next_list` read from its end (the list is kept in reverse order and
consumed with `pop()`), i.e. the keys still to be delivered, in order. -/
structure RLObj where
  dict : Dict Resource := []
  nextList : List Str := []
deriving DecidableEq, Repr

/-- resource_list.py 65-71 (and 90-96, resource_set.py 30-36) `add`. -/
def dictAdd (d : Dict Resource) (r : Resource) (replace : Bool) : Except ListErr (Dict Resource) :=
  if (dget d r.uri).isSome ∧ ¬ replace then .error .dupe else .ok (dset d r.uri r)

/-- resource_list.py 165-167 `add` of an iterable: stops at the first duplicate, keeping what was
added before. Result: dictionary afterwards and exception. -/
def dictAddAll (d : Dict Resource) (rs : List Resource) (replace : Bool) :
    Dict Resource × Option ListErr :=
  match rs with
  | [] => (d, none)
  | r :: t =>
    match dictAdd d r replace with
    | .error e => (d, some e)
    | .ok d' => dictAddAll d' t replace

/-- resource_list.py 61-63 `uris` -/
def dictUris (d : Dict Resource) : List Str := sortStr (dkeys d)

/-- Objects by identity. -/
abbrev Heap := Nat → RLObj

def Heap.set (h : Heap) (o : Nat) (x : RLObj) : Heap := fun i => if i = o then x else h i

/-- resource_list.py 36-39 `sorted_iter`: (re)sets the shared state. -/
def sortedIter (h : Heap) (o : Nat) : Heap :=
  h.set o { h o with nextList := sortStr (dkeys (h o).dict) }

/-- resource_list.py 41-45 `_sorted_iter_next` through `iter(callable, None)`: next resource or end. -/
def iterNext (h : Heap) (o : Nat) : Except ListErr (Heap × Option Resource) :=
  match (h o).nextList with
  | [] => .ok (h, none)
  | k :: t =>
    match dget (h o).dict k with
    | none => .error .key
    | some r => .ok (h.set o { h o with nextList := t }, some r)

/-- `for r in rl:` run to the end with nothing else using the list: the resources delivered.
Recursion is over the keys still to be delivered. -/
def drain (d : Dict Resource) : List Str → Except ListErr (List Resource)
  | [] => .ok []
  | k :: t =>
    match dget d k with
    | none => .error .key
    | some r =>
      match drain d t with
      | .error e => .error e
      | .ok rs => .ok (r :: rs)

/-- resource_list.py 57-59 `__iter__`, run to the end. -/
def iterAll (d : Dict Resource) : Except ListErr (List Resource) := drain d (sortStr (dkeys d))

/-- resource_list.py 82-84 `ResourceListOrdered.__iter__`, run to the end. -/
def iterOrdered (d : Dict Resource) : List Resource := dvalues d

/-- The four lists of compare(). -/
structure Comparison where
  same : Dict Resource := []
  updated : Dict Resource := []
  deleted : Dict Resource := []
  created : Dict Resource := []
deriving DecidableEq, Repr

/-- resource_list.py 190-211: the three while loops of `compare`.  They are written as one loop:
once a cursor is `None` it stays so, the second loop runs only when the source cursor is `None` and
the third only when the destination cursor is. `fuel` bounds the number of rounds. -/
def cmpLoop : Nat → Heap → Nat → Nat → Option Resource → Option Resource → Comparison →
    Except ListErr (Heap × Comparison)
  | 0, _, _, _, _, _, _ => .error .fuel
  | n + 1, h, dst, src, dst_cur, src_cur, c =>
    match dst_cur, src_cur with
    | some dr, some sr =>
      if dr.uri = sr.uri then do
        let c ← (if dr.eq (some sr) then (dictAdd c.same dr false).map (fun d => { c with same := d })
          else (dictAdd c.updated sr false).map (fun d => { c with updated := d }))
        let (h, dst_cur) ← iterNext h dst
        let (h, src_cur) ← iterNext h src
        cmpLoop n h dst src dst_cur src_cur c
      else if dr.uri < sr.uri then do
        let d ← dictAdd c.deleted dr false
        let (h, dst_cur) ← iterNext h dst
        cmpLoop n h dst src dst_cur (some sr) { c with deleted := d }
      else do
        let d ← dictAdd c.created sr false
        let (h, src_cur) ← iterNext h src
        cmpLoop n h dst src (some dr) src_cur { c with created := d }
    | some dr, none => do
      let d ← dictAdd c.deleted dr false
      let (h, dst_cur) ← iterNext h dst
      cmpLoop n h dst src dst_cur none { c with deleted := d }
    | none, some sr => do
      let d ← dictAdd c.created sr false
      let (h, src_cur) ← iterNext h src
      cmpLoop n h dst src none src_cur { c with created := d }
    | none, none => .ok (h, c)

/-- resource_list.py 171-213 `compare`: `self` is object `dst`. -/
def compare (h : Heap) (dst src : Nat) : Except ListErr (Heap × Comparison) := do
  let h := sortedIter h dst
  let h := sortedIter h src
  let (h, dst_cur) ← iterNext h dst
  let (h, src_cur) ← iterNext h src
  cmpLoop ((h dst).dict.length + (h src).dict.length + 2) h dst src dst_cur src_cur {}

/-- resource_list.py 215-226 `hashes` as three flags (md5, sha-1, sha-256). -/
def listHashes (rs : List Resource) : List Str :=
  (if rs.any (·.md5.isSome) then [sMd5] else []) ++
  (if rs.any (·.sha1.isSome) then [sSha1] else []) ++
  (if rs.any (·.sha256.isSome) then [sSha256] else [])

end Resync
