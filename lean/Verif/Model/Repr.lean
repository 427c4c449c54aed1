import Verif.Py.Repr
import Verif.Model.ClientLog
import Verif.Model.Logging
/-
The representation of a Resource object, resource.py 494-506, and the events of client.py 240-242.

`Resource` of Model/Resource.lean has the values of the attributes.  The text shows more: the dict `_extra` with its order and its
items of value None, so here is the object as it is stored.
-/

namespace Resync
open Py

/-- resource.py 56-58 and 79-91: the object: its slots, and the dict `_extra` if there is one.
The value of an extra attribute is a string, a number or None: `none`.  An object without URI cannot be made (148-149). -/
structure ResObj where
  uri : Str
  timestamp : Option Rat := none
  length : Option Int := none
  mime_type : Option Str := none
  md5 : Option Str := none
  sha1 : Option Str := none
  sha256 : Option Str := none
  change : Option Str := none
  ts_datetime : Option Rat := none
  path : Option Str := none
  ln : Option (List Link) := none
  extra : Option (Dict (Option (Str ⊕ Rat))) := none
deriving DecidableEq, Repr

/-- resource.py 169-174 `_set_extra` -/
def ResObj.setExtra (o : ResObj) (name : Str) (v : Option (Str ⊕ Rat)) : ResObj :=
  { o with extra := some (dset (o.extra.getD []) name v) }

/-- resource.py 176-180 `_get_extra` -/
def ResObj.getExtra (o : ResObj) (name : Str) : Option (Str ⊕ Rat) :=
  match o.extra with
  | none => none
  | some d => (dget d name).join

/-- resource.py 97-98 the attributes of `_extra` that are copied, in this order -/
def copiedExtras : List Str :=
  ["capability".toList, "ts_at".toList, "ts_completed".toList, "ts_from".toList, "ts_until".toList]

/-- resource.py 62-149 `Resource(resource=o, change=change)`: all these attributes are properties (202-270), so `hasattr` is true also of
those never set, which are set to None.  `change` must be one of CHANGE_TYPES, as it is where this is called. -/
def ResObj.copy (o : ResObj) (change : Option Str) : ResObj :=
  let c := copiedExtras.foldl (fun c n => c.setExtra n (o.getExtra n)) { o with extra := none }
  match change with
  | some ch => { c with change := some ch }
  | none => c

/-- resource.py 501-505 the value of each slot as `repr` sees it; `num` is `repr` of a time (a float, or an int for whole seconds) -/
def ResObj.slots (num : Rat → Str) (o : ResObj) : List (Str × Option Val) :=
  let str (v : Option Str) : Option Val := v.map (fun s => .scalar (.str s))
  [("uri".toList, str (some o.uri)),
   ("timestamp".toList, o.timestamp.map (fun t => .scalar (.word (num t)))),
   ("length".toList, o.length.map (fun n => .scalar (.word (intStr n)))),
   ("mime_type".toList, str o.mime_type),
   ("md5".toList, str o.md5),
   ("sha1".toList, str o.sha1),
   ("sha256".toList, str o.sha256),
   ("change".toList, str o.change),
   ("ts_datetime".toList, o.ts_datetime.map (fun t => .scalar (.word (num t)))),
   ("path".toList, str o.path),
   ("ln".toList, o.ln.map (fun l => .list (l.map (fun d => d.map (fun p => (p.1, .str p.2)))))),
   ("_extra".toList, o.extra.map (fun d => .dict (d.map (fun p => (p.1,
      match p.2 with
      | none => .word "None".toList
      | some (.inl s) => .str s
      | some (.inr t) => .word (num t))))))]

/-- resource.py 494-506 `__repr__` -/
def ResObj.repr (printable : Char → Bool) (num : Rat → Str) (o : ResObj) : Str :=
  "{".toList ++
    join ", ".toList ((o.slots num).filterMap (fun p => p.2.map (fun v => strRepr printable p.1 ++ ": ".toList ++ v.repr printable))) ++
    "}".toList

/-- the values of the attributes -/
def ResObj.view (o : ResObj) : Resource where
  uri := o.uri
  timestamp := o.timestamp
  length := o.length
  mime_type := o.mime_type
  md5 := o.md5
  sha1 := o.sha1
  sha256 := o.sha256
  change := o.change
  ts_datetime := o.ts_datetime
  path := o.path
  ln := o.ln
  capability := (o.getExtra "capability".toList).bind (·.getLeft?)
  ts_at := (o.getExtra "ts_at".toList).bind (·.getRight?)
  ts_completed := (o.getExtra "ts_completed".toList).bind (·.getRight?)
  ts_from := (o.getExtra "ts_from".toList).bind (·.getRight?)
  ts_until := (o.getExtra "ts_until".toList).bind (·.getRight?)

/-- client.py 539 and 604-607: the object given to log_event is always such a copy; here from the values of its attributes -/
def eventObj (r : Resource) : ResObj where
  uri := r.uri
  timestamp := r.timestamp
  length := r.length
  mime_type := r.mime_type
  md5 := r.md5
  sha1 := r.sha1
  sha256 := r.sha256
  change := r.change
  ts_datetime := r.ts_datetime
  path := r.path
  ln := r.ln
  extra := some
    [("capability".toList, r.capability.map .inl), ("ts_at".toList, r.ts_at.map .inr), ("ts_completed".toList, r.ts_completed.map .inr),
     ("ts_from".toList, r.ts_from.map .inr), ("ts_until".toList, r.ts_until.map .inr)]

/-- client.py 242 `repr(change)` -/
def eventText (printable : Char → Bool) (num : Rat → Str) (r : Resource) : Str := (eventObj r).repr printable num

end Resync
