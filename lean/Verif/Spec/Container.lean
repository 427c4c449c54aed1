import Verif.Model.Container
import Verif.Spec.W3C
import Verif.Spec.Sitemap
/-
What using the accessors of a container means (C76): a history of assignments, and what the last
assignment to a slot says.
-/

namespace Resync.Spec
open Py

/-- what can be read from a container: five attributes, and the href of the link with a given rel
(`describedby`, `up` and `index` are the links with these rels) -/
inductive Slot
  | capability | md_from | md_until | md_at | md_completed
  | link (rel : Str)
deriving DecidableEq

/-- one assignment, `container.capability = v` … `container.index = uri`, or
`container.link_set(rel, href, **atts)`; `clock` is the time at which it is executed -/
inductive Assign
  | capability (v : Option Str)
  | md_from (v : TimeArg) (clock : Rat)
  | md_until (v : TimeArg) (clock : Rat)
  | md_at (v : TimeArg) (clock : Rat)
  | md_completed (v : TimeArg) (clock : Rat)
  | describedby (uri : Str)
  | up (uri : Str)
  | index (uri : Str)
  | link_set (rel href : Str) (atts : List (Str × Str))

/-- what an assignment assigns to -/
def Assign.slot : Assign → Slot
  | .capability _ => .capability
  | .md_from _ _ => .md_from
  | .md_until _ _ => .md_until
  | .md_at _ _ => .md_at
  | .md_completed _ _ => .md_completed
  | .describedby _ => .link "describedby".toList
  | .up _ => .link "up".toList
  | .index _ => .link "index".toList
  | .link_set rel _ _ => .link rel

/-- the text is a W3C datetime for the time, to the microsecond -/
def TimeText (s : Str) (t : Rat) : Prop := ∃ v, Denotes s v ∧ t - 1 / 1000000 < v ∧ v < t + 1 / 1000000

/-- what a time argument stands for: None for nothing, 'now' for the present, other text for
itself, a number for a text with that time -/
def SaysTime (v : TimeArg) (clock : Rat) (text : Option Str) : Prop :=
  match v with
  | .none => text = none
  | .number t => ∃ s, text = some s ∧ TimeText s t
  | .text x => if x = "now".toList then ∃ s, text = some s ∧ TimeText s clock else text = some x

/-- the text is what the assignment assigns -/
def Assign.Says (a : Assign) (text : Option Str) : Prop :=
  match a with
  | .capability v => text = v
  | .md_from v clock | .md_until v clock | .md_at v clock | .md_completed v clock => SaysTime v clock text
  | .describedby uri | .up uri | .index uri => text = some uri
  | .link_set _ href _ => text = some href

/-- the last assignment to a slot in a history -/
def lastTo (slot : Slot) (history : List Assign) : Option Assign :=
  history.reverse.find? (fun a => a.slot = slot)

/-- an attribute of a link, with its value, that the format can express -/
def AttOk (kv : Str × Str) : Prop :=
  XmlOk kv.2 ∧ (kv.1 ∈ ["hash".toList, "modified".toList, "path".toList, "mime_type".toList] ∨
    (kv.1 = "length".toList ∧ ∃ n : Int, kv.2 = intStr n) ∨
    (kv.1 = "pri".toList ∧ ∃ n : Int, 1 ≤ n ∧ n ≤ 999999 ∧ kv.2 = intStr n))

/-- the characters of a time argument can be expressed in XML -/
def TimeArgOk : TimeArg → Prop
  | .text x => XmlOk x
  | _ => True

/-- the format can express what the assignment assigns -/
def Assign.Ok : Assign → Prop
  | .capability v => ∀ x, v = some x → XmlOk x
  | .md_from v _ | .md_until v _ | .md_at v _ | .md_completed v _ => TimeArgOk v
  | .describedby uri | .up uri | .index uri => XmlOk uri
  | .link_set rel href atts => XmlOk rel ∧ XmlOk href ∧ ∀ kv ∈ atts, AttOk kv

end Resync.Spec
