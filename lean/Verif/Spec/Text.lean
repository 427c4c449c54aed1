import Verif.Spec.Sitemap
import Verif.Spec.ListIndex
/-
Specification vocabulary for documents as text (C95, C96).
-/

namespace Resync.Spec
open Py

/-- attributes whose names can stand in an XML document -/
def AttNames (d : Dict Str) : Prop := ∀ k ∈ dkeys d, isXmlName k = true

/-- all the links of the entries -/
def EntryLinks (rs : List Resource) : List (Dict Str) := rs.flatMap (fun r => r.ln.getD [])

/-- names of encodings: letters, digits, `-`, `_` and `.` -/
def EncodingName (enc : Str) : Prop := ∀ c ∈ enc, isNameChar c = true

/-- `p` is what there is of `t` when writing it stopped before the end -/
def CutOff (p t : Str) : Prop := ∃ q, q ≠ [] ∧ t = p ++ q

/-- What a file of a certain state can hold, when documents have the texts `text` and the documents being written are among
`docs`: an incomplete file holds the first part of the text of one of them. -/
inductive Holds (text : Elem → Str) (docs : Elem → Prop) : Option FileState → Option Str → Prop
  | missing : Holds text docs none none
  | part (doc : Elem) (p : Str) : docs doc → CutOff p (text doc) → Holds text docs (some .incomplete) (some p)
  | whole (doc : Elem) : docs doc → Holds text docs (some (.complete doc)) (some (text doc))

end Resync.Spec
