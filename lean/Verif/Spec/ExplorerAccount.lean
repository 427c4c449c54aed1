import Verif.Model.ExplorerText
import Verif.Spec.Explorer
/-
Vocabulary for C88 (what the explorer says about documents) and C89 (where it starts).
-/

namespace Resync.Spec
open Py

/-- The kinds of documents a capability list leads to -/
def offeredByCapabilityList : List Str :=
  ["resourcelist".toList, "resourcedump".toList, "changelist".toList, "changedump".toList,
   "resourcelist-archive".toList, "resourcedump-archive".toList, "changelist-archive".toList, "changedump-archive".toList]

/-- A document of kind `doc` lists documents of kind `entry`: an index lists documents of the kind it is an index of (capability lists
have no index), an archive such documents as are archived, a source description capability lists, and a capability list the eight
others. -/
def MayList (doc entry : Str) : Prop :=
  (doc = entry ++ "index".toList ∧ entry ≠ [] ∧ entry ≠ "capabilitylist".toList) ∨
  (doc = entry ++ "-archive".toList ∧ entry ≠ []) ∨
  (doc = "description".toList ∧ entry = "capabilitylist".toList) ∨
  (doc = "capabilitylist".toList ∧ entry ∈ offeredByCapabilityList)

/-- The kinds of documents of the framework: source description, capability list, the four lists and dumps with their archives, and
the indexes of description, lists and dumps -/
def frameworkKinds : List Str :=
  ["description".toList, "descriptionindex".toList, "capabilitylist".toList,
   "resourcelist".toList, "changelist".toList, "resourcedump".toList, "changedump".toList,
   "resourcelistindex".toList, "changelistindex".toList, "resourcedumpindex".toList, "changedumpindex".toList,
   "resourcelist-archive".toList, "changelist-archive".toList, "resourcedump-archive".toList, "changedump-archive".toList]

/-- What is said about the kind of an entry of a document of kind `doc`: its kind, with the kinds expected if it is none of these; or
if it has none, what it should be if there is only one possibility -/
inductive KindRemark (doc : Str) : Option Str → List SumLine → Prop
  | fine {c : Str} : MayList doc c → KindRemark doc (some c) [.kind c none]
  | unexpected {c : Str} {kinds : List Str} : ¬ MayList doc c → (∀ x, x ∈ kinds ↔ MayList doc x) →
      KindRemark doc (some c) [.kind c (some kinds)]
  | implied {c : Str} : (∀ x, MayList doc x ↔ x = c) → KindRemark doc none [.shouldBe c]
  | nothing : (¬ ∃ c, ∀ x, MayList doc x ↔ x = c) → KindRemark doc none []

end Resync.Spec
