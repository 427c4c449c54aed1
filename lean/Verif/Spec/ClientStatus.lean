import Verif.Model.ClientStatus
import Verif.Spec.Client
/-
What the status lines of a run ought to say (C77).
-/

namespace Resync.Spec
open Py

/-- so many URIs -/
def Count (P : Str → Prop) (n : Nat) : Prop := ∃ l : List Str, l.Nodup ∧ (∀ u, u ∈ l ↔ P u) ∧ l.length = n

/-- the file for this URI below the destination -/
def LocalFile (m : Map) (root : Loc) (fs : Fs) (u : Str) (content : Bytes) (mtime : Rat) : Prop :=
  ∃ names, names ≠ [] ∧ u = uriBelow m names ∧ IsFile fs (root ++ names) content mtime

/-- How a source list and a destination compare: so many listed resources whose file agrees with the list in time and length, so
many without a file, so many whose file does not agree, and so many files that are not listed -/
structure Compares (m : Map) (root : Loc) (src : Dict Resource) (fs : Fs) (same created updated deleted : Nat) : Prop where
  same : Count (fun u => ∃ r, (u, r) ∈ src ∧ ∃ b t, LocalFile m root fs u b t ∧ Agrees r b t) same
  created : Count (fun u => (∃ r, (u, r) ∈ src) ∧ ∀ b t, ¬ LocalFile m root fs u b t) created
  updated : Count (fun u => ∃ r, (u, r) ∈ src ∧ ∃ b t, LocalFile m root fs u b t ∧ ¬ Agrees r b t) updated
  deleted : Count (fun u => (∀ r, (u, r) ∉ src) ∧ ∃ b t, LocalFile m root fs u b t) deleted

/-- the line before anything is done -/
def auditLine (status : String) (same created updated deleted : Nat) : Str :=
  "Status: ".toList ++ status.toList ++ " (same=".toList ++ natStr same ++ ", to create=".toList ++ natStr created ++
    ", to update=".toList ++ natStr updated ++ ", to delete=".toList ++ natStr deleted ++ ")".toList

/-- the line afterwards; `word` is what is said about the last number -/
def doneLine (status word : String) (same created updated deleted : Nat) : Str :=
  "Status: ".toList ++ status.toList ++ " (same=".toList ++ natStr same ++ ", created=".toList ++ natStr created ++
    ", updated=".toList ++ natStr updated ++ ", ".toList ++ word.toList ++ "=".toList ++ natStr deleted ++ ")".toList

/-- a line of an incremental sync -/
def changesLine (status : String) (created updated deleted : Nat) : Str :=
  "Status: ".toList ++ status.toList ++ " (created=".toList ++ natStr created ++
    ", updated=".toList ++ natStr updated ++ ", deleted=".toList ++ natStr deleted ++ ")".toList

/-- a file is removed -/
def isRemoval : Effect → Bool
  | .unlink _ => true
  | _ => false

/-- the number of files removed -/
def removals (es : List Effect) : Nat := es.countP isRemoval

end Resync.Spec
