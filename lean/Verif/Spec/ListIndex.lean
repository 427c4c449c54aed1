import Verif.Model.ListIndex
import Verif.Spec.Sitemap
/-
Specification vocabulary for lists in several files (C28–C32).  Shares with the model the record types,
the file events and the document trees.
-/

namespace Resync.Spec
open Py

/-- the consecutive runs of `m` elements of `l`, the last one possibly shorter -/
def slices {α : Type} (m : Nat) (l : List α) : List (List α) :=
  (List.range ((l.length + m - 1) / m)).map (fun i => (l.drop (i * m)).take m)

/-- the files that were completely written, in order -/
def written : List FsEff → List (Str × Elem)
  | [] => []
  | .openW _ :: t => written t
  | .finish f d :: t => (f, d) :: written t

/-- state of a file -/
inductive FileState
  /-- opened for writing but not completed -/
  | incomplete
  | complete (doc : Elem)

/-- the files after the events `tr` -/
def runFs (fs : Str → Option FileState) : List FsEff → Str → Option FileState
  | [] => fs
  | .openW f :: t => runFs (fun g => if g = f then some .incomplete else fs g) t
  | .finish f d :: t => runFs (fun g => if g = f then some (.complete d) else fs g) t

/-- the entries of a written sitemap or sitemapindex -/
def entries (name : String) (doc : Elem) : List Elem := doc.findall name.toList

/-- the URI of an entry -/
def entryUri (e : Elem) : Option Str := (e.findall "loc".toList).head?.bind Elem.text

/-- what parsing the file as XML gives; nothing when it is missing or incomplete -/
def fileDoc : Option FileState → Option Elem
  | some (.complete t) => reparse t
  | _ => none

/-- the same URIs, each with what a document records about it -/
def SameList (v10 addLastmod : Bool) (a b : Dict Resource) : Prop :=
  ∀ u, match dget a u, dget b u with
    | none, none => True
    | some x, some y => Recorded v10 addLastmod x y
    | _, _ => False

/-- a URI that can stand in an index and that a local reader maps back to the file `p` -/
structure PublishedAs (mp : Mapper) (uw : Char → Bool) (p u : Str) : Prop where
  out : mp.dstToSrc p = .ok u
  back : mp.srcToDst u = .ok p
  remote : isFileUri uw u = false
  ne : u ≠ []
  chars : XmlOk u
  cr : '\r' ∉ u

/-- a URI that can stand in an index and that is mapped back to the file `p` -/
structure MapsBack (mp : Mapper) (p u : Str) : Prop where
  out : mp.dstToSrc p = .ok u
  back : mp.srcToDst u = .ok p
  ne : u ≠ []
  chars : XmlOk u
  cr : '\r' ∉ u

end Resync.Spec
