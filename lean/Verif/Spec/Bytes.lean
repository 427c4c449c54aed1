import Verif.Spec.Text
import Verif.Model.SitemapBytes
/-
Specification vocabulary for documents as bytes (C98).
-/

namespace Resync.Spec
open Py

/-- `p` is what there is of `b` when writing or transferring it stopped before the end -/
def CutOffBytes (p b : Bytes) : Prop := ∃ q, q ≠ [] ∧ b = p ++ q

/-- the names under which the encoding may be declared -/
def Utf8Name (enc : Str) : Prop := enc = "utf-8".toList ∨ enc = "UTF-8".toList

/-- a document that a Sitemap object with these settings makes of lists of resources, names of attributes being XML names -/
def Written (s : Sitemap) (doc : Elem) : Prop :=
  ∃ md ln rs index, AttNames md ∧ (∀ l ∈ ln, AttNames l) ∧ (∀ l ∈ EntryLinks rs, AttNames l) ∧ resourcesAsXml s md ln rs index = .ok doc

/-- the bytes of a document in a file -/
def bytesOf (s : Sitemap) (enc : Str) (doc : Elem) : Bytes := utf8Encode (writeXml enc (sitemapTails s) doc)

/-- What a file of a certain state can hold: an incomplete file holds the first part of the bytes of a document, which may end in the
middle of a character. -/
inductive HoldsBytes (s : Sitemap) (enc : Str) : Option FileState → Option Bytes → Prop
  | missing : HoldsBytes s enc none none
  /-- some other file -/
  | other (p : Bytes) : readBytes p = none → HoldsBytes s enc none (some p)
  | part (doc : Elem) (p : Bytes) : Written s doc → CutOffBytes p (bytesOf s enc doc) → HoldsBytes s enc (some .incomplete) (some p)
  | whole (doc : Elem) : Written s doc → HoldsBytes s enc (some (.complete doc)) (some (bytesOf s enc doc))

/-- what a reader makes of the bytes found at URIs and paths -/
def docsOf (bytesAt : Str → Option Bytes) (uri : Str) : Option Elem := (bytesAt uri).bind readBytes

/-- The bytes of files after these events: an opened file is empty, a finished one holds the bytes of the document. -/
def runBytes (s : Sitemap) (enc : Str) (disk : Str → Option Bytes) : List FsEff → Str → Option Bytes
  | [] => disk
  | .openW f :: t => runBytes s enc (fun g => if g = f then some [] else disk g) t
  | .finish f d :: t => runBytes s enc (fun g => if g = f then some (bytesOf s enc d) else disk g) t

/-- There is nothing at this URI, or only the first part of a document -/
def Unavailable (bytesAt : Str → Option Bytes) (u : Str) : Prop :=
  bytesAt u = none ∨ ∃ p s enc doc, bytesAt u = some p ∧ Utf8Name enc ∧ Written s doc ∧ CutOffBytes p (bytesOf s enc doc)

end Resync.Spec
