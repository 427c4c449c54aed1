import Verif.Py.Str
/-
Web URLs written out, for stating authority properties without `urlparse`.
-/

namespace Resync.Spec

def noneOf (cs : List Char) (s : Str) : Prop := ∀ c ∈ s, c ∉ cs

/-- A lower case scheme name. -/
def SchemeName (s : Str) : Prop :=
  (∃ c t, s = c :: t ∧ c ∈ "abcdefghijklmnopqrstuvwxyz".toList) ∧
  ∀ c ∈ s, c ∈ "abcdefghijklmnopqrstuvwxyz0123456789+-.".toList

/-- A host (with optional port): none of the delimiters. -/
def HostName (s : Str) : Prop := noneOf "/?#[]\t\r\n".toList s

/-- The directory part and the last segment of a URL path: `dir ++ "/" ++ file`. -/
def DirName (s : Str) : Prop := s = [] ∨ (∃ t, s = '/' :: t)

/-- `scheme://host dir / file` -/
def webUrl (scheme host dir file : Str) : Str :=
  scheme ++ "://".toList ++ host ++ dir ++ '/' :: file

/-- No query, fragment, parameter or line break characters. -/
def PlainPath (s : Str) : Prop := noneOf "?#;\t\r\n".toList s

/-- `h` is the host `m` or a sub-domain of it. -/
def SameOrSubDomain (h m : Str) : Prop := h = m ∨ ∃ sub, h = sub ++ '.' :: m

end Resync.Spec
