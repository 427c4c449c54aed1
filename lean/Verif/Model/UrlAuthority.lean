import Verif.Py.Url
import Verif.Py.Posix
/-
Model of /repo/resync/url_authority.py.
-/

namespace Resync
open Py

/-- url_authority.py 36-52: object state. -/
structure UrlAuthority where
  strict : Bool
  master_scheme : Str
  master_netloc : Str
  master_path : Str
deriving DecidableEq, Repr

/-- url_authority.py 36-52 `__init__` / `set_master`; `none` is the `ValueError` of `urlparse`. -/
def UrlAuthority.new (url : Option Str) (strict : Bool) : Option UrlAuthority :=
  match url with
  | some u =>
    match urlparse u with
    | none => none
    | some m => some ⟨strict, m.scheme, m.netloc, dirname m.path⟩
  | none =>
    some ⟨strict, "none".toList, "none.none.none".toList, "/not/very/likely".toList⟩

/-- url_authority.py 54-73 `has_authority_over`; `none` is the `ValueError` of `urlparse`. -/
def UrlAuthority.hasAuthorityOver (a : UrlAuthority) (url : Str) : Option Bool :=
  match urlparse url with
  | none => none
  | some s =>
    if s.scheme ≠ a.master_scheme then some false
    else if s.netloc ≠ a.master_netloc ∧ ¬ endsWith s.netloc ('.' :: a.master_netloc) then
      some false
    else
      let path := dirname s.path
      if a.strict ∧ path ≠ a.master_path ∧ ¬ startsWith path a.master_path then some false
      else some true

end Resync
