import Verif.Model.Resource
/-
Model of the named links of /repo/resync/resource.py: describedby, up, index and contents.
-/

namespace Resync
open Py

/-- the links with a property of their own -/
inductive NamedLink
  | describedby | up | index | contents
deriving DecidableEq, Repr

/-- resource.py 384-425: the rel of the link -/
def NamedLink.rel : NamedLink → Str
  | .describedby => "describedby".toList
  | .up => "up".toList
  | .index => "index".toList
  | .contents => "contents".toList

/-- resource.py 384-387, 394-397, 404-407, 414-417: reading the property -/
def Resource.named (r : Resource) (n : NamedLink) : Except ResErr (Option Str) := r.linkHref n.rel

/-- resource.py 389-392, 399-402, 409-412, 419-425: assigning to the property; `contents` also sets the type of the link -/
def Resource.setNamed (r : Resource) (n : NamedLink) (uri : Str) : Resource :=
  match n with
  | .contents => r.linkSet n.rel uri false [("type".toList, "application/xml".toList)]
  | _ => r.linkSet n.rel uri false []

end Resync
