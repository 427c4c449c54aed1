import Verif.Spec.Disk
/-
The same directory tree, its entries found in another order.
-/

namespace Resync.Spec
open Py

/-- the directory entries in another order, in the directory itself or in those below it -/
inductive Reordered : List FNode → List FNode → Prop
  | perm {cs cs' : List FNode} : cs.Perm cs' → Reordered cs cs'
  | inside {a b ds ds' : List FNode} {name : Str} : Reordered ds ds' → Reordered (a ++ .dir name true ds :: b) (a ++ .dir name true ds' :: b)
  | trans {cs cs' cs'' : List FNode} : Reordered cs cs' → Reordered cs' cs'' → Reordered cs cs''

end Resync.Spec
