import Verif.Spec.ClientStatus
/-
What allowing deletions may change about a run (C123).
-/

namespace Resync.Spec
open Py

/-- The run from `s` to `b` did what the run from `s` to `a` did, and removed some more files, after everything else except
that the state was recorded at the very end.  The files removed are there after the other run; everything else on the disk, the
state recorded and the times seen are the same. -/
structure OnlyRemoves (s a b : St) : Prop where
  done : ∃ work gone last, doneBetween s a = work ++ last ∧ doneBetween s b = work ++ gone ++ last ∧
    (∀ e ∈ gone, ∃ l, e = .unlink l ∧ HasFile a.world.fs l) ∧ (∀ e ∈ work ++ last, isRemoval e = false) ∧
    (last = [] ∨ ∃ text, last = [.setState text]) ∧
    ∀ l, b.world.fs.get l = if .unlink l ∈ gone then none else a.world.fs.get l
  state : b.world.state = a.world.state
  hashes : b.hashes = a.hashes
  last_timestamp : b.last_timestamp = a.last_timestamp

end Resync.Spec
