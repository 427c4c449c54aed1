import Verif.Model.Hashes
/-
hashes.py: one Hashes object used for several files, as a caller of the API may do.
-/

namespace Resync
open Py

/-- hashes.py 68-87: the object after a call of `compute_for_file`, also when the call raises because the file
cannot be opened (75, 76: the calculators have been made anew by then) -/
def HashObj.tried (o : HashObj) (content : Option Bytes) (block_size : Int := 16384) : HashObj :=
  match o.computeForFile content block_size with
  | .ok o' => o'
  | .error _ => o.init

/-- hashes.py 68-87: the object after calls of `compute_for_file` for several files, one after the other -/
def HashObj.triedAll (o : HashObj) (files : List (Option Bytes × Int)) : HashObj :=
  files.foldl (fun o f => o.tried f.1 f.2) o

end Resync
