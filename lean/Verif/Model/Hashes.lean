import Verif.Model.Resource
/-
Model of /repo/resync/hashes.py.

A hashlib object is modelled by the bytes it has been fed: by hashlib's contract update(a); update(b) is
update(a + b), and hexdigest() is a function of the bytes (`HashLib`).  Files are regular files: read(n)
returns n bytes, or what is left.
-/

namespace Resync
open Py

abbrev Bytes := List UInt8

/-- hashlib: the hex digest of some bytes -/
structure HashLib where
  md5 : Bytes → Str
  sha1 : Bytes → Str
  sha256 : Bytes → Str

inductive HashErr
  /-- Exception "Hash type ... not supported" -/
  | unsupported
  /-- OSError of open() -/
  | os
deriving DecidableEq, Repr

/-- hashes.py 39-57: a Hashes object; `hashes` is a set, the calculators hold what they were fed. -/
structure HashObj where
  hashes : List Str
  md5_calc : Option Bytes := none
  sha1_calc : Option Bytes := none
  sha256_calc : Option Bytes := none
deriving DecidableEq, Repr

/-- hashes.py 36: the keys of NAME_TO_ATTRIBUTE -/
def hashNames : List Str := [sMd5, sSha1, sSha256]

/-- hashes.py 43-48: the loop of `__init__` (the set, with the latest first) -/
def hashSet : List Str → List Str → Except HashErr (List Str)
  | set, [] => .ok set
  | set, h :: t => if h ∈ hashNames then hashSet (if h ∈ set then set else h :: set) t else .error .unsupported

/-- hashes.py 59-66 `initialize_hashes` -/
def HashObj.init (o : HashObj) : HashObj :=
  { o with
    md5_calc := if sMd5 ∈ o.hashes then some [] else o.md5_calc
    sha1_calc := if sSha1 ∈ o.hashes then some [] else o.sha1_calc
    sha256_calc := if sSha256 ∈ o.hashes then some [] else o.sha256_calc }

/-- hashes.py 81-86: update() of the calculators -/
def HashObj.update (o : HashObj) (data : Bytes) : HashObj :=
  { o with
    md5_calc := o.md5_calc.map (· ++ data)
    sha1_calc := o.sha1_calc.map (· ++ data)
    sha256_calc := o.sha256_calc.map (· ++ data) }

/-- `f.read(block_size)` with `rest` still to be read: everything if the size is negative -/
def readBlock (block_size : Int) (rest : Bytes) : Bytes :=
  if block_size < 0 then rest else rest.take block_size.toNat

/-- hashes.py 77-86: the loop of compute_for_file -/
def HashObj.readLoop (block_size : Int) (o : HashObj) (rest : Bytes) : HashObj :=
  let data := readBlock block_size rest
  if h : data = [] then o
  else HashObj.readLoop block_size (o.update data) (rest.drop data.length)
termination_by rest.length
decreasing_by
  have h1 : 0 < (readBlock block_size rest).length := List.length_pos_iff.mpr h
  have h2 : rest ≠ [] := by
    rintro rfl
    apply h
    simp [data, readBlock]
  have h3 : 0 < rest.length := List.length_pos_iff.mpr h2
  simp only [List.length_drop]
  omega

/-- hashes.py 68-87 `compute_for_file`; `content` is the file's content, `none` if it cannot be opened -/
def HashObj.computeForFile (o : HashObj) (content : Option Bytes) (block_size : Int := 16384) : Except HashErr HashObj :=
  match content with
  | none => .error .os
  | some c => .ok (HashObj.readLoop block_size o.init c)

/-- hashes.py 39-57 `Hashes(hashes, file)` -/
def HashObj.new (hashes : List Str) (file : Option (Option Bytes)) : Except HashErr HashObj := do
  let set ← hashSet [] hashes
  match file with
  | none => .ok { hashes := set }
  | some content => HashObj.computeForFile { hashes := set } content

/-- hashes.py 98-117: the properties md5, sha1, sha256 -/
def HashObj.md5 (lib : HashLib) (o : HashObj) : Option Str := o.md5_calc.map lib.md5
def HashObj.sha1 (lib : HashLib) (o : HashObj) : Option Str := o.sha1_calc.map lib.sha1
def HashObj.sha256 (lib : HashLib) (o : HashObj) : Option Str := o.sha256_calc.map lib.sha256

/-- hashes.py 89-96 `set`: the loop over the set of hash names -/
def HashObj.setOn (lib : HashLib) (o : HashObj) (r : Resource) : Resource :=
  o.hashes.foldl (fun r h =>
    if h = sMd5 then { r with md5 := o.md5 lib }
    else if h = sSha1 then { r with sha1 := o.sha1 lib }
    else if h = sSha256 then { r with sha256 := o.sha256 lib }
    else r) r

end Resync
