import Verif.Py.Str
/-
What a path denotes: the list of directory names from the root.  (Symbolic links are not
considered.)  Independent of the model of `os.path`.
-/

namespace Resync.Spec

/-- walk from directory `cur` along path components -/
def walkFrom (cur : List Str) : List Str → List Str
  | [] => cur
  | c :: cs =>
    if c = [] ∨ c = ['.'] then walkFrom cur cs
    else if c = ['.', '.'] then walkFrom cur.dropLast cs
    else walkFrom (cur ++ [c]) cs

/-- The location denoted by path `p` for a process whose current directory is `cwd`. -/
def location (cwd : List Str) (p : Str) : List Str :=
  match p with
  | '/' :: _ => walkFrom [] (Py.splitOn '/' p)
  | _ => walkFrom cwd (Py.splitOn '/' p)

/-- location `p` is the directory `d` or below it -/
def Within (d p : List Str) : Prop := d <+: p

end Resync.Spec
