import Verif.Model.Builder
/-
Model of the exclude patterns of a builder over its life, /repo/resync/resource_list_builder.py 60-83: patterns are added by any
number of calls, and a call that fails leaves its mark.
-/

namespace Resync
open Py

/-- resource_list_builder.py 52 and 57: exclude_patterns and compiled_exclude_patterns -/
structure Excludes where
  patterns : List Str := []
  compiled : List Re := []

/-- resource_list_builder.py 70-76: the loop of `_compile_excludes`, with what has been compiled when it ends -/
def compileLoop : List Str → List Re → List Re × Except BuildErr Unit
  | [], done => (done, .ok ())
  | p :: ps, done =>
    match compile p with
    | .ok r => compileLoop ps (done ++ [r])
    | .error .bad => (done, .error .value)
    | .error .outside => (done, .error .outside)

/-- resource_list_builder.py 60-67 `add_exclude_patterns` -/
def Excludes.add (e : Excludes) (ps : List Str) : Excludes × Except BuildErr Unit :=
  let all := e.patterns ++ ps
  let (done, res) := compileLoop all []
  ({ patterns := all, compiled := done }, res)

/-- resource_list_builder.py 78-83 `_exclude` -/
def Excludes.exclude (e : Excludes) (file : Str) : Bool := e.compiled.any (fun p => (p.matchStart file).isSome)

/-- a builder's excludes after calls of add_exclude_patterns, with what each call did -/
def Excludes.calls : List (List Str) → Excludes → Excludes × List (Except BuildErr Unit)
  | [], e => (e, [])
  | ps :: rest, e =>
    let (e, res) := e.add ps
    let t := Excludes.calls rest e
    (t.1, res :: t.2)

end Resync
