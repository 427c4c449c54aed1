import Verif.Model.CommandLine
open Py Resync
def unenc (s : String) : Str := if s.isEmpty then [] else (s.splitOn ",").map (fun n => Char.ofNat n.toNat!)
def enc (s : Str) : String := ",".intercalate (s.map (fun c => toString c.toNat))
def pyint (s : Str) : Option Int := (String.ofList s).toInt?
def pyfloat (s : Str) : Option Int := if s = "-5.5".toList then some (-5) else if s = "1.0".toList ∨ s = "1.1".toList then some 1 else pyint s
def shw (ns : Dict ArgVal) (m : List Str) : String :=
  let items := (ns.filter (fun e => ¬ (e.1 = "spec_version".toList ∧ e.2 = .str "1.1".toList))).map (fun e =>
    String.ofList e.1 ++ "=" ++ (match e.2 with
    | .yes => "yes" | .str s => "S" ++ enc s | .int n => "I" ++ toString n | .float n => "F" ++ toString n
    | .list l => "L" ++ "/".intercalate (l.map enc)))
  " ".intercalate (items.toArray.qsort (· < ·)).toList ++ "|" ++ "/".intercalate (m.map enc)
def main : IO Unit := do
  let txt ← IO.FS.readFile "/tmp/argp/cases.txt"
  let mut bad := 0
  let mut n := 0
  for line in txt.splitOn "\n" do
    match line.splitOn "\t" with
    | [nm, a, r] =>
      let argv := if a.isEmpty then [] else (a.splitOn ";").map (fun s => unenc (s.drop 1).toString)
      let p := if nm = "syncParser" then syncParser else if nm = "buildParser" then buildParser else exploreParser
      let res := match p.parse ⟨pyint, pyfloat⟩ argv with
        | .error .usage => "U" | .error .help => "H" | .ok (ns, m) => shw ns m
      n := n + 1
      if res ≠ r then
        bad := bad + 1
        if bad < 12 then IO.println s!"{nm} {argv.map String.ofList} py {r} lean {res}"
    | _ => pure ()
  IO.println s!"{n} cases {bad} differences"
#eval main
