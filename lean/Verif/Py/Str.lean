/-
Python strings as lists of Unicode scalar values, and the few `str` methods the
code of /repo/resync uses.  Models CPython behaviour (trusted), not /repo code.
-/

/-- A Python `str`.  Lone surrogates are not modelled. -/
abbrev Str := List Char

deriving instance DecidableEq for Except

namespace Py

/-- `s.split(c)` for a one-character separator: always at least one piece. -/
def splitOn (c : Char) : Str → List Str
  | [] => [[]]
  | x :: xs =>
    if x = c then [] :: splitOn c xs
    else
      match splitOn c xs with
      | h :: t => (x :: h) :: t
      | [] => [[x]]

/-- `sep.join(parts)`. -/
def join (sep : Str) : List Str → Str
  | [] => []
  | [a] => a
  | a :: b :: t => a ++ sep ++ join sep (b :: t)

/-- `s.startswith(p)`. -/
def startsWith (s p : Str) : Bool := p.isPrefixOf s

/-- `s.endswith(p)`. -/
def endsWith (s p : Str) : Bool := p.isSuffixOf s

/-- Python's ASCII part of `str.isspace`, as used by `str.split()` without
arguments.  Non-ASCII white space (U+0085, U+00A0, U+1680, U+2000–200A, U+2028,
U+2029, U+202F, U+205F, U+3000) is included as well. -/
def isSpace (c : Char) : Bool :=
  let n := c.toNat
  (9 ≤ n && n ≤ 13) || (28 ≤ n && n ≤ 32) || n == 0x85 || n == 0xA0 || n == 0x1680 ||
  (0x2000 ≤ n && n ≤ 0x200A) || n == 0x2028 || n == 0x2029 || n == 0x202F || n == 0x205F ||
  n == 0x3000

/-- `s.split()`: maximal runs of non-space characters. `cur` is the (reversed) current run. -/
def splitWsAux : Str → Str → List Str
  | cur, [] => if cur = [] then [] else [cur.reverse]
  | cur, x :: xs =>
    if isSpace x then
      (if cur = [] then splitWsAux [] xs else cur.reverse :: splitWsAux [] xs)
    else splitWsAux (x :: cur) xs

/-- `s.split()`. -/
def splitWs (s : Str) : List Str := splitWsAux [] s

/-- `s.split(c, 1)`: `(head, some tail)` when the separator occurs. -/
def split1 (c : Char) : Str → Str × Option Str
  | [] => ([], none)
  | x :: xs =>
    if x = c then ([], some xs)
    else
      let r := split1 c xs
      (x :: r.1, r.2)

/-- `s.lstrip(chars)`. -/
def lstripChars (cs : Str) (s : Str) : Str := s.dropWhile (fun c => cs.contains c)

/-- ASCII decimal digit. -/
def isDigit (c : Char) : Bool := decide ('0'.toNat ≤ c.toNat) && decide (c.toNat ≤ '9'.toNat)

/-- value of an ASCII digit -/
def digitVal (c : Char) : Nat := c.toNat - 48

/-- the digit character of `n % 10` -/
def digitChar (n : Nat) : Char := Char.ofNat (48 + n % 10)

/-- Decimal digits of `n`, least significant first (at least one digit), by fuel. -/
def digitsRev : Nat → Nat → Str
  | 0, n => [digitChar n]
  | f + 1, n => if n < 10 then [digitChar n] else digitChar n :: digitsRev f (n / 10)

/-- `str(n)` for a natural number. -/
def natStr (n : Nat) : Str := (digitsRev n n).reverse

/-- `"%0<w>d" % n` for a natural number. -/
def natPad (w n : Nat) : Str :=
  let d := natStr n
  List.replicate (w - d.length) '0' ++ d

/-- exactly `w` low-order decimal digits of `n` (`"%0wd"` when `n < 10^w`). -/
def fixedDigits : Nat → Nat → Str
  | 0, _ => []
  | w + 1, n => fixedDigits w (n / 10) ++ [digitChar n]

/-- value of a string of digits (non digits count as what `digitVal` says; callers check). -/
def digitsVal (s : Str) : Nat := s.foldl (fun a c => 10 * a + digitVal c) 0

end Py
