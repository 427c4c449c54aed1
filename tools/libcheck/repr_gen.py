"""Random strings with CPython's repr of them, as a Lean file comparing them with Py.strRepr: print to a file and run it with lake env lean."""
import random
random.seed(5)
pool=["'",'"','\\','\t','\n','\r','\x00','\x1f','\x7f','\x80','\xa0','\xad','é','ÿ','Ā','\u2028','中','\ufeff','😀','\U000e0001','a','x','0',' ',',','~','\U0010ffff','\u0378']
ss=[[random.choice(pool) for _ in range(random.randrange(0,7))] for _ in range(600)]+[[c] for c in pool]
f=lambda s:"["+",".join(str(ord(c)) for c in s)+"]"
pr=[ord(c) for c in pool if ord(c)>126 and c.isprintable()]
print("import Verif.Py.Repr\nopen Py")
print("def mk (l : List Nat) : List Char := l.map Char.ofNat")
print("def pr (c : Char) : Bool := c.toNat ∈ (%s : List Nat)"%pr)
print("def cases : List (List Nat × List Nat) := [")
print(",\n".join("(%s,%s)"%(f(s),f(repr("".join(s)))) for s in ss))
print("]\n#eval (cases.length, (cases.filter (fun p => strRepr pr (mk p.1) ≠ mk p.2)).length)")
