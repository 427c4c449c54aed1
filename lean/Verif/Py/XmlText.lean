import Verif.Py.Xml
/-
XML as text: what `ElementTree.write(..., encoding='unicode', method='xml')` writes for a tree, and
what the parser (expat, through xml.etree.ElementTree) reads from a text.  Models CPython ≥ 3.11 / expat
behaviour (trusted, compared with CPython in tools/libcheck), not /repo code.  `Verif/Py/Xml.lean` has the effect of writing
and reading on trees; `Verif/Proofs/XmlText.lean` proves that the two agree.

Not modelled, and counted as unreadable: document type declarations, names that are not ASCII.  Over-accepting: the content of
the XML declaration and of processing instructions is not looked at.
-/

namespace Py

/-! ### Writing -/

/-- `_escape_cdata`: the replacements are made one after the other, `&` first, which comes to the same -/
def escText (s : Str) : Str := s.flatMap (fun c =>
  if c = '&' then "&amp;".toList else if c = '<' then "&lt;".toList else if c = '>' then "&gt;".toList else [c])

/-- `_escape_attrib` -/
def escAttr (s : Str) : Str := s.flatMap (fun c =>
  if c = '&' then "&amp;".toList else if c = '<' then "&lt;".toList else if c = '>' then "&gt;".toList
  else if c = '"' then "&quot;".toList else if c = '\r' then "&#13;".toList else if c = '\n' then "&#10;".toList
  else if c = '\t' then "&#09;".toList else [c])

/-- ` name="value"` -/
def attText (kv : Str × Str) : Str := ' ' :: (kv.1 ++ '=' :: '"' :: (escAttr kv.2 ++ ['"']))

mutual
/-- `_serialize_xml` without the tail; `tails d tag` are the texts after the elements, which the trees do not hold -/
def writeElem (tails : Nat → Str → Str) (d : Nat) : Elem → Str
  | .mk tag att text ch =>
    '<' :: (tag ++ (att.flatMap attText ++
      (if (text.getD []).isEmpty && ch.isEmpty then " />".toList
       else '>' :: (escText (text.getD []) ++ (writeList tails (d + 1) ch ++ '<' :: '/' :: (tag ++ ['>']))))))
def writeList (tails : Nat → Str → Str) (d : Nat) : List Elem → Str
  | [] => []
  | e :: t => writeElem tails d e ++ (escText (tails d e.tag) ++ writeList tails d t)
end

/-- the XML declaration up to the name of the encoding, without its first two characters -/
def declHead : Str := "xml version='1.0' encoding='".toList

/-- the XML declaration -/
def xmlDecl (encoding : Str) : Str := '<' :: '?' :: ((declHead ++ encoding ++ ['\'']) ++ ['?', '>', '\n'])

/-- `ElementTree.write` with `xml_declaration=True` -/
def writeXml (encoding : Str) (tails : Nat → Str → Str) (root : Elem) : Str := xmlDecl encoding ++ writeElem tails 0 root

/-! ### Reading -/

def isWs (c : Char) : Bool := c == ' ' || c == '\t' || c == '\n' || c == '\r'

def dropWs (s : Str) : Str := s.dropWhile isWs

/-- characters of names with a prefix -/
def isQNameChar (c : Char) : Bool := isNameChar c || c == ':'

/-- the rest of a name; at the end of the text it is not known whether the name has ended -/
def readNameRest : Str → Option (Str × Str)
  | [] => none
  | c :: t => if isQNameChar c then (readNameRest t).map (fun p => (c :: p.1, p.2)) else some ([], c :: t)

/-- a name, possibly with a prefix -/
def readName : Str → Option (Str × Str)
  | [] => none
  | c :: t => if isNameStart c then (readNameRest t).map (fun p => (c :: p.1, p.2)) else none

/-- the text up to the first occurrence of a character, and what follows it -/
def readTo (stop : Char) : Str → Option (Str × Str)
  | [] => none
  | c :: t => if c = stop then some ([], t) else (readTo stop t).map (fun p => (c :: p.1, p.2))

/-- the text after the first occurrence of a non-empty text, together with what comes before -/
def readToStr (stop : Str) : Str → Option (Str × Str)
  | [] => none
  | c :: t => if startsWith (c :: t) stop then some ([], (c :: t).drop stop.length)
    else (readToStr stop t).map (fun p => (c :: p.1, p.2))

def hexDigit (c : Char) : Option Nat :=
  if isDigit c then some (c.toNat - '0'.toNat)
  else if 'a'.toNat ≤ c.toNat ∧ c.toNat ≤ 'f'.toNat then some (c.toNat - 'a'.toNat + 10)
  else if 'A'.toNat ≤ c.toNat ∧ c.toNat ≤ 'F'.toNat then some (c.toNat - 'A'.toNat + 10)
  else none

def hexVal : Nat → Str → Option Nat
  | n, [] => some n
  | n, c :: t => match hexDigit c with
    | some d => hexVal (16 * n + d) t
    | none => none

/-- the character with a number, if a document may contain it -/
def charOf (n : Nat) : Option Char :=
  if n.isValidChar ∧ isXmlChar (Char.ofNat n) then some (Char.ofNat n) else none

/-- what stands between `&` and `;` -/
def refValue (name : Str) : Option Char :=
  if name = "amp".toList then some '&'
  else if name = "lt".toList then some '<'
  else if name = "gt".toList then some '>'
  else if name = "quot".toList then some '"'
  else if name = "apos".toList then some '\''
  else match name with
    | '#' :: 'x' :: c :: t => (hexVal 0 (c :: t)).bind charOf
    | '#' :: c :: t => if (c :: t).all isDigit then charOf (digitsVal (c :: t)) else none
    | _ => none

/-- a reference, after `&` -/
def readRef (s : Str) : Option (Char × Str) :=
  match readTo ';' s with
  | none => none
  | some (name, r) => (refValue name).map (fun c => (c, r))

/-- an attribute value after the opening quote; white space becomes a space -/
def readValue (quote : Char) : Nat → Str → Option (Str × Str)
  | 0, _ => none
  | _ + 1, [] => none
  | n + 1, c :: t =>
    if c = quote then some ([], t)
    else if c = '<' then none
    else if c = '&' then
      match readRef t with
      | none => none
      | some (x, r) => (readValue quote n r).map (fun p => (x :: p.1, p.2))
    else (readValue quote n t).map (fun p => ((if isWs c then ' ' else c) :: p.1, p.2))

/-- `= "value"`, after the name of an attribute -/
def readEqValue (n : Nat) (s : Str) : Option (Str × Str) :=
  match dropWs s with
  | [] => none
  | c :: r =>
    if c = '=' then
      match dropWs r with
      | [] => none
      | d :: r => if d = '"' ∨ d = '\'' then readValue d n r else none
    else none

/-- attributes and the end of a start tag; the truth value says whether it is the tag of an empty element -/
def readAtts : Nat → Str → Option (Dict Str × Bool × Str)
  | 0, _ => none
  | n + 1, s =>
    match dropWs s with
    | [] => none
    | c :: t =>
      if c = '>' then some ([], false, t)
      else if c = '/' then
        match t with
        | [] => none
        | d :: r => if d = '>' then some ([], true, r) else none
      else if (c :: t).length = s.length then none
      else
        match readName (c :: t) with
        | none => none
        | some (k, r) =>
          match readEqValue n r with
          | none => none
          | some (v, r) => (readAtts n r).map (fun p => ((k, v) :: p.1, p.2))

/-- no name twice -/
def distinct : List Str → Bool
  | [] => true
  | k :: t => !t.contains k && distinct t

/-- text is None if there is none -/
def textOf (s : Str) : Option Str := if s = [] then none else some s

/-- a comment, after `<!--`: `--` may only stand at its end -/
def skipComment (s : Str) : Option Str :=
  match readToStr ['-', '-'] s with
  | none => none
  | some (_, []) => none
  | some (_, c :: r) => if c = '>' then some r else none

/-- a processing instruction, after `<?` -/
def skipPI (s : Str) : Option Str := (readToStr ['?', '>'] s).map Prod.snd

mutual
/-- an element, after `<`; names as they stand in the text -/
def readElem : Nat → Str → Option (Elem × Str)
  | 0, _ => none
  | n + 1, s =>
    match readName s with
    | none => none
    | some (tag, r) =>
      match readAtts n r with
      | none => none
      | some (att, empty, r) =>
        if ¬ distinct (dkeys att) then none
        else if empty then some (.mk tag att none [], r)
        else
          match readContent n r with
          | none => none
          | some (text, ch, r) =>
            match readName r with
            | none => none
            | some (tag', r) =>
              if tag' ≠ tag then none
              else
                match dropWs r with
                | [] => none
                | c :: r => if c = '>' then some (.mk tag att (textOf text) ch, r) else none
/-- the content of an element up to `</`: the text before the first child, the children, and what follows -/
def readContent : Nat → Str → Option (Str × List Elem × Str)
  | 0, _ => none
  | _ + 1, [] => none
  | n + 1, c :: t =>
    if c = '<' then
      match t with
      | [] => none
      | d :: r =>
        if d = '/' then some ([], [], r)
        else if d = '?' then (skipPI r).bind (readContent n)
        else if d = '!' then
          if startsWith r ['-', '-'] then (skipComment (r.drop 2)).bind (readContent n)
          else if startsWith r ['[', 'C', 'D', 'A', 'T', 'A', '['] then
            match readToStr [']', ']', '>'] (r.drop 7) with
            | none => none
            | some (x, r) => (readContent n r).map (fun p => (x ++ p.1, p.2))
          else none
        else
          match readElem n (d :: r) with
          | none => none
          | some (e, r) => (readContent n r).map (fun p => ([], e :: p.2.1, p.2.2))
    else if c = '&' then
      match readRef t with
      | none => none
      | some (x, r) => (readContent n r).map (fun p => (x :: p.1, p.2))
    else if startsWith (c :: t) [']', ']', '>'] then none
    else (readContent n t).map (fun p => (c :: p.1, p.2))
end

/-- what comes before the root element: white space, comments, processing instructions (the XML declaration is taken for one); the
rest begins after the `<` of the root -/
def readProlog : Nat → Str → Option Str
  | 0, _ => none
  | _ + 1, [] => none
  | n + 1, c :: t =>
    if isWs c then readProlog n t
    else if c = '<' then
      match t with
      | [] => none
      | d :: r =>
        if d = '?' then (skipPI r).bind (readProlog n)
        else if d = '!' then (if startsWith r ['-', '-'] then (skipComment (r.drop 2)).bind (readProlog n) else none)
        else some (d :: r)
    else none

/-- what may come after the root element -/
def epilogOk : Nat → Str → Bool
  | 0, _ => false
  | _ + 1, [] => true
  | n + 1, c :: t =>
    if isWs c then epilogOk n t
    else if c = '<' then
      match t with
      | [] => false
      | d :: r =>
        if d = '?' then ((skipPI r).map (epilogOk n)).getD false
        else if d = '!' then (if startsWith r ['-', '-'] then ((skipComment (r.drop 2)).map (epilogOk n)).getD false else false)
        else false
    else false

/-- a document as a tree with the names as they stand in it -/
def readRaw (s : Str) : Option Elem :=
  if s.all isXmlChar then
    let s := normalizeEol s
    match readProlog (s.length + 1) s with
    | none => none
    | some r =>
      match readElem (r.length + 1) r with
      | none => none
      | some (e, r) => if epilogOk (r.length + 1) r then some e else none
  else none

/-- namespaces in force, by prefix; `[]` is the prefix of the default namespace -/
abbrev NsEnv := Dict Str

/-- the declarations of an element added to the namespaces around it -/
def declare (env : NsEnv) (att : Dict Str) : NsEnv :=
  att.foldl (fun env kv => if kv.1 = sXmlns then dset env [] kv.2
    else if startsWith kv.1 "xmlns:".toList then dset env (kv.1.drop 6) kv.2 else env) env

/-- the name of an element -/
def resolveTag (env : NsEnv) (tag : Str) : Option Str :=
  match split1 ':' tag with
  | (l, none) => if isXmlName l then some (inNamespace ((dget env []).getD []) l) else none
  | (p, some l) => if isXmlName l then (dget env p).map (fun ns => inNamespace ns l) else none

/-- attributes with their names; the declarations are left out -/
def resolveAtts (env : NsEnv) : Dict Str → Option (Dict Str)
  | [] => some []
  | (k, v) :: t =>
    if isXmlnsAtt k then (if declOk k v then resolveAtts env t else none)
    else
      match split1 ':' k with
      | (l, none) => if isXmlName l then (resolveAtts env t).map (fun r => (l, v) :: r) else none
      | (p, some l) =>
        if isXmlName l then
          match dget env p with
          | none => none
          | some ns => (resolveAtts env t).map (fun r => (inNamespace ns l, v) :: r)
        else none

mutual
/-- a tree with names in their namespaces -/
def resolveElem (env : NsEnv) : Elem → Option Elem
  | .mk tag att text ch =>
    match resolveTag (declare env att) tag, resolveAtts (declare env att) att, resolveList (declare env att) ch with
    | some tag, some att, some ch => if distinct (dkeys att) then some (.mk tag att text ch) else none
    | _, _, _ => none
def resolveList (env : NsEnv) : List Elem → Option (List Elem)
  | [] => some []
  | e :: t =>
    match resolveElem env e, resolveList env t with
    | some e, some t => some (e :: t)
    | _, _ => none
end

/-- the tree that `ElementTree.parse` gives for a text; `none` is a ParseError -/
def readXml (s : Str) : Option Elem :=
  (readRaw s).bind (resolveElem [("xml".toList, "http://www.w3.org/XML/1998/namespace".toList)])

end Py
