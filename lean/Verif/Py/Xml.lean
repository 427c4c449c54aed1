import Verif.Py.Dict
/-
XML element trees as xml.etree.ElementTree presents them, and what serialising a tree with
`ElementTree.write(..., encoding='unicode', method='xml')` and parsing the text again does to it.
Models CPython ≥ 3.11 / expat behaviour (trusted), not /repo code.  `tail` texts are left out: the
code never reads them.
-/

namespace Py

/-- An element: tag (`{namespace}local` after parsing), attributes, text, children. -/
inductive Elem
  | mk (tag : Str) (attrib : Dict Str) (text : Option Str) (children : List Elem)

def Elem.tag : Elem → Str | .mk t _ _ _ => t
def Elem.attrib : Elem → Dict Str | .mk _ a _ _ => a
def Elem.text : Elem → Option Str | .mk _ _ x _ => x
def Elem.children : Elem → List Elem | .mk _ _ _ c => c

/-- `etree.findall(tag)`: direct children with the tag -/
def Elem.findall (e : Elem) (tag : Str) : List Elem := e.children.filter (fun c => c.tag = tag)

/-- characters allowed in XML 1.0 documents -/
def isXmlChar (c : Char) : Bool :=
  let n := c.toNat
  n == 9 || n == 10 || n == 13 || (32 ≤ n && n ≤ 0xD7FF) || (0xE000 ≤ n && n ≤ 0xFFFD) || 0x10000 ≤ n

/-- end-of-line handling of XML parsers, applied to text: CR LF and CR become LF.  (ElementTree
writes CR in attribute values as a character reference, so attributes are not affected.) -/
def normalizeEol : Str → Str
  | [] => []
  | '\r' :: '\n' :: t => '\n' :: normalizeEol t
  | '\r' :: t => '\n' :: normalizeEol t
  | c :: t => c :: normalizeEol t

def isNameStart (c : Char) : Bool :=
  (('a'.toNat ≤ c.toNat && c.toNat ≤ 'z'.toNat) || ('A'.toNat ≤ c.toNat && c.toNat ≤ 'Z'.toNat)) || c == '_'

def isNameChar (c : Char) : Bool := isNameStart c || isDigit c || c == '-' || c == '.'

/-- an XML name without colon (ASCII only: other names count as unreadable) -/
def isXmlName : Str → Bool
  | [] => false
  | c :: t => isNameStart c && t.all isNameChar

def sXmlns : Str := "xmlns".toList

/-- a name in a namespace, as ElementTree shows it; no namespace leaves the name as it is -/
def inNamespace (ns l : Str) : Str := if ns = [] then l else '{' :: (ns ++ '}' :: l)

/-- the parser's view of a tag name, given the namespaces bound to no prefix and to `rs` -/
def qualify (ns rs : Str) (tag : Str) : Option Str :=
  match split1 ':' tag with
  | (l, none) => if isXmlName l then some (inNamespace ns l) else none
  | (p, some l) => if p = "rs".toList ∧ isXmlName l then some (inNamespace rs l) else none

/-- namespace declarations are not attributes -/
def isXmlnsAtt (k : Str) : Bool := k = sXmlns || startsWith k "xmlns:".toList

/-- namespaces that may be bound: legal characters, no '}' (expat: it is the separator that
ElementTree asks for), and not one of the two reserved ones -/
def isNsName (v : Str) : Bool :=
  v.all isXmlChar && !v.contains '}' && v != "http://www.w3.org/XML/1998/namespace".toList &&
    v != "http://www.w3.org/2000/xmlns/".toList

/-- a namespace declaration that is well formed: only the default namespace may be unbound, and the
prefixes `xml` and `xmlns` cannot be bound (`xml` to its own namespace could be, and counts as unreadable) -/
def declOk (k v : Str) : Bool :=
  isNsName v && (k = sXmlns || (v != [] && isXmlName (k.drop 6) && k.drop 6 != "xml".toList && k.drop 6 != sXmlns))

/-- attributes after a round trip; `none` when the document is not well formed (prefixed attribute
names other than namespace declarations are outside the model and count as unreadable) -/
def reparseAtts : Dict Str → Option (Dict Str)
  | [] => some []
  | (k, v) :: t =>
    if isXmlnsAtt k then (if declOk k v then reparseAtts t else none)
    else if isXmlName k && v.all isXmlChar then (reparseAtts t).map (fun r => (k, v) :: r)
    else none

/-- text after a round trip: an empty text is no text -/
def reparseText : Option Str → Option (Option Str)
  | none => some none
  | some [] => some none
  | some s => if s.all isXmlChar then some (some (normalizeEol s)) else none

mutual
/-- serialise and parse an element, given the namespaces bound around it; `none` is a ParseError -/
def reparseElem (ns rs : Str) : Elem → Option Elem
  | .mk tag att text ch =>
    match qualify ((dget att sXmlns).getD ns) ((dget att "xmlns:rs".toList).getD rs) tag, reparseAtts att, reparseText text,
        reparseList ((dget att sXmlns).getD ns) ((dget att "xmlns:rs".toList).getD rs) ch with
    | some tag, some att, some text, some ch => some (.mk tag att text ch)
    | _, _, _, _ => none
def reparseList (ns rs : Str) : List Elem → Option (List Elem)
  | [] => some []
  | e :: t =>
    match reparseElem ns rs e, reparseList ns rs t with
    | some e, some t => some (e :: t)
    | _, _ => none
end

/-- serialise and parse a document: the root declares the two namespaces -/
def reparse (root : Elem) : Option Elem :=
  match dget root.attrib sXmlns, dget root.attrib "xmlns:rs".toList with
  | some ns, some rs => reparseElem ns rs root
  | _, _ => none

end Py
