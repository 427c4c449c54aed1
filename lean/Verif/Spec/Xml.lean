import Verif.Py.XmlText
/-
A grammar of XML documents: which texts stand for which trees (names as they stand in the text, ends of lines normalised).  No document type
declarations; names are ASCII names.
-/

namespace Resync.Spec
open Py

/-- white space, or nothing -/
def XmlSpace (s : Str) : Prop := ∀ c ∈ s, c = ' ' ∨ c = '\t' ∨ c = '\n' ∨ c = '\r'

/-- a name, possibly with a prefix -/
def XmlName (k : Str) : Prop := ∃ c t, k = c :: t ∧ isNameStart c = true ∧ ∀ d ∈ t, isNameChar d = true ∨ d = ':'

/-- one text occurs in another -/
def OccursIn (x s : Str) : Prop := ∃ a b, s = a ++ x ++ b

/-- references to characters -/
inductive RefText : Char → Str → Prop
  | amp : RefText '&' ['&', 'a', 'm', 'p', ';']
  | lt : RefText '<' ['&', 'l', 't', ';']
  | gt : RefText '>' ['&', 'g', 't', ';']
  | quot : RefText '"' ['&', 'q', 'u', 'o', 't', ';']
  | apos : RefText '\'' ['&', 'a', 'p', 'o', 's', ';']
  /-- by number, in decimal notation: `&#38;` -/
  | dec {c : Char} {D : Str} (hne : D ≠ []) (hd : ∀ d ∈ D, isDigit d = true) (hv : digitsVal D = c.toNat) (hc : isXmlChar c = true) :
      RefText c ('&' :: '#' :: (D ++ [';']))
  /-- by number, in hexadecimal notation: `&#x26;` -/
  | hex {c : Char} {H : Str} (hne : H ≠ []) (hv : hexVal 0 H = some c.toNat) (hc : isXmlChar c = true) :
      RefText c ('&' :: '#' :: 'x' :: (H ++ [';']))

/-- what may stand between the quotes for the value of an attribute -/
inductive ValueText (q : Char) : Str → Str → Prop
  | nil : ValueText q [] []
  | char {c : Char} {v t : Str} (hq : c ≠ q) (hl : c ≠ '<') (ha : c ≠ '&') (hs : ¬ XmlSpace [c]) (h : ValueText q v t) : ValueText q (c :: v) (c :: t)
  /-- white space stands for a space -/
  | space {c : Char} {v t : Str} (hs : XmlSpace [c]) (h : ValueText q v t) : ValueText q (' ' :: v) (c :: t)
  | ref {c : Char} {v r t : Str} (hr : RefText c r) (h : ValueText q v t) : ValueText q (c :: v) (r ++ t)

/-- the attributes in a tag: white space, name, `=` with white space allowed around it, value in either kind of quotes -/
inductive AttsText : Dict Str → Str → Prop
  | nil : AttsText [] []
  | cons {sp k s1 s2 : Str} {q : Char} {v t : Str} {rest : Dict Str} {text : Str} (hne : sp ≠ []) (hsp : XmlSpace sp) (hk : XmlName k)
      (hs1 : XmlSpace s1) (hs2 : XmlSpace s2) (hq : q = '"' ∨ q = '\'') (hv : ValueText q v t) (h : AttsText rest text) :
      AttsText ((k, v) :: rest) (sp ++ (k ++ (s1 ++ '=' :: (s2 ++ q :: (t ++ q :: text)))))

/-- `<!-- ... -->` -/
inductive CommentText : Str → Prop
  | mk {u : Str} (h : ¬ OccursIn ['-', '-'] (u ++ ['-'])) : CommentText ('<' :: '!' :: '-' :: '-' :: (u ++ ['-', '-', '>']))

/-- `<? ... ?>` -/
inductive PIText : Str → Prop
  | mk {u : Str} (h : ¬ OccursIn ['?', '>'] u) : PIText ('<' :: '?' :: (u ++ ['?', '>']))

mutual
/-- the texts for an element: `<name/>` or `<name>...</name>`, with attributes (no name twice) -/
inductive ElemText : Elem → Str → Prop
  | empty {tag : Str} {att : Dict Str} {ta sp : Str} (hk : XmlName tag) (ha : AttsText att ta) (hd : (dkeys att).Nodup) (hs : XmlSpace sp) :
      ElemText (.mk tag att none []) ('<' :: (tag ++ (ta ++ (sp ++ ['/', '>']))))
  | full {tag : Str} {att : Dict Str} {ta s1 s2 text body : Str} {ch : List Elem} (hk : XmlName tag) (ha : AttsText att ta) (hd : (dkeys att).Nodup)
      (hs1 : XmlSpace s1) (hb : ContentText text ch body) (hs2 : XmlSpace s2) :
      ElemText (.mk tag att (if text = [] then none else some text) ch)
        ('<' :: (tag ++ (ta ++ (s1 ++ '>' :: (body ++ '<' :: '/' :: (tag ++ (s2 ++ ['>'])))))))
/-- the texts for the content of an element, with the text before the first child, and the children -/
inductive ContentText : Str → List Elem → Str → Prop
  | nil : ContentText [] [] []
  | char {c : Char} {x : Str} {ch : List Elem} {t : Str} (hl : c ≠ '<') (ha : c ≠ '&') (hcd : ¬ [']', ']', '>'] <+: c :: t) (h : ContentText x ch t) :
      ContentText (c :: x) ch (c :: t)
  | ref {c : Char} {r x : Str} {ch : List Elem} {t : Str} (hr : RefText c r) (h : ContentText x ch t) : ContentText (c :: x) ch (r ++ t)
  /-- `<![CDATA[ ... ]]>` -/
  | cdata {u x : Str} {ch : List Elem} {t : Str} (hu : ¬ OccursIn [']', ']', '>'] u) (h : ContentText x ch t) :
      ContentText (u ++ x) ch ('<' :: '!' :: '[' :: 'C' :: 'D' :: 'A' :: 'T' :: 'A' :: '[' :: (u ++ ']' :: ']' :: '>' :: t))
  | comment {u x : Str} {ch : List Elem} {t : Str} (hu : CommentText u) (h : ContentText x ch t) : ContentText x ch (u ++ t)
  | pi {u x : Str} {ch : List Elem} {t : Str} (hu : PIText u) (h : ContentText x ch t) : ContentText x ch (u ++ t)
  /-- the text after a child does not belong to the text of the element -/
  | child {e : Elem} {te x : Str} {ch : List Elem} {t : Str} (he : ElemText e te) (h : ContentText x ch t) : ContentText [] (e :: ch) (te ++ t)
end

/-- what may stand before and after the root element -/
inductive MiscText : Str → Prop
  | nil : MiscText []
  | space {c : Char} {t : Str} (hc : XmlSpace [c]) (h : MiscText t) : MiscText (c :: t)
  | comment {u t : Str} (hu : CommentText u) (h : MiscText t) : MiscText (u ++ t)
  | pi {u t : Str} (hu : PIText u) (h : MiscText t) : MiscText (u ++ t)

/-- the texts for a document -/
def DocText (e : Elem) (s : Str) : Prop := ∃ a body b, s = a ++ (body ++ b) ∧ MiscText a ∧ ElemText e body ∧ MiscText b

end Resync.Spec
