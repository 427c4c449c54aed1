import Verif.Py.Str
/-
Text as bytes: UTF-8 (RFC 3629), as written by text files opened with this encoding and as decoded by the XML parser.  A byte order
mark is not treated specially.  Python strings may hold surrogates, which cannot be encoded (writing raises UnicodeEncodeError);
`Char` has none.
-/

namespace Py

/-- the bytes of one character (RFC 3629, section 3) -/
def utf8Char (c : Char) : List UInt8 :=
  let v := c.toNat
  if v < 0x80 then [UInt8.ofNat v]
  else if v < 0x800 then [UInt8.ofNat (0xC0 + v / 64), UInt8.ofNat (0x80 + v % 64)]
  else if v < 0x10000 then [UInt8.ofNat (0xE0 + v / 4096), UInt8.ofNat (0x80 + v / 64 % 64), UInt8.ofNat (0x80 + v % 64)]
  else [UInt8.ofNat (0xF0 + v / 262144), UInt8.ofNat (0x80 + v / 4096 % 64), UInt8.ofNat (0x80 + v / 64 % 64), UInt8.ofNat (0x80 + v % 64)]

/-- str.encode('utf-8') -/
def utf8Encode (s : Str) : List UInt8 := s.flatMap utf8Char

/-- the bits of a continuation byte -/
def contBits (b : UInt8) : Option Nat := if 0x80 ≤ b.toNat ∧ b.toNat < 0xC0 then some (b.toNat - 0x80) else none

/-- a code point that is encoded in this many bytes, and is not a surrogate -/
def codePoint (least v : Nat) : Option Char := if least ≤ v ∧ v.isValidChar then some (Char.ofNat v) else none

/-- bytes.decode('utf-8'), strict: `none` for bytes that are not well-formed UTF-8 -/
def utf8Decode : List UInt8 → Option Str
  | [] => some []
  | a :: t =>
    if a.toNat < 0x80 then (utf8Decode t).map (Char.ofNat a.toNat :: ·)
    else if a.toNat < 0xC0 then none
    else if a.toNat < 0xE0 then
      match t with
      | b :: t =>
        match contBits b with
        | some x => match codePoint 0x80 ((a.toNat - 0xC0) * 64 + x) with
          | some c => (utf8Decode t).map (c :: ·)
          | none => none
        | none => none
      | [] => none
    else if a.toNat < 0xF0 then
      match t with
      | b :: b' :: t =>
        match contBits b, contBits b' with
        | some x, some x' => match codePoint 0x800 ((a.toNat - 0xE0) * 4096 + x * 64 + x') with
          | some c => (utf8Decode t).map (c :: ·)
          | none => none
        | _, _ => none
      | _ => none
    else
      match t with
      | b :: b' :: b'' :: t =>
        match contBits b, contBits b', contBits b'' with
        | some x, some x', some x'' => match codePoint 0x10000 ((a.toNat - 0xF0) * 262144 + x * 4096 + x' * 64 + x'') with
          | some c => (utf8Decode t).map (c :: ·)
          | none => none
        | _, _, _ => none
      | _ => none

end Py
