import Verif.Model.ClientWrite
import Verif.Spec.Disk
import Verif.Spec.Mapper
import Verif.Spec.Times
import Verif.Spec.Lists
/-
Specification vocabulary for the documents the client writes (C73-C75).
-/

namespace Resync.Spec
open Py

/-- fit for a line of text in an XML document -/
def TextOk (s : Str) : Prop := OneLine s ∧ XmlOk s ∧ '\r' ∉ s

/-- a file or directory name matched by one of the exclude patterns -/
def ExcludedBy (c : WriteCfg) (name : Str) : Prop :=
  ∃ p ∈ c.exclude_patterns, ∃ re, compile p = .ok re ∧ ∃ m, re.matchStart name = some m

/-- The usual situation for publishing: one site, one directory tree with entries `cs`, names and times that a document can
express, supported hash types, readable files. -/
structure Site (c : WriteCfg) (env : WriteEnv) (m : Map) (cs : List FNode) : Prop where
  mapper : c.mapper = [m]
  src_literal : LiteralOrDot m.src_uri
  src_line : OneLine m.src_uri
  src_chars : XmlOk m.src_uri ∧ '\r' ∉ m.src_uri
  dst_literal : LiteralOrDot m.dst_path
  dst_line : OneLine m.dst_path
  dst_ne : m.dst_path ≠ []
  dst_slash : m.dst_path.getLast? ≠ some '/'
  dir : ∃ nm, env.disk.resolve m.dst_path = some (.dir nm true cs)
  real : RealDir cs
  patterns : ∀ p ∈ c.exclude_patterns, ∃ re, compile p = .ok re
  names : ∀ names n, Reach cs names n → ∀ x ∈ names, OneLine x ∧ XmlOk x ∧ '\r' ∉ x
  times : ∀ names nm special st, Reach cs names (.file nm special (some st)) → InYears st.mtime
  hash_types : ∀ t ∈ c.hashes, t = "md5".toList ∨ t = "sha-1".toList ∨ t = "sha-256".toList
  readable : c.hashes ≠ [] → ∀ names nm special st, Reach cs names (.file nm special (some st)) → st.content ≠ none
  digests : ∀ b, (XmlOk (env.lib.md5 b) ∧ NoSpace (env.lib.md5 b)) ∧ (XmlOk (env.lib.sha1 b) ∧ NoSpace (env.lib.sha1 b)) ∧
    (XmlOk (env.lib.sha256 b) ∧ NoSpace (env.lib.sha256 b))
  scan : XmlOk env.scan_start ∧ XmlOk env.scan_end

/-- what is found out about the files of the list itself once they are written can be expressed in an index -/
def StatOk (env : StatEnv) : Prop := ∀ p, InYears (env.mtime p) ∧ XmlOk (env.md5 p) ∧ NoSpace (env.md5 p)

/-- the URI of the file with these names below the directory -/
def siteUri (m : Map) (names : List Str) : Str := m.src_uri ++ '/' :: join ['/'] names

/-- the entry of a published list describes the file: its modification time to the microsecond (exactly, if it is
a whole number of microseconds), its size, and the digests
asked for -/
structure EntryFor (lib : HashLib) (hashes : List Str) (st : Stat) (e : Resource) : Prop where
  lastmod : NearTime (some st.mtime) e.timestamp
  exact : MicroTime st.mtime → e.timestamp = some st.mtime
  length : e.length = some st.size
  md5 : e.md5 = if "md5".toList ∈ hashes then st.content.map lib.md5 else none
  sha1 : e.sha1 = if "sha-1".toList ∈ hashes then st.content.map lib.sha1 else none
  sha256 : e.sha256 = if "sha-256".toList ∈ hashes then st.content.map lib.sha256 else none

/-- the list has exactly one entry for each file below the directory that is not excluded -/
structure DescribesDir (c : WriteCfg) (lib : HashLib) (m : Map) (cs : List FNode) (list : Dict Resource) : Prop where
  complete : ∀ names st, Eligible (ExcludedBy c) cs names st →
    ∃ e, dget list (siteUri m names) = some e ∧ EntryFor lib c.hashes st e
  sound : ∀ u e, dget list u = some e →
    e.uri = u ∧ ∃ names st, Eligible (ExcludedBy c) cs names st ∧ u = siteUri m names ∧ EntryFor lib c.hashes st e

/-- the changes, applied in order to the state `old`, give the state `new` (up to resource equality) -/
def TakesTo (old : Str → Option Resource) (changes : List Resource) (new : Str → Option Resource) : Prop :=
  ∀ u, match applyChanges old changes u, new u with
    | none, none => True
    | some r, some s => r.eq (some s) = true
    | _, _ => False

end Resync.Spec
