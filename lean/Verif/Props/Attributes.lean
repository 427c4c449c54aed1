import Verif.Props.W3CDatetime
import Verif.Props.Resource
import Verif.Model.Sitemap
/-
C105: the attributes of a Resource are independent of each other.
-/

namespace Resync
open Py Resync.Spec

/-- the attributes of a resource -/
inductive Attr
  | uri | timestamp | length | mime_type | md5 | sha1 | sha256 | change | ts_datetime | path | ln | capability
  | ts_at | ts_completed | ts_from | ts_until
deriving DecidableEq, Repr

/-- what an attribute may have as its value; `none` is None -/
inductive AttrVal
  | text (v : Option Str)
  | time (v : Option Rat)
  | number (v : Option Int)
  | links (v : Option (List Link))
deriving DecidableEq, Repr

/-- reading an attribute -/
def attrOf (r : Resource) : Attr → AttrVal
  | .uri => .text (some r.uri)
  | .timestamp => .time r.timestamp
  | .length => .number r.length
  | .mime_type => .text r.mime_type
  | .md5 => .text r.md5
  | .sha1 => .text r.sha1
  | .sha256 => .text r.sha256
  | .change => .text r.change
  | .ts_datetime => .time r.ts_datetime
  | .path => .text r.path
  | .ln => .links r.ln
  | .capability => .text r.capability
  | .ts_at => .time r.ts_at
  | .ts_completed => .time r.ts_completed
  | .ts_from => .time r.ts_from
  | .ts_until => .time r.ts_until

/-- the assignments that put a value into an attribute as it is (of change types, the valid ones) -/
inductive Assigns : ResOp → Attr → AttrVal → Prop
  | change (v : Option Str) (h : ValidChange v) : Assigns (.setChange v) .change (.text v)
  | uri (v : Str) : Assigns (.setUri v) .uri (.text (some v))
  | timestamp (v : Option Rat) : Assigns (.setTimestamp v) .timestamp (.time v)
  | length (v : Option Int) : Assigns (.setLength v) .length (.number v)
  | mime_type (v : Option Str) : Assigns (.setMimeType v) .mime_type (.text v)
  | md5 (v : Option Str) : Assigns (.setMd5 v) .md5 (.text v)
  | sha1 (v : Option Str) : Assigns (.setSha1 v) .sha1 (.text v)
  | sha256 (v : Option Str) : Assigns (.setSha256 v) .sha256 (.text v)
  | ts_datetime (v : Option Rat) : Assigns (.setTsDatetime v) .ts_datetime (.time v)
  | path (v : Option Str) : Assigns (.setPath v) .path (.text v)
  | ln (v : Option (List Link)) : Assigns (.setLn v) .ln (.links v)
  | capability (v : Option Str) : Assigns (.setCapability v) .capability (.text v)
  | ts_at (v : Option Rat) : Assigns (.setTsAt v) .ts_at (.time v)
  | ts_completed (v : Option Rat) : Assigns (.setTsCompleted v) .ts_completed (.time v)
  | ts_from (v : Option Rat) : Assigns (.setTsFrom v) .ts_from (.time v)
  | ts_until (v : Option Rat) : Assigns (.setTsUntil v) .ts_until (.time v)

/-- the assignments of a time as text, with the attribute that keeps it -/
inductive AssignsText : ResOp → Attr → Option Str → Prop
  | lastmod (v : Option Str) : AssignsText (.setLastmod v) .timestamp v
  | datetime (v : Option Str) : AssignsText (.setDatetime v) .ts_datetime v
  | md_at (v : Option Str) : AssignsText (.setMdAt v) .ts_at v
  | md_completed (v : Option Str) : AssignsText (.setMdCompleted v) .ts_completed v
  | md_from (v : Option Str) : AssignsText (.setMdFrom v) .ts_from v
  | md_until (v : Option Str) : AssignsText (.setMdUntil v) .ts_until v

/-- the attributes that an operation may concern -/
inductive Concerns : ResOp → Attr → Prop
  | value {op : ResOp} {a : Attr} {v : AttrVal} (h : Assigns op a v) : Concerns op a
  | text {op : ResOp} {a : Attr} {s : Option Str} (h : AssignsText op a s) : Concerns op a
  | md5 (s : Option Str) : Concerns (.setHash s) .md5
  | sha1 (s : Option Str) : Concerns (.setHash s) .sha1
  | sha256 (s : Option Str) : Concerns (.setHash s) .sha256
  | link (rel href : Str) (dup : Bool) (atts : List (Str × Str)) : Concerns (.linkSet rel href dup atts) .ln

/-- operations one after another, those that raise an exception included -/
def afterAll (r : Resource) (ops : List ResOp) : Resource := ops.foldl (fun r op => (r.step op).1) r

/-- C105.  An operation changes no attribute but those that it concerns; in particular none at all if it is an unknown change type or the
setting of an attribute that the class does not know. -/
theorem C105_others_kept (r : Resource) (op : ResOp) (a : Attr) (h : ¬ Concerns op a) : attrOf (r.step op).1 a = attrOf r a := by
  cases op with
  | setChange v =>
    by_cases hv : ValidChange v
    · show attrOf (r.setChange v).1 a = _
      rw [(C19_assignment r v).1 hv]
      cases a <;> first | rfl | exact absurd (.value (.change v hv)) h
    · show attrOf (r.setChange v).1 a = _
      rw [(C19_assignment r v).2 hv]
  | setHash s =>
    obtain ⟨x, y, z, e⟩ := C18_frame r s
    show attrOf (r.setHash s).1 a = _
    rw [e]
    cases a <;> first | rfl | exact absurd (Concerns.md5 s) h | exact absurd (Concerns.sha1 s) h | exact absurd (Concerns.sha256 s) h
  | linkSet rel href dup atts => cases a <;> first | rfl | exact absurd (.link rel href dup atts) h
  | setExtra n => rfl
  | setUri v => cases a <;> first | rfl | exact absurd (.value (.uri v)) h
  | setTimestamp v => cases a <;> first | rfl | exact absurd (.value (.timestamp v)) h
  | setLength v => cases a <;> first | rfl | exact absurd (.value (.length v)) h
  | setMimeType v => cases a <;> first | rfl | exact absurd (.value (.mime_type v)) h
  | setMd5 v => cases a <;> first | rfl | exact absurd (.value (.md5 v)) h
  | setSha1 v => cases a <;> first | rfl | exact absurd (.value (.sha1 v)) h
  | setSha256 v => cases a <;> first | rfl | exact absurd (.value (.sha256 v)) h
  | setTsDatetime v => cases a <;> first | rfl | exact absurd (.value (.ts_datetime v)) h
  | setPath v => cases a <;> first | rfl | exact absurd (.value (.path v)) h
  | setLn v => cases a <;> first | rfl | exact absurd (.value (.ln v)) h
  | setCapability v => cases a <;> first | rfl | exact absurd (.value (.capability v)) h
  | setTsAt v => cases a <;> first | rfl | exact absurd (.value (.ts_at v)) h
  | setTsCompleted v => cases a <;> first | rfl | exact absurd (.value (.ts_completed v)) h
  | setTsFrom v => cases a <;> first | rfl | exact absurd (.value (.ts_from v)) h
  | setTsUntil v => cases a <;> first | rfl | exact absurd (.value (.ts_until v)) h
  | setLastmod s =>
    simp only [Resource.step, setDate]
    split
    · rfl
    · cases a <;> first | rfl | exact absurd (.text (.lastmod s)) h
  | setDatetime s =>
    simp only [Resource.step, setDate]
    split
    · rfl
    · cases a <;> first | rfl | exact absurd (.text (.datetime s)) h
  | setMdAt s =>
    simp only [Resource.step, setDate]
    split
    · rfl
    · cases a <;> first | rfl | exact absurd (.text (.md_at s)) h
  | setMdCompleted s =>
    simp only [Resource.step, setDate]
    split
    · rfl
    · cases a <;> first | rfl | exact absurd (.text (.md_completed s)) h
  | setMdFrom s =>
    simp only [Resource.step, setDate]
    split
    · rfl
    · cases a <;> first | rfl | exact absurd (.text (.md_from s)) h
  | setMdUntil s =>
    simp only [Resource.step, setDate]
    split
    · rfl
    · cases a <;> first | rfl | exact absurd (.text (.md_until s)) h

/-- C105.  An assignment succeeds, and the attribute has the value. -/
theorem C105_assigned (r : Resource) {op : ResOp} {a : Attr} {v : AttrVal} (h : Assigns op a v) :
    (r.step op).2 = none ∧ attrOf (r.step op).1 a = v := by
  cases h with
  | change v hv =>
    show (r.setChange v).2 = none ∧ attrOf (r.setChange v).1 _ = _
    rw [(C19_assignment r v).1 hv]; exact ⟨rfl, rfl⟩
  | _ => exact ⟨rfl, rfl⟩

/-- C105.  A time assigned as text is the time that the text is read as (C11, C12), and no time for None; what cannot be read is refused with a ValueError and
changes nothing. -/
theorem C105_assigned_text (r : Resource) {op : ResOp} {a : Attr} {s : Option Str} (h : AssignsText op a s) :
    (s = none → (r.step op).2 = none ∧ attrOf (r.step op).1 a = .time none) ∧
    (∀ x t, s = some x → strToDatetime x = some t → (r.step op).2 = none ∧ attrOf (r.step op).1 a = .time (some t)) ∧
    (∀ x, s = some x → strToDatetime x = none → r.step op = (r, some .value)) := by
  cases h <;>
  · refine ⟨?_, ?_, ?_⟩
    · rintro rfl; exact ⟨rfl, rfl⟩
    · rintro x t rfl hx
      simp only [Resource.step, setDate, strToDatetime?, hx, Option.map_some]
      exact ⟨trivial, rfl⟩
    · rintro x rfl hx
      simp only [Resource.step, setDate, strToDatetime?, hx, Option.map_none]

/-- C105, over histories.  After any operations before and after, of which those after do not concern the attribute, the attribute has the value that
was assigned last. -/
theorem C105_last_assignment (r : Resource) (before after : List ResOp) {op : ResOp} {a : Attr} {v : AttrVal} (h : Assigns op a v)
    (hafter : ∀ o ∈ after, ¬ Concerns o a) : attrOf (afterAll r (before ++ op :: after)) a = v := by
  have key : ∀ (os : List ResOp), (∀ o ∈ os, ¬ Concerns o a) → ∀ r, attrOf (afterAll r os) a = attrOf r a := by
    intro os
    induction os with
    | nil => intro _ r; rfl
    | cons o os ih =>
      intro hos r
      show attrOf (afterAll (r.step o).1 os) a = _
      rw [ih (fun x hx => hos x (by simp [hx])), C105_others_kept r o a (hos o (by simp))]
  unfold afterAll
  rw [List.foldl_append, List.foldl_cons]
  exact (key after hafter _).trans (C105_assigned _ h).2

/-- C105, times as text: read back as text, a time that was assigned as text is the same instant to within a microsecond. -/
theorem C105_text_read_back (r : Resource) {op : ResOp} {a : Attr} {x : Str} (h : AssignsText op a (some x)) {t : Rat}
    (ht : strToDatetime x = some t) {now : Option Rat} (hnow : attrOf (r.step op).1 a = .time now) {y : Str} (hy : dateAttr now = .ok (some y)) :
    ∃ t', strToDatetime y = some t' ∧ Denotes y t' ∧ t - 1 / 1000000 < t' ∧ t' < t + 1 / 1000000 := by
  rw [((C105_assigned_text r h).2.1 x t rfl ht).2] at hnow
  cases hnow
  unfold dateAttr at hy
  dsimp only at hy
  cases e : datetimeToStr t false with
  | none => rw [e] at hy; cases hy
  | some s =>
    rw [e] at hy
    cases hy
    obtain ⟨v, h1, h2, h3, h4⟩ := C11_written_denotes t _ e
    exact ⟨v, h2, h1, h3, h4⟩

namespace AttributesExample

def r : Resource := { uri := "http://ex.org/a".toList, md5 := some "x".toList }

/-- a history: a time as text, a bad time, links, hashes, a change type that there is not, another attribute -/
def ops : List ResOp := [.setMdFrom (some "nonsense".toList), .setHash (some "sha-1:y".toList), .linkSet "up".toList "/".toList false [],
  .setChange (some "moved".toList), .setMdUntil (some "2001-01-01".toList)]

example : ∀ o ∈ ops, ¬ Concerns o .length := by
  intro o ho h
  simp only [ops, List.mem_cons, List.not_mem_nil, or_false] at ho
  rcases ho with rfl | rfl | rfl | rfl | rfl <;> cases h <;> rename_i h <;> cases h
example : attrOf (afterAll r (.setLength (some 7) :: ops)) .length = .number (some 7) := by decide +kernel
example : attrOf (afterAll r (.setLength (some 7) :: ops)) .ts_from = .time none := by decide +kernel
example : attrOf (afterAll r (.setLength (some 7) :: ops)) .ts_until = .time (some 978307200) := by decide +kernel
example : attrOf (afterAll r (.setLength (some 7) :: ops)) .md5 = .text none := by decide +kernel
example : AssignsText (.setMdUntil (some "2001-01-01".toList)) .ts_until (some "2001-01-01".toList) := .md_until _

end AttributesExample

end Resync
