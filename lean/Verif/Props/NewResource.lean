import Verif.Props.W3CDatetime
import Verif.Props.Resource
/-
C101: what a new Resource records.
-/

namespace Resync
open Py Resync.Spec

/-- an argument that is given is recorded, otherwise what the copied resource has -/
def GivenOr {α : Type} (arg copied result : Option α) : Prop :=
  (∀ v, arg = some v → result = some v) ∧ (arg = none → result = copied)

/-- a time given as text has the first say -/
def TimeGivenOr (text : Option Str) (arg copied result : Option Rat) : Prop :=
  (∀ s, text = some s → ∃ t, strToDatetime s = some t ∧ result = some t) ∧ (text = none → GivenOr arg copied result)

/-- an attribute of the resource to copy from, if there is one -/
def copiedAtt {α : Type} (a : ResArgs) (f : Resource → Option α) : Option α :=
  match a.resource with
  | none => none
  | some o => f o

/-- the resource that these arguments describe -/
structure Made (a : ResArgs) (r : Resource) : Prop where
  uri : (∀ v, a.uri = some v → r.uri = v) ∧ (a.uri = none → ∃ o, a.resource = some o ∧ r.uri = o.uri)
  timestamp : TimeGivenOr a.lastmod a.timestamp (copiedAtt a (·.timestamp)) r.timestamp
  length : GivenOr a.length (copiedAtt a (·.length)) r.length
  mime_type : GivenOr a.mime_type (copiedAtt a (·.mime_type)) r.mime_type
  md5 : GivenOr a.md5 (copiedAtt a (·.md5)) r.md5
  sha1 : GivenOr a.sha1 (copiedAtt a (·.sha1)) r.sha1
  sha256 : GivenOr a.sha256 (copiedAtt a (·.sha256)) r.sha256
  change : GivenOr a.change (copiedAtt a (·.change)) r.change
  ts_datetime : TimeGivenOr a.datetime a.ts_datetime (copiedAtt a (·.ts_datetime)) r.ts_datetime
  path : GivenOr a.path (copiedAtt a (·.path)) r.path
  ln : GivenOr a.ln (copiedAtt a (·.ln)) r.ln
  capability : GivenOr a.capability (copiedAtt a (·.capability)) r.capability
  ts_at : TimeGivenOr a.md_at a.ts_at (copiedAtt a (·.ts_at)) r.ts_at
  ts_completed : TimeGivenOr a.md_completed a.ts_completed (copiedAtt a (·.ts_completed)) r.ts_completed
  ts_from : TimeGivenOr a.md_from a.ts_from (copiedAtt a (·.ts_from)) r.ts_from
  ts_until : TimeGivenOr a.md_until a.ts_until (copiedAtt a (·.ts_until)) r.ts_until

/-- the change types given, directly or by the resource to copy from, are valid -/
def ChangesValid (a : ResArgs) : Prop :=
  ∀ c, a.change = some c ∨ copiedAtt a (·.change) = some c → c = "created".toList ∨ c = "updated".toList ∨ c = "deleted".toList

/-- the texts given for times, in the order in which they are looked at -/
def timeTexts (a : ResArgs) : List Str :=
  a.lastmod.toList ++ a.datetime.toList ++ a.md_at.toList ++ a.md_completed.toList ++ a.md_from.toList ++ a.md_until.toList

theorem pick_iff {α : Type} {arg old res : Option α} : pick arg old = res ↔ GivenOr arg old res := by
  unfold pick GivenOr
  cases arg with
  | none => simp [eq_comm]
  | some v => simp [eq_comm]

theorem pickDate_ok {text : Option Str} {arg old res : Option Rat} :
    pickDate text (pick arg old) = .ok res ↔ TimeGivenOr text arg old res := by
  unfold pickDate TimeGivenOr
  cases text with
  | none =>
    simp only [reduceCtorEq, false_implies, implies_true, true_and, forall_const, Except.ok.injEq, pick_iff]
  | some s =>
    cases h : strToDatetime s with
    | none => simp [h]
    | some t => simp [h, eq_comm]

theorem pickDate_err {text : Option Str} {old : Option Rat} {e : ResErr} :
    pickDate text old = .error e ↔ e = .value ∧ ∃ s, text = some s ∧ strToDatetime s = none := by
  unfold pickDate
  cases text with
  | none => simp
  | some s =>
    cases h : strToDatetime s with
    | none => simp [h, eq_comm]
    | some t => simp [h]

theorem checkChange_valid {v : Option Str} : checkChange v = .ok () ↔
    ∀ c, v = some c → c = "created".toList ∨ c = "updated".toList ∨ c = "deleted".toList := by
  unfold checkChange
  cases v with
  | none => simp
  | some c =>
    dsimp only
    split
    · rename_i h
      simp only [CHANGE_TYPES, sCreated, sUpdated, sDeleted, List.mem_cons, List.not_mem_nil, or_false] at h
      simp only [reduceCtorEq, Option.some.injEq, forall_eq', false_iff]
      exact h
    · rename_i h
      simp only [CHANGE_TYPES, sCreated, sUpdated, sDeleted, List.mem_cons, List.not_mem_nil, or_false, not_not] at h
      simp only [Option.some.injEq, forall_eq', true_iff]
      exact h

theorem checkChange_cases (v : Option Str) : checkChange v = .ok () ∨ checkChange v = .error .changeType := by
  unfold checkChange
  cases v with
  | none => exact .inl rfl
  | some c => dsimp only; split <;> simp

theorem bind_copiedAtt {α : Type} (a : ResArgs) (f : Resource → Option α) : a.resource.bind f = copiedAtt a f := by
  unfold copiedAtt; cases a.resource <;> rfl

theorem exc_bind_ok {ε α β : Type} {x : Except ε α} {f : α → Except ε β} {b : β} :
    (x >>= f) = .ok b ↔ ∃ y, x = .ok y ∧ f y = .ok b := by
  cases x with
  | error e => simp [bind, Except.bind]
  | ok y => simp [bind, Except.bind]

theorem made_uri {a : ResArgs} {u : Str} : pick a.uri (a.resource.map (·.uri)) = some u ↔
    (∀ v, a.uri = some v → u = v) ∧ (a.uri = none → ∃ o, a.resource = some o ∧ u = o.uri) := by
  unfold pick
  cases a.uri with
  | some v => simp [eq_comm]
  | none => cases a.resource <;> simp [eq_comm]

/-- C101.  Making a resource succeeds exactly if the change types are valid, all texts given for times can be read, and there is a URI, given or copied;
and then the resource has each attribute as given, otherwise as copied (a time given as text counting before one given as a number). -/
theorem C101_made (a : ResArgs) (r : Resource) : Resource.new a = .ok r ↔ ChangesValid a ∧ Made a r := by
  unfold Resource.new
  simp only [bind_copiedAtt, exc_bind_ok]
  constructor
  · rintro ⟨_, h0, _, h1, t1, e1, t2, e2, t3, e3, t4, e4, t5, e5, t6, e6, h⟩
    have hc : ChangesValid a := by
      rintro c (hc | hc)
      · exact checkChange_valid.mp h1 c hc
      · exact checkChange_valid.mp h0 c hc
    cases hu : pick a.uri (a.resource.map (·.uri)) with
    | none => rw [hu] at h; cases h
    | some u =>
      rw [hu] at h
      cases h
      refine ⟨hc, ?_, pickDate_ok.mp e1, pick_iff.mp rfl, pick_iff.mp rfl, pick_iff.mp rfl, pick_iff.mp rfl, pick_iff.mp rfl, pick_iff.mp rfl,
        pickDate_ok.mp e2, pick_iff.mp rfl, pick_iff.mp rfl, pick_iff.mp rfl, pickDate_ok.mp e3, pickDate_ok.mp e4, pickDate_ok.mp e5, pickDate_ok.mp e6⟩
      exact made_uri.mp hu
  · rintro ⟨hc, m⟩
    refine ⟨(), checkChange_valid.mpr (fun c h => hc c (.inr h)), (), checkChange_valid.mpr (fun c h => hc c (.inl h)),
      _, pickDate_ok.mpr m.timestamp, _, pickDate_ok.mpr m.ts_datetime, _, pickDate_ok.mpr m.ts_at, _, pickDate_ok.mpr m.ts_completed,
      _, pickDate_ok.mpr m.ts_from, _, pickDate_ok.mpr m.ts_until, ?_⟩
    rw [made_uri.mpr m.uri]
    rw [pick_iff.mpr m.length, pick_iff.mpr m.mime_type, pick_iff.mpr m.md5, pick_iff.mpr m.sha1, pick_iff.mpr m.sha256, pick_iff.mpr m.change,
      pick_iff.mpr m.path, pick_iff.mpr m.ln, pick_iff.mpr m.capability]
    rfl

theorem exc_bind_err {ε α β : Type} {x : Except ε α} {f : α → Except ε β} {e : ε} :
    (x >>= f) = .error e ↔ x = .error e ∨ ∃ y, x = .ok y ∧ f y = .error e := by
  cases x with
  | error e => simp [bind, Except.bind]
  | ok y => simp [bind, Except.bind]

theorem error_cases (a : ResArgs) (e : ResErr) (h : Resource.new a = .error e) :
    (¬ ChangesValid a ∧ e = .changeType) ∨
    (ChangesValid a ∧ ((∃ s ∈ timeTexts a, strToDatetime s = none) ∨ (a.uri = none ∧ a.resource = none)) ∧ e = .value) := by
  unfold Resource.new at h
  simp only [bind_copiedAtt, exc_bind_err] at h
  by_cases hc : ChangesValid a
  · have c0 : checkChange (copiedAtt a (·.change)) = .ok () := checkChange_valid.mpr (fun c h => hc c (.inr h))
    have c1 : checkChange a.change = .ok () := checkChange_valid.mpr (fun c h => hc c (.inl h))
    right
    refine ⟨hc, ?_⟩
    have text : ∀ {t : Option Str} {old : Option Rat}, t.toList ⊆ timeTexts a → pickDate t old = .error e →
        ((∃ s ∈ timeTexts a, strToDatetime s = none) ∨ (a.uri = none ∧ a.resource = none)) ∧ e = .value := by
      intro t old hs he
      obtain ⟨h1, s, rfl, h2⟩ := pickDate_err.mp he
      exact ⟨.inl ⟨s, hs (by simp), h2⟩, h1⟩
    rcases h with h | ⟨_, -, h⟩
    · rw [c0] at h; cases h
    rcases h with h | ⟨_, -, h⟩
    · rw [c1] at h; cases h
    rcases h with h | ⟨_, -, h⟩
    · exact text (by intro x hx; simp [timeTexts, hx]) h
    rcases h with h | ⟨_, -, h⟩
    · exact text (by intro x hx; simp [timeTexts, hx]) h
    rcases h with h | ⟨_, -, h⟩
    · exact text (by intro x hx; simp [timeTexts, hx]) h
    rcases h with h | ⟨_, -, h⟩
    · exact text (by intro x hx; simp [timeTexts, hx]) h
    rcases h with h | ⟨_, -, h⟩
    · exact text (by intro x hx; simp [timeTexts, hx]) h
    rcases h with h | ⟨_, -, h⟩
    · exact text (by intro x hx; simp [timeTexts, hx]) h
    cases hu : pick a.uri (a.resource.map (·.uri)) with
    | none =>
      rw [hu] at h
      cases h
      refine ⟨.inr ?_, rfl⟩
      unfold pick at hu
      cases h1 : a.uri with
      | some v => rw [h1] at hu; cases hu
      | none =>
        rw [h1] at hu
        cases h2 : a.resource with
        | none => exact ⟨rfl, rfl⟩
        | some o => rw [h2] at hu; cases hu
    | some u => rw [hu] at h; cases h
  · left
    refine ⟨hc, ?_⟩
    rcases checkChange_cases (copiedAtt a (·.change)) with c0 | c0
    · rcases checkChange_cases a.change with c1 | c1
      · exfalso
        apply hc
        rintro c (h | h)
        · exact checkChange_valid.mp c1 c h
        · exact checkChange_valid.mp c0 c h
      · rcases h with h | ⟨_, -, h⟩
        · rw [c0] at h; cases h
        rcases h with h | ⟨_, h', -⟩
        · rw [c1] at h; cases h; rfl
        · rw [c1] at h'; cases h'
    · rcases h with h | ⟨_, h', -⟩
      · rw [c0] at h; cases h; rfl
      · rw [c0] at h'; cases h'

theorem timeGiven_readable {text : Option Str} {arg old res : Option Rat} (h : TimeGivenOr text arg old res) :
    ∀ s ∈ text.toList, strToDatetime s ≠ none := by
  intro s hs
  obtain ⟨t, ht, -⟩ := h.1 s (by simpa using hs)
  rw [ht]; simp

/-- C101, refusals.  With a change type that is not valid, given or copied, ChangeTypeError is raised; otherwise ValueError, if a text given for a
time cannot be read or there is no URI. -/
theorem C101_refused (a : ResArgs) (e : ResErr) : Resource.new a = .error e ↔
    (¬ ChangesValid a ∧ e = .changeType) ∨
    (ChangesValid a ∧ ((∃ s ∈ timeTexts a, strToDatetime s = none) ∨ (a.uri = none ∧ a.resource = none)) ∧ e = .value) := by
  refine ⟨error_cases a e, ?_⟩
  intro h
  cases hn : Resource.new a with
  | error e' =>
    rcases error_cases a e' hn with ⟨h1, rfl⟩ | ⟨h1, -, rfl⟩ <;> rcases h with ⟨h2, rfl⟩ | ⟨h2, -, rfl⟩
    · rfl
    · exact absurd h2 h1
    · exact absurd h1 h2
    · rfl
  | ok r =>
    exfalso
    obtain ⟨hc, m⟩ := (C101_made a r).mp hn
    rcases h with ⟨h, -⟩ | ⟨-, ⟨s, hs, hr⟩ | ⟨h1, h2⟩, -⟩
    · exact h hc
    · simp only [timeTexts, List.mem_append] at hs
      rcases hs with ((((hs | hs) | hs) | hs) | hs) | hs
      · exact timeGiven_readable m.timestamp s hs hr
      · exact timeGiven_readable m.ts_datetime s hs hr
      · exact timeGiven_readable m.ts_at s hs hr
      · exact timeGiven_readable m.ts_completed s hs hr
      · exact timeGiven_readable m.ts_from s hs hr
      · exact timeGiven_readable m.ts_until s hs hr
    · obtain ⟨o, ho, -⟩ := m.uri.2 h1
      rw [h2] at ho; cases ho

/-- C101, copies.  A copy of a resource has all its attributes. -/
theorem C101_copy (r : Resource) (h : ValidChange r.change) : Resource.new { resource := some r } = .ok r := by
  refine (C101_made _ r).mpr ⟨?_, ?_⟩
  · rintro c (hc | hc)
    · cases hc
    · exact checkChange_valid.mp (checkChange_ok.mpr h) c hc
  · constructor <;> simp [TimeGivenOr, GivenOr, copiedAtt]

def copyArgs : ResArgs where
  resource := some { uri := "http://h/a".toList, timestamp := some 5, length := some 3, change := some "created".toList }
  timestamp := some 6
  lastmod := some "1970-01-01T00:00:09Z".toList
  md5 := some "x".toList
  change := some "deleted".toList

/-- a resource to copy from, with other values for some attributes -/
example : Resource.new copyArgs =
    .ok { uri := "http://h/a".toList, timestamp := some 9, length := some 3, md5 := some "x".toList, change := some "deleted".toList } := by
  decide +kernel

example : Resource.new { uri := some "http://h/a".toList, change := some "new".toList, lastmod := some "yesterday".toList } = .error .changeType ∧
    Resource.new { uri := some "http://h/a".toList, md_until := some "yesterday".toList } = .error .value ∧
    Resource.new { length := some 3 } = .error .value := by
  decide +kernel

end Resync
