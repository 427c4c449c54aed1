import Verif.Proofs.Repr
import Verif.Props.LoggingRuns
import Mathlib.Data.Rat.Defs
/-
C112: the representation of a resource is unambiguous, and so is the record of what a sync did that is made of it with --eval.
-/

namespace Resync
open Py Resync.Spec

/-- a way to write numbers that is like Python's in what is needed -/
def exNum (t : Rat) : Str := intStr t.num ++ 'e' :: natStr t.den

theorem exNum_ok : NumberText exNum := by
  have hint : ∀ n : Int, ∀ c ∈ intStr n, isDigit c = true ∨ c = '-' := by
    intro n c hc
    unfold intStr at hc
    split at hc
    · rcases List.mem_cons.mp hc with h | h
      · exact .inr h
      · exact .inl (natStr_digits _ _ h)
    · exact .inl (natStr_digits _ _ hc)
  have he : ∀ n : Int, 'e' ∉ intStr n := fun n h => absurd (hint n _ h) (by decide)
  refine ⟨?_, fun t => by simp [exNum], ?_⟩
  · intro t u h
    have key : ∀ (a b x y : Str), 'e' ∉ a → 'e' ∉ b → a ++ 'e' :: x = b ++ 'e' :: y → a = b ∧ x = y := by
      intro a
      induction a with
      | nil =>
        rintro (_ | ⟨c, b⟩) x y _ hb h
        · exact ⟨rfl, (List.cons.inj h).2⟩
        · exact absurd ((List.cons.inj h).1 ▸ List.mem_cons_self) hb
      | cons d a ih =>
        rintro (_ | ⟨c, b⟩) x y ha hb h
        · exact absurd ((List.cons.inj h).1 ▸ List.mem_cons_self) ha
        · obtain ⟨h1, h2⟩ := List.cons.inj h
          obtain ⟨h3, h4⟩ := ih b x y (fun hm => ha (List.mem_cons_of_mem _ hm)) (fun hm => hb (List.mem_cons_of_mem _ hm)) h2
          exact ⟨by rw [h1, h3], h4⟩
    obtain ⟨h1, h2⟩ := key _ _ _ _ (he _) (he _) h
    have h3 : t.den = u.den := by
      rw [← natStr_val t.den, ← natStr_val u.den, h2]
    exact Rat.ext (intStr_injective h1) h3
  · intro t c hc
    rcases List.mem_append.mp hc with h | h
    · rcases hint _ c h with h | h
      · exact .inl h
      · exact .inr (.inr (.inr (.inr h)))
    · rcases List.mem_cons.mp h with h | h
      · exact .inr (.inr (.inl h))
      · exact .inl (natStr_digits _ _ h)

/-- C112.  Objects with the same text are the same: in every attribute, and in the extra ones with their order. -/
theorem C112_unambiguous (printable : Char → Bool) (num : Rat → Str) (hn : NumberText num) (o o' : ResObj) :
    o.repr printable num = o'.repr printable num ↔ o = o' :=
  ⟨obj_repr_inj printable hn o o', fun h => by rw [h]⟩

/-- C112 (one line).  The text is one line, whatever the attributes are. -/
theorem C112_line (printable : Char → Bool) (hp : printable '\n' = false) (num : Rat → Str) (hn : NumberText num) (o : ResObj) :
    '\n' ∉ o.repr printable num := obj_line printable hp hn o

/-- test_resource.py test07_repr -/
example : (ResObj.repr (fun _ => true) (fun t => intStr t.num) { uri := "def".toList, timestamp := some 1325376000 }) =
    "{'uri': 'def', 'timestamp': 1325376000}".toList := by decide +kernel

/-- a URI made to look like the end of the text and another attribute is quoted -/
example : ResObj.repr (fun _ => true) exNum { uri := "a', 'length': 7, 'md5': \"\n".toList } =
    "{'uri': 'a\\', \\'length\\': 7, \\'md5\\': \"\\n'}".toList := by decide +kernel

/-! ## Copies and events -/

/-- the extra attributes have values of their kinds -/
structure ProperExtras (o : ResObj) : Prop where
  capability : ∀ t, o.getExtra "capability".toList ≠ some (.inr t)
  ts_at : ∀ s, o.getExtra "ts_at".toList ≠ some (.inl s)
  ts_completed : ∀ s, o.getExtra "ts_completed".toList ≠ some (.inl s)
  ts_from : ∀ s, o.getExtra "ts_from".toList ≠ some (.inl s)
  ts_until : ∀ s, o.getExtra "ts_until".toList ≠ some (.inl s)

theorem extra_left {v : Option (Str ⊕ Rat)} (h : ∀ t, v ≠ some (.inr t)) : (v.bind (·.getLeft?)).map Sum.inl = v := by
  rcases v with _ | _ | t
  · rfl
  · rfl
  · exact absurd rfl (h t)

theorem extra_right {v : Option (Str ⊕ Rat)} (h : ∀ s, v ≠ some (.inl s)) : (v.bind (·.getRight?)).map Sum.inr = v := by
  rcases v with _ | s | t
  · rfl
  · exact absurd rfl (h s)
  · rfl

theorem copy_eq_none (o : ResObj) : o.copy none = ⟨o.uri, o.timestamp, o.length, o.mime_type, o.md5, o.sha1, o.sha256,
    o.change, o.ts_datetime, o.path, o.ln, some
    [("capability".toList, o.getExtra "capability".toList), ("ts_at".toList, o.getExtra "ts_at".toList),
     ("ts_completed".toList, o.getExtra "ts_completed".toList), ("ts_from".toList, o.getExtra "ts_from".toList),
     ("ts_until".toList, o.getExtra "ts_until".toList)]⟩ := rfl

theorem copy_eq (o : ResObj) (change : Str) : o.copy (some change) = ⟨o.uri, o.timestamp, o.length, o.mime_type, o.md5, o.sha1, o.sha256,
    some change, o.ts_datetime, o.path, o.ln, some
    [("capability".toList, o.getExtra "capability".toList), ("ts_at".toList, o.getExtra "ts_at".toList),
     ("ts_completed".toList, o.getExtra "ts_completed".toList), ("ts_from".toList, o.getExtra "ts_from".toList),
     ("ts_until".toList, o.getExtra "ts_until".toList)]⟩ := by
  have h : o.copy (some change) = { o.copy none with change := some change } := rfl
  rw [h, copy_eq_none]

theorem view_eventObj (r : Resource) : (eventObj r).view = r := by
  have hl : ∀ v : Option Str, (v.map (Sum.inl (β := Rat))).bind (·.getLeft?) = v := by intro v; cases v <;> rfl
  have hr : ∀ v : Option Rat, (v.map (Sum.inr (α := Str))).bind (·.getRight?) = v := by intro v; cases v <;> rfl
  have g1 : (eventObj r).getExtra "capability".toList = r.capability.map .inl := rfl
  have g2 : (eventObj r).getExtra "ts_at".toList = r.ts_at.map .inr := rfl
  have g3 : (eventObj r).getExtra "ts_completed".toList = r.ts_completed.map .inr := rfl
  have g4 : (eventObj r).getExtra "ts_from".toList = r.ts_from.map .inr := rfl
  have g5 : (eventObj r).getExtra "ts_until".toList = r.ts_until.map .inr := rfl
  unfold ResObj.view
  rw [g1, g2, g3, g4, g5, hl, hr, hr, hr, hr]
  rfl

/-- C112 (events, 1).  What log_event is given, a copy with the kind of the change, is determined by the attributes of the resource and
that kind; and it has just these attributes. -/
theorem C112_event_object (o : ResObj) (ho : ProperExtras o) (change : Str) :
    o.copy (some change) = eventObj { o.view with change := some change } ∧
    (o.copy (some change)).view = { o.view with change := some change } := by
  have h : o.copy (some change) = eventObj { o.view with change := some change } := by
    rw [copy_eq]
    unfold eventObj ResObj.view
    simp only [extra_left ho.capability, extra_right ho.ts_at, extra_right ho.ts_completed, extra_right ho.ts_from,
      extra_right ho.ts_until]
  exact ⟨h, by rw [h, view_eventObj]⟩

/-- C112 (events, 2).  No other message of a sync has the text of an event, and events of different resources, or of different changes to
one, have different texts.  (The first messages about a resource begin with the kind of the change, `hc`.) -/
theorem C112_event (printable : Char → Bool) (num : Rat → Str) (hn : NumberText num) (r : Resource) (m : LogMsg) (reason reason' : Str)
    (hc : ∀ change uri filename, m = .start change uri filename → change ∈ CHANGE_TYPES) :
    m.text (eventText printable num) reason = (LogMsg.event r).text (eventText printable num) reason' ↔ m = .event r := by
  refine ⟨fun h => ?_, fun h => by rw [h]; rfl⟩
  have hev : ∀ {x : Str} {c : Char} {t : Str}, x = "Event: ".toList ++ eventText printable num r → x = c :: t → c = 'E' := by
    intro x c t h1 h2
    rw [h2] at h1
    exact (List.cons.inj h1).1
  have h : m.text (eventText printable num) reason = "Event: ".toList ++ eventText printable num r := h
  cases m with
  | event r' =>
    have h1 : eventText printable num r' = eventText printable num r := List.append_cancel_left h
    rw [eventObj_inj ((C112_unambiguous printable num hn _ _).mp h1)]
  | start change uri filename =>
    have hch := hc _ _ _ rfl
    have h0 : ∀ ch ∈ CHANGE_TYPES, ∃ c t, ch = c :: t ∧ c ≠ 'E' := by
      intro ch hm
      simp only [CHANGE_TYPES, List.mem_cons, List.not_mem_nil, or_false] at hm
      rcases hm with e | e | e <;> subst e <;> exact ⟨_, _, rfl, by decide⟩
    obtain ⟨c, t, e, hne⟩ := h0 change hch
    subst e
    exact absurd (hev h rfl) hne
  | hash type uri got expected =>
    have h0 : ∃ c t, hashName type = c :: t ∧ c ≠ 'E' := by
      unfold hashName
      repeat' split
      all_goals exact ⟨_, _, rfl, by decide⟩
    obtain ⟨c, t, e, hne⟩ := h0
    have h2 : (LogMsg.hash type uri got expected).text (eventText printable num) reason =
      hashName type ++ " mismatch for ".toList ++ uri ++ ", got ".toList ++ got ++ " but expected ".toList ++ expected := rfl
    rw [h2, e] at h
    exact absurd (hev h rfl) hne
  | _ => exact absurd (hev h rfl) (by decide)

/-! ## Reading the log of a sync -/

theorem records_mem {ev : Resource → Str} {log : List LogMsg} {rs : List Record} (h : RecordsOf ev log rs) {r : Record} (hr : r ∈ rs) :
    ∃ m, m ∈ log ∧ ∃ reason created, r = LogMsg.record ev m reason created := by
  induction h with
  | nil => cases hr
  | cons hm _ ih =>
    rcases List.mem_cons.mp hr with e | e
    · exact ⟨_, List.mem_cons_self, by rw [e]; exact hm⟩
    · obtain ⟨m, k1, k2⟩ := ih e
      exact ⟨m, List.mem_cons_of_mem _ k1, k2⟩

/-- C112 (evaluation).  What a sync with --logger and --eval did can be read off its log file: two logs with the same text have the same
events, in order, each with all attributes of its resource.
Missing: other messages with newlines, which C111 (`C111_forged_violated`) shows to be possible from other parts of the program; events
themselves need no such assumption. -/
theorem C112_evaluation_partial (printable : Char → Bool) (hp : printable '\n' = false) (num : Rat → Str) (hn : NumberText num)
    (a : LogArgs) (now : Rat) (h1 : a.default_logger = "client".toList) (h2 : a.extra_loggers = []) (hf : a.to_file = true)
    (he : a.eval_mode = true) (log log' : List LogMsg) (rs rs' : List Record)
    (hr : RecordsOf (eventText printable num) log rs) (hr' : RecordsOf (eventText printable num) log' rs')
    (hl : ∀ r ∈ rs, (r.level = .debug ∨ '\n' ∉ r.msg) ∧ ∃ t, formatTime r.created = some t)
    (hl' : ∀ r ∈ rs', (r.level = .debug ∨ '\n' ∉ r.msg) ∧ ∃ t, formatTime r.created = some t)
    (htext : fileText (a.logfile.getD a.default_logfile) (afterCalls [(a, now)]) rs =
      fileText (a.logfile.getD a.default_logfile) (afterCalls [(a, now)]) rs') :
    eventsOf log = eventsOf log' := by
  have line : ∀ (log : List LogMsg) (rs : List Record), RecordsOf (eventText printable num) log rs →
      (∀ r ∈ rs, (r.level = .debug ∨ '\n' ∉ r.msg) ∧ ∃ t, formatTime r.created = some t) → ∀ r ∈ rs, LineRecord r := by
    intro log rs hr hl r hm
    obtain ⟨m, -, reason, created, rfl⟩ := records_mem hr hm
    obtain ⟨k1, k2⟩ := hl _ hm
    refine ⟨record_below _ _ _ _, (by decide : ' ' ∉ "resync.client".toList ∧ '\n' ∉ "resync.client".toList), ?_, k2⟩
    rcases k1 with k1 | k1
    · cases m with
      | event r =>
        show '\n' ∉ "Event: ".toList ++ eventText printable num r
        rw [List.mem_append]
        rintro (h | h)
        · exact absurd h (by decide)
        · exact C112_line printable hp num hn _ h
      | _ => cases k1
    · exact k1
  have want : ∀ r : Record, wantsFile a (a.logfile.getD a.default_logfile) r.level := by
    intro r
    refine ⟨hf, rfl, ?_⟩
    cases r.level
    · exact .inr (.inr ⟨rfl, he⟩)
    · exact .inr (.inl rfl)
    · exact .inl rfl
  have hall : ∀ rs : List Record, rs.filter (fun r => wantsFile a (a.logfile.getD a.default_logfile) r.level) = rs := by
    intro rs
    exact List.filter_eq_self.mpr (fun r _ => decide_eq_true (want r))
  have h := C111_lines_partial a now h1 h2 (.inr hf) _ rs rs' (line log rs hr hl) (line log' rs' hr' hl') htext
  rw [hall, hall] at h
  -- the events can be told by the level
  have ev : ∀ (log log' : List LogMsg) (rs rs' : List Record), RecordsOf (eventText printable num) log rs →
      RecordsOf (eventText printable num) log' rs' →
      rs.map (fun r => (formatTime r.created, r.name, r.level, r.msg)) = rs'.map (fun r => (formatTime r.created, r.name, r.level, r.msg)) →
      eventsOf log = eventsOf log' := by
    intro log
    induction log with
    | nil =>
      intro log' rs rs' hr hr' h
      cases hr
      cases hr' with
      | nil => rfl
      | cons _ _ => cases h
    | cons m log ih =>
      intro log' rs rs' hr hr' h
      cases hr with
      | cons hm hr =>
        cases hr' with
        | nil => cases h
        | cons hm' hr' =>
          obtain ⟨reason, created, rfl⟩ := hm
          obtain ⟨reason', created', rfl⟩ := hm'
          rename_i m' _ _
          obtain ⟨e1, e2⟩ := List.cons.inj h
          have e3 := ih _ _ _ hr hr' e2
          have e4 : m.level = m'.level ∧ m.text (eventText printable num) reason = m'.text (eventText printable num) reason' := by
            obtain ⟨-, e⟩ := Prod.mk.inj e1
            obtain ⟨-, e⟩ := Prod.mk.inj e
            exact Prod.mk.inj e
          have e5 : ∀ m : LogMsg, m.level = .debug → ∃ r, m = .event r := by
            intro m h
            cases m with
            | event r => exact ⟨r, rfl⟩
            | _ => cases h
          by_cases hd : m.level = .debug
          · obtain ⟨r, rfl⟩ := e5 m hd
            obtain ⟨r', rfl⟩ := e5 m' (e4.1 ▸ hd)
            have e6 := (C112_event printable num hn r' (.event r) reason reason' (fun _ _ _ h => by cases h)).mp e4.2
            have e7 : r = r' := LogMsg.event.inj e6
            show r :: eventsOf log = r' :: eventsOf _
            rw [e7, e3]
          · have e8 : ∀ (m : LogMsg) (l : List LogMsg), m.level ≠ .debug → eventsOf (m :: l) = eventsOf l := by
              intro m l hm
              cases m with
              | event r => exact absurd rfl hm
              | _ => rfl
            rw [e8 m _ hd, e8 m' _ (e4.1 ▸ hd), e3]
  exact ev log log' rs rs' hr hr' h

/-- two messages and their records -/
example : RecordsOf (eventText (fun _ => false) exNum)
    [.start sCreated "http://h/a".toList "/d/a".toList, .event { uri := "http://h/a".toList, change := some sCreated, timestamp := some 5 }]
    [LogMsg.record (eventText (fun _ => false) exNum) (.start sCreated "http://h/a".toList "/d/a".toList) [] 0,
     LogMsg.record (eventText (fun _ => false) exNum)
      (.event { uri := "http://h/a".toList, change := some sCreated, timestamp := some 5 }) [] 1] :=
  .cons ⟨_, _, rfl⟩ (.cons ⟨_, _, rfl⟩ .nil)

/-! ## What is not as described -/

/-- C112, violated (1): "Includes only those attributes with values that are not None".  The text of every event shows attributes that
are None. -/
theorem C112_none_violated (printable : Char → Bool) (num : Rat → Str) (r : Resource) (h : r.ts_until = none) :
    "'ts_until': None".toList <:+: eventText printable num r := by
  have hin : ∀ (l : List Str) (s : Str), s ∈ l → s <:+: join ", ".toList l := by
    intro l s hs
    cases l with
    | nil => cases hs
    | cons a l =>
      rw [repr_join_cons]
      rcases List.mem_cons.mp hs with e | e
      · rw [e]; exact ⟨[], _, rfl⟩
      · obtain ⟨u, v, rfl⟩ := List.append_of_mem e
        refine ⟨a ++ (u.flatMap (fun x => ", ".toList ++ x) ++ ", ".toList), v.flatMap (fun x => ", ".toList ++ x), ?_⟩
        simp only [List.flatMap_append, List.flatMap_cons, List.append_assoc]
  have hdict : ∀ {α : Type} (f : α → Str) (d : Dict α) (x : Str × α), x ∈ d → reprItem printable f x <:+: reprDict printable f d := by
    intro α f d x hx
    obtain ⟨u, v, e⟩ := hin _ _ (List.mem_map_of_mem (f := reprItem printable f) hx)
    refine ⟨'{' :: u, v ++ ['}'], ?_⟩
    unfold reprDict
    rw [← e]
    simp
  unfold eventText
  rw [repr_eq_dict]
  have hx : ("_extra".toList, Val.dict (((eventObj r).extra.getD []).map (fun p => (p.1, extraScalar num p.2)))) ∈
      slotItems ((eventObj r).slots num) := by
    refine List.mem_filterMap.mpr ⟨("_extra".toList, some (Val.dict (((eventObj r).extra.getD []).map (fun p => (p.1, extraScalar num p.2))))), ?_, rfl⟩
    simp only [ResObj.slots, List.mem_cons]
    iterate 11 right
    left
    rfl
  have hy : ("ts_until".toList, extraScalar num (r.ts_until.map .inr)) ∈ ((eventObj r).extra.getD []).map (fun p => (p.1, extraScalar num p.2)) := by
    refine List.mem_map.mpr ⟨("ts_until".toList, r.ts_until.map .inr), ?_, rfl⟩
    simp [eventObj]
  rw [h] at hy
  have i1 := hdict (Val.repr printable) _ _ hx
  have i2 := hdict (Scalar.repr printable) _ _ hy
  have i3 : "'ts_until': None".toList =
      reprItem printable (Scalar.repr printable) ("ts_until".toList, extraScalar num (Option.map Sum.inr none)) := rfl
  rw [i3]
  refine i2.trans (List.IsInfix.trans ?_ i1)
  unfold reprItem
  exact ⟨_, [], by rw [List.append_nil]; rfl⟩

/-- C112, violated (2): the text is not determined by the attributes.  A resource that has no extra attributes and its copy agree in all
attributes, yet their texts are different. -/
theorem C112_copy_violated (printable : Char → Bool) (num : Rat → Str) (hn : NumberText num) (o : ResObj) (h : o.extra = none) :
    (o.copy none).view = o.view ∧ (o.copy none).repr printable num ≠ o.repr printable num := by
  have hg : ∀ n, o.getExtra n = none := by intro n; unfold ResObj.getExtra; rw [h]
  refine ⟨?_, fun he => ?_⟩
  · rw [copy_eq_none]
    simp only [hg]
    unfold ResObj.view
    simp only [hg]
    rfl
  · have := (C112_unambiguous printable num hn _ _).mp he
    rw [copy_eq_none] at this
    have := congrArg ResObj.extra this
    rw [h] at this
    cases this

end Resync
