import Verif.Spec.Logging
import Verif.Proofs.Dict
import Mathlib.Tactic.Linarith
/-
Lemmas about logging (C111).
-/

namespace Resync
open Py Resync.Spec

/-! ## Names -/

theorem mem_namesAbove {q : Str} : ∀ (t done : Str), q ∈ namesAbove done t ↔ ∃ u v, t = u ++ '.' :: v ∧ q = done ++ u
  | [], done => by simp [namesAbove]
  | c :: t, done => by
    unfold namesAbove
    rw [List.mem_append, mem_namesAbove t (done ++ [c])]
    constructor
    · rintro (⟨u, v, rfl, rfl⟩ | h)
      · exact ⟨c :: u, v, rfl, by simp⟩
      · by_cases hc : c = '.'
        · subst hc
          rw [if_pos rfl, List.mem_singleton] at h
          exact ⟨[], t, rfl, by simp [h]⟩
        · rw [if_neg hc] at h; exact absurd h (List.not_mem_nil)
    · rintro ⟨u, v, e, rfl⟩
      cases u with
      | nil =>
        obtain ⟨rfl, rfl⟩ := List.cons.inj (by simpa using e)
        exact Or.inr (by simp)
      | cons d u =>
        obtain ⟨rfl, rfl⟩ := List.cons.inj (by simpa using e)
        exact Or.inl ⟨u, v, rfl, by simp⟩

theorem namesAbove_nodup : ∀ (t done : Str), (namesAbove done t).Nodup
  | [], _ => List.nodup_nil
  | c :: t, done => by
    unfold namesAbove
    refine List.nodup_append.mpr ⟨namesAbove_nodup t _, ?_, ?_⟩
    · split
      · exact List.nodup_singleton _
      · exact List.nodup_nil
    · intro a ha b hb hab
      obtain ⟨u, v, -, rfl⟩ := (mem_namesAbove t _).mp ha
      split at hb
      · rw [List.mem_singleton] at hb
        rw [hb] at hab
        have := congrArg List.length hab
        simp at this
      · exact absurd hb List.not_mem_nil

theorem mem_chainOf {n : Str} (q : Str) (hn : n ≠ []) : q ∈ chainOf n ↔ AtOrAbove q n := by
  unfold chainOf
  rw [if_neg hn, List.mem_cons, List.mem_append, mem_namesAbove, List.mem_singleton]
  unfold AtOrAbove
  constructor
  · rintro (h | ⟨u, v, h, rfl⟩ | h)
    · exact Or.inr (Or.inl h)
    · exact Or.inr (Or.inr ⟨v, by simpa using h⟩)
    · exact Or.inl h
  · rintro (h | h | ⟨v, h⟩)
    · exact Or.inr (Or.inr h)
    · exact Or.inl h
    · exact Or.inr (Or.inl ⟨q, v, h, rfl⟩)

theorem chainOf_nodup {n : Str} (hn : LoggerName n) : (chainOf n).Nodup := by
  unfold chainOf
  rw [if_neg hn.1]
  refine List.nodup_cons.mpr ⟨?_, List.nodup_append.mpr ⟨namesAbove_nodup _ _, List.nodup_singleton _, ?_⟩⟩
  · rw [List.mem_append, mem_namesAbove, List.mem_singleton]
    rintro (⟨u, v, h, e⟩ | h)
    · have := congrArg List.length h
      rw [e] at this
      simp at this
    · exact hn.1 h
  · intro a ha b hb hab
    rw [List.mem_singleton] at hb
    subst hb hab
    obtain ⟨u, v, h, e⟩ := (mem_namesAbove _ _).mp ha
    have : u = [] := by simpa using e.symm
    subst this
    exact hn.2 (by rw [h]; rfl)

/-! ## The loggers -/

/-- one round of the loop in init_logging -/
def touched (is : List Nat) (l : LoggerState) : LoggerState :=
  ({ l with level := some .debug } : LoggerState).addHandlers is

theorem addHandlers_level : ∀ (is : List Nat) (l : LoggerState), (l.addHandlers is).level = l.level
  | [], _ => rfl
  | i :: is, l => by
    unfold LoggerState.addHandlers
    rw [addHandlers_level is]
    split <;> rfl

theorem addHandlers_all : ∀ (is : List Nat) (l : LoggerState), (∀ i ∈ is, i ∈ l.handlers) → l.addHandlers is = l
  | [], _, _ => rfl
  | i :: is, l, h => by
    unfold LoggerState.addHandlers
    rw [if_pos (h i List.mem_cons_self)]
    exact addHandlers_all is l (fun j hj => h j (List.mem_cons_of_mem _ hj))

theorem addHandlers_mono : ∀ (is : List Nat) (l : LoggerState) (j : Nat), j ∈ l.handlers → j ∈ (l.addHandlers is).handlers
  | [], _, _, h => h
  | i :: is, l, j, h => by
    unfold LoggerState.addHandlers
    apply addHandlers_mono is
    split
    · exact h
    · exact List.mem_append_left _ h

theorem addHandlers_has : ∀ (is : List Nat) (l : LoggerState), ∀ i ∈ is, i ∈ (l.addHandlers is).handlers
  | [], _, _, h => absurd h List.not_mem_nil
  | i :: is, l, j, h => by
    unfold LoggerState.addHandlers
    rcases List.mem_cons.mp h with rfl | h
    · apply addHandlers_mono
      split
      · assumption
      · exact List.mem_append_right _ (List.mem_singleton.mpr rfl)
    · exact addHandlers_has is _ j h

theorem touched_twice (is : List Nat) (l : LoggerState) : touched is (touched is l) = touched is l := by
  have hl : (touched is l).level = some .debug := addHandlers_level _ _
  have : ({ touched is l with level := some .debug } : LoggerState) = touched is l := by
    rw [← hl]
  conv_lhs => rw [touched, this]
  exact addHandlers_all is _ (addHandlers_has is _)

theorem addHandlers_new : ∀ (is : List Nat) (l : LoggerState), is.Nodup → (∀ i ∈ is, i ∉ l.handlers) →
    (l.addHandlers is).handlers = l.handlers ++ is
  | [], l, _, _ => (List.append_nil _).symm
  | i :: is, l, hnd, h => by
    obtain ⟨h1, h2⟩ := List.nodup_cons.mp hnd
    unfold LoggerState.addHandlers
    rw [if_neg (h i List.mem_cons_self), addHandlers_new is _ h2]
    · simp
    · intro j hj hm
      rcases List.mem_append.mp hm with hm | hm
      · exact h j (List.mem_cons_of_mem _ hj) hm
      · rw [List.mem_singleton] at hm
        exact h1 (hm ▸ hj)

theorem setLoggers_get (is : List Nat) (n : Str) : ∀ (ns : List Str) (d : Dict LoggerState),
    dget (setLoggers is ns d) n = if n ∈ ns then some (touched is ((dget d n).getD {})) else dget d n
  | [], d => by simp [setLoggers]
  | m :: ns, d => by
    unfold setLoggers
    rw [setLoggers_get is n ns]
    change (if n ∈ ns then some (touched is ((dget (dset d m (touched is ((dget d m).getD {}))) n).getD {})) else
      dget (dset d m (touched is ((dget d m).getD {}))) n) = _
    by_cases hm : m = n
    · subst hm
      rw [dget_dset_self, if_pos List.mem_cons_self, Option.getD_some, touched_twice]
      split <;> rfl
    · rw [dget_dset_ne _ _ hm]
      by_cases hn : n ∈ ns
      · rw [if_pos hn, if_pos (List.mem_cons_of_mem _ hn)]
      · rw [if_neg hn, if_neg (by simpa [hn] using fun e => hm e.symm)]

/-- the handlers named by the loggers have been made -/
def LogWf (lg : Logging) : Prop := ∀ n, ∀ i ∈ (lg.logger n).handlers, i < lg.handlers.length

/-- the handlers of one logger -/
def handlersAt (lg : Logging) (n : Str) : List Handler := (lg.logger n).handlers.filterMap (fun i => lg.handlers[i]?)

theorem initLogging_logger (a : LogArgs) (now : Rat) (lg : Logging) (n : Str) :
    (initLogging a now lg).1.logger n =
      if n ∈ a.names then touched ((List.range a.handlers.length).map (· + lg.handlers.length)) (lg.logger n) else lg.logger n := by
  unfold initLogging Logging.logger
  dsimp only
  rw [setLoggers_get]
  split <;> rfl

theorem freshHandlers {lg : Logging} (hw : LogWf lg) (k : Nat) (n : Str) :
    (touched ((List.range k).map (· + lg.handlers.length)) (lg.logger n)).handlers =
      (lg.logger n).handlers ++ (List.range k).map (· + lg.handlers.length) := by
  unfold touched
  rw [addHandlers_new]
  · refine List.Nodup.map ?_ List.nodup_range
    intro x y h
    simpa using h
  · intro i hi hm
    obtain ⟨j, -, rfl⟩ := List.mem_map.mp hi
    have : j + lg.handlers.length < lg.handlers.length := hw n _ hm
    omega

theorem initLogging_wf (a : LogArgs) (now : Rat) {lg : Logging} (hw : LogWf lg) : LogWf (initLogging a now lg).1 := by
  intro n i hi
  have hlen : (initLogging a now lg).1.handlers.length = lg.handlers.length + a.handlers.length :=
    List.length_append
  rw [hlen]
  rw [initLogging_logger] at hi
  split at hi
  · rw [freshHandlers hw] at hi
    rcases List.mem_append.mp hi with hi | hi
    · have := hw n i hi; omega
    · obtain ⟨j, hj, rfl⟩ := List.mem_map.mp hi
      have := List.mem_range.mp hj
      show j + lg.handlers.length < _
      omega
  · have := hw n i hi; omega

theorem filterMap_old {hs more : List Handler} : ∀ {is : List Nat}, (∀ i ∈ is, i < hs.length) →
    is.filterMap (fun i => (hs ++ more)[i]?) = is.filterMap (fun i => hs[i]?)
  | [], _ => rfl
  | i :: is, h => by
    have h1 := h i List.mem_cons_self
    rw [List.filterMap_cons, List.filterMap_cons, List.getElem?_append_left h1,
      filterMap_old (fun j hj => h j (List.mem_cons_of_mem _ hj))]

theorem filterMap_range (hs : List Handler) : ∀ (pre post : List Handler), pre ++ post = hs →
    ((List.range' pre.length post.length).filterMap (fun i => hs[i]?)) = post
  | _, [], _ => rfl
  | pre, h :: post, e => by
    rw [List.length_cons, List.range'_succ, List.filterMap_cons]
    have h1 : hs[pre.length]? = some h := by rw [← e]; simp
    rw [h1]
    have := filterMap_range hs (pre ++ [h]) post (by rw [← e]; simp)
    rw [List.length_append] at this
    exact congrArg _ this

theorem handlersAt_init (a : LogArgs) (now : Rat) {lg : Logging} (hw : LogWf lg) (n : Str) :
    handlersAt (initLogging a now lg).1 n = handlersAt lg n ++ (if n ∈ a.names then a.handlers else []) := by
  have hh : (initLogging a now lg).1.handlers = lg.handlers ++ a.handlers := rfl
  unfold handlersAt
  rw [hh, initLogging_logger]
  split
  · rw [freshHandlers hw, List.filterMap_append, filterMap_old (hw n)]
    congr 1
    have := filterMap_range (lg.handlers ++ a.handlers) lg.handlers a.handlers rfl
    rw [List.range'_eq_map_range] at this
    have e : (fun x => x + lg.handlers.length) = (fun x => lg.handlers.length + x) := funext (fun x => Nat.add_comm _ _)
    rw [e]
    exact this
  · rw [filterMap_old (hw n), List.append_nil]

theorem level_init (a : LogArgs) (now : Rat) (lg : Logging) (n : Str) :
    ((initLogging a now lg).1.logger n).level = if n ∈ a.names then some .debug else (lg.logger n).level := by
  rw [initLogging_logger]
  split
  · exact addHandlers_level _ _
  · rfl

/-! ## Histories of calls -/

theorem afterCalls_eq (as : List (LogArgs × Rat)) : afterCalls as = as.foldl (fun lg a => (initLogging a.1 a.2 lg).1) {} := by
  cases as <;> rfl

theorem fresh_wf : LogWf {} := by
  intro n i hi
  have : (({} : Logging).logger n).handlers = [] := by
    unfold Logging.logger
    simp only [dget]
    split <;> rfl
  rw [this] at hi
  exact absurd hi List.not_mem_nil

theorem fresh_handlersAt (n : Str) : handlersAt {} n = [] := by
  unfold handlersAt
  have : (({} : Logging).logger n).handlers = [] := by
    unfold Logging.logger
    simp only [dget]
    split <;> rfl
  rw [this]; rfl

theorem history : ∀ (as : List (LogArgs × Rat)) (lg : Logging), LogWf lg →
    let lg' := as.foldl (fun lg a => (initLogging a.1 a.2 lg).1) lg
    LogWf lg' ∧ (∀ n, handlersAt lg' n = handlersAt lg n ++ as.flatMap (fun a => if n ∈ a.1.names then a.1.handlers else [])) ∧
    (∀ n, (lg'.logger n).level = if ∃ a ∈ as, n ∈ a.1.names then some .debug else (lg.logger n).level)
  | [], lg, hw => by simp [hw]
  | a :: as, lg, hw => by
    obtain ⟨h1, h2, h3⟩ := history as _ (initLogging_wf a.1 a.2 hw)
    refine ⟨h1, ?_, ?_⟩
    · intro n
      rw [List.foldl_cons, h2, handlersAt_init a.1 a.2 hw, List.append_assoc, List.flatMap_cons]
    · intro n
      rw [List.foldl_cons, h3, level_init]
      by_cases ha : n ∈ a.1.names
      · rw [if_pos ha, if_pos (c := ∃ b ∈ a :: as, n ∈ b.1.names) ⟨a, List.mem_cons_self, ha⟩]
        split <;> rfl
      · rw [if_neg ha]
        by_cases hs : ∃ b ∈ as, n ∈ b.1.names
        · obtain ⟨b, hb, hn⟩ := hs
          rw [if_pos ⟨b, hb, hn⟩, if_pos ⟨b, List.mem_cons_of_mem _ hb, hn⟩]
        · rw [if_neg hs, if_neg]
          rintro ⟨b, hb, hn⟩
          rcases List.mem_cons.mp hb with rfl | hb
          · exact ha hn
          · exact hs ⟨b, hb, hn⟩

/-! ## Output -/

theorem writtenTo_append (d : Dest) (xs ys : List (Dest × Str)) : writtenTo d (xs ++ ys) = writtenTo d xs ++ writtenTo d ys := by
  unfold writtenTo
  rw [List.filter_append, List.flatMap_append]

theorem times_add (m n : Nat) (s : Str) : times (m + n) s = times m s ++ times n s := by
  unfold times
  rw [List.replicate_add, List.flatten_append]

/-- handlers whose lines have the format that goes with their destination -/
def FitsDest (h : Handler) : Prop := h.detailed = true ↔ h.dest ≠ .console

theorem handlers_fitting (a : LogArgs) : ∀ h ∈ a.handlers, FitsDest h := by
  intro h hh
  unfold LogArgs.handlers at hh
  rcases List.mem_append.mp hh with hh | hh
  · split at hh
    · rw [List.mem_singleton] at hh; subst hh; simp [FitsDest]
    · exact absurd hh List.not_mem_nil
  · split at hh
    · rw [List.mem_singleton] at hh; subst hh; simp [FitsDest]
    · exact absurd hh List.not_mem_nil

/-- the line of a record at a destination -/
def lineAt (d : Dest) (t : Str) (r : Record) : Str :=
  match d with
  | .console => r.msg ++ "\n".toList
  | .file _ => logLine t r

/-- whether a handler writes a record to a destination -/
def writesTo (d : Dest) (l : Level) (h : Handler) : Bool := h.dest = d ∧ h.level.number ≤ l.number

theorem handle_written {h : Handler} (hf : FitsDest h) (d : Dest) {t : Str} (r : Record) (ht : formatTime r.created = some t) :
    writtenTo d (h.handle r) = times (if writesTo d r.level h then 1 else 0) (lineAt d t r) := by
  obtain ⟨lv, ds, dt⟩ := h
  unfold FitsDest at hf
  dsimp only at hf
  unfold Handler.handle writesTo Handler.format
  dsimp only
  by_cases hl : lv.number ≤ r.level.number
  · rw [if_pos hl]
    cases ds with
    | console =>
      have : dt = false := by simpa using hf
      subst this
      cases d with
      | console => simp [hl, writtenTo, times, lineAt]
      | file f => simp [writtenTo, times]
    | file g =>
      have : dt = true := by simpa using hf
      subst this
      cases d with
      | console => simp [writtenTo, times, ht]
      | file f =>
        by_cases hg : g = f
        · subst hg
          cases hr : r.level <;> rw [hr] at hl <;> simp [writtenTo, times, ht, hl, lineAt, logLine, hr, Level.name]
        · simp [writtenTo, times, ht, hg]
  · rw [if_neg hl]
    simp [hl, writtenTo, times]

theorem handles_written (d : Dest) {t : Str} (r : Record) (ht : formatTime r.created = some t) : ∀ (hs : List Handler), (∀ h ∈ hs, FitsDest h) →
    writtenTo d (hs.flatMap (fun h => h.handle r)) = times (hs.countP (writesTo d r.level)) (lineAt d t r)
  | [], _ => rfl
  | h :: hs, hf => by
    rw [List.flatMap_cons, writtenTo_append, handle_written (hf h List.mem_cons_self) d r ht,
      handles_written d r ht hs (fun x hx => hf x (List.mem_cons_of_mem _ hx)), List.countP_cons, Nat.add_comm (hs.countP _), times_add]

/-- how often a call makes a handler write there: 0 or 1 -/
def callCount (d : Dest) (l : Level) (a : LogArgs) : Nat := a.handlers.countP (writesTo d l)

theorem sum_swap {α β : Type} (f : α → β → Nat) : ∀ (xs : List α) (ys : List β),
    (xs.map (fun x => (ys.map (fun y => f x y)).sum)).sum = (ys.map (fun y => (xs.map (fun x => f x y)).sum)).sum
  | [], ys => by simp
  | x :: xs, ys => by
    rw [List.map_cons, List.sum_cons, sum_swap f xs ys]
    induction ys with
    | nil => rfl
    | cons y ys ih =>
      simp only [List.map_cons, List.sum_cons] at ih ⊢
      omega

theorem countP_flatMap' {α β : Type} (p : β → Bool) (f : α → List β) : ∀ xs : List α,
    (xs.flatMap f).countP p = (xs.map (fun x => (f x).countP p)).sum
  | [] => rfl
  | x :: xs => by rw [List.flatMap_cons, List.countP_append, countP_flatMap' p f xs]; rfl

theorem sum_indicator (k : Nat) (s : List Str) : ∀ xs : List Str,
    (xs.map (fun x => if x ∈ s then k else 0)).sum = k * (xs.filter (· ∈ s)).length
  | [] => rfl
  | x :: xs => by
    rw [List.map_cons, List.sum_cons, sum_indicator k s xs]
    by_cases h : x ∈ s
    · rw [if_pos h, List.filter_cons_of_pos (by simpa using h), List.length_cons, Nat.mul_succ, Nat.add_comm]
    · rw [if_neg h, List.filter_cons_of_neg (by simpa using h), Nat.zero_add]

theorem above_length (a : LogArgs) {n : Str} (hn : LoggerName n) : ((chainOf n).filter (· ∈ a.names)).length = chosenAbove a n := by
  unfold chosenAbove
  have hc : a.names = chosen a := rfl
  rw [hc]
  apply List.Perm.length_eq
  refine (List.perm_ext_iff_of_nodup ((chainOf_nodup hn).filter _) ((List.nodup_dedup _).filter _)).mpr ?_
  intro q
  simp only [List.mem_filter, mem_chainOf q hn.1, decide_eq_true_eq, List.mem_dedup]
  exact And.comm

theorem callCount_console (l : Level) (a : LogArgs) : callCount .console l a = if wantsConsole a l then 1 else 0 := by
  obtain ⟨tf, lf, dl, hu, ve, em, dn, ex⟩ := a
  cases hu <;> cases tf <;> cases ve <;> cases l <;>
    simp [callCount, LogArgs.handlers, writesTo, wantsConsole, Level.number, List.countP_cons]

theorem callCount_file (f : Str) (l : Level) (a : LogArgs) : callCount (.file f) l a = if wantsFile a f l then 1 else 0 := by
  obtain ⟨tf, lf, dl, hu, ve, em, dn, ex⟩ := a
  cases hu <;> cases tf <;> cases em <;> cases l <;>
    simp [callCount, LogArgs.handlers, writesTo, wantsFile, Level.number, List.countP_cons, LogArgs.file]

theorem fresh_level (n : Str) : (({} : Logging).logger n).level = if n = [] then some .warning else none := by
  unfold Logging.logger
  simp only [dget]
  by_cases h : n = []
  · subst h; rfl
  · rw [if_neg h, if_neg (fun e => h e.symm)]; rfl

/-- after a call that is about a logger at or above this one, everything logged by it is looked at -/
theorem effective_debug {lg : Logging} {n : Str} (hp : LoggerName n) (P : Str → Prop) [DecidablePred P]
    (hl : ∀ m, (lg.logger m).level = if P m then some .debug else if m = [] then some .warning else none)
    (h : ∃ q, P q ∧ AtOrAbove q n) : lg.effectiveLevel n = 10 := by
  have hn := hp.1
  have key : ∀ xs : List Str, [] ∉ xs → (∃ q ∈ xs ++ [[]], P q) →
      (xs ++ [[]]).findSome? (fun n => (lg.logger n).level) = some .debug := by
    intro xs
    induction xs with
    | nil =>
      rintro - ⟨q, hq, hP⟩
      rw [List.nil_append, List.mem_singleton] at hq
      subst hq
      rw [List.nil_append, List.findSome?_cons, hl, if_pos hP]
    | cons x xs ih =>
      rintro hne ⟨q, hq, hP⟩
      rw [List.cons_append, List.findSome?_cons, hl]
      by_cases hx : P x
      · rw [if_pos hx]
      · rw [if_neg hx, if_neg (fun e : x = [] => hne (e ▸ List.mem_cons_self))]
        refine ih (fun hm => hne (List.mem_cons_of_mem _ hm)) ⟨q, ?_, hP⟩
        rcases List.mem_cons.mp hq with rfl | hq
        · exact absurd hP hx
        · exact hq
  obtain ⟨q, hP, hq⟩ := h
  have hmem := (mem_chainOf q hn).mpr hq
  have hfs : (chainOf n).findSome? (fun n => (lg.logger n).level) = some .debug := by
    unfold chainOf at hmem ⊢
    rw [if_neg hn] at hmem ⊢
    have hb : [] ∉ namesAbove [] n := by
      intro hm
      obtain ⟨u, v, h, e⟩ := (mem_namesAbove _ _).mp hm
      have : u = [] := by simpa using e.symm
      subst this
      exact hp.2 (by rw [h]; rfl)
    rw [← List.cons_append] at hmem ⊢
    refine key (n :: namesAbove [] n) ?_ ⟨q, hmem, hP⟩
    intro hm
    rcases List.mem_cons.mp hm with e | hm
    · exact hn e.symm
    · exact hb hm
  unfold Logging.effectiveLevel
  rw [hfs]
  rfl

/-- the general law: what is written to a place when a record is logged -/
theorem log_written (as : List (LogArgs × Rat)) (d : Dest) (r : Record) (hn : LoggerName r.name) {t : Str} (ht : formatTime r.created = some t)
    (h : ∃ a ∈ as, (a.1.human = true ∨ a.1.to_file = true) ∧ ∃ q ∈ chosen a.1, AtOrAbove q r.name) :
    writtenTo d ((afterCalls as).log r) =
      times ((as.map (fun a => callCount d r.level a.1 * chosenAbove a.1 r.name)).sum) (lineAt d t r) := by
  obtain ⟨-, h2, h3⟩ := history as {} fresh_wf
  rw [← afterCalls_eq] at h2 h3
  have hlev : ∀ m, ((afterCalls as).logger m).level =
      if ∃ a ∈ as, m ∈ a.1.names then some .debug else if m = [] then some .warning else none := by
    intro m
    rw [h3, fresh_level]
  obtain ⟨a, ha, hw, q, hq, hab⟩ := h
  have heff := effective_debug hn (fun m => ∃ a ∈ as, m ∈ a.1.names) hlev ⟨q, ⟨a, ha, hq⟩, hab⟩
  have hfor : (afterCalls as).handlersFor r.name =
      (chainOf r.name).flatMap (fun n => as.flatMap (fun a => if n ∈ a.1.names then a.1.handlers else [])) := by
    unfold Logging.handlersFor
    congr 1
    funext n
    have := h2 n
    rw [fresh_handlersAt, List.nil_append] at this
    exact this
  have hfit : ∀ x ∈ (afterCalls as).handlersFor r.name, FitsDest x := by
    intro x hx
    rw [hfor] at hx
    obtain ⟨n, -, hx⟩ := List.mem_flatMap.mp hx
    obtain ⟨b, -, hx⟩ := List.mem_flatMap.mp hx
    split at hx
    · exact handlers_fitting _ x hx
    · exact absurd hx List.not_mem_nil
  have hne : (afterCalls as).handlersFor r.name ≠ [] := by
    rw [hfor]
    have : ∃ x, x ∈ a.1.handlers := by
      unfold LogArgs.handlers
      rcases hw with hw | hw
      · rw [if_pos hw]; exact ⟨_, List.mem_append_left _ (List.mem_singleton.mpr rfl)⟩
      · rw [if_pos (c := a.1.to_file = true) hw]; exact ⟨_, List.mem_append_right _ (List.mem_singleton.mpr rfl)⟩
    obtain ⟨x, hx⟩ := this
    refine List.ne_nil_of_mem (a := x) ?_
    refine List.mem_flatMap.mpr ⟨q, (mem_chainOf q hn.1).mpr hab, List.mem_flatMap.mpr ⟨a, ha, ?_⟩⟩
    rw [if_pos (show q ∈ a.1.names from hq)]
    exact hx
  have hlog : (afterCalls as).log r = ((afterCalls as).handlersFor r.name).flatMap (fun h => h.handle r) := by
    unfold Logging.log
    rw [heff, if_pos (by cases r.level <;> decide)]
    cases hh : (afterCalls as).handlersFor r.name with
    | nil => exact absurd hh hne
    | cons x xs => rfl
  rw [hlog, handles_written d r ht _ hfit, hfor]
  congr 1
  rw [countP_flatMap']
  have e1 : ∀ n, (as.flatMap (fun a => if n ∈ a.1.names then a.1.handlers else [])).countP (writesTo d r.level) =
      (as.map (fun a => if n ∈ a.1.names then callCount d r.level a.1 else 0)).sum := by
    intro n
    rw [countP_flatMap']
    congr 1
    apply List.map_congr_left
    intro a _
    split <;> rfl
  simp only [e1]
  rw [sum_swap]
  congr 1
  apply List.map_congr_left
  intro a _
  rw [sum_indicator, above_length a.1 hn]

end Resync
