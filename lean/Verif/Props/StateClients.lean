import Verif.Props.ClientState
/-
C45: any number of clients that share a status file, each writing it in one piece.
-/

namespace Resync
open Py Resync.Spec

variable {T : Type}

/-- A step of a client in set_state when nobody comes between its opening of the file and its writing of it: the two steps are made at once. -/
def wholeStep (ft : FloatText T) (op : Str × Option T) (pc : SetPc) (file : Option Str) : SetPc × Option Str :=
  match pc with
  | .read _ => let r := setStep ft op.1 op.2 pc file; setStep ft op.1 op.2 r.1 r.2
  | _ => setStep ft op.1 op.2 pc file

/-- clients, each with one call of set_state, under a schedule that says whose turn it is -/
def runClients (ft : FloatText T) (ops : Nat → Str × Option T) : List Nat → (Nat → SetPc) × Option Str → (Nat → SetPc) × Option Str
  | [], st => st
  | i :: sch, st =>
    let r := wholeStep ft (ops i) (st.1 i) st.2
    runClients ft ops sch (fun j => if j = i then r.1 else st.1 j, r.2)

theorem runClients_append (ft : FloatText T) (ops : Nat → Str × Option T) (s1 s2 : List Nat) : ∀ st,
    runClients ft ops (s1 ++ s2) st = runClients ft ops s2 (runClients ft ops s1 st) := by
  induction s1 with
  | nil => intro st; rfl
  | cons i t ih => intro st; rw [List.cons_append, runClients, ih]; rfl

/-- every entry is the one at the beginning or one that a client which is past reading sets -/
def Comes (d0 : Dict T) (ops : Nat → Str × Option T) (_ : Nat → SetPc) (who : Nat → Prop) (d : Dict T) : Prop :=
  ∀ k, dget d k = dget d0 k ∨ ∃ i, who i ∧ siteKey (ops i).1 = k ∧ dget d k = (ops i).2

structure ClientsInv (ft : FloatText T) (d0 : Dict T) (ops : Nat → Str × Option T) (st : (Nat → SetPc) × Option Str) : Prop where
  file : ∃ d, Holds ft st.2 d ∧ Comes d0 ops st.1 (fun i => st.1 i = .done) d
  pcs : ∀ i, st.1 i = .start ∨ st.1 i = .done ∨ ∃ c d, st.1 i = .read c ∧ Holds ft (some c.write) (stateStep d (ops i)) ∧
    Comes d0 ops st.1 (fun j => st.1 j = .done) d

theorem clients_step {ft : FloatText T} (hft : FloatOk ft) {d0 : Dict T} {ops : Nat → Str × Option T} (hops : ∀ i, (ops i).1 ≠ [])
    {st : (Nat → SetPc) × Option Str} (h : ClientsInv ft d0 ops st) (i : Nat) : ClientsInv ft d0 ops (runClients ft ops [i] st) ∧
    (∀ c, st.1 i = .read c → (runClients ft ops [i] st).1 i = .done ∧
      getState ft (runClients ft ops [i] st).2 (ops i).1 = .ok (ops i).2) := by
  obtain ⟨⟨d, hd, hcome⟩, hp⟩ := h
  have grow : ∀ {pcs : Nat → SetPc} {d : Dict T}, (∀ j, st.1 j = .done → pcs j = .done) →
      Comes d0 ops st.1 (fun j => st.1 j = .done) d → Comes d0 ops pcs (fun j => pcs j = .done) d := by
    intro pcs d hsub hc k
    rcases hc k with h | ⟨j, h1, h2⟩
    · exact .inl h
    · exact .inr ⟨j, hsub j h1, h2⟩
  simp only [runClients]
  rcases hp i with hi | hi | ⟨c, d', hi, hw, hcome'⟩
  · obtain ⟨c, f', g1, g2, rfl⟩ := setSteps_run hft hd (ops i).1 (hops i) (ops i).2
    have e : wholeStep ft (ops i) (st.1 i) st.2 = (.read c, st.2) := by rw [hi]; exact g2
    rw [e]
    have hsub : ∀ j, st.1 j = .done → (fun j => if j = i then SetPc.read c else st.1 j) j = .done := by
      intro j hj
      have : j ≠ i := by rintro rfl; rw [hi] at hj; cases hj
      simp only [if_neg this, hj]
    refine ⟨⟨⟨d, hd, grow hsub hcome⟩, ?_⟩, by intro c' hc'; rw [hi] at hc'; cases hc'⟩
    intro j
    by_cases hj : j = i
    · subst hj
      exact .inr (.inr ⟨c, d, by simp, g1, grow hsub hcome⟩)
    · simp only [if_neg hj]
      rcases hp j with h | h | ⟨c2, d2, h1, h2, h3⟩
      · exact .inl h
      · exact .inr (.inl h)
      · exact .inr (.inr ⟨c2, d2, h1, h2, grow hsub h3⟩)
  · have e : wholeStep ft (ops i) (st.1 i) st.2 = (.done, st.2) := by rw [hi]; rfl
    rw [e]
    have hsame : (fun j => if j = i then SetPc.done else st.1 j) = st.1 := by
      funext j
      by_cases hj : j = i
      · rw [if_pos hj, hj, hi]
      · rw [if_neg hj]
    rw [hsame]
    exact ⟨⟨⟨d, hd, hcome⟩, hp⟩, by intro c' hc'; rw [hi] at hc'; cases hc'⟩
  · have e : wholeStep ft (ops i) (st.1 i) st.2 = (.done, some c.write) := by
      rw [hi]; simp [wholeStep, setStep]
    rw [e]
    have hsub : ∀ j, st.1 j = .done → (fun j => if j = i then SetPc.done else st.1 j) j = .done := by
      intro j hj
      by_cases h : j = i
      · simp [h]
      · simp [h, hj]
    refine ⟨⟨⟨stateStep d' (ops i), hw, ?_⟩, ?_⟩, ?_⟩
    · intro k
      by_cases hk : siteKey (ops i).1 = k
      · exact .inr ⟨i, by simp, hk, by rw [dget_stateStep, if_pos hk]⟩
      · have := grow hsub hcome' k
        rw [dget_stateStep, if_neg hk]
        exact this
    · intro j
      by_cases hj : j = i
      · exact .inr (.inl (by simp [hj]))
      · simp only [if_neg hj]
        rcases hp j with h | h | ⟨c2, d2, h1, h2, h3⟩
        · exact .inl h
        · exact .inr (.inl h)
        · exact .inr (.inr ⟨c2, d2, h1, h2, grow hsub h3⟩)
    · intro c' _
      refine ⟨by simp, ?_⟩
      rw [getState_holds hft hw, dget_stateStep, if_pos rfl]

theorem clients_run {ft : FloatText T} (hft : FloatOk ft) {d0 : Dict T} {ops : Nat → Str × Option T} (hops : ∀ i, (ops i).1 ≠ [])
    (sch : List Nat) : ∀ {st : (Nat → SetPc) × Option Str}, ClientsInv ft d0 ops st → ClientsInv ft d0 ops (runClients ft ops sch st) := by
  induction sch with
  | nil => intro st h; exact h
  | cons i t ih =>
    intro st h
    have := (clients_step hft hops h i).1
    exact ih this

/-- C45 as far as it holds, for any number of clients that call set_state at the same time, in any order of their steps, provided that nobody
comes between a client's opening of the file for writing and its writing: no client fails, the file can be read at any
time, and for every site it has the timestamp from before, or one that a client that has finished has set for it: never
anything else. -/
theorem C45_clients_partial (ft : FloatText T) (hft : FloatOk ft) (history : List (Str × Option T)) (hist : ∀ op ∈ history, op.1 ≠ [])
    (file : Option Str) (hfile : setAll ft none history = .ok file) (ops : Nat → Str × Option T) (hops : ∀ i, (ops i).1 ≠ []) (sch : List Nat) :
    (∀ i e, (runClients ft ops sch (fun _ => .start, file)).1 i ≠ .failed e) ∧
    ∀ site, getState ft (runClients ft ops sch (fun _ => .start, file)).2 site = getState ft file site ∨
      ∃ i, (runClients ft ops sch (fun _ => .start, file)).1 i = .done ∧ SameKey (ops i).1 site ∧
        getState ft (runClients ft ops sch (fun _ => .start, file)).2 site = .ok (ops i).2 := by
  obtain ⟨f, e1, hh⟩ := setAll_holds hft history hist (holds_none ft)
  rw [e1] at hfile
  cases hfile
  have inv := clients_run hft hops sch (st := (fun _ => SetPc.start, file)) (d0 := history.foldl stateStep [])
    ⟨⟨_, hh, fun k => .inl rfl⟩, fun i => .inl rfl⟩
  constructor
  · intro i e he
    rcases inv.pcs i with h | h | ⟨c, d, h, -⟩ <;> rw [he] at h <;> cases h
  · intro site
    obtain ⟨d, hd, hc⟩ := inv.file
    rw [getState_holds hft hd, getState_holds hft hh]
    rcases hc (siteKey site) with h | ⟨i, h1, h2, h3⟩
    · exact .inl (by rw [h])
    · exact .inr ⟨i, h1, (siteKey_eq _ _).mp h2, by rw [h3]⟩

/-- C45, as above: a client that writes the file has its timestamp in it then (until another one writes). -/
theorem C45_writer_partial (ft : FloatText T) (hft : FloatOk ft) (history : List (Str × Option T)) (hist : ∀ op ∈ history, op.1 ≠ [])
    (file : Option Str) (hfile : setAll ft none history = .ok file) (ops : Nat → Str × Option T) (hops : ∀ i, (ops i).1 ≠ []) (sch : List Nat)
    (i : Nat) (c : Cfg) (hi : (runClients ft ops sch (fun _ => .start, file)).1 i = .read c) :
    (runClients ft ops (sch ++ [i]) (fun _ => .start, file)).1 i = .done ∧
      getState ft (runClients ft ops (sch ++ [i]) (fun _ => .start, file)).2 (ops i).1 = .ok (ops i).2 := by
  obtain ⟨f, e1, hh⟩ := setAll_holds hft history hist (holds_none ft)
  rw [e1] at hfile
  cases hfile
  have inv := clients_run hft hops sch (st := (fun _ => SetPc.start, file)) (d0 := history.foldl stateStep [])
    ⟨⟨_, hh, fun k => .inl rfl⟩, fun i => .inl rfl⟩
  rw [runClients_append]
  exact (clients_step hft hops inv i).2 c hi

/-- Three clients: two have read before the third writes, its update is lost; the two others' survive or not by their order -/
example : let ops : Nat → Str × Option ExT := fun i => if i = 0 then ("s".toList, some .a) else if i = 1 then ("t".toList, some .b) else ("u".toList, some .c)
    let st := runClients exFt ops [0, 1, 2, 2, 0, 1] (fun _ => .start, none)
    (st.1 0 = .done ∧ st.1 1 = .done ∧ st.1 2 = .done) ∧ getState exFt st.2 "t".toList = .ok (some .b) ∧
      getState exFt st.2 "s".toList = .ok none ∧ getState exFt st.2 "u".toList = .ok none := by
  decide

end Resync
