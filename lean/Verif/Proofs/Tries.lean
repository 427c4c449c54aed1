import Verif.Spec.Tries
import Verif.Proofs.Client
/-
Lemmas for C125: runs with more tries.
-/

namespace Resync
open Py Resync.Spec

/-- `b` is later than `a` -/
abbrev Later (a b : St) : Prop := Did (fun _ => True) a b

theorem Did.later {P : Effect → Prop} {s s' : St} (h : Did P s s') : Later s s' := h.mono (fun _ _ => trivial)

/-- `b` is later than `a`, and the first thing done was to request this -/
def Again (uri : Str) (a b : St) : Prop := Later (a.emit (.get uri)) b

theorem tryGet_again (env : Env) (s : St) (uri : Str) (l : Loc) : Again uri s (tryGet env s uri l).1 := by
  unfold tryGet
  simp only
  cases env.serve s.trace uri with
  | fail e => exact Did.refl _
  | body b broken =>
    simp only
    cases h : openW env (s.emit (.get uri)) l with
    | none => exact Did.refl _
    | some s1 =>
      obtain ⟨-, -, -, rfl⟩ := openW_some h
      exact (Did.emit _ _ trivial).trans (Did.emit _ _ trivial)

theorem getLoop_again (env : Env) (ign : Bool) (uri : Str) (l : Loc) (n : Nat) (s : St) : Again uri s (getLoop env ign uri l (n + 1) s).1 := by
  have h := tryGet_again env s uri l
  unfold getLoop
  simp only
  cases (tryGet env s uri l).2 with
  | none => exact h
  | some f =>
    cases f with
    | timeout =>
      simp only
      split
      · exact h
      · exact Did.trans h (getLoop_did env ign uri l n _).1.later
    | io => exact h
    | other => exact h

theorem Again.mem {uri : Str} {a b : St} (h : Again uri a b) : Effect.get uri ∈ b.trace := by
  obtain ⟨es, h1, -⟩ := h
  rw [h1]
  simp [St.emit]

theorem Again.trans {uri : Str} {a b c : St} (h : Again uri a b) (h' : Later b c) : Again uri a c := Did.trans h h'

/-- between the two moments this has been requested -/
def Requested (uri : Str) (a b : St) : Prop := ∃ m, Later a m ∧ Again uri m b

theorem Requested.mem {uri : Str} {a b : St} (h : Requested uri a b) : Effect.get uri ∈ doneBetween a b := by
  obtain ⟨m, ⟨x, x1, -⟩, ⟨y, y1, -⟩⟩ := h
  have : b.trace = a.trace ++ (x ++ [Effect.get uri] ++ y) := by
    rw [y1]
    simp [St.emit, x1]
  unfold doneBetween
  rw [this, List.drop_left]
  simp

theorem Requested.later {uri : Str} {a b c : St} (h : Requested uri a b) (h' : Later b c) : Requested uri a c := by
  obtain ⟨m, h1, h2⟩ := h
  exact ⟨m, h1, h2.trans h'⟩

theorem Requested.earlier {uri : Str} {a b c : St} (h : Later a b) (h' : Requested uri b c) : Requested uri a c := by
  obtain ⟨m, h1, h2⟩ := h'
  exact ⟨m, Did.trans h h1, h2⟩

theorem getLoop_more (env : Env) (uri : Str) (l : Loc) (k : Nat) : ∀ (n : Nat) (s : St), 0 < n →
    getLoop env false uri l (n + k) s = getLoop env false uri l n s ∨
    ((getLoop env false uri l n s).2 = .raised .fatal ∧ Requested uri s (getLoop env false uri l n s).1 ∧
      Again uri (getLoop env false uri l n s).1 (getLoop env false uri l (n + k) s).1)
  | 0, _, h => absurd h (by omega)
  | n + 1, s, _ => by
    have hm : Requested uri s (tryGet env s uri l).1 := ⟨s, Did.refl _, tryGet_again env s uri l⟩
    have e : n + 1 + k = (n + k) + 1 := by omega
    rw [e]
    unfold getLoop
    simp only
    cases (tryGet env s uri l).2 with
    | none => exact .inl rfl
    | some f =>
      cases f with
      | timeout =>
        simp only
        by_cases hn : n = 0
        · subst hn
          rw [if_pos rfl]
          cases k with
          | zero => exact .inl rfl
          | succ k =>
            rw [if_neg (by omega)]
            refine .inr ⟨rfl, hm, ?_⟩
            have := getLoop_again env false uri l k (tryGet env s uri l).1
            rwa [show 0 + (k + 1) = k + 1 from by omega]
        · rw [if_neg hn, if_neg (by omega)]
          rcases getLoop_more env uri l k n (tryGet env s uri l).1 (by omega) with h | ⟨h1, h2, h3⟩
          · exact .inl h
          · exact .inr ⟨h1, .earlier (tryGet_did env s uri l).1.later h2, h3⟩
      | io => exact .inl rfl
      | other => exact .inl rfl

theorem goesOn_of {α : Type} {s : St} {p p' : St × Except ClientErr α} {uri : Str} (h1 : p.2 = .error .fatal)
    (h2 : Effect.get uri ∈ doneBetween s p.1) (h3 : Again uri p.1 p'.1) : GoesOn s p p' := by
  obtain ⟨es, e1, e2, -⟩ := h3
  refine .inr ⟨h1, uri, es, h2, ?_, ?_⟩
  · rw [e1]; simp [St.emit]
  · rw [e2]; rfl

theorem Spec.GoesOn.again {α : Type} {s : St} {p p' : St × Except ClientErr α} (h : GoesOn s p p') :
    p' = p ∨ (p.2 = .error .fatal ∧ ∃ uri, Effect.get uri ∈ doneBetween s p.1 ∧ Again uri p.1 p'.1) := by
  rcases h with h | ⟨h1, uri, rest, h2, h3, h4⟩
  · exact .inl h
  · exact .inr ⟨h1, uri, h2, rest, by rw [h3]; simp [St.emit], by rw [h4]; rfl, fun _ _ => trivial⟩

/-- what comes after the two goes on as well -/
theorem Spec.GoesOn.next {α β : Type} {s : St} {p p' : St × Except ClientErr α} {q q' : St × Except ClientErr β} (h : GoesOn s p p')
    (hsame : p' = p → GoesOn s q q') (hq : ∀ e, p.2 = .error e → q = (p.1, .error e)) (hl : Later p'.1 q'.1) : GoesOn s q q' := by
  rcases h.again with h | ⟨h1, uri, h2, h3⟩
  · exact hsame h
  · have e := hq _ h1
    refine goesOn_of (uri := uri) (by rw [e]) (by rw [e]; exact h2) ?_
    rw [e]
    exact h3.trans hl

section
variable (env : Env) (c : ClientCfg) (n : Nat)

theorem updateResource_more (hi : c.ignore_failures = false) (h0 : 0 < c.tries) (hn : c.tries ≤ n) {s0 : St} (s : St) (r : Resource) (fn : Str)
    (hs0 : Later s0 s) : GoesOn s0 (updateResource env c s r fn) (updateResource env { c with tries := n } s r fn) := by
  have hmk := Did.trans hs0 (mkpath_did env [] (location env.cwd (dirname fn)) s).1.later
  unfold updateResource
  dsimp only
  rcases hm : mkpath env [] (location env.cwd (dirname fn)) s with ⟨s1, b⟩
  rw [hm] at hmk
  cases b with
  | false => exact .inl rfl
  | true =>
    simp only
    split
    · exact .inl rfl
    · rw [hi]
      obtain ⟨k, rfl⟩ := Nat.exists_eq_add_of_le hn
      rcases getLoop_more env r.uri (location env.cwd fn) k c.tries s1 h0 with h | ⟨h1, h2, h3⟩
      · rw [h]; exact .inl rfl
      · rcases hg : getLoop env false r.uri (location env.cwd fn) c.tries s1 with ⟨s2, g⟩
        rcases hg' : getLoop env false r.uri (location env.cwd fn) (c.tries + k) s1 with ⟨s2', g'⟩
        rw [hg] at h1 h2 h3
        rw [hg'] at h3
        simp only at h1 h2 h3
        subst h1
        refine goesOn_of (uri := r.uri) rfl (Requested.mem (.earlier hmk h2)) ?_
        have ht := (setTime_did s2' (location env.cwd fn) r.timestamp).1.later
        rcases hs : setTime s2' (location env.cwd fn) r.timestamp with ⟨s3, x⟩
        rw [hs] at ht
        cases g' with
        | raised e => exact h3
        | gaveUp => exact h3
        | updated => simp only [hs]; cases x <;> exact h3.trans ht
        | skipped => simp only [hs]; cases x <;> exact h3.trans ht

theorem updateOne_later (s : St) (r : Resource) : Later s (updateOne env c s r).1 :=
  (updateOne_did env c true [r] [] r (by simp) s).1.later

theorem deleteOne_later (allow : Bool) (s : St) (r : Resource) : Later s (deleteOne env c allow s r).1 :=
  (deleteOne_did env c allow [] [r] r (by simp) s).1.later

theorem applyOne_later (allow : Bool) (s : St) (r : Resource) : Later s (applyOne env c allow s r).1 :=
  (applyOne_did env c allow [r] [r] r (by simp) (by simp) s).1.later

theorem forEach_later {f : St → Resource → St × Except ClientErr Unit} (hf : ∀ s r, Later s (f s r).1) (rs : List Resource) (s : St) :
    Later s (forEach f rs s).1 := by
  induction rs generalizing s with
  | nil => exact Did.refl _
  | cons r rs ih =>
    have h := hf s r
    unfold forEach
    rcases hu : f s r with ⟨s1, x⟩
    rw [hu] at h
    cases x with
    | error e => exact h
    | ok u => exact Did.trans h (ih s1)

theorem updateOne_more (hi : c.ignore_failures = false) (h0 : 0 < c.tries) (hn : c.tries ≤ n) {s0 : St} (s : St) (r : Resource)
    (hs0 : Later s0 s) : GoesOn s0 (updateOne env c s r) (updateOne env { c with tries := n } s r) := by
  unfold updateOne
  dsimp only
  cases c.disc.mapper.srcToDst r.uri with
  | error e => exact .inl rfl
  | ok fn =>
    simp only
    refine (updateResource_more env c n hi h0 hn s r fn hs0).next (fun h => by rw [h]; exact .inl rfl) ?_ ?_
    · rcases updateResource env c s r fn with ⟨s1, x⟩
      rintro e rfl
      rfl
    · rcases updateResource env { c with tries := n } s r fn with ⟨s1, x⟩
      cases x <;> exact Did.refl _

theorem applyOne_more (allow : Bool) (hi : c.ignore_failures = false) (h0 : 0 < c.tries) (hn : c.tries ≤ n) {s0 : St} (s : St) (r : Resource)
    (hs0 : Later s0 s) : GoesOn s0 (applyOne env c allow s r) (applyOne env { c with tries := n } allow s r) := by
  unfold applyOne
  dsimp only
  cases c.disc.mapper.srcToDst r.uri with
  | error e => exact .inl rfl
  | ok fn =>
    simp only
    by_cases hc : r.change = some sUpdated ∨ r.change = some sCreated
    · rw [if_pos hc, if_pos hc]
      refine (updateResource_more env c n hi h0 hn s r fn hs0).next (fun h => by rw [h]; exact .inl rfl) ?_ ?_
      · rcases updateResource env c s r fn with ⟨s1, x⟩
        rintro e rfl
        rfl
      · rcases updateResource env { c with tries := n } s r fn with ⟨s1, x⟩
        cases x <;> exact Did.refl _
    · rw [if_neg hc, if_neg hc]
      exact .inl rfl

theorem forEach_more {f f' : St → Resource → St × Except ClientErr Unit} {s0 : St} (hf : ∀ s r, Later s0 s → GoesOn s0 (f s r) (f' s r))
    (hl : ∀ s r, Later s (f' s r).1) (rs : List Resource) (s : St) (h0 : Later s0 s) : GoesOn s0 (forEach f rs s) (forEach f' rs s) := by
  induction rs generalizing s with
  | nil => exact .inl rfl
  | cons r rs ih =>
    unfold forEach
    refine (hf s r h0).next ?_ ?_ ?_
    · intro h
      have h1 := Did.trans h0 (hl s r)
      rw [h] at h1
      rw [h]
      rcases e1 : f s r with ⟨s1, x⟩
      rw [e1] at h1
      cases x with
      | error e => exact .inl rfl
      | ok u => exact ih s1 h1
    · rcases f s r with ⟨s1, x⟩
      rintro e rfl
      rfl
    · rcases f' s r with ⟨s1, x⟩
      cases x with
      | error e => exact Did.refl _
      | ok u => exact forEach_later hl rs s1

/-- a loop and what comes after it -/
theorem forEach_then {f f' : St → Resource → St × Except ClientErr Unit} {s0 : St} (hf : ∀ s r, Later s0 s → GoesOn s0 (f s r) (f' s r))
    (hl : ∀ s r, Later s (f' s r).1) (rs : List Resource) {k k' : St → St × Except ClientErr Unit} (hk : ∀ s, Later s0 s → GoesOn s0 (k s) (k' s))
    (hkl : ∀ s, Later s (k' s).1) (s : St) :
    (Later s0 s → GoesOn s0 (match forEach f rs s with
      | (s, .error e) => (s, .error e)
      | (s, .ok ()) => k s : St × Except ClientErr Unit) (match forEach f' rs s with
      | (s, .error e) => (s, .error e)
      | (s, .ok ()) => k' s : St × Except ClientErr Unit)) ∧
    Later s (match forEach f' rs s with
      | (s, .error e) => (s, .error e)
      | (s, .ok ()) => k' s : St × Except ClientErr Unit).1 := by
  have hlat := forEach_later hl rs s
  have hend : Later (forEach f' rs s).1 (match forEach f' rs s with
      | (s, .error e) => (s, .error e)
      | (s, .ok ()) => k' s : St × Except ClientErr Unit).1 := by
    rcases forEach f' rs s with ⟨s1, x⟩
    cases x with
    | error e => exact Did.refl _
    | ok u => exact hkl s1
  refine ⟨fun h0 => (forEach_more hf hl rs s h0).next ?_ ?_ hend, Did.trans hlat hend⟩
  · intro h
    have h1 := Did.trans h0 hlat
    rw [h] at h1
    rw [h]
    rcases e1 : forEach f rs s with ⟨s1, x⟩
    rw [e1] at h1
    cases x with
    | error e => exact .inl rfl
    | ok u => exact hk s1 h1
  · rcases forEach f rs s with ⟨s1, x⟩
    rintro e rfl
    rfl

theorem finish_later (s : St) : Later s (if s.last_timestamp > 0 then storeState env c s else (s, .ok ()) : St × Except ClientErr Unit).1 := by
  split
  · exact (storeState_did env c s).1.later
  · exact Did.refl _

theorem baselineSync_more (allow : Bool) (src : Dict Resource) (cmp : Comparison) (hi : c.ignore_failures = false) (h0 : 0 < c.tries)
    (hn : c.tries ≤ n) {s0 : St} (s : St) (hs0 : Later s0 s) :
    GoesOn s0 (baselineSync env c allow src cmp s) (baselineSync env { c with tries := n } allow src cmp s) := by
  unfold baselineSync
  have ha : baselineAuthority { c with tries := n } src = baselineAuthority c src := rfl
  rw [ha]
  cases baselineAuthority c src with
  | error e => exact .inl rfl
  | ok u =>
    have u1 := updateOne_more env c n hi h0 hn (s0 := s0)
    have u2 := updateOne_later env { c with tries := n }
    have d1 : ∀ s r, Later s0 s → GoesOn s0 (deleteOne env c allow s r) (deleteOne env { c with tries := n } allow s r) := fun _ _ _ => .inl rfl
    have d2 := deleteOne_later env { c with tries := n } allow
    have k3 := forEach_then d1 d2 (iterList cmp.deleted) (k := fun s => if s.last_timestamp > 0 then storeState env c s else (s, .ok ()))
      (k' := fun s => if s.last_timestamp > 0 then storeState env { c with tries := n } s else (s, .ok ())) (fun _ _ => .inl rfl)
      (finish_later env { c with tries := n })
    have k2 := forEach_then u1 u2 (iterList cmp.updated) (fun s => (k3 s).1) (fun s => (k3 s).2)
    exact (forEach_then u1 u2 (iterList cmp.created) (fun s => (k2 s).1) (fun s => (k2 s).2) { s with last_timestamp := 0 }).1
      (Did.trans hs0 (Did.same rfl rfl))

end

end Resync
