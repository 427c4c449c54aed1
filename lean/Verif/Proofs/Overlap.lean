import Verif.Spec.Overlap
import Verif.Proofs.Repeat
import Mathlib.Data.List.Induction
/- Syncs that overlap: what a run writes, and what becomes of a file that several processes write. -/

namespace Resync
open Py Resync.Spec

/- Part 1: what a run writes. -/

/-- Files are opened and written one after the other -/
inductive Segs (W : Loc → Bytes → Prop) : List Effect → Prop
  | nil : Segs W []
  | other {e : Effect} {es : List Effect} : (∀ l t, e ≠ .trunc l t) → (∀ l b, e ≠ .append l b) → Segs W es → Segs W (e :: es)
  | write {l : Loc} {t : Rat} {b : Bytes} {es : List Effect} : W l b → Segs W es → Segs W (.trunc l t :: .append l b :: es)

theorem Segs.append {W : Loc → Bytes → Prop} {es fs : List Effect} (h : Segs W es) (h' : Segs W fs) : Segs W (es ++ fs) := by
  induction h with
  | nil => exact h'
  | other h1 h2 _ ih => exact .other h1 h2 ih
  | write h1 _ ih => exact .write h1 ih

/-- the bytes written to `l` last -/
def lastWrite (l : Loc) : List Effect → Option Bytes
  | [] => none
  | e :: es =>
    match lastWrite l es with
    | some b => some b
    | none =>
      match e with
      | .append k b => if k = l then some b else none
      | _ => none

theorem lastWrite_append (l : Loc) (es fs : List Effect) :
    lastWrite l (es ++ fs) = match lastWrite l fs with | some b => some b | none => lastWrite l es := by
  induction es with
  | nil => simp only [List.nil_append, lastWrite]; cases lastWrite l fs <;> rfl
  | cons e es ih =>
    simp only [List.cons_append, lastWrite, ih]
    cases lastWrite l fs with
    | some b => rfl
    | none => rfl

/-- what is written last is as it should be -/
def EndsWell (V : Loc → Bytes → Prop) (es : List Effect) : Prop := ∀ l b, lastWrite l es = some b → V l b

theorem EndsWell.append {V : Loc → Bytes → Prop} {es fs : List Effect} (h : EndsWell V es) (h' : EndsWell V fs) : EndsWell V (es ++ fs) := by
  intro l b hb
  rw [lastWrite_append] at hb
  cases hf : lastWrite l fs with
  | some c => rw [hf] at hb; cases hb; exact h' l _ hf
  | none => rw [hf] at hb; exact h l b hb

/-- The run from `s` to `s'` writes in this way, and if `fin`, it ends well -/
def Writes (W V : Loc → Bytes → Prop) (fin : Prop) (s s' : St) : Prop :=
  ∃ es, s'.trace = s.trace ++ es ∧ Segs W es ∧ (fin → EndsWell V es)

section
variable {W V : Loc → Bytes → Prop}

theorem endsWell_nil : EndsWell V [] := by intro l b h; cases h

theorem Writes.same {fin : Prop} {s s' : St} (h : s'.trace = s.trace) : Writes W V fin s s' :=
  ⟨[], by simp [h], .nil, fun _ => endsWell_nil⟩

theorem Writes.refl {fin : Prop} {s : St} : Writes W V fin s s := .same rfl

theorem Writes.trans {f1 f2 fin : Prop} {a b c : St} (h : Writes W V f1 a b) (h' : Writes W V f2 b c) (h1 : fin → f1) (h2 : fin → f2) :
    Writes W V fin a c := by
  obtain ⟨x, x1, x2, x3⟩ := h
  obtain ⟨y, y1, y2, y3⟩ := h'
  exact ⟨x ++ y, by rw [y1, x1, List.append_assoc], x2.append y2, fun hf => (x3 (h1 hf)).append (y3 (h2 hf))⟩

theorem Writes.weaken {f fin : Prop} {a b : St} (h : Writes W V f a b) (h1 : fin → f) : Writes W V fin a b := by
  obtain ⟨x, x1, x2, x3⟩ := h
  exact ⟨x, x1, x2, fun hf => x3 (h1 hf)⟩

theorem Writes.to {fin : Prop} {a b c : St} (h : Writes W V fin a b) (ht : c.trace = b.trace) : Writes W V fin a c := by
  obtain ⟨x, x1, x2, x3⟩ := h
  exact ⟨x, by rw [ht, x1], x2, x3⟩

theorem Writes.emit {fin : Prop} {s : St} {e : Effect} (h1 : ∀ l t, e ≠ .trunc l t) (h2 : ∀ l b, e ≠ .append l b) :
    Writes W V fin s (s.emit e) := by
  refine ⟨[e], rfl, .other h1 h2 .nil, fun _ l b h => ?_⟩
  cases e with
  | append k b' => exact absurd rfl (h2 k b')
  | _ => cases h

theorem writes_mkpath (env : Env) {fin : Prop} : ∀ (rest : List Str) (pre : Loc) (s : St), Writes W V fin s (mkpath env pre rest s).1 := by
  intro rest
  induction rest with
  | nil => intro pre s; exact .refl
  | cons n rest ih =>
    intro pre s
    simp only [mkpath]
    split
    · exact ih _ s
    · exact .refl
    · split
      · exact .refl
      · exact (Writes.emit (fin := fin) (by simp) (by simp)).trans (ih _ _) id id

/-- What may be written to the file of a resource: whatever the server sends; and what may be there in the end: a complete answer -/
structure MayWrite (W V : Loc → Bytes → Prop) (env : Env) (uri : Str) (l : Loc) : Prop where
  some : ∀ tr b e, env.serve tr uri = .body b e → W l b
  whole : ∀ tr b, env.serve tr uri = .body b none → V l b

theorem writes_getLoop (env : Env) (ig : Bool) (uri : Str) (l : Loc) (hm : MayWrite W V env uri l) (n : Nat) : ∀ s : St,
    ∃ es, (getLoop env ig uri l n s).1.trace = s.trace ++ es ∧ Segs W es ∧ (∀ k, k ≠ l → lastWrite k es = none) ∧
      ((getLoop env ig uri l n s).2 = .updated → ∃ b, lastWrite l es = some b ∧ V l b) ∧
      ((getLoop env ig uri l n s).2 = .skipped → n = 0 ∧ es = []) ∧ ((getLoop env ig uri l n s).2 = .gaveUp → ig = true) := by
  induction n with
  | zero => intro s; exact ⟨[], by simp [getLoop], .nil, fun _ _ => rfl, by simp [getLoop], by simp, by simp [getLoop]⟩
  | succ n ih =>
    intro s
    have ht : ∃ es, (tryGet env s uri l).1.trace = s.trace ++ es ∧ Segs W es ∧ (∀ k, k ≠ l → lastWrite k es = none) ∧
        ((tryGet env s uri l).2 = none → ∃ b, lastWrite l es = some b ∧ V l b) := by
      unfold tryGet
      simp only
      split
      · exact ⟨[.get uri], rfl, .other (by simp) (by simp) .nil, fun _ _ => rfl, by simp⟩
      · rename_i b br hb
        split
        · exact ⟨[.get uri], rfl, .other (by simp) (by simp) .nil, fun _ _ => rfl, by simp⟩
        · rename_i s2 hs2
          obtain ⟨-, -, -, rfl⟩ := openW_some hs2
          refine ⟨[.get uri, .trunc l (env.now (s.emit (.get uri)).trace), .append l b], by simp [St.emit],
            .other (by simp) (by simp) (.write (hm.some _ _ _ hb) .nil), ?_, ?_⟩
          · intro k hk
            simp [lastWrite, Ne.symm hk]
          · rintro rfl
            exact ⟨b, by simp [lastWrite], hm.whole _ _ hb⟩
    obtain ⟨es, t1, t2, t3, t4⟩ := ht
    simp only [getLoop]
    cases hr : (tryGet env s uri l).2 with
    | none => exact ⟨es, t1, t2, t3, fun _ => t4 hr, by simp, by simp⟩
    | some e =>
      have hg : (if ig = true then Got.gaveUp else Got.raised .fatal) = .gaveUp → ig = true := by cases ig <;> simp
      have h1 : (if ig = true then Got.gaveUp else Got.raised .fatal) ≠ .updated := by cases ig <;> simp
      have h2 : (if ig = true then Got.gaveUp else Got.raised .fatal) ≠ .skipped := by cases ig <;> simp
      cases e with
      | io => exact ⟨es, t1, t2, t3, fun h => absurd h h1, fun h => absurd h h2, hg⟩
      | other => exact ⟨es, t1, t2, t3, by simp, by simp, by simp⟩
      | timeout =>
        simp only
        split
        · exact ⟨es, t1, t2, t3, fun h => absurd h h1, fun h => absurd h h2, hg⟩
        · rename_i hn
          obtain ⟨fs, f1, f2, f3, f4, f5, f6⟩ := ih (tryGet env s uri l).1
          refine ⟨es ++ fs, by rw [f1, t1, List.append_assoc], t2.append f2, ?_, ?_, ?_, f6⟩
          · intro k hk
            rw [lastWrite_append, f3 k hk]; exact t3 k hk
          · intro h
            obtain ⟨b, b1, b2⟩ := f4 h
            exact ⟨b, by rw [lastWrite_append, b1], b2⟩
          · intro h
            exact absurd (f5 h).1 hn

theorem writes_setTime {fin : Prop} (s : St) (l : Loc) (t : Option Rat) : Writes W V fin s (setTime s l t).1 := by
  unfold setTime
  split
  · exact .refl
  · split
    · exact .refl
    · exact (Writes.emit (fin := fin) (by simp) (by simp)).to (St.seen_trace _ _)

theorem writes_updateResource (env : Env) (c : ClientCfg) (s : St) (r : Resource) (fn : Str)
    (hm : MayWrite W V env r.uri (location env.cwd fn)) :
    Writes W V ((∃ n, (updateResource env c s r fn).2 = .ok n) ∧ c.ignore_failures = false) s (updateResource env c s r fn).1 := by
  have h0 := writes_mkpath (W := W) (V := V) env (fin := True) (location env.cwd (dirname fn)) [] s
  unfold updateResource
  cases hmk : mkpath env [] (location env.cwd (dirname fn)) s with
  | mk s1 b =>
  rw [hmk] at h0
  cases b with
  | false => exact h0.weaken (fun _ => trivial)
  | true =>
    simp only
    split
    · exact h0.weaken (fun _ => trivial)
    · obtain ⟨es, g1, g2, g3, g4, g5, g6⟩ := writes_getLoop env c.ignore_failures r.uri _ hm c.tries s1
      cases hgl : getLoop env c.ignore_failures r.uri (location env.cwd fn) c.tries s1 with
      | mk s2 g =>
      rw [hgl] at g1 g4 g5 g6
      simp only at g1 g4 g5 g6
      have hfin : (g = .updated ∨ g = .skipped) → EndsWell V es := by
        intro h l b hb
        rcases h with h | h
        · obtain ⟨b', b1, b2⟩ := g4 h
          by_cases hl : l = location env.cwd fn
          · rw [hl] at hb ⊢; rw [b1] at hb; cases hb; exact b2
          · rw [g3 l hl] at hb; cases hb
        · rw [(g5 h).2] at hb; cases hb
      have hw : Writes W V (g = .updated ∨ g = .skipped) s s2 := h0.trans ⟨es, g1, g2, hfin⟩ (fun _ => trivial) id
      have hs := writes_setTime (W := W) (V := V) (fin := True) s2 (location env.cwd fn) r.timestamp
      cases g with
      | raised e => exact hw.weaken (by rintro ⟨⟨n, h⟩, -⟩; cases h)
      | gaveUp => exact hw.weaken (by rintro ⟨-, h⟩; rw [g6 rfl] at h; cases h)
      | updated =>
        simp only
        cases ht : setTime s2 (location env.cwd fn) r.timestamp with
        | mk s3 x =>
        rw [ht] at hs
        cases x <;> exact hw.trans hs (fun _ => .inl rfl) (fun _ => trivial)
      | skipped =>
        simp only
        cases ht : setTime s2 (location env.cwd fn) r.timestamp with
        | mk s3 x =>
        rw [ht] at hs
        cases x <;> exact hw.trans hs (fun _ => .inr rfl) (fun _ => trivial)

theorem writes_deleteResource {fin : Prop} (env : Env) (c : ClientCfg) (allow : Bool) (s : St) (r : Resource) (fn : Str) :
    Writes W V fin s (deleteResource env c allow s r fn).1 := by
  have h0 : Writes W V fin s (s.seen r.timestamp) := .same (St.seen_trace _ _)
  unfold deleteResource
  simp only
  split
  · exact h0
  · split
    · exact h0
    · split
      · split
        · exact h0
        · exact h0.trans (f2 := fin) (.emit (by simp) (by simp)) id id
      · exact h0

/-- ended with success, and failures are not ignored -/
abbrev Finished (c : ClientCfg) (x : Except ClientErr Unit) : Prop := x = .ok () ∧ c.ignore_failures = false

theorem writes_forEach (c : ClientCfg) (f : St → Resource → St × Except ClientErr Unit) (rs : List Resource)
    (hf : ∀ r ∈ rs, ∀ s, Writes W V (Finished c (f s r).2) s (f s r).1) : ∀ s : St, Writes W V (Finished c (forEach f rs s).2) s (forEach f rs s).1 := by
  induction rs with
  | nil => intro s; exact .refl
  | cons r t ih =>
    intro s
    have h1 := hf r (by simp) s
    simp only [forEach]
    cases hr : f s r with
    | mk s1 x =>
    rw [hr] at h1
    cases x with
    | error e => exact h1
    | ok u => exact h1.trans (ih (fun r' hr' => hf r' (by simp [hr'])) s1) (fun h => ⟨rfl, h.2⟩) id

theorem writes_storeState {fin : Prop} (env : Env) (c : ClientCfg) (s : St) : Writes W V fin s (storeState env c s).1 := by
  unfold storeState
  split
  · exact .refl
  · split
    · exact .refl
    · exact .refl
    · exact .emit (by simp) (by simp)

theorem writes_updateOne (env : Env) (c : ClientCfg) (s : St) (r : Resource)
    (hm : ∀ fn, c.disc.mapper.srcToDst r.uri = .ok fn → MayWrite W V env r.uri (location env.cwd fn)) :
    Writes W V (Finished c (updateOne env c s r).2) s (updateOne env c s r).1 := by
  unfold updateOne
  split
  · exact .refl
  · rename_i fn hfn
    have := writes_updateResource env c s r fn (hm fn hfn)
    cases hup : updateResource env c s r fn with
    | mk s1 x =>
    rw [hup] at this
    cases x with
    | error e => exact this.weaken (by rintro ⟨h, -⟩; cases h)
    | ok n => exact this.weaken (fun h => ⟨⟨n, rfl⟩, h.2⟩)

theorem writes_baselineSync (env : Env) (c : ClientCfg) (allow : Bool) (src : Dict Resource) (cmp : Comparison) (s : St)
    (hp : ∀ r ∈ iterList cmp.created ++ iterList cmp.updated, ∀ fn, c.disc.mapper.srcToDst r.uri = .ok fn →
      MayWrite W V env r.uri (location env.cwd fn)) :
    Writes W V (Finished c (baselineSync env c allow src cmp s).2) s (baselineSync env c allow src cmp s).1 := by
  have hdl : ∀ r ∈ iterList cmp.deleted, ∀ s, Writes W V (Finished c (deleteOne env c allow s r).2) s (deleteOne env c allow s r).1 := by
    intro r hr s
    unfold deleteOne
    split
    · exact .refl
    · exact writes_deleteResource env c allow s r _
  unfold baselineSync
  cases ha : baselineAuthority c src with
  | error e => exact .refl
  | ok u =>
    simp only
    have k0 : Writes W V True s { s with last_timestamp := 0 } := .same rfl
    have k1 := writes_forEach c (updateOne env c) (iterList cmp.created)
      (fun r hr s => writes_updateOne env c s r (hp r (List.mem_append_left _ hr))) { s with last_timestamp := 0 }
    cases h1 : forEach (updateOne env c) (iterList cmp.created) { s with last_timestamp := 0 } with
    | mk s1 x1 =>
    rw [h1] at k1
    cases x1 with
    | error e => exact k0.trans k1 (fun _ => trivial) id
    | ok _ =>
      simp only
      have k2 := writes_forEach c (updateOne env c) (iterList cmp.updated)
        (fun r hr s => writes_updateOne env c s r (hp r (List.mem_append_right _ hr))) s1
      have k01 := k0.trans k1 (fin := c.ignore_failures = false) (fun _ => trivial) (fun h => ⟨rfl, h⟩)
      simp only at k01
      cases h2 : forEach (updateOne env c) (iterList cmp.updated) s1 with
      | mk s2 x2 =>
      rw [h2] at k2
      cases x2 with
      | error e => exact k01.trans k2 (fun h => h.2) id
      | ok _ =>
        simp only
        have k3 := writes_forEach c (deleteOne env c allow) (iterList cmp.deleted) hdl s2
        have k02 := k01.trans k2 (fin := c.ignore_failures = false) id (fun h => ⟨rfl, h⟩)
        simp only at k02
        cases h3 : forEach (deleteOne env c allow) (iterList cmp.deleted) s2 with
        | mk s3 x3 =>
        rw [h3] at k3
        cases x3 with
        | error e => exact k02.trans k3 (fun h => h.2) id
        | ok _ =>
          simp only
          have k03 := k02.trans k3 (fin := c.ignore_failures = false) id (fun h => ⟨rfl, h⟩)
          simp only at k03
          split
          · exact k03.trans (writes_storeState (fin := True) env c s3) (fun h => h.2) (fun _ => trivial)
          · exact k03.weaken (fun h => h.2)

theorem writes_baseline (env : Env) (c : ClientCfg) (allow audit : Bool) (s : St) (hk : ListsKeyed env.sources) (hpr : ProperFs s.world.fs)
    (hp : ∀ src r, (findResourceList env.sources c.disc).2 = .ok src → (r.uri, r) ∈ src → ∀ fn, c.disc.mapper.srcToDst r.uri = .ok fn →
      MayWrite W V env r.uri (location env.cwd fn)) :
    Writes W V (Finished c (baselineOrAudit env c allow audit s).2) s (baselineOrAudit env c allow audit s).1 := by
  unfold baselineOrAudit
  obtain ⟨p1, p2, _⟩ := baselinePlan_same env c audit s
  cases hpl : baselinePlan env c audit s with
  | mk s1 x =>
  rw [hpl] at p1 p2
  have k0 : Writes W V True s s1 := .same p2
  cases x with
  | error e => exact k0.weaken (fun _ => trivial)
  | ok y =>
    obtain ⟨src, cmp⟩ := y
    simp only
    split
    · exact k0.weaken (fun _ => trivial)
    · obtain ⟨dst, hpn⟩ := baselinePlan_ok hpl
      have pf := planFacts hk hpr hpn
      refine k0.trans (writes_baselineSync env c allow src cmp s1 ?_) (fun _ => trivial) id
      intro r hr fn hfn
      exact hp src r hpn.found (mem_of_dget (plan_upd_source pf hr)) fn hfn

theorem writes_incremental (env : Env) (c : ClientCfg) (allow : Bool) (uri fd : Option Str) (s : St)
    (hp : ∀ clUri cl r, env.changeList clUri = some cl → r ∈ cl → ∀ fn, c.disc.mapper.srcToDst r.uri = .ok fn →
      MayWrite W V env r.uri (location env.cwd fn)) :
    Writes W V (Finished c (incremental env c allow uri fd s).2) s (incremental env c allow uri fd s).1 := by
  unfold incremental
  obtain ⟨p1, p2⟩ := incrementalPlan_same env c uri fd s
  cases hpl : incrementalPlan env c uri fd s with
  | mk s1 x =>
  rw [hpl] at p1 p2
  have k0 : Writes W V True s s1 := .same p2
  cases x with
  | error e => exact k0.weaken (fun _ => trivial)
  | ok cl =>
    simp only
    split
    · exact k0.weaken (fun _ => trivial)
    · obtain ⟨t0, clUri, raw, kept, last, hpn⟩ := incrementalPlan_ok hpl
      have k1 := writes_forEach (W := W) (V := V) c (applyOne env c allow) cl (by
        intro r hr s
        have hraw : r ∈ raw := (lastChange_mem (planned_last hpn hr)).1
        unfold applyOne
        split
        · exact .refl
        · rename_i fn hfn
          split
          · have := writes_updateResource env c s r fn (hp clUri raw r hpn.read hraw fn hfn)
            cases hup : updateResource env c s r fn with
            | mk s1 x =>
            rw [hup] at this
            cases x with
            | error e => exact this.weaken (by rintro ⟨h, -⟩; cases h)
            | ok n => exact this.weaken (fun h => ⟨⟨n, rfl⟩, h.2⟩)
          · split
            · exact writes_deleteResource env c allow s r _
            · exact .refl) s1
      cases h1 : forEach (applyOne env c allow) cl s1 with
      | mk s2 x1 =>
      rw [h1] at k1
      cases x1 with
      | error e => exact k0.trans k1 (fun _ => trivial) id
      | ok _ =>
        simp only
        have k2 := k0.trans k1 (fin := c.ignore_failures = false) (fun _ => trivial) (fun h => ⟨rfl, h⟩)
        simp only at k2
        split
        · exact k2.trans (writes_storeState (fin := True) env c s2) (fun h => h.2) (fun _ => trivial)
        · exact k2.weaken (fun h => h.2)

theorem Writes.does {fin : Prop} {s s' : St} (h : Writes W V fin s s') : Segs W (doneBetween s s') ∧ (fin → EndsWell V (doneBetween s s')) := by
  obtain ⟨es, h1, h2, h3⟩ := h
  have : doneBetween s s' = es := by unfold doneBetween; rw [h1, List.drop_left]
  rw [this]; exact ⟨h2, h3⟩

end

/- Part 2: what the process has written to one file so far, in pieces. -/

/-- Bytes written to `l` since it was opened last (by this process), and whether it is the file open now -/
def track (l : Loc) (st : Option Bytes × Bool) : Effect → Option Bytes × Bool
  | .trunc k _ => if k = l then (some [], true) else (st.1, false)
  | .append k b => if k = l then (st.1.map (· ++ b), st.2) else st
  | _ => st

/-- bytes are written only to an open file, and make up a beginning of `C` -/
def FitsAt (l : Loc) (C : Bytes) (st : Option Bytes × Bool) : Effect → Prop
  | .append k b => k = l → st.2 = true ∧ ∃ c, st.1 = some c ∧ c ++ b <+: C
  | _ => True

def Fitting (l : Loc) (C : Bytes) : Option Bytes × Bool → List Effect → Prop
  | _, [] => True
  | st, e :: es => FitsAt l C st e ∧ Fitting l C (track l st e) es

theorem fitting_append (l : Loc) (C : Bytes) : ∀ (x y : List Effect) (st : Option Bytes × Bool),
    Fitting l C st (x ++ y) ↔ Fitting l C st x ∧ Fitting l C (x.foldl (track l) st) y
  | [], y, st => by simp [Fitting]
  | e :: x, y, st => by
    simp only [List.cons_append, Fitting, List.foldl_cons, fitting_append l C x y, and_assoc]

theorem inPieces_append {l : Loc} {b : Bytes} {es fs : List Effect} (h : InPieces (.append l b :: es) fs) :
    ∃ (ps : List Bytes) (gs : List Effect), fs = ps.map (Effect.append l) ++ gs ∧ ps.flatten = b ∧ InPieces es gs := by
  generalize hx : (Effect.append l b :: es) = x at h
  induction h generalizing b with
  | done => cases hx
  | next e h _ =>
    cases hx
    exact ⟨[b], _, rfl, by simp, h⟩
  | piece l' b1 b2 h ih =>
    cases hx
    obtain ⟨ps, gs, h1, h2, h3⟩ := ih rfl
    exact ⟨b1 :: ps, gs, by rw [h1]; rfl, by simp [h2], h3⟩

theorem inPieces_other {e : Effect} {es fs : List Effect} (he : ∀ l b, e ≠ .append l b) (h : InPieces (e :: es) fs) :
    ∃ gs, fs = e :: gs ∧ InPieces es gs := by
  cases h with
  | next _ h => exact ⟨_, rfl, h⟩
  | piece l b b' h => exact absurd rfl (he _ _)

/-- writing in pieces -/
theorem track_pieces (l : Loc) (C : Bytes) : ∀ (ps : List Bytes) (c : Bytes), c ++ ps.flatten <+: C →
    (ps.map (Effect.append l)).foldl (track l) (some c, true) = (some (c ++ ps.flatten), true) ∧
    Fitting l C (some c, true) (ps.map (Effect.append l))
  | [], c, _ => by simp [Fitting]
  | b :: ps, c, h => by
    have h' : (c ++ b) ++ ps.flatten <+: C := by simpa [List.append_assoc] using h
    obtain ⟨i1, i2⟩ := track_pieces l C ps (c ++ b) h'
    simp only [List.map_cons, List.foldl_cons, track, if_true, Option.map_some, Fitting, FitsAt, List.flatten_cons]
    refine ⟨by rw [i1, List.append_assoc], ⟨fun _ => ⟨trivial, c, rfl, ?_⟩, i2⟩⟩
    exact (List.prefix_append _ _).trans h'

theorem track_elsewhere (l k : Loc) (C : Bytes) (hk : k ≠ l) : ∀ (ps : List Bytes) (st : Option Bytes × Bool),
    (ps.map (Effect.append k)).foldl (track l) st = st ∧ Fitting l C st (ps.map (Effect.append k))
  | [], st => by simp [Fitting]
  | b :: ps, st => by
    obtain ⟨i1, i2⟩ := track_elsewhere l k C hk ps st
    simp only [List.map_cons, List.foldl_cons, track, if_neg hk, Fitting, FitsAt]
    exact ⟨i1, fun h => absurd h hk, i2⟩

theorem segs_fit {W : Loc → Bytes → Prop} (l : Loc) (C : Bytes) (hW : ∀ b, W l b → b <+: C) {es : List Effect} (h : Segs W es) :
    ∀ (fs : List Effect) (st : Option Bytes × Bool), InPieces es fs → Fitting l C st fs ∧
      (fs.foldl (track l) st).1 = (match lastWrite l es with | some b => some b | none => st.1) := by
  induction h with
  | nil =>
    intro fs st hp
    cases hp
    exact ⟨trivial, rfl⟩
  | @other e es h1 h2 h3 ih =>
    intro fs st hp
    obtain ⟨gs, rfl, hg⟩ := inPieces_other h2 hp
    have ht : track l st e = st := by
      cases e with
      | trunc k t => exact absurd rfl (h1 k t)
      | append k b => exact absurd rfl (h2 k b)
      | _ => rfl
    have hfit : FitsAt l C st e := by
      cases e with
      | append k b => exact absurd rfl (h2 k b)
      | _ => trivial
    have hlw : lastWrite l (e :: es) = lastWrite l es := by
      simp only [lastWrite]
      cases lastWrite l es with
      | some b => rfl
      | none =>
        cases e with
        | append k b => exact absurd rfl (h2 k b)
        | _ => rfl
    obtain ⟨i1, i2⟩ := ih gs st hg
    refine ⟨⟨hfit, by rw [ht]; exact i1⟩, ?_⟩
    rw [List.foldl_cons, ht, hlw]; exact i2
  | @write k t b es h1 h2 ih =>
    intro fs st hp
    obtain ⟨gs, rfl, hg⟩ := inPieces_other (by simp) hp
    obtain ⟨ps, gs', rfl, rfl, hg'⟩ := inPieces_append hg
    by_cases hk : k = l
    · subst hk
      obtain ⟨p1, p2⟩ := track_pieces k C ps [] (by simpa using hW _ h1)
      obtain ⟨i1, i2⟩ := ih gs' (some ([] ++ ps.flatten), true) hg'
      refine ⟨⟨trivial, ?_⟩, ?_⟩
      · rw [show track k st (.trunc k t) = (some [], true) by simp [track], fitting_append, p1]
        exact ⟨p2, i1⟩
      · rw [List.foldl_cons, show track k st (.trunc k t) = (some [], true) by simp [track], List.foldl_append, p1, i2]
        simp only [lastWrite, if_true]
        cases lastWrite k es <;> simp
    · obtain ⟨p1, p2⟩ := track_elsewhere l k C hk ps (st.1, false)
      obtain ⟨i1, i2⟩ := ih gs' (st.1, false) hg'
      refine ⟨⟨trivial, ?_⟩, ?_⟩
      · rw [show track l st (.trunc k t) = (st.1, false) by simp [track, hk], fitting_append, p1]
        exact ⟨p2, i1⟩
      · rw [List.foldl_cons, show track l st (.trunc k t) = (st.1, false) by simp [track, hk], List.foldl_append, p1, i2]
        simp only [lastWrite, if_neg hk]
        cases lastWrite l es <;> simp

/- Part 3: a file that several processes write. -/

theorem writeAt_get (d : Bytes) (o : Nat) (b : Bytes) (hb : b ≠ []) (i : Nat) :
    (writeAt d o b)[i]? = if i < o then (if i < d.length then d[i]? else some 0) else if i < o + b.length then b[i - o]? else d[i]? := by
  unfold writeAt
  rw [if_neg hb]
  have hlen : ((d ++ List.replicate (o - d.length) 0).take o).length = o := by
    rw [List.length_take, List.length_append, List.length_replicate]; omega
  rw [List.append_assoc]
  by_cases h1 : i < o
  · rw [if_pos h1, List.getElem?_append_left (by rw [hlen]; exact h1), List.getElem?_take_of_lt h1]
    by_cases h2 : i < d.length
    · rw [if_pos h2, List.getElem?_append_left h2]
    · rw [if_neg h2, List.getElem?_append_right (by omega), List.getElem?_replicate, if_pos (by omega)]
  · rw [if_neg h1, List.getElem?_append_right (by rw [hlen]; omega), hlen]
    by_cases h2 : i < o + b.length
    · rw [if_pos h2, List.getElem?_append_left (by omega)]
    · rw [if_neg h2, List.getElem?_append_right (by omega), List.getElem?_drop]
      congr 1
      omega

theorem writeAt_length (d : Bytes) (o : Nat) (b : Bytes) (hb : b ≠ []) : (writeAt d o b).length = max d.length (o + b.length) := by
  unfold writeAt
  rw [if_neg hb]
  simp only [List.length_append, List.length_take, List.length_replicate, List.length_drop]
  omega

theorem prefix_get {a b : Bytes} (h : a <+: b) {i : Nat} (hi : i < a.length) : b[i]? = a[i]? := by
  obtain ⟨t, rfl⟩ := h
  rw [List.getElem?_append_left hi]

theorem prefix_of_get {a b : Bytes} (h : ∀ i, i < a.length → b[i]? = a[i]?) : a <+: b := by
  rw [List.prefix_iff_eq_take]
  apply List.ext_getElem?
  intro i
  by_cases hi : i < a.length
  · rw [List.getElem?_take_of_lt hi, h i hi]
  · rw [List.getElem?_eq_none (by omega), List.getElem?_eq_none (by rw [List.length_take]; omega)]

/-- writing what should be there makes nothing worse -/
theorem patches_write {C d c b : Bytes} (hd : Patches C d) (hc : c ++ b <+: C) : Patches C (writeAt d c.length b) := by
  by_cases hb : b = []
  · simpa [writeAt, hb] using hd
  have hl := hc.length_le
  rw [List.length_append] at hl
  refine ⟨by rw [writeAt_length _ _ _ hb]; exact max_le hd.1 hl, ?_⟩
  intro i x hx
  rw [writeAt_get _ _ _ hb] at hx
  split at hx
  · split at hx
    · exact hd.2 i x hx
    · cases hx; exact .inr rfl
  · rename_i h1
    split at hx
    · rename_i h2
      left
      rw [prefix_get hc (by rw [List.length_append]; omega), List.getElem?_append_right (by omega)]
      exact hx
    · exact hd.2 i x hx

theorem prefix_write {C d c b q : Bytes} (hq : q <+: d) (hqC : q <+: C) (hc : c ++ b <+: C) : q <+: writeAt d c.length b := by
  by_cases hb : b = []
  · simpa [writeAt, hb] using hq
  apply prefix_of_get
  intro i hi
  have hdl := hq.length_le
  rw [writeAt_get _ _ _ hb]
  split
  · rw [if_pos (by omega)]; exact prefix_get hq hi
  · split
    · have h3 := prefix_get hc (i := i) (by rw [List.length_append]; omega)
      rw [List.getElem?_append_right (by omega)] at h3
      rw [← h3, prefix_get hqC hi]
    · exact prefix_get hq hi

theorem prefix_write_own {d c b : Bytes} (hq : c <+: d) : c ++ b <+: writeAt d c.length b := by
  by_cases hb : b = []
  · simpa [writeAt, hb] using hq
  apply prefix_of_get
  intro i hi
  have hdl := hq.length_le
  rw [List.length_append] at hi
  rw [writeAt_get _ _ _ hb]
  split
  · rw [if_pos (by omega), prefix_get hq (by omega), List.getElem?_append_left (by omega)]
  · rw [List.getElem?_append_right (by omega)]

/-- the process that has opened `l` last -/
def opener (l : Loc) : Schedule → Option Nat :=
  List.foldl (fun o x => match x.2 with | .trunc k _ => if k = l then some x.1 else o | _ => o) none

theorem opener_snoc (l : Loc) (σ : Schedule) (p : Nat) (e : Effect) :
    opener l (σ ++ [(p, e)]) = match e with | .trunc k _ => if k = l then some p else opener l σ | _ => opener l σ := by
  simp only [opener, List.foldl_append, List.foldl_cons, List.foldl_nil]

theorem own_snoc (q p : Nat) (σ : Schedule) (e : Effect) : own q (σ ++ [(p, e)]) = if p = q then own q σ ++ [e] else own q σ := by
  unfold own
  by_cases h : p = q <;> simp [h]

/-- what `p` has written to `l` -/
abbrev tracked (l : Loc) (p : Nat) (σ : Schedule) : Option Bytes × Bool := (own p σ).foldl (track l) (none, false)

theorem tracked_snoc (l : Loc) (q p : Nat) (σ : Schedule) (e : Effect) :
    tracked l q (σ ++ [(p, e)]) = if p = q then track l (tracked l q σ) e else tracked l q σ := by
  unfold tracked
  rw [own_snoc]
  split <;> simp

structure OnFile (l : Loc) (C : Bytes) (x0 : Shared) (σ : Schedule) : Prop where
  handle : ∀ p, (tracked l p σ).2 = true → ∃ i d c, (x0.run σ).node l = some (.file i d) ∧ (tracked l p σ).1 = some c ∧
    (x0.run σ).opened p = some (l, i, c.length)
  written : ∀ p c, (tracked l p σ).1 = some c → c <+: C ∧ opener l σ ≠ none
  last : ∀ q, opener l σ = some q → ∃ i d c, (x0.run σ).node l = some (.file i d) ∧ Patches C d ∧ (tracked l q σ).1 = some c ∧ c <+: d
  none : opener l σ = none → (x0.run σ).contents l = x0.contents l

theorem run_snoc (x0 : Shared) (σ : Schedule) (y : Nat × Effect) : x0.run (σ ++ [y]) = (x0.run σ).step y := by
  simp [Shared.run]

theorem patches_nil (C : Bytes) : Patches C [] := ⟨by simp, by simp⟩

/-- something that neither concerns the file nor the processes that have it open -/
theorem OnFile.elsewhere {l : Loc} {C : Bytes} {x0 : Shared} {σ : Schedule} {p : Nat} {e : Effect} (h : OnFile l C x0 σ)
    (ht : track l (tracked l p σ) e = tracked l p σ) (ho : ∀ t, e ≠ .trunc l t)
    (hn : ((x0.run σ).step (p, e)).node l = (x0.run σ).node l)
    (hh : ∀ q, (tracked l q σ).2 = true → ((x0.run σ).step (p, e)).opened q = (x0.run σ).opened q) : OnFile l C x0 (σ ++ [(p, e)]) := by
  have htr : ∀ q, tracked l q (σ ++ [(p, e)]) = tracked l q σ := by
    intro q
    rw [tracked_snoc]
    split
    · rename_i hq; subst hq; exact ht
    · rfl
  have hop : opener l (σ ++ [(p, e)]) = opener l σ := by
    rw [opener_snoc]
    split
    · rename_i k t
      rw [if_neg]
      rintro rfl
      exact ho t rfl
    · rfl
  constructor
  · intro q hq
    rw [htr] at hq ⊢
    rw [run_snoc, hn, hh q hq]
    exact h.handle q hq
  · intro q c hq
    rw [htr] at hq
    rw [hop]
    exact h.written q c hq
  · intro q hq
    rw [hop] at hq
    rw [htr, run_snoc, hn]
    exact h.last q hq
  · intro hq
    rw [hop] at hq
    rw [← h.none hq, run_snoc]
    unfold Shared.contents
    rw [hn]

theorem onFile_step {l : Loc} {C : Bytes} {x0 : Shared} {σ : Schedule} {p : Nat} {e : Effect} (h : OnFile l C x0 σ)
    (hfit : FitsAt l C (tracked l p σ) e) (hun : e ≠ .unlink l) : OnFile l C x0 (σ ++ [(p, e)]) := by
  cases e with
  | get u => exact h.elsewhere rfl (by simp) rfl (fun _ _ => rfl)
  | utime k t => exact h.elsewhere rfl (by simp) rfl (fun _ _ => rfl)
  | setState t => exact h.elsewhere rfl (by simp) rfl (fun _ _ => rfl)
  | unlink k =>
    refine h.elsewhere rfl (by simp) ?_ (fun _ _ => rfl)
    have : l ≠ k := by rintro rfl; exact hun rfl
    simp [Shared.step, this]
  | mkdir k =>
    by_cases hk : l = k
    · subst hk
      by_cases hop : opener l σ = none
      · have htr : ∀ q, tracked l q (σ ++ [(p, .mkdir l)]) = tracked l q σ := by
          intro q; rw [tracked_snoc]; split
          · rename_i hq; subst hq; rfl
          · rfl
        have hop' : opener l (σ ++ [(p, .mkdir l)]) = opener l σ := by rw [opener_snoc]
        have hw : ∀ q, (tracked l q σ).1 = Option.none := by
          intro q
          cases hq : (tracked l q σ).1 with
          | none => rfl
          | some c => exact absurd hop (h.written q c hq).2
        constructor
        · intro q hq
          rw [htr] at hq
          obtain ⟨i, d, c, -, h2, -⟩ := h.handle q hq
          rw [hw q] at h2; cases h2
        · intro q c hq
          rw [htr, hw q] at hq; cases hq
        · intro q hq
          rw [hop', hop] at hq; cases hq
        · intro _
          rw [← h.none hop, run_snoc]
          unfold Shared.contents Shared.step
          simp only
          cases hnode : (x0.run σ).node l with
          | none => simp
          | some n => simp [hnode]
      · obtain ⟨q, hq⟩ := Option.ne_none_iff_exists'.mp hop
        obtain ⟨i, d, c, h1, -⟩ := h.last q hq
        have : (x0.run σ).step (p, .mkdir l) = x0.run σ := by simp [Shared.step, h1]
        exact h.elsewhere rfl (by simp) (by rw [this]) (fun _ _ => by rw [this])
    · refine h.elsewhere rfl (by simp) ?_ ?_
      · simp only [Shared.step]
        split <;> simp [hk]
      · intro q _
        simp only [Shared.step]
        split <;> rfl
  | trunc k t =>
    by_cases hk : k = l
    · subst hk
      have htp : tracked k p (σ ++ [(p, .trunc k t)]) = (some [], true) := by
        rw [tracked_snoc, if_pos rfl]; simp [track]
      have htq : ∀ q, p ≠ q → tracked k q (σ ++ [(p, .trunc k t)]) = tracked k q σ := by
        intro q hq; rw [tracked_snoc, if_neg hq]
      have hop : opener k (σ ++ [(p, .trunc k t)]) = some p := by rw [opener_snoc]; simp
      have hstep : ∃ i, ((x0.run σ).step (p, .trunc k t)).node k = some (.file i []) ∧
          ((x0.run σ).step (p, .trunc k t)).opened p = some (k, i, 0) ∧
          (∀ q, p ≠ q → ((x0.run σ).step (p, .trunc k t)).opened q = (x0.run σ).opened q) ∧
          ∀ j d, (x0.run σ).node k = some (.file j d) → j = i := by
        simp only [Shared.step]
        split
        · rename_i i d hd
          refine ⟨i, by simp, by simp, fun q hq => by simp [Ne.symm hq], ?_⟩
          intro j d' h'
          rw [hd] at h'; cases h'; rfl
        · rename_i hno
          refine ⟨(x0.run σ).next, by simp, by simp, fun q hq => by simp [Ne.symm hq], ?_⟩
          intro j d' h'
          exact absurd h' (hno j d')
      obtain ⟨i, s1, s2, s3, s4⟩ := hstep
      constructor
      · intro q hq
        rw [run_snoc]
        by_cases hpq : p = q
        · subst hpq
          rw [htp]
          exact ⟨i, [], [], s1, rfl, by simpa using s2⟩
        · rw [htq q hpq] at hq ⊢
          obtain ⟨j, d, c, h1, h2, h3⟩ := h.handle q hq
          have := s4 j d h1
          subst this
          exact ⟨j, [], c, s1, h2, by rw [s3 q hpq]; exact h3⟩
      · intro q c hq
        rw [hop]
        refine ⟨?_, by simp⟩
        by_cases hpq : p = q
        · subst hpq
          rw [htp] at hq; cases hq; exact List.nil_prefix
        · rw [htq q hpq] at hq
          exact (h.written q c hq).1
      · intro q hq
        rw [hop] at hq
        cases hq
        rw [run_snoc, htp]
        exact ⟨i, [], [], s1, patches_nil C, rfl, List.nil_prefix⟩
      · intro hq
        rw [hop] at hq; cases hq
    · -- another file is opened; this one is no longer open
      have htp : tracked l p (σ ++ [(p, .trunc k t)]) = ((tracked l p σ).1, false) := by
        rw [tracked_snoc, if_pos rfl]; simp [track, hk]
      have htq : ∀ q, p ≠ q → tracked l q (σ ++ [(p, .trunc k t)]) = tracked l q σ := by
        intro q hq; rw [tracked_snoc, if_neg hq]
      have ht1 : ∀ q, (tracked l q (σ ++ [(p, .trunc k t)])).1 = (tracked l q σ).1 := by
        intro q
        by_cases hpq : p = q
        · subst hpq; rw [htp]
        · rw [htq q hpq]
      have hop : opener l (σ ++ [(p, .trunc k t)]) = opener l σ := by rw [opener_snoc]; simp [hk]
      have hn : ((x0.run σ).step (p, .trunc k t)).node l = (x0.run σ).node l := by
        simp only [Shared.step]
        split <;> simp [Ne.symm hk]
      have ho : ∀ q, p ≠ q → ((x0.run σ).step (p, .trunc k t)).opened q = (x0.run σ).opened q := by
        intro q hq
        simp only [Shared.step]
        split <;> simp [Ne.symm hq]
      constructor
      · intro q hq
        by_cases hpq : p = q
        · subst hpq; rw [htp] at hq; cases hq
        · rw [htq q hpq] at hq ⊢
          rw [run_snoc, hn, ho q hpq]
          exact h.handle q hq
      · intro q c hq
        rw [ht1] at hq
        rw [hop]; exact h.written q c hq
      · intro q hq
        rw [hop] at hq
        rw [ht1, run_snoc, hn]; exact h.last q hq
      · intro hq
        rw [hop] at hq
        rw [← h.none hq, run_snoc]
        unfold Shared.contents
        rw [hn]
  | append k b =>
    by_cases hk : k = l
    · subst hk
      obtain ⟨hopen, c, hc, hpre⟩ := hfit rfl
      obtain ⟨i, d, c', h1, h2, h3⟩ := h.handle p hopen
      rw [hc] at h2; cases h2
      have htp : tracked k p (σ ++ [(p, .append k b)]) = (some (c ++ b), true) := by
        rw [tracked_snoc, if_pos rfl]
        simp only [track, if_true, hc, Option.map_some, hopen]
      have htq : ∀ q, p ≠ q → tracked k q (σ ++ [(p, .append k b)]) = tracked k q σ := by
        intro q hq; rw [tracked_snoc, if_neg hq]
      have hop : opener k (σ ++ [(p, .append k b)]) = opener k σ := by rw [opener_snoc]
      have hne := (h.written p c hc).2
      have hn : ((x0.run σ).step (p, .append k b)).node k = some (.file i (writeAt d c.length b)) := by
        simp [Shared.step, h3, h1]
      have hop1 : ((x0.run σ).step (p, .append k b)).opened p = some (k, i, c.length + b.length) := by
        simp [Shared.step, h3]
      have hopq : ∀ q, p ≠ q → ((x0.run σ).step (p, .append k b)).opened q = (x0.run σ).opened q := by
        intro q hq
        simp [Shared.step, h3, Ne.symm hq]
      constructor
      · intro q hq
        rw [run_snoc, hn]
        by_cases hpq : p = q
        · subst hpq
          rw [htp]
          exact ⟨i, _, c ++ b, rfl, rfl, by rw [hop1, List.length_append]⟩
        · rw [htq q hpq] at hq ⊢
          obtain ⟨j, d', c', g1, g2, g3⟩ := h.handle q hq
          rw [h1] at g1; cases g1
          exact ⟨i, _, c', rfl, g2, by rw [hopq q hpq]; exact g3⟩
      · intro q c' hq
        rw [hop]
        refine ⟨?_, hne⟩
        by_cases hpq : p = q
        · subst hpq; rw [htp] at hq; cases hq; exact hpre
        · rw [htq q hpq] at hq; exact (h.written q c' hq).1
      · intro q hq
        rw [hop] at hq
        obtain ⟨j, d', c', g1, g2, g3, g4⟩ := h.last q hq
        rw [h1] at g1; cases g1
        rw [run_snoc, hn]
        by_cases hpq : p = q
        · subst hpq
          rw [hc] at g3; cases g3
          rw [htp]
          exact ⟨i, _, _, rfl, patches_write g2 hpre, rfl, prefix_write_own g4⟩
        · rw [htq q hpq]
          exact ⟨i, _, c', rfl, patches_write g2 hpre, g3, prefix_write g4 (h.written q c' g3).1 hpre⟩
      · intro hq
        rw [hop] at hq; exact absurd hq hne
    · have ht : track l (tracked l p σ) (.append k b) = tracked l p σ := by simp [track, hk]
      refine h.elsewhere ht (by simp) ?_ ?_
      · simp only [Shared.step]
        split
        · split
          · simp [Ne.symm hk]
          · rfl
        · rfl
      · intro q hq
        obtain ⟨j, d', c', -, -, g3⟩ := h.handle q hq
        simp only [Shared.step]
        split
        · rename_i k' i o ho
          split
          · rename_i hkk
            by_cases hpq : q = p
            · subst hpq
              rw [g3] at ho
              cases ho
              exact absurd hkk.symm hk
            · simp [hpq]
          · rfl
        · rfl

theorem onFile {l : Loc} {C : Bytes} (x0 : Shared) (σ : Schedule) (hfit : ∀ p, Fitting l C (none, false) (own p σ))
    (hun : ∀ p, (p, Effect.unlink l) ∉ σ) : OnFile l C x0 σ := by
  induction σ using List.reverseRecOn with
  | nil =>
    refine ⟨?_, ?_, ?_, fun _ => rfl⟩
    · intro p h; cases h
    · intro p c h; cases h
    · intro q h; cases h
  | append_singleton σ y ih =>
    obtain ⟨p, e⟩ := y
    have h0 := ih (by
      intro q
      have := hfit q
      rw [own_snoc] at this
      split at this
      · exact ((fitting_append _ _ _ _ _).mp this).1
      · exact this) (fun q hq => hun q (by simp [hq]))
    refine onFile_step h0 ?_ (fun he => hun p (by simp [he]))
    have := hfit p
    rw [own_snoc, if_pos rfl] at this
    exact ((fitting_append _ _ _ _ _).mp this).2.1

theorem opener_none (l : Loc) (σ : Schedule) : opener l σ = none ↔ ∀ q, ¬ Opens σ q l := by
  induction σ using List.reverseRecOn with
  | nil =>
    constructor
    · rintro - q ⟨t, h⟩
      cases h
    · intro _; rfl
  | append_singleton σ y ih =>
    obtain ⟨p, e⟩ := y
    rw [opener_snoc]
    constructor
    · intro h q hq
      obtain ⟨t, ht⟩ := hq
      rcases List.mem_append.mp ht with hm | hm
      · split at h
        · split at h
          · cases h
          · exact ih.mp h q ⟨t, hm⟩
        · exact ih.mp h q ⟨t, hm⟩
      · rw [List.mem_singleton] at hm
        cases hm
        simp at h
    · intro h
      have hσ : opener l σ = none := ih.mpr (fun q ⟨t, ht⟩ => h q ⟨t, List.mem_append_left _ ht⟩)
      split
      · rename_i k t
        rw [if_neg]
        · exact hσ
        · rintro rfl
          exact h p ⟨t, by simp⟩
      · exact hσ

theorem opener_last {l : Loc} {σ : Schedule} {p : Nat} : opener l σ = some p ↔ OpensLast σ p l := by
  induction σ using List.reverseRecOn with
  | nil =>
    constructor
    · intro h; cases h
    · rintro ⟨a, t, b, h, -⟩
      cases a <;> cases h
  | append_singleton σ y ih =>
    obtain ⟨q, e⟩ := y
    rw [opener_snoc]
    have hrec : (∀ t, e ≠ .trunc l t) → (OpensLast σ p l ↔ OpensLast (σ ++ [(q, e)]) p l) := by
      intro he
      constructor
      · rintro ⟨a, t, b, rfl, hb⟩
        refine ⟨a, t, b ++ [(q, e)], by simp, ?_⟩
        rintro r ⟨t', ht'⟩
        rcases List.mem_append.mp ht' with h | h
        · exact hb r ⟨t', h⟩
        · rw [List.mem_singleton] at h
          cases h
          exact he t' rfl
      · rintro ⟨a, t, b, h, hb⟩
        rcases List.eq_nil_or_concat b with rfl | ⟨b', z, rfl⟩
        · obtain ⟨-, h2⟩ := List.append_inj' h rfl
          cases h2
          exact absurd rfl (he t)
        · rw [List.concat_eq_append, ← List.cons_append, ← List.append_assoc] at h
          obtain ⟨h1, -⟩ := List.append_inj' h rfl
          exact ⟨a, t, b', h1, fun r ⟨t', ht'⟩ => hb r ⟨t', by simp [ht']⟩⟩
    cases e with
    | trunc k t =>
      by_cases hk : k = l
      · subst hk
        simp only [if_true, Option.some.injEq]
        constructor
        · rintro rfl
          exact ⟨σ, t, [], rfl, by rintro r ⟨t', h⟩; cases h⟩
        · rintro ⟨a, t', b, h, hb⟩
          rcases List.eq_nil_or_concat b with rfl | ⟨b', z, rfl⟩
          · obtain ⟨-, h2⟩ := List.append_inj' h rfl
            cases h2; rfl
          · rw [List.concat_eq_append, ← List.cons_append, ← List.append_assoc] at h
            obtain ⟨-, h2⟩ := List.append_inj' h rfl
            cases h2
            exact absurd ⟨t, by simp⟩ (hb q)
      · simp only [if_neg hk]
        rw [ih]; exact hrec (by intro t' h; cases h; exact hk rfl)
    | _ => rw [ih]; exact hrec (by simp)

end Resync
