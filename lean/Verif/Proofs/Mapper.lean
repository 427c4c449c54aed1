import Verif.Model.Mapper
import Verif.Proofs.Regex
/- Lemmas about the mapper model. -/

namespace Resync
open Py Resync.Spec

theorem DotEq.length {b p : Str} (h : DotEq b p) : p.length = b.length := by
  induction h with
  | nil => rfl
  | same c _ ih => simp [ih]
  | dot c _ _ ih => simp [ih]

theorem DotEq.refl (b : Str) : DotEq b b := by
  induction b with
  | nil => exact .nil
  | cons c t ih => exact .same c ih

theorem DotEq.eq_of_noDot {b p : Str} (h : DotEq b p) (hb : ∀ c ∈ b, c ≠ '.') : p = b := by
  induction h with
  | nil => rfl
  | same c _ ih => rw [ih (fun d hd => hb d (by simp [hd]))]
  | dot c _ _ _ => exact absurd rfl (hb '.' (by simp))

/-- general value of `translate` when the prefix matches -/
theorem translate_some {base repl p rest : Str} (hb : LiteralOrDot base) (hp : DotEq base p) :
    translate base repl (p ++ rest) =
      .ok ((tailResult rest).map (fun g => repl ++ g.getD ['/'])) := by
  unfold translate tailPattern
  rw [compile_base_tail base hb]
  simp only [Re.matchStart, seq_append_m, plain_m_of_dotEq hp]
  simp only [List.flatMap_cons, List.flatMap_nil, List.append_nil]
  have ht := tail_m (0 + base.length) rest
  cases hh : ((Re.seq tailItems).m ⟨0 + base.length, rest, []⟩).head? with
  | none => rw [hh] at ht; simp at ht; simp [← ht]
  | some st =>
    rw [hh] at ht
    simp at ht
    rw [← ht]
    cases hg : st.group 1 <;> simp [hg]

theorem translate_none {base repl s : Str} (hb : LiteralOrDot base)
    (hp : ¬ ∃ p rest, s = p ++ rest ∧ DotEq base p) :
    translate base repl s = .ok none := by
  unfold translate tailPattern
  rw [compile_base_tail base hb]
  simp only [Re.matchStart, seq_append_m, plain_m_none hp]
  simp

theorem takeWhile_oneLine {t : Str} (h : OneLine t) :
    t.takeWhile (· != '\n') = t ∧ t.dropWhile (· != '\n') = [] := by
  induction t with
  | nil => simp
  | cons c cs ih =>
    have hc : c ≠ '\n' := fun e => h (by simp [e])
    have hcs : OneLine cs := fun e => h (by simp [e])
    simp [hc, ih hcs]

theorem tailResult_oneLine {rest : Str} (h : OneLine rest) :
    tailResult rest = match rest with
      | [] => some none
      | '/' :: t => some (some ('/' :: t))
      | _ => none := by
  cases rest with
  | nil => simp [tailResult]
  | cons c t =>
    by_cases hc : c = '/'
    · subst hc
      have ht : OneLine t := fun e => h (by simp [e])
      simp [tailResult, takeWhile_oneLine ht]
    · have hn : c ≠ '\n' := fun e => h (by simp [e])
      unfold tailResult
      split <;> simp_all

theorem oneLine_append {a b : Str} : OneLine (a ++ b) ↔ OneLine a ∧ OneLine b := by
  simp [OneLine]

/-- value of `translate` on a one-line string, base read as literal-or-dot -/
theorem translate_iff_dot {base repl s out : Str} (hb : LiteralOrDot base) (hs : OneLine s) :
    translate base repl s = .ok (some out) ↔
      ∃ p rest, s = p ++ rest ∧ DotEq base p ∧
        ((rest = [] ∧ out = repl ++ ['/']) ∨ (∃ t, rest = '/' :: t ∧ out = repl ++ '/' :: t)) := by
  by_cases hp : ∃ p rest, s = p ++ rest ∧ DotEq base p
  · obtain ⟨p, rest, rfl, hpe⟩ := hp
    rw [translate_some hb hpe]
    have hr := (oneLine_append.mp hs).2
    rw [tailResult_oneLine hr]
    constructor
    · intro h
      refine ⟨p, rest, rfl, hpe, ?_⟩
      split at h
      · simp at h; exact .inl ⟨rfl, h.symm⟩
      · simp at h; exact .inr ⟨_, rfl, h.symm⟩
      · simp at h
    · rintro ⟨p', rest', he, hpe', h⟩
      have hl : p.length = p'.length := by rw [DotEq.length hpe, DotEq.length hpe']
      obtain ⟨rfl, rfl⟩ := List.append_inj he hl
      rcases h with ⟨rfl, rfl⟩ | ⟨t, rfl, rfl⟩ <;> simp
  · rw [translate_none hb hp]
    constructor
    · intro h; simp at h
    · rintro ⟨p, rest, rfl, hpe, _⟩
      exact absurd ⟨p, rest, rfl, hpe⟩ hp

theorem translate_ok_of_dot {base : Str} (repl : Str) (s : Str) (hb : LiteralOrDot base) :
    ∃ o, translate base repl s = .ok o := by
  by_cases hp : ∃ p rest, s = p ++ rest ∧ DotEq base p
  · obtain ⟨p, rest, rfl, hpe⟩ := hp
    exact ⟨_, translate_some hb hpe⟩
  · exact ⟨_, translate_none hb hp⟩

theorem translate_none_iff_dot {base repl s : Str} (hb : LiteralOrDot base) (hs : OneLine s) :
    translate base repl s = .ok none ↔ ¬ DotCovers base s := by
  obtain ⟨o, ho⟩ := translate_ok_of_dot repl s hb
  constructor
  · rintro h ⟨p, rest, e, hd, hr⟩
    have : ∃ out, translate base repl s = .ok (some out) := by
      rcases hr with rfl | ⟨t, rfl⟩
      · exact ⟨_, (translate_iff_dot hb hs).mpr ⟨p, _, e, hd, .inl ⟨rfl, rfl⟩⟩⟩
      · exact ⟨_, (translate_iff_dot hb hs).mpr ⟨p, _, e, hd, .inr ⟨t, rfl, rfl⟩⟩⟩
    obtain ⟨out, hh⟩ := this
    rw [h] at hh; simp at hh
  · intro h
    cases o with
    | none => exact ho
    | some out =>
      exfalso; apply h
      obtain ⟨p, rest, e, hd, hr⟩ := (translate_iff_dot hb hs).mp ho
      refine ⟨p, rest, e, hd, ?_⟩
      rcases hr with ⟨rfl, _⟩ | ⟨t, rfl, _⟩
      · exact .inl rfl
      · exact .inr ⟨t, rfl⟩

theorem Literal.toDot {base : Str} (h : Literal base) : LiteralOrDot base := fun c hc => (h c hc).1

/-- value of `translate` on a one-line string, literal base -/
theorem translate_iff_literal {base repl s out : Str} (hb : Literal base) (hs : OneLine s) :
    translate base repl s = .ok (some out) ↔ Translates base repl s out := by
  rw [translate_iff_dot (Literal.toDot hb) hs]
  constructor
  · rintro ⟨p, rest, rfl, hd, h⟩
    have := DotEq.eq_of_noDot hd (fun c hc => (hb c hc).2)
    subst this
    rcases h with ⟨rfl, rfl⟩ | ⟨t, rfl, rfl⟩
    · exact .inl ⟨by simp, rfl⟩
    · exact .inr ⟨t, rfl, rfl⟩
  · rintro (⟨rfl, rfl⟩ | ⟨t, rfl, rfl⟩)
    · exact ⟨s, [], by simp, DotEq.refl _, .inl ⟨rfl, rfl⟩⟩
    · exact ⟨base, _, rfl, DotEq.refl _, .inr ⟨t, rfl, rfl⟩⟩

/-- a literally covered string is translated, base may contain dots -/
theorem translate_of_translates {base repl s out : Str} (hb : LiteralOrDot base) (hs : OneLine s)
    (h : Translates base repl s out) : translate base repl s = .ok (some out) := by
  rw [translate_iff_dot hb hs]
  rcases h with ⟨rfl, rfl⟩ | ⟨t, rfl, rfl⟩
  · exact ⟨s, [], by simp, DotEq.refl _, .inl ⟨rfl, rfl⟩⟩
  · exact ⟨base, _, rfl, DotEq.refl _, .inr ⟨t, rfl, rfl⟩⟩

/-! ### strip_trailing_slashes -/

theorem mem_drops {p : Char → Bool} {k : Nat} {s : Str} {x : Nat × Str} (h : x ∈ drops p k s) :
    ∃ u, s = u ++ x.2 ∧ (∀ c ∈ u, p c = true) := by
  induction s generalizing k with
  | nil => simp [drops] at h; subst h; exact ⟨[], rfl, by simp⟩
  | cons c cs ih =>
    simp only [drops, List.mem_append, List.mem_singleton] at h
    rcases h with h | rfl
    · split at h
      · rename_i hp
        obtain ⟨u, e, hu⟩ := ih h
        exact ⟨c :: u, by simp [e], by simpa [hp] using hu⟩
      · simp at h
    · exact ⟨[], rfl, by simp⟩

/-- `/+$` matches only strings of slashes, possibly followed by a line feed -/
theorem plusSlash_eos_nil {k : Nat} {v : Str} {caps : List (Nat × Str)}
    (h : ¬ ∃ n, v = List.replicate (n + 1) '/' ∨ v = List.replicate (n + 1) '/' ++ ['\n']) :
    (Re.cat (Re.plus (.lit '/')) .eos).m ⟨k, v, caps⟩ = [] := by
  rw [List.eq_nil_iff_forall_not_mem]
  intro st hst
  simp only [Re.m, Re.plus, List.mem_flatMap, Re.lit] at hst
  obtain ⟨a, ⟨b, hb, hab⟩, ha⟩ := hst
  cases v with
  | nil => simp at hb
  | cons c cs =>
    by_cases hc : c = '/'
    · subst hc
      simp at hb
      subst hb
      have := starIter_chr (fun d => d == '/') cs.length (k + 1) cs caps (Nat.le_refl _)
      simp only [Re.m] at this
      rw [this] at hab
      simp only [List.mem_map] at hab
      obtain ⟨x, hx, rfl⟩ := hab
      obtain ⟨u, e, hu⟩ := mem_drops hx
      have hu' : u = List.replicate u.length '/' := by
        rw [List.eq_replicate_iff]; exact ⟨rfl, by simpa using hu⟩
      simp only at ha
      apply h
      refine ⟨u.length, ?_⟩
      split at ha
      · rename_i hx2
        rcases hx2 with hx2 | hx2
        · left
          rw [hx2, List.append_nil] at e
          rw [List.replicate_succ, ← hu', e]
        · right
          rw [hx2] at e
          rw [List.replicate_succ, List.cons_append, ← hu', e]
      · simp at ha
    · simp [hc] at hb

theorem drops_snoc (p : Char → Bool) (k : Nat) (u : Str) (c : Char) (hu : ∀ d ∈ u, p d = true)
    (hc : p c = true) : ∃ r, drops p k (u ++ [c]) =
      (k + u.length + 1, []) :: (k + u.length, [c]) :: r := by
  induction u generalizing k with
  | nil => exact ⟨[], by simp [drops, hc]⟩
  | cons d t ih =>
    obtain ⟨r, hr⟩ := ih (k + 1) (fun e he => hu e (by simp [he]))
    refine ⟨r ++ [(k, d :: t ++ [c])], ?_⟩
    have hd : p d = true := hu d (by simp)
    simp only [List.cons_append, drops, hd, if_true, hr, List.length_cons]
    simp; omega

theorem slashRe_m (s : Str) :
    slashRe.m ⟨0, s, []⟩ = (drops (fun c => c != '\n') 0 s).flatMap (fun x =>
      (Re.cat (Re.plus (.lit '/')) .eos).m ⟨x.1, x.2, [(1, s.take (s.length - x.2.length))]⟩) := by
  unfold slashRe
  have h : (Re.grp 1 (.star .dot)).m ⟨0, s, []⟩ = (drops (fun c => c != '\n') 0 s).map (fun x =>
      (⟨x.1, x.2, [(1, s.take (s.length - x.2.length))]⟩ : MSt)) := by
    have := star_chr_m (fun c => c != '\n') 0 s []
    simp only [Re.m, Re.dot] at this ⊢
    rw [this]
    simp [Function.comp_def]
  rw [Re.m, h, List.flatMap_map]

/-- a one-line path ending in '/' loses exactly one slash -/
theorem strip_of_slash {u : Str} (h : OneLine u) : stripTrailingSlashes (u ++ ['/']) = u := by
  unfold stripTrailingSlashes Re.matchStart
  rw [slashRe_m]
  obtain ⟨r, hr⟩ := drops_snoc (fun c => c != '\n') 0 u '/' (by
    intro d hd; simp; rintro rfl; exact h hd) (by decide)
  rw [hr]
  simp only [List.flatMap_cons]
  rw [plusSlash_eos_nil (v := []) (by
    rintro ⟨n, h | h⟩ <;> simp [List.replicate_succ] at h)]
  simp [Re.m, Re.plus, Re.lit, starIter, MSt.group]

/-- a one-line path not ending in '/' is unchanged -/
theorem strip_of_no_slash {s : Str} (h : OneLine s) (hs : ∀ u, s ≠ u ++ ['/']) :
    stripTrailingSlashes s = s := by
  unfold stripTrailingSlashes Re.matchStart
  rw [slashRe_m]
  have : (drops (fun c => c != '\n') 0 s).flatMap (fun x =>
      (Re.cat (Re.plus (.lit '/')) .eos).m ⟨x.1, x.2, [(1, s.take (s.length - x.2.length))]⟩) = [] := by
    rw [List.flatMap_eq_nil_iff]
    intro x hx
    obtain ⟨u, e, _⟩ := mem_drops hx
    apply plusSlash_eos_nil
    rintro ⟨n, hn | hn⟩
    · refine hs (u ++ List.replicate n '/') ?_
      rw [e, hn, List.append_assoc, ← List.replicate_succ']
    · apply h; rw [e, hn]; simp
  rw [this]; rfl

end Resync
