import Verif.Py.FileUrl
import Verif.Proofs.Utf8
import Verif.Proofs.ClientState
/-
Lemmas about the file that a URL of the scheme file denotes.
-/

namespace Py

/-- bytes.decode('utf-8', 'replace') decodes well-formed UTF-8, and makes at most one character of each byte -/
structure Decodes (dec : List UInt8 → Str) : Prop where
  valid : ∀ s, dec (utf8Encode s) = s
  short : ∀ b, (dec b).length ≤ b.length

/-- a hexadecimal digit -/
def IsHex (c : Char) : Prop := c ∈ "0123456789abcdefABCDEF".toList

instance (c : Char) : Decidable (IsHex c) := inferInstanceAs (Decidable (c ∈ _))

/-- the text has an escape: '%' and two hexadecimal digits -/
def Escaped (s : Str) : Prop := ∃ a x y b, s = a ++ '%' :: x :: y :: b ∧ IsHex x ∧ IsHex y

theorem char_eq_of_toNat {c : Char} {n : Nat} (h : c.toNat = n) : c = Char.ofNat n := by
  rw [← h, Char.ofNat_toNat]

theorem isHex_iff (c : Char) : IsHex c ↔ (hexDigit c).isSome = true := by
  constructor
  · intro h
    have : ∀ c ∈ "0123456789abcdefABCDEF".toList, (hexDigit c).isSome = true := by decide
    exact this c h
  · intro h
    unfold hexDigit isDigit at h
    have key : ∀ n, (48 ≤ n ∧ n ≤ 57) ∨ (97 ≤ n ∧ n ≤ 102) ∨ (65 ≤ n ∧ n ≤ 70) → IsHex (Char.ofNat n) := by
      intro n hn
      have : ∀ m < 103, (48 ≤ m ∧ m ≤ 57) ∨ (97 ≤ m ∧ m ≤ 102) ∨ (65 ≤ m ∧ m ≤ 70) → IsHex (Char.ofNat m) := by decide
      exact this n (by omega) hn
    rw [char_eq_of_toNat (c := c) rfl]
    apply key
    have e1 : '0'.toNat = 48 := rfl
    have e2 : '9'.toNat = 57 := rfl
    have e3 : 'a'.toNat = 97 := rfl
    have e4 : 'f'.toNat = 102 := rfl
    have e5 : 'A'.toNat = 65 := rfl
    have e6 : 'F'.toNat = 70 := rfl
    rw [e1, e2, e3, e4, e5, e6] at h
    split at h
    · rename_i hd; left; simpa using hd
    · split at h
      · right; left; assumption
      · split at h
        · right; right; assumption
        · cases h

theorem hexByte_some {a b : Char} : (hexByte a b).isSome = true ↔ IsHex a ∧ IsHex b := by
  rw [isHex_iff, isHex_iff]
  unfold hexByte
  cases hexDigit a <;> cases hexDigit b <;> simp

theorem isHex_ascii {c : Char} (h : IsHex c) : c.toNat < 128 := by
  have : ∀ c ∈ "0123456789abcdefABCDEF".toList, c.toNat < 128 := by decide
  exact this c h

/-- two hexadecimal digits come first -/
def hexPair : Str → Bool
  | a :: b :: _ => (hexByte a b).isSome
  | _ => false

/-- decides `Escaped` -/
def hasEscape : Str → Bool
  | [] => false
  | c :: t => (c == '%' && hexPair t) || hasEscape t

theorem hasEscape_iff (s : Str) : hasEscape s = true ↔ Escaped s := by
  induction s with
  | nil => simp [hasEscape, Escaped]
  | cons c t ih =>
    rw [hasEscape, Bool.or_eq_true, ih]
    constructor
    · rintro (h | ⟨a, x, y, b, rfl, h⟩)
      · simp only [Bool.and_eq_true, beq_iff_eq] at h
        obtain ⟨rfl, h⟩ := h
        unfold hexPair at h
        split at h
        · exact ⟨[], _, _, _, rfl, hexByte_some.mp h⟩
        · cases h
      · exact ⟨c :: a, x, y, b, rfl, h⟩
    · rintro ⟨a, x, y, b, e, h⟩
      cases a with
      | nil =>
        simp only [List.nil_append, List.cons.injEq] at e
        obtain ⟨rfl, rfl⟩ := e
        left
        simpa [hexPair] using hexByte_some.mpr h
      | cons c' a =>
        simp only [List.cons_append, List.cons.injEq] at e
        exact .inr ⟨a, x, y, b, e.2, h⟩

theorem escaped_split {run t : Str} {c : Char} (hc : ¬ c.toNat < 128) (h : Escaped (run ++ c :: t)) : Escaped run ∨ Escaped t := by
  obtain ⟨a, x, y, b, e, hx, hy⟩ := h
  rcases List.append_eq_append_iff.mp e with ⟨d, h1, h2⟩ | ⟨d, h1, h2⟩
  · cases d with
    | nil =>
      simp only [List.nil_append, List.cons.injEq] at h2
      rw [h2.1] at hc; exact absurd (by decide) hc
    | cons c' d =>
      simp only [List.cons_append, List.cons.injEq] at h2
      exact .inr ⟨d, x, y, b, h2.2, hx, hy⟩
  · match d, h2 with
    | [], h2 =>
      simp only [List.nil_append, List.cons.injEq] at h2
      rw [← h2.1] at hc; exact absurd (by decide) hc
    | [_], h2 =>
      simp only [List.cons_append, List.nil_append, List.cons.injEq] at h2
      rw [← h2.2.1] at hc; exact absurd (isHex_ascii hx) hc
    | [_, _], h2 =>
      simp only [List.cons_append, List.nil_append, List.cons.injEq] at h2
      rw [← h2.2.2.1] at hc; exact absurd (isHex_ascii hy) hc
    | c1 :: c2 :: c3 :: d, h2 =>
      simp only [List.cons_append, List.cons.injEq] at h2
      obtain ⟨rfl, rfl, rfl, -⟩ := h2
      exact .inl ⟨a, _, _, d, h1, hx, hy⟩

theorem utf8Char_ascii {c : Char} (h : c.toNat < 128) : (utf8Char c).length = 1 := by
  unfold utf8Char
  rw [if_pos h]; rfl

theorem unquoteBytes_plain : ∀ (s : Str), hasEscape s = false → unquoteBytes s = utf8Encode s := by
  intro s
  induction s with
  | nil => intro _; rfl
  | cons c t ih =>
    intro h
    rw [hasEscape, Bool.or_eq_false_iff] at h
    have e : utf8Encode (c :: t) = utf8Char c ++ utf8Encode t := by simp [utf8Encode]
    rw [unquoteBytes.eq_def]
    dsimp only
    split
    · rename_i hc
      subst hc
      split
      · rename_i a b t'
        have h1 := h.1
        simp only [beq_self_eq_true, Bool.true_and, hexPair] at h1
        rw [Option.isSome_eq_false_iff, Option.isNone_iff_eq_none] at h1
        rw [h1, e, ← ih h.2]
      · rw [e, ← ih h.2]
    · rw [e, ← ih h.2]

theorem unquoteBytes_len : ∀ (n : Nat) (s : Str), s.length ≤ n → (∀ c ∈ s, c.toNat < 128) →
    (unquoteBytes s).length ≤ s.length ∧ (hasEscape s = true → (unquoteBytes s).length < s.length) := by
  intro n
  induction n with
  | zero =>
    intro s hs _
    cases s with
    | nil => exact ⟨by simp [unquoteBytes], by simp [hasEscape]⟩
    | cons c t => simp at hs
  | succ n ih =>
    intro s hs ha
    cases s with
    | nil => exact ⟨by simp [unquoteBytes], by simp [hasEscape]⟩
    | cons c t =>
      have hc := utf8Char_ascii (ha c (by simp))
      have hl : t.length ≤ n := by simpa using hs
      obtain ⟨i1, i2⟩ := ih t hl (fun x hx => ha x (by simp [hx]))
      have generic : (utf8Char c ++ unquoteBytes t).length ≤ (c :: t).length ∧
          (hasEscape t = true → (utf8Char c ++ unquoteBytes t).length < (c :: t).length) := by
        rw [List.length_append, hc, List.length_cons]
        exact ⟨by omega, fun h => by have := i2 h; omega⟩
      rw [unquoteBytes.eq_def, hasEscape]
      dsimp only
      split
      · rename_i hcc
        subst hcc
        simp only [beq_self_eq_true, Bool.true_and]
        split
        · rename_i a b t'
          cases hb : hexByte a b with
          | none =>
            dsimp only
            refine ⟨generic.1, fun h => generic.2 ?_⟩
            simpa [hexPair, hb] using h
          | some x =>
            dsimp only
            obtain ⟨j1, j2⟩ := ih t' (by simp at hl; omega) (fun x hx => ha x (by simp [hx]))
            simp only [List.length_cons]
            exact ⟨by omega, fun _ => by omega⟩
        · rename_i hno
          refine ⟨generic.1, fun h => generic.2 ?_⟩
          have : hexPair t = false := by
            unfold hexPair
            split
            · rename_i a b t'; exact (hno a b t' rfl).elim
            · rfl
          simpa [this] using h
      · rename_i hcc
        refine ⟨generic.1, fun h => generic.2 ?_⟩
        simpa [hcc] using h

variable {dec : List UInt8 → Str}

theorem unquoteRuns_plain (D : Decodes dec) : ∀ (s run : Str), hasEscape (run ++ s) = false → unquoteRuns dec run s = run ++ s := by
  intro s
  induction s with
  | nil =>
    intro run h
    rw [List.append_nil] at h ⊢
    rw [unquoteRuns, unquoteBytes_plain run h, D.valid]
  | cons c t ih =>
    intro run h
    rw [unquoteRuns]
    split
    · rw [ih (run ++ [c]) (by simpa using h)]; simp
    · have h1 : ¬ Escaped (run ++ c :: t) := by rw [← hasEscape_iff, h]; simp
      have h2 : hasEscape run = false := by
        rw [Bool.eq_false_iff, ne_eq, hasEscape_iff]
        rintro ⟨a, x, y, b, rfl, hh⟩
        exact h1 ⟨a, x, y, b ++ c :: t, by simp, hh⟩
      have h3 : hasEscape t = false := by
        rw [Bool.eq_false_iff, ne_eq, hasEscape_iff]
        rintro ⟨a, x, y, b, rfl, hh⟩
        exact h1 ⟨run ++ c :: a, x, y, b, by simp, hh⟩
      rw [unquoteBytes_plain run h2, D.valid, ih [] (by simpa using h3)]; rfl

theorem unquoteRuns_len (D : Decodes dec) : ∀ (s run : Str), (∀ c ∈ run, c.toNat < 128) →
    (unquoteRuns dec run s).length ≤ (run ++ s).length ∧ (Escaped (run ++ s) → (unquoteRuns dec run s).length < (run ++ s).length) := by
  intro s
  induction s with
  | nil =>
    intro run hr
    rw [List.append_nil, unquoteRuns]
    obtain ⟨h1, h2⟩ := unquoteBytes_len run.length run (Nat.le_refl _) hr
    have := D.short (unquoteBytes run)
    exact ⟨by omega, fun h => by have := h2 ((hasEscape_iff run).mpr h); omega⟩
  | cons c t ih =>
    intro run hr
    rw [unquoteRuns]
    split
    · rename_i hc
      have := ih (run ++ [c]) (by
        intro x hx
        rcases List.mem_append.mp hx with hx | hx
        · exact hr x hx
        · rw [List.mem_singleton] at hx; rw [hx]; exact hc)
      simpa using this
    · rename_i hc
      obtain ⟨i1, i2⟩ := ih [] (by simp)
      obtain ⟨h1, h2⟩ := unquoteBytes_len run.length run (Nat.le_refl _) hr
      have := D.short (unquoteBytes run)
      simp only [List.nil_append] at i1 i2
      simp only [List.length_append, List.length_cons]
      refine ⟨by omega, fun h => ?_⟩
      rcases escaped_split hc h with h | h
      · have := h2 ((hasEscape_iff run).mpr h); omega
      · have := i2 h; omega

theorem unquote_plain (D : Decodes dec) {s : Str} (h : ¬ Escaped s) : unquote dec s = s := by
  unfold unquote
  split
  · exact unquoteRuns_plain D s [] (by rw [Bool.eq_false_iff, ne_eq, hasEscape_iff]; exact h)
  · rfl

theorem unquote_len (D : Decodes dec) (s : Str) : (unquote dec s).length ≤ s.length := by
  unfold unquote
  split
  · exact (unquoteRuns_len D s [] (by simp)).1
  · exact Nat.le_refl _

theorem unquote_escaped (D : Decodes dec) {s : Str} (h : Escaped s) : (unquote dec s).length < s.length := by
  unfold unquote
  rw [if_pos (by obtain ⟨a, x, y, b, rfl, -⟩ := h; simp)]
  exact (unquoteRuns_len D s [] (by simp)).2 h

theorem strip_sublist (s : Str) : (strip s).Sublist s := by
  unfold strip rstrip
  refine List.Sublist.trans ?_ (List.dropWhile_sublist isSpace)
  have := (List.dropWhile_sublist (l := (s.dropWhile isSpace).reverse) isSpace).reverse
  simpa using this

theorem unwrapUrl_sublist (s : Str) : (unwrapUrl s).Sublist s := by
  unfold unwrapUrl
  have h0 := strip_sublist s
  have h1 : (if (strip s).head? = some '<' ∧ (strip s).getLast? = some '>' then strip ((strip s).drop 1).dropLast else strip s).Sublist s := by
    split
    · exact (strip_sublist _).trans ((List.dropLast_sublist _).trans ((List.drop_sublist _ _).trans h0))
    · exact h0
  dsimp only
  revert h1
  generalize (if (strip s).head? = some '<' ∧ (strip s).getLast? = some '>' then strip ((strip s).drop 1).dropLast else strip s) = u
  intro h1
  split
  · exact (strip_sublist _).trans ((List.drop_sublist _ _).trans h1)
  · exact h1

theorem dropWhile_mem {p : Char → Bool} : ∀ {l : Str}, (∃ c ∈ l, p c = false) → l.dropWhile p ≠ [] := by
  intro l
  induction l with
  | nil => simp
  | cons a t ih =>
    rintro ⟨c, hc, hp⟩
    rw [List.dropWhile_cons]
    split
    · rename_i ha
      rcases List.mem_cons.mp hc with rfl | hc
      · rw [hp] at ha; cases ha
      · exact ih ⟨c, hc, hp⟩
    · simp

theorem splitTag_none {s : Str} (h : '#' ∉ s) : splitTag s = s := by
  unfold splitTag; rw [if_neg h]

theorem splitTag_len (s : Str) : (splitTag s).length ≤ s.length ∧ ('#' ∈ s → (splitTag s).length < s.length) := by
  unfold splitTag
  split
  · rename_i h
    have h1 := dropWhile_mem (p := (· != '#')) (l := s.reverse) ⟨'#', by simpa using h, by simp⟩
    have h2 := (List.dropWhile_sublist (l := s.reverse) (· != '#')).length_le
    rw [List.length_reverse] at h2
    have h3 := List.length_pos_iff.mpr h1
    rw [List.length_reverse, List.length_drop]
    exact ⟨by omega, fun _ => by omega⟩
  · rename_i h
    exact ⟨Nat.le_refl _, fun h' => absurd h' h⟩

theorem splitType_len {u w rest : Str} (h : splitType u = some (w, rest)) : w.length + 1 + rest.length = u.length ∧ w ≠ [] := by
  unfold splitType at h
  dsimp only at h
  split at h
  · rename_i hc
    simp only [Option.some.injEq, Prod.mk.injEq] at h
    obtain ⟨rfl, rfl⟩ := h
    obtain ⟨h1, h2⟩ := hc
    have h3 := (List.takeWhile_sublist (l := u) (fun c => c != '/' && c != ':')).length_le
    have h4 : u.drop (u.takeWhile (fun c => c != '/' && c != ':')).length ≠ [] := by
      intro e; rw [e] at h2; cases h2
    have h5 := List.length_pos_iff.mpr h4
    rw [List.length_drop] at h5
    rw [List.length_map, List.length_drop]
    exact ⟨by omega, by simpa using h1⟩
  · cases h

theorem splitHost_none {u : Str} (h : ¬ "//".toList <+: u) : splitHost u = ([], u) := by
  unfold splitHost; rw [if_neg h]

theorem splitHost_len (u : Str) : (splitHost u).2.length ≤ u.length ∧ ("//".toList <+: u → (splitHost u).2.length < u.length) := by
  unfold splitHost
  split
  · rename_i h
    have hl : 2 ≤ u.length := by have := h.length_le; simpa using this
    dsimp only
    have : ∀ r : Str, (if r ≠ [] ∧ r.head? ≠ some '/' then '/' :: r else r).length ≤ r.length + 1 := by
      intro r; split <;> simp
    have h1 := this ((u.drop 2).drop ((u.drop 2).takeWhile (fun c => c != '/' && c != '#' && c != '?')).length)
    rw [List.length_drop, List.length_drop] at h1
    exact ⟨by omega, fun _ => by omega⟩
  · rename_i h
    exact ⟨Nat.le_refl _, fun h' => absurd h' h⟩

end Py
