import Verif.Spec.Repr
import Verif.Proofs.Num
/-
The texts of `repr` can be told apart (C112).
-/

namespace Resync
open Py Resync.Spec

/-! ## Strings -/

def hexVal (c : Char) : Nat := if c.toNat < 58 then c.toNat - 48 else c.toNat - 87

def hexNum (s : Str) : Nat := s.foldl (fun a c => a * 16 + hexVal c) 0

theorem hexVal_hexChar {n : Nat} (h : n < 16) : hexVal (hexChar n) = n := by
  have : ∀ k : Fin 16, hexVal (hexChar k) = k := by decide
  exact this ⟨n, h⟩

theorem hexPad_length (w n : Nat) : (hexPad w n).length = w := by
  induction w generalizing n with
  | zero => rfl
  | succ w ih => simp [hexPad, ih]

theorem hexNum_hexPad (w n : Nat) : hexNum (hexPad w n) = n % 16 ^ w := by
  induction w generalizing n with
  | zero => simp [hexPad, hexNum, Nat.mod_one]
  | succ w ih =>
    have h1 : hexNum (hexPad (w + 1) n) = hexNum (hexPad w (n / 16)) * 16 + hexVal (hexChar (n % 16)) := by
      simp [hexPad, hexNum]
    rw [h1, ih, hexVal_hexChar (Nat.mod_lt _ (by omega)), Nat.pow_succ', Nat.mod_mul, Nat.mul_comm, Nat.add_comm]

theorem hexPad_chars (w n : Nat) {c : Char} (h : c ∈ hexPad w n) : ∃ k < 16, c = hexChar k := by
  induction w generalizing n with
  | zero => cases h
  | succ w ih =>
    rcases List.mem_append.mp h with h | h
    · exact ih _ h
    · exact ⟨n % 16, Nat.mod_lt _ (by omega), List.mem_singleton.mp h⟩

/-- reading one character of a quoted string -/
def readChar : Str → Option (Char × Str)
  | '\\' :: c :: r =>
    if c = 't' then some ('\t', r)
    else if c = 'n' then some ('\n', r)
    else if c = 'r' then some ('\r', r)
    else if c = 'x' then some (Char.ofNat (hexNum (r.take 2)), r.drop 2)
    else if c = 'u' then some (Char.ofNat (hexNum (r.take 4)), r.drop 4)
    else if c = 'U' then some (Char.ofNat (hexNum (r.take 8)), r.drop 8)
    else some (c, r)
  | c :: r => some (c, r)
  | [] => none

theorem read_hex (w : Nat) (c : Char) (r : Str) (h : c.toNat < 16 ^ w) :
    Char.ofNat (hexNum ((hexPad w c.toNat ++ r).take w)) = c ∧ (hexPad w c.toNat ++ r).drop w = r := by
  have hl := hexPad_length w c.toNat
  rw [List.take_append_of_le_length (by omega), List.take_of_length_le (by omega), List.drop_append_of_le_length (by omega),
    List.drop_of_length_le (by omega), hexNum_hexPad, Nat.mod_eq_of_lt h]
  exact ⟨Char.ofNat_toNat c, rfl⟩

theorem readChar_plain {c : Char} (h : c ≠ '\\') (r : Str) : readChar (c :: r) = some (c, r) := by
  unfold readChar
  split
  · rename_i h'; exact absurd (List.cons.inj h').1 h
  · rename_i h'; cases h'; rfl
  · rename_i h'; cases h'

theorem char_lt (c : Char) : c.toNat < 16 ^ 8 := by
  have := c.valid
  have h : c.toNat < 1114112 := by
    rcases this with h | h
    · have : c.toNat < 55296 := h
      omega
    · exact h.2
  omega

theorem readChar_repr (p : Char → Bool) {q : Char} (hq : q = '\'' ∨ q = '"') (c : Char) (r : Str) :
    readChar (reprChar p q c ++ r) = some (c, r) := by
  unfold reprChar
  split
  · rename_i h
    have h1 : c ∉ ['t', 'n', 'r', 'x', 'u', 'U'] := by
      rcases h with h | h <;> subst h
      · rcases hq with h | h <;> subst h <;> decide
      · decide
    simp only [List.mem_cons, List.not_mem_nil, or_false, not_or] at h1
    obtain ⟨a1, a2, a3, a4, a5, a6⟩ := h1
    simp only [List.cons_append, List.nil_append, readChar, if_neg a1, if_neg a2, if_neg a3, if_neg a4, if_neg a5, if_neg a6]
  · rename_i hb
    rw [not_or] at hb
    split
    · rename_i h; subst h; rfl
    split
    · rename_i h; subst h; rfl
    split
    · rename_i h; subst h; rfl
    split
    · rename_i h
      obtain ⟨k1, k2⟩ := read_hex 2 c r (by omega)
      show some (Char.ofNat (hexNum ((hexPad 2 c.toNat ++ r).take 2)), (hexPad 2 c.toNat ++ r).drop 2) = _
      rw [k1, k2]
    split
    · exact readChar_plain hb.2 r
    split
    · obtain ⟨k1, k2⟩ := read_hex 2 c r (by omega)
      show some (Char.ofNat (hexNum ((hexPad 2 c.toNat ++ r).take 2)), (hexPad 2 c.toNat ++ r).drop 2) = _
      rw [k1, k2]
    split
    · obtain ⟨k1, k2⟩ := read_hex 4 c r (by omega)
      show some (Char.ofNat (hexNum ((hexPad 4 c.toNat ++ r).take 4)), (hexPad 4 c.toNat ++ r).drop 4) = _
      rw [k1, k2]
    · obtain ⟨k1, k2⟩ := read_hex 8 c r (char_lt c)
      show some (Char.ofNat (hexNum ((hexPad 8 c.toNat ++ r).take 8)), (hexPad 8 c.toNat ++ r).drop 8) = _
      rw [k1, k2]

theorem reprChar_head (p : Char → Bool) {q : Char} (hq : q = '\'' ∨ q = '"') (c : Char) :
    ∃ x t, reprChar p q c = x :: t ∧ x ≠ q := by
  have hb : '\\' ≠ q := by rcases hq with h | h <;> subst h <;> decide
  unfold reprChar
  split
  · exact ⟨_, _, rfl, hb⟩
  rename_i h
  rw [not_or] at h
  repeat' split
  all_goals first | exact ⟨_, _, rfl, hb⟩ | exact ⟨_, _, rfl, h.1⟩

theorem reprBody_inj (p : Char → Bool) {q : Char} (hq : q = '\'' ∨ q = '"') :
    ∀ (s t r r' : Str), s.flatMap (reprChar p q) ++ q :: r = t.flatMap (reprChar p q) ++ q :: r' → s = t ∧ r = r' := by
  intro s
  induction s with
  | nil =>
    intro t r r' h
    cases t with
    | nil => exact ⟨rfl, (List.cons.inj h).2⟩
    | cons c t =>
      obtain ⟨x, u, hx, hne⟩ := reprChar_head p hq c
      rw [List.flatMap_cons, hx] at h
      exact absurd (List.cons.inj h).1.symm hne
  | cons c s ih =>
    intro t r r' h
    cases t with
    | nil =>
      obtain ⟨x, u, hx, hne⟩ := reprChar_head p hq c
      rw [List.flatMap_cons, hx] at h
      exact absurd (List.cons.inj h).1 hne
    | cons d t =>
      rw [List.flatMap_cons, List.flatMap_cons, List.append_assoc, List.append_assoc] at h
      have h2 := congrArg readChar h
      rw [readChar_repr p hq, readChar_repr p hq, Option.some.injEq, Prod.mk.injEq] at h2
      obtain ⟨h3, h4⟩ := ih t r r' h2.2
      exact ⟨by rw [h2.1, h3], h4⟩

theorem reprQuote_cases (s : Str) : reprQuote s = '\'' ∨ reprQuote s = '"' := by
  unfold reprQuote
  split
  · exact .inr rfl
  · exact .inl rfl

theorem strRepr_inj (p : Char → Bool) (s t r r' : Str) (h : strRepr p s ++ r = strRepr p t ++ r') : s = t ∧ r = r' := by
  unfold strRepr at h
  rw [List.cons_append, List.cons_append, List.append_assoc, List.append_assoc, List.cons.injEq] at h
  rw [← h.1] at h
  exact reprBody_inj p (reprQuote_cases s) s t r r' h.2

theorem strRepr_line (p : Char → Bool) (s : Str) (hp : p '\n' = false) : '\n' ∉ strRepr p s := by
  have hx : ∀ k < 16, hexChar k ≠ '\n' := by decide
  have hpad : ∀ w n, '\n' ∉ hexPad w n := fun w n hm => by
    obtain ⟨k, hk, he⟩ := hexPad_chars w n hm
    exact hx k hk he.symm
  have hq : '\n' ≠ reprQuote s := by rcases reprQuote_cases s with h | h <;> rw [h] <;> decide
  unfold strRepr
  rw [List.mem_cons, List.mem_append, List.mem_singleton, List.mem_flatMap]
  rintro (h | ⟨c, -, h⟩ | h)
  · exact hq h
  · unfold reprChar at h
    split at h
    · rename_i h1
      simp only [List.mem_cons, List.not_mem_nil, or_false] at h
      rcases h with h | h
      · exact absurd h (by decide)
      · rcases h1 with h1 | h1
        · exact hq (h.trans h1)
        · rw [h1] at h; exact absurd h (by decide)
    · repeat' split at h
      all_goals simp only [List.mem_cons, List.not_mem_nil, or_false, hpad] at h
      all_goals first | exact absurd h (by decide) | skip
      rename_i h3 _ _ _
      exact h3 h.symm
  · exact hq h

/-! ## Lists and dicts -/

/-- what follows a value -/
def Stops (r : Str) : Prop := ∃ c t, r = c :: t ∧ (c = ',' ∨ c = '}' ∨ c = ']')

/-- the texts of values can be told apart, and where they end -/
def Coded {α : Type} (ok : α → Prop) (f : α → Str) : Prop :=
  ∀ a b r r', ok a → ok b → Stops r → Stops r' → f a ++ r = f b ++ r' → a = b ∧ r = r'

theorem repr_join_cons (sep a : Str) (l : List Str) : join sep (a :: l) = a ++ l.flatMap (fun x => sep ++ x) := by
  induction l generalizing a with
  | nil => simp [join]
  | cons b l ih => rw [join, ih]; simp [List.flatMap_cons]

theorem stops_tail {α : Type} {f : α → Str} {close : Char} (hc : close = '}' ∨ close = ']') (l : List α) (r : Str) :
    Stops ((l.map f).flatMap (fun x => ", ".toList ++ x) ++ close :: r) := by
  cases l with
  | nil => exact ⟨close, r, rfl, .inr hc⟩
  | cons a l => exact ⟨',', _, rfl, .inl rfl⟩

theorem tail_coded {α : Type} {ok : α → Prop} {f : α → Str} (hf : Coded ok f) {close : Char} (hc : close = '}' ∨ close = ']') :
    ∀ (l l' : List α) (r r' : Str), (∀ a ∈ l, ok a) → (∀ a ∈ l', ok a) →
      (l.map f).flatMap (fun x => ", ".toList ++ x) ++ close :: r = (l'.map f).flatMap (fun x => ", ".toList ++ x) ++ close :: r' →
      l = l' ∧ r = r' := by
  have hne : ',' ≠ close := by rcases hc with h | h <;> subst h <;> decide
  intro l
  induction l with
  | nil =>
    intro l' r r' _ _ h
    cases l' with
    | nil => exact ⟨rfl, (List.cons.inj h).2⟩
    | cons b l' => exact absurd (List.cons.inj h).1.symm hne
  | cons a l ih =>
    intro l' r r' h1 h2 h
    cases l' with
    | nil => exact absurd (List.cons.inj h).1 hne
    | cons b l' =>
      rw [List.map_cons, List.map_cons, List.flatMap_cons, List.flatMap_cons, List.append_assoc, List.append_assoc, List.append_assoc,
        List.append_assoc] at h
      have h3 := List.append_cancel_left h
      obtain ⟨h4, h5⟩ := hf a b _ _ (h1 a List.mem_cons_self) (h2 b List.mem_cons_self) (stops_tail hc l r) (stops_tail hc l' r') h3
      obtain ⟨h6, h7⟩ := ih l' r r' (fun x hx => h1 x (List.mem_cons_of_mem _ hx)) (fun x hx => h2 x (List.mem_cons_of_mem _ hx)) h5
      exact ⟨by rw [h4, h6], h7⟩

theorem join_coded {α : Type} {ok : α → Prop} {f : α → Str} (hf : Coded ok f)
    (hh : ∀ a, ok a → ∃ c t, f a = c :: t ∧ c ≠ '}' ∧ c ≠ ']') {close : Char} (hc : close = '}' ∨ close = ']')
    (l l' : List α) (r r' : Str) (h1 : ∀ a ∈ l, ok a) (h2 : ∀ a ∈ l', ok a)
    (h : join ", ".toList (l.map f) ++ close :: r = join ", ".toList (l'.map f) ++ close :: r') : l = l' ∧ r = r' := by
  cases l with
  | nil =>
    cases l' with
    | nil => exact ⟨rfl, (List.cons.inj h).2⟩
    | cons b l' =>
      obtain ⟨c, t, hx, n1, n2⟩ := hh b (h2 b List.mem_cons_self)
      rw [List.map_cons, repr_join_cons, hx] at h
      have := (List.cons.inj h).1
      rcases hc with hc | hc
      · exact absurd (this.symm.trans hc) n1
      · exact absurd (this.symm.trans hc) n2
  | cons a l =>
    cases l' with
    | nil =>
      obtain ⟨c, t, hx, n1, n2⟩ := hh a (h1 a List.mem_cons_self)
      rw [List.map_cons, repr_join_cons, hx] at h
      have := (List.cons.inj h).1
      rcases hc with hc | hc
      · exact absurd (this.trans hc) n1
      · exact absurd (this.trans hc) n2
    | cons b l' =>
      rw [List.map_cons, List.map_cons, repr_join_cons, repr_join_cons, List.append_assoc, List.append_assoc] at h
      obtain ⟨h4, h5⟩ := hf a b _ _ (h1 a List.mem_cons_self) (h2 b List.mem_cons_self) (stops_tail hc l r) (stops_tail hc l' r') h
      obtain ⟨h6, h7⟩ := tail_coded hf hc l l' r r' (fun x hx => h1 x (List.mem_cons_of_mem _ hx))
        (fun x hx => h2 x (List.mem_cons_of_mem _ hx)) h5
      exact ⟨by rw [h4, h6], h7⟩

theorem strRepr_head (p : Char → Bool) (s : Str) : ∃ c t, strRepr p s = c :: t ∧ (c = '\'' ∨ c = '"') :=
  ⟨_, _, rfl, reprQuote_cases s⟩

theorem item_coded {α : Type} {ok : α → Prop} {f : α → Str} (p : Char → Bool) (hf : Coded ok f) :
    Coded (fun x : Str × α => ok x.2) (reprItem p f) := by
  rintro ⟨k, a⟩ ⟨k', b⟩ r r' ha hb hr hr' h
  unfold reprItem at h
  simp only [List.append_assoc] at h
  obtain ⟨h1, h2⟩ := strRepr_inj p _ _ _ _ h
  obtain ⟨h3, h4⟩ := hf a b r r' ha hb hr hr' (List.append_cancel_left h2)
  exact ⟨by rw [h1, h3], h4⟩

theorem dict_coded {α : Type} {ok : α → Prop} {f : α → Str} (p : Char → Bool) (hf : Coded ok f) (d d' : Dict α) (r r' : Str)
    (h1 : ∀ x ∈ d, ok x.2) (h2 : ∀ x ∈ d', ok x.2) (h : reprDict p f d ++ r = reprDict p f d' ++ r') : d = d' ∧ r = r' := by
  unfold reprDict at h
  rw [List.cons_append, List.cons_append, List.cons.injEq, List.append_assoc, List.append_assoc] at h
  refine join_coded (item_coded p hf) ?_ (.inl rfl) d d' r r' h1 h2 h.2
  intro a _
  obtain ⟨c, t, hx, hc⟩ := strRepr_head p a.1
  refine ⟨c, _, by unfold reprItem; rw [hx]; rfl, ?_, ?_⟩ <;> rcases hc with hc | hc <;> subst hc <;> decide

/-- what can be a bare word -/
def OkWord (w : Str) : Prop := w ≠ [] ∧ ∀ c ∈ w, c ∉ ([',', '}', ']', '\'', '"', '{', '['] : List Char)

def OkScalar : Scalar → Prop
  | .str _ => True
  | .word w => OkWord w

def OkVal : Val → Prop
  | .scalar v => OkScalar v
  | .dict d => ∀ x ∈ d, OkScalar x.2
  | .list l => ∀ d ∈ l, ∀ x ∈ d, OkScalar x.2

theorem word_coded : ∀ (w w' r r' : Str), (∀ c ∈ w, c ∉ ([',', '}', ']', '\'', '"', '{', '['] : List Char)) →
    (∀ c ∈ w', c ∉ ([',', '}', ']', '\'', '"', '{', '['] : List Char)) → Stops r → Stops r' → w ++ r = w' ++ r' → w = w' ∧ r = r' := by
  have hs : ∀ {c}, c = ',' ∨ c = '}' ∨ c = ']' → c ∈ ([',', '}', ']', '\'', '"', '{', '['] : List Char) := by
    rintro c (h | h | h) <;> subst h <;> decide
  intro w
  induction w with
  | nil =>
    rintro (_ | ⟨c, w'⟩) r r' _ h2 hr hr' h
    · exact ⟨rfl, h⟩
    · obtain ⟨d, t, rfl, hd⟩ := hr
      have := (List.cons.inj h).1
      exact absurd (hs hd) (this ▸ h2 c List.mem_cons_self)
  | cons a w ih =>
    rintro (_ | ⟨c, w'⟩) r r' h1 h2 hr hr' h
    · obtain ⟨d, t, rfl, hd⟩ := hr'
      have := (List.cons.inj h).1
      exact absurd (hs hd) (this ▸ h1 a List.mem_cons_self)
    · obtain ⟨e1, e2⟩ := List.cons.inj h
      obtain ⟨e3, e4⟩ := ih w' r r' (fun x hx => h1 x (List.mem_cons_of_mem _ hx)) (fun x hx => h2 x (List.mem_cons_of_mem _ hx)) hr hr' e2
      exact ⟨by rw [e1, e3], e4⟩

theorem word_head {w : Str} (h : OkWord w) : ∃ c t, w = c :: t ∧ c ∉ ([',', '}', ']', '\'', '"', '{', '['] : List Char) := by
  obtain ⟨h1, h2⟩ := h
  cases w with
  | nil => exact absurd rfl h1
  | cons c t => exact ⟨c, t, rfl, h2 c List.mem_cons_self⟩

theorem quote_stop {c : Char} (h : c = '\'' ∨ c = '"') : c ∈ ([',', '}', ']', '\'', '"', '{', '['] : List Char) := by
  rcases h with h | h <;> subst h <;> decide

theorem scalar_coded (p : Char → Bool) : Coded OkScalar (Scalar.repr p) := by
  rintro (s | w) (t | w') r r' ha hb hr hr' h
  · obtain ⟨h1, h2⟩ := strRepr_inj p s t r r' h
    exact ⟨by rw [h1], h2⟩
  · obtain ⟨c, u, hx, hc⟩ := strRepr_head p s
    obtain ⟨d, v, hw, hd⟩ := word_head hb
    have h' : strRepr p s ++ r = w' ++ r' := h
    rw [hx, hw] at h'
    exact absurd (quote_stop hc) ((List.cons.inj h').1 ▸ hd)
  · obtain ⟨c, u, hx, hc⟩ := strRepr_head p t
    obtain ⟨d, v, hw, hd⟩ := word_head ha
    have h' : w ++ r = strRepr p t ++ r' := h
    rw [hx, hw] at h'
    exact absurd (quote_stop hc) ((List.cons.inj h').1 ▸ hd)
  · obtain ⟨h1, h2⟩ := word_coded w w' r r' ha.2 hb.2 hr hr' h
    exact ⟨by rw [h1], h2⟩

theorem scalar_head (p : Char → Bool) {v : Scalar} (h : OkScalar v) : ∃ c t, v.repr p = c :: t ∧ c ≠ '{' ∧ c ≠ '[' := by
  cases v with
  | str s =>
    obtain ⟨c, t, hx, hc⟩ := strRepr_head p s
    refine ⟨c, t, hx, ?_, ?_⟩ <;> rcases hc with hc | hc <;> subst hc <;> decide
  | word w =>
    obtain ⟨c, t, hx, hc⟩ := word_head h
    refine ⟨c, t, hx, ?_, ?_⟩ <;> intro he <;> subst he <;> exact absurd (by decide) hc

theorem list_coded (p : Char → Bool) (l l' : List (Dict Scalar)) (r r' : Str) (h1 : ∀ d ∈ l, ∀ x ∈ d, OkScalar x.2)
    (h2 : ∀ d ∈ l', ∀ x ∈ d, OkScalar x.2)
    (h : reprList (reprDict p (Scalar.repr p)) l ++ r = reprList (reprDict p (Scalar.repr p)) l' ++ r') : l = l' ∧ r = r' := by
  unfold reprList at h
  rw [List.cons_append, List.cons_append, List.cons.injEq, List.append_assoc, List.append_assoc] at h
  refine join_coded (ok := fun d : Dict Scalar => ∀ x ∈ d, OkScalar x.2) ?_ ?_ (.inr rfl) l l' r r' h1 h2 h.2
  · intro a b r r' ha hb _ _ h
    exact dict_coded p (scalar_coded p) a b r r' ha hb h
  · intro a _
    exact ⟨'{', _, rfl, by decide, by decide⟩

theorem val_coded (p : Char → Bool) : Coded OkVal (Val.repr p) := by
  rintro (v | d | l) (v' | d' | l') r r' ha hb hr hr' h
  · obtain ⟨h1, h2⟩ := scalar_coded p v v' r r' ha hb hr hr' h
    exact ⟨by rw [h1], h2⟩
  · obtain ⟨c, t, hx, n1, n2⟩ := scalar_head p (v := v) ha
    have h' : v.repr p ++ r = '{' :: _ := h
    rw [hx] at h'
    exact absurd (List.cons.inj h').1 n1
  · obtain ⟨c, t, hx, n1, n2⟩ := scalar_head p (v := v) ha
    have h' : v.repr p ++ r = '[' :: _ := h
    rw [hx] at h'
    exact absurd (List.cons.inj h').1 n2
  · obtain ⟨c, t, hx, n1, n2⟩ := scalar_head p (v := v') hb
    have h' : '{' :: _ = v'.repr p ++ r' := h
    rw [hx] at h'
    exact absurd (List.cons.inj h').1.symm n1
  · obtain ⟨h1, h2⟩ := dict_coded p (scalar_coded p) d d' r r' ha hb h
    exact ⟨by rw [h1], h2⟩
  · exact absurd (List.cons.inj h).1 (by decide)
  · obtain ⟨c, t, hx, n1, n2⟩ := scalar_head p (v := v') hb
    have h' : '[' :: _ = v'.repr p ++ r' := h
    rw [hx] at h'
    exact absurd (List.cons.inj h').1.symm n2
  · exact absurd (List.cons.inj h).1 (by decide)
  · obtain ⟨h1, h2⟩ := list_coded p l l' r r' ha hb h
    exact ⟨by rw [h1], h2⟩

/-! ## Objects -/

/-- the items of an object in its text -/
def slotItems (l : List (Str × Option Val)) : Dict Val := l.filterMap (fun p => p.2.map (fun v => (p.1, v)))

theorem repr_eq_dict (p : Char → Bool) (num : Rat → Str) (o : ResObj) :
    o.repr p num = reprDict p (Val.repr p) (slotItems (o.slots num)) := by
  unfold ResObj.repr reprDict slotItems
  rw [List.map_filterMap]
  simp only [Option.map_map]
  rfl

theorem slotItems_inj : ∀ (l l' : List (Str × Option Val)), l.map Prod.fst = l'.map Prod.fst → (l.map Prod.fst).Nodup →
    slotItems l = slotItems l' → l = l' := by
  have hk : ∀ (l : List (Str × Option Val)) (k : Str) (v : Val), (k, v) ∈ slotItems l → k ∈ l.map Prod.fst := by
    intro l k v h
    obtain ⟨x, hx, he⟩ := List.mem_filterMap.mp h
    rcases hv : x.2 with _ | w
    · rw [hv] at he; cases he
    · rw [hv] at he
      have := Option.some.inj he
      exact List.mem_map.mpr ⟨x, hx, (Prod.mk.inj this).1⟩
  intro l
  induction l with
  | nil =>
    intro l' h _ _
    exact (List.map_eq_nil_iff.mp h.symm).symm
  | cons a l ih =>
    intro l' h hn he
    cases l' with
    | nil => cases h
    | cons b l' =>
      obtain ⟨k, v⟩ := a
      obtain ⟨k', v'⟩ := b
      rw [List.map_cons, List.map_cons, List.cons.injEq] at h
      obtain ⟨h1, h2⟩ := h
      have h1 : k = k' := h1
      subst h1
      rw [List.map_cons, List.nodup_cons] at hn
      cases v with
      | none =>
        cases v' with
        | none => rw [ih l' h2 hn.2 he]
        | some w =>
          have hm : (k, w) ∈ slotItems l := by
            have : slotItems l = (k, w) :: slotItems l' := he
            rw [this]; exact List.mem_cons_self
          exact absurd (hk l k w hm) hn.1
      | some w =>
        cases v' with
        | none =>
          have hm : (k, w) ∈ slotItems l' := by
            have : (k, w) :: slotItems l = slotItems l' := he
            rw [← this]; exact List.mem_cons_self
          exact absurd (h2 ▸ hk l' k w hm) hn.1
        | some w' =>
          have : (k, w) :: slotItems l = (k, w') :: slotItems l' := he
          obtain ⟨e1, e2⟩ := List.cons.inj this
          rw [ih l' h2 hn.2 e2, (Prod.mk.inj e1).2]

theorem okWord_num {num : Rat → Str} (hn : NumberText num) (t : Rat) : OkWord (num t) := by
  refine ⟨hn.nonempty t, fun c hc hm => ?_⟩
  have h := hn.chars t c hc
  simp only [List.mem_cons, List.not_mem_nil, or_false] at hm
  rcases hm with e | e | e | e | e | e | e <;> subst e <;> exact absurd h (by decide)

theorem okWord_int (n : Int) : OkWord (intStr n) := by
  have hd : ∀ c ∈ natStr n.natAbs, c ∉ ([',', '}', ']', '\'', '"', '{', '['] : List Char) := by
    intro c hc hm
    have h := natStr_digits _ c hc
    simp only [List.mem_cons, List.not_mem_nil, or_false] at hm
    rcases hm with e | e | e | e | e | e | e <;> subst e <;> exact absurd h (by decide)
  have hne : natStr n.natAbs ≠ [] := natStr_ne _
  unfold intStr
  split
  · refine ⟨by simp, fun c hc => ?_⟩
    rcases List.mem_cons.mp hc with h | h
    · subst h; decide
    · exact hd c h
  · exact ⟨hne, hd⟩

/-- the value of an extra attribute in the text -/
def extraScalar (num : Rat → Str) : Option (Str ⊕ Rat) → Scalar
  | none => .word "None".toList
  | some (.inl s) => .str s
  | some (.inr t) => .word (num t)

theorem none_ne_num {num : Rat → Str} (hn : NumberText num) (t : Rat) : "None".toList ≠ num t := by
  intro h
  have := hn.chars t 'N' (by rw [← h]; decide)
  exact absurd this (by decide)

theorem extraScalar_inj {num : Rat → Str} (hn : NumberText num) : ∀ a b, extraScalar num a = extraScalar num b → a = b := by
  rintro (_ | _ | t) (_ | _ | u) h
  · rfl
  · cases h
  · exact absurd (Scalar.word.inj h) (none_ne_num hn u)
  · cases h
  · rw [Scalar.str.inj h]
  · cases h
  · exact absurd (Scalar.word.inj h).symm (none_ne_num hn t)
  · cases h
  · rw [hn.distinct _ _ (Scalar.word.inj h)]

theorem extraScalar_ok {num : Rat → Str} (hn : NumberText num) (v : Option (Str ⊕ Rat)) : OkScalar (extraScalar num v) := by
  rcases v with _ | _ | t
  · exact ⟨by decide, by decide⟩
  · trivial
  · exact okWord_num hn t

theorem pairs_inj {α β : Type} {g : α → β} (hg : ∀ a b, g a = g b → a = b) (d d' : List (Str × α))
    (h : d.map (fun p => (p.1, g p.2)) = d'.map (fun p => (p.1, g p.2))) : d = d' := by
  refine List.map_injective_iff.mpr ?_ h
  rintro ⟨k, a⟩ ⟨k', b⟩ h
  obtain ⟨h1, h2⟩ := Prod.mk.inj h
  exact Prod.ext h1 (hg _ _ h2)

theorem opt_inj {α β : Type} {g : α → β} (hg : ∀ a b, g a = g b → a = b) {a b : Option α} (h : a.map g = b.map g) : a = b :=
  Option.map_injective (fun x y => hg x y) h

theorem slots_ok {num : Rat → Str} (hn : NumberText num) (o : ResObj) : ∀ x ∈ slotItems (o.slots num), OkVal x.2 := by
  intro x hx
  obtain ⟨y, hy, he⟩ := List.mem_filterMap.mp hx
  obtain ⟨v, hv, rfl⟩ := Option.map_eq_some_iff.mp he
  have hs : ∀ (a : Option Str) (v : Val), a.map (fun s => Val.scalar (.str s)) = some v → OkVal v := by
    intro a v h
    obtain ⟨s, -, rfl⟩ := Option.map_eq_some_iff.mp h
    trivial
  have ht : ∀ (a : Option Rat) (v : Val), a.map (fun t => Val.scalar (.word (num t))) = some v → OkVal v := by
    intro a v h
    obtain ⟨s, -, rfl⟩ := Option.map_eq_some_iff.mp h
    exact okWord_num hn s
  simp only [ResObj.slots, List.mem_cons, List.not_mem_nil, or_false] at hy
  rcases hy with h | h | h | h | h | h | h | h | h | h | h | h <;> subst h
  · exact hs (some o.uri) _ hv
  · exact ht _ _ hv
  · obtain ⟨n, -, rfl⟩ := Option.map_eq_some_iff.mp hv
    exact okWord_int n
  · exact hs _ _ hv
  · exact hs _ _ hv
  · exact hs _ _ hv
  · exact hs _ _ hv
  · exact hs _ _ hv
  · exact ht _ _ hv
  · exact hs _ _ hv
  · obtain ⟨l, -, rfl⟩ := Option.map_eq_some_iff.mp hv
    intro d hd z hz
    obtain ⟨l', -, rfl⟩ := List.mem_map.mp hd
    obtain ⟨w, -, rfl⟩ := List.mem_map.mp hz
    trivial
  · obtain ⟨d, -, rfl⟩ := Option.map_eq_some_iff.mp hv
    intro z hz
    obtain ⟨w, -, rfl⟩ := List.mem_map.mp hz
    exact extraScalar_ok hn w.2

theorem slots_inj {num : Rat → Str} (hn : NumberText num) (o o' : ResObj) (h : o.slots num = o'.slots num) : o = o' := by
  have hs : ∀ a b : Str, Val.scalar (.str a) = Val.scalar (.str b) → a = b := fun a b h => Scalar.str.inj (Val.scalar.inj h)
  have ht : ∀ a b : Rat, Val.scalar (.word (num a)) = Val.scalar (.word (num b)) → a = b :=
    fun a b h => hn.distinct _ _ (Scalar.word.inj (Val.scalar.inj h))
  have hi : ∀ a b : Int, Val.scalar (.word (intStr a)) = Val.scalar (.word (intStr b)) → a = b :=
    fun a b h => intStr_injective (Scalar.word.inj (Val.scalar.inj h))
  have hl : ∀ a b : List Link, Val.list (a.map (fun d => d.map (fun p => (p.1, Scalar.str p.2)))) =
      Val.list (b.map (fun d => d.map (fun p => (p.1, Scalar.str p.2)))) → a = b := by
    intro a b h
    refine List.map_injective_iff.mpr ?_ (Val.list.inj h)
    intro d d' hd
    exact pairs_inj (g := Scalar.str) (fun _ _ h => Scalar.str.inj h) d d' hd
  have he : ∀ a b : Dict (Option (Str ⊕ Rat)), Val.dict (a.map (fun p => (p.1, extraScalar num p.2))) =
      Val.dict (b.map (fun p => (p.1, extraScalar num p.2))) → a = b :=
    fun a b h => pairs_inj (extraScalar_inj hn) a b (Val.dict.inj h)
  simp only [ResObj.slots, List.cons.injEq, Prod.mk.injEq, true_and, and_true] at h
  obtain ⟨h1, h2, h3, h4, h5, h6, h7, h8, h9, h10, h11, h12⟩ := h
  cases o
  cases o'
  simp only [ResObj.mk.injEq]
  exact ⟨hs _ _ (Option.some.inj h1), opt_inj ht h2, opt_inj hi h3, opt_inj hs h4, opt_inj hs h5, opt_inj hs h6, opt_inj hs h7,
    opt_inj hs h8, opt_inj ht h9, opt_inj hs h10, opt_inj hl h11, opt_inj he h12⟩

theorem slots_keys (num : Rat → Str) (o : ResObj) : (o.slots num).map Prod.fst =
    ["uri".toList, "timestamp".toList, "length".toList, "mime_type".toList, "md5".toList, "sha1".toList, "sha256".toList,
     "change".toList, "ts_datetime".toList, "path".toList, "ln".toList, "_extra".toList] := rfl

theorem obj_repr_inj (p : Char → Bool) {num : Rat → Str} (hn : NumberText num) (o o' : ResObj) (h : o.repr p num = o'.repr p num) :
    o = o' := by
  rw [repr_eq_dict, repr_eq_dict] at h
  have hd := (dict_coded p (val_coded p) _ _ [','] [','] (slots_ok hn o) (slots_ok hn o') (by rw [h])).1
  refine slots_inj hn o o' (slotItems_inj _ _ ?_ ?_ hd)
  · rw [slots_keys, slots_keys]
  · rw [slots_keys]; decide

/-! ## One line -/

theorem join_line (l : List Str) (h : ∀ s ∈ l, '\n' ∉ s) : '\n' ∉ join ", ".toList l := by
  cases l with
  | nil => exact List.not_mem_nil
  | cons a l =>
    rw [repr_join_cons, List.mem_append, List.mem_flatMap]
    rintro (hm | ⟨x, hx, hm⟩)
    · exact h a List.mem_cons_self hm
    · rcases List.mem_append.mp hm with hm | hm
      · exact absurd hm (by decide)
      · exact h x (List.mem_cons_of_mem _ hx) hm

theorem dict_line {α : Type} (p : Char → Bool) (f : α → Str) (d : Dict α) (hp : p '\n' = false) (h : ∀ x ∈ d, '\n' ∉ f x.2) :
    '\n' ∉ reprDict p f d := by
  unfold reprDict
  rw [List.mem_cons, List.mem_append, List.mem_singleton]
  rintro (hm | hm | hm)
  · exact absurd hm (by decide)
  · refine join_line _ ?_ hm
    intro s hs
    obtain ⟨x, hx, rfl⟩ := List.mem_map.mp hs
    unfold reprItem
    rw [List.mem_append, List.mem_append]
    rintro ((h1 | h1) | h1)
    · exact strRepr_line p x.1 hp h1
    · exact absurd h1 (by decide)
    · exact h x hx h1
  · exact absurd hm (by decide)

/-- words without newlines -/
def LineScalar : Scalar → Prop
  | .str _ => True
  | .word w => '\n' ∉ w

theorem scalar_line (p : Char → Bool) (hp : p '\n' = false) (v : Scalar) (h : LineScalar v) : '\n' ∉ v.repr p := by
  cases v with
  | str s => exact strRepr_line p s hp
  | word w => exact h

def LineVal : Val → Prop
  | .scalar v => LineScalar v
  | .dict d => ∀ x ∈ d, LineScalar x.2
  | .list l => ∀ d ∈ l, ∀ x ∈ d, LineScalar x.2

theorem val_line (p : Char → Bool) (hp : p '\n' = false) (v : Val) (h : LineVal v) : '\n' ∉ v.repr p := by
  cases v with
  | scalar v => exact scalar_line p hp v h
  | dict d => exact dict_line p _ d hp (fun x hx => scalar_line p hp x.2 (h x hx))
  | list l =>
    show '\n' ∉ reprList _ l
    unfold reprList
    rw [List.mem_cons, List.mem_append, List.mem_singleton]
    rintro (hm | hm | hm)
    · exact absurd hm (by decide)
    · refine join_line _ ?_ hm
      intro s hs
      obtain ⟨d, hd, rfl⟩ := List.mem_map.mp hs
      exact dict_line p _ d hp (fun x hx => scalar_line p hp x.2 (h d hd x hx))
    · exact absurd hm (by decide)

theorem num_line {num : Rat → Str} (hn : NumberText num) (t : Rat) : '\n' ∉ num t := fun h =>
  absurd (hn.chars t _ h) (by decide)

theorem int_line (n : Int) : '\n' ∉ intStr n := by
  have hd : '\n' ∉ natStr n.natAbs := fun h => absurd (natStr_digits _ _ h) (by decide)
  unfold intStr
  split
  · exact fun h => (List.mem_cons.mp h).elim (fun h => absurd h (by decide)) hd
  · exact hd

theorem obj_line (p : Char → Bool) (hp : p '\n' = false) {num : Rat → Str} (hn : NumberText num) (o : ResObj) :
    '\n' ∉ o.repr p num := by
  rw [repr_eq_dict]
  refine dict_line p _ _ hp (fun x hx => val_line p hp x.2 ?_)
  obtain ⟨y, hy, he⟩ := List.mem_filterMap.mp hx
  obtain ⟨v, hv, rfl⟩ := Option.map_eq_some_iff.mp he
  have hs : ∀ (a : Option Str) (v : Val), a.map (fun s => Val.scalar (.str s)) = some v → LineVal v := by
    intro a v h
    obtain ⟨s, -, rfl⟩ := Option.map_eq_some_iff.mp h
    trivial
  have ht : ∀ (a : Option Rat) (v : Val), a.map (fun t => Val.scalar (.word (num t))) = some v → LineVal v := by
    intro a v h
    obtain ⟨s, -, rfl⟩ := Option.map_eq_some_iff.mp h
    exact num_line hn s
  simp only [ResObj.slots, List.mem_cons, List.not_mem_nil, or_false] at hy
  rcases hy with h | h | h | h | h | h | h | h | h | h | h | h <;> subst h
  · exact hs (some o.uri) _ hv
  · exact ht _ _ hv
  · obtain ⟨n, -, rfl⟩ := Option.map_eq_some_iff.mp hv
    exact int_line n
  · exact hs _ _ hv
  · exact hs _ _ hv
  · exact hs _ _ hv
  · exact hs _ _ hv
  · exact hs _ _ hv
  · exact ht _ _ hv
  · exact hs _ _ hv
  · obtain ⟨l, -, rfl⟩ := Option.map_eq_some_iff.mp hv
    intro d hd z hz
    obtain ⟨l', -, rfl⟩ := List.mem_map.mp hd
    obtain ⟨w, -, rfl⟩ := List.mem_map.mp hz
    trivial
  · obtain ⟨d, -, rfl⟩ := Option.map_eq_some_iff.mp hv
    intro z hz
    obtain ⟨w, -, rfl⟩ := List.mem_map.mp hz
    obtain ⟨k, _ | _ | t⟩ := w
    · exact (by decide : '\n' ∉ "None".toList)
    · trivial
    · exact num_line hn t

theorem eventObj_inj {r r' : Resource} (h : eventObj r = eventObj r') : r = r' := by
  simp only [eventObj, ResObj.mk.injEq, Option.some.injEq, List.cons.injEq, Prod.mk.injEq, true_and, and_true] at h
  obtain ⟨h1, h2, h3, h4, h5, h6, h7, h8, h9, h10, h11, h12, h13, h14, h15, h16⟩ := h
  have hr : ∀ {a b : Option Rat}, a.map (Sum.inr (α := Str)) = b.map Sum.inr → a = b := opt_inj (fun _ _ h => Sum.inr.inj h)
  have hl : ∀ {a b : Option Str}, a.map (Sum.inl (β := Rat)) = b.map Sum.inl → a = b := opt_inj (fun _ _ h => Sum.inl.inj h)
  cases r
  cases r'
  simp only [Resource.mk.injEq]
  exact ⟨h1, h2, h3, h4, h5, h6, h7, h8, h9, h10, h11, hl h12, hr h13, hr h14, hr h15, hr h16⟩

end Resync
