import Verif.Py.XmlText
import Mathlib.Tactic.Cases
/-
Reading XML is reading from the front: what has been read stays read when the text goes on.
-/

namespace Py

theorem dropWs_ext {p r : Str} (q : Str) (h : dropWs p = r) (hr : r ≠ []) : dropWs (p ++ q) = r ++ q := by
  induction p with
  | nil => simp only [dropWs, List.dropWhile_nil] at h; exact absurd h.symm hr
  | cons c t ih =>
    simp only [dropWs, List.dropWhile_cons, List.cons_append] at h ⊢
    split
    · rename_i hc
      rw [if_pos hc] at h
      exact ih h
    · rename_i hc
      rw [if_neg hc] at h
      rw [← h]; rfl

theorem readNameRest_ext (q : Str) : ∀ {p k r : Str}, readNameRest p = some (k, r) → readNameRest (p ++ q) = some (k, r ++ q)
  | [], _, _, h => by cases h
  | c :: t, k, r, h => by
    simp only [readNameRest, List.cons_append] at h ⊢
    split
    · rename_i hc
      rw [if_pos hc] at h
      simp only [Option.map_eq_some_iff] at h ⊢
      obtain ⟨⟨a, b⟩, h1, h2⟩ := h
      cases h2
      exact ⟨(a, b ++ q), readNameRest_ext q h1, rfl⟩
    · rename_i hc
      rw [if_neg hc] at h
      cases h; rfl

theorem readName_ext (q : Str) {p k r : Str} (h : readName p = some (k, r)) : readName (p ++ q) = some (k, r ++ q) := by
  cases p with
  | nil => cases h
  | cons c t =>
    simp only [readName, List.cons_append] at h ⊢
    split
    · rename_i hc
      rw [if_pos hc] at h
      simp only [Option.map_eq_some_iff] at h ⊢
      obtain ⟨⟨a, b⟩, h1, h2⟩ := h
      cases h2
      exact ⟨(a, b ++ q), readNameRest_ext q h1, rfl⟩
    · rename_i hc
      rw [if_neg hc] at h
      cases h

theorem readTo_ext (stop : Char) (q : Str) : ∀ {p k r : Str}, readTo stop p = some (k, r) → readTo stop (p ++ q) = some (k, r ++ q)
  | [], _, _, h => by cases h
  | c :: t, k, r, h => by
    simp only [readTo, List.cons_append] at h ⊢
    split
    · rename_i hc
      rw [if_pos hc] at h
      cases h; rfl
    · rename_i hc
      rw [if_neg hc] at h
      simp only [Option.map_eq_some_iff] at h ⊢
      obtain ⟨⟨a, b⟩, h1, h2⟩ := h
      cases h2
      exact ⟨(a, b ++ q), readTo_ext stop q h1, rfl⟩

theorem startsWith_append {s p : Str} (q : Str) (h : startsWith s p = true) : startsWith (s ++ q) p = true := by
  simp only [startsWith, List.isPrefixOf_iff_prefix] at h ⊢
  exact h.trans (List.prefix_append s q)

theorem startsWith_of_append {s p : Str} (q : Str) (hlen : p.length ≤ s.length) (h : startsWith (s ++ q) p = true) :
    startsWith s p = true := by
  simp only [startsWith, List.isPrefixOf_iff_prefix] at h ⊢
  exact List.prefix_of_prefix_length_le h (List.prefix_append s q) hlen

theorem readToStr_length (stop : Str) : ∀ {p k r : Str}, readToStr stop p = some (k, r) → stop.length ≤ p.length
  | [], _, _, h => by cases h
  | c :: t, k, r, h => by
    simp only [readToStr] at h
    split at h
    · rename_i hc
      simp only [startsWith, List.isPrefixOf_iff_prefix] at hc
      exact hc.length_le
    · simp only [Option.map_eq_some_iff] at h
      obtain ⟨⟨a, b⟩, h1, -⟩ := h
      have := readToStr_length stop h1
      simp only [List.length_cons]; omega

theorem readToStr_ext (stop : Str) (q : Str) : ∀ {p k r : Str}, readToStr stop p = some (k, r) →
    readToStr stop (p ++ q) = some (k, r ++ q)
  | [], _, _, h => by cases h
  | c :: t, k, r, h => by
    have hlen := readToStr_length stop h
    simp only [readToStr, List.cons_append] at h ⊢
    by_cases hc : startsWith (c :: t) stop = true
    · rw [if_pos hc] at h
      rw [if_pos (by rw [← List.cons_append]; exact startsWith_append q hc)]
      cases h
      rw [← List.cons_append, List.drop_append_of_le_length hlen]
    · rw [if_neg hc] at h
      rw [if_neg (by
        intro h'
        exact hc (startsWith_of_append q hlen (by rw [List.cons_append]; exact h')))]
      simp only [Option.map_eq_some_iff] at h ⊢
      obtain ⟨⟨a, b⟩, h1, h2⟩ := h
      cases h2
      exact ⟨(a, b ++ q), readToStr_ext stop q h1, rfl⟩

theorem readRef_ext (q : Str) {p r : Str} {x : Char} (h : readRef p = some (x, r)) : readRef (p ++ q) = some (x, r ++ q) := by
  unfold readRef at h ⊢
  split at h
  · cases h
  · rename_i name r' h1
    rw [readTo_ext ';' q h1]
    simp only [Option.map_eq_some_iff] at h ⊢
    obtain ⟨y, h2, h3⟩ := h
    cases h3
    exact ⟨_, h2, rfl⟩

theorem readValue_ext (quote : Char) (q : Str) : ∀ {n m : Nat} {p v r : Str}, readValue quote n p = some (v, r) → n ≤ m →
    readValue quote m (p ++ q) = some (v, r ++ q)
  | 0, _, _, _, _, h, _ => by cases h
  | _ + 1, _, [], _, _, h, _ => by cases h
  | n + 1, 0, _ :: _, _, _, _, hm => by omega
  | n + 1, m + 1, c :: t, v, r, h, hm => by
    have hm' : n ≤ m := by omega
    simp only [readValue, List.cons_append] at h ⊢
    split
    · rename_i h1; rw [if_pos h1] at h; cases h; rfl
    · rename_i h1
      rw [if_neg h1] at h
      split
      · rename_i h2; rw [if_pos h2] at h; cases h
      · rename_i h2
        rw [if_neg h2] at h
        split
        · rename_i h3
          rw [if_pos h3] at h
          split at h
          · cases h
          · rename_i x r' h4
            rw [readRef_ext q h4]
            simp only [Option.map_eq_some_iff] at h ⊢
            obtain ⟨⟨a, b⟩, h5, h6⟩ := h
            cases h6
            exact ⟨(a, b ++ q), readValue_ext quote q h5 hm', rfl⟩
        · rename_i h3
          rw [if_neg h3] at h
          simp only [Option.map_eq_some_iff] at h ⊢
          obtain ⟨⟨a, b⟩, h5, h6⟩ := h
          cases h6
          exact ⟨(a, b ++ q), readValue_ext quote q h5 hm', rfl⟩

theorem readEqValue_ext (q : Str) {n m : Nat} {p v r : Str} (h : readEqValue n p = some (v, r)) (hm : n ≤ m) :
    readEqValue m (p ++ q) = some (v, r ++ q) := by
  unfold readEqValue at h ⊢
  split at h
  · cases h
  · rename_i c r1 h1
    rw [dropWs_ext q h1 (by simp), List.cons_append]
    dsimp only
    split
    · rename_i hc
      rw [if_pos hc] at h
      split at h
      · cases h
      · rename_i d r2 h2
        rw [dropWs_ext q h2 (by simp), List.cons_append]
        dsimp only
        split
        · rename_i hd; rw [if_pos hd] at h; exact readValue_ext _ q h hm
        · rename_i hd; rw [if_neg hd] at h; cases h
    · rename_i hc; rw [if_neg hc] at h; cases h

theorem skipPI_ext (q : Str) {p r : Str} (h : skipPI p = some r) : skipPI (p ++ q) = some (r ++ q) := by
  simp only [skipPI, Option.map_eq_some_iff] at h ⊢
  obtain ⟨⟨a, b⟩, h1, rfl⟩ := h
  exact ⟨(a, b ++ q), readToStr_ext _ q h1, rfl⟩

theorem skipComment_ext (q : Str) {p r : Str} (h : skipComment p = some r) : skipComment (p ++ q) = some (r ++ q) := by
  unfold skipComment at h ⊢
  split at h
  · cases h
  · cases h
  · rename_i a c r1 h1
    rw [readToStr_ext _ q h1]
    dsimp only [List.cons_append]
    split
    · rename_i hc; rw [if_pos hc] at h; cases h; rfl
    · rename_i hc; rw [if_neg hc] at h; cases h

theorem readAtts_ext (q : Str) : ∀ {n m : Nat} {p r : Str} {a : Dict Str} {b : Bool}, readAtts n p = some (a, b, r) → n ≤ m →
    readAtts m (p ++ q) = some (a, b, r ++ q)
  | 0, _, _, _, _, _, h, _ => by cases h
  | n + 1, 0, _, _, _, _, _, hm => by omega
  | n + 1, m + 1, p, r, a, b, h, hm => by
    have hm' : n ≤ m := by omega
    rw [readAtts] at h ⊢
    cases h0 : dropWs p with
    | nil => rw [h0] at h; cases h
    | cons c t =>
      rw [h0] at h
      rw [dropWs_ext q h0 (by simp), List.cons_append]
      dsimp only at h ⊢
      split
      · rename_i h1; rw [if_pos h1] at h; cases h; rfl
      · rename_i h1
        rw [if_neg h1] at h
        split
        · rename_i h2
          rw [if_pos h2] at h
          cases t with
          | nil => cases h
          | cons d t =>
            dsimp only [List.cons_append] at h ⊢
            split
            · rename_i h3; rw [if_pos h3] at h; cases h; rfl
            · rename_i h3; rw [if_neg h3] at h; cases h
        · rename_i h2
          rw [if_neg h2] at h
          split at h
          · cases h
          · rename_i h3
            rw [if_neg (by simp only [List.length_cons, List.length_append] at h3 ⊢; omega)]
            rw [← List.cons_append]
            split at h
            · cases h
            · rename_i k r1 h4
              rw [readName_ext q h4]
              dsimp only
              split at h
              · cases h
              · rename_i v r2 h5
                rw [readEqValue_ext q h5 hm']
                simp only [Option.map_eq_some_iff] at h ⊢
                obtain ⟨⟨a', b', r'⟩, h6, h7⟩ := h
                cases h7
                exact ⟨(_, _, _), readAtts_ext q h6 hm', rfl⟩

theorem readContent_nil (n : Nat) : readContent n [] = none := by cases n <;> simp [readContent]

theorem readContent_bracket (n : Nat) : readContent n [']'] = none := by
  cases n with
  | zero => simp [readContent]
  | succ n =>
    rw [readContent, if_neg (by decide), if_neg (by decide), readContent_nil]
    split <;> rfl

mutual
theorem readElem_ext (q : Str) : ∀ {n m : Nat} {p r : Str} {e : Elem}, readElem n p = some (e, r) → n ≤ m →
    readElem m (p ++ q) = some (e, r ++ q)
  | 0, _, _, _, _, h, _ => by simp [readElem] at h
  | n + 1, 0, _, _, _, _, hm => by omega
  | n + 1, m + 1, p, r, e, h, hm => by
    have hm' : n ≤ m := by omega
    rw [readElem] at h ⊢
    split at h
    · cases h
    · rename_i tag r1 h1
      rw [readName_ext q h1]
      dsimp only
      split at h
      · cases h
      · rename_i att empty r2 h2
        rw [readAtts_ext q h2 hm']
        dsimp only
        split
        · rename_i h3; rw [if_pos h3] at h; cases h
        · rename_i h3
          rw [if_neg h3] at h
          split
          · rename_i h4; rw [if_pos h4] at h; cases h; rfl
          · rename_i h4
            rw [if_neg h4] at h
            split at h
            · cases h
            · rename_i text ch r3 h5
              rw [readContent_ext q h5 hm']
              dsimp only
              split at h
              · cases h
              · rename_i tag' r4 h6
                rw [readName_ext q h6]
                dsimp only
                split
                · rename_i h7; rw [if_pos h7] at h; cases h
                · rename_i h7
                  rw [if_neg h7] at h
                  split at h
                  · cases h
                  · rename_i c r5 h8
                    rw [dropWs_ext q h8 (by simp), List.cons_append]
                    dsimp only
                    split
                    · rename_i hc; rw [if_pos hc] at h; cases h; rfl
                    · rename_i hc; rw [if_neg hc] at h; cases h
theorem readContent_ext (q : Str) : ∀ {n m : Nat} {p r : Str} {x : Str} {ch : List Elem}, readContent n p = some (x, ch, r) → n ≤ m →
    readContent m (p ++ q) = some (x, ch, r ++ q)
  | 0, _, _, _, _, _, h, _ => by simp [readContent] at h
  | _ + 1, _, [], _, _, _, h, _ => by simp [readContent] at h
  | n + 1, 0, _, _, _, _, _, hm => by omega
  | n + 1, m + 1, c :: t, r, x, ch, h, hm => by
    have hm' : n ≤ m := by omega
    rw [readContent.eq_def] at h
    rw [List.cons_append, readContent.eq_def]
    dsimp only at h ⊢
    split
    · rename_i h1
      rw [if_pos h1] at h
      cases t with
      | nil => cases h
      | cons d t =>
        dsimp only [List.cons_append] at h ⊢
        split
        · rename_i h2; rw [if_pos h2] at h; cases h; rfl
        · rename_i h2
          rw [if_neg h2] at h
          split
          · rename_i h3
            rw [if_pos h3] at h
            simp only [Option.bind_eq_some_iff] at h ⊢
            obtain ⟨r1, h4, h5⟩ := h
            exact ⟨_, skipPI_ext q h4, readContent_ext q h5 hm'⟩
          · rename_i h3
            rw [if_neg h3] at h
            split
            · rename_i h4
              rw [if_pos h4] at h
              by_cases h5 : startsWith t ['-', '-'] = true
              · rw [if_pos h5] at h
                rw [if_pos (startsWith_append q h5)]
                have hl : 2 ≤ t.length := by
                  simp only [startsWith, List.isPrefixOf_iff_prefix] at h5
                  exact h5.length_le
                simp only [Option.bind_eq_some_iff] at h ⊢
                obtain ⟨r1, h6, h7⟩ := h
                rw [List.drop_append_of_le_length hl]
                exact ⟨_, skipComment_ext q h6, readContent_ext q h7 hm'⟩
              · rw [if_neg h5] at h
                by_cases h6 : startsWith t ['[', 'C', 'D', 'A', 'T', 'A', '['] = true
                · rw [if_pos h6] at h
                  have h7 : startsWith (t ++ q) ['-', '-'] = false := by
                    simp only [startsWith, List.isPrefixOf_iff_prefix] at h6
                    obtain ⟨w, rfl⟩ := h6
                    rfl
                  rw [if_neg (by rw [h7]; decide), if_pos (startsWith_append q h6)]
                  have hl : 7 ≤ t.length := by
                    simp only [startsWith, List.isPrefixOf_iff_prefix] at h6
                    exact h6.length_le
                  split at h
                  · cases h
                  · rename_i a r1 h8
                    rw [List.drop_append_of_le_length hl, readToStr_ext _ q h8]
                    simp only [Option.map_eq_some_iff] at h ⊢
                    obtain ⟨⟨a', b', r'⟩, h9, h10⟩ := h
                    cases h10
                    exact ⟨(_, _, _), readContent_ext q h9 hm', rfl⟩
                · rw [if_neg h6] at h; cases h
            · rename_i h4
              rw [if_neg h4] at h
              split at h
              · cases h
              · rename_i e r1 h5
                have := readElem_ext q h5 hm'
                rw [List.cons_append] at this
                rw [this]
                simp only [Option.map_eq_some_iff] at h ⊢
                obtain ⟨⟨a', b', r'⟩, h9, h10⟩ := h
                cases h10
                exact ⟨(_, _, _), readContent_ext q h9 hm', rfl⟩
    · rename_i h1
      rw [if_neg h1] at h
      split
      · rename_i h2
        rw [if_pos h2] at h
        split at h
        · cases h
        · rename_i y r1 h3
          rw [readRef_ext q h3]
          simp only [Option.map_eq_some_iff] at h ⊢
          obtain ⟨⟨a', b', r'⟩, h9, h10⟩ := h
          cases h10
          exact ⟨(_, _, _), readContent_ext q h9 hm', rfl⟩
      · rename_i h2
        rw [if_neg h2] at h
        by_cases h3 : startsWith (c :: t) [']', ']', '>'] = true
        · rw [if_pos h3] at h; cases h
        · rw [if_neg h3] at h
          rw [if_neg (by
            intro h4
            by_cases hl : 3 ≤ (c :: t).length
            · exact h3 (startsWith_of_append q hl (by rw [List.cons_append]; exact h4))
            · simp only [Option.map_eq_some_iff] at h
              obtain ⟨p', h9, -⟩ := h
              match t, hl with
              | [], _ => rw [readContent_nil] at h9; cases h9
              | [d], _ =>
                simp only [startsWith, List.isPrefixOf_iff_prefix] at h4
                obtain ⟨w, hw⟩ := h4
                simp only [List.cons_append, List.nil_append, List.cons.injEq] at hw
                obtain ⟨-, rfl, -⟩ := hw
                rw [readContent_bracket] at h9; cases h9)]
          simp only [Option.map_eq_some_iff] at h ⊢
          obtain ⟨⟨a', b', r'⟩, h9, h10⟩ := h
          cases h10
          exact ⟨(_, _, _), readContent_ext q h9 hm', rfl⟩
end

end Py
