import Verif.Proofs.XmlExt
/-
What is written is read again: the text of a tree, read as XML.
-/

namespace Py

/-! ### Line ends -/

theorem nE_cons_ne {c : Char} (h : c ≠ '\r') (t : Str) : normalizeEol (c :: t) = c :: normalizeEol t := by
  rw [normalizeEol.eq_def]
  split
  · rename_i h'; cases h'
  · rename_i h'; cases h'; exact absurd rfl h
  · rename_i h'; cases h'; exact absurd rfl h
  · rename_i h'; cases h'; rfl

theorem nE_cr {t : Str} (h : t.head? ≠ some '\n') : normalizeEol ('\r' :: t) = '\n' :: normalizeEol t := by
  rw [normalizeEol.eq_def]
  split
  · rename_i h'; cases h'
  · rename_i h'; cases h'; exact absurd rfl h
  · rename_i h'; cases h'; rfl
  · rename_i h1 h'; cases h'; exact absurd rfl h1

theorem nE_noCr {s : Str} (h : ∀ c ∈ s, c ≠ '\r') (k : Str) : normalizeEol (s ++ k) = s ++ normalizeEol k := by
  induction s with
  | nil => rfl
  | cons c t ih =>
    rw [List.cons_append, nE_cons_ne (h c (by simp)), ih (fun d hd => h d (by simp [hd]))]
    rfl

/-- a text and what follows it, line ends normalised -/
theorem nE_append (p q : Str) : normalizeEol (p ++ q) = normalizeEol p ++ normalizeEol q ∨
    ∃ q', q = '\n' :: q' ∧ normalizeEol (p ++ q) = normalizeEol p ++ normalizeEol q' := by
  fun_induction normalizeEol p with
  | case1 => exact .inl rfl
  | case2 t ih =>
    rcases ih with ih | ⟨q', h1, ih⟩
    · left; simp only [List.cons_append, normalizeEol, ih]
    · right; exact ⟨q', h1, by simp only [List.cons_append, normalizeEol, ih]⟩
  | case3 t h ih =>
    cases t with
    | nil =>
      by_cases hq : q.head? = some '\n'
      · right
        cases q with
        | nil => cases hq
        | cons a q' =>
          simp only [List.head?_cons, Option.some.injEq] at hq
          subst hq
          exact ⟨q', rfl, by simp [normalizeEol]⟩
      · left
        simp only [List.cons_append, List.nil_append]
        rw [nE_cr hq]; rfl
    | cons d t' =>
      have hd : (d :: t').head? ≠ some '\n' := by
        simp only [List.head?_cons, ne_eq, Option.some.injEq]
        rintro rfl
        exact h t' rfl
      rw [List.cons_append, nE_cr (by simpa using hd)]
      rcases ih with ih | ⟨q', h1, ih⟩
      · left; rw [ih]; rfl
      · right; exact ⟨q', h1, by rw [ih]; rfl⟩
  | case4 c t h1 h2 ih =>
    have hc : c ≠ '\r' := h2
    rw [List.cons_append, nE_cons_ne hc]
    rcases ih with ih | ⟨q', h1, ih⟩
    · left; rw [ih]; rfl
    · right; exact ⟨q', h1, by rw [ih]; rfl⟩

theorem nE_append_ne (p : Str) {q : Str} (h : q.head? ≠ some '\n') : normalizeEol (p ++ q) = normalizeEol p ++ normalizeEol q := by
  rcases nE_append p q with h' | ⟨q', rfl, -⟩
  · exact h'
  · exact absurd rfl h

/-! ### Escaped text -/

theorem escText_cons (c : Char) (t : Str) : escText (c :: t) =
    (if c = '&' then "&amp;".toList else if c = '<' then "&lt;".toList else if c = '>' then "&gt;".toList else [c]) ++ escText t := rfl

theorem escText_head (s : Str) : (escText s).head? = some '\n' ↔ s.head? = some '\n' := by
  cases s with
  | nil => simp [escText]
  | cons c t =>
    rw [escText_cons]
    split
    · rename_i h; subst h; simp
    · split
      · rename_i h; subst h; simp
      · split
        · rename_i h; subst h; simp
        · simp

theorem nE_escText (s : Str) : normalizeEol (escText s) = escText (normalizeEol s) := by
  fun_induction normalizeEol s with
  | case1 => rfl
  | case2 t ih =>
    rw [escText_cons, escText_cons, escText_cons]
    simp only [show ('\r' : Char) ≠ '&' by decide, show ('\r' : Char) ≠ '<' by decide, show ('\r' : Char) ≠ '>' by decide,
      show ('\n' : Char) ≠ '&' by decide, show ('\n' : Char) ≠ '<' by decide, show ('\n' : Char) ≠ '>' by decide, if_false,
      List.cons_append, List.nil_append, normalizeEol, ih]
  | case3 t h ih =>
    have ht : t.head? ≠ some '\n' := by
      cases t with
      | nil => simp
      | cons d t' =>
        simp only [List.head?_cons, ne_eq, Option.some.injEq]
        rintro rfl
        exact h t' rfl
    rw [escText_cons, escText_cons]
    simp only [show ('\r' : Char) ≠ '&' by decide, show ('\r' : Char) ≠ '<' by decide, show ('\r' : Char) ≠ '>' by decide,
      show ('\n' : Char) ≠ '&' by decide, show ('\n' : Char) ≠ '<' by decide, show ('\n' : Char) ≠ '>' by decide, if_false,
      List.cons_append, List.nil_append]
    rw [nE_cr (by rwa [Ne, escText_head]), ih]
  | case4 c t h1 h2 ih =>
    have hc : c ≠ '\r' := h2
    rw [escText_cons, escText_cons, nE_noCr, ih]
    intro d hd
    split at hd
    · simp only [String.reduceToList, List.mem_cons, List.not_mem_nil, or_false] at hd; rintro rfl; revert hd; decide
    · split at hd
      · simp only [String.reduceToList, List.mem_cons, List.not_mem_nil, or_false] at hd; rintro rfl; revert hd; decide
      · split at hd
        · simp only [String.reduceToList, List.mem_cons, List.not_mem_nil, or_false] at hd; rintro rfl; revert hd; decide
        · simp only [List.mem_singleton] at hd; rw [hd]; exact hc

theorem escText_not_gt (s : Str) : ∀ c ∈ escText s, c ≠ '>' ∧ c ≠ '<' := by
  intro c hc
  simp only [escText, List.mem_flatMap] at hc
  obtain ⟨d, -, hd⟩ := hc
  split at hd
  · simp only [String.reduceToList, List.mem_cons, List.not_mem_nil, or_false] at hd; constructor <;> (rintro rfl; revert hd; decide)
  · split at hd
    · simp only [String.reduceToList, List.mem_cons, List.not_mem_nil, or_false] at hd; constructor <;> (rintro rfl; revert hd; decide)
    · split at hd
      · simp only [String.reduceToList, List.mem_cons, List.not_mem_nil, or_false] at hd; constructor <;> (rintro rfl; revert hd; decide)
      · rename_i h1 h2 h3
        simp only [List.mem_singleton] at hd; subst hd
        exact ⟨h3, h2⟩

theorem escAttr_chars (s : Str) : ∀ c ∈ escAttr s, c ≠ '\r' := by
  intro c hc
  simp only [escAttr, List.mem_flatMap] at hc
  obtain ⟨d, -, hd⟩ := hc
  split at hd
  · simp only [String.reduceToList, List.mem_cons, List.not_mem_nil, or_false] at hd; rintro rfl; revert hd; decide
  split at hd
  · simp only [String.reduceToList, List.mem_cons, List.not_mem_nil, or_false] at hd; rintro rfl; revert hd; decide
  split at hd
  · simp only [String.reduceToList, List.mem_cons, List.not_mem_nil, or_false] at hd; rintro rfl; revert hd; decide
  split at hd
  · simp only [String.reduceToList, List.mem_cons, List.not_mem_nil, or_false] at hd; rintro rfl; revert hd; decide
  split at hd
  · simp only [String.reduceToList, List.mem_cons, List.not_mem_nil, or_false] at hd; rintro rfl; revert hd; decide
  split at hd
  · simp only [String.reduceToList, List.mem_cons, List.not_mem_nil, or_false] at hd; rintro rfl; revert hd; decide
  split at hd
  · simp only [String.reduceToList, List.mem_cons, List.not_mem_nil, or_false] at hd; rintro rfl; revert hd; decide
  · rename_i h5 _ _
    simp only [List.mem_singleton] at hd; subst hd
    exact h5


/-! ### Names -/

theorem isNameStart_not {c : Char} (h : isNameStart c = true) : isWs c = false ∧ c ≠ '/' ∧ c ≠ '>' ∧ c ≠ '?' ∧ c ≠ '!' ∧ c ≠ '<' ∧ c ≠ '=' ∧ c ≠ '\r' ∧ isQNameChar c = true := by
  refine ⟨?_, ?_, ?_, ?_, ?_, ?_, ?_, ?_, ?_⟩
  · by_contra hw
    simp only [isWs, Bool.not_eq_false, Bool.or_eq_true, beq_iff_eq] at hw
    rcases hw with ((rfl | rfl) | rfl) | rfl <;> exact absurd h (by decide)
  all_goals first
    | (rintro rfl; exact absurd h (by decide))
    | simp [isQNameChar, isNameChar, h]

theorem isQNameChar_not {c : Char} (h : isQNameChar c = true) : c ≠ '\r' ∧ c ≠ ' ' := by
  constructor <;> (rintro rfl; exact absurd h (by decide))

/-- a name as it may stand in a text -/
def isQName : Str → Bool
  | [] => false
  | c :: t => isNameStart c && t.all isQNameChar

theorem readNameRest_name {t : Str} (h : t.all isQNameChar = true) {c : Char} (hc : isQNameChar c = false) (r : Str) :
    readNameRest (t ++ c :: r) = some (t, c :: r) := by
  induction t with
  | nil => simp [readNameRest, hc]
  | cons d t ih =>
    simp only [List.all_cons, Bool.and_eq_true] at h
    simp [readNameRest, h.1, ih h.2]

theorem readName_name {k : Str} (h : isQName k = true) {c : Char} (hc : isQNameChar c = false) (r : Str) :
    readName (k ++ c :: r) = some (k, c :: r) := by
  cases k with
  | nil => cases h
  | cons d t =>
    simp only [isQName, Bool.and_eq_true] at h
    simp [readName, h.1, readNameRest_name h.2 hc]

theorem dropWs_notWs {c : Char} (h : isWs c = false) (t : Str) : dropWs (c :: t) = c :: t := by
  simp [dropWs, List.dropWhile, h]

/-! ### References and values -/

theorem readRef_amp (r : Str) : readRef ('a' :: 'm' :: 'p' :: ';' :: r) = some ('&', r) := by
  simp [readRef, readTo, refValue]
theorem readRef_lt (r : Str) : readRef ('l' :: 't' :: ';' :: r) = some ('<', r) := by
  simp [readRef, readTo, refValue]
theorem readRef_gt (r : Str) : readRef ('g' :: 't' :: ';' :: r) = some ('>', r) := by
  simp [readRef, readTo, refValue]
theorem readRef_quot (r : Str) : readRef ('q' :: 'u' :: 'o' :: 't' :: ';' :: r) = some ('"', r) := by
  simp [readRef, readTo, refValue]
theorem refValue_13 : refValue ['#', '1', '3'] = some '\r' := by decide
theorem refValue_10 : refValue ['#', '1', '0'] = some '\n' := by decide
theorem refValue_09 : refValue ['#', '0', '9'] = some '\t' := by decide
theorem readRef_13 (r : Str) : readRef ('#' :: '1' :: '3' :: ';' :: r) = some ('\r', r) := by
  simp [readRef, readTo, refValue_13]
theorem readRef_10 (r : Str) : readRef ('#' :: '1' :: '0' :: ';' :: r) = some ('\n', r) := by
  simp [readRef, readTo, refValue_10]
theorem readRef_09 (r : Str) : readRef ('#' :: '0' :: '9' :: ';' :: r) = some ('\t', r) := by
  simp [readRef, readTo, refValue_09]

theorem readValue_ref {t r : Str} {x : Char} {n : Nat} {v r' : Str} (h : readRef t = some (x, r)) (h' : readValue '"' n r = some (v, r')) :
    readValue '"' (n + 1) ('&' :: t) = some (x :: v, r') := by
  rw [readValue, if_neg (by decide), if_neg (by decide), if_pos rfl, h]
  dsimp only
  rw [h']
  rfl

theorem readContent_ref {t r : Str} {x : Char} {n : Nat} {v r' : Str} {ch : List Elem} (h : readRef t = some (x, r))
    (h' : readContent n r = some (v, ch, r')) : readContent (n + 1) ('&' :: t) = some (x :: v, ch, r') := by
  rw [readContent.eq_def]
  dsimp only
  rw [if_neg (by decide), if_pos rfl, h]
  dsimp only
  rw [h']
  rfl

theorem escAttr_plain {c : Char} (h1 : c ≠ '&') (h2 : c ≠ '<') (h3 : c ≠ '>') (h4 : c ≠ '"') (h5 : c ≠ '\r') (h6 : c ≠ '\n') (h7 : c ≠ '\t')
    (t : Str) : escAttr (c :: t) = c :: escAttr t := by
  show (if c = '&' then _ else _) ++ escAttr t = _
  rw [if_neg h1, if_neg h2, if_neg h3, if_neg h4, if_neg h5, if_neg h6, if_neg h7]
  rfl

theorem readValue_esc (v r : Str) : ∀ n, (escAttr v ++ '"' :: r).length < n → readValue '"' n (escAttr v ++ '"' :: r) = some (v, r) := by
  induction v with
  | nil =>
    intro n hn
    cases n with
    | zero => simp at hn
    | succ n => simp [escAttr, readValue]
  | cons c t ih =>
    intro n hn
    cases n with
    | zero => simp at hn
    | succ n =>
    by_cases h1 : c = '&'
    · subst h1
      rw [show escAttr ('&' :: t) = '&' :: 'a' :: 'm' :: 'p' :: ';' :: escAttr t from rfl] at hn ⊢
      simp only [List.cons_append, List.length_cons] at hn ⊢
      exact readValue_ref (readRef_amp _) (ih n (by omega))
    by_cases h2 : c = '<'
    · subst h2
      rw [show escAttr ('<' :: t) = '&' :: 'l' :: 't' :: ';' :: escAttr t from rfl] at hn ⊢
      simp only [List.cons_append, List.length_cons] at hn ⊢
      exact readValue_ref (readRef_lt _) (ih n (by omega))
    by_cases h3 : c = '>'
    · subst h3
      rw [show escAttr ('>' :: t) = '&' :: 'g' :: 't' :: ';' :: escAttr t from rfl] at hn ⊢
      simp only [List.cons_append, List.length_cons] at hn ⊢
      exact readValue_ref (readRef_gt _) (ih n (by omega))
    by_cases h4 : c = '"'
    · subst h4
      rw [show escAttr ('"' :: t) = '&' :: 'q' :: 'u' :: 'o' :: 't' :: ';' :: escAttr t from rfl] at hn ⊢
      simp only [List.cons_append, List.length_cons] at hn ⊢
      exact readValue_ref (readRef_quot _) (ih n (by omega))
    by_cases h5 : c = '\r'
    · subst h5
      rw [show escAttr ('\r' :: t) = '&' :: '#' :: '1' :: '3' :: ';' :: escAttr t from rfl] at hn ⊢
      simp only [List.cons_append, List.length_cons] at hn ⊢
      exact readValue_ref (readRef_13 _) (ih n (by omega))
    by_cases h6 : c = '\n'
    · subst h6
      rw [show escAttr ('\n' :: t) = '&' :: '#' :: '1' :: '0' :: ';' :: escAttr t from rfl] at hn ⊢
      simp only [List.cons_append, List.length_cons] at hn ⊢
      exact readValue_ref (readRef_10 _) (ih n (by omega))
    by_cases h7 : c = '\t'
    · subst h7
      rw [show escAttr ('\t' :: t) = '&' :: '#' :: '0' :: '9' :: ';' :: escAttr t from rfl] at hn ⊢
      simp only [List.cons_append, List.length_cons] at hn ⊢
      exact readValue_ref (readRef_09 _) (ih n (by omega))
    rw [escAttr_plain h1 h2 h3 h4 h5 h6 h7] at hn ⊢
    simp only [List.cons_append, List.length_cons] at hn ⊢
    rw [readValue, if_neg h4, if_neg h2, if_neg h1, ih n (by omega)]
    simp only [Option.map_some, Option.some.injEq, Prod.mk.injEq, and_true, List.cons.injEq]
    split
    · rename_i hw
      simp only [isWs, Bool.or_eq_true, beq_iff_eq] at hw
      rcases hw with ((rfl | rfl) | rfl) | rfl
      · rfl
      all_goals contradiction
    · rfl

/-- the attributes of a start tag; `k` is what follows them -/
theorem readAtts_att {att : Dict Str} (hk : ∀ kv ∈ att, isQName kv.1 = true) {k : Str} {b : Bool} {r : Str}
    (h : ∀ n, k.length < n → readAtts n k = some ([], b, r)) :
    ∀ n, (att.flatMap attText ++ k).length < n → readAtts n (att.flatMap attText ++ k) = some (att, b, r) := by
  induction att with
  | nil => intro n hn; exact h n hn
  | cons kv t ih =>
    intro n hn
    obtain ⟨key, v⟩ := kv
    have hq : isQName key = true := hk (key, v) (by simp)
    cases n with
    | zero => simp at hn
    | succ n =>
    have e : ((key, v) :: t).flatMap attText ++ k = ' ' :: (key ++ '=' :: '"' :: (escAttr v ++ '"' :: (t.flatMap attText ++ k))) := by
      simp [attText]
    rw [e] at hn ⊢
    simp only [List.length_cons, List.length_append] at hn
    cases key with
    | nil => cases hq
    | cons c key =>
      have hc : isNameStart c = true := by simp only [isQName, Bool.and_eq_true] at hq; exact hq.1
      obtain ⟨n1, n2, n3, -⟩ := isNameStart_not hc
      have hd : ∀ x, dropWs (' ' :: (c :: key ++ x)) = c :: (key ++ x) := by
        intro x
        simp only [List.cons_append]
        rw [show dropWs (' ' :: c :: (key ++ x)) = dropWs (c :: (key ++ x)) by simp [dropWs, List.dropWhile, isWs], dropWs_notWs n1]
      have hn2 := readName_name hq (c := '=') (by decide) ('"' :: (escAttr v ++ '"' :: (t.flatMap attText ++ k)))
      rw [List.cons_append] at hn2
      rw [readAtts, hd]
      dsimp only
      rw [if_neg n3, if_neg n2, if_neg (by simp), hn2]
      dsimp only
      have hv : readEqValue n ('=' :: '"' :: (escAttr v ++ '"' :: (t.flatMap attText ++ k))) = some (v, t.flatMap attText ++ k) := by
        simp only [readEqValue, dropWs_notWs (show isWs '=' = false by decide), dropWs_notWs (show isWs '"' = false by decide)]
        simp only [if_true, true_or]
        exact readValue_esc _ _ _ (by simp only [List.length_cons, List.length_append]; simp only [List.length_cons] at hn; omega)
      rw [hv]
      dsimp only
      rw [ih (fun kv h => hk kv (by simp [h])) n (by simp only [List.length_append]; simp only [List.length_cons] at hn; omega)]
      rfl

/-! ### Text -/

theorem not_cdataEnd {u k : Str} (hu : ∀ c ∈ u, c ≠ '>') (hk : k.head? = some '<') : startsWith (u ++ k) [']', ']', '>'] = false := by
  cases k with
  | nil => cases hk
  | cons d k =>
    simp only [List.head?_cons, Option.some.injEq] at hk
    subst hk
    match u with
    | [] => simp [startsWith, List.isPrefixOf]
    | [a] => simp [startsWith, List.isPrefixOf]
    | [a, b] => simp [startsWith, List.isPrefixOf]
    | a :: b :: c :: u =>
      have := hu c (by simp)
      simp [startsWith, List.isPrefixOf, Ne.symm this]

theorem readContent_text (s : Str) {k : Str} (hk : k.head? = some '<') {x : Str} {ch : List Elem} {r : Str}
    (h : ∀ n, k.length < n → readContent n k = some (x, ch, r)) :
    ∀ n, (escText s ++ k).length < n → readContent n (escText s ++ k) = some (s ++ x, ch, r) := by
  induction s with
  | nil => intro n hn; exact h n hn
  | cons c t ih =>
    intro n hn
    cases n with
    | zero => simp at hn
    | succ n =>
    rw [escText_cons] at hn ⊢
    by_cases h1 : c = '&'
    · subst h1
      simp only [if_true, String.reduceToList, List.cons_append, List.nil_append, List.length_cons] at hn ⊢
      exact readContent_ref (readRef_amp _) (ih n (by omega))
    simp only [h1, if_false] at hn ⊢
    by_cases h2 : c = '<'
    · subst h2
      simp only [if_true, String.reduceToList, List.cons_append, List.nil_append, List.length_cons] at hn ⊢
      exact readContent_ref (readRef_lt _) (ih n (by omega))
    simp only [h2, if_false] at hn ⊢
    by_cases h3 : c = '>'
    · subst h3
      simp only [if_true, String.reduceToList, List.cons_append, List.nil_append, List.length_cons] at hn ⊢
      exact readContent_ref (readRef_gt _) (ih n (by omega))
    simp only [h3, if_false] at hn ⊢
    have hne : startsWith (c :: (escText t ++ k)) [']', ']', '>'] = false := by
      have := not_cdataEnd (u := c :: escText t) (k := k) ?_ hk
      · exact this
      · intro d hd
        simp only [List.mem_cons] at hd
        rcases hd with rfl | hd
        · exact h3
        · exact (escText_not_gt t d hd).1
    simp only [List.cons_append, List.nil_append, List.length_cons] at hn ⊢
    rw [readContent.eq_def]
    dsimp only
    rw [if_neg h2, if_neg h1, hne]
    simp [ih n (by omega)]


/-! ### Trees -/

mutual
/-- names of elements and attributes that may stand in a text, and no attribute twice -/
def namesOk : Elem → Bool
  | .mk tag att _ ch => isQName tag && att.all (fun kv => isQName kv.1) && distinct (dkeys att) && namesOkList ch
def namesOkList : List Elem → Bool
  | [] => true
  | e :: t => namesOk e && namesOkList t
end

mutual
/-- the tree with the line ends of its texts normalised, empty texts left out -/
def normTree : Elem → Elem
  | .mk tag att text ch => .mk tag att (textOf (normalizeEol (text.getD []))) (normTrees ch)
def normTrees : List Elem → List Elem
  | [] => []
  | e :: t => normTree e :: normTrees t
end

theorem normTree_tag (e : Elem) : (normTree e).tag = e.tag := by cases e; simp [normTree, Elem.tag]

theorem normTrees_isEmpty (l : List Elem) : (normTrees l).isEmpty = l.isEmpty := by cases l <;> simp [normTrees]

theorem textOf_getD (s : Str) : (textOf s).getD [] = s := by
  unfold textOf; split
  · rename_i h; rw [h]; rfl
  · rfl

theorem nE_isEmpty (s : Str) : (normalizeEol s).isEmpty = s.isEmpty := by
  rw [normalizeEol.eq_def]; split <;> rfl

theorem isQName_noCr {k : Str} (h : isQName k = true) : ∀ c ∈ k, c ≠ '\r' := by
  cases k with
  | nil => cases h
  | cons d t =>
    simp only [isQName, Bool.and_eq_true, List.all_eq_true] at h
    intro c hc
    simp only [List.mem_cons] at hc
    rcases hc with rfl | hc
    · exact (isNameStart_not h.1).2.2.2.2.2.2.2.1
    · exact (isQNameChar_not (h.2 c hc)).1

theorem attText_noCr {att : Dict Str} (h : ∀ kv ∈ att, isQName kv.1 = true) : ∀ c ∈ att.flatMap attText, c ≠ '\r' := by
  intro c hc
  simp only [List.mem_flatMap] at hc
  obtain ⟨kv, hkv, hc⟩ := hc
  simp only [attText, List.mem_cons, List.mem_append, List.not_mem_nil, or_false] at hc
  rcases hc with rfl | hc | rfl | rfl | hc | rfl
  · decide
  · exact isQName_noCr (h kv hkv) c hc
  · decide
  · decide
  · exact escAttr_chars _ c hc
  · decide

theorem writeElem_head (tails : Nat → Str → Str) (d : Nat) (e : Elem) (k : Str) : (writeElem tails d e ++ k).head? = some '<' := by
  cases e; simp [writeElem]

theorem writeList_head (tails : Nat → Str → Str) (d : Nat) (l : List Elem) {k : Str} (hk : k.head? = some '<') :
    (writeList tails d l ++ k).head? = some '<' := by
  cases l with
  | nil => simpa [writeList] using hk
  | cons e t => rw [writeList, List.append_assoc]; exact writeElem_head _ _ _ _

theorem head_lt_ne {k : Str} (hk : k.head? = some '<') : k.head? ≠ some '\n' := by rw [hk]; decide

mutual
theorem nE_writeElem (tails : Nat → Str → Str) : ∀ (d : Nat) (e : Elem), namesOk e = true → ∀ k,
    normalizeEol (writeElem tails d e ++ k) = writeElem (fun d t => normalizeEol (tails d t)) d (normTree e) ++ normalizeEol k
  | d, .mk tag att text ch, h, k => by
    simp only [namesOk, Bool.and_eq_true, List.all_eq_true] at h
    obtain ⟨⟨⟨h1, h2⟩, -⟩, h4⟩ := h
    have ht := isQName_noCr h1
    have ha := attText_noCr h2
    rw [normTree, writeElem, writeElem, textOf_getD, nE_isEmpty, normTrees_isEmpty]
    split
    · simp only [List.cons_append, List.append_assoc]
      rw [nE_cons_ne (by decide), nE_noCr ht, nE_noCr ha, nE_noCr (by intro c hc; simp at hc; rcases hc with rfl | rfl | rfl <;> decide)]
    · simp only [List.cons_append, List.append_assoc, List.nil_append]
      rw [nE_cons_ne (by decide), nE_noCr ht, nE_noCr ha, nE_cons_ne (by decide),
        nE_append_ne _ (head_lt_ne (writeList_head _ _ _ (by rfl))), nE_escText,
        nE_writeList tails (d + 1) ch h4 _ (by rfl), nE_cons_ne (by decide), nE_cons_ne (by decide), nE_noCr ht, nE_cons_ne (by decide)]
theorem nE_writeList (tails : Nat → Str → Str) : ∀ (d : Nat) (l : List Elem), namesOkList l = true → ∀ k, k.head? = some '<' →
    normalizeEol (writeList tails d l ++ k) = writeList (fun d t => normalizeEol (tails d t)) d (normTrees l) ++ normalizeEol k
  | d, [], _, k, _ => by simp [writeList, normTrees]
  | d, e :: t, h, k, hk => by
    simp only [namesOkList, Bool.and_eq_true] at h
    rw [normTrees, writeList, writeList]
    simp only [List.append_assoc]
    rw [nE_writeElem tails d e h.1, nE_append_ne _ (head_lt_ne (writeList_head _ _ _ hk)), nE_escText, nE_writeList tails d t h.2 k hk, normTree_tag]
end

mutual
/-- texts that are there are not empty -/
def textsOk : Elem → Bool
  | .mk _ _ text ch => (text.all (fun s => !s.isEmpty)) && textsOkList ch
def textsOkList : List Elem → Bool
  | [] => true
  | e :: t => textsOk e && textsOkList t
end

mutual
theorem textsOk_norm : ∀ e, textsOk (normTree e) = true
  | .mk tag att text ch => by
    simp only [normTree, textsOk, Bool.and_eq_true]
    refine ⟨?_, textsOk_norms ch⟩
    unfold textOf
    split
    · rfl
    · rename_i h; simp [h]
theorem textsOk_norms : ∀ l, textsOkList (normTrees l) = true
  | [] => by simp [normTrees, textsOkList]
  | e :: t => by simp [normTrees, textsOkList, textsOk_norm e, textsOk_norms t]
end

mutual
theorem namesOk_norm : ∀ e, namesOk (normTree e) = namesOk e
  | .mk tag att text ch => by simp only [normTree, namesOk, namesOk_norms ch]
theorem namesOk_norms : ∀ l, namesOkList (normTrees l) = namesOkList l
  | [] => by simp [normTrees]
  | e :: t => by simp [normTrees, namesOkList, namesOk_norm e, namesOk_norms t]
end

theorem textOf_of_ok {text : Option Str} (h : text.all (fun s => !s.isEmpty) = true) : textOf (text.getD []) = text := by
  cases text with
  | none => rfl
  | some s =>
    cases s with
    | nil => simp at h
    | cons c t => rfl

mutual
/-- a written element is read again, whatever follows it -/
theorem readElem_write (tails : Nat → Str → Str) : ∀ (d : Nat) (e : Elem), namesOk e = true → textsOk e = true → ∀ (k : Str) (n : Nat),
    (writeElem tails d e ++ k).length ≤ n → ∃ w, writeElem tails d e = '<' :: w ∧ readElem n (w ++ k) = some (e, k)
  | d, .mk tag att text ch, h, hx, k, n, hn => by
    simp only [namesOk, Bool.and_eq_true, List.all_eq_true] at h
    obtain ⟨⟨⟨h1, h2⟩, h3⟩, h4⟩ := h
    simp only [textsOk, Bool.and_eq_true] at hx
    obtain ⟨hx1, hx2⟩ := hx
    rw [writeElem] at hn ⊢
    refine ⟨_, rfl, ?_⟩
    cases n with
    | zero => simp at hn
    | succ n =>
    simp only [List.cons_append, List.append_assoc, List.length_cons, List.length_append] at hn ⊢
    have hatt : ∀ x : Str, (∃ c r, x = c :: r ∧ isQNameChar c = false) → ∃ c r, att.flatMap attText ++ x = c :: r ∧ isQNameChar c = false := by
      intro x hx
      cases att with
      | nil => simpa using hx
      | cons kv t => exact ⟨' ', _, rfl, by decide⟩
    rw [readElem]
    by_cases he : ((text.getD []).isEmpty && ch.isEmpty) = true
    · rw [if_pos he] at hn ⊢
      simp only [String.reduceToList, List.cons_append, List.nil_append, List.length_cons, List.length_nil] at hn ⊢
      obtain ⟨c, r, e1, e2⟩ := hatt (' ' :: '/' :: '>' :: k) ⟨' ', _, rfl, by decide⟩
      have hA := readAtts_att h2 (k := ' ' :: '/' :: '>' :: k) (b := true) (r := k) (by
        intro m hm
        cases m with
        | zero => simp at hm
        | succ m =>
          rw [readAtts, show dropWs (' ' :: '/' :: '>' :: k) = '/' :: '>' :: k by simp [dropWs, List.dropWhile, isWs]]
          simp) n (by simp only [List.length_append, List.length_cons]; cases tag with
            | nil => cases h1
            | cons => simp only [List.length_cons] at hn; omega)
      rw [e1, readName_name h1 e2]
      dsimp only
      rw [← e1, hA]
      dsimp only
      rw [if_neg (by simp [h3]), if_pos rfl]
      simp only [Bool.and_eq_true, List.isEmpty_iff] at he
      have : text = none := by rw [← textOf_of_ok hx1, he.1]; rfl
      rw [this, he.2]
    · rw [if_neg he] at hn ⊢
      simp only [List.cons_append, List.append_assoc, List.length_cons, List.length_append, List.nil_append] at hn ⊢
      set K := escText (text.getD []) ++ (writeList tails (d + 1) ch ++ '<' :: '/' :: (tag ++ '>' :: k)) with hK
      obtain ⟨c, r, e1, e2⟩ := hatt ('>' :: K) ⟨'>', _, rfl, by decide⟩
      have hKl : K.length = (escText (text.getD [])).length + ((writeList tails (d + 1) ch).length + (tag.length + (k.length + 1) + 1 + 1)) := by
        simp [hK]
      have ht0 : 0 < tag.length := by
        cases tag with
        | nil => cases h1
        | cons => simp
      have hA := readAtts_att h2 (k := '>' :: K) (b := false) (r := K) (by
        intro m hm
        cases m with
        | zero => simp at hm
        | succ m => rw [readAtts, dropWs_notWs (by decide)]; simp) n (by
          simp only [List.length_append, List.length_cons, hKl]
          simp only [List.length_nil] at hn
          omega)
      rw [e1, readName_name h1 e2]
      dsimp only
      rw [← e1, hA]
      dsimp only
      rw [if_neg (by simp [h3]), if_neg (by simp)]
      have hC : readContent n K = some (text.getD [] ++ [], ch, tag ++ '>' :: k) := by
        refine readContent_text _ (writeList_head _ _ _ (by rfl)) ?_ n ?_
        · intro m hm
          exact readContent_write tails (d + 1) ch h4 hx2 _ m hm
        · rw [← hK, hKl]
          simp only [List.length_nil] at hn
          omega
      rw [hC]
      dsimp only
      rw [readName_name h1 (by decide)]
      dsimp only
      rw [if_neg (by simp), dropWs_notWs (by decide)]
      dsimp only
      rw [if_pos rfl, List.append_nil, textOf_of_ok hx1]
theorem readContent_write (tails : Nat → Str → Str) : ∀ (d : Nat) (l : List Elem), namesOkList l = true → textsOkList l = true → ∀ (k : Str) (n : Nat),
    (writeList tails d l ++ '<' :: '/' :: k).length < n → readContent n (writeList tails d l ++ '<' :: '/' :: k) = some ([], l, k)
  | d, [], _, _, k, n, hn => by
    cases n with
    | zero => simp at hn
    | succ n => simp [writeList, readContent]
  | d, e :: t, h, hx, k, n, hn => by
    simp only [namesOkList, Bool.and_eq_true] at h
    simp only [textsOkList, Bool.and_eq_true] at hx
    cases n with
    | zero => simp at hn
    | succ n =>
    rw [writeList] at hn ⊢
    simp only [List.append_assoc] at hn ⊢
    obtain ⟨w, hw, hr⟩ := readElem_write tails d e h.1 hx.1 (escText (tails d e.tag) ++ (writeList tails d t ++ '<' :: '/' :: k)) n (by omega)
    rw [hw] at hn ⊢
    simp only [List.cons_append, List.length_cons] at hn ⊢
    have hname : ∃ c w', w = c :: w' ∧ isNameStart c = true := by
      obtain ⟨tag, att, text, ch⟩ := e
      simp only [namesOk, Bool.and_eq_true] at h
      have h1 := h.1.1.1.1
      rw [writeElem] at hw
      cases tag with
      | nil => cases h1
      | cons c tg =>
        simp only [isQName, Bool.and_eq_true] at h1
        simp only [List.cons_append, List.cons.injEq, true_and] at hw
        exact ⟨c, _, hw.symm, h1.1⟩
    obtain ⟨c, w', rfl, hc⟩ := hname
    obtain ⟨-, n2, -, n4, n5, -⟩ := isNameStart_not hc
    have hT := readContent_text (tails d e.tag) (k := writeList tails d t ++ '<' :: '/' :: k) (writeList_head _ _ _ (by rfl))
      (fun m hm => readContent_write tails d t h.2 hx.2 k m hm) n (by
        simp only [List.length_append, List.length_cons] at hn ⊢
        omega)
    rw [readContent.eq_def]
    dsimp only [List.cons_append]
    rw [if_pos rfl, if_neg n2, if_neg n4, if_neg n5]
    rw [List.cons_append] at hr
    rw [hr]
    dsimp only
    rw [hT]
    rfl
end

end Py
