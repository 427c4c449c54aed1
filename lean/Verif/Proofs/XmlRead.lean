import Verif.Proofs.XmlNames
/-
Whole documents as text: what is written is read, and a text cut off is not.
-/

namespace Py

/-! ### Characters -/

theorem all_escText (s : Str) : (escText s).all isXmlChar = s.all isXmlChar := by
  induction s with
  | nil => rfl
  | cons c t ih =>
    rw [escText_cons, List.all_append, ih, List.all_cons]
    congr 1
    split
    · rename_i h; subst h; decide
    · split
      · rename_i h; subst h; decide
      · split
        · rename_i h; subst h; decide
        · simp

theorem all_escAttr (s : Str) : (escAttr s).all isXmlChar = s.all isXmlChar := by
  induction s with
  | nil => rfl
  | cons c t ih =>
    by_cases h1 : c = '&'
    · subst h1; show ("&amp;".toList ++ escAttr t).all isXmlChar = _; rw [List.all_append, ih, List.all_cons]; congr 1
    by_cases h2 : c = '<'
    · subst h2; show ("&lt;".toList ++ escAttr t).all isXmlChar = _; rw [List.all_append, ih, List.all_cons]; congr 1
    by_cases h3 : c = '>'
    · subst h3; show ("&gt;".toList ++ escAttr t).all isXmlChar = _; rw [List.all_append, ih, List.all_cons]; congr 1
    by_cases h4 : c = '"'
    · subst h4; show ("&quot;".toList ++ escAttr t).all isXmlChar = _; rw [List.all_append, ih, List.all_cons]; congr 1
    by_cases h5 : c = '\r'
    · subst h5; show ("&#13;".toList ++ escAttr t).all isXmlChar = _; rw [List.all_append, ih, List.all_cons]; congr 1
    by_cases h6 : c = '\n'
    · subst h6; show ("&#10;".toList ++ escAttr t).all isXmlChar = _; rw [List.all_append, ih, List.all_cons]; congr 1
    by_cases h7 : c = '\t'
    · subst h7; show ("&#09;".toList ++ escAttr t).all isXmlChar = _; rw [List.all_append, ih, List.all_cons]; congr 1
    rw [escAttr_plain h1 h2 h3 h4 h5 h6 h7, List.all_cons, ih, List.all_cons]

theorem isNameChar_xml {c : Char} (h : isQNameChar c = true) : isXmlChar c = true := by
  simp only [isQNameChar, isNameChar, isNameStart, isDigit, Bool.or_eq_true, Bool.and_eq_true, beq_iff_eq, decide_eq_true_eq] at h
  have e : c.toNat = 45 ∨ c.toNat = 46 ∨ c.toNat = 58 ∨ c.toNat = 95 ∨ (48 ≤ c.toNat ∧ c.toNat ≤ 57) ∨ (65 ≤ c.toNat ∧ c.toNat ≤ 90) ∨ (97 ≤ c.toNat ∧ c.toNat ≤ 122) := by
    have k0 : '0'.toNat = 48 := rfl
    have k9 : '9'.toNat = 57 := rfl
    have ka : 'a'.toNat = 97 := rfl
    have kz : 'z'.toNat = 122 := rfl
    have kA : 'A'.toNat = 65 := rfl
    have kZ : 'Z'.toNat = 90 := rfl
    rcases h with (((((h | h) | rfl) | h) | rfl) | rfl) | rfl
    · omega
    · omega
    · right; right; right; left; rfl
    · omega
    · left; rfl
    · right; left; rfl
    · right; right; left; rfl
  simp only [isXmlChar, Bool.or_eq_true, Bool.and_eq_true, beq_iff_eq, decide_eq_true_eq]
  omega

theorem isQName_xml {k : Str} (h : isQName k = true) : k.all isXmlChar = true := by
  cases k with
  | nil => rfl
  | cons c t =>
    simp only [isQName, Bool.and_eq_true, List.all_eq_true] at h
    simp only [List.all_cons, Bool.and_eq_true, List.all_eq_true]
    exact ⟨isNameChar_xml (isNameStart_not h.1).2.2.2.2.2.2.2.2, fun d hd => isNameChar_xml (h.2 d hd)⟩

theorem all_attText {att : Dict Str} (hk : ∀ kv ∈ att, isQName kv.1 = true) :
    (att.flatMap attText).all isXmlChar = att.all (fun kv => kv.2.all isXmlChar) := by
  induction att with
  | nil => rfl
  | cons kv t ih =>
    have h1 : isXmlChar ' ' = true := by decide
    have h2 : isXmlChar '=' = true := by decide
    have h3 : isXmlChar '"' = true := by decide
    rw [List.flatMap_cons, List.all_append, ih (fun kv h => hk kv (by simp [h]))]
    simp only [attText, List.all_cons, List.all_append, all_escAttr, isQName_xml (hk kv (by simp)), List.all_nil, h1, h2, h3, Bool.true_and, Bool.and_true]

mutual
theorem all_writeElem {tails : Nat → Str → Str} (ht : ∀ d t, (tails d t).all isXmlChar = true) : ∀ (d : Nat) (e : Elem), namesOk e = true →
    (writeElem tails d e).all isXmlChar = legal e
  | d, .mk tag att text ch, h => by
    simp only [namesOk, Bool.and_eq_true, List.all_eq_true] at h
    obtain ⟨⟨⟨h1, h2⟩, -⟩, h4⟩ := h
    have c1 : isXmlChar '<' = true := by decide
    have c2 : isXmlChar '>' = true := by decide
    have c3 : isXmlChar '/' = true := by decide
    have c4 : isXmlChar ' ' = true := by decide
    rw [writeElem, legal]
    split
    · rename_i he
      simp only [Bool.and_eq_true, List.isEmpty_iff] at he
      rw [he.1, he.2]
      simp only [String.reduceToList, List.all_cons, List.all_append, isQName_xml h1, all_attText h2, c1, c2, c3, c4, List.all_nil, legalList, Bool.true_and, Bool.and_true]
    · simp only [List.all_cons, List.all_append, isQName_xml h1, all_attText h2, c1, c2, c3, List.all_nil, all_escText, all_writeList ht (d + 1) ch h4, Bool.true_and, Bool.and_true, Bool.and_assoc]
theorem all_writeList {tails : Nat → Str → Str} (ht : ∀ d t, (tails d t).all isXmlChar = true) : ∀ (d : Nat) (l : List Elem), namesOkList l = true →
    (writeList tails d l).all isXmlChar = legalList l
  | d, [], _ => by simp [writeList, legalList]
  | d, e :: t, h => by
    simp only [namesOkList, Bool.and_eq_true] at h
    rw [writeList, legalList, List.all_append, List.all_append, all_escText, ht, all_writeElem ht d e h.1, all_writeList ht d t h.2, Bool.true_and]
end

/-! ### The prolog -/

theorem readToStr_pi {u : Str} (h : '?' ∉ u) (r : Str) : readToStr ['?', '>'] (u ++ '?' :: '>' :: r) = some (u, r) := by
  induction u with
  | nil => simp [readToStr, startsWith, List.isPrefixOf]
  | cons c t ih =>
    simp only [List.mem_cons, not_or] at h
    rw [List.cons_append, readToStr, if_neg (by simp [startsWith, List.isPrefixOf, h.1]), ih h.2]
    rfl

/-- names of encodings -/
def encodingOk (enc : Str) : Bool := enc.all isNameChar

theorem declHead_facts : '?' ∉ declHead ∧ '\r' ∉ declHead ∧ declHead.all isXmlChar = true := by decide

attribute [local irreducible] declHead

theorem encoding_not {enc : Str} (he : encodingOk enc = true) {c : Char} (hc : isNameChar c = false) : c ∉ enc := by
  intro hm
  simp only [encodingOk, List.all_eq_true] at he
  rw [he c hm] at hc
  cases hc

/-- the XML declaration is passed over -/
theorem readProlog_decl {enc : Str} (he : encodingOk enc = true) {c : Char} (hc : isNameStart c = true) (w : Str) {n : Nat} (hn : 3 ≤ n) :
    readProlog n (xmlDecl enc ++ '<' :: c :: w) = some (c :: w) := by
  obtain ⟨n, rfl⟩ : ∃ m, n = m + 3 := ⟨n - 3, by omega⟩
  obtain ⟨-, n2, n3, n4, n5, -⟩ := isNameStart_not hc
  have hq : '?' ∉ declHead ++ enc ++ ['\''] := by
    rw [List.mem_append, List.mem_append, not_or, not_or]
    exact ⟨⟨declHead_facts.1, encoding_not he (by decide)⟩, by decide⟩
  have e : xmlDecl enc ++ '<' :: c :: w = '<' :: '?' :: ((declHead ++ enc ++ ['\'']) ++ '?' :: '>' :: '\n' :: '<' :: c :: w) := by
    simp only [xmlDecl, List.cons_append, List.append_assoc, List.nil_append]
  rw [e, readProlog.eq_def]
  dsimp only
  rw [if_neg (by decide), if_pos rfl, if_pos rfl, skipPI, readToStr_pi hq]
  simp only [Option.map_some, Option.bind_some]
  rw [readProlog.eq_def]
  dsimp only
  rw [if_pos (by decide), readProlog.eq_def]
  dsimp only
  rw [if_neg (by decide), if_pos rfl, if_neg n4, if_neg n5]

theorem encoding_noCr {enc : Str} (he : encodingOk enc = true) : ∀ c ∈ xmlDecl enc, c ≠ '\r' := by
  rintro c hc rfl
  simp only [xmlDecl, List.mem_append, List.mem_cons, List.not_mem_nil, or_false] at hc
  have h1 := declHead_facts.2.1
  have h2 := encoding_not he (c := '\r') (by decide)
  simp only [h1, h2, or_false, false_or] at hc
  revert hc
  decide

theorem encoding_legal {enc : Str} (he : encodingOk enc = true) : (xmlDecl enc).all isXmlChar = true := by
  have h1 := declHead_facts.2.2
  have h2 : enc.all isXmlChar = true := by
    simp only [encodingOk, List.all_eq_true] at he ⊢
    exact fun c hc => isNameChar_xml (by simp [isQNameChar, he c hc])
  simp only [xmlDecl, List.all_cons, List.all_append, h1, h2, List.all_nil]
  decide

/-- the first letters of a written element -/
theorem writeElem_start (tails : Nat → Str → Str) (d : Nat) {e : Elem} (h : namesOk e = true) :
    ∃ c w, writeElem tails d e = '<' :: c :: w ∧ isNameStart c = true := by
  obtain ⟨tag, att, text, ch⟩ := e
  simp only [namesOk, Bool.and_eq_true] at h
  have h1 := h.1.1.1
  rw [writeElem]
  cases tag with
  | nil => cases h1
  | cons c tg =>
    simp only [isQName, Bool.and_eq_true] at h1
    exact ⟨c, _, rfl, h1.1⟩

/-- The steps of reading a written document: the prolog is passed over, the root is read, and nothing is left. -/
theorem read_steps {enc : Str} (he : encodingOk enc = true) (tails : Nat → Str → Str) {root : Elem} (h : namesOk root = true) :
    ∃ w, readProlog ((normalizeEol (writeXml enc tails root)).length + 1) (normalizeEol (writeXml enc tails root)) = some w ∧
      readElem (w.length + 1) w = some (normTree root, []) := by
  have h' : namesOk (normTree root) = true := by rw [namesOk_norm]; exact h
  have hnE : normalizeEol (writeXml enc tails root) =
      xmlDecl enc ++ writeElem (fun d t => normalizeEol (tails d t)) 0 (normTree root) := by
    rw [writeXml, nE_noCr (encoding_noCr he)]
    have := nE_writeElem tails 0 root h []
    simp only [List.append_nil] at this
    rw [this, show normalizeEol [] = [] from rfl, List.append_nil]
  obtain ⟨c, w, hw, hc⟩ := writeElem_start (fun d t => normalizeEol (tails d t)) 0 h'
  obtain ⟨w', hw', hr⟩ := readElem_write (fun d t => normalizeEol (tails d t)) 0 (normTree root) h' (textsOk_norm root) []
    ((c :: w).length + 1) (by rw [hw]; simp)
  rw [hw] at hw'
  cases hw'
  refine ⟨c :: w, ?_, by simpa using hr⟩
  rw [hnE, hw]
  refine readProlog_decl he hc w ?_
  have : 3 ≤ (xmlDecl enc).length := by simp only [xmlDecl, List.length_cons, List.length_append]; omega
  rw [List.length_append]
  omega

theorem readRaw_writeXml {enc : Str} (he : encodingOk enc = true) {tails : Nat → Str → Str} (ht : ∀ d t, (tails d t).all isXmlChar = true)
    {root : Elem} (h : namesOk root = true) : readRaw (writeXml enc tails root) = if legal root then some (normTree root) else none := by
  have ha : (writeXml enc tails root).all isXmlChar = legal root := by
    rw [writeXml, List.all_append, encoding_legal he, all_writeElem ht 0 root h, Bool.true_and]
  obtain ⟨w, h1, h2⟩ := read_steps he tails h
  rw [readRaw, ha]
  split
  · dsimp only
    rw [h1]
    dsimp only
    rw [h2]
    rfl
  · rfl

/-- **Reading what was written**: for a document as the code makes them, the text read as XML is the tree `reparse` gives. -/
theorem readXml_writeXml {enc : Str} (he : encodingOk enc = true) {tails : Nat → Str → Str} (ht : ∀ d t, (tails d t).all isXmlChar = true)
    {root : Elem} (hd : distinctAtts root = true) (hn : treeNames root = true) {ns rs : Str}
    (h1 : dget root.attrib sXmlns = some ns) (h2 : dget root.attrib "xmlns:rs".toList = some rs) :
    readXml (writeXml enc tails root) = reparse root := by
  rw [readXml, readRaw_writeXml he ht (treeNames_namesOk root hn hd), reparse, h1, h2]
  dsimp only
  cases hl : legal root with
  | false =>
    simp only [Bool.false_eq_true, if_false, Option.bind_none]
    cases hr : reparseElem ns rs root with
    | none => rfl
    | some r => rw [(reparseElem_some root ns rs r hr).2] at hl; cases hl
  | true =>
    simp only [if_true, Option.bind_some]
    obtain ⟨tag, att, text, ch⟩ := root
    simp only [Elem.attrib] at h1 h2
    have e := resolveElem_eq (.mk tag att text ch) [([], ns), ("rs".toList, rs), ("xml".toList, "http://www.w3.org/XML/1998/namespace".toList)] ns rs rfl rfl hn hd hl
    rw [← e]
    simp only [treeNames, Bool.and_eq_true, List.all_eq_true] at hn
    simp only [distinctAtts, Bool.and_eq_true] at hd
    simp only [legal, Bool.and_eq_true, List.all_eq_true] at hl
    have e1 := dget_declare (fun kv hkv => hn.1.2 kv hkv) hd.1 [("xml".toList, "http://www.w3.org/XML/1998/namespace".toList)]
    have e2 := dget_declare (fun kv hkv => hn.1.2 kv hkv) hd.1 [([], ns), ("rs".toList, rs), ("xml".toList, "http://www.w3.org/XML/1998/namespace".toList)]
    rw [h1, h2, Option.some_or, Option.some_or] at e1 e2
    rw [normTree, resolveElem, resolveElem, resolveTag_eq e1.1 e1.2 hn.1.1, resolveTag_eq e2.1 e2.2 hn.1.1,
      resolveAtts_eq _ (fun kv hkv => ⟨hn.1.2 kv hkv, List.all_eq_true.mpr (hl.1.1 kv hkv)⟩),
      resolveAtts_eq _ (fun kv hkv => ⟨hn.1.2 kv hkv, List.all_eq_true.mpr (hl.1.1 kv hkv)⟩),
      resolveList_eq ch _ _ _ e1.1 e1.2 hn.2 hd.2 hl.2, resolveList_eq ch _ _ _ e2.1 e2.2 hn.2 hd.2 hl.2]

/-! ### Texts cut off -/

theorem readProlog_ext {n m : Nat} {p r q : Str} (h : readProlog n p = some r) (hm : n ≤ m) : readProlog m (p ++ q) = some (r ++ q) := by
  induction n generalizing m p with
  | zero => cases h
  | succ n ih =>
    obtain ⟨m, rfl⟩ : ∃ m', m = m' + 1 := ⟨m - 1, by omega⟩
    cases p with
    | nil => cases h
    | cons c t =>
      rw [readProlog.eq_def] at h
      rw [List.cons_append, readProlog.eq_def]
      dsimp only at h ⊢
      split at h
      · rename_i hw
        rw [if_pos hw]; exact ih h (by omega)
      · rename_i hw
        rw [if_neg hw]
        split at h
        · rename_i hc
          rw [if_pos hc]
          cases t with
          | nil => cases h
          | cons d t =>
            dsimp only [List.cons_append] at h ⊢
            split at h
            · rename_i hd
              rw [if_pos hd]
              cases hs : skipPI t with
              | none => rw [hs] at h; cases h
              | some x =>
                rw [hs] at h
                rw [skipPI_ext _ hs]
                exact ih h (by omega)
            · rename_i hd
              rw [if_neg hd]
              split at h
              · rename_i hd
                rw [if_pos hd]
                split at h
                · rename_i hs
                  have hs2 := startsWith_eq hs
                  rw [if_pos (startsWith_append _ hs)]
                  cases hk : skipComment (t.drop 2) with
                  | none => rw [hk] at h; cases h
                  | some x =>
                    rw [hk] at h
                    have hl : 2 ≤ t.length := by rw [hs2]; simp
                    rw [List.drop_append_of_le_length hl, skipComment_ext _ hk]
                    exact ih h (by omega)
                · cases h
              · rename_i hd
                rw [if_neg hd]
                cases h; rfl
        · cases h

/-- the text of a document goes on in a longer text -/
theorem nE_prefix (p q : Str) : ∃ s, normalizeEol (p ++ q) = normalizeEol p ++ s ∧ (s = [] → q = [] ∨ q = ['\n']) := by
  have hne : ∀ q, normalizeEol q = [] → q = [] := by
    intro q h
    have := nE_isEmpty q
    rw [h] at this
    exact List.isEmpty_iff.mp this.symm
  rcases nE_append p q with h | ⟨q', rfl, h⟩
  · exact ⟨_, h, fun hs => .inl (hne q hs)⟩
  · exact ⟨_, h, fun hs => .inr (by rw [hne q' hs])⟩

theorem readRaw_some {p : Str} {e : Elem} (h : readRaw p = some e) : ∃ w r, readProlog ((normalizeEol p).length + 1) (normalizeEol p) = some w ∧
    readElem (w.length + 1) w = some (e, r) := by
  rw [readRaw] at h
  split at h
  · dsimp only at h
    split at h
    · cases h
    · rename_i w hw
      split at h
      · cases h
      · rename_i e' r hr
        split at h
        · cases h; exact ⟨w, r, hw, hr⟩
        · cases h
  · cases h

/-- what a text says is not changed by what follows it -/
theorem read_goes_on {p q : Str} {e : Elem} (h : readRaw p = some e) : ∃ w r s, readProlog ((normalizeEol (p ++ q)).length + 1) (normalizeEol (p ++ q)) = some w ∧
    readElem (w.length + 1) w = some (e, r ++ s) ∧ (s = [] → q = [] ∨ q = ['\n']) := by
  obtain ⟨w, r, h1, h2⟩ := readRaw_some h
  obtain ⟨s, hs, hs'⟩ := nE_prefix p q
  refine ⟨w ++ s, r, s, ?_, ?_, hs'⟩
  · rw [hs]
    exact readProlog_ext h1 (by simp)
  · exact readElem_ext _ h2 (by simp)

theorem readRaw_prefix {p q : Str} {e e' : Elem} (h : readRaw p = some e) (h' : readRaw (p ++ q) = some e') : e = e' := by
  obtain ⟨w, r, s, h1, h2, -⟩ := read_goes_on (q := q) h
  obtain ⟨w', r', h1', h2'⟩ := readRaw_some h'
  rw [h1] at h1'
  cases h1'
  rw [h2] at h2'
  cases h2'
  rfl

theorem writeElem_last (tails : Nat → Str → Str) (d : Nat) (e : Elem) : (writeElem tails d e).getLast? = some '>' := by
  obtain ⟨tag, att, text, ch⟩ := e
  rw [writeElem]
  split
  · simp [List.getLast?_cons, List.getLast?_append]
  · simp [List.getLast?_cons, List.getLast?_append]

/-- **A written document cut off anywhere is refused.** -/
theorem readRaw_cut {enc : Str} (he : encodingOk enc = true) (tails : Nat → Str → Str) {root : Elem} (h : namesOk root = true)
    {p q : Str} (hw : writeXml enc tails root = p ++ q) (hq : q ≠ []) : readRaw p = none := by
  cases hp : readRaw p with
  | none => rfl
  | some e =>
    exfalso
    obtain ⟨w, r, s, h1, h2, h3⟩ := read_goes_on (q := q) hp
    obtain ⟨w', h1', h2'⟩ := read_steps he tails h
    rw [hw, h1] at h1'
    cases h1'
    rw [h2] at h2'
    simp only [Option.some.injEq, Prod.mk.injEq, List.append_eq_nil_iff] at h2'
    rcases h3 h2'.2.2 with h | h
    · exact hq h
    · have hl : (p ++ q).getLast? = some '>' := by
        rw [← hw, writeXml, List.getLast?_append, writeElem_last]; rfl
      rw [h] at hl
      simp at hl

end Py
