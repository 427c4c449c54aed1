import Verif.Proofs.XmlWrite
import Verif.Proofs.Url
import Verif.Proofs.Dict
/-
Names in their namespaces: what `reparse` says about trees, and what reading the text gives.
-/

namespace Py

theorem split1_fst_none {c : Char} {s a : Str} (h : split1 c s = (a, none)) : a = s := by
  induction s generalizing a with
  | nil => cases h; rfl
  | cons x t ih =>
    rw [split1] at h
    split at h
    · cases h
    · dsimp only at h
      simp only [Prod.mk.injEq] at h
      rw [← h.1, ih (a := (split1 c t).1) (by rw [← h.2])]

theorem split1_some_eq {c : Char} {s a b : Str} (h : split1 c s = (a, some b)) : s = a ++ c :: b := by
  induction s generalizing a with
  | nil => cases h
  | cons x t ih =>
    rw [split1] at h
    split at h
    · rename_i hx
      cases h; rw [hx]; rfl
    · dsimp only at h
      simp only [Prod.mk.injEq] at h
      rw [← h.1, List.cons_append, ← ih (a := (split1 c t).1) (by rw [← h.2])]

/-! ### Names in namespaces -/

/-- names of elements as the code writes them: plain, or with the prefix `rs` -/
def isTreeTag (tag : Str) : Bool :=
  match split1 ':' tag with
  | (l, none) => isXmlName l
  | (p, some l) => p == "rs".toList && isXmlName l

/-- names of attributes as the code writes them: plain names, and namespace declarations -/
def isTreeAtt (k : Str) : Bool := isXmlName k || (startsWith k "xmlns:".toList && isXmlName (k.drop 6))

mutual
/-- no attribute twice -/
def distinctAtts : Elem → Bool
  | .mk _ att _ ch => distinct (dkeys att) && distinctAttsList ch
def distinctAttsList : List Elem → Bool
  | [] => true
  | e :: t => distinctAtts e && distinctAttsList t
end

mutual
/-- names as the code writes them -/
def treeNames : Elem → Bool
  | .mk tag att _ ch => isTreeTag tag && att.all (fun kv => isTreeAtt kv.1) && treeNamesList ch
def treeNamesList : List Elem → Bool
  | [] => true
  | e :: t => treeNames e && treeNamesList t
end

mutual
/-- every character may stand in a document -/
def legal : Elem → Bool
  | .mk _ att text ch => att.all (fun kv => kv.2.all isXmlChar) && (text.getD []).all isXmlChar && legalList ch
def legalList : List Elem → Bool
  | [] => true
  | e :: t => legal e && legalList t
end

theorem isXmlName_qname {k : Str} (h : isXmlName k = true) : isQName k = true := by
  cases k with
  | nil => cases h
  | cons c t =>
    simp only [isXmlName, Bool.and_eq_true, List.all_eq_true] at h
    simp only [isQName, Bool.and_eq_true, List.all_eq_true]
    exact ⟨h.1, fun d hd => by simp [isQNameChar, h.2 d hd]⟩

theorem isXmlName_colon {k : Str} (h : isXmlName k = true) : ':' ∉ k := by
  cases k with
  | nil => cases h
  | cons c t =>
    simp only [isXmlName, Bool.and_eq_true, List.all_eq_true] at h
    simp only [List.mem_cons, not_or]
    refine ⟨?_, fun hm => absurd (h.2 _ hm) (by decide)⟩
    rintro rfl
    exact absurd h.1 (by decide)

theorem isXmlName_chars {k : Str} (h : isXmlName k = true) : k.all isQNameChar = true := by
  have := isXmlName_qname h
  cases k with
  | nil => rfl
  | cons c t =>
    simp only [isQName, Bool.and_eq_true] at this
    simp only [List.all_cons, Bool.and_eq_true]
    exact ⟨(isNameStart_not this.1).2.2.2.2.2.2.2.2, this.2⟩

theorem isTreeTag_qname {tag : Str} (h : isTreeTag tag = true) : isQName tag = true := by
  unfold isTreeTag at h
  split at h
  · rename_i l hs
    have : l = tag := by
      have := (split1_fst_none hs)
      exact this
    rw [← this]; exact isXmlName_qname h
  · rename_i p l hs
    simp only [Bool.and_eq_true, beq_iff_eq] at h
    have := split1_some_eq hs
    rw [this, h.1]
    simp only [String.reduceToList, List.cons_append, List.nil_append, isQName, Bool.and_eq_true, List.all_cons]
    exact ⟨by decide, by decide, by decide, isXmlName_chars h.2⟩

theorem startsWith_eq {s p : Str} (h : startsWith s p = true) : s = p ++ s.drop p.length := by
  unfold startsWith at h
  obtain ⟨t, rfl⟩ := List.isPrefixOf_iff_prefix.mp h
  simp

theorem isTreeAtt_qname {k : Str} (h : isTreeAtt k = true) : isQName k = true := by
  simp only [isTreeAtt, Bool.or_eq_true, Bool.and_eq_true] at h
  rcases h with h | ⟨h1, h2⟩
  · exact isXmlName_qname h
  · have := startsWith_eq h1
    rw [this]
    simp only [String.reduceToList, List.cons_append, List.nil_append, isQName, Bool.and_eq_true, List.all_cons, List.length_cons, List.length_nil]
    exact ⟨by decide, by decide, by decide, by decide, by decide, by decide, isXmlName_chars h2⟩

mutual
theorem treeNames_namesOk : ∀ e, treeNames e = true → distinctAtts e = true → namesOk e = true
  | .mk tag att text ch, h, hd => by
    simp only [treeNames, Bool.and_eq_true, List.all_eq_true] at h
    simp only [distinctAtts, Bool.and_eq_true] at hd
    simp only [namesOk, Bool.and_eq_true, List.all_eq_true]
    exact ⟨⟨⟨isTreeTag_qname h.1.1, fun kv hkv => isTreeAtt_qname (h.1.2 kv hkv)⟩, hd.1⟩, treeNames_namesOks ch h.2 hd.2⟩
theorem treeNames_namesOks : ∀ l, treeNamesList l = true → distinctAttsList l = true → namesOkList l = true
  | [], _, _ => by simp [namesOkList]
  | e :: t, h, hd => by
    simp only [treeNamesList, Bool.and_eq_true] at h
    simp only [distinctAttsList, Bool.and_eq_true] at hd
    simp only [namesOkList, Bool.and_eq_true]
    exact ⟨treeNames_namesOk e h.1 hd.1, treeNames_namesOks t h.2 hd.2⟩
end

/-- names of declarations are not plain names, except `xmlns` itself -/
theorem not_xmlns_prefix {k : Str} (h : isXmlName k = true) : startsWith k "xmlns:".toList = false := by
  by_contra hc
  simp only [Bool.not_eq_false] at hc
  have := startsWith_eq hc
  have h2 := isXmlName_colon h
  rw [this] at h2
  simp at h2

theorem reparseAtts_some {att r : Dict Str} (h : reparseAtts att = some r) :
    (∀ kv ∈ att, isTreeAtt kv.1 = true ∧ kv.2.all isXmlChar = true) := by
  induction att generalizing r with
  | nil => simp
  | cons kv t ih =>
    obtain ⟨k, v⟩ := kv
    rw [reparseAtts] at h
    intro kv hkv
    split at h
    · rename_i hx
      split at h
      · rename_i hd
        simp only [List.mem_cons] at hkv
        rcases hkv with rfl | hkv
        · simp only [declOk, Bool.and_eq_true, Bool.or_eq_true, decide_eq_true_eq] at hd
          refine ⟨?_, ?_⟩
          · simp only [isXmlnsAtt, Bool.or_eq_true, decide_eq_true_eq] at hx
            rcases hx with hx | hx
            · rw [hx]; show isTreeAtt sXmlns = true; decide
            · simp only [isTreeAtt, Bool.or_eq_true, Bool.and_eq_true]
              rcases hd.2 with rfl | hd
              · left; decide
              · right; exact ⟨hx, hd.1.1.2⟩
          · simp only [isNsName, Bool.and_eq_true] at hd
            exact hd.1.1.1.1
        · exact ih h kv hkv
      · cases h
    · split at h
      · rename_i hn
        simp only [Bool.and_eq_true] at hn
        cases hr : reparseAtts t with
        | none => rw [hr] at h; cases h
        | some r' =>
          simp only [List.mem_cons] at hkv
          rcases hkv with rfl | hkv
          · exact ⟨by simp [isTreeAtt, hn.1], hn.2⟩
          · exact ih hr kv hkv
      · cases h

theorem reparseText_some {t : Option Str} {r : Option Str} (h : reparseText t = some r) :
    (t.getD []).all isXmlChar = true ∧ r = textOf (normalizeEol (t.getD [])) := by
  unfold reparseText at h
  split at h
  · cases h; exact ⟨rfl, rfl⟩
  · cases h; exact ⟨rfl, rfl⟩
  · rename_i s hs
    split at h
    · rename_i ha
      cases h
      refine ⟨ha, ?_⟩
      simp only [Option.getD_some]
      unfold textOf
      rw [if_neg]
      intro he
      have := nE_isEmpty s
      rw [he] at this
      simp only [List.isEmpty_nil] at this
      cases s with
      | nil => exact hs rfl
      | cons => cases this
    · cases h

theorem reparseText_legal {t : Option Str} (h : (t.getD []).all isXmlChar = true) :
    reparseText t = some (textOf (normalizeEol (t.getD []))) := by
  match t with
  | none => rfl
  | some [] => rfl
  | some (c :: s) =>
    simp only [Option.getD_some] at h ⊢
    rw [reparseText]
    · rw [if_pos h]
      unfold textOf
      rw [if_neg]
      intro he
      have := nE_isEmpty (c :: s)
      rw [he] at this
      cases this
    · intro h'; cases h'

theorem qualify_some {ns rs tag r : Str} (h : qualify ns rs tag = some r) : isTreeTag tag = true := by
  unfold qualify at h
  unfold isTreeTag
  split at h
  · rename_i l hs
    rw [hs]; dsimp only
    split at h
    · assumption
    · cases h
  · rename_i p l hs
    rw [hs]; dsimp only
    split at h
    · rename_i hh; simp [hh.1, hh.2]
    · cases h

mutual
theorem reparseElem_some : ∀ (e : Elem) (ns rs : Str) (e' : Elem), reparseElem ns rs e = some e' → treeNames e = true ∧ legal e = true
  | .mk tag att text ch, ns, rs, e', h => by
    rw [reparseElem] at h
    split at h
    · rename_i hq ha ht hl
      have h1 := reparseAtts_some ha
      have h2 := reparseList_some ch _ _ _ hl
      simp only [treeNames, legal, Bool.and_eq_true, List.all_eq_true]
      exact ⟨⟨⟨qualify_some hq, fun kv hkv => (h1 kv hkv).1⟩, h2.1⟩,
        ⟨fun kv hkv => List.all_eq_true.mp (h1 kv hkv).2, List.all_eq_true.mp (reparseText_some ht).1⟩, h2.2⟩
    · cases h
theorem reparseList_some : ∀ (l : List Elem) (ns rs : Str) (l' : List Elem), reparseList ns rs l = some l' → treeNamesList l = true ∧ legalList l = true
  | [], _, _, _, _ => by simp [treeNamesList, legalList]
  | e :: t, ns, rs, l', h => by
    rw [reparseList] at h
    split at h
    · rename_i h1 h2
      have a := reparseElem_some e _ _ _ h1
      have b := reparseList_some t _ _ _ h2
      simp only [treeNamesList, legalList, Bool.and_eq_true]
      exact ⟨⟨a.1, b.1⟩, a.2, b.2⟩
    · cases h
end

/-- the namespaces in force inside an element -/
theorem dget_declare {att : Dict Str} (hk : ∀ kv ∈ att, isTreeAtt kv.1 = true) (hd : distinct (dkeys att) = true) (env : NsEnv) :
    dget (declare env att) [] = (dget att sXmlns).or (dget env []) ∧
    dget (declare env att) "rs".toList = (dget att "xmlns:rs".toList).or (dget env "rs".toList) := by
  induction att generalizing env with
  | nil => simp [declare, dget]
  | cons kv t ih =>
    obtain ⟨k, v⟩ := kv
    simp only [dkeys, List.map_cons, distinct, Bool.and_eq_true, Bool.not_eq_true', List.contains_eq_mem, decide_eq_false_iff_not] at hd
    have ih := ih (fun kv h => hk kv (by simp [h])) hd.2
    have hkk := hk (k, v) (by simp)
    have hnone : ∀ k', k = k' → dget t k' = none := by
      rintro _ rfl
      exact (dget_eq_none_iff t k).mpr hd.1
    have e : ∀ env, declare env ((k, v) :: t) = declare (if k = sXmlns then dset env [] v
        else if startsWith k "xmlns:".toList then dset env (k.drop 6) v else env) t := fun _ => rfl
    rw [e]
    by_cases h1 : k = sXmlns
    · rw [if_pos h1]
      have := ih (dset env [] v)
      rw [this.1, this.2, hnone _ h1, dget_dset, dget_dset]
      have hne : sXmlns ≠ "xmlns:rs".toList := by decide
      have hne' : k ≠ "xmlns:rs".toList := by rw [h1]; exact hne
      rw [if_pos rfl, if_neg (by decide)]
      simp only [dget, if_pos h1, if_neg hne', Option.none_or, Option.some_or, and_self]
    · rw [if_neg h1]
      by_cases h2 : startsWith k "xmlns:".toList = true
      · rw [if_pos h2]
        have hk2 := startsWith_eq h2
        have hx : isXmlName (k.drop 6) = true := by
          simp only [isTreeAtt, Bool.or_eq_true, Bool.and_eq_true] at hkk
          rcases hkk with hkk | hkk
          · rw [not_xmlns_prefix hkk] at h2; cases h2
          · exact hkk.2
        have hne : k.drop 6 ≠ [] := by intro h; rw [h] at hx; cases hx
        have := ih (dset env (k.drop 6) v)
        rw [this.1, this.2, dget_dset, dget_dset, if_neg hne]
        refine ⟨by simp only [dget, if_neg h1], ?_⟩
        by_cases h3 : k.drop 6 = "rs".toList
        · have h4 : k = "xmlns:rs".toList := by rw [hk2]; simp only [String.reduceToList, List.length_cons, List.length_nil] at h3 ⊢; rw [h3]; rfl
          rw [if_pos h3, hnone _ h4]
          simp only [dget, if_pos h4]; rfl
        · rw [if_neg h3]
          have h4 : k ≠ "xmlns:rs".toList := by intro h4; apply h3; rw [h4]; rfl
          simp only [dget, if_neg h4]
      · rw [if_neg h2]
        have := ih env
        rw [this.1, this.2]
        have h4 : k ≠ "xmlns:rs".toList := by intro h4; apply h2; rw [h4]; rfl
        simp only [dget, if_neg h1, if_neg h4, and_self]

theorem resolveTag_eq {env : NsEnv} {ns rs tag : Str} (h1 : dget env [] = some ns) (h2 : dget env "rs".toList = some rs)
    (ht : isTreeTag tag = true) : resolveTag env tag = qualify ns rs tag := by
  unfold isTreeTag at ht
  unfold resolveTag qualify
  split at ht
  · rename_i l hs; rw [hs]; simp [h1]
  · rename_i p l hs
    simp only [Bool.and_eq_true, beq_iff_eq] at ht
    rw [hs]
    dsimp only
    rw [if_pos ht.2, if_pos ht, ht.1, h2]
    rfl

theorem resolveAtts_eq (env : NsEnv) {att : Dict Str} (hk : ∀ kv ∈ att, isTreeAtt kv.1 = true ∧ kv.2.all isXmlChar = true) :
    resolveAtts env att = reparseAtts att := by
  induction att with
  | nil => rfl
  | cons kv t ih =>
    obtain ⟨k, v⟩ := kv
    have ih := ih (fun kv h => hk kv (by simp [h]))
    have hkk := hk (k, v) (by simp)
    rw [resolveAtts, reparseAtts, ih]
    split
    · rfl
    · rename_i hx
      have hn : isXmlName k = true := by
        simp only [isTreeAtt, Bool.or_eq_true, Bool.and_eq_true] at hkk
        rcases hkk.1 with h | h
        · exact h
        · exact absurd (by simp only [isXmlnsAtt, Bool.or_eq_true]; exact .inr h.1) hx
      rw [split1_none (isXmlName_colon hn)]
      dsimp only
      have h2 : (isXmlName k && v.all isXmlChar) = true := by rw [hn]; exact hkk.2
      rw [if_pos hn, if_pos h2]

theorem reparseAtts_keys {att r : Dict Str} (h : reparseAtts att = some r) : ∀ k ∈ dkeys r, k ∈ dkeys att := by
  induction att generalizing r with
  | nil => cases h; simp
  | cons kv t ih =>
    obtain ⟨k, v⟩ := kv
    rw [reparseAtts] at h
    split at h
    · split at h
      · intro x hx; exact List.mem_cons_of_mem _ (ih h x hx)
      · cases h
    · split at h
      · cases hr : reparseAtts t with
        | none => rw [hr] at h; cases h
        | some r' =>
          rw [hr] at h
          cases h
          intro x hx
          simp only [dkeys, List.map_cons, List.mem_cons] at hx ⊢
          rcases hx with rfl | hx
          · exact .inl rfl
          · exact .inr (ih hr x hx)
      · cases h

theorem reparseAtts_distinct {att r : Dict Str} (hd : distinct (dkeys att) = true) (h : reparseAtts att = some r) : distinct (dkeys r) = true := by
  induction att generalizing r with
  | nil => cases h; rfl
  | cons kv t ih =>
    obtain ⟨k, v⟩ := kv
    simp only [dkeys, List.map_cons, distinct, Bool.and_eq_true, Bool.not_eq_true', List.contains_eq_mem, decide_eq_false_iff_not] at hd
    rw [reparseAtts] at h
    split at h
    · split at h
      · exact ih hd.2 h
      · cases h
    · split at h
      · cases hr : reparseAtts t with
        | none => rw [hr] at h; cases h
        | some r' =>
          rw [hr] at h
          cases h
          simp only [dkeys, List.map_cons, distinct, Bool.and_eq_true, Bool.not_eq_true', List.contains_eq_mem, decide_eq_false_iff_not]
          exact ⟨fun hm => hd.1 (reparseAtts_keys hr k hm), ih hd.2 hr⟩
      · cases h

mutual
/-- names put into their namespaces: what `reparse` does -/
theorem resolveElem_eq : ∀ (e : Elem) (env : NsEnv) (ns rs : Str), dget env [] = some ns → dget env "rs".toList = some rs →
    treeNames e = true → distinctAtts e = true → legal e = true → resolveElem env (normTree e) = reparseElem ns rs e
  | .mk tag att text ch, env, ns, rs, h1, h2, hn, hd, hl => by
    simp only [treeNames, Bool.and_eq_true, List.all_eq_true] at hn
    simp only [distinctAtts, Bool.and_eq_true] at hd
    simp only [legal, Bool.and_eq_true, List.all_eq_true] at hl
    have hdec := dget_declare (fun kv hkv => hn.1.2 kv hkv) hd.1 env
    have e1 : dget (declare env att) [] = some ((dget att sXmlns).getD ns) := by
      rw [hdec.1, h1]; cases dget att sXmlns <;> rfl
    have e2 : dget (declare env att) "rs".toList = some ((dget att "xmlns:rs".toList).getD rs) := by
      rw [hdec.2, h2]; cases dget att "xmlns:rs".toList <;> rfl
    rw [normTree, resolveElem, reparseElem, resolveTag_eq e1 e2 hn.1.1,
      resolveAtts_eq _ (fun kv hkv => ⟨hn.1.2 kv hkv, List.all_eq_true.mpr (hl.1.1 kv hkv)⟩),
      resolveList_eq ch _ _ _ e1 e2 hn.2 hd.2 hl.2, reparseText_legal (List.all_eq_true.mpr hl.1.2)]
    cases hq : qualify ((dget att sXmlns).getD ns) ((dget att "xmlns:rs".toList).getD rs) tag with
    | none => rfl
    | some tag' =>
      cases ha : reparseAtts att with
      | none => rfl
      | some att' =>
        cases hc : reparseList ((dget att sXmlns).getD ns) ((dget att "xmlns:rs".toList).getD rs) ch with
        | none => rfl
        | some ch' =>
          dsimp only
          rw [if_pos (reparseAtts_distinct hd.1 ha)]
theorem resolveList_eq : ∀ (l : List Elem) (env : NsEnv) (ns rs : Str), dget env [] = some ns → dget env "rs".toList = some rs →
    treeNamesList l = true → distinctAttsList l = true → legalList l = true → resolveList env (normTrees l) = reparseList ns rs l
  | [], _, _, _, _, _, _, _, _ => by simp [normTrees, resolveList, reparseList]
  | e :: t, env, ns, rs, h1, h2, hn, hd, hl => by
    simp only [treeNamesList, Bool.and_eq_true] at hn
    simp only [distinctAttsList, Bool.and_eq_true] at hd
    simp only [legalList, Bool.and_eq_true] at hl
    rw [normTrees, resolveList, reparseList, resolveElem_eq e env ns rs h1 h2 hn.1 hd.1 hl.1, resolveList_eq t env ns rs h1 h2 hn.2 hd.2 hl.2]
    cases reparseElem ns rs e <;> cases reparseList ns rs t <;> rfl
end

end Py
