import Verif.Proofs.Sitemap
/-
Round trip of links, metadata and single resources through an element tree.
-/

namespace Resync
open Py Resync.Spec

theorem sameMap_symm {a b : Dict Str} (h : SameMap a b) : SameMap b a := fun k => (h k).symm
theorem sameMap_trans {a b c : Dict Str} (h : SameMap a b) (h' : SameMap b c) : SameMap a c :=
  fun k => (h k).trans (h' k)

theorem mem_of_nodup_dget {d : Dict Str} (hn : (dkeys d).Nodup) {k v : Str} (h : (k, v) ∈ d) :
    dget d k = some v := dget_of_mem hn h

theorem convInt_same {d l : Dict Str} (k : Str) (hs : SameMap d l)
    (h : ∀ v, dget l k = some v → ∃ n : Int, v = intStr n) :
    ∃ d', convInt d k = .ok d' ∧ SameMap d' l := by
  unfold convInt
  cases hg : dget d k with
  | none => exact ⟨d, rfl, hs⟩
  | some v =>
    have hl : dget l k = some v := by rw [← hs k, hg]
    obtain ⟨n, rfl⟩ := h v hl
    simp only [pyInt_intStr]
    refine ⟨_, rfl, ?_⟩
    intro k'
    rw [dget_dset]
    split
    · rename_i e; subst e; exact hl.symm
    · exact hs k'

theorem checkPri_same {d l : Dict Str} (hs : SameMap d l)
    (h : ∀ v, dget l kPri = some v → ∃ n : Int, 1 ≤ n ∧ n ≤ 999999 ∧ v = intStr n) :
    ∃ d', checkPri d = .ok d' ∧ SameMap d' l := by
  unfold checkPri
  cases hg : dget d kPri with
  | none => exact ⟨d, rfl, hs⟩
  | some v =>
    have hl : dget l kPri = some v := by rw [← hs kPri, hg]
    obtain ⟨n, h1, h2, rfl⟩ := h v hl
    simp only [pyInt_intStr]
    rw [if_neg (by omega)]
    refine ⟨_, rfl, ?_⟩
    intro k'
    rw [dget_dset]
    split
    · rename_i e; subst e; exact hl.symm
    · exact hs k'

theorem lnAttKeys_plain : ∀ k ∈ lnAttKeys, Plain k := by decide
theorem lnAttKeys_good : ∀ k ∈ lnAttKeys, goodKey k = true := by decide
theorem mdAttKeys_plain (s : Sitemap) : ∀ k ∈ mdAttKeys s, Plain k := by
  cases h : s.spec_1_0 <;> (unfold mdAttKeys; rw [h]; decide)
theorem mdAttKeys_good (s : Sitemap) : ∀ k ∈ mdAttKeys s, goodKey k = true := by
  cases h : s.spec_1_0 <;> (unfold mdAttKeys; rw [h]; decide)
theorem mdAttKeys_nodup (s : Sitemap) : (mdAttKeys s).Nodup := by
  cases h : s.spec_1_0 <;> (unfold mdAttKeys; rw [h]; decide)

theorem link_round_trip (l : Link) (h : LinkOk l) :
    ∃ e', reparseList SITEMAP_NS RS_NS (elementWithAtts "rs:ln".toList l) = some [e'] ∧
      e'.tag = rsTag "ln" ∧ ∃ l', lnFromEtree e' = .ok l' ∧ SameMap l l' := by
  have hkeys : ∀ k ∈ dkeys l, k ∈ lnAttKeys := h.keys
  have hne : l ≠ [] := by
    rintro rfl
    have := h.href; simp [dget] at this
  refine ⟨.mk (rsTag "ln") (sortItems (xmlAtts l)) none [], ?_, rfl, ?_⟩
  · rw [reparse_elementWithAtts _ (rsTag "ln") (by decide) l
      (fun k hk => lnAttKeys_good k (hkeys k hk))
      (fun k v hm => h.chars k v (mem_of_nodup_dget h.keys_nodup hm)), if_pos (xmlAtts_ne l hne)]
  · have hs : SameMap (grabAtts lnAttKeys (sortItems (xmlAtts l))) l :=
      grab_written lnAttKeys l lnAttKeys_plain h.keys_nodup hkeys
    obtain ⟨d1, e1, s1⟩ := convInt_same kLength hs h.length
    obtain ⟨d2, e2, s2⟩ := checkPri_same s1 h.pri
    refine ⟨d2, ?_, sameMap_symm s2⟩
    have hc : checkLinkAtts (grabAtts lnAttKeys (sortItems (xmlAtts l))) = .ok () := by
      unfold checkLinkAtts
      rw [hs sHref, hs sRel]
      have h1 := h.href; have h2 := h.rel
      have h1' : (dget l sHref).isNone = false := by
        rw [← Option.not_isSome]; exact congrArg not h1
      have h2' : (dget l sRel).isNone = false := by
        rw [← Option.not_isSome]; exact congrArg not h2
      simp [h1', h2']
    simp only [lnFromEtree, Elem.attrib, hc, ebind_ok, e1, e2]

theorem sameMap_nil {d : Dict Str} (h : SameMap [] d) : d = [] := by
  cases d with
  | nil => rfl
  | cons p t => have := h p.1; simp [dget] at this

theorem md_round_trip (s : Sitemap) (md : Dict Str) (h : MdOk (mdAttKeys s) md) :
    ∃ es, reparseList SITEMAP_NS RS_NS (elementWithAtts "rs:md".toList md) = some es ∧
      ((md = [] ∧ es = []) ∨ (md ≠ [] ∧ ∃ e', es = [e'] ∧ e'.tag = rsTag "md" ∧
        ∃ md', mdFromEtree s e' = .ok md' ∧ SameMap md md')) := by
  refine ⟨_, reparse_elementWithAtts _ (rsTag "md") (by decide) md
      (fun k hk => mdAttKeys_good s k (h.keys_known k hk))
      (fun k v hm => h.chars k v (mem_of_nodup_dget h.keys_nodup hm)), ?_⟩
  by_cases hne : md = []
  · subst hne; exact .inl ⟨rfl, rfl⟩
  · right
    refine ⟨hne, .mk (rsTag "md") (sortItems (xmlAtts md)) none [], by rw [if_pos (xmlAtts_ne md hne)], rfl, ?_⟩
    have hs : SameMap (grabAtts (mdAttKeys s) (sortItems (xmlAtts md))) md :=
      grab_written _ md (mdAttKeys_plain s) h.keys_nodup h.keys_known
    obtain ⟨d1, e1, s1⟩ := convInt_same kLength hs h.length
    refine ⟨d1, ?_, sameMap_symm s1⟩
    have hc : checkMdChange (grabAtts (mdAttKeys s) (sortItems (xmlAtts md))) = .ok () := by
      unfold checkMdChange
      rw [hs kChange]
      have hv : ValidChange (dget md kChange) := h.change
      rcases hv with hv | hv | hv | hv <;> rw [hv] <;> rfl
    simp only [mdFromEtree, Elem.attrib, hc, ebind_ok, e1]

/-! ### Characters of the generated values -/

theorem xmlOk_append {a b : Str} (ha : XmlOk a) (hb : XmlOk b) : XmlOk (a ++ b) := by
  intro c hc
  rcases List.mem_append.mp hc with h | h
  · exact ha c h
  · exact hb c h

theorem xmlOk_cons {c : Char} {b : Str} (ha : isXmlChar c = true) (hb : XmlOk b) : XmlOk (c :: b) := by
  intro x hc
  rcases List.mem_cons.mp hc with rfl | h
  · exact ha
  · exact hb x h

theorem xmlChar_digit {c : Char} (h : isDigit c = true) : isXmlChar c = true := by
  simp only [isDigit, Bool.and_eq_true, decide_eq_true_eq] at h
  have e0 : '0'.toNat = 48 := rfl
  have e9 : '9'.toNat = 57 := rfl
  rw [e0, e9] at h
  simp only [isXmlChar, Bool.or_eq_true, Bool.and_eq_true, decide_eq_true_eq, beq_iff_eq]
  omega

theorem xmlOk_fixedDigits (w n : Nat) : XmlOk (fixedDigits w n) :=
  fun c hc => xmlChar_digit (fixedDigits_digits w n c hc)

theorem xmlOk_intStr (n : Int) : XmlOk (intStr n) := by
  unfold intStr
  split
  · exact xmlOk_cons (by decide) (fun c hc => xmlChar_digit (natStr_digits _ c hc))
  · exact fun c hc => xmlChar_digit (natStr_digits _ c hc)

theorem xmlOk_isoformat (t : DT) : XmlOk (t.isoformat ++ ['Z']) := by
  unfold DT.isoformat
  refine xmlOk_append ?_ (xmlOk_cons (by decide) (fun c hc => by simp at hc))
  have k := fun (c : Char) (h : isXmlChar c = true) (n : Nat) =>
    xmlOk_cons (c := c) h (xmlOk_fixedDigits 2 n)
  refine xmlOk_append (xmlOk_append (xmlOk_append (xmlOk_append (xmlOk_append (xmlOk_append
    (xmlOk_fixedDigits _ _) (k '-' (by decide) _)) (k '-' (by decide) _)) (k 'T' (by decide) _))
    (k ':' (by decide) _)) (k ':' (by decide) _)) ?_
  split
  · intro c hc; simp at hc
  · exact xmlOk_cons (by decide) (xmlOk_fixedDigits _ _)

theorem datetimeToStr_shape {q : Rat} {nf : Bool} {s : Str} (h : datetimeToStr q nf = some s) :
    ∃ t : DT, s = t.isoformat ++ ['Z'] := by
  simp only [datetimeToStr, Option.map_eq_some_iff] at h
  obtain ⟨t, -, rfl⟩ := h
  exact ⟨t, rfl⟩

theorem digit_not_cr {c : Char} (h : isDigit c = true) : c ≠ '\r' := by
  rintro rfl; exact absurd h (by decide)

theorem datetime_no_cr {q : Rat} {nf : Bool} {s : Str} (h : datetimeToStr q nf = some s) : '\r' ∉ s := by
  obtain ⟨t, rfl⟩ := datetimeToStr_shape h
  have hd : ∀ w n, '\r' ∉ fixedDigits w n := fun w n hc => digit_not_cr (fixedDigits_digits w n _ hc) rfl
  unfold DT.isoformat
  split <;> simp [hd]

theorem datetime_ne {q : Rat} {nf : Bool} {s : Str} (h : datetimeToStr q nf = some s) : s ≠ [] := by
  obtain ⟨t, rfl⟩ := datetimeToStr_shape h
  simp

/-- a datetime property of a representable time: the string written, read back -/
theorem dateAttr_ok (o : Option Rat) (h : ∀ t, o = some t → MicroTime t) :
    ∃ s : Option Str, dateAttr o = .ok s ∧ (∀ v, s = some v → XmlOk v ∧ '\r' ∉ v ∧ v ≠ []) ∧
      s.bind (fun v => strToDatetime v) = o ∧ (s = none ↔ o = none) := by
  cases o with
  | none => exact ⟨none, rfl, by simp, rfl, by simp⟩
  | some t =>
    obtain ⟨n, h1, h2, rfl⟩ := h t rfl
    obtain ⟨s, hs, hr⟩ := C11_round_trip n h1 h2
    generalize (n : Rat) / 1000000 = q at hs hr
    refine ⟨some s, by unfold dateAttr; simp only [hs], ?_, hr, by simp⟩
    intro v hv
    injection hv with hv; subst hv
    obtain ⟨t, ht⟩ := datetimeToStr_shape hs
    exact ⟨by rw [ht]; exact xmlOk_isoformat t, datetime_no_cr hs, datetime_ne hs⟩

theorem xmlOk_join {sep : Str} (hs : XmlOk sep) : ∀ {l : List Str}, (∀ x ∈ l, XmlOk x) → XmlOk (join sep l)
  | [], _ => by intro c hc; simp [join] at hc
  | [a], h => by unfold join; exact h a (by simp)
  | a :: b :: t, h => by
    unfold join
    exact xmlOk_append (xmlOk_append (h a (by simp)) hs)
      (xmlOk_join hs (fun x hx => h x (by simp at hx ⊢; exact .inr hx)))

theorem xmlOk_hash (r : Resource) (h1 : ∀ v, r.md5 = some v → XmlOk v) (h2 : ∀ v, r.sha1 = some v → XmlOk v)
    (h3 : ∀ v, r.sha256 = some v → XmlOk v) : ∀ v, r.hash = some v → XmlOk v := by
  intro v hv
  have p1 : XmlOk "md5:".toList := by intro c hc; revert hc c; decide
  have p2 : XmlOk "sha-1:".toList := by intro c hc; revert hc c; decide
  have p3 : XmlOk "sha-256:".toList := by intro c hc; revert hc c; decide
  have hshape : ∃ l : List Str, (∀ x ∈ l, XmlOk x) ∧ r.hash =
      if l.length > 0 then some (join " ".toList l) else none := by
    refine ⟨_, ?_, rfl⟩
    intro x hx
    rcases List.mem_append.mp hx with hx | hx
    · rcases List.mem_append.mp hx with hx | hx
      · revert hx
        cases hm : r.md5 with
        | none => simp
        | some w => intro hx; rw [List.mem_singleton.mp hx]; exact xmlOk_append p1 (h1 w hm)
      · revert hx
        cases hm : r.sha1 with
        | none => simp
        | some w => intro hx; rw [List.mem_singleton.mp hx]; exact xmlOk_append p2 (h2 w hm)
    · revert hx
      cases hm : r.sha256 with
      | none => simp
      | some w => intro hx; rw [List.mem_singleton.mp hx]; exact xmlOk_append p3 (h3 w hm)
  obtain ⟨l, hl, e⟩ := hshape
  rw [e] at hv
  split at hv
  · injection hv with hv
    rw [← hv]
    exact xmlOk_join (by intro c hc; revert hc c; decide) hl
  · exact absurd hv (by simp)

/-! ### The attributes collected for a resource -/

theorem mdAtts_ok (r : Resource) (v : Str → Option Str) (keys : List Str) (hn : keys.Nodup)
    (h : ∀ k ∈ keys, resourceAttr r k = .ok (v k)) :
    mdAtts r keys = .ok (keys.filterMap (fun k => (v k).map (fun x => (k, x)))) := by
  induction keys with
  | nil => rfl
  | cons k t ih =>
    unfold mdAtts
    rw [h k (by simp), ih (List.nodup_cons.mp hn).2 (fun x hx => h x (by simp [hx]))]
    simp only [ebind_ok]
    cases hv : v k <;> simp [hv, epure]

theorem filterMap_keys (v : Str → Option Str) (keys : List Str) :
    dkeys (keys.filterMap (fun k => (v k).map (fun x => (k, x)))) = keys.filter (fun k => (v k).isSome) := by
  induction keys with
  | nil => rfl
  | cons k t ih =>
    cases hv : v k with
    | none => rw [List.filterMap_cons_none (by simp [hv]), ih, List.filter_cons_of_neg (by simp [hv])]
    | some x =>
      rw [List.filterMap_cons_some (b := (k, x)) (by simp [hv]), List.filter_cons_of_pos (by simp [hv])]
      simp only [dkeys, List.map_cons] at ih ⊢
      rw [ih]

end Resync
