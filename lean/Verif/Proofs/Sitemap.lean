import Verif.Model.Sitemap
import Verif.Spec.Sitemap
import Verif.Proofs.Num
import Verif.Proofs.Dict
import Verif.Props.Resource
import Verif.Props.W3CDatetime
/-
Lemmas on element trees and the sitemap reader/writer.
-/

namespace Resync
open Py Resync.Spec

theorem ebind_ok {ε α β : Type} (a : α) (f : α → Except ε β) : (Except.ok a >>= f) = f a := rfl
theorem ebind_err {ε α β : Type} (e : ε) (f : α → Except ε β) :
    ((Except.error e : Except ε α) >>= f) = .error e := rfl
theorem epure {ε α : Type} (a : α) : (pure a : Except ε α) = .ok a := rfl

/-! ### Attribute dictionaries -/

theorem dget_filterMap {α : Type} (f : Str → Option α) (ks : List Str) (k : Str) :
    dget (ks.filterMap (fun k => (f k).map (fun v => (k, v)))) k = if k ∈ ks then f k else none := by
  induction ks with
  | nil => rfl
  | cons a t ih =>
    cases hf : f a with
    | none =>
      rw [List.filterMap_cons_none (by simp [hf]), ih]
      by_cases h : k = a
      · subst h; simp [hf]
      · simp [h]
    | some v =>
      rw [List.filterMap_cons_some (b := (a, v)) (by simp [hf])]
      by_cases h : a = k
      · subst h; simp [dget, hf]
      · simp [dget, h, ih, Ne.symm h]

theorem dget_grabAtts (keys : List Str) (a : Dict Str) (k : Str) :
    dget (grabAtts keys a) k = if k ∈ keys then dget a (xmlAttName k) else none :=
  dget_filterMap (fun k => dget a (xmlAttName k)) keys k

theorem dget_sortItems (d : Dict Str) (k : Str) : dget (sortItems d) k = dget d k := by
  unfold sortItems
  rw [dget_filterMap]
  split
  · rfl
  · rename_i h
    rw [mem_sortStr] at h
    exact ((dget_eq_none_iff d k).mpr h).symm

/-- attribute names that are not the XML spelling of another one -/
def Plain (k : Str) : Prop :=
  k ∉ ["type".toList, "at".toList, "completed".toList, "from".toList, "until".toList]

instance (k : Str) : Decidable (Plain k) := inferInstanceAs (Decidable (¬ _))

/-- inverse of the renaming -/
def xmlAttInv (x : Str) : Str :=
  if x = "type".toList then kMimeType
  else if x = "at".toList then kMdAt
  else if x = "completed".toList then kMdCompleted
  else if x = "from".toList then kMdFrom
  else if x = "until".toList then kMdUntil
  else x

theorem xmlAttInv_name {k : Str} (h : Plain k) : xmlAttInv (xmlAttName k) = k := by
  unfold xmlAttName
  split
  · rename_i e; subst e; decide
  · split
    · rename_i e; subst e; decide
    · split
      · rename_i e; subst e; decide
      · split
        · rename_i e; subst e; decide
        · split
          · rename_i e; subst e; decide
          · simp only [Plain, List.mem_cons, List.not_mem_nil, or_false, not_or] at h
            obtain ⟨h1, h2, h3, h4, h5⟩ := h
            unfold xmlAttInv
            rw [if_neg h1, if_neg h2, if_neg h3, if_neg h4, if_neg h5]

theorem xmlAttName_inj {a b : Str} (ha : Plain a) (hb : Plain b) (h : xmlAttName a = xmlAttName b) : a = b := by
  rw [← xmlAttInv_name ha, h, xmlAttInv_name hb]

theorem dget_xmlAtts_fold (atts d0 : Dict Str) (hn : (dkeys atts).Nodup) (hp : ∀ k ∈ dkeys atts, Plain k)
    (k : Str) (hk : Plain k) :
    dget (atts.foldl (fun d kv => dset d (xmlAttName kv.1) kv.2) d0) (xmlAttName k) =
      match dget atts k with
      | some v => some v
      | none => dget d0 (xmlAttName k) := by
  induction atts generalizing d0 with
  | nil => rfl
  | cons p t ih =>
    obtain ⟨a, v⟩ := p
    simp only [dkeys, List.map_cons, List.nodup_cons] at hn
    rw [List.foldl_cons, ih _ hn.2 (fun x hx => hp x (by simp [dkeys] at hx ⊢; exact .inr hx))]
    have ha : Plain a := hp a (by simp [dkeys])
    by_cases h : a = k
    · subst h
      have : dget t a = none := (dget_eq_none_iff t a).mpr hn.1
      simp [dget, this, dget_dset_self]
    · have : xmlAttName a ≠ xmlAttName k := fun e => h (xmlAttName_inj ha hk e)
      simp only [dget, h, if_false]
      rw [dget_dset_ne _ _ this]

theorem dget_xmlAtts (atts : Dict Str) (hn : (dkeys atts).Nodup) (hp : ∀ k ∈ dkeys atts, Plain k)
    (k : Str) (hk : Plain k) : dget (xmlAtts atts) (xmlAttName k) = dget atts k := by
  unfold xmlAtts
  rw [dget_xmlAtts_fold _ _ hn hp k hk]
  cases dget atts k <;> rfl

theorem xmlAtts_keys_fold (atts d0 : Dict Str) (x v : Str)
    (h : dget (atts.foldl (fun d kv => dset d (xmlAttName kv.1) kv.2) d0) x = some v) :
    (∃ k, (k, v) ∈ atts ∧ x = xmlAttName k) ∨ dget d0 x = some v := by
  induction atts generalizing d0 with
  | nil => exact .inr h
  | cons p t ih =>
    rcases ih _ h with ⟨k, hk, e⟩ | h
    · exact .inl ⟨k, by simp [hk], e⟩
    · rw [dget_dset] at h
      split at h
      · rename_i e
        injection h with h; subst h
        exact .inl ⟨p.1, by simp, e.symm⟩
      · exact .inr h

theorem xmlAtts_keys (atts : Dict Str) (x v : Str) (h : dget (xmlAtts atts) x = some v) :
    ∃ k, (k, v) ∈ atts ∧ x = xmlAttName k := by
  rcases xmlAtts_keys_fold atts [] x v h with h | h
  · exact h
  · simp [dget] at h

theorem sortItems_mem {d : Dict Str} {k v : Str} (h : (k, v) ∈ sortItems d) : dget d k = some v := by
  unfold sortItems at h
  obtain ⟨a, -, h2⟩ := List.mem_filterMap.mp h
  cases hg : dget d a with
  | none => simp [hg] at h2
  | some w =>
    rw [hg] at h2
    simp at h2
    rw [← h2.1, ← h2.2]
    exact hg

theorem grab_written (keys : List Str) (atts : Dict Str) (hk : ∀ k ∈ keys, Plain k)
    (hn : (dkeys atts).Nodup) (hs : ∀ k ∈ dkeys atts, k ∈ keys) :
    SameMap (grabAtts keys (sortItems (xmlAtts atts))) atts := by
  intro k
  rw [dget_grabAtts]
  split
  · rename_i h
    rw [dget_sortItems, dget_xmlAtts _ hn (fun x hx => hk x (hs x hx)) k (hk k h)]
  · rename_i h
    exact ((dget_eq_none_iff atts k).mpr (fun hx => h (hs k hx))).symm

/-! ### Round trip through text -/

theorem reparseAtts_ok (a : Dict Str) (h : ∀ k v, (k, v) ∈ a → isXmlName k = true ∧ isXmlnsAtt k = false ∧ XmlOk v) :
    reparseAtts a = some a := by
  induction a with
  | nil => rfl
  | cons p t ih =>
    obtain ⟨k, v⟩ := p
    obtain ⟨h1, h2, h3⟩ := h k v (by simp)
    have hv : v.all isXmlChar = true := List.all_eq_true.mpr h3
    unfold reparseAtts
    rw [ih (fun k v hm => h k v (by simp [hm]))]
    simp [h1, h2, hv]

/-- an element that declares no namespaces stands in those around it -/
theorem reparseElem_plain (ns rs tag : Str) (att : Dict Str) (text : Option Str) (ch : List Elem)
    (h : ∀ k v, (k, v) ∈ att → isXmlnsAtt k = false) :
    reparseElem ns rs (.mk tag att text ch) =
      match qualify ns rs tag, reparseAtts att, reparseText text, reparseList ns rs ch with
      | some tag, some att, some text, some ch => some (.mk tag att text ch)
      | _, _, _, _ => none := by
  have hno : ∀ k, isXmlnsAtt k = true → dget att k = none := by
    intro k hk
    rw [dget_eq_none_iff]
    intro hm
    obtain ⟨⟨k', v⟩, hm', rfl⟩ := List.mem_map.mp hm
    rw [h k' v hm'] at hk
    cases hk
  rw [reparseElem, hno sXmlns (by decide), hno "xmlns:rs".toList (by decide)]
  rfl

theorem normalizeEol_id (s : Str) (h : '\r' ∉ s) : normalizeEol s = s := by
  induction s with
  | nil => rfl
  | cons c t ih =>
    have hc : c ≠ '\r' := fun e => h (by simp [e])
    have ht : '\r' ∉ t := fun e => h (by simp [e])
    unfold normalizeEol
    split
    · rename_i heq; injection heq
    · rename_i heq; injection heq with h1; exact absurd h1 hc
    · rename_i heq; injection heq with h1; exact absurd h1 hc
    · rename_i h1 h2 heq; injection heq with e1 e2; subst e1; subst e2; rw [ih ht]

theorem reparseText_ok (s : Str) (hne : s ≠ []) (hx : XmlOk s) (h : '\r' ∉ s) :
    reparseText (some s) = some (some s) := by
  cases s with
  | nil => exact absurd rfl hne
  | cons c t =>
    have hv : (c :: t).all isXmlChar = true := List.all_eq_true.mpr hx
    unfold reparseText
    simp only [hv, if_true, normalizeEol_id _ h]

theorem reparseList_append (ns rs : Str) (a b : List Elem) :
    reparseList ns rs (a ++ b) =
      match reparseList ns rs a, reparseList ns rs b with
      | some a, some b => some (a ++ b)
      | _, _ => none := by
  induction a with
  | nil => simp only [List.nil_append, reparseList]; cases reparseList ns rs b <;> rfl
  | cons e t ih =>
    simp only [List.cons_append, reparseList, ih]
    cases reparseElem ns rs e <;> cases reparseList ns rs t <;> cases reparseList ns rs b <;> rfl

theorem reparseList_append_ok {ns rs : Str} {a b a' b' : List Elem} (ha : reparseList ns rs a = some a')
    (hb : reparseList ns rs b = some b') : reparseList ns rs (a ++ b) = some (a' ++ b') := by
  rw [reparseList_append, ha, hb]

/-- the well-known attribute names are fine as XML names -/
def goodKey (k : Str) : Bool := isXmlName (xmlAttName k) && !isXmlnsAtt (xmlAttName k)

/-- what one rs: element becomes -/
theorem reparse_elementWithAtts (name : Str) (q : Str) (hq : qualify SITEMAP_NS RS_NS name = some q)
    (atts : Dict Str) (hgood : ∀ k ∈ dkeys atts, goodKey k = true)
    (hchars : ∀ k v, (k, v) ∈ atts → XmlOk v) :
    reparseList SITEMAP_NS RS_NS (elementWithAtts name atts) =
      some (if (xmlAtts atts).length > 0 then [.mk q (sortItems (xmlAtts atts)) none []] else []) := by
  unfold elementWithAtts
  split
  · have ha : reparseAtts (sortItems (xmlAtts atts)) = some (sortItems (xmlAtts atts)) := by
      apply reparseAtts_ok
      intro k v hm
      obtain ⟨k', hk', rfl⟩ := xmlAtts_keys atts k v (sortItems_mem hm)
      have hg := hgood k' (List.mem_map.mpr ⟨(k', v), hk', rfl⟩)
      simp only [goodKey, Bool.and_eq_true, Bool.not_eq_true'] at hg
      exact ⟨hg.1, hg.2, hchars k' v hk'⟩
    have hn : ∀ k v, (k, v) ∈ sortItems (xmlAtts atts) → isXmlnsAtt k = false := by
      intro k v hm
      obtain ⟨k', hk', rfl⟩ := xmlAtts_keys atts k v (sortItems_mem hm)
      have hg := hgood k' (List.mem_map.mpr ⟨(k', v), hk', rfl⟩)
      simp only [goodKey, Bool.and_eq_true, Bool.not_eq_true'] at hg
      exact hg.2
    simp [reparseList, reparseElem_plain _ _ _ _ _ _ hn, hq, ha, reparseText]
  · rfl

theorem xmlAtts_ne (atts : Dict Str) (h : atts ≠ []) : (xmlAtts atts).length > 0 := by
  cases atts with
  | nil => exact absurd rfl h
  | cons p t =>
    have key : ∀ (t : Dict Str) (d0 : Dict Str), d0 ≠ [] →
        t.foldl (fun d kv => dset d (xmlAttName kv.1) kv.2) d0 ≠ [] := by
      intro t
      induction t with
      | nil => intro d0 h; exact h
      | cons q t ih =>
        intro d0 _
        rw [List.foldl_cons]
        apply ih
        intro e
        have := (mem_dkeys_dset d0 (xmlAttName q.1) (xmlAttName q.1) q.2).mpr (.inl rfl)
        rw [e] at this; simp [dkeys] at this
    have h2 : xmlAtts (p :: t) ≠ [] := by
      unfold xmlAtts
      rw [List.foldl_cons]
      apply key
      simp [dset]
    exact List.length_pos_iff.mpr h2

end Resync
