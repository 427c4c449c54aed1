import Verif.Model.Resource
import Verif.Spec.Resource
import Verif.Proofs.Dict
import Verif.Proofs.Url
import Mathlib.Tactic.Linarith
import Mathlib.Tactic.Tauto
/- Helper lemmas for resources. -/

namespace Resync
open Py Resync.Spec

/-! ### equality -/

theorem bothDiffer_false_iff {α : Type} [DecidableEq α] (a b : Option α) :
    bothDiffer a b = false ↔ NoConflict a b := by
  unfold NoConflict
  cases a <;> cases b <;> simp [bothDiffer]

theorem timesDiffer_false_iff (a b : Option Rat) (δ : Rat) :
    timesDiffer a b δ = false ↔ SameTime δ a b := by
  unfold SameTime
  cases a <;> cases b <;> simp [timesDiffer]
  rename_i x y
  unfold pyAbs
  split
  · constructor
    · intro h; constructor <;> linarith
    · intro h; linarith
  · constructor
    · intro h; constructor <;> linarith
    · intro h; linarith

theorem equal_iff (r o : Resource) (δ : Rat) : r.equal (some o) δ = true ↔
    r.uri = o.uri ∧ SameTime δ r.timestamp o.timestamp ∧ NoConflict r.md5 o.md5 ∧
      NoConflict r.sha1 o.sha1 ∧ NoConflict r.sha256 o.sha256 ∧ NoConflict r.length o.length := by
  rw [← timesDiffer_false_iff, ← bothDiffer_false_iff, ← bothDiffer_false_iff, ← bothDiffer_false_iff,
    ← bothDiffer_false_iff]
  unfold Resource.equal
  by_cases h1 : r.uri = o.uri <;> simp [h1]

/-! ### splitting at white space -/

theorem splitWsAux_word {w : Str} (h : NoSpace w) (cur rest : Str) :
    splitWsAux cur (w ++ rest) = splitWsAux (w.reverse ++ cur) rest := by
  induction w generalizing cur with
  | nil => rfl
  | cons c t ih =>
    have hc : isSpace c = false := h c (by simp)
    have ht : NoSpace t := fun x hx => h x (by simp [hx])
    simp only [List.cons_append, splitWsAux, hc, Bool.false_eq_true, if_false, ih ht,
      List.reverse_cons, List.append_assoc, List.nil_append]

theorem splitWs_join (ws : List Str) (h : ∀ w ∈ ws, w ≠ [] ∧ NoSpace w) :
    splitWs (join " ".toList ws) = ws := by
  induction ws with
  | nil => rfl
  | cons a t ih =>
    have ha := h a (by simp)
    have ih := ih (fun w hw => h w (by simp [hw]))
    have e1 : ∀ rest, splitWsAux [] (a ++ rest) = splitWsAux a.reverse rest := by
      intro rest; simpa using splitWsAux_word ha.2 [] rest
    cases t with
    | nil =>
      have := e1 []
      simp only [List.append_nil] at this
      simp [join, splitWs, this, splitWsAux, ha.1]
    | cons b t =>
      have e : join " ".toList (a :: b :: t) = a ++ (' ' :: join " ".toList (b :: t)) := by
        simp [join]
      have hs : isSpace ' ' = true := by decide
      rw [e, splitWs, e1, splitWsAux]
      simp only [hs, if_true, List.reverse_eq_nil_iff, ha.1, if_false, List.reverse_reverse]
      rw [← splitWs, ih]

/-! ### hash strings -/

theorem split1_some_iff {c : Char} {s a b : Str} :
    split1 c s = (a, some b) ↔ s = a ++ c :: b ∧ c ∉ a := by
  constructor
  · intro h
    induction s generalizing a b with
    | nil => simp [split1] at h
    | cons x t ih =>
      by_cases hx : x = c
      · simp [split1, hx] at h; simp [h.1, ← h.2, hx]
      · simp only [split1, hx, if_false, Prod.mk.injEq] at h
        obtain ⟨h1, h2⟩ := h
        subst h1
        obtain ⟨h3, h4⟩ := ih (a := (split1 c t).1) (b := b) (by rw [← h2])
        refine ⟨by simpa using h3, ?_⟩
        simp only [List.mem_cons, not_or]
        exact ⟨Ne.symm hx, h4⟩
  · rintro ⟨rfl, h⟩; exact split1_append h

/-- the digest attribute a hash type stands for -/
def digestOf (kind : Str) (r : Resource) : Option Str :=
  if kind = sMd5 then r.md5 else if kind = sSha1 then r.sha1 else r.sha256

def KnownKind (kind : Str) : Prop := kind = sMd5 ∨ kind = sSha1 ∨ kind = sSha256

theorem knownKind_colon {kind : Str} (h : KnownKind kind) : ':' ∉ kind := by
  rcases h with rfl | rfl | rfl <;> decide

theorem prefix_kind {kind a b : Str} (hk : ':' ∉ kind) (ha : ':' ∉ a) :
    (kind ++ [':']) <+: (a ++ ':' :: b) ↔ a = kind := by
  constructor
  · rintro ⟨t, ht⟩
    have h1 : split1 ':' (kind ++ ':' :: t) = (kind, some t) := split1_append hk
    have h2 : split1 ':' (a ++ ':' :: b) = (a, some b) := split1_append ha
    have : kind ++ ':' :: t = a ++ ':' :: b := by simpa using ht
    rw [this, h2] at h1
    exact (Prod.mk.inj h1).1
  · rintro rfl; exact ⟨b, by simp⟩

theorem firstGiven_cons_other {kind v w : Str} {ws : List Str} (h : ¬ (kind ++ [':']) <+: w) :
    FirstGiven (w :: ws) kind v ↔ FirstGiven ws kind v := by
  constructor
  · rintro ⟨pre, post, he, hp⟩
    cases pre with
    | nil =>
      simp only [List.nil_append, List.cons.injEq] at he
      exact absurd ⟨v, by simp [he.1]⟩ h
    | cons p pre =>
      simp only [List.cons_append, List.cons.injEq] at he
      exact ⟨pre, post, he.2, fun w hw => hp w (by simp [hw])⟩
  · rintro ⟨pre, post, he, hp⟩
    refine ⟨w :: pre, post, by simp [he], ?_⟩
    intro x hx
    rcases List.mem_cons.mp hx with rfl | hx
    · exact h
    · exact hp x hx

theorem firstGiven_head {kind v : Str} {ws : List Str} : FirstGiven ((kind ++ ':' :: v) :: ws) kind v :=
  ⟨[], ws, rfl, by simp⟩

theorem firstGiven_head_iff {kind v v' : Str} {ws : List Str} :
    FirstGiven ((kind ++ ':' :: v) :: ws) kind v' ↔ v' = v := by
  constructor
  · rintro ⟨pre, post, he, hp⟩
    cases pre with
    | nil =>
      simp only [List.nil_append, List.cons.injEq] at he
      have := List.append_cancel_left he.1
      simpa using this.symm
    | cons p pre =>
      simp only [List.cons_append, List.cons.injEq] at he
      exact absurd ⟨v, by simp [← he.1]⟩ (hp p (by simp))
  · rintro rfl; exact firstGiven_head

/-- the assignment made for one hash entry -/
def assignDigest (r : Resource) (k v : Str) : Resource :=
  if k = sMd5 then { r with md5 := some v }
  else if k = sSha1 then { r with sha1 := some v }
  else if k = sSha256 then { r with sha256 := some v } else r

theorem hashLoop_cons {k v : Str} (hk : ':' ∉ k) (rest seen : List Str) (errs : Bool) (r : Resource) :
    ∃ errs', hashLoop ((k ++ ':' :: v) :: rest) seen errs r =
      (if k ∈ seen then hashLoop rest seen true r
       else hashLoop rest (k :: seen) errs' (assignDigest r k v)) ∧
      (errs' = true ↔ errs = true ∨ ¬ KnownKind k) := by
  have n1 : sSha1 ≠ sMd5 := by decide
  have n2 : sSha256 ≠ sMd5 := by decide
  have n3 : sSha256 ≠ sSha1 := by decide
  simp only [hashLoop, split1_append hk, KnownKind, assignDigest]
  by_cases h1 : k = sMd5
  · exact ⟨errs, by simp [h1], by simp [h1]⟩
  · by_cases h2 : k = sSha1
    · exact ⟨errs, by simp [h2, n1], by simp [h2]⟩
    · by_cases h3 : k = sSha256
      · exact ⟨errs, by simp [h3, n2, n3], by simp [h3]⟩
      · exact ⟨true, by simp [h1, h2, h3], by simp [h1, h2, h3]⟩

theorem digestOf_assign {kind k v : Str} (h : KnownKind kind) (r : Resource) :
    digestOf kind (assignDigest r k v) = if k = kind then some v else digestOf kind r := by
  have n1 : sSha1 ≠ sMd5 := by decide
  have n2 : sSha256 ≠ sMd5 := by decide
  have n3 : sSha256 ≠ sSha1 := by decide
  have m1 : sMd5 ≠ sSha1 := by decide
  have m2 : sMd5 ≠ sSha256 := by decide
  have m3 : sSha1 ≠ sSha256 := by decide
  unfold assignDigest digestOf
  rcases h with rfl | rfl | rfl
  · by_cases h1 : k = sMd5
    · simp [h1]
    · by_cases h2 : k = sSha1
      · simp [h2, n1]
      · by_cases h3 : k = sSha256 <;> simp [h1, h2, h3, n2, n3]
  · by_cases h1 : k = sMd5
    · simp [h1, n1, m1]
    · by_cases h2 : k = sSha1
      · simp [h2, n1]
      · by_cases h3 : k = sSha256 <;> simp [h1, h2, h3, n1, n2, n3]
  · by_cases h1 : k = sMd5
    · simp [h1, n2, n3, m2]
    · by_cases h2 : k = sSha1
      · simp [h2, n1, n2, n3, m3]
      · by_cases h3 : k = sSha256 <;> simp [h1, h2, h3, n2, n3]

/-- a word containing ':' has a kind part and a value part -/
theorem colon_word {w : Str} (hw : ':' ∈ w) : ∃ k v, w = k ++ ':' :: v ∧ ':' ∉ k := by
  induction w with
  | nil => simp at hw
  | cons x t ih =>
    by_cases hx : x = ':'
    · exact ⟨[], t, by simp [hx], by simp⟩
    · obtain ⟨k, v, h1, h2⟩ := ih (by simpa [Ne.symm hx] using hw)
      exact ⟨x :: k, v, by simp [h1], by simp [Ne.symm hx, h2]⟩

/-- invariant of the loop for one digest type -/
theorem hashLoop_sound {kind : Str} (hkind : KnownKind kind) (ws seen : List Str) (errs : Bool)
    (r : Resource) :
    digestOf kind (hashLoop ws seen errs r).1 = digestOf kind r ∨
      (kind ∉ seen ∧ ∃ v, FirstGiven ws kind v ∧
        digestOf kind (hashLoop ws seen errs r).1 = some v) := by
  induction ws generalizing seen errs r with
  | nil => exact .inl rfl
  | cons w rest ih =>
    by_cases hw : ':' ∈ w
    · obtain ⟨k, v, rfl, hk⟩ := colon_word hw
      obtain ⟨errs', he, -⟩ := hashLoop_cons (v := v) hk rest seen errs r
      rw [he]
      by_cases hs : k ∈ seen
      · rw [if_pos hs]
        rcases ih seen true r with h | ⟨h1, v', h2, h3⟩
        · exact .inl h
        · refine .inr ⟨h1, v', ?_, h3⟩
          rw [firstGiven_cons_other]
          · exact h2
          · rw [prefix_kind (knownKind_colon hkind) hk]
            rintro rfl; exact h1 hs
      · rw [if_neg hs]
        by_cases hkk : k = kind
        · subst hkk
          refine .inr ⟨hs, v, firstGiven_head, ?_⟩
          rcases ih (k :: seen) errs' (assignDigest r k v) with h | ⟨h1, _⟩
          · rw [h, digestOf_assign hkind]; simp
          · simp at h1
        · rcases ih (k :: seen) errs' (assignDigest r k v) with h | ⟨h1, v', h2, h3⟩
          · left; rw [h, digestOf_assign hkind, if_neg hkk]
          · simp only [List.mem_cons, not_or] at h1
            refine .inr ⟨h1.2, v', ?_, h3⟩
            rw [firstGiven_cons_other]
            · exact h2
            · rw [prefix_kind (knownKind_colon hkind) hk]; exact hkk
    · left
      simp [hashLoop, split1_none hw]

theorem hashLoop_complete {kind v : Str} (hkind : KnownKind kind) (ws seen : List Str) (errs : Bool)
    (r : Resource) (hall : ∀ w ∈ ws, ':' ∈ w) (hseen : kind ∉ seen) (hg : FirstGiven ws kind v) :
    digestOf kind (hashLoop ws seen errs r).1 = some v := by
  induction ws generalizing seen errs r with
  | nil => obtain ⟨pre, post, h, _⟩ := hg; simp at h
  | cons w rest ih =>
    obtain ⟨k, u, rfl, hk⟩ := colon_word (hall w (by simp))
    obtain ⟨errs', he, -⟩ := hashLoop_cons (v := u) hk rest seen errs r
    have hrest : ∀ w ∈ rest, ':' ∈ w := fun w hw => hall w (by simp [hw])
    rw [he]
    by_cases hkk : k = kind
    · subst hkk
      rw [if_neg hseen]
      rw [firstGiven_head_iff] at hg
      subst hg
      rcases hashLoop_sound hkind rest (k :: seen) errs' (assignDigest r k v) with h | ⟨h1, _⟩
      · rw [h, digestOf_assign hkind]; simp
      · simp at h1
    · rw [firstGiven_cons_other (by rw [prefix_kind (knownKind_colon hkind) hk]; exact hkk)] at hg
      by_cases hs : k ∈ seen
      · rw [if_pos hs]; exact ih _ _ _ hrest hseen hg
      · rw [if_neg hs]
        exact ih _ _ _ hrest (by simp [Ne.symm hkk, hseen]) hg

/-- when the loop raises -/
theorem hashLoop_noError_iff (ws seen : List Str) (errs : Bool) (r : Resource) :
    (hashLoop ws seen errs r).2 = none ↔
      errs = false ∧ ∃ kvs : List (Str × Str), ws = kvs.map (fun kv => kv.1 ++ ':' :: kv.2) ∧
        (∀ kv ∈ kvs, KnownKind kv.1 ∧ kv.1 ∉ seen) ∧ (kvs.map Prod.fst).Nodup := by
  induction ws generalizing seen errs r with
  | nil =>
    cases errs
    · simp [hashLoop]
    · simp [hashLoop]
  | cons w rest ih =>
    by_cases hw : ':' ∈ w
    · obtain ⟨k, u, rfl, hk⟩ := colon_word hw
      obtain ⟨errs', he, hes⟩ := hashLoop_cons (v := u) hk rest seen errs r
      rw [he]
      have key : ∀ kvs : List (Str × Str), (∀ kv ∈ kvs, KnownKind kv.1 ∧ kv.1 ∉ seen) →
          (k ++ ':' :: u) :: rest = kvs.map (fun kv => kv.1 ++ ':' :: kv.2) →
          ∃ t, kvs = (k, u) :: t ∧ rest = t.map (fun kv => kv.1 ++ ':' :: kv.2) := by
        intro kvs hkv e
        cases kvs with
        | nil => simp at e
        | cons p t =>
          obtain ⟨k', u'⟩ := p
          simp only [List.map_cons, List.cons.injEq] at e
          have hk' := knownKind_colon (hkv (k', u') (by simp)).1
          have h1 : split1 ':' (k ++ ':' :: u) = (k, some u) := split1_append hk
          rw [e.1, split1_append hk'] at h1
          simp only [Prod.mk.injEq, Option.some.injEq] at h1
          exact ⟨t, by rw [h1.1, h1.2], e.2⟩
      by_cases hs : k ∈ seen
      · rw [if_pos hs, ih]
        constructor
        · rintro ⟨h, -⟩; exact absurd h (by simp)
        · rintro ⟨-, kvs, e, h, -⟩
          obtain ⟨t, rfl, -⟩ := key kvs h e
          exact absurd hs (h (k, u) (by simp)).2
      · rw [if_neg hs, ih]
        have hes' : errs' = false ↔ errs = false ∧ KnownKind k := by
          cases errs' <;> cases errs <;> simp_all
        rw [hes']
        constructor
        · rintro ⟨⟨h1, h2⟩, t, rfl, h3, h4⟩
          refine ⟨h1, (k, u) :: t, by simp, ?_, ?_⟩
          · intro kv hkv
            rcases List.mem_cons.mp hkv with rfl | hkv
            · exact ⟨h2, hs⟩
            · have := h3 kv hkv
              simp only [List.mem_cons, not_or] at this
              exact ⟨this.1, this.2.2⟩
          · simp only [List.map_cons, List.nodup_cons]
            refine ⟨?_, h4⟩
            intro hm
            obtain ⟨kv, hkv, e⟩ := List.mem_map.mp hm
            have := (h3 kv hkv).2
            simp only [List.mem_cons, not_or] at this
            exact this.1 e
        · rintro ⟨h1, kvs, e, h2, h3⟩
          obtain ⟨t, rfl, rfl⟩ := key kvs h2 e
          simp only [List.map_cons, List.nodup_cons] at h3
          refine ⟨⟨h1, (h2 (k, u) (by simp)).1⟩, t, rfl, ?_, h3.2⟩
          intro kv hkv
          refine ⟨(h2 kv (by simp [hkv])).1, ?_⟩
          simp only [List.mem_cons, not_or]
          refine ⟨?_, (h2 kv (by simp [hkv])).2⟩
          intro e
          exact h3.1 (List.mem_map.mpr ⟨kv, hkv, e⟩)
    · simp only [hashLoop, split1_none hw]
      constructor
      · intro h; simp at h
      · rintro ⟨-, kvs, e, -, -⟩
        cases kvs with
        | nil => simp at e
        | cons p t =>
          simp only [List.map_cons, List.cons.injEq] at e
          exact absurd (by rw [e.1]; simp) hw

/-- the hash setter touches nothing but the digests -/
theorem hashLoop_frame (ws seen : List Str) (errs : Bool) (r : Resource) :
    ∃ a b c, (hashLoop ws seen errs r).1 = { r with md5 := a, sha1 := b, sha256 := c } := by
  induction ws generalizing seen errs r with
  | nil => exact ⟨r.md5, r.sha1, r.sha256, rfl⟩
  | cons w rest ih =>
    rcases hs : split1 ':' w with ⟨k, _ | v⟩
    · exact ⟨r.md5, r.sha1, r.sha256, by simp [hashLoop, hs]⟩
    · simp only [hashLoop, hs]
      split
      · exact ih _ _ _
      · split
        · obtain ⟨a, b, c, h⟩ := ih (k :: seen) errs { r with md5 := some v }
          exact ⟨a, b, c, by rw [h]⟩
        · split
          · obtain ⟨a, b, c, h⟩ := ih (k :: seen) errs { r with sha1 := some v }
            exact ⟨a, b, c, by rw [h]⟩
          · split
            · obtain ⟨a, b, c, h⟩ := ih (k :: seen) errs { r with sha256 := some v }
              exact ⟨a, b, c, by rw [h]⟩
            · exact ih _ _ _

/-! ### links -/

theorem dget_addAtts (l : Link) (atts : List (Str × Str)) (k : Str) (h : ∀ kv ∈ atts, kv.1 ≠ k) :
    dget (addAtts l atts) k = dget l k := by
  unfold addAtts
  induction atts generalizing l with
  | nil => rfl
  | cons p t ih =>
    simp only [List.foldl_cons]
    rw [ih _ (fun kv hkv => h kv (by simp [hkv]))]
    exact dget_dset_ne _ _ (h p (by simp))

theorem findLink_nil (rel : Str) : findLink [] rel = none := rfl

theorem findLink_cons (l : Link) (ln : List Link) (rel : Str) :
    findLink (l :: ln) rel = if dget l sRel = some rel then some l else findLink ln rel := by
  unfold findLink
  by_cases h : dget l sRel = some rel <;> simp [List.find?, h]

theorem findLink_append_singleton (ln : List Link) (l : Link) (rel : Str) :
    findLink (ln ++ [l]) rel =
      (match findLink ln rel with
       | some x => some x
       | none => if dget l sRel = some rel then some l else none) := by
  induction ln with
  | nil => simp [findLink_nil, findLink_cons]
  | cons a t ih =>
    rw [List.cons_append, findLink_cons, findLink_cons, ih]
    by_cases h : dget a sRel = some rel <;> simp [h]

theorem findLink_updateFirst (ln : List Link) (rel : Str) (f : Link → Link)
    (hf : ∀ l, dget (f l) sRel = dget l sRel) (rel' : Str) :
    findLink (updateFirst ln rel f) rel' =
      if rel' = rel then (findLink ln rel).map f else findLink ln rel' := by
  induction ln with
  | nil => simp [updateFirst, findLink_nil]
  | cons a t ih =>
    unfold updateFirst
    by_cases h : dget a sRel = some rel
    · rw [if_pos h, findLink_cons, hf, h]
      by_cases hr : rel' = rel
      · subst hr; simp [findLink_cons, h]
      · simp [findLink_cons, h, hr, Ne.symm hr]
    · rw [if_neg h, findLink_cons, ih, findLink_cons, findLink_cons]
      by_cases hr : rel' = rel
      · subst hr; simp [h]
      · simp [hr]

theorem length_updateFirst (ln : List Link) (rel : Str) (f : Link → Link) :
    (updateFirst ln rel f).length = ln.length := by
  induction ln with
  | nil => rfl
  | cons a t ih => unfold updateFirst; split <;> simp [ih]

theorem dget_new_rel (rel href : Str) : dget ([(sRel, rel), (sHref, href)] : Link) sRel = some rel := by
  simp [dget]

theorem dget_new_href (rel href : Str) : dget ([(sRel, rel), (sHref, href)] : Link) sHref = some href := by
  have : sRel ≠ sHref := by decide
  simp [dget, this]

end Resync
