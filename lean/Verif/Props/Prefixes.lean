import Verif.Proofs.XmlNames
import Verif.Proofs.Dict
import Verif.Proofs.Url
import Verif.Model.SitemapText

/-!
# C103: the prefixes of namespaces do not matter

`rename ρ t` is the tree with other prefixes: where `t` has the prefix `p` it has `ρ p`, in the names of elements and attributes and in
declarations.  `[]` stands for no prefix; so the default namespace may become a prefixed one (`<sm:urlset xmlns:sm="…">`).
-/

namespace Resync.Spec
open Py

/-- the prefix of a name, `[]` if it has none -/
def prefixOf (name : Str) : Str :=
  match split1 ':' name with
  | (_, none) => []
  | (p, some _) => p

/-- a name of an element with another prefix -/
def renameTag (ρ : Str → Str) (tag : Str) : Str :=
  match split1 ':' tag with
  | (l, none) => if ρ [] = [] then l else ρ [] ++ ':' :: l
  | (p, some l) => ρ p ++ ':' :: l

/-- a name of an attribute, or a declaration, with another prefix; attributes without prefix are in no namespace and keep their names -/
def renameAtt (ρ : Str → Str) (k : Str) : Str :=
  if k = "xmlns".toList then (if ρ [] = [] then k else "xmlns:".toList ++ ρ [])
  else if startsWith k "xmlns:".toList then "xmlns:".toList ++ ρ (k.drop 6)
  else
    match split1 ':' k with
    | (l, none) => l
    | (p, some l) => ρ p ++ ':' :: l

mutual
def rename (ρ : Str → Str) : Elem → Elem
  | .mk tag att text ch => .mk (renameTag ρ tag) (att.map (fun kv => (renameAtt ρ kv.1, kv.2))) text (renameList ρ ch)
def renameList (ρ : Str → Str) : List Elem → List Elem
  | [] => []
  | e :: t => rename ρ e :: renameList ρ t
end

/-- `ρ` gives the prefixes `P` names that are different from each other, and leaves `xml` and `xmlns`, which have fixed meanings -/
structure Renaming (P : Str → Prop) (ρ : Str → Str) : Prop where
  inj : ∀ p q, P p → P q → ρ p = ρ q → p = q
  name : ∀ p, P p → p ≠ [] → isXmlName (ρ p) = true
  default : ρ [] = [] ∨ isXmlName (ρ []) = true
  used : P [] ∧ P "xml".toList ∧ P "xmlns".toList
  xml : ρ "xml".toList = "xml".toList
  xmlns : ρ "xmlns".toList = "xmlns".toList

/-- the attributes use only these prefixes, which are names; if the default namespace gets a prefix then it is never undone -/
def AttsUse (P : Str → Prop) (ρ : Str → Str) (att : Dict Str) : Prop := ∀ kv ∈ att,
  (kv.1 = "xmlns".toList → ρ [] = [] ∨ kv.2 ≠ []) ∧
  (kv.1 ≠ "xmlns".toList → startsWith kv.1 "xmlns:".toList = true → P (kv.1.drop 6) ∧ isXmlName (kv.1.drop 6) = true) ∧
  (startsWith kv.1 "xmlns:".toList = false → P (prefixOf kv.1))

mutual
/-- the tree uses only these prefixes -/
def Uses (P : Str → Prop) (ρ : Str → Str) : Elem → Prop
  | .mk tag att _ ch => P (prefixOf tag) ∧ AttsUse P ρ att ∧ UsesList P ρ ch
def UsesList (P : Str → Prop) (ρ : Str → Str) : List Elem → Prop
  | [] => True
  | e :: t => Uses P ρ e ∧ UsesList P ρ t
end

end Resync.Spec

namespace Resync
open Py Resync.Spec

/-- the namespaces in force, under the old and the new prefixes -/
structure EnvSame (P : Str → Prop) (ρ : Str → Str) (env env' : NsEnv) : Prop where
  same : ∀ p, P p → dget env' (ρ p) = dget env p
  bound : ρ [] = [] ∨ (dget env []).isSome = true

theorem xmlName_colon {s : Str} (h : isXmlName s = true) : ':' ∉ s := by
  intro hc
  cases s with
  | nil => cases hc
  | cons c t =>
    simp only [isXmlName, Bool.and_eq_true, List.all_eq_true] at h
    rcases List.mem_cons.mp hc with h' | h'
    · rw [← h'] at h; exact absurd h.1 (by decide)
    · exact absurd (h.2 _ h') (by decide)

theorem renaming_colon {P : Str → Prop} {ρ : Str → Str} (hρ : Renaming P ρ) {p : Str} (hp : P p) : ':' ∉ ρ p := by
  by_cases h : p = []
  · subst h
    rcases hρ.default with h | h
    · rw [h]; simp
    · exact xmlName_colon h
  · exact xmlName_colon (hρ.name p hp h)

theorem split1_mem {c : Char} {s : Str} : (split1 c s).2.isSome = true ↔ c ∈ s := by
  induction s with
  | nil => simp [split1]
  | cons x xs ih =>
    simp only [split1]
    by_cases h : x = c
    · simp [h]
    · simp only [h, if_false, ih, List.mem_cons]
      constructor
      · exact .inr
      · rintro (h' | h')
        · exact absurd h'.symm h
        · exact h'

theorem resolveTag_rename {P : Str → Prop} {ρ : Str → Str} (hρ : Renaming P ρ) {env env' : NsEnv} (he : EnvSame P ρ env env') {tag : Str}
    (ht : P (prefixOf tag)) : resolveTag env' (renameTag ρ tag) = resolveTag env tag := by
  unfold renameTag
  unfold prefixOf at ht
  rcases hs : split1 ':' tag with ⟨p, _ | l⟩
  · rw [hs] at ht
    have hp := split1_fst_none hs
    subst hp
    have hc : ':' ∉ p := by
      rw [← split1_mem, hs]; simp
    by_cases h0 : ρ [] = []
    · simp only [h0, if_true]
      unfold resolveTag
      rw [hs]
      have := he.same [] ht
      rw [h0] at this
      simp only [this]
    · simp only [h0, if_false]
      unfold resolveTag
      rw [hs, split1_append (renaming_colon hρ ht)]
      simp only [he.same [] ht]
      have hb := he.bound.resolve_left h0
      rw [Option.isSome_iff_exists] at hb
      obtain ⟨ns, hns⟩ := hb
      simp [hns]
  · rw [hs] at ht
    simp only at ht ⊢
    unfold resolveTag
    rw [hs, split1_append (renaming_colon hρ ht)]
    simp only [he.same p ht]

theorem startsWith_xmlns_iff (k : Str) : startsWith k "xmlns:".toList = true ↔ k = "xmlns:".toList ++ k.drop 6 := by
  unfold startsWith
  rw [List.isPrefixOf_iff_prefix]
  constructor
  · rintro ⟨t, rfl⟩; rfl
  · intro h; exact ⟨_, h.symm⟩

theorem startsWith_xmlns_append (p : Str) : startsWith ("xmlns:".toList ++ p) "xmlns:".toList = true := by
  rw [startsWith_xmlns_iff]; rfl

/-- a prefixed name that is a declaration has the prefix xmlns -/
theorem prefixed_xmlns {p l : Str} (hp : ':' ∉ p) (h : isXmlnsAtt (p ++ ':' :: l) = true) : p = "xmlns".toList := by
  unfold isXmlnsAtt at h
  rw [Bool.or_eq_true, decide_eq_true_eq] at h
  rcases h with h | h
  · have : ':' ∈ sXmlns := by rw [← h]; simp
    exact absurd this (by decide)
  · rw [startsWith_xmlns_iff] at h
    have h1 := split1_append (b := l) hp
    rw [h] at h1
    have h2 : split1 ':' ("xmlns:".toList ++ (p ++ ':' :: l).drop 6) = ("xmlns".toList, some ((p ++ ':' :: l).drop 6)) :=
      split1_append (a := "xmlns".toList) (by decide)
    rw [h2] at h1
    exact (Prod.mk.inj h1).1.symm

theorem declare_nil (env : NsEnv) : declare env [] = env := rfl

def declStep (env : NsEnv) (kv : Str × Str) : NsEnv :=
  if kv.1 = sXmlns then dset env [] kv.2 else if startsWith kv.1 "xmlns:".toList then dset env (kv.1.drop 6) kv.2 else env

theorem declare_cons (env : NsEnv) (kv : Str × Str) (t : Dict Str) : declare env (kv :: t) = declare (declStep env kv) t := rfl

theorem renameAtt_def (ρ : Str → Str) (k : Str) : renameAtt ρ k =
    if k = sXmlns then (if ρ [] = [] then k else "xmlns:".toList ++ ρ [])
    else if startsWith k "xmlns:".toList then "xmlns:".toList ++ ρ (k.drop 6)
    else match split1 ':' k with
      | (l, none) => l
      | (p, some l) => ρ p ++ ':' :: l := rfl

/-- what an attribute becomes -/
theorem renameAtt_cases {P : Str → Prop} {ρ : Str → Str} (hρ : Renaming P ρ) {kv : Str × Str} {att : Dict Str} (hatt : AttsUse P ρ att) (hkv : kv ∈ att) :
    (kv.1 = sXmlns ∧ (ρ [] = [] ∧ renameAtt ρ kv.1 = sXmlns ∨
        ρ [] ≠ [] ∧ kv.2 ≠ [] ∧ renameAtt ρ kv.1 = "xmlns:".toList ++ ρ [])) ∨
    (∃ p, kv.1 = "xmlns:".toList ++ p ∧ P p ∧ isXmlName p = true ∧ renameAtt ρ kv.1 = "xmlns:".toList ++ ρ p) ∨
    (isXmlnsAtt kv.1 = false ∧ split1 ':' kv.1 = (kv.1, none) ∧ renameAtt ρ kv.1 = kv.1) ∨
    (∃ p l, isXmlnsAtt kv.1 = false ∧ split1 ':' kv.1 = (p, some l) ∧ P p ∧ renameAtt ρ kv.1 = ρ p ++ ':' :: l ∧
      isXmlnsAtt (renameAtt ρ kv.1) = false ∧ split1 ':' (renameAtt ρ kv.1) = (ρ p, some l)) := by
  obtain ⟨h1, h2, h3⟩ := hatt kv hkv
  by_cases hx : kv.1 = sXmlns
  · left
    refine ⟨hx, ?_⟩
    by_cases h0 : ρ [] = []
    · left; exact ⟨h0, by rw [renameAtt_def, hx, if_pos rfl, if_pos h0]⟩
    · right; exact ⟨h0, (h1 hx).resolve_left h0, by rw [renameAtt_def, hx, if_pos rfl, if_neg h0]⟩
  · right
    cases hs : startsWith kv.1 "xmlns:".toList with
    | true =>
      left
      obtain ⟨ha, hb⟩ := h2 hx hs
      refine ⟨kv.1.drop 6, (startsWith_xmlns_iff _).mp hs, ha, hb, ?_⟩
      rw [renameAtt_def, if_neg hx, if_pos hs]
    | false =>
      right
      have hno : isXmlnsAtt kv.1 = false := by
        unfold isXmlnsAtt
        rw [hs, Bool.or_false, decide_eq_false hx]
      have ha := h3 hs
      have hr : renameAtt ρ kv.1 = (match split1 ':' kv.1 with | (l, none) => l | (p, some l) => ρ p ++ ':' :: l) := by
        rw [renameAtt_def, if_neg hx, if_neg (by rw [hs]; simp)]
      rcases hsp : split1 ':' kv.1 with ⟨p, _ | l⟩
      · left
        have hp := split1_fst_none hsp
        rw [hsp] at hr
        exact ⟨hno, by rw [hp], by rw [hr]; exact hp⟩
      · right
        rw [hsp] at hr
        unfold prefixOf at ha
        rw [hsp] at ha
        simp only at ha hr
        refine ⟨p, l, hno, rfl, ha, hr, ?_, ?_⟩
        · rw [hr]
          cases hh : isXmlnsAtt (ρ p ++ ':' :: l) with
          | false => rfl
          | true =>
            exfalso
            have e1 := prefixed_xmlns (renaming_colon hρ ha) hh
            rw [← hρ.xmlns] at e1
            have e2 := hρ.inj _ _ ha hρ.used.2.2 e1
            have e3 := split1_some_eq hsp
            rw [e3, e2] at hs
            exact absurd (startsWith_xmlns_append l) (by
              rw [show "xmlns:".toList ++ l = "xmlns".toList ++ ':' :: l from rfl, hs]; simp)
        · rw [hr]; exact split1_append (renaming_colon hρ ha)

/-- the namespaces in force, without the default namespace being bound -/
def NamesSame (P : Str → Prop) (ρ : Str → Str) (env env' : NsEnv) : Prop := ∀ p, P p → dget env' (ρ p) = dget env p

theorem declStep_same {P : Str → Prop} {ρ : Str → Str} (hρ : Renaming P ρ) {att : Dict Str} (hatt : AttsUse P ρ att) {kv : Str × Str} (hkv : kv ∈ att)
    {env env' : NsEnv} (he : NamesSame P ρ env env') :
    NamesSame P ρ (declStep env kv) (declStep env' (renameAtt ρ kv.1, kv.2)) := by
  have put : ∀ q v, P q → NamesSame P ρ (dset env q v) (dset env' (ρ q) v) := by
    intro q v hq p hp
    rw [dget_dset, dget_dset]
    by_cases h : p = q
    · subst h; simp
    · have h' : ρ p ≠ ρ q := fun e => h (hρ.inj _ _ hp hq e)
      simp only [if_false, he p hp, Ne.symm h, Ne.symm h']
  rcases renameAtt_cases hρ hatt hkv with ⟨h1, ⟨h0, h2⟩ | ⟨h0, h3, h2⟩⟩ | ⟨p, h1, hp, hn, h2⟩ | ⟨h1, hsp, h2⟩ | ⟨p, l, h1, hsp, hp, h2, h3, h4⟩
  · have := put [] kv.2 hρ.used.1
    rw [h0] at this
    show NamesSame P ρ (declStep env (kv.1, kv.2)) _
    rw [h2, h1]
    exact this
  · have hne : "xmlns:".toList ++ ρ [] ≠ sXmlns := by
      intro h
      have : ':' ∈ sXmlns := by rw [← h]; simp
      exact absurd this (by decide)
    have := put [] kv.2 hρ.used.1
    show NamesSame P ρ (declStep env (kv.1, kv.2)) _
    rw [h2, h1]
    have e : declStep env' ("xmlns:".toList ++ ρ [], kv.2) = dset env' (ρ []) kv.2 := by
      unfold declStep
      rw [if_neg hne, if_pos (startsWith_xmlns_append _)]
      rfl
    rw [e]
    exact this
  · have hne : ∀ x, "xmlns:".toList ++ x ≠ sXmlns := by
      intro x h
      have : ':' ∈ sXmlns := by rw [← h]; simp
      exact absurd this (by decide)
    have := put p kv.2 hp
    have e : ∀ env x, declStep env ("xmlns:".toList ++ x, kv.2) = dset env x kv.2 := by
      intro env x
      unfold declStep
      rw [if_neg (hne x), if_pos (startsWith_xmlns_append _)]
      rfl
    show NamesSame P ρ (declStep env (kv.1, kv.2)) _
    rw [h2, h1, e, e]
    exact this
  · have hk : ∀ e, declStep e (kv.1, kv.2) = e := by
      intro e
      unfold isXmlnsAtt at h1
      rw [Bool.or_eq_false_iff, decide_eq_false_iff_not] at h1
      unfold declStep
      simp only [h1.1, h1.2, if_false, Bool.false_eq_true]
    rw [h2]
    show NamesSame P ρ (declStep env (kv.1, kv.2)) _
    rw [hk, hk]
    exact he
  · have hk : ∀ e k, isXmlnsAtt k = false → declStep e (k, kv.2) = e := by
      intro e k h1
      unfold isXmlnsAtt at h1
      rw [Bool.or_eq_false_iff, decide_eq_false_iff_not] at h1
      unfold declStep
      simp only [h1.1, h1.2, if_false, Bool.false_eq_true]
    show NamesSame P ρ (declStep env (kv.1, kv.2)) _
    rw [hk _ _ h1, hk _ _ h3]
    exact he

theorem declare_names {P : Str → Prop} {ρ : Str → Str} (hρ : Renaming P ρ) {all : Dict Str} (hatt : AttsUse P ρ all) (att : Dict Str)
    (hsub : ∀ kv ∈ att, kv ∈ all) : ∀ {env env' : NsEnv}, NamesSame P ρ env env' →
    NamesSame P ρ (declare env att) (declare env' (att.map (fun kv => (renameAtt ρ kv.1, kv.2)))) := by
  induction att with
  | nil => intro env env' he; exact he
  | cons kv t ih =>
    intro env env' he
    rw [List.map_cons, declare_cons, declare_cons]
    exact ih (fun x hx => hsub x (by simp [hx])) (declStep_same hρ hatt (hsub kv (by simp)) he)

theorem declare_keeps (att : Dict Str) (p : Str) : ∀ env : NsEnv, (dget env p).isSome = true → (dget (declare env att) p).isSome = true := by
  induction att with
  | nil => intro env h; exact h
  | cons kv t ih =>
    intro env h
    rw [declare_cons]
    apply ih
    unfold declStep
    split
    · rw [dget_dset]; split <;> simp [h]
    · split
      · rw [dget_dset]; split <;> simp [h]
      · exact h

theorem declare_default (att : Dict Str) (h : sXmlns ∈ dkeys att) : ∀ env : NsEnv, (dget (declare env att) []).isSome = true := by
  induction att with
  | nil => cases h
  | cons kv t ih =>
    intro env
    rw [declare_cons]
    simp only [dkeys, List.map_cons, List.mem_cons] at h
    rcases h with h | h
    · apply declare_keeps
      unfold declStep
      rw [if_pos h.symm, dget_dset_self]
      rfl
    · exact ih h _

theorem declOk_rename {P : Str → Prop} {ρ : Str → Str} (hρ : Renaming P ρ) {p v : Str} (hp : P p) (hn : isXmlName p = true) :
    declOk ("xmlns:".toList ++ ρ p) v = declOk ("xmlns:".toList ++ p) v := by
  have hne : ∀ x, "xmlns:".toList ++ x ≠ sXmlns := by
    intro x h
    have : ':' ∈ sXmlns := by rw [← h]; simp
    exact absurd this (by decide)
  have hp0 : p ≠ [] := by rintro rfl; cases hn
  have e1 : (ρ p != "xml".toList) = (p != "xml".toList) := by
    rw [Bool.eq_iff_iff, bne_iff_ne, bne_iff_ne]
    exact not_congr ⟨fun h => hρ.inj _ _ hp hρ.used.2.1 (h.trans hρ.xml.symm), fun h => by rw [h]; exact hρ.xml⟩
  have e2 : (ρ p != sXmlns) = (p != sXmlns) := by
    rw [Bool.eq_iff_iff, bne_iff_ne, bne_iff_ne]
    exact not_congr ⟨fun h => hρ.inj _ _ hp hρ.used.2.2 (h.trans hρ.xmlns.symm), fun h => by rw [h]; exact hρ.xmlns⟩
  unfold declOk
  rw [decide_eq_false (hne _), decide_eq_false (hne _)]
  show (_ && (false || (_ && isXmlName (ρ p) && _ && _))) = (_ && (false || (_ && isXmlName p && _ && _)))
  rw [hρ.name p hp hp0, hn]
  show (_ && (false || (_ && true && (ρ p != "xml".toList) && (ρ p != sXmlns)))) = (_ && (false || (_ && true && (p != "xml".toList) && (p != sXmlns))))
  rw [e1, e2]

theorem resolveAtts_rename {P : Str → Prop} {ρ : Str → Str} (hρ : Renaming P ρ) {env env' : NsEnv} (he : NamesSame P ρ env env') {all : Dict Str}
    (hatt : AttsUse P ρ all) (att : Dict Str) (hsub : ∀ kv ∈ att, kv ∈ all) :
    resolveAtts env' (att.map (fun kv => (renameAtt ρ kv.1, kv.2))) = resolveAtts env att := by
  induction att with
  | nil => rfl
  | cons kv t ih =>
    have ih := ih (fun x hx => hsub x (by simp [hx]))
    obtain ⟨k, v⟩ := kv
    rw [List.map_cons, resolveAtts, resolveAtts, ih]
    rcases renameAtt_cases hρ hatt (hsub (k, v) (by simp)) with ⟨h1, ⟨h0, h2⟩ | ⟨h0, h3, h2⟩⟩ | ⟨p, h1, hp, hn, h2⟩ | ⟨h1, hsp, h2⟩ | ⟨p, l, h1, hsp, hp, h2, h3, h4⟩
    · simp only at h1 h2
      rw [h2, h1, show isXmlnsAtt sXmlns = true by decide, if_pos rfl, if_pos rfl]
    · simp only at h1 h2 h3
      have x1 : isXmlnsAtt ("xmlns:".toList ++ ρ []) = true := by
        unfold isXmlnsAtt; rw [startsWith_xmlns_append, Bool.or_true]
      have x2 : isXmlnsAtt sXmlns = true := by decide
      have hne : "xmlns:".toList ++ ρ [] ≠ sXmlns := by
        intro h
        have : ':' ∈ sXmlns := by rw [← h]; simp
        exact absurd this (by decide)
      have hn := hρ.default.resolve_left h0
      have n1 : ρ [] ≠ "xml".toList := fun h => absurd (hρ.inj _ _ hρ.used.1 hρ.used.2.1 (h.trans hρ.xml.symm)) (by decide)
      have n2 : ρ [] ≠ sXmlns := fun h => absurd (hρ.inj _ _ hρ.used.1 hρ.used.2.2 (h.trans hρ.xmlns.symm)) (by decide)
      have d : declOk ("xmlns:".toList ++ ρ []) v = declOk sXmlns v := by
        unfold declOk
        rw [decide_eq_false hne, decide_eq_true (rfl : sXmlns = sXmlns)]
        show (_ && (false || (_ && isXmlName (ρ []) && (ρ [] != _) && (ρ [] != _)))) = _
        rw [hn, bne_iff_ne.mpr h3, bne_iff_ne.mpr n1, bne_iff_ne.mpr n2]
        simp
      rw [h2, h1, x1, x2, d, if_pos rfl, if_pos rfl]
    · simp only at h1 h2
      have x1 : ∀ x, isXmlnsAtt ("xmlns:".toList ++ x) = true := by
        intro x; unfold isXmlnsAtt; rw [startsWith_xmlns_append, Bool.or_true]
      rw [h2, h1, x1, x1, declOk_rename hρ hp hn, if_pos rfl, if_pos rfl]
    · simp only at h1 h2 hsp
      rw [h2, h1, hsp]
    · simp only at h1 h2 hsp h3 h4
      rw [h1, h3, hsp, h4]
      simp only [he p hp, Bool.false_eq_true, if_false]

mutual
theorem resolveElem_rename {P : Str → Prop} {ρ : Str → Str} (hρ : Renaming P ρ) {env env' : NsEnv} (he : EnvSame P ρ env env') :
    ∀ t : Elem, Uses P ρ t → resolveElem env' (rename ρ t) = resolveElem env t
  | .mk tag att text ch, h => by
    obtain ⟨h1, h3, h4⟩ := h
    have hd : EnvSame P ρ (declare env att) (declare env' (att.map (fun kv => (renameAtt ρ kv.1, kv.2)))) :=
      ⟨declare_names hρ h3 att (fun _ h => h) he.same, he.bound.imp id (declare_keeps att [] env)⟩
    rw [rename, resolveElem, resolveElem, resolveTag_rename hρ hd h1, resolveAtts_rename hρ hd.same h3 att (fun _ h => h),
      resolveList_rename hρ hd ch h4]
theorem resolveList_rename {P : Str → Prop} {ρ : Str → Str} (hρ : Renaming P ρ) {env env' : NsEnv} (he : EnvSame P ρ env env') :
    ∀ ts : List Elem, UsesList P ρ ts → resolveList env' (renameList ρ ts) = resolveList env ts
  | [], _ => rfl
  | e :: t, h => by
    rw [renameList, resolveList, resolveList, resolveElem_rename hρ he e h.1, resolveList_rename hρ he t h.2]
end

/-- Two texts that are the same but for the prefixes (`b`'s tree of names is that of `a` with other prefixes) give the same tree, hence
the same result of reading, or the same failure. -/
theorem C103_prefixes {σ : Type} (s : Sitemap) (add : σ → Resource → Except SmErr σ) (c : Cont σ) (a b : Str) (P : Str → Prop) (ρ : Str → Str)
    (hρ : Renaming P ρ) (t : Elem) (ha : readRaw a = some t) (hb : readRaw b = some (rename ρ t)) (ht : Uses P ρ t)
    (hroot : ρ [] = [] ∨ "xmlns".toList ∈ dkeys t.attrib) (capability : Option Str) (sitemapindex : Option Bool) :
    parseText s add c b capability sitemapindex = parseText s add c a capability sitemapindex := by
  have hx : readXml b = readXml a := by
    unfold readXml
    rw [ha, hb, Option.bind_some, Option.bind_some]
    obtain ⟨tag, att, text, ch⟩ := t
    obtain ⟨h1, h3, h4⟩ := ht
    have hn : NamesSame P ρ [("xml".toList, "http://www.w3.org/XML/1998/namespace".toList)]
        [("xml".toList, "http://www.w3.org/XML/1998/namespace".toList)] := by
      intro p hp
      have : ("xml".toList = ρ p) ↔ ("xml".toList = p) := by
        constructor
        · intro h; exact hρ.inj _ _ hρ.used.2.1 hp (hρ.xml.trans h)
        · rintro rfl; exact hρ.xml.symm
      by_cases h : "xml".toList = p
      · show (if "xml".toList = ρ p then _ else dget [] (ρ p)) = (if "xml".toList = p then _ else dget [] p)
        rw [if_pos h, if_pos (this.mpr h)]
      · show (if "xml".toList = ρ p then _ else dget [] (ρ p)) = (if "xml".toList = p then _ else dget [] p)
        rw [if_neg h, if_neg (fun e => h (this.mp e))]; rfl
    have hd : EnvSame P ρ (declare [("xml".toList, "http://www.w3.org/XML/1998/namespace".toList)] att)
        (declare [("xml".toList, "http://www.w3.org/XML/1998/namespace".toList)] (att.map (fun kv => (renameAtt ρ kv.1, kv.2)))) :=
      ⟨declare_names hρ h3 att (fun _ h => h) hn, hroot.imp id (fun h => declare_default att h _)⟩
    rw [rename, resolveElem, resolveElem, resolveTag_rename hρ hd h1, resolveAtts_rename hρ hd.same h3 att (fun _ h => h),
      resolveList_rename hρ hd ch h4]
  unfold parseText
  rw [hx]

/-! The hypotheses are met: the same document with `rs` and the default namespace, and with `resync` and `sm` -/

namespace PrefixExample

def a : Str := "<urlset xmlns=\"http://www.sitemaps.org/schemas/sitemap/0.9\" xmlns:rs=\"http://www.openarchives.org/rs/terms/\"><rs:md capability=\"resourcelist\"/><url><loc>http://a.org/1</loc><rs:md length=\"5\"/></url></urlset>".toList
def b : Str := "<?xml version='1.0'?>\n<!-- same --><sm:urlset xmlns:sm='http://www.sitemaps.org/schemas/sitemap/0.9' xmlns:resync='http://www.openarchives.org/rs/terms/'><resync:md capability='resourcelist'></resync:md><sm:url><sm:loc>http:&#47;/a.org/1</sm:loc><resync:md length='5' /></sm:url></sm:urlset>".toList
def ρ (p : Str) : Str := if p = [] then "sm".toList else if p = "rs".toList then "resync".toList else p
def P (p : Str) : Prop := p ∈ [[], "rs".toList, "xml".toList, "xmlns".toList]
def t : Elem := .mk "urlset".toList [("xmlns".toList, "http://www.sitemaps.org/schemas/sitemap/0.9".toList), ("xmlns:rs".toList, "http://www.openarchives.org/rs/terms/".toList)] none
  [.mk "rs:md".toList [("capability".toList, "resourcelist".toList)] none [],
   .mk "url".toList [] none [.mk "loc".toList [] (some "http://a.org/1".toList) [], .mk "rs:md".toList [("length".toList, "5".toList)] none []]]

mutual
def same : Elem → Elem → Bool
  | .mk t a x c, .mk t' a' x' c' => t == t' && a == a' && x == x' && sameList c c'
def sameList : List Elem → List Elem → Bool
  | [], [] => true
  | a :: s, b :: t => same a b && sameList s t
  | _, _ => false
end

mutual
theorem same_eq : ∀ a b : Elem, same a b = true → a = b
  | .mk t a x c, .mk t' a' x' c', h => by
    simp only [same, Bool.and_eq_true, beq_iff_eq] at h
    obtain ⟨⟨⟨rfl, rfl⟩, rfl⟩, h⟩ := h
    rw [sameList_eq c c' h]
theorem sameList_eq : ∀ a b : List Elem, sameList a b = true → a = b
  | [], [], _ => rfl
  | a :: s, b :: t, h => by
    simp only [sameList, Bool.and_eq_true] at h
    rw [same_eq a b h.1, sameList_eq s t h.2]
  | [], _ :: _, h => by cases h
  | _ :: _, [], h => by cases h
end

theorem reads_eq {x : Option Elem} {t : Elem} (h : (match x with | none => false | some e => same e t) = true) : x = some t := by
  cases x with
  | none => cases h
  | some e => rw [same_eq e t h]

example : Renaming P ρ where
  inj := by
    have h : ∀ p ∈ [[], "rs".toList, "xml".toList, "xmlns".toList], ∀ q ∈ [[], "rs".toList, "xml".toList, "xmlns".toList], ρ p = ρ q → p = q := by decide
    exact fun p q hp hq => h p hp q hq
  name := by
    have h : ∀ p ∈ [[], "rs".toList, "xml".toList, "xmlns".toList], p ≠ [] → isXmlName (ρ p) = true := by decide
    exact h
  default := .inr (by decide)
  used := ⟨by unfold P; decide, by unfold P; decide, by unfold P; decide⟩
  xml := by decide
  xmlns := by decide

example : readRaw a = some t := reads_eq (by decide +kernel)
example : readRaw b = some (rename ρ t) := reads_eq (by decide +kernel)
example : Uses P ρ t := by
  simp only [Uses, UsesList, t, AttsUse, P]
  refine ⟨by decide, by decide, ⟨by decide, by decide, trivial⟩, ⟨by decide, by decide, ⟨by decide, by decide, trivial⟩,
    ⟨by decide, by decide, trivial⟩, trivial⟩, trivial⟩
example : ρ [] = [] ∨ "xmlns".toList ∈ dkeys t.attrib := by decide

end PrefixExample

end Resync
