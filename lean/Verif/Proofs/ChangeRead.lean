import Verif.Model.Scripts
import Verif.Proofs.ReadWF
/-
Reading a document into a change list (Model/Scripts, readChangeList) is reading it into a plain list, if every entry has
a change.
-/

namespace Resync
open Py

theorem parseStep_transfer {σ : Type} (P : σ → Prop) {s : Sitemap} {add add' : σ → Resource → Except SmErr σ}
    (hadd : ∀ x r y, add x r = .ok y → P y → add' x r = .ok y ∧ P x) {tag : Str} {e : Elem} {st st' : ParseSt σ}
    (h : parseStep s add tag st e = .ok st') (hP : P st'.cont.resources) :
    parseStep s add' tag st e = .ok st' ∧ P st.cont.resources := by
  unfold parseStep at h ⊢
  by_cases h1 : e.tag = tag
  · rw [if_pos h1] at h ⊢
    simp only [bind_ok_iff] at h ⊢
    obtain ⟨r, hr, rs, ha, h⟩ := h
    cases h
    exact ⟨⟨r, hr, rs, (hadd _ _ _ ha hP).1, rfl⟩, (hadd _ _ _ ha hP).2⟩
  · rw [if_neg h1] at h ⊢
    refine ⟨h, ?_⟩
    by_cases h2 : e.tag = rsTag "md"
    · rw [if_pos h2] at h
      by_cases h3 : st.in_preamble = true
      · rw [if_pos h3] at h
        by_cases h4 : st.seen_md = true
        · rw [if_pos h4] at h; cases h
        · rw [if_neg h4, bind_ok_iff] at h
          obtain ⟨l, -, h⟩ := h
          cases h; exact hP
      · rw [if_neg h3] at h; cases h
    · rw [if_neg h2] at h
      by_cases h3 : e.tag = rsTag "ln"
      · rw [if_pos h3] at h
        by_cases h4 : st.in_preamble = true
        · rw [if_pos h4, bind_ok_iff] at h
          obtain ⟨l, -, h⟩ := h
          cases h; exact hP
        · rw [if_neg h4] at h; cases h
      · rw [if_neg h3] at h; cases h; exact hP

theorem parseLoop_transfer {σ : Type} (P : σ → Prop) {s : Sitemap} {add add' : σ → Resource → Except SmErr σ}
    (hadd : ∀ x r y, add x r = .ok y → P y → add' x r = .ok y ∧ P x) {tag : Str} (es : List Elem) : ∀ {st st' : ParseSt σ},
    parseLoop s add tag es st = .ok st' → P st'.cont.resources →
    parseLoop s add' tag es st = .ok st' ∧ P st.cont.resources := by
  induction es with
  | nil => intro st st' h hP; simp only [parseLoop] at h ⊢; cases h; exact ⟨rfl, hP⟩
  | cons e t ih =>
    intro st st' h hP
    simp only [parseLoop, bind_ok_iff] at h ⊢
    obtain ⟨st1, h1, h2⟩ := h
    obtain ⟨k1, k2⟩ := ih h2 hP
    obtain ⟨k3, k4⟩ := parseStep_transfer P hadd h1 k2
    exact ⟨⟨st1, k3, k1⟩, k4⟩

theorem parseXml_transfer {σ : Type} (P : σ → Prop) {s : Sitemap} {add add' : σ → Resource → Except SmErr σ}
    (hadd : ∀ x r y, add x r = .ok y → P y → add' x r = .ok y ∧ P x) {c c' : Cont σ} {root : Elem} {cap : Option Str}
    {si : Option Bool} {b : Bool} {n : Nat} (h : parseXml s add c root cap si = .ok (c', b, n)) (hP : P c'.resources) :
    parseXml s add' c root cap si = .ok (c', b, n) := by
  unfold parseXml at h ⊢
  simp only [bind_ok_iff] at h ⊢
  obtain ⟨pi, h1, st, h2, md, h3, h⟩ := h
  cases h
  exact ⟨_, h1, st, (parseLoop_transfer P hadd _ h2 hP).1, md, h3, rfl⟩

/-- entries that all have a change -/
theorem readChangeList_ok {docAt : Str → Option Elem} {uri : Str} {doc : Elem} {l : Cont (List Resource)} {n : Nat}
    (hdoc : docAt uri = some doc)
    (h : parseXml {} listAdd { resources := [] } doc (some "changelist".toList) none = .ok (l, false, n))
    (hc : ∀ r ∈ l.resources, r.change.isSome) : readChangeList docAt uri = some l.resources := by
  have := parseXml_transfer (fun l => ∀ r ∈ l, r.change.isSome) (add' := clAdd) (by
    intro x r y hy hP
    unfold listAdd at hy
    cases hy
    refine ⟨?_, fun r hr => hP r (by simp [hr])⟩
    unfold clAdd
    rw [if_pos (hP r (by simp))]) h hc
  unfold readChangeList
  rw [hdoc]
  simp only [this]
  rfl

/-- an index is not read -/
theorem readChangeList_index {docAt : Str → Option Elem} {uri : Str} {doc : Elem} (hdoc : docAt uri = some doc)
    (h : doc.tag = smTag "sitemapindex") : readChangeList docAt uri = none := by
  unfold readChangeList
  rw [hdoc]
  simp only
  split
  · rename_i c b n he
    unfold parseXml at he
    simp only [bind_ok_iff] at he
    obtain ⟨pi, h1, st, -, md, -, he⟩ := he
    cases he
    unfold rootKind at h1
    rw [if_neg (by rw [h]; decide), if_pos h] at h1
    simp at h1
    subst h1; rfl
  · rfl

end Resync
