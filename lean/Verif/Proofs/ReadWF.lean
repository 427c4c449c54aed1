import Verif.Model.Discovery
import Verif.Proofs.ResourceList
import Verif.Proofs.SitemapDoc
/-
Lists read from documents are keyed by URI.
-/

namespace Resync
open Py

theorem rlAdd_WF {d d' : Dict Resource} {r : Resource} (hd : WF d) (h : rlAdd d r = .ok d') : WF d' := by
  unfold rlAdd dictAdd at h
  by_cases hc : (dget d r.uri).isSome = true ∧ ¬ (false = true)
  · rw [if_pos hc] at h; cases h
  · rw [if_neg hc] at h; cases h; exact WF_dset hd r

theorem parseStep_inv {σ : Type} (P : σ → Prop) {s : Sitemap} {add : σ → Resource → Except SmErr σ}
    (hadd : ∀ x r y, P x → add x r = .ok y → P y) {tag : Str} {st st' : ParseSt σ} {e : Elem}
    (h0 : P st.cont.resources) (h : parseStep s add tag st e = .ok st') : P st'.cont.resources := by
  unfold parseStep at h
  by_cases h1 : e.tag = tag
  · rw [if_pos h1, bind_ok_iff] at h
    obtain ⟨r, -, h⟩ := h
    rw [bind_ok_iff] at h
    obtain ⟨rs, h2, h⟩ := h
    cases h
    exact hadd _ _ _ h0 h2
  · rw [if_neg h1] at h
    by_cases h2 : e.tag = rsTag "md"
    · rw [if_pos h2] at h
      by_cases h3 : st.in_preamble
      · rw [if_pos h3] at h
        by_cases h4 : st.seen_md
        · rw [if_pos h4] at h; cases h
        · rw [if_neg h4, bind_ok_iff] at h
          obtain ⟨md, -, h⟩ := h
          cases h; exact h0
      · rw [if_neg h3] at h; cases h
    · rw [if_neg h2] at h
      by_cases h3 : e.tag = rsTag "ln"
      · rw [if_pos h3] at h
        by_cases h4 : st.in_preamble
        · rw [if_pos h4, bind_ok_iff] at h
          obtain ⟨l, -, h⟩ := h
          cases h; exact h0
        · rw [if_neg h4] at h; cases h
      · rw [if_neg h3] at h; cases h; exact h0

theorem parseLoop_inv {σ : Type} (P : σ → Prop) {s : Sitemap} {add : σ → Resource → Except SmErr σ}
    (hadd : ∀ x r y, P x → add x r = .ok y → P y) {tag : Str} (es : List Elem) : ∀ {st st' : ParseSt σ},
    P st.cont.resources → parseLoop s add tag es st = .ok st' → P st'.cont.resources := by
  induction es with
  | nil => intro st st' h0 h; simp only [parseLoop] at h; cases h; exact h0
  | cons e t ih =>
    intro st st' h0 h
    simp only [parseLoop] at h
    rw [bind_ok_iff] at h
    obtain ⟨st1, h1, h2⟩ := h
    exact ih (parseStep_inv P hadd h0 h1) h2

theorem parseXml_inv {σ : Type} (P : σ → Prop) {s : Sitemap} {add : σ → Resource → Except SmErr σ}
    (hadd : ∀ x r y, P x → add x r = .ok y → P y) {c c' : Cont σ} {root : Elem} {cap : Option Str} {si : Option Bool}
    {b : Bool} {n : Nat} (h0 : P c.resources) (h : parseXml s add c root cap si = .ok (c', b, n)) : P c'.resources := by
  unfold parseXml at h
  rw [bind_ok_iff] at h
  obtain ⟨pi, -, h⟩ := h
  simp only [bind_ok_iff] at h
  obtain ⟨st, h2, md, -, h⟩ := h
  cases h
  exact parseLoop_inv P hadd _ h0 h2

theorem readPlain_WF {docAt : Str → Option Elem} {cap uri : Str} {d : Dict Resource} (h : readPlain docAt cap uri = some d) :
    WF d := by
  unfold readPlain at h
  cases h1 : docAt uri with
  | none => rw [h1] at h; cases h
  | some root =>
    rw [h1] at h
    simp only at h
    split at h
    · rename_i c b n he
      cases h
      exact parseXml_inv WF (fun _ _ _ => rlAdd_WF) WF_nil he
    · cases h

theorem readDescription_WF {docAt : Str → Option Elem} {uri : Str} {d : Dict Resource}
    (h : readDescription docAt uri = some d) : WF d := by
  unfold readDescription at h
  cases h1 : docAt uri with
  | none => rw [h1] at h; cases h
  | some root =>
    rw [h1] at h
    simp only at h
    split at h
    · rename_i c b n he
      split at h
      · cases h
      · cases h
        exact parseXml_inv WF (fun _ _ _ => rlAdd_WF) WF_nil he
    · cases h

theorem liftSm_ok {α : Type} {x : Except SmErr α} {a : α} (h : liftSm x = .ok a) : x = .ok a := by
  cases x <;> simp [liftSm] at h ⊢
  exact h

theorem foldlM_inv {ε α β : Type} (P : β → Prop) (f : β → α → Except ε β) (hf : ∀ b a b', P b → f b a = .ok b' → P b')
    (l : List α) : ∀ {b b'}, P b → l.foldlM f b = .ok b' → P b' := by
  induction l with
  | nil => intro b b' h0 h; cases h; exact h0
  | cons a t ih =>
    intro b b' h0 h
    rw [List.foldlM_cons, bind_ok_iff] at h
    obtain ⟨b1, h1, h2⟩ := h
    exact ih (hf _ _ _ h0 h1) h2

theorem readList_WF {cfg : ReadCfg} {uri : Str} {c' : Cont (Dict Resource)} {c : Cont (Dict Resource)} (h0 : WF c.resources)
    {index_only : Bool} (h : readList cfg c uri index_only = .ok c') : WF c'.resources := by
  unfold readList at h
  cases h1 : cfg.docAt uri with
  | none => rw [h1] at h; cases h
  | some root =>
    rw [h1] at h
    simp only [bind_ok_iff] at h
    obtain ⟨⟨c1, b, n⟩, h2, h⟩ := h
    have hw := parseXml_inv WF (fun _ _ _ => rlAdd_WF) h0 (liftSm_ok h2)
    simp only at h
    by_cases hb : b = true
    · rw [if_pos hb] at h
      by_cases hm : ¬ cfg.allow_multifile = true
      · rw [if_pos hm] at h; cases h
      · rw [if_neg hm] at h
        by_cases hi : index_only = true
        · rw [if_pos hi] at h; cases h; exact hw
        rw [if_neg hi, bind_ok_iff] at h
        obtain ⟨d, h3, h⟩ := h
        cases h
        refine foldlM_inv WF _ ?_ _ WF_nil h3
        intro d0 u d1 hd0 hd1
        unfold readComponent at hd1
        rw [bind_ok_iff] at hd1
        obtain ⟨loc, -, hd1⟩ := hd1
        cases hloc : cfg.docAt loc with
        | none => rw [hloc] at hd1; cases hd1
        | some root' =>
          rw [hloc] at hd1
          simp only [bind_ok_iff] at hd1
          obtain ⟨x, -, hd1⟩ := hd1
          exact foldlM_inv WF _ (fun b a b' hb h => rlAdd_WF hb (liftSm_ok h)) _ hd0 hd1
    · rw [if_neg hb] at h; cases h; exact hw

/-- Resource lists from a collection of XML documents are keyed by URI -/
theorem ofDocs_list_WF {docAt : Str → Option Elem} {m : Mapper} {am : Bool} {uw : Char → Bool} {u : Str} {d : Dict Resource}
    (h : (Sources.ofDocs docAt m am uw).resourceList u = some d) : WF d := by
  unfold Sources.ofDocs at h
  simp only at h
  split at h
  · rename_i c hc
    cases h
    exact readList_WF WF_nil hc
  · cases h

end Resync
