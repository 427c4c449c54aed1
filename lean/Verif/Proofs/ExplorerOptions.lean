import Verif.Proofs.Explorer
/-
Lemmas about the options the explorer offers.
-/

namespace Resync
open Py Resync.Spec

theorem natStr_inj {a b : Nat} (h : natStr a = natStr b) : a = b := by
  rw [← natStr_val a, ← natStr_val b, h]

theorem entryOption_spec {context : Str} {caps : List Str} {r r' : Resource} (h : entryOption context caps r = some r') :
    urljoin context r.uri = some r'.uri ∧ r'.timestamp = r.timestamp ∧ r'.length = r.length ∧ r'.mime_type = r.mime_type ∧
    (∀ c, r.capability = none → caps = [c] → r'.capability = some c) ∧
    (r.capability ≠ none ∨ caps.length ≠ 1 → r'.capability = r.capability) := by
  unfold entryOption at h
  cases hj : urljoin context r.uri with
  | none => rw [hj] at h; cases h
  | some full =>
    rw [hj] at h
    dsimp only at h
    cases hc : r.capability with
    | some c =>
      rw [hc] at h
      cases h
      exact ⟨rfl, rfl, rfl, rfl, fun _ h => by simp at h, fun _ => rfl⟩
    | none =>
      rw [hc] at h
      rcases caps with _ | ⟨c, _ | ⟨c', t⟩⟩
      · cases h
        exact ⟨rfl, rfl, rfl, rfl, fun _ _ h => by simp at h, fun _ => rfl⟩
      · cases h
        exact ⟨rfl, rfl, rfl, rfl, fun _ _ h => by simpa using h, fun h => by simp at h⟩
      · cases h
        exact ⟨rfl, rfl, rfl, rfl, fun _ _ h => by simp at h, fun _ => rfl⟩

/-- The options after the loop -/
theorem entryOptions_get {context : Str} {caps : List Str} : ∀ (rs : List Resource) (n : Nat) (o o' : Dict Resource),
    entryOptions context caps n rs o = some o' → ∀ key,
    (∀ k (hk : k < rs.length), key = natStr (n + k + 1) → ∃ r', dget o' key = some r' ∧ entryOption context caps rs[k] = some r') ∧
    ((∀ k, k < rs.length → key ≠ natStr (n + k + 1)) → dget o' key = dget o key) := by
  intro rs
  induction rs with
  | nil =>
    intro n o o' h key
    cases h
    exact ⟨fun k hk => absurd hk (by simp), fun _ => rfl⟩
  | cons r t ih =>
    intro n o o' h key
    rw [entryOptions] at h
    split at h
    · cases h
    · rename_i r1 hr1
      have := ih (n + 1) _ o' h key
      constructor
      · intro k hk hkey
        cases k with
        | zero =>
          rw [this.2, dget_dset, if_pos (by rw [hkey])]
          · exact ⟨r1, rfl, hr1⟩
          · intro k _ hne
            rw [hkey] at hne
            have := natStr_inj hne
            omega
        | succ k =>
          exact this.1 k (by simpa using hk) (by rw [hkey, show n + (k + 1) + 1 = n + 1 + k + 1 by omega])
      · intro hall
        rw [this.2, dget_dset_ne]
        · exact fun hne => hall 0 (by simp) hne.symm
        · intro k hk hne
          exact hall (k + 1) (by simpa using hk) (by rw [hne, show n + (k + 1) + 1 = n + 1 + k + 1 by omega])

theorem linkOption_spec {ln : List Link} {context rel key : Str} {cap : Option Str} {o o' : Dict Resource}
    (h : linkOption ln context rel key cap o = some o') :
    (∀ k, k ≠ key → dget o' k = dget o k) ∧
    (∀ l href, findLink ln rel = some l → dget l sHref = some href →
      ∃ full, urljoin context href = some full ∧ dget o' key = some { uri := full, capability := cap }) ∧
    ((∀ l href, findLink ln rel = some l → dget l sHref ≠ some href) → dget o' key = dget o key) := by
  unfold linkOption at h
  split at h
  · rename_i h1
    cases h
    exact ⟨fun _ _ => rfl, fun l href h2 => (by rw [h1] at h2; cases h2), fun _ => rfl⟩
  · rename_i l h1
    split at h
    · rename_i h2
      cases h
      refine ⟨fun _ _ => rfl, fun l href h3 h4 => ?_, fun _ => rfl⟩
      rw [h1] at h3; cases h3
      rw [h2] at h4; cases h4
    · rename_i uri h2
      split at h
      · cases h
      · rename_i full h3
        cases h
        refine ⟨fun k hk => dget_dset_ne _ _ (Ne.symm hk), fun l href h4 h5 => ?_, fun h4 => absurd h2 (h4 l uri h1)⟩
        rw [h1] at h4; cases h4
        rw [h2] at h5; cases h5
        exact ⟨full, h3, dget_dset_self _ _ _⟩

theorem verdict_spec {α : Type} (f : α → HeaderVal) (hf : ∀ a b, f a = f b → a = b) (a : α) (o : Option α) :
    (verdict (f a) (o.map f) = .noCheck ↔ o = none) ∧ (verdict (f a) (o.map f) = .matchesExpected ↔ o = some a) ∧
    (∀ x, verdict (f a) (o.map f) = .expected x ↔ ∃ b, x = f b ∧ o = some b ∧ b ≠ a) := by
  cases o with
  | none => simp [verdict]
  | some b =>
    by_cases e : f a = f b
    · have := hf a b e
      subst this
      simp [verdict]
    · have hne : b ≠ a := fun h => e (by rw [h])
      simp only [Option.map_some, verdict, if_neg e]
      refine ⟨by simp, by simp [hne], fun x => ?_⟩
      constructor
      · intro h; cases h; exact ⟨b, rfl, rfl, hne⟩
      · rintro ⟨b', rfl, h, -⟩; cases h; rfl

/-- display, opened up -/
theorem display_summary {w : ExpWorld} {n : Nat} {xr : XResource} {o : Dict Resource} {cap : Str}
    (h : display w n xr = .summary o cap) : ∃ root c index created, xr.caps ≠ some .resource ∧ w.docAt n xr.uri = some root ∧
      parseXml {} listAdd ({ resources := [] } : Cont (List Resource)) root none none = .ok (c, index, created) ∧
      showSummary c index xr.uri = some (o, cap) := by
  unfold display at h
  split at h
  · split at h <;> cases h
  · rename_i h1
    split at h
    · cases h
    · rename_i root h2
      split at h
      · cases h
      · rename_i c index created h3
        split at h
        · cases h
        · rename_i o' cap' h4
          cases h
          exact ⟨root, c, index, created, h1, h2, h3, h4⟩

theorem showSummary_steps {c : Cont (List Resource)} {index : Bool} {context : Str} {o : Dict Resource} {cap : Str}
    (h : showSummary c index context = some (o, cap)) : cap = summaryCapability c.md index ∧ ∃ o1 o2 o3,
      linkOption c.ln context "describedby".toList ['d'] (some "resource".toList) [] = some o1 ∧
      linkOption c.ln context "up".toList ['u'] none o1 = some o2 ∧
      linkOption c.ln context "index".toList ['i'] none o2 = some o3 ∧
      entryOptions context (allowedEntries cap) 0 (c.resources.take (toShow c.resources.length)) o3 = some o := by
  unfold showSummary at h
  dsimp only at h
  split at h
  · cases h
  · rename_i o1 h1
    split at h
    · cases h
    · rename_i o2 h2
      split at h
      · cases h
      · rename_i o3 h3
        split at h
        · cases h
        · rename_i o4 h4
          cases h
          exact ⟨rfl, o1, o2, o3, h1, h2, h3, h4⟩

end Resync
