import Verif.Model.ListIndex
/-
C72: which URIs count as local files.
-/

namespace Resync
open Py

/-- the URI has a scheme of three or four word characters -/
def ShortScheme (uw : Char → Bool) (uri : Str) : Prop :=
  ∃ scheme rest, uri = scheme ++ ':' :: rest ∧ (scheme.length = 3 ∨ scheme.length = 4) ∧ ∀ c ∈ scheme, isWord uw c = true

theorem not_word_colon (uw : Char → Bool) : isWord uw ':' = false := by
  unfold isWord
  rw [if_pos (by decide)]; decide

theorem schemeMatch34_iff (uw : Char → Bool) (uri : Str) : schemeMatch34 uw uri = true ↔ ShortScheme uw uri := by
  constructor
  · intro h
    unfold schemeMatch34 at h
    split at h
    · rename_i a b c rest
      simp only [Bool.and_eq_true] at h
      exact ⟨[a, b, c], rest, rfl, .inl rfl, by simp [h]⟩
    · rename_i a b c d rest _
      simp only [Bool.and_eq_true] at h
      exact ⟨[a, b, c, d], rest, rfl, .inr rfl, by simp [h]⟩
    · cases h
  · rintro ⟨scheme, rest, rfl, hl, hw⟩
    rcases hl with hl | hl
    · match scheme, hl with
      | [a, b, c], _ => simp [schemeMatch34, hw]
    · match scheme, hl with
      | [a, b, c, d], _ =>
        have hd : d ≠ ':' := by
          rintro rfl
          have := hw ':' (by simp)
          rw [not_word_colon] at this; cases this
        unfold schemeMatch34
        split
        · rename_i heq
          simp only [List.cons_append, List.nil_append, List.cons.injEq] at heq
          exact absurd heq.2.2.2.1 hd
        · rename_i heq
          simp only [List.cons_append, List.nil_append, List.cons.injEq] at heq
          obtain ⟨rfl, rfl, rfl, rfl, -⟩ := heq
          simp [hw]
        · rename_i h1 h2
          exact absurd rfl (h2 a b c d rest)

/-- C72.  A URI counts as that of a local file exactly if it begins with file: or has no scheme of three or four letters, digits or
underscores.  So http, ftp and data count as remote; https, sftp+ssh and everything without a scheme as local. -/
theorem C72_local_file (uw : Char → Bool) (uri : Str) :
    isFileUri uw uri = true ↔ (∃ rest, uri = "file:".toList ++ rest) ∨ ¬ ShortScheme uw uri := by
  unfold isFileUri
  rw [Bool.or_eq_true, ← schemeMatch34_iff]
  constructor
  · rintro (h | h)
    · obtain ⟨t, ht⟩ := List.isPrefixOf_iff_prefix.mp h
      exact .inl ⟨t, ht.symm⟩
    · exact .inr (by intro h'; rw [h'] at h; cases h)
  · rintro (⟨t, rfl⟩ | h)
    · exact .inl (List.isPrefixOf_iff_prefix.mpr ⟨t, rfl⟩)
    · right
      cases h2 : schemeMatch34 uw uri with
      | true => exact absurd h2 h
      | false => rfl

example : ShortScheme (fun _ => false) "http://example.com/".toList ∧ ShortScheme (fun _ => false) "ftp:x".toList ∧
    isFileUri (fun _ => false) "https://example.com/".toList = true ∧ isFileUri (fun _ => false) "file:///d".toList = true :=
  ⟨⟨"http".toList, "//example.com/".toList, rfl, by decide, by decide⟩, ⟨"ftp".toList, "x".toList, rfl, by decide, by decide⟩, by decide, by decide⟩

end Resync
