import Verif.Spec.Xml
import Verif.Proofs.XmlRead
/-
Reading XML agrees with the grammar.
-/

namespace Resync
open Py Resync.Spec

/-! ### Pieces -/

theorem xmlSpace_iff {s : Str} : XmlSpace s ↔ ∀ c ∈ s, isWs c = true := by
  unfold XmlSpace isWs
  simp only [Bool.or_eq_true, beq_iff_eq, or_assoc]

theorem xmlSpace_one {c : Char} : XmlSpace [c] ↔ isWs c = true := by
  rw [xmlSpace_iff]; simp

theorem xmlName_iff {k : Str} : XmlName k ↔ isQName k = true := by
  cases k with
  | nil => simp [XmlName, isQName]
  | cons c t =>
    simp only [XmlName, isQName, List.cons.injEq, Bool.and_eq_true, List.all_eq_true, isQNameChar, Bool.or_eq_true, beq_iff_eq]
    constructor
    · rintro ⟨c', t', ⟨rfl, rfl⟩, h1, h2⟩; exact ⟨h1, h2⟩
    · rintro ⟨h1, h2⟩; exact ⟨c, t, ⟨rfl, rfl⟩, h1, h2⟩

theorem dropWs_space {s : Str} (h : XmlSpace s) {c : Char} (hc : isWs c = false) (t : Str) : dropWs (s ++ c :: t) = c :: t := by
  rw [xmlSpace_iff] at h
  induction s with
  | nil => exact dropWs_notWs hc t
  | cons d s ih =>
    show (d :: (s ++ c :: t)).dropWhile isWs = _
    rw [List.dropWhile_cons, if_pos (h d (by simp))]
    exact ih (fun x hx => h x (by simp [hx]))

theorem dropWs_split (s : Str) : ∃ sp, s = sp ++ dropWs s ∧ XmlSpace sp := by
  refine ⟨s.takeWhile isWs, (List.takeWhile_append_dropWhile).symm, ?_⟩
  rw [xmlSpace_iff]
  exact List.all_eq_true.mp List.all_takeWhile

theorem readTo_found {stop : Char} {u : Str} (h : stop ∉ u) (r : Str) : readTo stop (u ++ stop :: r) = some (u, r) := by
  induction u with
  | nil => simp [readTo]
  | cons c t ih =>
    simp only [List.mem_cons, not_or] at h
    rw [List.cons_append, readTo, if_neg (fun e => h.1 e.symm), ih h.2]
    rfl

theorem readTo_some {stop : Char} : ∀ {s u r : Str}, readTo stop s = some (u, r) → s = u ++ stop :: r ∧ stop ∉ u
  | [], u, r, h => by cases h
  | c :: t, u, r, h => by
    rw [readTo] at h
    split at h
    · rename_i hc; cases h; exact ⟨by rw [hc]; rfl, by simp⟩
    · rename_i hc
      simp only [Option.map_eq_some_iff] at h
      obtain ⟨⟨a, b⟩, h1, h2⟩ := h
      cases h2
      obtain ⟨h3, h4⟩ := readTo_some h1
      refine ⟨by rw [h3]; rfl, ?_⟩
      simp only [List.mem_cons, not_or]
      exact ⟨fun e => hc e.symm, h4⟩

theorem charOf_toNat {c : Char} (hc : isXmlChar c = true) : charOf c.toNat = some c := by
  have h1 : Char.ofNat c.toNat = c := Char.ofNat_toNat c
  unfold charOf
  rw [h1, if_pos ⟨c.valid, hc⟩]

theorem charOf_some {n : Nat} {c : Char} (h : charOf n = some c) : n = c.toNat ∧ isXmlChar c = true := by
  unfold charOf at h
  split at h
  · rename_i h'
    cases h
    refine ⟨?_, h'.2⟩
    have := h'.1
    rw [Char.ofNat, dif_pos this]
    rfl
  · cases h

theorem hexDigit_semicolon : hexDigit ';' = none := by decide

theorem hexVal_noSemi : ∀ {H : Str} {a n : Nat}, hexVal a H = some n → ';' ∉ H
  | [], _, _, _ => by simp
  | c :: t, a, n, h => by
    rw [hexVal] at h
    split at h
    · rename_i d hd
      simp only [List.mem_cons, not_or]
      refine ⟨?_, hexVal_noSemi h⟩
      rintro rfl
      rw [hexDigit_semicolon] at hd
      cases hd
    · cases h

theorem refValue_hash (t : Str) : refValue ('#' :: t) = (match ('#' :: t : Str) with
    | '#' :: 'x' :: c :: t => (hexVal 0 (c :: t)).bind charOf
    | '#' :: c :: t => if (c :: t).all isDigit then charOf (digitsVal (c :: t)) else none
    | _ => none) := by
  unfold refValue
  rw [if_neg (by simp), if_neg (by simp), if_neg (by simp), if_neg (by simp), if_neg (by simp)]
  rfl

theorem refValue_hex (c : Char) (t : Str) : refValue ('#' :: 'x' :: c :: t) = (hexVal 0 (c :: t)).bind charOf := by
  rw [refValue_hash]
  rfl

theorem refValue_dec {c : Char} (hc : c ≠ 'x') (t : Str) :
    refValue ('#' :: c :: t) = if (c :: t).all isDigit then charOf (digitsVal (c :: t)) else none := by
  rw [refValue_hash]
  split
  · rename_i h; cases h; exact absurd rfl hc
  · rename_i h; cases h; rfl
  · rename_i h1 h2; exact absurd rfl (h2 c t)

theorem readRef_apos (r : Str) : readRef ('a' :: 'p' :: 'o' :: 's' :: ';' :: r) = some ('\'', r) := by
  simp [readRef, readTo, refValue]

theorem readRef_of {name : Str} {c : Char} (h1 : ';' ∉ name) (h2 : refValue name = some c) (r : Str) : readRef (name ++ ';' :: r) = some (c, r) := by
  unfold readRef
  rw [readTo_found h1]
  simp only [h2, Option.map_some]

theorem refText_read {c : Char} {t : Str} (h : RefText c t) : ∃ w, t = '&' :: w ∧ ∀ r, readRef (w ++ r) = some (c, r) := by
  cases h with
  | amp => exact ⟨_, rfl, fun r => readRef_amp r⟩
  | lt => exact ⟨_, rfl, fun r => readRef_lt r⟩
  | gt => exact ⟨_, rfl, fun r => readRef_gt r⟩
  | quot => exact ⟨_, rfl, fun r => readRef_quot r⟩
  | apos => exact ⟨_, rfl, fun r => readRef_apos r⟩
  | @dec _ D hne hd hv hc =>
    refine ⟨_, rfl, fun r => ?_⟩
    have hno : ';' ∉ ('#' :: D : Str) := by
      simp only [List.mem_cons, not_or]
      exact ⟨by decide, fun hm => absurd (hd _ hm) (by decide)⟩
    have e : '#' :: (D ++ [';']) ++ r = ('#' :: D) ++ ';' :: r := by simp
    rw [e]
    refine readRef_of hno ?_ r
    cases D with
    | nil => exact absurd rfl hne
    | cons d D =>
      rw [refValue_dec (by rintro rfl; exact absurd (hd 'x' (by simp)) (by decide)), if_pos (List.all_eq_true.mpr hd), hv, charOf_toNat hc]
  | @hex _ H hne hv hc =>
    refine ⟨_, rfl, fun r => ?_⟩
    have hno : ';' ∉ ('#' :: 'x' :: H : Str) := by
      simp only [List.mem_cons, not_or]
      exact ⟨by decide, by decide, hexVal_noSemi hv⟩
    have e : '#' :: 'x' :: (H ++ [';']) ++ r = ('#' :: 'x' :: H) ++ ';' :: r := by simp
    rw [e]
    refine readRef_of hno ?_ r
    cases H with
    | nil => exact absurd rfl hne
    | cons d D => rw [refValue_hex, hv, Option.bind_some, charOf_toNat hc]

theorem refValue_some {name : Str} {c : Char} (h : refValue name = some c) : RefText c ('&' :: (name ++ [';'])) := by
  unfold refValue at h
  split at h
  · rename_i e; cases h; rw [e]; exact .amp
  split at h
  · rename_i e; cases h; rw [e]; exact .lt
  split at h
  · rename_i e; cases h; rw [e]; exact .gt
  split at h
  · rename_i e; cases h; rw [e]; exact .quot
  split at h
  · rename_i e; cases h; rw [e]; exact .apos
  split at h
  · rename_i d t _ _ _ _ _
    simp only [Option.bind_eq_some_iff] at h
    obtain ⟨n, h1, h2⟩ := h
    obtain ⟨rfl, h3⟩ := charOf_some h2
    exact .hex (H := d :: t) (by simp) h1 h3
  · rename_i d t _ _ _ _ _ _
    split at h
    · rename_i hall
      obtain ⟨e, h3⟩ := charOf_some h
      exact .dec (D := d :: t) (by simp) (List.all_eq_true.mp hall) e h3
    · cases h
  · cases h

theorem readRef_some {s r : Str} {c : Char} (h : readRef s = some (c, r)) : ∃ w, s = w ++ r ∧ RefText c ('&' :: w) := by
  unfold readRef at h
  split at h
  · cases h
  · rename_i name r' hto
    simp only [Option.map_eq_some_iff, Prod.mk.injEq] at h
    obtain ⟨_, h1, rfl, rfl⟩ := h
    obtain ⟨rfl, -⟩ := readTo_some hto
    exact ⟨name ++ [';'], by simp, refValue_some h1⟩

/-! ### Names, values, attributes -/

theorem readNameRest_some : ∀ {s k r : Str}, readNameRest s = some (k, r) → s = k ++ r ∧ k.all isQNameChar = true ∧ ∃ c t, r = c :: t ∧ isQNameChar c = false
  | [], _, _, h => by cases h
  | c :: t, k, r, h => by
    rw [readNameRest] at h
    split at h
    · rename_i hc
      simp only [Option.map_eq_some_iff] at h
      obtain ⟨⟨a, b⟩, h1, h2⟩ := h
      cases h2
      obtain ⟨h3, h4, h5⟩ := readNameRest_some h1
      exact ⟨by rw [h3]; rfl, by simp [hc]; simpa using h4, h5⟩
    · rename_i hc
      cases h
      exact ⟨rfl, rfl, c, t, rfl, by simpa using hc⟩

theorem readName_some {s k r : Str} (h : readName s = some (k, r)) : s = k ++ r ∧ XmlName k ∧ ∃ c t, r = c :: t ∧ isQNameChar c = false := by
  cases s with
  | nil => cases h
  | cons c t =>
    rw [readName] at h
    split at h
    · rename_i hc
      simp only [Option.map_eq_some_iff] at h
      obtain ⟨⟨a, b⟩, h1, h2⟩ := h
      cases h2
      obtain ⟨h3, h4, h5⟩ := readNameRest_some h1
      refine ⟨by rw [h3]; rfl, ?_, h5⟩
      rw [xmlName_iff]
      simp only [isQName, hc, Bool.true_and]
      exact h4
    · cases h

theorem readName_xmlName {k : Str} (h : XmlName k) {c : Char} (hc : isQNameChar c = false) (r : Str) : readName (k ++ c :: r) = some (k, c :: r) :=
  readName_name (xmlName_iff.mp h) hc r

theorem valueText_read {q : Char} (hq : q = '"' ∨ q = '\'') {v t : Str} (h : ValueText q v t) :
    ∀ n r, t.length + 1 ≤ n → readValue q n (t ++ q :: r) = some (v, r) := by
  have hqw : isWs q = false := by rcases hq with rfl | rfl <;> decide
  have hqa : '&' ≠ q := by rcases hq with rfl | rfl <;> decide
  induction h with
  | nil =>
    intro n r hn
    obtain ⟨n, rfl⟩ : ∃ m, n = m + 1 := ⟨n - 1, by simp at hn; omega⟩
    rw [List.nil_append, readValue, if_pos rfl]
  | char h1 h2 h3 h4 h ih =>
    intro n r hn
    simp only [List.length_cons] at hn
    obtain ⟨n, rfl⟩ : ∃ m, n = m + 1 := ⟨n - 1, by omega⟩
    rw [xmlSpace_one] at h4
    rw [List.cons_append, readValue, if_neg h1, if_neg h2, if_neg h3, ih n r (by omega), if_neg h4]
    rfl
  | @space c _ _ h4 h ih =>
    intro n r hn
    simp only [List.length_cons] at hn
    obtain ⟨n, rfl⟩ : ∃ m, n = m + 1 := ⟨n - 1, by omega⟩
    rw [xmlSpace_one] at h4
    have h1 : c ≠ q := by rintro rfl; rw [h4] at hqw; cases hqw
    have h2 : c ≠ '<' := by rintro rfl; exact absurd h4 (by decide)
    have h3 : c ≠ '&' := by rintro rfl; exact absurd h4 (by decide)
    rw [List.cons_append, readValue, if_neg h1, if_neg h2, if_neg h3, ih n r (by omega), if_pos h4]
    rfl
  | ref hr h ih =>
    intro n r hn
    obtain ⟨w, rfl, hw⟩ := refText_read hr
    simp only [List.length_append, List.length_cons] at hn
    obtain ⟨n, rfl⟩ : ∃ m, n = m + 1 := ⟨n - 1, by omega⟩
    rw [List.append_assoc, List.cons_append, readValue, if_neg hqa, if_neg (by decide), if_pos rfl, hw]
    dsimp only
    rw [ih n r (by omega)]
    rfl

theorem readValue_some {q : Char} : ∀ {n : Nat} {s v r : Str}, readValue q n s = some (v, r) → ∃ t, s = t ++ q :: r ∧ ValueText q v t
  | 0, _, _, _, h => by simp [readValue] at h
  | _ + 1, [], _, _, h => by simp [readValue] at h
  | n + 1, c :: t, v, r, h => by
    rw [readValue] at h
    split at h
    · rename_i hc; cases h; exact ⟨[], by rw [hc]; rfl, .nil⟩
    rename_i hq
    split at h
    · cases h
    rename_i hl
    split at h
    · rename_i ha
      split at h
      · cases h
      · rename_i x r' hr
        simp only [Option.map_eq_some_iff] at h
        obtain ⟨⟨a, b⟩, h1, h2⟩ := h
        cases h2
        obtain ⟨t', rfl, hv⟩ := readValue_some h1
        obtain ⟨w, rfl, hw⟩ := readRef_some hr
        exact ⟨c :: w ++ t', by simp, by rw [ha]; exact .ref hw hv⟩
    · rename_i ha
      simp only [Option.map_eq_some_iff] at h
      obtain ⟨⟨a, b⟩, h1, h2⟩ := h
      cases h2
      obtain ⟨t', rfl, hv⟩ := readValue_some h1
      refine ⟨c :: t', rfl, ?_⟩
      by_cases hs : isWs c = true
      · rw [if_pos hs]; exact .space (xmlSpace_one.mpr hs) hv
      · rw [if_neg hs]; exact .char hq hl ha (fun h => hs (xmlSpace_one.mp h)) hv

theorem readEqValue_read {s1 s2 : Str} {q : Char} {v t : Str} (hs1 : XmlSpace s1) (hs2 : XmlSpace s2) (hq : q = '"' ∨ q = '\'') (hv : ValueText q v t)
    (n : Nat) (r : Str) (hn : t.length + 1 ≤ n) : readEqValue n (s1 ++ '=' :: (s2 ++ q :: (t ++ q :: r))) = some (v, r) := by
  unfold readEqValue
  have hqw : isWs q = false := by rcases hq with rfl | rfl <;> decide
  rw [dropWs_space hs1 (by decide)]
  dsimp only
  rw [if_pos rfl, dropWs_space hs2 hqw]
  dsimp only
  rw [if_pos hq, valueText_read hq hv n r hn]

theorem readEqValue_some {n : Nat} {s v r : Str} (h : readEqValue n s = some (v, r)) :
    ∃ s1 s2 q t, s = s1 ++ '=' :: (s2 ++ q :: (t ++ q :: r)) ∧ XmlSpace s1 ∧ XmlSpace s2 ∧ (q = '"' ∨ q = '\'') ∧ ValueText q v t := by
  unfold readEqValue at h
  obtain ⟨s1, e1, h1⟩ := dropWs_split s
  split at h
  · cases h
  · rename_i c r1 hd1
    split at h
    · rename_i hc
      obtain ⟨s2, e2, h2⟩ := dropWs_split r1
      split at h
      · cases h
      · rename_i d r2 hd2
        split at h
        · rename_i hq
          obtain ⟨t, rfl, ht⟩ := readValue_some h
          rw [hd2] at e2
          rw [hd1, e2, hc] at e1
          exact ⟨s1, s2, d, t, e1, h1, h2, hq, ht⟩
        · cases h
    · cases h

/-- the end of a start tag -/
def TagEnd (b : Bool) (s : Str) : Prop := ∃ sp, XmlSpace sp ∧ s = sp ++ (if b then ['/', '>'] else ['>'])

theorem space_head {s : Str} (hs : XmlSpace s) {d : Char} (hd : isQNameChar d = false) (t : Str) : ∃ c u, s ++ d :: t = c :: u ∧ isQNameChar c = false := by
  cases s with
  | nil => exact ⟨d, t, rfl, hd⟩
  | cons c s =>
    refine ⟨c, s ++ d :: t, rfl, ?_⟩
    rcases hs c (by simp) with rfl | rfl | rfl | rfl <;> decide

theorem attsText_read {a : Dict Str} {t : Str} (h : AttsText a t) {b : Bool} {e : Str} (he : TagEnd b e) :
    ∀ n r, t.length + e.length ≤ n → readAtts n (t ++ (e ++ r)) = some (a, b, r) := by
  induction h with
  | nil =>
    intro n r hn
    obtain ⟨sp, hsp, rfl⟩ := he
    cases b with
    | true =>
      simp only [if_true, List.length_append, List.length_cons, List.length_nil] at hn
      obtain ⟨n, rfl⟩ : ∃ m, n = m + 1 := ⟨n - 1, by omega⟩
      have e : [] ++ (sp ++ (if true then ['/', '>'] else ['>']) ++ r) = sp ++ '/' :: '>' :: r := by simp
      rw [e, readAtts, dropWs_space hsp (by decide)]
      dsimp only
      rw [if_neg (by decide), if_pos rfl, if_pos rfl]
    | false =>
      simp only [List.length_append, List.length_nil] at hn
      obtain ⟨n, rfl⟩ : ∃ m, n = m + 1 := ⟨n - 1, by simp at hn; omega⟩
      have e : [] ++ (sp ++ (if false then ['/', '>'] else ['>']) ++ r) = sp ++ '>' :: r := by simp
      rw [e, readAtts, dropWs_space hsp (by decide)]
      dsimp only
      rw [if_pos rfl]
  | @cons sp k s1 s2 q v t rest text hne hsp hk hs1 hs2 hq hv h ih =>
    intro n r hn
    obtain ⟨c, k', rfl, hc, hk'⟩ := hk
    have hk : XmlName (c :: k') := ⟨c, k', rfl, hc, hk'⟩
    obtain ⟨w1, w2, w3, -⟩ := isNameStart_not hc
    simp only [List.length_append, List.length_cons] at hn
    obtain ⟨n, rfl⟩ : ∃ m, n = m + 1 := ⟨n - 1, by omega⟩
    have eq : sp ++ (c :: k' ++ (s1 ++ '=' :: (s2 ++ q :: (t ++ q :: text)))) ++ (e ++ r) =
        sp ++ c :: (k' ++ (s1 ++ '=' :: (s2 ++ q :: (t ++ q :: (text ++ (e ++ r)))))) := by simp
    rw [eq, readAtts, dropWs_space hsp w1]
    dsimp only
    have hlen : ¬ (c :: (k' ++ (s1 ++ '=' :: (s2 ++ q :: (t ++ q :: (text ++ (e ++ r))))))).length =
        (sp ++ c :: (k' ++ (s1 ++ '=' :: (s2 ++ q :: (t ++ q :: (text ++ (e ++ r))))))).length := by
      have : sp.length ≠ 0 := by simpa using hne
      rw [List.length_append]; omega
    rw [if_neg w3, if_neg w2, if_neg hlen]
    obtain ⟨d, u, hdu, hd⟩ := space_head hs1 (d := '=') (by decide) (s2 ++ q :: (t ++ q :: (text ++ (e ++ r))))
    have hn1 : readName (c :: (k' ++ (s1 ++ '=' :: (s2 ++ q :: (t ++ q :: (text ++ (e ++ r))))))) =
        some (c :: k', s1 ++ '=' :: (s2 ++ q :: (t ++ q :: (text ++ (e ++ r))))) := by
      rw [hdu]; exact readName_xmlName hk hd u
    rw [hn1]
    dsimp only
    rw [readEqValue_read hs1 hs2 hq hv n _ (by omega)]
    dsimp only
    rw [ih n r (by omega)]
    rfl

theorem readAtts_some : ∀ {n : Nat} {s : Str} {a : Dict Str} {b : Bool} {r : Str}, readAtts n s = some (a, b, r) →
    ∃ t e, s = t ++ (e ++ r) ∧ AttsText a t ∧ TagEnd b e
  | 0, _, _, _, _, h => by simp [readAtts] at h
  | n + 1, s, a, b, r, h => by
    rw [readAtts] at h
    obtain ⟨sp, e1, h1⟩ := dropWs_split s
    split at h
    · cases h
    · rename_i c t hd
      rw [hd] at e1
      split at h
      · rename_i hc
        cases h
        exact ⟨[], sp ++ ['>'], by rw [e1, hc]; simp, .nil, sp, h1, rfl⟩
      split at h
      · rename_i hc
        split at h
        · cases h
        · split at h
          · rename_i hd'
            cases h
            exact ⟨[], sp ++ ['/', '>'], by rw [e1, hc, hd']; simp, .nil, sp, h1, rfl⟩
          · cases h
      split at h
      · cases h
      · rename_i hlen
        split at h
        · cases h
        · rename_i k r1 hn
          split at h
          · cases h
          · rename_i v r2 hv
            simp only [Option.map_eq_some_iff] at h
            obtain ⟨⟨a', b', r'⟩, h2, h3⟩ := h
            cases h3
            obtain ⟨t', e', rfl, h4, h5⟩ := readAtts_some h2
            obtain ⟨s1, s2, q, tv, rfl, g1, g2, g3, g4⟩ := readEqValue_some hv
            obtain ⟨h6, h7, -⟩ := readName_some hn
            refine ⟨_, e', ?_, .cons (sp := sp) ?_ h1 h7 g1 g2 g3 g4 h4, h5⟩
            · rw [e1, h6]; simp
            · rintro rfl
              rw [e1] at hlen
              simp at hlen

theorem distinct_nodup : ∀ (l : List Str), distinct l = true ↔ l.Nodup
  | [] => by simp [distinct]
  | k :: t => by simp [distinct, distinct_nodup t]

/-! ### Delimited pieces -/

theorem startsWith_prefix {s p : Str} : startsWith s p = true ↔ p <+: s := List.isPrefixOf_iff_prefix

theorem occursIn_of_prefix {x s : Str} (h : x <+: s) : OccursIn x s := by
  obtain ⟨b, rfl⟩ := h; exact ⟨[], b, by simp⟩

theorem occursIn_cons {x s : Str} (c : Char) (h : OccursIn x s) : OccursIn x (c :: s) := by
  obtain ⟨a, b, rfl⟩ := h; exact ⟨c :: a, b, by simp⟩

theorem occursIn_cons_iff {x s : Str} {c : Char} (hx : ¬ x <+: c :: s) (h : OccursIn x (c :: s)) : OccursIn x s := by
  obtain ⟨a, b, e⟩ := h
  cases a with
  | nil => exact absurd ⟨b, by simpa using e.symm⟩ hx
  | cons d a =>
    simp only [List.cons_append, List.cons.injEq] at e
    exact ⟨a, b, e.2⟩

theorem occursIn_length {x s : Str} (h : OccursIn x s) : x.length ≤ s.length := by
  obtain ⟨a, b, rfl⟩ := h; simp only [List.length_append]; omega

/-- a last letter that does not fit does not make an occurrence -/
theorem occursIn_concat {x u : Str} {l d : Char} (hd : d ≠ l) (h : OccursIn (x ++ [l]) (u ++ [d])) : OccursIn (x ++ [l]) u := by
  obtain ⟨a, b, e⟩ := h
  rcases List.eq_nil_or_concat b with rfl | ⟨b', y, rfl⟩
  · rw [List.append_nil, ← List.append_assoc] at e
    have := List.append_inj_right' e rfl
    simp only [List.cons.injEq, and_true] at this
    exact absurd this hd
  · have e' : u ++ [d] = (a ++ (x ++ [l]) ++ b') ++ [y] := by rw [e]; simp
    exact ⟨a, b', List.append_inj_left' e' rfl⟩

theorem occursIn_append {x u : Str} (v : Str) (h : OccursIn x u) : OccursIn x (u ++ v) := by
  obtain ⟨a, b, rfl⟩ := h; exact ⟨a, b ++ v, by simp⟩

theorem readToStr_found {d : Str} {l : Char} : ∀ {u : Str} (r : Str), ¬ OccursIn (d ++ [l]) (u ++ d) →
    readToStr (d ++ [l]) (u ++ (d ++ l :: r)) = some (u, r)
  | [], r, h => by
    have e : d ++ l :: r = (d ++ [l]) ++ r := by simp
    rw [List.nil_append, e]
    have hs : startsWith ((d ++ [l]) ++ r) (d ++ [l]) = true := startsWith_prefix.mpr ⟨r, rfl⟩
    generalize hx : (d ++ [l]) = x at *
    cases x with
    | nil => simp at hx
    | cons c t =>
      rw [List.cons_append] at hs ⊢
      rw [readToStr, if_pos hs]
      simp
  | c :: u, r, h => by
    rw [List.cons_append, readToStr, if_neg, readToStr_found r (fun h' => h (by rw [List.cons_append]; exact occursIn_cons c h'))]
    · rfl
    · intro hs
      rw [startsWith_prefix] at hs
      apply h
      refine occursIn_of_prefix ?_
      have e : c :: (u ++ (d ++ l :: r)) = (c :: u ++ d) ++ l :: r := by simp
      rw [e] at hs
      refine List.prefix_of_prefix_length_le hs (List.prefix_append _ _) ?_
      simp only [List.length_append, List.length_cons, List.length_nil]; omega

theorem readToStr_some {d : Str} {l : Char} : ∀ {s u r : Str}, readToStr (d ++ [l]) s = some (u, r) → s = u ++ (d ++ l :: r) ∧ ¬ OccursIn (d ++ [l]) (u ++ d)
  | [], _, _, h => by cases h
  | c :: t, u, r, h => by
    rw [readToStr] at h
    split at h
    · rename_i hs
      cases h
      rw [startsWith_prefix] at hs
      obtain ⟨b, hb⟩ := hs
      refine ⟨?_, ?_⟩
      · rw [← hb]; simp
      · intro ho
        have := occursIn_length ho
        simp only [List.length_append, List.length_cons, List.length_nil] at this
        omega
    · rename_i hs
      simp only [Option.map_eq_some_iff] at h
      obtain ⟨⟨a, b⟩, h1, h2⟩ := h
      cases h2
      obtain ⟨h3, h4⟩ := readToStr_some h1
      refine ⟨by rw [h3]; rfl, ?_⟩
      intro ho
      refine h4 (occursIn_cons_iff ?_ ho)
      intro hp
      apply hs
      rw [startsWith_prefix, h3]
      exact hp.trans ⟨l :: b, by simp⟩

theorem skipPI_read {u : Str} (h : PIText u) : ∃ w, u = '<' :: '?' :: w ∧ ∀ r, skipPI (w ++ r) = some r := by
  obtain ⟨hu⟩ := h
  rename_i u
  refine ⟨_, rfl, fun r => ?_⟩
  have e : u ++ ['?', '>'] ++ r = u ++ (['?'] ++ '>' :: r) := by simp
  unfold skipPI
  rw [e, show (['?', '>'] : Str) = ['?'] ++ ['>'] from rfl, readToStr_found r]
  · rfl
  · intro ho; exact hu (occursIn_concat (x := ['?']) (by decide) ho)

theorem skipPI_some {s r : Str} (h : skipPI s = some r) : ∃ w, s = w ++ r ∧ PIText ('<' :: '?' :: w) := by
  unfold skipPI at h
  rw [show (['?', '>'] : Str) = ['?'] ++ ['>'] from rfl] at h
  simp only [Option.map_eq_some_iff] at h
  obtain ⟨⟨u, r'⟩, h1, h2⟩ := h
  dsimp only at h2
  subst h2
  obtain ⟨rfl, h3⟩ := readToStr_some h1
  exact ⟨u ++ ['?', '>'], by simp, .mk (fun h => h3 (occursIn_append _ h))⟩

theorem skipComment_read {u : Str} (h : CommentText u) : ∃ w, u = '<' :: '!' :: '-' :: '-' :: w ∧ ∀ r, skipComment (w ++ r) = some r := by
  obtain ⟨hu⟩ := h
  rename_i u
  refine ⟨_, rfl, fun r => ?_⟩
  have e : u ++ ['-', '-', '>'] ++ r = u ++ (['-'] ++ '-' :: '>' :: r) := by simp
  unfold skipComment
  rw [e, show (['-', '-'] : Str) = ['-'] ++ ['-'] from rfl, readToStr_found _ hu]
  rfl

theorem skipComment_some {s r : Str} (h : skipComment s = some r) : ∃ w, s = w ++ r ∧ CommentText ('<' :: '!' :: '-' :: '-' :: w) := by
  unfold skipComment at h
  rw [show (['-', '-'] : Str) = ['-'] ++ ['-'] from rfl] at h
  split at h
  · cases h
  · cases h
  · rename_i u c r' h1
    split at h
    · rename_i hc
      cases h
      obtain ⟨rfl, h3⟩ := readToStr_some h1
      exact ⟨u ++ ['-', '-', '>'], by rw [hc]; simp, .mk h3⟩
    · cases h

theorem cdata_found {u : Str} (h : ¬ OccursIn [']', ']', '>'] u) (r : Str) : readToStr [']', ']', '>'] (u ++ ']' :: ']' :: '>' :: r) = some (u, r) := by
  have e : u ++ ']' :: ']' :: '>' :: r = u ++ ([']', ']'] ++ '>' :: r) := by simp
  rw [e, show ([']', ']', '>'] : Str) = [']', ']'] ++ ['>'] from rfl, readToStr_found r]
  intro ho
  have e2 : u ++ [']', ']'] = (u ++ [']']) ++ [']'] := by simp
  rw [e2] at ho
  exact h (occursIn_concat (x := [']', ']']) (by decide) (occursIn_concat (by decide) ho))

theorem cdata_some {s u r : Str} (h : readToStr [']', ']', '>'] s = some (u, r)) : s = u ++ ']' :: ']' :: '>' :: r ∧ ¬ OccursIn [']', ']', '>'] u := by
  rw [show ([']', ']', '>'] : Str) = [']', ']'] ++ ['>'] from rfl] at h
  obtain ⟨rfl, h2⟩ := readToStr_some h
  exact ⟨by simp, fun h => h2 (occursIn_append _ h)⟩

/-! ### Elements -/

theorem elemText_head {e : Elem} {t : Str} (h : ElemText e t) : ∃ c w, t = '<' :: c :: w ∧ isNameStart c = true := by
  cases h with
  | empty hk ha hd hs =>
    obtain ⟨c, k, rfl, hc, -⟩ := hk
    exact ⟨c, _, rfl, hc⟩
  | full hk ha hd hs1 hb hs2 =>
    obtain ⟨c, k, rfl, hc, -⟩ := hk
    exact ⟨c, _, rfl, hc⟩

theorem tagEnd_head {a : Dict Str} {t : Str} (h : AttsText a t) {b : Bool} {e : Str} (he : TagEnd b e) (r : Str) :
    ∃ c u, t ++ (e ++ r) = c :: u ∧ isQNameChar c = false := by
  cases h with
  | nil =>
    obtain ⟨sp, hsp, rfl⟩ := he
    cases b with
    | true =>
      obtain ⟨c, u, h1, h2⟩ := space_head hsp (d := '/') (by decide) ('>' :: r)
      exact ⟨c, u, by rw [← h1]; simp, h2⟩
    | false =>
      obtain ⟨c, u, h1, h2⟩ := space_head hsp (d := '>') (by decide) r
      exact ⟨c, u, by rw [← h1]; simp, h2⟩
  | @cons sp k s1 s2 q v t rest text hne hsp hk hs1 hs2 hq hv h =>
    cases sp with
    | nil => exact absurd rfl hne
    | cons c sp =>
      refine ⟨c, _, rfl, ?_⟩
      rcases hsp c (by simp) with rfl | rfl | rfl | rfl <;> decide

theorem not_cdataEnd_of {t : Str} (h : ¬ [']', ']', '>'] <+: t) (r : Str) : startsWith (t ++ '<' :: '/' :: r) [']', ']', '>'] = false := by
  rw [Bool.eq_false_iff]
  intro hs
  rw [startsWith_prefix] at hs
  match t, h, hs with
  | [], _, hs => simp at hs
  | [a], _, hs => simp at hs
  | [a, b], _, hs => simp at hs
  | a :: b :: c :: t, h, hs =>
    apply h
    simp only [List.cons_append, List.cons_prefix_cons] at hs ⊢
    exact ⟨hs.1, hs.2.1, hs.2.2.1, List.nil_prefix⟩

mutual
theorem elemText_read : ∀ {e : Elem} {t : Str}, ElemText e t → ∀ w, t = '<' :: w → ∀ n r, w.length ≤ n → readElem n (w ++ r) = some (e, r)
  | _, _, .empty (tag := tag) (att := att) (ta := ta) (sp := sp) hk ha hd hs, w, hw, n, r, hn => by
    cases hw
    have hk' := hk
    obtain ⟨c, k', hc, -⟩ := hk'
    simp only [List.length_append, List.length_cons, List.length_nil] at hn
    obtain ⟨n, rfl⟩ : ∃ m, n = m + 1 := ⟨n - 1, by omega⟩
    have htl : 0 < tag.length := by rw [hc]; simp
    have he : TagEnd true (sp ++ ['/', '>']) := ⟨sp, hs, rfl⟩
    obtain ⟨d, u, h1, h2⟩ := tagEnd_head ha he r
    have e1 : tag ++ (ta ++ (sp ++ ['/', '>'])) ++ r = tag ++ (ta ++ ((sp ++ ['/', '>']) ++ r)) := by simp
    have e2 : readName (tag ++ (ta ++ ((sp ++ ['/', '>']) ++ r))) = some (tag, ta ++ ((sp ++ ['/', '>']) ++ r)) := by
      rw [h1]; exact readName_xmlName hk h2 u
    rw [e1, readElem, e2]
    dsimp only
    rw [attsText_read ha he n r (by simp only [List.length_append, List.length_cons, List.length_nil]; omega)]
    dsimp only
    rw [if_neg (by rw [(distinct_nodup _).mpr hd]; simp), if_pos rfl]
  | _, _, .full (tag := tag) (att := att) (ta := ta) (s1 := s1) (s2 := s2) (text := text) (body := body) (ch := ch) hk ha hd hs1 hb hs2, w, hw, n, r, hn => by
    cases hw
    have hk' := hk
    obtain ⟨c, k', hc, -⟩ := hk'
    simp only [List.length_append, List.length_cons, List.length_nil] at hn
    obtain ⟨n, rfl⟩ : ∃ m, n = m + 1 := ⟨n - 1, by omega⟩
    have htl : 0 < tag.length := by rw [hc]; simp
    have he : TagEnd false (s1 ++ ['>']) := ⟨s1, hs1, rfl⟩
    obtain ⟨d, u, h1, h2⟩ := tagEnd_head ha he (body ++ '<' :: '/' :: (tag ++ (s2 ++ '>' :: r)))
    have e1 : tag ++ (ta ++ (s1 ++ '>' :: (body ++ '<' :: '/' :: (tag ++ (s2 ++ ['>']))))) ++ r =
      tag ++ (ta ++ ((s1 ++ ['>']) ++ (body ++ '<' :: '/' :: (tag ++ (s2 ++ '>' :: r))))) := by simp
    have e2 : readName (tag ++ (ta ++ ((s1 ++ ['>']) ++ (body ++ '<' :: '/' :: (tag ++ (s2 ++ '>' :: r)))))) =
        some (tag, ta ++ ((s1 ++ ['>']) ++ (body ++ '<' :: '/' :: (tag ++ (s2 ++ '>' :: r))))) := by
      rw [h1]; exact readName_xmlName hk h2 u
    rw [e1, readElem, e2]
    dsimp only
    rw [attsText_read ha he n _ (by simp only [List.length_append, List.length_cons, List.length_nil]; omega)]
    dsimp only
    rw [if_neg (by rw [(distinct_nodup _).mpr hd]; simp), if_neg (by simp), contentText_read hb n _ (by omega)]
    dsimp only
    obtain ⟨d', u', h3, h4⟩ := space_head hs2 (d := '>') (by decide) r
    have e3 : readName (tag ++ (s2 ++ '>' :: r)) = some (tag, s2 ++ '>' :: r) := by
      rw [h3]; exact readName_xmlName hk h4 u'
    rw [e3]
    dsimp only
    rw [if_neg (by simp), dropWs_space hs2 (by decide)]
    dsimp only
    rw [if_pos rfl]
    rfl
theorem contentText_read : ∀ {x : Str} {ch : List Elem} {t : Str}, ContentText x ch t → ∀ n r, t.length + 2 ≤ n →
    readContent n (t ++ '<' :: '/' :: r) = some (x, ch, r)
  | _, _, _, .nil, n, r, hn => by
    obtain ⟨n, rfl⟩ : ∃ m, n = m + 1 := ⟨n - 1, by omega⟩
    rw [List.nil_append, readContent, if_pos rfl, if_pos rfl]
  | _, _, _, .char (c := c) (t := t) hl ha hcd h, n, r, hn => by
    simp only [List.length_cons] at hn
    obtain ⟨n, rfl⟩ : ∃ m, n = m + 1 := ⟨n - 1, by omega⟩
    have hcd' := not_cdataEnd_of hcd r
    rw [List.cons_append] at hcd' ⊢
    rw [readContent.eq_def]
    dsimp only
    rw [if_neg hl, if_neg ha, hcd', if_neg (by simp), contentText_read h n r (by omega)]
    rfl
  | _, _, _, .ref (r := w0) (t := t) hr h, n, r, hn => by
    obtain ⟨w, rfl, hw⟩ := refText_read hr
    simp only [List.length_append, List.length_cons] at hn
    obtain ⟨n, rfl⟩ : ∃ m, n = m + 1 := ⟨n - 1, by omega⟩
    rw [List.append_assoc, List.cons_append, readContent.eq_def]
    dsimp only
    rw [if_neg (by decide), if_pos rfl, hw]
    dsimp only
    rw [contentText_read h n r (by omega)]
    rfl
  | _, _, _, .cdata (u := u) (t := t) hu h, n, r, hn => by
    simp only [List.length_append, List.length_cons] at hn
    obtain ⟨n, rfl⟩ : ∃ m, n = m + 1 := ⟨n - 1, by omega⟩
    simp only [List.cons_append, List.append_assoc]
    rw [readContent, if_pos rfl]
    rw [if_neg (by decide), if_neg (by decide), if_pos rfl, if_neg (by simp [startsWith, List.isPrefixOf]), if_pos (by simp [startsWith, List.isPrefixOf])]
    simp only [List.drop_succ_cons, List.drop_zero]
    rw [cdata_found hu]
    dsimp only
    rw [contentText_read h n r (by omega)]
    rfl
  | _, _, _, .comment (u := u) (t := t) hu h, n, r, hn => by
    obtain ⟨w, rfl, hw⟩ := skipComment_read hu
    simp only [List.length_append, List.length_cons] at hn
    obtain ⟨n, rfl⟩ : ∃ m, n = m + 1 := ⟨n - 1, by omega⟩
    simp only [List.cons_append, List.append_assoc]
    rw [readContent, if_pos rfl]
    rw [if_neg (by decide), if_neg (by decide), if_pos rfl, if_pos (by simp [startsWith, List.isPrefixOf])]
    simp only [List.drop_succ_cons, List.drop_zero]
    rw [hw, Option.bind_some, contentText_read h n r (by omega)]
  | _, _, _, .pi (u := u) (t := t) hu h, n, r, hn => by
    obtain ⟨w, rfl, hw⟩ := skipPI_read hu
    simp only [List.length_append, List.length_cons] at hn
    obtain ⟨n, rfl⟩ : ∃ m, n = m + 1 := ⟨n - 1, by omega⟩
    simp only [List.cons_append, List.append_assoc]
    rw [readContent, if_pos rfl]
    rw [if_neg (by decide), if_pos rfl, hw, Option.bind_some, contentText_read h n r (by omega)]
  | _, _, _, .child (e := e) (te := te) (t := t) he h, n, r, hn => by
    obtain ⟨c, w, hte, hc⟩ := elemText_head he
    obtain ⟨-, w2, w3, w4, w5, -⟩ := isNameStart_not hc
    have ih := elemText_read he (c :: w) hte
    subst hte
    simp only [List.length_append, List.length_cons] at hn
    obtain ⟨n, rfl⟩ : ∃ m, n = m + 1 := ⟨n - 1, by omega⟩
    have ih := ih n (t ++ '<' :: '/' :: r) (by simp only [List.length_cons]; omega)
    simp only [List.cons_append, List.append_assoc] at ih ⊢
    rw [readContent, if_pos rfl]
    rw [if_neg w2, if_neg w4, if_neg w5, ih]
    dsimp only
    rw [contentText_read h n r (by omega)]
    rfl
end

mutual
theorem readElem_some : ∀ {n : Nat} {s : Str} {e : Elem} {r : Str}, readElem n s = some (e, r) → ∃ t, s = t ++ r ∧ ElemText e ('<' :: t)
  | 0, _, _, _, h => by simp [readElem] at h
  | n + 1, s, e, r, h => by
    rw [readElem] at h
    split at h
    · cases h
    rename_i tag r1 h1
    split at h
    · cases h
    rename_i att b r2 h2
    split at h
    · cases h
    rename_i hd
    rw [not_not, distinct_nodup] at hd
    obtain ⟨rfl, hk, -⟩ := readName_some h1
    obtain ⟨ta, e1, rfl, ha, sp, hsp, rfl⟩ := readAtts_some h2
    split at h
    · rename_i hb
      subst hb
      cases h
      exact ⟨tag ++ (ta ++ (sp ++ ['/', '>'])), by simp, .empty hk ha hd hsp⟩
    rename_i hb
    split at h
    · cases h
    rename_i text ch r3 h3
    split at h
    · cases h
    rename_i tag' r4 h4
    split at h
    · cases h
    rename_i htag
    rw [not_not] at htag
    subst htag
    split at h
    · cases h
    rename_i c r5 h5
    split at h
    · rename_i hc
      cases h
      obtain ⟨body, rfl, hbody⟩ := readContent_some h3
      obtain ⟨rfl, -, -⟩ := readName_some h4
      obtain ⟨s2, e2, hs2⟩ := dropWs_split r4
      rw [h5, hc] at e2
      refine ⟨tag' ++ (ta ++ (sp ++ '>' :: (body ++ '<' :: '/' :: (tag' ++ (s2 ++ ['>']))))), ?_, ?_⟩
      · rw [e2, if_neg hb]; simp
      · exact .full hk ha hd hsp hbody hs2
    · cases h
theorem readContent_some : ∀ {n : Nat} {s : Str} {x : Str} {ch : List Elem} {r : Str}, readContent n s = some (x, ch, r) →
    ∃ t, s = t ++ '<' :: '/' :: r ∧ ContentText x ch t
  | 0, _, _, _, _, h => by simp [readContent] at h
  | _ + 1, [], _, _, _, h => by simp [readContent] at h
  | n + 1, c :: s, x, ch, r, h => by
    rw [readContent.eq_def] at h
    dsimp only at h
    split at h
    · rename_i hc
      subst hc
      split at h
      · cases h
      rename_i d u
      split at h
      · rename_i hd
        cases h
        exact ⟨[], by rw [hd]; rfl, .nil⟩
      split at h
      · rename_i hd
        subst hd
        rw [Option.bind_eq_some_iff] at h
        obtain ⟨s', h1, h2⟩ := h
        obtain ⟨w, rfl, hw⟩ := skipPI_some h1
        obtain ⟨t, rfl, ht⟩ := readContent_some h2
        exact ⟨'<' :: '?' :: w ++ t, by simp, .pi hw ht⟩
      split at h
      · rename_i hd
        subst hd
        split at h
        · rename_i hs
          rw [Option.bind_eq_some_iff] at h
          obtain ⟨s', h1, h2⟩ := h
          rw [startsWith_prefix] at hs
          obtain ⟨b, rfl⟩ := hs
          obtain ⟨w, hb, hw⟩ := skipComment_some h1
          simp only [List.cons_append, List.nil_append, List.drop_succ_cons, List.drop_zero] at hb
          obtain ⟨t, rfl, ht⟩ := readContent_some h2
          exact ⟨'<' :: '!' :: '-' :: '-' :: w ++ t, by rw [hb]; simp, .comment hw ht⟩
        split at h
        · rename_i hs
          rw [startsWith_prefix] at hs
          obtain ⟨b, rfl⟩ := hs
          split at h
          · cases h
          rename_i y r1 h1
          simp only [Option.map_eq_some_iff] at h
          obtain ⟨⟨a1, a2, a3⟩, h2, h3⟩ := h
          cases h3
          simp only [List.cons_append, List.nil_append, List.drop_succ_cons, List.drop_zero] at h1
          obtain ⟨rfl, hy⟩ := cdata_some h1
          obtain ⟨t, rfl, ht⟩ := readContent_some h2
          exact ⟨_, by simp, .cdata hy ht⟩
        · cases h
      · split at h
        · cases h
        rename_i e r1 h1
        simp only [Option.map_eq_some_iff] at h
        obtain ⟨⟨a1, a2, a3⟩, h2, h3⟩ := h
        cases h3
        obtain ⟨te, h4, hte⟩ := readElem_some h1
        obtain ⟨t, rfl, ht⟩ := readContent_some h2
        exact ⟨'<' :: te ++ t, by rw [h4]; simp, .child hte ht⟩
    rename_i hc
    split at h
    · rename_i ha
      subst ha
      split at h
      · cases h
      rename_i y r1 h1
      simp only [Option.map_eq_some_iff] at h
      obtain ⟨⟨a1, a2, a3⟩, h2, h3⟩ := h
      cases h3
      obtain ⟨w, rfl, hw⟩ := readRef_some h1
      obtain ⟨t, rfl, ht⟩ := readContent_some h2
      exact ⟨'&' :: w ++ t, by simp, .ref hw ht⟩
    rename_i ha
    split at h
    · cases h
    rename_i hcd
    simp only [Option.map_eq_some_iff] at h
    obtain ⟨⟨a1, a2, a3⟩, h2, h3⟩ := h
    cases h3
    obtain ⟨t, rfl, ht⟩ := readContent_some h2
    refine ⟨c :: t, rfl, .char hc ha ?_ ht⟩
    intro hp
    apply hcd
    rw [startsWith_prefix]
    exact hp.trans ⟨'<' :: '/' :: r, by simp⟩
end

/-! ### Documents -/

theorem miscText_prolog {a : Str} (h : MiscText a) {c : Char} (hc : isNameStart c = true) :
    ∀ n w, a.length + 1 ≤ n → readProlog n (a ++ '<' :: c :: w) = some (c :: w) := by
  obtain ⟨w1, w2, w3, w4, w5, -⟩ := isNameStart_not hc
  induction h with
  | nil =>
    intro n w hn
    obtain ⟨n, rfl⟩ : ∃ m, n = m + 1 := ⟨n - 1, by omega⟩
    rw [List.nil_append, readProlog, if_neg (by decide), if_pos rfl]
    rw [if_neg w4, if_neg w5]
  | space hs h ih =>
    intro n w hn
    simp only [List.length_cons] at hn
    obtain ⟨n, rfl⟩ : ∃ m, n = m + 1 := ⟨n - 1, by omega⟩
    rw [List.cons_append, readProlog.eq_def]
    dsimp only
    rw [if_pos (xmlSpace_one.mp hs), ih n w (by omega)]
  | comment hu h ih =>
    intro n w hn
    obtain ⟨v, rfl, hv⟩ := skipComment_read hu
    simp only [List.length_append, List.length_cons] at hn
    obtain ⟨n, rfl⟩ : ∃ m, n = m + 1 := ⟨n - 1, by omega⟩
    simp only [List.cons_append, List.append_assoc]
    rw [readProlog, if_neg (by decide), if_pos rfl]
    rw [if_neg (by decide), if_pos rfl, if_pos (by simp [startsWith, List.isPrefixOf])]
    simp only [List.drop_succ_cons, List.drop_zero]
    rw [hv, Option.bind_some, ih n w (by omega)]
  | pi hu h ih =>
    intro n w hn
    obtain ⟨v, rfl, hv⟩ := skipPI_read hu
    simp only [List.length_append, List.length_cons] at hn
    obtain ⟨n, rfl⟩ : ∃ m, n = m + 1 := ⟨n - 1, by omega⟩
    simp only [List.cons_append, List.append_assoc]
    rw [readProlog, if_neg (by decide), if_pos rfl]
    rw [if_pos rfl, hv, Option.bind_some, ih n w (by omega)]

theorem readProlog_some : ∀ {n : Nat} {s r : Str}, readProlog n s = some r → ∃ a, s = a ++ '<' :: r ∧ MiscText a
  | 0, _, _, h => by simp [readProlog] at h
  | _ + 1, [], _, h => by simp [readProlog] at h
  | n + 1, c :: s, r, h => by
    rw [readProlog.eq_def] at h
    dsimp only at h
    split at h
    · rename_i hc
      obtain ⟨a, rfl, ha⟩ := readProlog_some h
      exact ⟨c :: a, rfl, .space (xmlSpace_one.mpr hc) ha⟩
    split at h
    · rename_i hc
      subst hc
      split at h
      · cases h
      rename_i d u
      split at h
      · rename_i hd
        subst hd
        rw [Option.bind_eq_some_iff] at h
        obtain ⟨s', h1, h2⟩ := h
        obtain ⟨w, rfl, hw⟩ := skipPI_some h1
        obtain ⟨a, rfl, ha⟩ := readProlog_some h2
        exact ⟨'<' :: '?' :: w ++ a, by simp, .pi hw ha⟩
      split at h
      · rename_i hd
        subst hd
        split at h
        · rename_i hs
          rw [Option.bind_eq_some_iff] at h
          obtain ⟨s', h1, h2⟩ := h
          rw [startsWith_prefix] at hs
          obtain ⟨b, rfl⟩ := hs
          obtain ⟨w, hb, hw⟩ := skipComment_some h1
          simp only [List.cons_append, List.nil_append, List.drop_succ_cons, List.drop_zero] at hb
          obtain ⟨a, rfl, ha⟩ := readProlog_some h2
          exact ⟨'<' :: '!' :: '-' :: '-' :: w ++ a, by rw [hb]; simp, .comment hw ha⟩
        · cases h
      · cases h
        exact ⟨[], rfl, .nil⟩
    · cases h

theorem miscText_epilog {a : Str} (h : MiscText a) : ∀ n, a.length + 1 ≤ n → epilogOk n a = true := by
  induction h with
  | nil =>
    intro n hn
    obtain ⟨n, rfl⟩ : ∃ m, n = m + 1 := ⟨n - 1, by omega⟩
    rw [epilogOk]
  | space hs h ih =>
    intro n hn
    simp only [List.length_cons] at hn
    obtain ⟨n, rfl⟩ : ∃ m, n = m + 1 := ⟨n - 1, by omega⟩
    rw [epilogOk.eq_def]
    dsimp only
    rw [if_pos (xmlSpace_one.mp hs), ih n (by omega)]
  | comment hu h ih =>
    intro n hn
    obtain ⟨v, rfl, hv⟩ := skipComment_read hu
    simp only [List.length_append, List.length_cons] at hn
    obtain ⟨n, rfl⟩ : ∃ m, n = m + 1 := ⟨n - 1, by omega⟩
    simp only [List.cons_append]
    rw [epilogOk, if_neg (by decide), if_pos rfl]
    rw [if_neg (by decide), if_pos rfl, if_pos (by simp [startsWith, List.isPrefixOf])]
    simp only [List.drop_succ_cons, List.drop_zero]
    rw [hv, Option.map_some, Option.getD_some, ih n (by omega)]
  | pi hu h ih =>
    intro n hn
    obtain ⟨v, rfl, hv⟩ := skipPI_read hu
    simp only [List.length_append, List.length_cons] at hn
    obtain ⟨n, rfl⟩ : ∃ m, n = m + 1 := ⟨n - 1, by omega⟩
    simp only [List.cons_append]
    rw [epilogOk, if_neg (by decide), if_pos rfl]
    rw [if_pos rfl, hv, Option.map_some, Option.getD_some, ih n (by omega)]

theorem epilogOk_misc : ∀ {n : Nat} {s : Str}, epilogOk n s = true → MiscText s
  | 0, _, h => by simp [epilogOk] at h
  | _ + 1, [], _ => .nil
  | n + 1, c :: s, h => by
    rw [epilogOk.eq_def] at h
    dsimp only at h
    split at h
    · rename_i hc
      exact .space (xmlSpace_one.mpr hc) (epilogOk_misc h)
    split at h
    · rename_i hc
      subst hc
      split at h
      · cases h
      rename_i d u
      split at h
      · rename_i hd
        subst hd
        cases h1 : skipPI u with
        | none => rw [h1] at h; simp at h
        | some s' =>
          rw [h1, Option.map_some, Option.getD_some] at h
          obtain ⟨w, rfl, hw⟩ := skipPI_some h1
          exact .pi hw (epilogOk_misc h)
      split at h
      · rename_i hd
        subst hd
        split at h
        · rename_i hs
          rw [startsWith_prefix] at hs
          obtain ⟨b, rfl⟩ := hs
          cases h1 : skipComment ((['-', '-'] ++ b).drop 2) with
          | none => rw [h1] at h; simp at h
          | some s' =>
            rw [h1, Option.map_some, Option.getD_some] at h
            obtain ⟨w, hb, hw⟩ := skipComment_some h1
            simp only [List.cons_append, List.nil_append, List.drop_succ_cons, List.drop_zero] at hb
            subst hb
            exact .comment hw (epilogOk_misc h)
        · cases h
      · cases h
    · cases h

/-- A text is read as a tree exactly if its characters are characters of XML and, ends of lines normalised, it is a text for the tree. -/
theorem readRaw_iff (s : Str) (e : Elem) : readRaw s = some e ↔ s.all isXmlChar = true ∧ DocText e (normalizeEol s) := by
  constructor
  · intro h
    unfold readRaw at h
    split at h
    · rename_i hx
      refine ⟨hx, ?_⟩
      dsimp only at h
      split at h
      · cases h
      rename_i r1 h1
      split at h
      · cases h
      rename_i e' r2 h2
      split at h
      · rename_i h3
        cases h
        obtain ⟨a, ha, hma⟩ := readProlog_some h1
        obtain ⟨t, ht, hte⟩ := readElem_some h2
        exact ⟨a, _, r2, by rw [ha, ht]; simp, hma, hte, epilogOk_misc h3⟩
      · cases h
    · cases h
  · rintro ⟨hx, a, body, b, hs, ha, he, hb⟩
    obtain ⟨c, w, rfl, hc⟩ := elemText_head he
    unfold readRaw
    rw [if_pos hx]
    dsimp only
    rw [hs]
    have h1 := miscText_prolog ha hc ((a ++ ('<' :: c :: w ++ b)).length + 1) (w ++ b) (by simp only [List.length_append]; omega)
    simp only [List.cons_append] at h1 ⊢
    rw [h1]
    dsimp only
    have h2 := elemText_read he (c :: w) rfl ((c :: (w ++ b)).length + 1) b (by simp only [List.length_append, List.length_cons]; omega)
    simp only [List.cons_append] at h2
    rw [h2]
    dsimp only
    rw [if_pos (miscText_epilog hb _ (by omega))]

end Resync
