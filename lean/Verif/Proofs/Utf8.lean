import Verif.Py.Utf8
/- UTF-8: the decoder inverts the encoder. -/

namespace Py

theorem toNat_ofNat8 {n : Nat} (h : n < 256) : (UInt8.ofNat n).toNat = n := by
  simp [UInt8.toNat_ofNat']; omega

theorem char_range (c : Char) : c.toNat.isValidChar := c.valid

theorem valid_bound {v : Nat} (h : v.isValidChar) : v < 0x110000 := by
  rcases h with h | ⟨_, h⟩
  · omega
  · exact h

theorem contBits_ofNat {x : Nat} (h : x < 64) : contBits (UInt8.ofNat (0x80 + x)) = some x := by
  unfold contBits
  rw [toNat_ofNat8 (by omega), if_pos (by omega), Nat.add_sub_cancel_left]

theorem codePoint_toNat {c : Char} {least : Nat} (h : least ≤ c.toNat) : codePoint least c.toNat = some c := by
  unfold codePoint
  rw [if_pos ⟨h, char_range c⟩, Char.ofNat_toNat]

theorem decode_char (c : Char) (t : List UInt8) : utf8Decode (utf8Char c ++ t) = (utf8Decode t).map (c :: ·) := by
  have hb := valid_bound (char_range c)
  have hv : ∀ v, v = c.toNat → utf8Decode ((if v < 0x80 then [UInt8.ofNat v]
    else if v < 0x800 then [UInt8.ofNat (0xC0 + v / 64), UInt8.ofNat (0x80 + v % 64)]
    else if v < 0x10000 then [UInt8.ofNat (0xE0 + v / 4096), UInt8.ofNat (0x80 + v / 64 % 64), UInt8.ofNat (0x80 + v % 64)]
    else [UInt8.ofNat (0xF0 + v / 262144), UInt8.ofNat (0x80 + v / 4096 % 64), UInt8.ofNat (0x80 + v / 64 % 64), UInt8.ofNat (0x80 + v % 64)]) ++ t)
      = (utf8Decode t).map (c :: ·) := by
    intro v hv
    have hcp : ∀ least, least ≤ v → codePoint least v = some c := by intro least h; rw [hv] at h ⊢; exact codePoint_toNat h
    split
    · rename_i h
      rw [List.singleton_append, utf8Decode.eq_def]
      dsimp only
      rw [toNat_ofNat8 (by omega), if_pos h, hv, Char.ofNat_toNat]
    · split
      · rename_i h0 h
        rw [List.cons_append, List.singleton_append, utf8Decode.eq_def]
        dsimp only
        rw [toNat_ofNat8 (by omega), if_neg (by omega), if_neg (by omega), if_pos (by omega), contBits_ofNat (by omega)]
        dsimp only
        rw [show (0xC0 + v / 64 - 0xC0) * 64 + v % 64 = v by omega, hcp _ (by omega)]
      · split
        · rename_i h0 h1 h
          rw [List.cons_append, List.cons_append, List.singleton_append, utf8Decode.eq_def]
          dsimp only
          rw [toNat_ofNat8 (by omega), if_neg (by omega), if_neg (by omega), if_neg (by omega), if_pos (by omega), contBits_ofNat (by omega),
            contBits_ofNat (by omega)]
          dsimp only
          rw [show (0xE0 + v / 4096 - 0xE0) * 4096 + v / 64 % 64 * 64 + v % 64 = v by omega, hcp _ (by omega)]
        · rename_i h0 h1 h
          rw [List.cons_append, List.cons_append, List.cons_append, List.singleton_append, utf8Decode.eq_def]
          dsimp only
          rw [toNat_ofNat8 (by omega), if_neg (by omega), if_neg (by omega), if_neg (by omega), if_neg (by omega), contBits_ofNat (by omega),
            contBits_ofNat (by omega), contBits_ofNat (by omega)]
          dsimp only
          rw [show (0xF0 + v / 262144 - 0xF0) * 262144 + v / 4096 % 64 * 4096 + v / 64 % 64 * 64 + v % 64 = v by omega, hcp _ (by omega)]
  exact hv _ rfl

theorem decode_append (p : Str) (t : List UInt8) : utf8Decode (utf8Encode p ++ t) = (utf8Decode t).map (p ++ ·) := by
  induction p with
  | nil => simp [utf8Encode]
  | cons c p ih =>
    have : utf8Encode (c :: p) ++ t = utf8Char c ++ (utf8Encode p ++ t) := by simp [utf8Encode]
    rw [this, decode_char, ih, Option.map_map]
    rfl

theorem utf8_decode_encode (s : Str) : utf8Decode (utf8Encode s) = some s := by
  have := decode_append s []
  simpa [utf8Decode] using this

theorem toNat_ofNat_char {n : Nat} (h : n.isValidChar) : (Char.ofNat n).toNat = n := by
  unfold Char.ofNat
  rw [dif_pos h]
  show (Char.ofNatAux n h).toNat = n
  unfold Char.ofNatAux Char.toNat
  rfl

theorem codePoint_some {least v : Nat} {c : Char} (h : codePoint least v = some c) : c.toNat = v ∧ least ≤ v := by
  unfold codePoint at h
  split at h
  · rename_i hv
    cases h
    exact ⟨toNat_ofNat_char hv.2, hv.1⟩
  · cases h

theorem contBits_some {b : UInt8} {x : Nat} (h : contBits b = some x) : b.toNat = 0x80 + x ∧ x < 64 := by
  unfold contBits at h
  split at h
  · rename_i hb
    simp only [Option.some.injEq] at h
    omega
  · cases h

theorem byte_eq {a : UInt8} {n : Nat} (h : a.toNat = n) : UInt8.ofNat n = a := by
  rw [← h]; exact UInt8.ofNat_toNat

/-- bytes that can be decoded are those of the text -/
theorem utf8_encode_decode : ∀ (b : List UInt8) (s : Str), utf8Decode b = some s → utf8Encode s = b := by
  intro b
  induction hn : b.length using Nat.strongRecOn generalizing b with
  | _ n ih =>
  intro s h
  cases b with
  | nil => rw [utf8Decode] at h; cases h; rfl
  | cons a t =>
    have step : ∀ (c : Char) (pre rest : List UInt8), a :: t = pre ++ rest → pre ≠ [] → utf8Char c = pre →
        (utf8Decode rest).map (c :: ·) = some s → utf8Encode s = a :: t := by
      intro c pre rest e hne hc hs
      cases hr : utf8Decode rest with
      | none => rw [hr] at hs; cases hs
      | some s' =>
        rw [hr] at hs
        simp only [Option.map_some, Option.some.injEq] at hs
        subst hs
        have hlen : rest.length < n := by
          have := congrArg List.length e
          have hp := List.length_pos_iff.mpr hne
          rw [List.length_append] at this
          omega
        have := ih rest.length hlen rest rfl s' hr
        rw [e]
        simp [utf8Encode] at this ⊢
        rw [hc, this]
    rw [utf8Decode.eq_def] at h
    dsimp only at h
    have ha := a.toNat_lt
    split at h
    · rename_i h0
      refine step _ [a] t rfl (by simp) ?_ h
      unfold utf8Char
      have : (Char.ofNat a.toNat).toNat = a.toNat := toNat_ofNat_char (.inl (by omega))
      simp only [this, if_pos h0, UInt8.ofNat_toNat]
    · split at h
      · cases h
      · split at h
        · split at h
          · rename_i b t'
            cases hx : contBits b with
            | none => rw [hx] at h; cases h
            | some x =>
              rw [hx] at h
              dsimp only at h
              cases hc : codePoint 0x80 ((a.toNat - 0xC0) * 64 + x) with
              | none => rw [hc] at h; cases h
              | some c =>
                rw [hc] at h
                obtain ⟨e1, e2⟩ := codePoint_some hc
                obtain ⟨e3, e4⟩ := contBits_some hx
                refine step c [a, b] t' rfl (by simp) ?_ h
                unfold utf8Char
                simp only
                rw [if_neg (by omega), if_pos (by omega), byte_eq (a := a) (by omega), byte_eq (a := b) (by omega)]
          · cases h
        · split at h
          · split at h
            · rename_i b b' t'
              cases hx : contBits b with
              | none => rw [hx] at h; cases h
              | some x =>
              cases hx' : contBits b' with
              | none => rw [hx, hx'] at h; cases h
              | some x' =>
                rw [hx, hx'] at h
                dsimp only at h
                cases hc : codePoint 0x800 ((a.toNat - 0xE0) * 4096 + x * 64 + x') with
                | none => rw [hc] at h; cases h
                | some c =>
                  rw [hc] at h
                  obtain ⟨e1, e2⟩ := codePoint_some hc
                  obtain ⟨e3, e4⟩ := contBits_some hx
                  obtain ⟨e5, e6⟩ := contBits_some hx'
                  refine step c [a, b, b'] t' rfl (by simp) ?_ h
                  unfold utf8Char
                  simp only
                  rw [if_neg (by omega), if_neg (by omega), if_pos (by omega), byte_eq (a := a) (by omega), byte_eq (a := b) (by omega),
                    byte_eq (a := b') (by omega)]
            · cases h
          · split at h
            · rename_i b b' b'' t'
              cases hx : contBits b with
              | none => rw [hx] at h; cases h
              | some x =>
              cases hx' : contBits b' with
              | none => rw [hx, hx'] at h; cases h
              | some x' =>
              cases hx'' : contBits b'' with
              | none => rw [hx, hx', hx''] at h; cases h
              | some x'' =>
                rw [hx, hx', hx''] at h
                dsimp only at h
                cases hc : codePoint 0x10000 ((a.toNat - 0xF0) * 262144 + x * 4096 + x' * 64 + x'') with
                | none => rw [hc] at h; cases h
                | some c =>
                  rw [hc] at h
                  obtain ⟨e1, e2⟩ := codePoint_some hc
                  obtain ⟨e3, e4⟩ := contBits_some hx
                  obtain ⟨e5, e6⟩ := contBits_some hx'
                  obtain ⟨e7, e8⟩ := contBits_some hx''
                  refine step c [a, b, b', b''] t' rfl (by simp) ?_ h
                  unfold utf8Char
                  simp only
                  rw [if_neg (by omega), if_neg (by omega), if_neg (by omega), byte_eq (a := a) (by omega), byte_eq (a := b) (by omega),
                    byte_eq (a := b') (by omega), byte_eq (a := b'') (by omega)]
            · cases h

/-- the beginning of the bytes of a text is that of a beginning of the text, or ends in the middle of a character -/
theorem utf8_prefix {b : List UInt8} {s p : Str} (h : b <+: utf8Encode s) (hp : utf8Decode b = some p) : p <+: s := by
  obtain ⟨rest, h⟩ := h
  rw [← utf8_encode_decode b p hp] at h
  have h1 := decode_append p rest
  rw [h, utf8_decode_encode] at h1
  cases hr : utf8Decode rest with
  | none => rw [hr] at h1; cases h1
  | some q =>
    rw [hr] at h1
    simp only [Option.map_some, Option.some.injEq] at h1
    exact ⟨q, h1.symm⟩

end Py
