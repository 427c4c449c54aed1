import Verif.Proofs.CommandLine
import Verif.Proofs.XmlGrammar
/-
Lemmas about the words of a command line (C110).
-/

namespace Resync
open Py Resync.Spec

theorem find_some {p : ParserDef} {s : Str} {o : OptDef} (h : p.find s = some o) : o ∈ p.opts ∧ s ∈ o.strings :=
  ⟨List.mem_of_find?_eq_some h, by simpa using List.find?_some h⟩

theorem find_of_string {p : ParserDef} (hp : ParserOk p) {s : Str} {o : OptDef} (ho : o ∈ p.opts) (hs : s ∈ o.strings) :
    p.find s = some o := by
  cases h : p.find s with
  | none =>
    have := List.find?_eq_none.mp h o ho
    simp [hs] at this
  | some o' =>
    obtain ⟨h1, h2⟩ := find_some h
    rw [hp.strings o' h1 o ho s h2 hs]

theorem find_none {p : ParserDef} {s : Str} (h : p.find s = none) {o : OptDef} (ho : o ∈ p.opts) : s ∉ o.strings := by
  have := List.find?_eq_none.mp h o ho
  simpa using this

theorem partitionEq_none {s : Str} (h : '=' ∉ s) : partitionEq s = (s, none) := by
  induction s with
  | nil => rfl
  | cons c t ih =>
    unfold partitionEq
    rw [if_neg (by rintro rfl; simp at h), ih (by intro h'; exact h (List.mem_cons_of_mem _ h'))]

theorem partitionEq_some {n v : Str} (h : '=' ∉ n) : partitionEq (n ++ '=' :: v) = (n, some v) := by
  induction n with
  | nil => simp [partitionEq]
  | cons c t ih =>
    rw [List.cons_append]
    unfold partitionEq
    rw [if_neg (by rintro rfl; simp at h), ih (by intro h'; exact h (List.mem_cons_of_mem _ h'))]

theorem partitionEq_spec (s : Str) : ((partitionEq s).2 = none ∧ (partitionEq s).1 = s ∧ '=' ∉ s) ∨
    ∃ v, (partitionEq s).2 = some v ∧ s = (partitionEq s).1 ++ '=' :: v ∧ '=' ∉ (partitionEq s).1 := by
  induction s with
  | nil => left; simp [partitionEq]
  | cons c t ih =>
    unfold partitionEq
    by_cases e : c = '='
    · rw [if_pos e]
      right
      exact ⟨t, rfl, by rw [e]; rfl, by simp⟩
    · rw [if_neg e]
      dsimp only
      rcases ih with ⟨h1, h2, h3⟩ | ⟨v, h1, h2, h3⟩
      · left
        refine ⟨h1, by rw [h2], ?_⟩
        intro h
        rcases List.mem_cons.mp h with h | h
        · exact e h.symm
        · exact h3 h
      · right
        refine ⟨v, h1, by rw [List.cons_append, ← h2], ?_⟩
        intro h
        rcases List.mem_cons.mp h with h | h
        · exact e h.symm
        · exact h3 h

/-- a list joined from the parts of which only one is not empty -/
theorem flatMap_single {α β : Type} {f : α → List β} {l : List α} {a : α} {b : β} (hn : l.Nodup) (ha : a ∈ l) (hf : f a = [b])
    (hother : ∀ x ∈ l, x ≠ a → f x = []) : l.flatMap f = [b] := by
  induction l with
  | nil => cases ha
  | cons x t ih =>
    rw [List.flatMap_cons]
    obtain ⟨hx, ht⟩ := List.nodup_cons.mp hn
    rcases List.mem_cons.mp ha with e | ha'
    · subst e
      rw [hf]
      have : t.flatMap f = [] := by
        rw [List.flatMap_eq_nil_iff]
        intro y hy
        exact hother y (List.mem_cons_of_mem _ hy) (by rintro rfl; exact hx hy)
      rw [this]; rfl
    · rw [hother x List.mem_cons_self (by rintro rfl; exact hx ha'), List.nil_append]
      exact ih ht ha' (fun y hy => hother y (List.mem_cons_of_mem _ hy))

theorem filter_single {α : Type} {q : α → Bool} {l : List α} {a : α} (hn : l.Nodup) (ha : a ∈ l) (hq : q a = true)
    (hother : ∀ x ∈ l, q x = true → x = a) : l.filter q = [a] := by
  induction l with
  | nil => cases ha
  | cons x t ih =>
    obtain ⟨hx, ht⟩ := List.nodup_cons.mp hn
    rcases List.mem_cons.mp ha with e | ha'
    · subst e
      rw [List.filter_cons_of_pos hq]
      have : t.filter q = [] := by
        rw [List.filter_eq_nil_iff]
        intro y hy hqy
        exact hx ((hother y (List.mem_cons_of_mem _ hy) hqy) ▸ hy)
      rw [this]
    · have : ¬ q x = true := by
        intro hqx
        exact hx ((hother x List.mem_cons_self hqx) ▸ ha')
      rw [List.filter_cons_of_neg this]
      exact ih ht ha' (fun y hy => hother y (List.mem_cons_of_mem _ hy))

theorem parseOptional_dash {p : ParserDef} {c : Char} {t : Str} (hf : p.find ('-' :: c :: t) = none) :
    p.parseOptional ('-' :: c :: t) =
      match partitionEq ('-' :: c :: t) with
      | (pre, some v) =>
        match p.find pre with
        | some o => .ok (.opt (some o) pre true (some v))
        | none => p.parseBegun ('-' :: c :: t)
      | _ => p.parseBegun ('-' :: c :: t) := by
  show (match p.find ('-' :: c :: t) with
    | some o => (.ok (.opt (some o) ('-' :: c :: t) false none) : Except ParseEnd Tok)
    | none => _) = _
  rw [hf]
  rfl

theorem parseOptional_found {p : ParserDef} {t : Str} {o : OptDef} (hf : p.find ('-' :: t) = some o) :
    p.parseOptional ('-' :: t) = .ok (.opt (some o) ('-' :: t) false none) := by
  show (match p.find ('-' :: t) with
    | some o => (.ok (.opt (some o) ('-' :: t) false none) : Except ParseEnd Tok)
    | none => _) = _
  rw [hf]

theorem optionTuples_long (p : ParserDef) (t : Str) : p.optionTuples ('-' :: '-' :: t) =
    p.opts.flatMap (fun o => (o.strings.filter (fun x => startsWith x (partitionEq ('-' :: '-' :: t)).1)).map (fun x =>
      .opt (some o) x (partitionEq ('-' :: '-' :: t)).2.isSome (partitionEq ('-' :: '-' :: t)).2)) := rfl

theorem named_shape {p : ParserDef} (hp : ParserOk p) {o : OptDef} (ho : o ∈ p.opts) {w : Str} (h : NamedBy p o w) :
    '=' ∉ w ∧ w ≠ ['-', '-'] ∧ ∃ c t, w = '-' :: c :: t := by
  cases h with
  | full hs =>
    obtain ⟨h1, h2, h3, h4⟩ := hp.shape o ho w hs
    refine ⟨h2, ?_, ?_⟩
    · rintro rfl
      have := h3 rfl
      simp at this
    · match w, h1, h3, h4 with
      | [], h1, _, _ => simp at h1
      | [c], h1, _, h4 =>
        have := h4 (by simp)
        simp at this
      | c :: d :: t, h1, _, _ =>
        simp at h1
        exact ⟨d, t, by rw [h1]⟩
  | begun hs h1 h2 h3 h4 h5 =>
    refine ⟨h3, ?_, ?_⟩
    · rintro rfl; simp at h2
    · obtain ⟨t, rfl⟩ := h1
      exact ⟨'-', t, rfl⟩

theorem begun_tuples {p : ParserDef} (hp : ParserOk p) {o : OptDef} (ho : o ∈ p.opts) {w s : Str} (hs : s ∈ o.strings) (hws : w <+: s)
    (huniq : ∀ o' ∈ p.opts, ∀ s' ∈ o'.strings, w <+: s' → o' = o ∧ s' = s) (b : Bool) (ex : Option Str) :
    p.opts.flatMap (fun o => (o.strings.filter (fun x => startsWith x w)).map (fun x => Tok.opt (some o) x b ex)) =
      [.opt (some o) s b ex] := by
  refine flatMap_single hp.once.1 ho ?_ ?_
  · rw [filter_single (q := fun x => startsWith x w) (hp.once.2 o ho) hs (startsWith_prefix.mpr hws) (fun x hx hq => (huniq o ho x hx (startsWith_prefix.mp hq)).2)]
    rfl
  · intro o' ho' hne
    rw [List.map_eq_nil_iff, List.filter_eq_nil_iff]
    intro x hx hq
    exact hne (huniq o' ho' x hx (startsWith_prefix.mp hq)).1

theorem named_token {p : ParserDef} (hp : ParserOk p) {o : OptDef} (ho : o ∈ p.opts) {w : Str} (h : NamedBy p o w) :
    ∃ str, p.parseOptional w = .ok (.opt (some o) str false none) := by
  obtain ⟨he, hne, c, t, hw⟩ := named_shape hp ho h
  have hfound : w ∈ o.strings → ∃ str, p.parseOptional w = .ok (.opt (some o) str false none) := by
    intro hs
    have := find_of_string hp ho hs
    subst hw
    exact ⟨_, parseOptional_found this⟩
  cases h with
  | full hs => exact hfound hs
  | @begun s hs h1 h2 h3 h4 h5 =>
    cases hf : p.find w with
    | some o' =>
      obtain ⟨k1, k2⟩ := find_some hf
      obtain ⟨rfl, -⟩ := h5 o' k1 w k2 (List.prefix_refl _)
      exact hfound k2
    | none =>
      obtain ⟨t', rfl⟩ := h1
      refine ⟨s, ?_⟩
      dsimp only [List.cons_append, List.nil_append] at hf h3 ⊢
      rw [parseOptional_dash hf, partitionEq_none h3]
      dsimp only
      unfold ParserDef.parseBegun
      rw [optionTuples_long, partitionEq_none h3]
      dsimp only
      rw [show ('-' :: '-' :: t' : Str) = ['-', '-'] ++ t' from rfl, begun_tuples hp ho hs h4 h5]
      rfl

theorem named_eq_token {p : ParserDef} (hp : ParserOk p) {o : OptDef} (ho : o ∈ p.opts) {w : Str} (h : NamedBy p o w) (v : Str) :
    ∃ str, p.parseOptional (w ++ '=' :: v) = .ok (.opt (some o) str true (some v)) := by
  obtain ⟨he, hne, c, t, hw⟩ := named_shape hp ho h
  have hnone : p.find (w ++ '=' :: v) = none := by
    cases hf : p.find (w ++ '=' :: v) with
    | none => rfl
    | some o' =>
      obtain ⟨k1, k2⟩ := find_some hf
      exact absurd (by simp) (hp.shape o' k1 _ k2).2.1
  have hfound : w ∈ o.strings → ∃ str, p.parseOptional (w ++ '=' :: v) = .ok (.opt (some o) str true (some v)) := by
    intro hs
    have := find_of_string hp ho hs
    have hpart := partitionEq_some (v := v) he
    subst hw
    dsimp only [List.cons_append] at hnone hpart ⊢
    rw [parseOptional_dash hnone, hpart]
    dsimp only
    rw [this]
    exact ⟨_, rfl⟩
  cases h with
  | full hs => exact hfound hs
  | @begun s hs h1 h2 h3 h4 h5 =>
    cases hf : p.find w with
    | some o' =>
      obtain ⟨k1, k2⟩ := find_some hf
      obtain ⟨rfl, -⟩ := h5 o' k1 w k2 (List.prefix_refl _)
      exact hfound k2
    | none =>
      have hpart := partitionEq_some (v := v) he
      obtain ⟨t', rfl⟩ := h1
      refine ⟨s, ?_⟩
      dsimp only [List.cons_append, List.nil_append] at hf h3 hnone hpart ⊢
      rw [parseOptional_dash hnone, hpart]
      dsimp only
      rw [hf]
      dsimp only
      unfold ParserDef.parseBegun
      rw [optionTuples_long, hpart]
      dsimp only
      rw [show ('-' :: '-' :: t' : Str) = ['-', '-'] ++ t' from rfl, begun_tuples hp ho hs h4 h5]
      rfl

/-- strings with one dash have two characters -/
theorem string_short {p : ParserDef} (hp : ParserOk p) {o : OptDef} (ho : o ∈ p.opts) {c : Char} {t : Str} (hc : c ≠ '-')
    (h : '-' :: c :: t ∈ o.strings) : t = [] := by
  have := (hp.shape o ho _ h).2.2.2 (by simp [hc])
  simpa using this

theorem letter_token {p : ParserDef} (hp : ParserOk p) {o : OptDef} (ho : o ∈ p.opts) {c d : Char} {t : Str} (hs : ['-', c] ∈ o.strings)
    (hc : c ≠ '-') (hd : d ≠ '=') :
    p.parseOptional ('-' :: c :: d :: t) = .ok (.opt (some o) ['-', c] false (some (d :: t))) := by
  have hce : c ≠ '=' := by
    rintro rfl
    exact (hp.shape o ho _ hs).2.1 (by simp)
  have hnone : ∀ t', p.find ('-' :: c :: d :: t') = none := by
    intro t'
    cases hf : p.find ('-' :: c :: d :: t') with
    | none => rfl
    | some o' =>
      obtain ⟨k1, k2⟩ := find_some hf
      have := string_short hp k1 hc k2
      simp at this
  have htup : p.optionTuples ('-' :: c :: d :: t) = [.opt (some o) ['-', c] false (some (d :: t))] := by
    unfold ParserDef.optionTuples
    split
    · rename_i h
      simp only [List.cons.injEq, true_and] at h
      exact absurd h.1 hc
    · rename_i c' t' _ h
      simp only [List.cons.injEq, true_and] at h
      obtain ⟨rfl, rfl⟩ := h
      have hno : ∀ o' ∈ p.opts, ∀ x ∈ o'.strings, startsWith x ('-' :: c :: d :: t) = false := by
        intro o' ho' x hx
        cases hq : startsWith x ('-' :: c :: d :: t) with
        | false => rfl
        | true =>
          obtain ⟨r, rfl⟩ := startsWith_prefix.mp hq
          have := string_short hp ho' hc hx
          simp at this
      have hmap : ∀ o' ∈ p.opts, o'.strings.filterMap (fun x =>
          if x = ['-', c] then some (Tok.opt (some o') x false (some (d :: t)))
          else if startsWith x ('-' :: c :: d :: t) then some (.opt (some o') x false none) else none) =
          (o'.strings.filter (fun x => decide (x = ['-', c]))).map (fun x => Tok.opt (some o') x false (some (d :: t))) := by
        intro o' ho'
        rw [← List.filterMap_eq_map, ← List.filterMap_eq_filter, List.filterMap_filterMap]
        apply List.filterMap_congr
        intro x hx
        by_cases e : x = ['-', c]
        · simp [e, Option.guard]
        · rw [if_neg e, hno o' ho' x hx]
          simp [e, Option.guard]
      refine flatMap_single hp.once.1 ho ?_ ?_
      · rw [hmap o ho, filter_single (hp.once.2 o ho) hs (by simp) (by simp)]
        rfl
      · intro o' ho' hne
        rw [hmap o' ho', List.map_eq_nil_iff, List.filter_eq_nil_iff]
        intro x hx hq
        have : x = ['-', c] := by simpa using hq
        subst this
        exact hne (hp.strings o' ho' o ho _ hx hs)
    · rename_i h2
      exact absurd rfl (h2 _ _)
  rw [parseOptional_dash (hnone t)]
  have hb : p.parseBegun ('-' :: c :: d :: t) = .ok (.opt (some o) ['-', c] false (some (d :: t))) := by
    unfold ParserDef.parseBegun
    rw [htup]
  have hpre : ∃ r, (partitionEq ('-' :: c :: d :: t)).1 = '-' :: c :: d :: r := by
    refine ⟨(partitionEq t).1, ?_⟩
    simp [partitionEq, hce, hd]
  obtain ⟨r, hr⟩ := hpre
  split
  · rename_i pre v hpv
    rw [hpv] at hr
    dsimp only at hr
    rw [hr, hnone]
    exact hb
  · exact hb

/-- what a word was taken for -/
theorem token_cases {p : ParserDef} (hp : ParserOk p) {w : Str} {o : OptDef} {str : Str} {eq : Bool} {ex : Option Str}
    (h : p.parseOptional w = .ok (.opt (some o) str eq ex)) :
    o ∈ p.opts ∧ ((eq = false ∧ ex = none ∧ NamedBy p o w) ∨
      (∃ n v, eq = true ∧ ex = some v ∧ w = n ++ '=' :: v ∧ NamedBy p o n) ∨
      ∃ c t, eq = false ∧ ex = some t ∧ str = ['-', c] ∧ c ≠ '-' ∧ w = '-' :: c :: t ∧ ['-', c] ∈ o.strings) := by
  unfold ParserDef.parseOptional at h
  split at h
  · rename_i rest
    cases hf : p.find ('-' :: rest) with
    | some o' =>
      rw [hf] at h
      simp only [Except.ok.injEq, Tok.opt.injEq, Option.some.injEq] at h
      obtain ⟨rfl, rfl, rfl, rfl⟩ := h
      obtain ⟨k1, k2⟩ := find_some hf
      exact ⟨k1, .inl ⟨rfl, rfl, .full k2⟩⟩
    | none =>
      rw [hf] at h
      dsimp only at h
      split at h
      · cases h
      · have hun : p.parseBegun ('-' :: rest) = .ok (.opt (some o) str eq ex) →
            p.optionTuples ('-' :: rest) = [.opt (some o) str eq ex] := by
          intro h
          unfold ParserDef.parseBegun at h
          split at h
          · cases h
          · rename_i t ht
            rw [ht]
            simp only [Except.ok.injEq] at h
            rw [h]
          · split at h
            · cases h
            · split at h <;> cases h
        have htup : p.optionTuples ('-' :: rest) = [.opt (some o) str eq ex] →
            o ∈ p.opts ∧ ((eq = false ∧ ex = none ∧ NamedBy p o ('-' :: rest)) ∨
              (∃ n v, eq = true ∧ ex = some v ∧ '-' :: rest = n ++ '=' :: v ∧ NamedBy p o n) ∨
              ∃ c t, eq = false ∧ ex = some t ∧ str = ['-', c] ∧ c ≠ '-' ∧ '-' :: rest = '-' :: c :: t ∧ ['-', c] ∈ o.strings) := by
          intro h
          unfold ParserDef.optionTuples at h
          split at h
          · rename_i r hr
            dsimp only at h
            generalize hpre : partitionEq ('-' :: rest) = q at h
            obtain ⟨n, e⟩ := q
            dsimp only at h
            have hmem : Tok.opt (some o) str eq ex ∈ p.opts.flatMap (fun o => (o.strings.filter (fun x => startsWith x n)).map
                (fun x => Tok.opt (some o) x e.isSome e)) := by rw [h]; simp
            simp only [List.mem_flatMap, List.mem_map, List.mem_filter, Tok.opt.injEq, Option.some.injEq] at hmem
            obtain ⟨o1, ho1, x, ⟨hx, hsx⟩, rfl, rfl, rfl, rfl⟩ := hmem
            have hall : ∀ o' ∈ p.opts, ∀ s' ∈ o'.strings, n <+: s' → o' = o1 ∧ s' = x := by
              intro o' ho' s' hs' hpre'
              have : Tok.opt (some o') s' e.isSome e ∈ p.opts.flatMap (fun o => (o.strings.filter (fun x => startsWith x n)).map
                  (fun x => Tok.opt (some o) x e.isSome e)) := by
                simp only [List.mem_flatMap, List.mem_map, List.mem_filter]
                exact ⟨o', ho', s', ⟨hs', startsWith_prefix.mpr hpre'⟩, rfl⟩
              rw [h] at this
              simpa using this
            have hlong : ['-', '-'] <+: n → 2 < n.length := by
              rintro ⟨r, rfl⟩
              cases r with
              | nil =>
                exfalso
                obtain ⟨oa, hoa, sa, hsa, ob, hob, sb, hsb, hne, h1, h2⟩ := hp.several
                exact hne (((hall oa hoa sa hsa (by simpa using h1)).2).trans ((hall ob hob sb hsb (by simpa using h2)).2).symm)
              | cons c r => simp
            refine ⟨ho1, ?_⟩
            have hspec := partitionEq_spec ('-' :: rest)
            rw [hpre] at hspec
            dsimp only at hspec
            rcases hspec with ⟨h1, h2, h3⟩ | ⟨v, h1, h2, h3⟩
            · left
              rw [h1]
              refine ⟨rfl, rfl, ?_⟩
              rw [← h2]
              have hdd : ['-', '-'] <+: n := by rw [h2, hr]; exact ⟨r, rfl⟩
              exact .begun hx hdd (hlong hdd) (by rw [h2]; exact h3) (startsWith_prefix.mp hsx) hall
            · right; left
              rw [h1]
              refine ⟨n, v, rfl, rfl, h2, ?_⟩
              have hdd : ['-', '-'] <+: n := by
                have hh : ['-', '-'] <+: n ++ '=' :: v := by rw [← h2, hr]; exact ⟨r, rfl⟩
                match n, hh with
                | [], hh => simp at hh
                | [a], hh => simp at hh
                | a :: b :: n, hh =>
                  simp at hh
                  rw [← hh.1, ← hh.2]
                  exact ⟨n, rfl⟩
              exact .begun hx hdd (hlong hdd) h3 (startsWith_prefix.mp hsx) hall
          · rename_i c t hc hr
            have hmem : Tok.opt (some o) str eq ex ∈ [Tok.opt (some o) str eq ex] := by simp
            rw [← h] at hmem
            simp only [List.mem_flatMap, List.mem_filterMap] at hmem
            obtain ⟨o1, ho1, x, hx, hxe⟩ := hmem
            have hcd : c ≠ '-' := by
              rintro rfl
              exact hc rfl
            split at hxe
            · rename_i hxc
              simp only [Option.some.injEq, Tok.opt.injEq] at hxe
              obtain ⟨rfl, rfl, rfl, rfl⟩ := hxe
              exact ⟨ho1, .inr (.inr ⟨c, t, rfl, rfl, hxc, hcd, hr, hxc ▸ hx⟩)⟩
            · split at hxe
              · rename_i hst
                exfalso
                obtain ⟨r, hxr⟩ := startsWith_prefix.mp hst
                rw [hr] at hxr
                rw [← hxr] at hx
                have := string_short hp ho1 hcd (t := t ++ r) hx
                simp only [List.append_eq_nil_iff] at this
                rename_i hxne
                apply hxne
                rw [← hxr, this.1, this.2]
                rfl
              · cases hxe
          · cases h
        split at h
        · rename_i pre v hpv
          split at h
          · rename_i o' hfo
            simp only [Except.ok.injEq, Tok.opt.injEq, Option.some.injEq] at h
            obtain ⟨rfl, rfl, rfl, rfl⟩ := h
            obtain ⟨k1, k2⟩ := find_some hfo
            refine ⟨k1, .inr (.inl ⟨pre, v, rfl, rfl, ?_, .full k2⟩)⟩
            have hspec := partitionEq_spec ('-' :: rest)
            rw [hpv] at hspec
            dsimp only at hspec
            rcases hspec with ⟨h1, _⟩ | ⟨v', h1, h2, _⟩
            · cases h1
            · cases h1; exact h2
          · exact htup (hun h)
        · exact htup (hun h)
  · cases h

/-! ### the words of a line that is classified -/

theorem classify_mem {p : ParserDef} {argv : List Str} {toks : List (Str × Tok)} (h : p.classify argv = .ok toks) {w : Str} {o : Option OptDef}
    {str : Str} {eq : Bool} {ex : Option Str} (hw : (w, Tok.opt o str eq ex) ∈ toks) :
    StandsIn w argv ∧ p.parseOptional w = .ok (.opt o str eq ex) := by
  induction argv generalizing toks with
  | nil => unfold ParserDef.classify at h; cases h; cases hw
  | cons s rest ih =>
    unfold ParserDef.classify at h
    split at h
    · cases h
      simp at hw
    · rename_i hs
      cases ht : p.parseOptional s with
      | error e => rw [ht] at h; cases h
      | ok t =>
        rw [ht] at h
        dsimp only at h
        cases hr : p.classify rest with
        | error e => rw [hr] at h; cases h
        | ok ts =>
          rw [hr] at h
          cases h
          rcases List.mem_cons.mp hw with e | hw'
          · simp only [Prod.mk.injEq] at e
            obtain ⟨rfl, rfl⟩ := e
            exact ⟨⟨[], rest, rfl, by simp⟩, ht⟩
          · obtain ⟨⟨pre, post, e, hpre⟩, h2⟩ := ih hr hw'
            refine ⟨⟨s :: pre, post, by rw [e]; rfl, ?_⟩, h2⟩
            intro hm
            rcases List.mem_cons.mp hm with e | hm'
            · exact hs e.symm
            · exact hpre hm'

theorem classify_stands {p : ParserDef} {argv : List Str} {toks : List (Str × Tok)} (h : p.classify argv = .ok toks) {w : Str}
    (hw : StandsIn w argv) (hne : w ≠ ['-', '-']) : ∃ t, p.parseOptional w = .ok t ∧ (w, t) ∈ toks := by
  obtain ⟨pre, post, rfl, hpre⟩ := hw
  induction pre generalizing toks with
  | nil =>
    rw [List.nil_append] at h
    unfold ParserDef.classify at h
    rw [if_neg hne] at h
    cases ht : p.parseOptional w with
    | error e => rw [ht] at h; cases h
    | ok t =>
      rw [ht] at h
      dsimp only at h
      cases hr : p.classify post with
      | error e => rw [hr] at h; cases h
      | ok ts =>
        rw [hr] at h
        cases h
        exact ⟨t, rfl, List.mem_cons_self⟩
  | cons s pre ih =>
    rw [List.cons_append] at h
    unfold ParserDef.classify at h
    rw [if_neg (by rintro rfl; simp at hpre)] at h
    cases ht : p.parseOptional s with
    | error e => rw [ht] at h; cases h
    | ok t =>
      rw [ht] at h
      dsimp only at h
      cases hr : p.classify (pre ++ w :: post) with
      | error e => rw [hr] at h; cases h
      | ok ts =>
        rw [hr] at h
        cases h
        obtain ⟨t', h1, h2⟩ := ih (by intro hm; exact hpre (List.mem_cons_of_mem _ hm)) hr
        exact ⟨t', h1, List.mem_cons_of_mem _ h2⟩

theorem classify_at {p : ParserDef} {pre post : List Str} {w : Str} {toks : List (Str × Tok)} (h : p.classify (pre ++ w :: post) = .ok toks)
    (hpre : ['-', '-'] ∉ pre) (hne : w ≠ ['-', '-']) :
    ∃ tpre t tpost, p.parseOptional w = .ok t ∧ toks = tpre ++ (w, t) :: tpost ∧ p.classify post = .ok tpost := by
  induction pre generalizing toks with
  | nil =>
    rw [List.nil_append] at h
    unfold ParserDef.classify at h
    rw [if_neg hne] at h
    cases ht : p.parseOptional w with
    | error e => rw [ht] at h; cases h
    | ok t =>
      rw [ht] at h
      dsimp only at h
      cases hr : p.classify post with
      | error e => rw [hr] at h; cases h
      | ok ts =>
        rw [hr] at h
        cases h
        exact ⟨[], t, ts, rfl, rfl, rfl⟩
  | cons s pre ih =>
    rw [List.cons_append] at h
    unfold ParserDef.classify at h
    rw [if_neg (by rintro rfl; simp at hpre)] at h
    cases ht : p.parseOptional s with
    | error e => rw [ht] at h; cases h
    | ok t =>
      rw [ht] at h
      dsimp only at h
      cases hr : p.classify (pre ++ w :: post) with
      | error e => rw [hr] at h; cases h
      | ok ts =>
        rw [hr] at h
        cases h
        obtain ⟨tpre, t', tpost, h1, rfl, h3⟩ := ih hr (by intro hm; exact hpre (List.mem_cons_of_mem _ hm))
        exact ⟨(s, t) :: tpre, t', tpost, h1, rfl, h3⟩

theorem takeEq_acts {o : OptDef} {v : Str} {t : Taken} (h : takeEq o v = .ok t) : o.takes = true ∧ t.acts = [(o, some v)] := by
  unfold takeEq at h
  split at h
  · rename_i ht
    cases h
    exact ⟨ht, rfl⟩
  · cases h

theorem takeNext_acts {o : OptDef} {nx : Option Str} {t : Taken} (h : takeNext o nx = .ok t) : t.acts.map (·.1) = [o] := by
  unfold takeNext at h
  split at h
  · split at h
    · cases h; rfl
    · cases h
  · cases h; rfl

theorem takeLetters_acts {p : ParserDef} {nx : Option Str} {v : Str} {o : OptDef} {t : Taken} (h : p.takeLetters nx o v = .ok t) :
    o ∈ t.acts.map (·.1) ∧ ∀ a ∈ t.acts, a.1 = o ∨ ∃ c ∈ v, p.find ['-', c] = some a.1 := by
  induction v generalizing o t with
  | nil =>
    unfold ParserDef.takeLetters at h
    obtain ⟨-, h2⟩ := takeEq_acts h
    rw [h2]
    simp
  | cons c v ih =>
    unfold ParserDef.takeLetters at h
    split at h
    · cases h; simp
    · split at h
      · cases h
      · cases hf : p.find ['-', c] with
        | none => rw [hf] at h; cases h; simp
        | some o' =>
          rw [hf] at h
          dsimp only at h
          split at h
          · cases h
          · rename_i r hr
            cases h
            refine ⟨by simp, ?_⟩
            have hsub : ∀ a ∈ r.acts, a.1 = o' ∨ ∃ c ∈ v, p.find ['-', c] = some a.1 := by
              split at hr
              · have := takeNext_acts hr
                intro a ha
                have hm : a.1 ∈ r.acts.map (·.1) := List.mem_map_of_mem ha
                rw [this] at hm
                left; simpa using hm
              · obtain ⟨-, h2⟩ := takeEq_acts hr
                rw [h2]
                simp
              · exact (ih hr).2
            intro a ha
            rcases List.mem_cons.mp ha with e | ha'
            · left; rw [e]
            · rcases hsub a ha' with e | ⟨d, hd, e⟩
              · exact .inr ⟨c, List.mem_cons_self, e ▸ hf⟩
              · exact .inr ⟨d, List.mem_cons_of_mem _ hd, e⟩

/-- what an option on the command line sets is mentioned there -/
theorem take_mentions {p : ParserDef} (hp : ParserOk p) {w : Str} {o : OptDef} {str : Str} {eq : Bool} {ex nx : Option Str} {t : Taken}
    (h : p.parseOptional w = .ok (.opt (some o) str eq ex)) (ht : p.take nx o str eq ex = .ok t) :
    o ∈ t.acts.map (·.1) ∧ ∀ a ∈ t.acts, a.1 ∈ p.opts ∧ Mentions p a.1 w := by
  obtain ⟨ho, hc⟩ := token_cases hp h
  rcases hc with ⟨rfl, rfl, hn⟩ | ⟨n, v, rfl, rfl, rfl, hn⟩ | ⟨c, t', rfl, rfl, rfl, hcd, rfl, hs⟩
  · unfold ParserDef.take at ht
    have := takeNext_acts ht
    refine ⟨by rw [this]; simp, ?_⟩
    intro a ha
    have hm : a.1 ∈ t.acts.map (·.1) := List.mem_map_of_mem ha
    rw [this] at hm
    have e : a.1 = o := by simpa using hm
    rw [e]
    exact ⟨ho, .named hn⟩
  · unfold ParserDef.take at ht
    dsimp only at ht
    rw [if_pos (.inl rfl)] at ht
    obtain ⟨h1, h2⟩ := takeEq_acts ht
    refine ⟨by rw [h2]; simp, ?_⟩
    intro a ha
    rw [h2] at ha
    have e : a = (o, some v) := by simpa using ha
    rw [e]
    refine ⟨ho, .equals ?_ hn⟩
    unfold OptDef.takes at h1
    constructor <;> (intro hk; rw [hk] at h1; cases h1)
  · unfold ParserDef.take at ht
    dsimp only at ht
    rw [if_neg (by
      rintro (h | h)
      · cases h
      · have := startsWith_prefix.mp h
        simp at this
        exact hcd this.symm)] at ht
    obtain ⟨h1, h2⟩ := takeLetters_acts ht
    refine ⟨h1, ?_⟩
    intro a ha
    rcases h2 a ha with e | ⟨d, hd, e⟩
    · rw [e]
      exact ⟨ho, .inside List.mem_cons_self hs (by simpa using hcd)⟩
    · obtain ⟨k1, k2⟩ := find_some e
      exact ⟨k1, .inside (List.mem_cons_of_mem _ hd) k2 (by simpa using hcd)⟩

end Resync
