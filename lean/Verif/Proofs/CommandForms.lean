import Verif.Proofs.CommandWords
/-
Lines written in the usual forms are parsed (C110).
-/

namespace Resync
open Py Resync.Spec

/-- an option closes the positional arguments -/
def ArgSt.close (s : ArgSt) : ArgSt := if s.map = [] then s else { s with closed := true }

theorem plain_token (p : ParserDef) {w : Str} (h : PlainWord w) : p.parseOptional w = .ok .arg ∧ w ≠ ['-', '-'] := by
  refine ⟨?_, fun e => h ['-'] e⟩
  unfold ParserDef.parseOptional
  split
  · rename_i rest
    exact absurd rfl (h rest)
  · rfl

theorem negativeNumber_iff (s : Str) : negativeNumber s = true ↔ NegativeNumber s := by
  constructor
  · intro h
    unfold negativeNumber at h
    split at h
    · rename_i t
      have hd : ∀ c ∈ t.takeWhile isDigit, isDigit c = true := by
        intro c hc
        have := List.all_takeWhile (p := isDigit) (l := t)
        exact List.all_eq_true.mp this c hc
      have he : t = t.takeWhile isDigit ++ t.dropWhile isDigit := List.takeWhile_append_dropWhile.symm
      dsimp only at h
      rcases (Bool.or_eq_true _ _).mp h with h | h
      · obtain ⟨h1, h2⟩ := (Bool.and_eq_true _ _).mp h
        rw [List.isEmpty_iff] at h1
        rw [h1, List.append_nil] at he
        rw [he]
        exact .whole (by intro e; rw [e] at h2; simp at h2) hd
      · split at h
        · rename_i f hf
          obtain ⟨h1, h2⟩ := (Bool.and_eq_true _ _).mp h
          rw [he, hf]
          exact .fraction hd (by rintro rfl; simp at h1) (by simpa using h2)
        · cases h
    · cases h
  · intro h
    have htw : ∀ d r : Str, (∀ c ∈ d, isDigit c = true) → (r = [] ∨ ∃ f, r = '.' :: f) →
        (d ++ r).takeWhile isDigit = d ∧ (d ++ r).dropWhile isDigit = r := by
      intro d r hd hr
      induction d with
      | nil =>
        rcases hr with rfl | ⟨f, rfl⟩
        · exact ⟨rfl, rfl⟩
        · have : isDigit '.' = false := by decide
          simp [this]
      | cons c d ih =>
        have ih := ih (fun x hx => hd x (List.mem_cons_of_mem _ hx))
        have hc := hd c List.mem_cons_self
        rw [List.cons_append, List.takeWhile_cons, List.dropWhile_cons, if_pos hc, if_pos hc, ih.1, ih.2]
        exact ⟨rfl, rfl⟩
    cases h with
    | @whole d hne hd =>
      have := htw d [] hd (.inl rfl)
      rw [List.append_nil] at this
      show (((d.dropWhile isDigit).isEmpty && !(d.takeWhile isDigit).isEmpty) || (match d.dropWhile isDigit with
        | '.' :: f => !f.isEmpty && f.all isDigit
        | _ => false)) = true
      rw [this.1, this.2]
      cases d with
      | nil => exact absurd rfl hne
      | cons c d => rfl
    | @fraction d f hd hne hf =>
      have := htw d ('.' :: f) hd (.inr ⟨f, rfl⟩)
      show ((((d ++ '.' :: f).dropWhile isDigit).isEmpty && !((d ++ '.' :: f).takeWhile isDigit).isEmpty) ||
        (match (d ++ '.' :: f).dropWhile isDigit with
        | '.' :: f => !f.isEmpty && f.all isDigit
        | _ => false)) = true
      rw [this.1, this.2]
      cases f with
      | nil => exact absurd rfl hne
      | cons c f => simpa using hf

/-- what is made of a word that begins with a dash and a digit or a dot -/
theorem dash_digit_token {p : ParserDef} (hp : ParserOk p) {c : Char} (hc : isDigit c = true ∨ c = '.') (t : Str) :
    p.parseOptional ('-' :: c :: t) = if negativeNumber ('-' :: c :: t) = true ∨ ' ' ∈ '-' :: c :: t then .ok .arg
      else .ok (.opt none ('-' :: c :: t) false none) := by
  have hno : ∀ o ∈ p.opts, ∀ r, '-' :: c :: r ∉ o.strings := by
    intro o ho r hm
    have := hp.digits o ho _ hm c (by simp)
    rcases hc with hc | hc
    · rw [this.1] at hc; cases hc
    · exact this.2 hc
  have hfind : ∀ r, p.find ('-' :: c :: r) = none := by
    intro r
    cases hf : p.find ('-' :: c :: r) with
    | none => rfl
    | some o => exact absurd (find_some hf).2 (hno o (find_some hf).1 r)
  have hcd : c ≠ '-' := by
    rintro rfl
    rcases hc with hc | hc
    · exact absurd hc (by decide)
    · exact absurd hc (by decide)
  have hce : c ≠ '=' := by
    rintro rfl
    rcases hc with hc | hc
    · exact absurd hc (by decide)
    · exact absurd hc (by decide)
  have htup : p.optionTuples ('-' :: c :: t) = [] := by
    unfold ParserDef.optionTuples
    split
    · rename_i h
      simp only [List.cons.injEq, true_and] at h
      exact absurd h.1 hcd
    · rename_i c' t' h
      simp only [List.cons.injEq, true_and] at h
      obtain ⟨rfl, rfl⟩ := h
      rw [List.flatMap_eq_nil_iff]
      intro o ho
      rw [List.filterMap_eq_nil_iff]
      intro x hx
      rw [if_neg (by rintro rfl; exact hno o ho _ hx), if_neg]
      intro hq
      obtain ⟨r, hr⟩ := startsWith_prefix.mp hq
      rw [← hr] at hx
      exact hno o ho _ hx
    · rfl
  have hb : p.parseBegun ('-' :: c :: t) = if negativeNumber ('-' :: c :: t) = true ∨ ' ' ∈ '-' :: c :: t then .ok .arg
      else .ok (.opt none ('-' :: c :: t) false none) := by
    unfold ParserDef.parseBegun
    rw [htup]
    dsimp only
    by_cases h1 : negativeNumber ('-' :: c :: t) = true
    · rw [if_pos h1, if_pos (.inl h1)]
    · rw [if_neg h1]
      by_cases h2 : ' ' ∈ '-' :: c :: t
      · rw [if_pos h2, if_pos (.inr h2)]
      · rw [if_neg h2, if_neg (by rintro (h | h); exacts [h1 h, h2 h])]
  rw [parseOptional_dash (hfind t)]
  split
  · rename_i pre v hpv
    have : ∃ r, pre = '-' :: c :: r := by
      rw [partitionEq, if_neg (by decide), partitionEq, if_neg hce] at hpv
      exact ⟨_, (congrArg Prod.fst hpv).symm⟩
    obtain ⟨r, rfl⟩ := this
    rw [hfind r]
    exact hb
  · exact hb

theorem number_token {p : ParserDef} (hp : ParserOk p) {v : Str} (h : NegativeNumber v) : p.parseOptional v = .ok .arg ∧ v ≠ ['-', '-'] := by
  have hn := (negativeNumber_iff v).mpr h
  have : ∃ c t, v = '-' :: c :: t ∧ (isDigit c = true ∨ c = '.') := by
    cases h with
    | @whole d hne hd =>
      cases d with
      | nil => exact absurd rfl hne
      | cons c d => exact ⟨c, d, rfl, .inl (hd c List.mem_cons_self)⟩
    | @fraction d f hd hne hf =>
      cases d with
      | nil => exact ⟨'.', f, rfl, .inr rfl⟩
      | cons c d => exact ⟨c, _, rfl, .inl (hd c List.mem_cons_self)⟩
  obtain ⟨c, t, rfl, hc⟩ := this
  refine ⟨?_, ?_⟩
  · rw [dash_digit_token hp hc, if_pos (.inl hn)]
  · intro e
    simp only [List.cons.injEq, true_and] at e
    rw [e.1] at hc
    rcases hc with hc | hc
    · exact absurd hc (by decide)
    · exact absurd hc (by decide)

theorem classify_cons {p : ParserDef} {w : Str} {t : Tok} (hw : w ≠ ['-', '-']) (ht : p.parseOptional w = .ok t) {rest : List Str}
    {ts : List (Str × Tok)} (h : p.classify rest = .ok ts) : p.classify (w :: rest) = .ok ((w, t) :: ts) := by
  unfold ParserDef.classify
  rw [if_neg hw, ht]
  dsimp only
  rw [h]

theorem loop_one {p : ParserDef} {cv : Convert} {w : Str} {o : OptDef} {str : Str} {eq : Bool} {ex : Option Str}
    {gs : List (OptDef × Option Str)} (ht : ∀ nx, p.take nx o str eq ex = .ok { acts := gs }) (ts : List (Str × Tok)) (s s' : ArgSt)
    (hf : gs.foldlM (p.act cv) s.close = .ok s') : p.loop cv ((w, .opt (some o) str eq ex) :: ts) s = p.loop cv ts s' := by
  conv_lhs => unfold ParserDef.loop
  dsimp only
  rw [ht]
  dsimp only
  rw [List.append_nil]
  have : ({ (if s.map = [] then s else { s with closed := true } : ArgSt) with
      extras := (if s.map = [] then s else { s with closed := true } : ArgSt).extras } : ArgSt) = s.close := rfl
  rw [show gs.foldlM (p.act cv) ({ (if s.map = [] then s else { s with closed := true } : ArgSt) with
      extras := (if s.map = [] then s else { s with closed := true } : ArgSt).extras } : ArgSt) = .ok s' from by rw [this]; exact hf]
  dsimp only
  cases ts with
  | nil => unfold ParserDef.loop; rfl
  | cons x r => simp

theorem loop_two {p : ParserDef} {cv : Convert} {w v : Str} {o : OptDef} {str : Str} (ht : o.takes = true) (ts : List (Str × Tok))
    (s s' : ArgSt) (hf : [(o, some v)].foldlM (p.act cv) s.close = .ok s') :
    p.loop cv ((w, .opt (some o) str false none) :: (v, .arg) :: ts) s = p.loop cv ts s' := by
  conv_lhs => unfold ParserDef.loop
  dsimp only
  have htake : p.take (nextArg ((v, Tok.arg) :: ts)) o str false none = .ok { acts := [(o, some v)], next := true } := by
    unfold ParserDef.take nextArg takeNext
    rw [if_pos ht]
  rw [htake]
  dsimp only
  rw [List.append_nil]
  have : ({ (if s.map = [] then s else { s with closed := true } : ArgSt) with
      extras := (if s.map = [] then s else { s with closed := true } : ArgSt).extras } : ArgSt) = s.close := rfl
  rw [show [(o, some v)].foldlM (p.act cv) ({ (if s.map = [] then s else { s with closed := true } : ArgSt) with
      extras := (if s.map = [] then s else { s with closed := true } : ArgSt).extras } : ArgSt) = .ok s' from by rw [this]; exact hf]
  simp

theorem takes_iff (o : OptDef) : o.takes = true ↔ HasValue o := by
  unfold OptDef.takes HasValue
  cases o.kind <;> simp

theorem takes_false {o : OptDef} (h : ¬ HasValue o) : o.takes = false := by
  cases hb : o.takes with
  | false => rfl
  | true => exact absurd ((takes_iff o).mp hb) h

theorem takeLetters_flags {p : ParserDef} (hp : ParserOk p) (nx : Option Str) (l : List (Char × OptDef))
    (hl : ∀ x ∈ l, x.2 ∈ p.opts ∧ ¬ HasValue x.2 ∧ ['-', x.1] ∈ x.2.strings ∧ x.1 ≠ '-') (hne : l ≠ []) (o : OptDef) (ho : ¬ HasValue o) :
    p.takeLetters nx o (l.map (·.1)) = .ok { acts := (o, none) :: l.map (fun x => (x.2, none)) } := by
  induction l generalizing o with
  | nil => exact absurd rfl hne
  | cons x l ih =>
    obtain ⟨c, o'⟩ := x
    obtain ⟨h1, h2, h3, h4⟩ := hl (c, o') List.mem_cons_self
    dsimp only at h1 h2 h3 h4
    rw [List.map_cons]
    unfold ParserDef.takeLetters
    rw [takes_false ho]
    rw [if_neg (show ¬ (false = true) by decide), if_neg h4, find_of_string hp h1 h3]
    dsimp only
    cases l with
    | nil =>
      show (match takeNext o' nx with
        | .error e => .error e
        | .ok r => .ok { r with acts := (o, none) :: r.acts } : Except ParseEnd Taken) = _
      unfold takeNext
      rw [takes_false h2]
      rfl
    | cons y l =>
      obtain ⟨d, o''⟩ := y
      obtain ⟨g1, g2, g3, g4⟩ := hl (d, o'') (by simp)
      have hd : d ≠ '=' := by
        rintro rfl
        exact (hp.shape o'' g1 _ g3).2.1 (by simp)
      have := ih (fun x hx => hl x (List.mem_cons_of_mem _ hx)) (by simp) o' h2
      split
      · rename_i h
        split at h
        · rename_i hx; simp at hx
        · rename_i hx
          simp only [List.map_cons, List.cons.injEq] at hx
          exact absurd hx.1 hd
        · rw [this] at h; cases h
      · rename_i h
        split at h
        · rename_i hx; simp at hx
        · rename_i hx
          simp only [List.map_cons, List.cons.injEq] at hx
          exact absurd hx.1 hd
        · rw [this] at h
          cases h
          rfl

/-- words that give options do what they say -/
theorem gives_loop {p : ParserDef} (hp : ParserOk p) (cv : Convert) {gs : List (OptDef × Option Str)} {ws : List Str} (h : OptionWords p gs ws) :
    ∃ ts, (∀ rest ts', p.classify rest = .ok ts' → p.classify (ws ++ rest) = .ok (ts ++ ts')) ∧
      ∀ ts' (s s' : ArgSt), gs.foldlM (p.act cv) s.close = .ok s' → p.loop cv (ts ++ ts') s = p.loop cv ts' s' := by
  cases h with
  | @flag o w ho hv hn =>
    obtain ⟨str, ht⟩ := named_token hp ho hn
    refine ⟨[(w, .opt (some o) str false none)], fun rest ts' hr => classify_cons (named_shape hp ho hn).2.1 ht hr, ?_⟩
    intro ts' s s' hf
    refine loop_one (fun nx => ?_) ts' s s' hf
    unfold ParserDef.take takeNext
    rw [takes_false hv]
    rfl
  | @next o w v ho hv hn hpl =>
    obtain ⟨str, ht⟩ := named_token hp ho hn
    obtain ⟨k1, k2⟩ := plain_token p hpl
    refine ⟨[(w, .opt (some o) str false none), (v, .arg)],
      fun rest ts' hr => classify_cons (named_shape hp ho hn).2.1 ht (classify_cons k2 k1 hr), ?_⟩
    intro ts' s s' hf
    exact loop_two ((takes_iff o).mpr hv) ts' s s' hf
  | @number o w v ho hv hn hnum =>
    obtain ⟨str, ht⟩ := named_token hp ho hn
    obtain ⟨k1, k2⟩ := number_token hp hnum
    refine ⟨[(w, .opt (some o) str false none), (v, .arg)],
      fun rest ts' hr => classify_cons (named_shape hp ho hn).2.1 ht (classify_cons k2 k1 hr), ?_⟩
    intro ts' s s' hf
    exact loop_two ((takes_iff o).mpr hv) ts' s s' hf
  | @equals o w v ho hv hn =>
    obtain ⟨str, ht⟩ := named_eq_token hp ho hn v
    refine ⟨[(w ++ '=' :: v, .opt (some o) str true (some v))], fun rest ts' hr => classify_cons ?_ ht hr, ?_⟩
    · intro e
      have : '=' ∈ (['-', '-'] : Str) := by rw [← e]; simp
      simp at this
    intro ts' s s' hf
    refine loop_one (fun nx => ?_) ts' s s' hf
    unfold ParserDef.take takeEq
    dsimp only
    rw [if_pos (.inl rfl), (takes_iff o).mpr hv]
    rfl
  | @letter o c d t ho hv hs hc hd =>
    have ht := letter_token hp ho (t := t) hs hc hd
    refine ⟨[('-' :: c :: d :: t, .opt (some o) ['-', c] false (some (d :: t)))], fun rest ts' hr => classify_cons (by simp) ht hr, ?_⟩
    intro ts' s s' hf
    refine loop_one (fun nx => ?_) ts' s s' hf
    unfold ParserDef.take
    dsimp only
    rw [if_neg (by
      rintro (h | h)
      · cases h
      · have := startsWith_prefix.mp h
        simp at this
        exact hc this.symm)]
    unfold ParserDef.takeLetters
    rw [(takes_iff o).mpr hv]
    rfl
  | @letters l hlen hl =>
    match l, hlen, hl with
    | (c, o) :: (d, o') :: l, hlen, hl =>
      obtain ⟨h1, h2, h3, h4⟩ := hl (c, o) List.mem_cons_self
      obtain ⟨g1, g2, g3, g4⟩ := hl (d, o') (by simp)
      dsimp only at h1 h2 h3 h4
      have hd : d ≠ '=' := by
        rintro rfl
        exact (hp.shape o' g1 _ g3).2.1 (by simp)
      have ht := letter_token hp h1 (t := l.map (fun x : Char × OptDef => x.1)) h3 h4 hd
      refine ⟨[('-' :: c :: d :: l.map (fun x : Char × OptDef => x.1), .opt (some o) ['-', c] false (some (d :: l.map (fun x : Char × OptDef => x.1))))],
        fun rest ts' hr => classify_cons (by simp) ht hr, ?_⟩
      intro ts' s s' hf
      refine loop_one (fun nx => ?_) ts' s s' hf
      unfold ParserDef.take
      dsimp only
      rw [if_neg (by
        rintro (h | h)
        · cases h
        · have := startsWith_prefix.mp h
          simp at this
          exact h4 this.symm)]
      exact takeLetters_flags hp nx ((d, o') :: l) (fun x hx => hl x (List.mem_cons_of_mem _ hx)) (by simp) o h2

theorem givesAll_loop {p : ParserDef} (hp : ParserOk p) (cv : Convert) {gs : List (OptDef × Option Str)} {ws : List Str} (h : GivesAll p gs ws) :
    ∃ ts, (∀ rest ts', p.classify rest = .ok ts' → p.classify (ws ++ rest) = .ok (ts ++ ts')) ∧
      ∀ ts' (s : ArgSt) y, Ran p cv (s.ns, s.seen) gs y → ∃ b, p.loop cv (ts ++ ts') s =
        p.loop cv ts' { s with ns := y.1, seen := y.2, closed := b } ∧ (s.map = [] → b = s.closed) := by
  induction h with
  | nil =>
    refine ⟨[], fun rest ts' hr => hr, ?_⟩
    intro ts' s y hy
    cases hy
    exact ⟨s.closed, rfl, fun _ => rfl⟩
  | @cons g gs ws wss hg hgs ih =>
    obtain ⟨t1, a1, b1⟩ := gives_loop hp cv hg
    obtain ⟨t2, a2, b2⟩ := ih
    refine ⟨t1 ++ t2, ?_, ?_⟩
    · intro rest ts' hr
      rw [List.append_assoc, List.append_assoc]
      exact a1 _ _ (a2 _ _ hr)
    · intro ts' s y hy
      obtain ⟨z, hz1, hz2⟩ := ran_split hy
      have hc : (s.close.ns, s.close.seen) = (s.ns, s.seen) ∧ s.close.map = s.map ∧ (s.map = [] → s.close = s) ∧
          ∃ b, s.close = { s with closed := b } := by
        unfold ArgSt.close
        by_cases hm : s.map = []
        · rw [if_pos hm]; exact ⟨rfl, rfl, fun _ => rfl, s.closed, rfl⟩
        · rw [if_neg hm]; exact ⟨rfl, rfl, fun h => absurd h hm, true, rfl⟩
      have hf := ran_fold hz1 s.close hc.1
      rw [List.append_assoc, b1 _ s _ hf]
      obtain ⟨b, e, hb⟩ := b2 ts' { s.close with ns := z.1, seen := z.2 } y hz2
      refine ⟨b, ?_, ?_⟩
      · rw [e]
        obtain ⟨b', hb'⟩ := hc.2.2.2
        rw [hb']
      · intro hm
        rw [hb (by rw [hc.2.1]; exact hm), hc.2.2.1 hm]

theorem map_loop {p : ParserDef} (cv : Convert) {ms : List Str} (h : ∀ m ∈ ms, PlainWord m) :
    ∃ ts, (∀ rest ts', p.classify rest = .ok ts' → p.classify (ms ++ rest) = .ok (ts ++ ts')) ∧
      ∀ ts' (s : ArgSt), s.closed = false ∨ ms = [] → p.loop cv (ts ++ ts') s = p.loop cv ts' { s with map := s.map ++ ms } := by
  induction ms with
  | nil =>
    refine ⟨[], fun rest ts' hr => hr, ?_⟩
    intro ts' s _
    rw [List.append_nil]; rfl
  | cons m ms ih =>
    obtain ⟨t2, a2, b2⟩ := ih (fun x hx => h x (List.mem_cons_of_mem _ hx))
    obtain ⟨k1, k2⟩ := plain_token p (h m List.mem_cons_self)
    refine ⟨(m, .arg) :: t2, fun rest ts' hr => classify_cons k2 k1 (a2 _ _ hr), ?_⟩
    intro ts' s hs
    have hc : s.closed = false := by
      rcases hs with h | h
      · exact h
      · cases h
    rw [List.cons_append]
    conv_lhs => unfold ParserDef.loop
    rw [hc, if_neg (by decide), b2 ts' _ (.inl rfl)]
    simp

end Resync
