import Verif.Proofs.CommandForms
import Verif.Props.Scripts
/-
C110: command lines.
-/

namespace Resync
open Py Resync.Spec

/-- C110 (the options).  The options of the three programs do not contradict each other. -/
theorem C110_parsers : ParserOk syncParser ∧ ParserOk buildParser ∧ ParserOk exploreParser := by
  refine ⟨⟨by decide +kernel, by decide +kernel, by decide +kernel, by decide +kernel, ?_, by decide +kernel⟩,
    ⟨by decide +kernel, by decide +kernel, by decide +kernel, by decide +kernel, ?_, by decide +kernel⟩,
    ⟨by decide +kernel, by decide +kernel, by decide +kernel, by decide +kernel, ?_, by decide +kernel⟩⟩ <;> decide +kernel

theorem parse_ok {p : ParserDef} {cv : Convert} {argv : List Str} {ns : Dict ArgVal} {map : List Str}
    (h : p.parse cv argv = .ok (ns, map)) : ∃ toks s, p.classify argv = .ok toks ∧ p.loop cv toks { closed := !p.positional } = .ok s ∧
      ns = s.ns ∧ map = s.map ∧ s.extras = [] ∧ (p.modes ≠ [] → s.seen ≠ []) := by
  unfold ParserDef.parse at h
  cases hc : p.classify argv with
  | error e => rw [hc] at h; cases h
  | ok toks =>
    rw [hc] at h
    dsimp only at h
    cases hl : p.loop cv toks { closed := !p.positional } with
    | error e => rw [hl] at h; cases h
    | ok s =>
      rw [hl] at h
      dsimp only at h
      split at h
      · cases h
      · rename_i hm
        split at h
        · cases h
        · rename_i he
          cases h
          refine ⟨toks, s, rfl, hl, rfl, rfl, by simpa using he, ?_⟩
          intro h1 h2
          exact hm ⟨h1, h2⟩

/-- C110 (lines that are understood).  A proper command line is accepted, whatever the order of the options: each option is set to what
was given for it, and the mapping arguments are those given. -/
theorem C110_accepts (p : ParserDef) (hp : ParserOk p) (cv : Convert) (gs : List (OptDef × Option Str)) (ms argv : List Str)
    (h : CommandFor p cv gs ms argv) :
    ∃ ns, p.parse cv argv = .ok (ns, ms) ∧ ∀ o ∈ p.opts, dget ns o.dest = setting cv o (valuesOf o gs) := by
  obtain ⟨⟨gs₁, ws₁, gs₂, ws₂, h1, h2, rfl, rfl⟩, hpl, hpos, hval, m, hm1, hm2⟩ := h
  obtain ⟨t1, a1, b1⟩ := givesAll_loop hp cv h1
  obtain ⟨t2, a2, b2⟩ := map_loop (p := p) cv hpl
  obtain ⟨t3, a3, b3⟩ := givesAll_loop hp cv h2
  obtain ⟨y, hr, hy⟩ := ran_exists hval hm1 ([], []) (by simp)
  obtain ⟨z, hr1, hr2⟩ := ran_split hr
  have hcl : p.classify (ws₁ ++ (ms ++ ws₂)) = .ok (t1 ++ (t2 ++ (t3 ++ []))) := by
    apply a1
    apply a2
    have := a3 [] [] rfl
    rwa [List.append_nil] at this
  obtain ⟨c1, e1, hc1⟩ := b1 (t2 ++ (t3 ++ [])) { closed := !p.positional } z hr1
  have e2 := b2 (t3 ++ []) { ns := z.1, seen := z.2, closed := c1 } (by
    rcases hpos with h | h
    · left; rw [hc1 rfl, h]; rfl
    · exact .inr h)
  obtain ⟨c3, e3, -⟩ := b3 [] { ns := z.1, seen := z.2, map := ms, closed := c1 } y hr2
  have hloop : p.loop cv (t1 ++ (t2 ++ (t3 ++ []))) { closed := !p.positional } =
      .ok { ns := y.1, seen := y.2, map := ms, closed := c3 } := by
    rw [e1]
    refine e2.trans (e3.trans ?_)
    unfold ParserDef.loop
    rfl
  have hseen := ran_seen hr (by simp)
  refine ⟨y.1, ?_, ?_⟩
  · unfold ParserDef.parse
    rw [hcl]
    dsimp only
    rw [hloop]
    dsimp only
    rw [if_neg, if_neg (by simp)]
    rintro ⟨k1, k2⟩
    obtain ⟨g, hg, hgm⟩ := hm2 k1
    have := hseen.2.1 g hg hgm
    rw [k2] at this
    cases this
  · have hopts : ∀ gs ws, GivesAll p gs ws → ∀ g ∈ gs, g.1 ∈ p.opts := by
      intro gs ws h
      induction h with
      | nil => simp
      | cons hg _ ih =>
        intro g hgm
        rcases List.mem_append.mp hgm with hgm | hgm
        · cases hg with
          | flag ho => simp at hgm; rw [hgm]; exact ho
          | next ho => simp at hgm; rw [hgm]; exact ho
          | number ho => simp at hgm; rw [hgm]; exact ho
          | equals ho => simp at hgm; rw [hgm]; exact ho
          | letter ho => simp at hgm; rw [hgm]; exact ho
          | letters _ hl =>
            obtain ⟨x, hx, rfl⟩ := List.mem_map.mp hgm
            exact (hl x hx).1
        · exact ih g hgm
    have := ran_setting hp hr [] (by
      intro g hg
      rcases List.mem_append.mp hg with hg | hg
      · exact hopts _ _ h1 g hg
      · exact hopts _ _ h2 g hg) (by intro o _; rfl)
    simpa using this

/-- C110 (one mode).  In every line that is accepted, exactly one of the modes is set. -/
theorem C110_one_mode (p : ParserDef) (cv : Convert) (argv : List Str) (ns : Dict ArgVal) (map : List Str)
    (h : p.parse cv argv = .ok (ns, map)) (hm : p.modes ≠ []) :
    ∃ m ∈ p.modes, dget ns m ≠ none ∧ ∀ m' ∈ p.modes, dget ns m' ≠ none → m' = m := by
  obtain ⟨toks, s, hc, hl, rfl, rfl, -, hs⟩ := parse_ok h
  obtain ⟨acts, h1, h2, -⟩ := loop_acts (Nat.le_refl _) hl
  obtain ⟨k1, k2, -⟩ := ran_seen h1 (by simp)
  obtain ⟨m, r, hr⟩ := List.exists_cons_of_ne_nil (hs hm)
  have hmem : m ∈ s.seen := by rw [hr]; exact List.mem_cons_self
  refine ⟨m, (k1 m hmem).1, (k1 m hmem).2.1, ?_⟩
  intro m' hm' hd
  rcases ran_key h1 hd with h | ⟨a, ha, rfl⟩
  · exact absurd rfl h
  · exact ((k1 m hmem).2.2 _ (k2 a ha hm')).symm

/-- C110 (a word that counts).  In every line that is accepted, a word that names an option, before any `--`, sets it. -/
theorem C110_word_counts (p : ParserDef) (hp : ParserOk p) (cv : Convert) (argv : List Str) (ns : Dict ArgVal) (map : List Str)
    (h : p.parse cv argv = .ok (ns, map)) (o : OptDef) (ho : o ∈ p.opts) (w : Str) (hn : NamedBy p o w) (hw : StandsIn w argv) :
    dget ns o.dest ≠ none ∧ (o.kind = .flag → dget ns o.dest = some .yes) := by
  obtain ⟨toks, s, hc, hl, rfl, rfl, -, -⟩ := parse_ok h
  obtain ⟨acts, h1, h2, h3, -⟩ := loop_acts (Nat.le_refl _) hl
  obtain ⟨str, ht⟩ := named_token hp ho hn
  obtain ⟨t, ht', hmem⟩ := classify_stands hc hw (named_shape hp ho hn).2.1
  rw [ht] at ht'
  cases ht'
  obtain ⟨tpre, tpost, e⟩ := List.append_of_mem hmem
  obtain ⟨t, htk, hsub, -⟩ := h3 _ _ _ _ _ _ _ e
  obtain ⟨k1, -⟩ := take_mentions hp ht htk
  obtain ⟨a, ha, rfl⟩ := List.mem_map.mp k1
  have hset := ran_sets h1 (hsub a ha)
  refine ⟨hset, ?_⟩
  intro hk
  have hacts : ∀ b ∈ acts, b.1 ∈ p.opts := by
    intro b hb
    obtain ⟨w, o, str, eq, ex, nx, t, hw, ht, hbt⟩ := h2 b hb
    exact ((take_mentions hp (classify_mem hc hw).2 ht).2 b hbt).1
  have hs := ran_setting hp h1 [] hacts (by intro o _; rfl) a.1 ho
  rw [hs] at hset ⊢
  unfold setting at hset ⊢
  rw [hk] at hset ⊢
  split at hset
  · exact absurd rfl hset
  · rfl

/-- C110 (nothing else counts).  In every line that is accepted, an option is set only if a word of the line mentions it. -/
theorem C110_meant (p : ParserDef) (hp : ParserOk p) (cv : Convert) (argv : List Str) (ns : Dict ArgVal) (map : List Str)
    (h : p.parse cv argv = .ok (ns, map)) (o : OptDef) (ho : o ∈ p.opts) (hd : dget ns o.dest ≠ none) :
    ∃ w, StandsIn w argv ∧ Mentions p o w := by
  obtain ⟨toks, s, hc, hl, rfl, rfl, -, -⟩ := parse_ok h
  obtain ⟨acts, h1, h2, h3, -⟩ := loop_acts (Nat.le_refl _) hl
  rcases ran_key h1 hd with h | ⟨a, ha, e⟩
  · exact absurd rfl h
  · obtain ⟨w, o', str, eq, ex, nx, t, hw, ht, hbt⟩ := h2 a ha
    obtain ⟨k1, k2⟩ := classify_mem hc hw
    obtain ⟨g1, g2⟩ := (take_mentions hp k2 ht).2 a hbt
    rw [hp.dests _ g1 _ ho e] at g2
    exact ⟨w, k1, g2⟩

theorem unknown_refused (p : ParserDef) (cv : Convert) (argv : List Str) (t : Str) (hw : StandsIn ('-' :: '-' :: t) argv) (ht : t ≠ [])
    (hsp : ' ' ∉ t) (hno : ∀ o ∈ p.opts, ∀ s ∈ o.strings, ¬ (partitionEq ('-' :: '-' :: t)).1 <+: s) : ∃ e, p.parse cv argv = .error e := by
  cases hp : p.parse cv argv with
  | error e => exact ⟨e, rfl⟩
  | ok r =>
    exfalso
    obtain ⟨ns, map⟩ := r
    obtain ⟨toks, s, hc, hl, rfl, rfl, he, -⟩ := parse_ok hp
    obtain ⟨acts, -, -, -, -, h5⟩ := loop_acts (Nat.le_refl _) hl
    obtain ⟨tok, htok, hmem⟩ := classify_stands hc hw (by simpa using ht)
    have htup : p.optionTuples ('-' :: '-' :: t) = [] := by
      rw [optionTuples_long, List.flatMap_eq_nil_iff]
      intro o ho
      rw [List.map_eq_nil_iff, List.filter_eq_nil_iff]
      intro x hx hq
      exact hno o ho x hx (startsWith_prefix.mp hq)
    have hb : p.parseBegun ('-' :: '-' :: t) = .ok (.opt none ('-' :: '-' :: t) false none) := by
      unfold ParserDef.parseBegun
      rw [htup]
      dsimp only
      rw [if_neg (by
        show ¬ (negativeNumber ('-' :: '-' :: t)) = true
        have : negativeNumber ('-' :: '-' :: t) = false := by
          unfold negativeNumber
          simp [isDigit, List.takeWhile, List.dropWhile]
        rw [this]; decide), if_neg (by simpa using hsp)]
    have hspec := partitionEq_spec ('-' :: '-' :: t)
    have hnf : ∀ x, (partitionEq ('-' :: '-' :: t)).1 <+: x → p.find x = none := by
      intro x hx
      cases hf : p.find x with
      | none => rfl
      | some o =>
        obtain ⟨k1, k2⟩ := find_some hf
        exact absurd hx (hno o k1 _ k2)
    have hf : p.find ('-' :: '-' :: t) = none := by
      apply hnf
      rcases hspec with ⟨-, h, -⟩ | ⟨v, -, h, -⟩
      · rw [h]; exact List.prefix_refl _
      · exact ⟨'=' :: v, h.symm⟩
    rw [parseOptional_dash hf] at htok
    have : tok = .opt none ('-' :: '-' :: t) false none := by
      split at htok
      · rename_i pre v hpv
        have := hnf pre (by rw [hpv]; exact List.prefix_refl _)
        rw [this] at htok
        dsimp only at htok
        rw [hb] at htok
        cases htok; rfl
      · rw [hb] at htok
        cases htok; rfl
    subst this
    exact h5 _ _ _ _ hmem he

/-- C110 (unknown options).  A line with a word `--name` or `--name=value` whose name begins no option's string, before any `--` and without
a space, is refused. -/
theorem C110_unknown (p : ParserDef) (cv : Convert) (argv : List Str) (n v : Str) (hn : n ≠ []) (he : '=' ∉ n) (hsp : ' ' ∉ n ∧ ' ' ∉ v)
    (hno : ∀ o ∈ p.opts, ∀ s ∈ o.strings, ¬ ('-' :: '-' :: n) <+: s)
    (hw : StandsIn ('-' :: '-' :: n) argv ∨ StandsIn ('-' :: '-' :: n ++ '=' :: v) argv) : ∃ e, p.parse cv argv = .error e := by
  have he' : '=' ∉ '-' :: '-' :: n := by simpa using he
  rcases hw with hw | hw
  · refine unknown_refused p cv argv n hw hn hsp.1 ?_
    rw [partitionEq_none he']
    exact hno
  · refine unknown_refused p cv argv (n ++ '=' :: v) hw (by simp) (by simp [hsp]) ?_
    have := partitionEq_some (v := v) he'
    dsimp only [List.cons_append] at this
    rw [this]
    exact hno

/-- C110 (numbers).  A word that begins with a dash and a digit or a dot, has no space and is not a negative number, has no place in any
line: before any `--` it is neither an option nor a value nor an argument.  (Negative numbers are values: see OptionWords.) -/
theorem C110_no_number (p : ParserDef) (hp : ParserOk p) (cv : Convert) (argv : List Str) (c : Char) (t : Str)
    (hc : isDigit c = true ∨ c = '.') (hsp : ' ' ∉ c :: t) (hn : ¬ NegativeNumber ('-' :: c :: t)) (hw : StandsIn ('-' :: c :: t) argv) :
    ∃ e, p.parse cv argv = .error e := by
  cases h : p.parse cv argv with
  | error e => exact ⟨e, rfl⟩
  | ok r =>
    exfalso
    obtain ⟨ns, map⟩ := r
    obtain ⟨toks, s, hcl, hl, rfl, rfl, he, -⟩ := parse_ok h
    obtain ⟨acts, -, -, -, -, h5⟩ := loop_acts (Nat.le_refl _) hl
    obtain ⟨tok, htok, hmem⟩ := classify_stands hcl hw (by
      intro e
      simp only [List.cons.injEq, true_and] at e
      rw [e.1] at hc
      rcases hc with hc | hc
      · exact absurd hc (by decide)
      · exact absurd hc (by decide))
    rw [dash_digit_token hp hc, if_neg (by
      rintro (h | h)
      · exact hn ((negativeNumber_iff _).mp h)
      · rcases List.mem_cons.mp h with h | h
        · exact absurd h (by decide)
        · exact hsp h)] at htok
    cases htok
    exact h5 _ _ _ _ hmem he

/-- C110 (choices).  In every line that is accepted, an option with choices has one of them. -/
theorem C110_choices (p : ParserDef) (hp : ParserOk p) (cv : Convert) (argv : List Str) (ns : Dict ArgVal) (map : List Str)
    (h : p.parse cv argv = .ok (ns, map)) (o : OptDef) (ho : o ∈ p.opts) (cs : List Str) (hk : o.kind = .choice cs) (v : ArgVal)
    (hd : dget ns o.dest = some v) : ∃ c ∈ cs, v = .str c := by
  obtain ⟨toks, s, hc, hl, rfl, rfl, -, -⟩ := parse_ok h
  obtain ⟨acts, h1, h2, -⟩ := loop_acts (Nat.le_refl _) hl
  have hacts : ∀ b ∈ acts, b.1 ∈ p.opts := by
    intro b hb
    obtain ⟨w, o, str, eq, ex, nx, t, hw, ht, hbt⟩ := h2 b hb
    exact ((take_mentions hp (classify_mem hc hw).2 ht).2 b hbt).1
  have hs := ran_setting hp h1 [] hacts (by intro o _; rfl) o ho
  rw [hd, List.nil_append] at hs
  unfold setting at hs
  rw [hk] at hs
  cases hlast : (valuesOf o acts).getLast? with
  | none => rw [hlast] at hs; cases hs
  | some x =>
    rw [hlast] at hs
    cases hs
    refine ⟨x, ?_, rfl⟩
    have hmem := List.mem_of_getLast? hlast
    unfold valuesOf at hmem
    obtain ⟨a, ha, rfl⟩ := List.mem_map.mp hmem
    obtain ⟨ha, hao⟩ := List.mem_filter.mp ha
    have hao : a.1 = o := by simpa using hao
    have := ran_acceptable h1 a ha
    unfold Acceptable at this
    rw [hao, hk] at this
    exact this

/-- C110 (missing values).  A line in which an option that has a value is named by the last word, or by one before a word that names an
option again, is refused. -/
theorem C110_missing_value (p : ParserDef) (hp : ParserOk p) (cv : Convert) (pre post : List Str) (w : Str) (o : OptDef) (ho : o ∈ p.opts)
    (hv : HasValue o) (hn : NamedBy p o w) (hpre : ['-', '-'] ∉ pre)
    (hpost : post = [] ∨ ∃ w' o' rest, post = w' :: rest ∧ o' ∈ p.opts ∧ NamedBy p o' w') :
    ∃ e, p.parse cv (pre ++ w :: post) = .error e := by
  cases h : p.parse cv (pre ++ w :: post) with
  | error e => exact ⟨e, rfl⟩
  | ok r =>
    exfalso
    obtain ⟨ns, map⟩ := r
    obtain ⟨toks, s, hc, hl, -, -, -, -⟩ := parse_ok h
    obtain ⟨acts, -, -, h3, -⟩ := loop_acts (Nat.le_refl _) hl
    obtain ⟨str, ht⟩ := named_token hp ho hn
    obtain ⟨tpre, t, tpost, k1, k2, k3⟩ := classify_at hc hpre (named_shape hp ho hn).2.1
    rw [ht] at k1
    cases k1
    obtain ⟨t, htk, -⟩ := h3 _ _ _ _ _ _ _ k2
    have hnx : nextArg tpost = none := by
      rcases hpost with rfl | ⟨w', o', rest, rfl, ho', hn'⟩
      · unfold ParserDef.classify at k3
        cases k3
        rfl
      · obtain ⟨str', ht'⟩ := named_token hp ho' hn'
        unfold ParserDef.classify at k3
        rw [if_neg (named_shape hp ho' hn').2.1, ht'] at k3
        dsimp only at k3
        cases hr : p.classify rest with
        | error e => rw [hr] at k3; cases k3
        | ok ts =>
          rw [hr] at k3
          cases k3
          rfl
    unfold ParserDef.take takeNext at htk
    dsimp only at htk
    rw [hnx, (takes_iff o).mpr hv] at htk
    cases htk

/-- C110 (unknown letters).  A line with a word `-xyz`, before any `--`, in which x, y, ... are letters of options without a value and the
one after them is the letter of no option, is refused. -/
theorem C110_unknown_letter (p : ParserDef) (hp : ParserOk p) (cv : Convert) (argv : List Str) (l : List (Char × OptDef)) (c : Char) (t : Str)
    (hl : ∀ x ∈ l, x.2 ∈ p.opts ∧ ¬ HasValue x.2 ∧ ['-', x.1] ∈ x.2.strings ∧ x.1 ≠ '-') (hne : l ≠ []) (hce : c ≠ '=')
    (hc : ∀ o ∈ p.opts, ['-', c] ∉ o.strings) (hw : StandsIn ('-' :: (l.map (·.1) ++ c :: t)) argv) : ∃ e, p.parse cv argv = .error e := by
  cases h : p.parse cv argv with
  | error e => exact ⟨e, rfl⟩
  | ok r =>
    exfalso
    obtain ⟨ns, map⟩ := r
    obtain ⟨toks, s, hcl, hlp, -, -, hex, -⟩ := parse_ok h
    obtain ⟨acts, -, -, h3, -⟩ := loop_acts (Nat.le_refl _) hlp
    obtain ⟨⟨a, o⟩, l, rfl⟩ := List.exists_cons_of_ne_nil hne
    obtain ⟨g1, g2, g3, g4⟩ := hl (a, o) List.mem_cons_self
    dsimp only at g1 g2 g3 g4
    have hnf : p.find ['-', c] = none := by
      cases hf : p.find ['-', c] with
      | none => rfl
      | some o' => exact absurd (find_some hf).2 (hc o' (find_some hf).1)
    have hletters : ∀ (nx : Option Str) (l : List (Char × OptDef)) (o : OptDef), ¬ HasValue o →
        (∀ x ∈ l, x.2 ∈ p.opts ∧ ¬ HasValue x.2 ∧ ['-', x.1] ∈ x.2.strings ∧ x.1 ≠ '-') → ∀ r,
        p.takeLetters nx o (l.map (fun x : Char × OptDef => x.1) ++ c :: t) = .ok r → r.extras ≠ [] := by
      intro nx l
      induction l with
      | nil =>
        intro o hov _ r hr
        rw [List.map_nil, List.nil_append] at hr
        unfold ParserDef.takeLetters at hr
        rw [takes_false hov, if_neg (show ¬ (false = true) by decide)] at hr
        split at hr
        · cases hr
        · rw [hnf] at hr
          cases hr
          simp
      | cons x l ih =>
        obtain ⟨d, o'⟩ := x
        intro o hov hl r hr
        obtain ⟨k1, k2, k3, k4⟩ := hl (d, o') List.mem_cons_self
        dsimp only at k1 k2 k3 k4
        rw [List.map_cons, List.cons_append] at hr
        unfold ParserDef.takeLetters at hr
        rw [takes_false hov, if_neg (show ¬ (false = true) by decide), if_neg k4, find_of_string hp k1 k3] at hr
        dsimp only at hr
        have hl' : ∀ x ∈ l, x.2 ∈ p.opts ∧ ¬ HasValue x.2 ∧ ['-', x.1] ∈ x.2.strings ∧ x.1 ≠ '-' := fun x hx => hl x (List.mem_cons_of_mem _ hx)
        split at hr
        · cases hr
        · rename_i r' hr'
          cases hr
          dsimp only
          split at hr'
          · rename_i he
            simp at he
          · rename_i v he
            exfalso
            cases l with
            | nil =>
              simp only [List.map_nil, List.nil_append, List.cons.injEq] at he
              exact hce he.1
            | cons y l =>
              simp only [List.map_cons, List.cons_append, List.cons.injEq] at he
              obtain ⟨q1, -, q3, -⟩ := hl' y List.mem_cons_self
              rw [he.1] at q3
              exact (hp.shape _ q1 _ q3).2.1 (by simp)
          · exact ih o' k2 hl' r' hr'
    obtain ⟨d, r, hdr⟩ : ∃ d r, l.map (fun x : Char × OptDef => x.1) ++ c :: t = d :: r := by
      cases l with
      | nil => exact ⟨c, t, rfl⟩
      | cons y l => exact ⟨y.1, _, rfl⟩
    have hde : d ≠ '=' := by
      cases l with
      | nil =>
        simp only [List.map_nil, List.nil_append, List.cons.injEq] at hdr
        rw [← hdr.1]; exact hce
      | cons y l =>
        simp only [List.map_cons, List.cons_append, List.cons.injEq] at hdr
        obtain ⟨q1, -, q3, -⟩ := hl y (by simp)
        rintro rfl
        rw [hdr.1] at q3
        exact (hp.shape _ q1 _ q3).2.1 (by simp)
    rw [List.map_cons, List.cons_append] at hw
    rw [hdr] at hw
    have htok := letter_token hp g1 (t := r) g3 g4 hde
    obtain ⟨tok, ht', hmem⟩ := classify_stands hcl hw (by simp)
    rw [htok] at ht'
    cases ht'
    obtain ⟨tpre, tpost, e⟩ := List.append_of_mem hmem
    obtain ⟨tk, htk, -, hx⟩ := h3 _ _ _ _ _ _ _ e
    unfold ParserDef.take at htk
    dsimp only at htk
    rw [if_neg (by
      rintro (h | h)
      · cases h
      · have := startsWith_prefix.mp h
        simp at this
        exact g4 this.symm), ← hdr] at htk
    exact hx (hletters _ l o g2 (fun x hx => hl x (List.mem_cons_of_mem _ hx)) tk htk) hex

/-- `--delay -1.5` gives a value, `-1.` and `-1e3` are refused everywhere -/
example : OptionWords syncParser [(opt ["--delay".toList] "delay".toList .float, some "-1.5".toList)] ["--delay".toList, "-1.5".toList] :=
  .number (by decide +kernel) ⟨by decide, by decide⟩ (.full (by decide)) ((negativeNumber_iff _).mp (by decide +kernel))

example : ¬ NegativeNumber "-1.".toList ∧ ¬ NegativeNumber "-1e3".toList ∧ NegativeNumber "-.5".toList ∧
    StandsIn "-1.".toList ["--baseline".toList, "--delay".toList, "-1.".toList] := by
  refine ⟨?_, ?_, ?_, ["--baseline".toList, "--delay".toList], [], rfl, by decide⟩ <;> rw [← negativeNumber_iff] <;> decide +kernel

end Resync
