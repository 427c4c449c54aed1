import Verif.Spec.ClientState
import Verif.Proofs.Dict
import Verif.Proofs.Path
import Verif.Proofs.SitemapDoc
import Mathlib.Data.List.Induction
import Mathlib.Data.List.Forall2
/-
Reading back what ConfigParser wrote, and what set_state does to the entries.
-/

namespace Resync
open Py Resync.Spec

theorem splitOn_lines (ls : List Str) (h : ∀ l ∈ ls, '\n' ∉ l) :
    splitOn '\n' (ls.flatMap (fun l => l ++ ['\n'])) = ls ++ [[]] := by
  induction ls with
  | nil => simp [splitOn]
  | cons l ls ih =>
    simp only [List.flatMap_cons, List.append_assoc, List.cons_append, List.nil_append]
    rw [splitOn_append_sep, splitOn_of_not_mem (h l (by simp)), ih (fun x hx => h x (by simp [hx]))]
    rfl

theorem textLines_lines (ls : List Str) (h : ∀ l ∈ ls, '\n' ∉ l) :
    textLines (ls.flatMap (fun l => l ++ ['\n'])) = ls := by
  simp [textLines, splitOn_lines ls h]

theorem dropWhile_clean {p : Char → Bool} {s : Str} (h : ∀ c ∈ s, p c = false) : s.dropWhile p = s := by
  cases s with
  | nil => rfl
  | cons a t => rw [List.dropWhile_cons_of_neg (by simp [h a])]

theorem rstrip_clean {s : Str} (h : ∀ c ∈ s, isSpace c = false) : rstrip s = s := by
  unfold rstrip
  rw [dropWhile_clean (fun c hc => h c (by simpa using hc)), List.reverse_reverse]

theorem strip_clean {s : Str} (h : ∀ c ∈ s, isSpace c = false) : strip s = s := by
  unfold strip
  rw [dropWhile_clean h, rstrip_clean h]

/-- only the ends matter -/
theorem strip_ends {s : Str} {a b : Char} (h1 : s.head? = some a) (h2 : s.getLast? = some b)
    (ha : isSpace a = false) (hb : isSpace b = false) : strip s = s := by
  unfold strip rstrip
  cases s with
  | nil => rfl
  | cons x t =>
    simp only [List.head?_cons, Option.some.injEq] at h1
    subst h1
    rw [List.dropWhile_cons_of_neg (by simp [ha])]
    rw [← List.head?_reverse] at h2
    cases hr : (x :: t).reverse with
    | nil => simp at hr
    | cons y u =>
      rw [hr] at h2
      simp only [List.head?_cons, Option.some.injEq] at h2
      subst h2
      rw [List.dropWhile_cons_of_neg (by simp [hb]), ← hr, List.reverse_reverse]

/-- a key as set_state makes it -/
def KeyOk (k : Str) : Prop := k ≠ [] ∧ lower k = k ∧ ∀ c ∈ k, isWordChar c = true

def ValueOk (v : Str) : Prop := v ≠ [] ∧ ∀ c ∈ v, isSpace c = false ∧ c ≠ '%'

theorem word_props {c : Char} (h : isWordChar c = true) :
    isSpace c = false ∧ c ≠ '=' ∧ c ≠ ':' ∧ c ≠ '#' ∧ c ≠ ';' ∧ c ≠ '[' ∧ c ≠ '\n' := by
  refine ⟨?_, ?_, ?_, ?_, ?_, ?_, ?_⟩
  rotate_left
  · rintro rfl; revert h; decide
  · rintro rfl; revert h; decide
  · rintro rfl; revert h; decide
  · rintro rfl; revert h; decide
  · rintro rfl; revert h; decide
  · rintro rfl; revert h; decide
  simp only [isWordChar, Char.isAlphanum, Char.isAlpha, Char.isUpper, Char.isLower, Char.isDigit, Bool.or_eq_true,
    Bool.and_eq_true, decide_eq_true_eq, beq_iff_eq, UInt32.le_iff_toNat_le] at h
  have hn : c.toNat = c.val.toNat := rfl
  simp only [isSpace, hn, Bool.or_eq_false_iff, Bool.and_eq_false_iff, decide_eq_false_iff_not, beq_eq_false_iff_ne]
  have h' : (65 ≤ c.val.toNat ∧ c.val.toNat ≤ 90 ∨ 97 ≤ c.val.toNat ∧ c.val.toNat ≤ 122) ∨
      (48 ≤ c.val.toNat ∧ c.val.toNat ≤ 57) ∨ c.val.toNat = 95 := by
    rcases h with (h | h) | h
    · left
      rcases h with h | h
      · left; exact h
      · right; exact h
    · right; left; exact h
    · right; right; rw [h]; rfl
  omega

theorem space_nl : isSpace '\n' = true := by decide

theorem takeWhile_append_stop {p : Char → Bool} {a : Str} {c : Char} {b : Str} (h : ∀ x ∈ a, p x = true) (hc : p c = false) :
    (a ++ c :: b).takeWhile p = a ∧ (a ++ c :: b).dropWhile p = c :: b := by
  induction a with
  | nil => simp [hc]
  | cons x a ih =>
    have := ih (fun y hy => h y (by simp [hy]))
    simp [h x (by simp), this]

def optLine (p : Str × Str) : Str := p.1 ++ " = ".toList ++ p.2

theorem optionLine_opt {k v : Str} (hk : KeyOk k) (hv : ValueOk v) : optionLine (optLine (k, v)) = some (k, v) := by
  unfold optionLine optLine
  have e : k ++ " = ".toList ++ v = (k ++ [' ']) ++ '=' :: (' ' :: v) := by simp
  rw [e]
  obtain ⟨h1, h2⟩ := takeWhile_append_stop (p := fun c => !(c == '=' || c == ':')) (a := k ++ [' ']) (c := '=') (b := ' ' :: v)
    (by
      intro x hx
      rcases List.mem_append.mp hx with h | h
      · have := word_props (hk.2.2 x h)
        simp [this.2.1, this.2.2.1]
      · rw [List.mem_singleton.mp h]; decide) (by decide)
  simp only [h1, h2]
  congr 2
  · unfold rstrip
    simp only [List.reverse_append, List.reverse_cons, List.reverse_nil, List.nil_append, List.cons_append]
    rw [List.dropWhile_cons_of_pos (by decide),
      dropWhile_clean (fun c hc => (word_props (hk.2.2 c (by simpa using hc))).1), List.reverse_reverse]
  · rw [List.dropWhile_cons_of_pos (by decide), dropWhile_clean (fun c hc => (hv.2 c hc).1)]

/-- reading an option line -/
theorem line_opt (s : CfgRead) (D : Dict (List Str)) (k v : Str) (hk : KeyOk k) (hv : ValueOk v)
    (hc : s.cur = some statusSection) (hi : s.indent = 0) (hs : s.sections = [(statusSection, D)])
    (hn : (statusSection, k) ∉ s.opts) (hD : k ∉ dkeys D) :
    s.line (optLine (k, v)) = .ok { s with
      sections := [(statusSection, D ++ [(k, [v])])], optname := k, opts := (statusSection, k) :: s.opts } := by
  obtain ⟨a, t, rfl⟩ := List.exists_cons_of_ne_nil hk.1
  have ha := word_props (hk.2.2 a (by simp))
  obtain ⟨z, hz⟩ : ∃ z, v.getLast? = some z := by
    cases h : v.getLast? with
    | none => rw [List.getLast?_eq_none_iff] at h; exact absurd h hv.1
    | some z => exact ⟨z, rfl⟩
  have hst : strip (optLine (a :: t, v)) = optLine (a :: t, v) := by
    refine strip_ends (a := a) (b := z) (by simp [optLine]) ?_ ha.1 (hv.2 z (List.mem_of_getLast? hz)).1
    simp only [optLine, List.getLast?_append, hz]; rfl
  unfold CfgRead.line
  simp only [hst]
  have hcm : (startsWith (optLine (a :: t, v)) ['#'] || startsWith (optLine (a :: t, v)) [';']) = false := by
    simp only [optLine, List.cons_append, startsWith, List.isPrefixOf, Bool.and_true, Bool.or_eq_false_iff, beq_eq_false_iff_ne]
    exact ⟨fun h => ha.2.2.2.1 h.symm, fun h => ha.2.2.2.2.1 h.symm⟩
  simp only [hcm, Bool.false_eq_true, if_false]
  rw [if_neg (by simp [optLine])]
  have hin : ((optLine (a :: t, v)).takeWhile isSpace).length = 0 := by
    simp [optLine, ha.1]
  rw [hin, if_neg (by simp)]
  have hsh : sectionHeader (optLine (a :: t, v)) = none := by
    simp only [optLine, List.cons_append]
    unfold sectionHeader
    split
    · rename_i h
      simp only [List.cons.injEq] at h
      exact absurd h.1 ha.2.2.2.2.2.1
    · rfl
  simp only [hsh, hc, optionLine_opt hk hv]
  have hr : lower (rstrip (a :: t)) = a :: t := by
    rw [rstrip_clean (fun c hc => (word_props (hk.2.2 c hc)).1), hk.2.1]
  simp only [reduceCtorEq, if_false, hr]
  rw [if_neg hn]
  have hnd : statusSection ≠ defaultSection := by decide
  simp only [CfgRead.setCur, CfgRead.curDict, if_neg hnd, hs, dget, if_true, Option.getD_some, dset]
  rw [dset_absent _ _ _ hD, strip_clean (fun c hc => (hv.2 c hc).1)]
  rw [← hi]

/-- all option lines -/
theorem lines_opts (d : Dict Str) : ∀ (s : CfgRead) (D : Dict (List Str)), (∀ p ∈ d, KeyOk p.1 ∧ ValueOk p.2) →
    (dkeys d).Nodup → s.cur = some statusSection → s.indent = 0 → s.sections = [(statusSection, D)] →
    (∀ p ∈ d, (statusSection, p.1) ∉ s.opts ∧ p.1 ∉ dkeys D) → ∃ s', (d.map optLine).foldlM CfgRead.line s = .ok s' ∧
      s'.cur = some statusSection ∧ s'.bad = s.bad ∧ s'.defaults = s.defaults ∧
      s'.sections = [(statusSection, D ++ d.map (fun p => (p.1, [p.2])))] ∧
      (d = [] → s'.optname = s.optname) ∧ (∀ p ∈ d.getLast?, s'.optname = p.1) := by
  induction d with
  | nil =>
    intro s D _ _ h1 h2 h3 _
    exact ⟨s, rfl, h1, rfl, rfl, by simp [h3], fun _ => rfl, by simp⟩
  | cons p d ih =>
    intro s D hok hnd h1 h2 h3 h4
    obtain ⟨k, v⟩ := p
    have hp := hok (k, v) (by simp)
    have h4p := h4 (k, v) (by simp)
    simp only [dkeys, List.map_cons, List.nodup_cons] at hnd
    simp only [List.map_cons, List.foldlM_cons]
    rw [line_opt s D k v hp.1 hp.2 h1 h2 h3 h4p.1 h4p.2]
    obtain ⟨s', e1, e2, e3, e4, e5, e6, e7⟩ := ih { s with
      sections := [(statusSection, D ++ [(k, [v])])], optname := k, opts := (statusSection, k) :: s.opts }
      (D ++ [(k, [v])]) (fun q hq => hok q (by simp [hq])) hnd.2 h1 h2 rfl (by
        intro q hq
        have := h4 q (by simp [hq])
        have hne : q.1 ≠ k := by
          rintro rfl
          exact hnd.1 (List.mem_map_of_mem hq)
        refine ⟨?_, ?_⟩
        · simp [hne, this.1]
        · simp only [dkeys, List.map_append, List.map_cons, List.map_nil, List.mem_append, List.mem_singleton, not_or]
          exact ⟨this.2, hne⟩)
    refine ⟨s', e1, e2, e3, e4, by simp [e5], by simp, ?_⟩
    intro q hq
    cases d with
    | nil =>
      simp only [List.getLast?_singleton, Option.mem_def, Option.some.injEq] at hq
      rw [e6 rfl, ← hq]
    | cons p' d' =>
      rw [List.getLast?_cons_cons] at hq
      exact e7 q hq

/-- a state file that holds exactly the entries `d` -/
def PlainState (d : Dict Str) : Prop := (∀ p ∈ d, KeyOk p.1 ∧ ValueOk p.2) ∧ (dkeys d).Nodup

theorem write_lines (d : Dict Str) (h : PlainState d) :
    Cfg.write { sections := [(statusSection, d)] } =
      (("[incremental]".toList :: d.map optLine) ++ [[]]).flatMap (fun l => l ++ ['\n']) := by
  have hv : ∀ p ∈ d, p.2.flatMap (fun c => if c = '\n' then ['\n', '\t'] else [c]) = p.2 := by
    intro p hp
    have := (h.1 p hp).2.2
    revert this
    generalize p.2 = v
    intro hv
    induction v with
    | nil => rfl
    | cons c v ih =>
      have : c ≠ '\n' := by
        rintro rfl
        have := (hv '\n' (by simp)).1
        rw [space_nl] at this; cases this
      simp only [List.flatMap_cons, if_neg this]
      rw [ih (fun x hx => hv x (by simp [hx]))]
      rfl
  have hd : d.flatMap (fun p => p.1 ++ " = ".toList ++ p.2.flatMap (fun c => if c = '\n' then ['\n', '\t'] else [c]) ++ ['\n']) =
      (d.map optLine).flatMap (fun l => l ++ ['\n']) := by
    rw [List.flatMap_map]
    refine List.flatMap_congr ?_
    intro p hp
    rw [hv p hp]
    rfl
  simp only [Cfg.write, if_true, List.flatMap_cons, List.flatMap_nil, List.append_nil, List.nil_append, writeSection, hd,
    List.flatMap_append]
  rw [List.append_assoc]
  rfl

def startState : CfgRead where
  sections := [(statusSection, [])]
  cur := some statusSection
  secs := [statusSection]

theorem read_write (d : Dict Str) (h : PlainState d) :
    cfgRead (Cfg.write { sections := [(statusSection, d)] }) = .ok { sections := [(statusSection, d)] } := by
  have hl : ∀ l ∈ ("[incremental]".toList :: d.map optLine) ++ [[]], '\n' ∉ l := by
    intro l hl
    simp only [List.cons_append, List.mem_cons, List.mem_append, List.mem_map, List.not_mem_nil, or_false] at hl
    rcases hl with rfl | ⟨p, hp, rfl⟩ | rfl
    · decide
    · have := h.1 p hp
      simp only [optLine, List.mem_append, not_or]
      refine ⟨⟨?_, by decide⟩, ?_⟩
      · intro hm; exact (word_props (this.1.2.2 _ hm)).2.2.2.2.2.2 rfl
      · intro hm
        have := (this.2.2 _ hm).1
        rw [space_nl] at this; cases this
    · simp
  unfold cfgRead
  rw [write_lines d h, textLines_lines _ hl]
  have h0 : CfgRead.line {} "[incremental]".toList = .ok startState := by
    rfl
  rw [List.foldlM_append, List.foldlM_cons, h0]
  obtain ⟨s', e1, e2, e3, e4, e5, e6, e7⟩ := lines_opts d startState [] h.1 h.2 rfl rfl rfl (by simp [dkeys, startState])
  have e1' : (Except.ok startState >>=
      fun s => List.foldlM CfgRead.line s (d.map optLine)) = (Except.ok s' : Except CfgErr CfgRead) := e1
  rw [e1']
  simp only [List.nil_append] at e5
  have hnd : statusSection ≠ defaultSection := by decide
  have hj : ∀ d : Dict Str, PlainState d → joinValues (d.map (fun p => (p.1, [p.2]))) = d := by
    intro d h
    unfold joinValues
    rw [List.map_map]
    conv => rhs; rw [← List.map_id d]
    refine List.map_congr_left ?_
    intro p hp
    simp only [Function.comp, join, id]
    rw [rstrip_clean (fun c hc => ((h.1 p hp).2.2 c hc).1)]
  show (do
    let s ← (do
      let s'' ← List.foldlM CfgRead.line s' [[]]
      pure s'')
    if s.bad then Except.error CfgErr.parse
      else Except.ok ({ defaults := joinValues s.defaults, sections := s.sections.map (fun (p : Str × Dict (List Str)) => (p.1, joinValues p.2)) } : Cfg)) = _
  simp only [List.foldlM_cons, List.foldlM_nil]
  have hline : s'.line [] = if s'.optname ≠ [] then .ok (s'.appendCur statusSection []) else .ok s' := by
    unfold CfgRead.line
    have : strip [] = [] := rfl
    simp only [this, startsWith, List.isPrefixOf, Bool.or_false, Bool.false_eq_true, if_false, if_true, e2, true_and]
  rw [hline]
  rcases List.eq_nil_or_concat d with rfl | ⟨d', p, rfl⟩
  · have e6' : s'.optname = [] := e6 rfl
    have e3' : s'.bad = false := e3
    have e4' : s'.defaults = [] := e4
    rw [e6']
    simp [Bind.bind, Except.bind, Pure.pure, Except.pure, e3', e4', e5, joinValues]
  · have hp := h.1 p (by simp)
    have hopt : s'.optname = p.1 := e7 p (by simp)
    rw [hopt, if_pos hp.1.1]
    have happ : s'.appendCur statusSection [] = { s' with sections := [(statusSection, d'.map (fun p => (p.1, [p.2])) ++ [(p.1, [p.2, []])])] } := by
      unfold CfgRead.appendCur CfgRead.setCur CfgRead.curDict
      simp only [if_neg hnd, e5, dget, if_true, Option.getD_some, dset, hopt]
      congr 3
      have hnd' := h.2
      have hni : p.1 ∉ dkeys (d'.map (fun p => (p.1, [p.2]))) := by
        simp only [List.concat_eq_append, dkeys, List.map_append, List.map_cons, List.map_nil] at hnd'
        have := (List.nodup_append.mp hnd').2.2
        simp only [dkeys, List.map_map]
        intro hm
        obtain ⟨q, hq, e⟩ := List.mem_map.mp hm
        exact this q.1 (List.mem_map_of_mem hq) p.1 (by simp) e
      have hgen : ∀ D : Dict (List Str), p.1 ∉ dkeys D →
          dget (D ++ [(p.1, [p.2])]) p.1 = some [p.2] ∧
          ∀ w, dset (D ++ [(p.1, [p.2])]) p.1 w = D ++ [(p.1, w)] := by
        intro D
        induction D with
        | nil => intro _; simp [dget, dset]
        | cons q D ih =>
          intro hD
          simp only [dkeys, List.map_cons, List.mem_cons, not_or] at hD
          have := ih hD.2
          have hq : ¬ q.1 = p.1 := fun h => hD.1 h.symm
          obtain ⟨q1, q2⟩ := q
          simp only at hq
          simp [dget, dset, hq, this.1, this.2]
      obtain ⟨g1, g2⟩ := hgen _ hni
      simp only [List.concat_eq_append, List.map_append, List.map_cons, List.map_nil, g1, g2, Option.getD_some]
      simp
    rw [happ]
    have hb : s'.bad = false := e3
    have hd0 : s'.defaults = [] := e4
    have hplain : PlainState d' := by
      refine ⟨fun q hq => h.1 q (by simp [hq]), ?_⟩
      have := h.2
      simp only [List.concat_eq_append, dkeys, List.map_append] at this
      exact (List.nodup_append.mp this).1
    have hjj := hj d' hplain
    unfold joinValues at hjj
    have hlast : rstrip (join ['\n'] [p.2, []]) = p.2 := by
      simp only [join, List.append_nil]
      unfold rstrip
      simp only [List.reverse_append, List.reverse_cons, List.reverse_nil, List.nil_append, List.cons_append]
      rw [List.dropWhile_cons_of_pos (by decide),
        dropWhile_clean (fun c hc => (hp.2.2 c (by simpa using hc)).1), List.reverse_reverse]
    simp [Bind.bind, Except.bind, Pure.pure, Except.pure, hb, hd0, joinValues, hjj, hlast]

/-- the entry used for a site -/
def siteKey (site : Str) : Str := lower (configSiteToName site)

theorem toLower_word (c : Char) (h : isWordChar c = true) : isWordChar c.toLower = true ∧ c.toLower.toLower = c.toLower := by
  unfold Char.toLower
  split
  · rename_i hu
    have hv : (65 ≤ c.val.toNat ∧ c.val.toNat ≤ 90) := by
      simp only [UInt32.le_iff_toNat_le] at hu
      exact hu
    have key : ∀ n : Nat, 65 ≤ n → n ≤ 90 → ∀ d : Char, d.val.toNat = n + 32 →
        isWordChar d = true ∧ ¬ (d.val ≥ 65 ∧ d.val ≤ 90) := by
      intro n h1 h2 d hd
      refine ⟨?_, ?_⟩
      · simp only [isWordChar, Char.isAlphanum, Char.isAlpha, Char.isUpper, Char.isLower, Char.isDigit, Bool.or_eq_true,
          Bool.and_eq_true, decide_eq_true_eq, UInt32.le_iff_toNat_le]
        left; left; right
        constructor
        · show 97 ≤ d.val.toNat; omega
        · show d.val.toNat ≤ 122; omega
      · rintro ⟨-, h⟩
        rw [UInt32.le_iff_toNat_le] at h
        have : d.val.toNat ≤ 90 := h
        omega
    have hval : (c.val + 32).toNat = c.val.toNat + 32 := by
      rw [UInt32.toNat_add]
      show (c.val.toNat + 32) % 4294967296 = _
      omega
    obtain ⟨k1, k2⟩ := key c.val.toNat hv.1 hv.2 ⟨c.val + 32, by
      simp only [UInt32.isValidChar, Nat.isValidChar, hval]; omega⟩ hval
    exact ⟨k1, dif_neg k2⟩
  · rename_i hu
    exact ⟨h, rfl⟩

theorem siteKey_ok {site : Str} (h : site ≠ []) : KeyOk (siteKey site) := by
  have hw : ∀ c ∈ configSiteToName site, isWordChar c = true := by
    intro c hc
    obtain ⟨x, _, rfl⟩ := List.mem_map.mp hc
    split
    · assumption
    · decide
  refine ⟨?_, ?_, ?_⟩
  · simpa [siteKey, lower, configSiteToName] using h
  · simp only [siteKey, lower, List.map_map]
    refine List.map_congr_left ?_
    intro c hc
    exact (toLower_word c (hw c hc)).2
  · intro c hc
    obtain ⟨x, hx, rfl⟩ := List.mem_map.mp hc
    exact (toLower_word x (hw x hx)).1

def lowKey (c : Char) : Char := (if isWordChar c then c else '_').toLower

theorem lowKey_eq (c d : Char) :
    lowKey c = lowKey d ↔ (c.toLower = d.toLower ∨ (c.isAlphanum = false ∧ d.isAlphanum = false)) := by
  have h1 : ∀ c : Char, c.isAlphanum = false → lowKey c = '_' := by
    intro c hc
    unfold lowKey isWordChar
    rw [hc]
    by_cases hu : c = '_'
    · subst hu; decide
    · have : (c == '_') = false := by simpa using hu
      rw [this]; rfl
  have h2 : ∀ c : Char, c.isAlphanum = true → lowKey c = c.toLower := by
    intro c hc
    unfold lowKey isWordChar
    rw [hc]; rfl
  have h3 : ∀ c : Char, c.isAlphanum = true → c.toLower ≠ '_' := by
    intro c hc
    unfold Char.toLower
    split
    · rename_i hu
      intro e
      have e : (c.val + 32).toNat = 95 := congrArg (fun c : Char => c.val.toNat) e
      rw [UInt32.toNat_add] at e
      simp only [UInt32.le_iff_toNat_le] at hu
      have hu : 65 ≤ c.val.toNat ∧ c.val.toNat ≤ 90 := hu
      have e : (c.val.toNat + 32) % 4294967296 = 95 := e
      omega
    · rintro rfl
      revert hc; decide
  have h4 : ∀ c : Char, c.isAlphanum = false → c.toLower = c := by
    intro c hc
    unfold Char.toLower
    rw [dif_neg]
    intro hu
    simp only [Char.isAlphanum, Char.isAlpha, Char.isUpper, Bool.or_eq_false_iff] at hc
    have := hc.1.1
    simp only [decide_eq_false_iff_not] at this
    exact this hu
  have h5 : ∀ c : Char, c.isAlphanum = true → c.toLower.isAlphanum = true := by
    intro c hc
    have := (toLower_word c (by simp [isWordChar, hc])).1
    unfold isWordChar at this
    rw [Bool.or_eq_true] at this
    rcases this with h | h
    · exact h
    · exact absurd (by simpa using h) (h3 c hc)
  cases hc : c.isAlphanum <;> cases hd : d.isAlphanum
  · simp [h1 c hc, h1 d hd]
  · rw [h1 c hc, h2 d hd]
    simp only [Bool.true_eq_false, and_false, or_false]
    constructor
    · intro e; exact absurd e.symm (h3 d hd)
    · intro e
      have := h5 d hd
      rw [← e, h4 c hc, hc] at this; cases this
  · rw [h2 c hc, h1 d hd]
    simp only [Bool.true_eq_false, false_and, or_false]
    constructor
    · intro e; exact absurd e (h3 c hc)
    · intro e
      have := h5 c hc
      rw [e, h4 d hd, hd] at this; cases this
  · simp [h2 c hc, h2 d hd]

theorem siteKey_eq (s s' : Str) : siteKey s = siteKey s' ↔ SameKey s s' := by
  have e : ∀ s, siteKey s = s.map lowKey := by
    intro s; simp [siteKey, lower, configSiteToName, lowKey, Function.comp_def]
  rw [e, e]
  unfold SameKey
  induction s generalizing s' with
  | nil =>
    cases s' with
    | nil => simp
    | cons a t => simp only [List.map_nil, List.map_cons, reduceCtorEq, false_iff]; intro h; cases h
  | cons a t ih =>
    cases s' with
    | nil => simp only [List.map_nil, List.map_cons, reduceCtorEq, false_iff]; intro h; cases h
    | cons b u =>
      simp only [List.map_cons, List.cons.injEq, lowKey_eq, ih u, List.forall₂_cons]

variable {T : Type}

/-- the file holds exactly the timestamps `d` -/
def Holds (ft : FloatText T) (file : Option Str) (d : Dict T) : Prop :=
  (∀ p ∈ d, KeyOk p.1) ∧ (dkeys d).Nodup ∧
    (file = none ∧ d = [] ∨
      file = some (Cfg.write { sections := [(statusSection, d.map (fun p => (p.1, ft.str p.2)))] }))

theorem plain_of {ft : FloatText T} (hft : FloatOk ft) {d : Dict T} (h1 : ∀ p ∈ d, KeyOk p.1) (h2 : (dkeys d).Nodup) :
    PlainState (d.map (fun p => (p.1, ft.str p.2))) := by
  refine ⟨?_, ?_⟩
  · intro p hp
    obtain ⟨q, hq, rfl⟩ := List.mem_map.mp hp
    exact ⟨h1 q hq, hft.nonempty q.2, hft.clean q.2⟩
  · simpa [dkeys, List.map_map, Function.comp_def] using h2

theorem readStatus_holds {ft : FloatText T} (hft : FloatOk ft) {file : Option Str} {d : Dict T} (h : Holds ft file d) :
    ∃ c, readStatus file = .ok c ∧ c.defaults = [] ∧
      (c.sections = [] ∧ d = [] ∨ c.sections = [(statusSection, d.map (fun p => (p.1, ft.str p.2)))]) := by
  obtain ⟨h1, h2, ⟨rfl, rfl⟩ | rfl⟩ := h
  · exact ⟨{}, rfl, rfl, .inl ⟨rfl, rfl⟩⟩
  · refine ⟨{ sections := [(statusSection, d.map (fun p => (p.1, ft.str p.2)))] }, ?_, rfl, .inr rfl⟩
    unfold readStatus
    simp only [read_write _ (plain_of hft h1 h2)]

theorem dget_map (f : T → Str) (d : Dict T) (k : Str) :
    dget (d.map (fun p => (p.1, f p.2))) k = (dget d k).map f := by
  induction d with
  | nil => rfl
  | cons p d ih =>
    obtain ⟨k', v⟩ := p
    by_cases h : k' = k <;> simp [dget, h, ih]

theorem dset_map (f : T → Str) (d : Dict T) (k : Str) (v : T) :
    dset (d.map (fun p => (p.1, f p.2))) k (f v) = (dset d k v).map (fun p => (p.1, f p.2)) := by
  induction d with
  | nil => rfl
  | cons p d ih =>
    obtain ⟨k', v'⟩ := p
    by_cases h : k' = k <;> simp [dset, h, ih]

theorem ddel_map (f : T → Str) (d : Dict T) (k : Str) :
    ddel (d.map (fun p => (p.1, f p.2))) k = (ddel d k).map (fun p => (p.1, f p.2)) := by
  unfold ddel
  rw [List.filter_map]
  rfl

theorem dget_ddel (d : Dict T) (k k' : Str) : dget (ddel d k) k' = if k = k' then none else dget d k' := by
  induction d with
  | nil => simp [ddel, dget]
  | cons p d ih =>
    obtain ⟨q, v⟩ := p
    unfold ddel at ih ⊢
    by_cases h : q = k
    · subst h
      rw [List.filter_cons_of_neg (by simp), ih]
      by_cases h' : q = k' <;> simp [dget, h']
    · rw [List.filter_cons_of_pos (by simpa using h)]
      simp only [dget, ih]
      by_cases h' : q = k'
      · subst h'
        simp [Ne.symm h]
      · simp [h']

/-- the effect of one call on the timestamps -/
def stateStep (d : Dict T) (op : Str × Option T) : Dict T :=
  match op.2 with
  | none => ddel d (siteKey op.1)
  | some t => dset d (siteKey op.1) t

theorem dget_stateStep (d : Dict T) (op : Str × Option T) (k : Str) :
    dget (stateStep d op) k = if siteKey op.1 = k then op.2 else dget d k := by
  obtain ⟨s, t⟩ := op
  cases t with
  | none => exact dget_ddel d _ _
  | some t =>
    simp only [stateStep]
    rw [dget_dset]

theorem getState_holds {ft : FloatText T} (hft : FloatOk ft) {file : Option Str} {d : Dict T} (h : Holds ft file d)
    (site : Str) : getState ft file site = .ok (dget d (siteKey site)) := by
  obtain ⟨c, hc, hdef, hsec⟩ := readStatus_holds hft h
  unfold getState
  simp only [hc]
  unfold Cfg.get
  rcases hsec with ⟨h1, rfl⟩ | h1
  · simp only [h1, dget]
    rw [if_neg (by decide)]
  · simp only [h1, hdef, dget, if_true]
    rw [show lower (configSiteToName site) = siteKey site from rfl, dget_map]
    cases hg : dget d (siteKey site) with
    | none => rfl
    | some t =>
      have hp : '%' ∉ ft.str t := fun hm => (hft.clean t _ hm).2 rfl
      simp only [Option.map_some, if_neg hp, hft.back]

theorem changeStatus_holds {ft : FloatText T} {c : Cfg} {d : Dict T} (hdef : c.defaults = [])
    (hsec : c.sections = [] ∧ d = [] ∨ c.sections = [(statusSection, d.map (fun p => (p.1, ft.str p.2)))])
    (site : Str) (t : Option T) :
    changeStatus ft c site t =
      { sections := [(statusSection, (stateStep d (site, t)).map (fun p => (p.1, ft.str p.2)))] } := by
  have hs : (if (dget c.sections statusSection).isSome then c else c.addSection statusSection) =
      ({ sections := [(statusSection, d.map (fun p => (p.1, ft.str p.2)))] } : Cfg) := by
    obtain ⟨df, sc⟩ := c
    simp only at hdef hsec
    subst hdef
    rcases hsec with ⟨rfl, rfl⟩ | rfl
    · simp [dget, Cfg.addSection, dset]
    · simp [dget]
  unfold changeStatus
  simp only [hs]
  cases t with
  | none =>
    simp only [Cfg.removeOption, dget, if_true, Option.getD_some, dset]
    rw [show lower (configSiteToName site) = siteKey site from rfl, ddel_map]
    rfl
  | some t =>
    simp only [Cfg.set, dget, if_true, Option.getD_some, dset]
    rw [show lower (configSiteToName site) = siteKey site from rfl, dset_map]
    rfl

theorem setState_holds {ft : FloatText T} (hft : FloatOk ft) {file : Option Str} {d : Dict T} (h : Holds ft file d)
    (site : Str) (hs : site ≠ []) (t : Option T) :
    ∃ file', setState ft file site t = .ok file' ∧ Holds ft file' (stateStep d (site, t)) := by
  obtain ⟨c, hc, hdef, hsec⟩ := readStatus_holds hft h
  unfold setState
  simp only [hc, changeStatus_holds hdef hsec]
  refine ⟨_, rfl, ?_, ?_, .inr rfl⟩
  · intro p hp
    cases t with
    | none => exact h.1 p (List.mem_of_mem_filter hp)
    | some t =>
      have : p.1 ∈ dkeys (dset d (siteKey site) t) := List.mem_map_of_mem hp
      rw [mem_dkeys_dset] at this
      rcases this with e | hm
      · rw [e]; exact siteKey_ok hs
      · obtain ⟨q, hq, e⟩ := List.mem_map.mp hm
        rw [← e]; exact h.1 q hq
  · cases t with
    | none => exact (List.filter_sublist.map _).nodup h.2.1
    | some t => exact nodup_dset _ _ _ h.2.1

theorem holds_none (ft : FloatText T) : Holds ft none [] := ⟨by simp, by simp [dkeys], .inl ⟨rfl, rfl⟩⟩

theorem setAll_holds {ft : FloatText T} (hft : FloatOk ft) (ops : List (Str × Option T)) (hops : ∀ op ∈ ops, op.1 ≠ []) :
    ∀ {file : Option Str} {d : Dict T}, Holds ft file d →
      ∃ file', setAll ft file ops = .ok file' ∧ Holds ft file' (ops.foldl stateStep d) := by
  induction ops with
  | nil => intro file d h; exact ⟨file, rfl, h⟩
  | cons op ops ih =>
    intro file d h
    obtain ⟨f1, h1, h2⟩ := setState_holds hft h op.1 (hops op (by simp)) op.2
    obtain ⟨f2, h3, h4⟩ := ih (fun o ho => hops o (by simp [ho])) h2
    refine ⟨f2, ?_, h4⟩
    obtain ⟨s, t⟩ := op
    simp only [setAll]
    simp only at h1
    rw [h1]
    exact h3

theorem dget_foldl (ops : List (Str × Option T)) (site : Str) (t : T) :
    dget (ops.foldl stateStep []) (siteKey site) = some t ↔ LastSet ops site (some t) := by
  induction ops using List.reverseRecOn with
  | nil =>
    simp only [List.foldl_nil, dget, reduceCtorEq, false_iff]
    rintro ⟨b, s', a, h, -⟩
    simp at h
  | append_singleton ops op ih =>
    rw [List.foldl_append, List.foldl_cons, List.foldl_nil, dget_stateStep]
    by_cases h : siteKey op.1 = siteKey site
    · rw [if_pos h]
      have hk := (siteKey_eq _ _).mp h
      constructor
      · intro e
        exact ⟨ops, op.1, [], by rw [← e], hk, by simp⟩
      · rintro ⟨b, s', a, e, h1, h2⟩
        rcases List.eq_nil_or_concat a with rfl | ⟨a', o, rfl⟩
        · have := List.append_inj' e rfl
          have := this.2
          simp only [List.cons.injEq, and_true] at this
          rw [this]
        · exfalso
          rw [List.concat_eq_append, ← List.cons_append, ← List.append_assoc] at e
          have := (List.append_inj' e rfl).2
          simp only [List.cons.injEq, and_true] at this
          exact h2 o (by simp) (this ▸ hk)
    · rw [if_neg h, ih]
      have hk : ¬ SameKey op.1 site := fun hk => h ((siteKey_eq _ _).mpr hk)
      constructor
      · rintro ⟨b, s', a, rfl, h1, h2⟩
        refine ⟨b, s', a ++ [op], by simp, h1, ?_⟩
        intro o ho
        rcases List.mem_append.mp ho with ho | ho
        · exact h2 o ho
        · rw [List.mem_singleton.mp ho]; exact hk
      · rintro ⟨b, s', a, e, h1, h2⟩
        rcases List.eq_nil_or_concat a with rfl | ⟨a', o, rfl⟩
        · have := (List.append_inj' e rfl).2
          simp only [List.cons.injEq, and_true] at this
          rw [this] at hk
          exact absurd h1 hk
        · rw [List.concat_eq_append, ← List.cons_append, ← List.append_assoc] at e
          have e' := (List.append_inj' e rfl).1
          exact ⟨b, s', a', e', h1, fun x hx => h2 x (by simp [hx])⟩

end Resync
