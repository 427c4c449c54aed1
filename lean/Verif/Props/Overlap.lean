import Verif.Proofs.Overlap
import Verif.Props.Repeat
/- C99: syncs of the same destinations that run at the same time. -/

namespace Resync
open Py Resync.Spec

variable {cwd : Loc} {sites : List (Map × Loc)} {content : Str → Bytes} {P : Nat → Process}

theorem process_writes (p : Process) (hf : FaithfulRun cwd sites content p.env p.c) (hs : Sites p.c cwd sites p.s.world.fs)
    {site : Map × Loc} (hsite : site ∈ sites) (names : List Str) :
    ∃ W : Loc → Bytes → Prop, (∀ b, W (site.2 ++ names) b → b <+: content (uriBelow site.1 names)) ∧ Segs W p.does ∧
      (p.result.2 = .ok () → p.c.ignore_failures = false → ∀ b, lastWrite (site.2 ++ names) p.does = some b →
        b = content (uriBelow site.1 names)) := by
  let W : Loc → Bytes → Prop := fun l b => l = site.2 ++ names → b <+: content (uriBelow site.1 names)
  let V : Loc → Bytes → Prop := fun l b => l = site.2 ++ names → b = content (uriBelow site.1 names)
  have hm : ∀ u, Placed sites u → ∀ fn, p.c.disc.mapper.srcToDst u = .ok fn → MayWrite W V p.env u (location p.env.cwd fn) := by
    rintro u ⟨q, hq, ns, hne, hn, rfl⟩ fn hfn
    obtain ⟨fn', h1, -, h3⟩ := hs.maps hq hne hn
    rw [h1] at hfn
    cases hfn
    rw [hf.cwd, h3]
    constructor
    · intro tr b e hb h
      obtain ⟨rfl, rfl⟩ := hs.loc_inj hq hsite h
      exact serves_prefix hf.serves hb
    · intro tr b hb h
      obtain ⟨rfl, rfl⟩ := hs.loc_inj hq hsite h
      exact hf.serves.whole _ _ _ hb
  have hw : Writes W V (Finished p.c p.result.2) p.s p.result.1 := by
    unfold Process.result
    cases p.task with
    | baseline allow audit =>
      exact writes_baseline p.env p.c allow audit p.s hf.keyed hs.proper (fun src r h1 h2 => hm _ (hf.listed src h1 _ _ h2))
    | incremental allow uri fd =>
      exact writes_incremental p.env p.c allow uri fd p.s (fun clUri cl r h1 h2 => hm _ (hf.changed clUri cl h1 r h2))
  obtain ⟨h1, h2⟩ := hw.does
  exact ⟨W, fun b h => h rfl, h1, fun h3 h4 b hb => h2 ⟨h3, h4⟩ _ b hb rfl⟩

theorem overlap_fits (hP : FaithfulProcesses cwd sites content P) {σ : Schedule} (ho : Overlap P σ) {site : Map × Loc} (hsite : site ∈ sites)
    (names : List Str) (p : Nat) : Fitting (site.2 ++ names) (content (uriBelow site.1 names)) (none, false) (own p σ) := by
  obtain ⟨all, h1, rest, h2⟩ := ho p
  obtain ⟨W, w1, w2, -⟩ := process_writes (P p) (hP p).1 (hP p).2 hsite names
  have := (segs_fit _ _ w1 w2 all (none, false) h1).1
  rw [← h2] at this
  exact ((fitting_append _ _ _ _ _).mp this).1

theorem finished_whole (hP : FaithfulProcesses cwd sites content P) {σ : Schedule} {p : Nat} (hfin : Finishes P σ p) {site : Map × Loc}
    (hsite : site ∈ sites) (names : List Str) {c : Bytes} (hc : (tracked (site.2 ++ names) p σ).1 = some c) :
    c = content (uriBelow site.1 names) := by
  obtain ⟨W, w1, w2, w3⟩ := process_writes (P p) (hP p).1 (hP p).2 hsite names
  have := (segs_fit _ _ w1 w2 _ (none, false) hfin.all).2
  rw [hc] at this
  cases hl : lastWrite (site.2 ++ names) (P p).does with
  | none => rw [hl] at this; cases this
  | some b =>
    rw [hl] at this
    cases this
    exact w3 hfin.ok hfin.strict _ hl

/-- C99, at any moment.  Any number of syncs (baseline or incremental, with any options) of the same sites run at the same time, in any
order of what they do; each writes files in pieces, and may be ended at any moment; on the server every resource has one content.  A file
that one of them has opened, and none has removed, has no wrong byte: each is that of the content at its position, or zero, and there are
no more than there should be.  A file that none has opened is as it was. -/
theorem C99_any_moment (hP : FaithfulProcesses cwd sites content P) (x : Shared) (σ : Schedule) (ho : Overlap P σ) (site : Map × Loc)
    (hsite : site ∈ sites) (names : List Str) (hkeep : ∀ p, (p, Effect.unlink (site.2 ++ names)) ∉ σ) :
    ((∃ p, Opens σ p (site.2 ++ names)) →
      ∃ b, (x.run σ).contents (site.2 ++ names) = some b ∧ Patches (content (uriBelow site.1 names)) b) ∧
    ((∀ p, ¬ Opens σ p (site.2 ++ names)) → (x.run σ).contents (site.2 ++ names) = x.contents (site.2 ++ names)) := by
  have h := onFile x σ (overlap_fits hP ho hsite names) hkeep
  constructor
  · rintro ⟨p, hp⟩
    cases hop : opener (site.2 ++ names) σ with
    | none => exact absurd hp ((opener_none _ _).mp hop p)
    | some q =>
      obtain ⟨i, d, c, h1, h2, -⟩ := h.last q hop
      exact ⟨d, by unfold Shared.contents; rw [h1], h2⟩
  · intro hn
    exact h.none ((opener_none _ _).mpr hn)

/-- C99, the part that holds.  In the same situation, if the process that opens a file last comes to its end, with success, the file has
the content of its resource, whatever becomes of the others.  Missing: if that process is ended before, the file may keep a gap although
another comes to its end with success (C99_violated). -/
theorem C99_last_partial (hP : FaithfulProcesses cwd sites content P) (x : Shared) (σ : Schedule) (ho : Overlap P σ) (site : Map × Loc)
    (hsite : site ∈ sites) (names : List Str) (hkeep : ∀ p, (p, Effect.unlink (site.2 ++ names)) ∉ σ) (p : Nat)
    (hlast : OpensLast σ p (site.2 ++ names)) (hfin : Finishes P σ p) :
    (x.run σ).contents (site.2 ++ names) = some (content (uriBelow site.1 names)) := by
  have h := onFile x σ (overlap_fits hP ho hsite names) hkeep
  obtain ⟨i, d, c, h1, h2, h3, h4⟩ := h.last p (opener_last.mpr hlast)
  have := finished_whole hP hfin hsite names h3
  subst this
  have : content (uriBelow site.1 names) = d := h4.eq_of_length (le_antisymm h4.length_le h2.1)
  unfold Shared.contents
  rw [h1, this]

/-- C99, the part that holds, if all that open the file come to their ends with success: it has the content of its resource -/
theorem C99_all_partial (hP : FaithfulProcesses cwd sites content P) (x : Shared) (σ : Schedule) (ho : Overlap P σ) (site : Map × Loc)
    (hsite : site ∈ sites) (names : List Str) (hkeep : ∀ p, (p, Effect.unlink (site.2 ++ names)) ∉ σ)
    (hsome : ∃ p, Opens σ p (site.2 ++ names)) (hfin : ∀ p, Opens σ p (site.2 ++ names) → Finishes P σ p) :
    (x.run σ).contents (site.2 ++ names) = some (content (uriBelow site.1 names)) := by
  obtain ⟨p, hp⟩ := hsome
  cases hop : opener (site.2 ++ names) σ with
  | none => exact absurd hp ((opener_none _ _).mp hop p)
  | some q =>
    have hl := opener_last.mp hop
    refine C99_last_partial hP x σ ho site hsite names hkeep q hl (hfin q ?_)
    obtain ⟨a, t, b, rfl, -⟩ := hl
    exact ⟨t, by simp⟩

/-- a single process, step by step -/
theorem alone_step {W : Loc → Bytes → Prop} (p : Nat) {es : List Effect} (h : Segs W es) : ∀ (x : Shared) (fs : Fs),
    (∀ l, l ≠ [] → (x.node l = none ↔ fs.get l = none) ∧ x.contents l = (match fs.get l with | some (.file b _) => some b | _ => none)) →
    ∀ l, l ≠ [] → (x.run (es.map (fun e => (p, e)))).contents l =
      (match (es.foldl Effect.onFs fs).get l with | some (.file b _) => some b | _ => none) := by
  induction h with
  | nil => intro x fs hx l hl; exact (hx l hl).2
  | @other e es h1 h2 h3 ih =>
    intro x fs hx
    show ∀ l, l ≠ [] → ((x.step (p, e)).run (es.map (fun e => (p, e)))).contents l = _
    rw [List.foldl_cons]
    apply ih
    intro l hl
    cases e with
    | trunc k t => exact absurd rfl (h1 k t)
    | append k b => exact absurd rfl (h2 k b)
    | get u => exact hx l hl
    | setState t => exact hx l hl
    | utime k t =>
      simp only [Shared.step, Effect.onFs]
      split
      · rename_i c m hg
        by_cases hk : l = k
        · subst hk
          rw [get_set_self _ _ _ hl]
          have := hx l hl
          rw [hg] at this
          exact ⟨by simpa using this.1, this.2⟩
        · rw [get_set_other _ _ _ _ hk]; exact hx l hl
      · exact hx l hl
    | unlink k =>
      by_cases hk : l = k
      · subst hk
        simp only [Effect.onFs, get_del_self _ _ hl, Shared.contents, Shared.step, if_true]
        exact ⟨by simp, trivial⟩
      · simp only [Effect.onFs, get_del_other _ _ _ hk, Shared.contents, Shared.step, if_neg hk]
        exact hx l hl
    | mkdir k =>
      by_cases hk : l = k
      · subst hk
        cases hg : fs.get l with
        | none =>
          have hn := (hx l hl).1.mpr hg
          simp only [Effect.onFs, hg, Shared.step, hn, get_set_self _ _ _ hl, Shared.contents, if_true]
          exact ⟨by simp, trivial⟩
        | some n =>
          have hn : x.node l ≠ none := fun h => by have := (hx l hl).1.mp h; rw [hg] at this; cases this
          obtain ⟨m, hm⟩ := Option.ne_none_iff_exists'.mp hn
          have e1 : x.step (p, .mkdir l) = x := by simp only [Shared.step, hm]
          have e2 : Effect.onFs fs (.mkdir l) = fs := by simp only [Effect.onFs, hg]
          rw [e1, e2]; exact hx l hl
      · have e2 : (Effect.onFs fs (.mkdir k)).get l = fs.get l := by
          simp only [Effect.onFs]
          split
          · exact get_set_other _ _ _ _ hk
          · rfl
        have e1 : (x.step (p, .mkdir k)).node l = x.node l := by
          simp only [Shared.step]
          split
          · simp [hk]
          · rfl
        unfold Shared.contents
        rw [e1, e2]
        exact hx l hl
  | @write k t b es h1 h2 ih =>
    intro x fs hx
    show ∀ l, l ≠ [] → (((x.step (p, .trunc k t)).step (p, .append k b)).run (es.map (fun e => (p, e)))).contents l = _
    rw [List.foldl_cons, List.foldl_cons]
    apply ih
    have hstep : ∃ i, (x.step (p, .trunc k t)).node k = some (.file i []) ∧ (x.step (p, .trunc k t)).opened p = some (k, i, 0) ∧
        ∀ l, l ≠ k → (x.step (p, .trunc k t)).node l = x.node l := by
      simp only [Shared.step]
      split
      · exact ⟨_, by simp only [if_true]; rfl, by simp, fun l h => by simp [h]⟩
      · exact ⟨_, by simp only [if_true]; rfl, by simp, fun l h => by simp [h]⟩
    obtain ⟨i, s1, s2, s3⟩ := hstep
    intro l hl
    by_cases hk : l = k
    · subst hk
      have e1 : ((x.step (p, .trunc l t)).step (p, .append l b)).node l = some (.file i b) := by
        rw [Shared.step.eq_def]
        simp only [s2, if_true, s1]
        have : writeAt [] 0 b = b := by
          unfold writeAt
          by_cases hb : b = []
          · simp [hb]
          · simp [hb]
        rw [this]
      have e2 : (Effect.onFs (Effect.onFs fs (.trunc l t)) (.append l b)).get l = some (.file b t) := by
        simp only [Effect.onFs, get_set_self _ _ _ hl, List.nil_append]
      unfold Shared.contents
      rw [e1, e2]
      simp
    · have e1 : ((x.step (p, .trunc k t)).step (p, .append k b)).node l = x.node l := by
        rw [Shared.step.eq_def]
        simp only [s2, if_true, if_neg hk]
        exact s3 l hk
      have e2 : (Effect.onFs (Effect.onFs fs (.trunc k t)) (.append k b)).get l = fs.get l := by
        have : (Effect.onFs fs (.trunc k t)).get l = fs.get l := get_set_other _ _ _ _ hk
        rw [← this]
        generalize Effect.onFs fs (.trunc k t) = fs'
        simp only [Effect.onFs]
        split
        · exact get_set_other _ _ _ _ hk
        · rfl
      unfold Shared.contents
      rw [e1, e2]
      exact hx l hl

theorem apply_fs : ∀ (es : List Effect) (w : World), (es.foldl World.apply w).fs = es.foldl Effect.onFs w.fs
  | [], _ => rfl
  | e :: es, w => by rw [List.foldl_cons, List.foldl_cons, apply_fs es]; rfl

/-- C99, a process that is alone: the file system it works on has the same files afterwards as it has in the model of a single run (on
which the other properties are proved) -/
theorem C99_alone (p : Process) (n : Nat) (l : Loc) (hl : l ≠ []) (hk : ListsKeyed p.env.sources) (hpr : ProperFs p.s.world.fs) :
    ((Shared.of p.s.world.fs).run (p.does.map (fun e => (n, e)))).contents l =
      (match p.result.1.world.fs.get l with | some (.file b _) => some b | _ => none) := by
  have hdid : ∃ es, p.result.1.trace = p.s.trace ++ es ∧ p.result.1.world = es.foldl World.apply p.s.world := by
    unfold Process.result
    cases p.task with
    | baseline allow audit =>
      obtain ⟨es, h1, h2, -⟩ := baseline_did p.env p.c allow audit p.s
      exact ⟨es, h1, h2⟩
    | incremental allow uri fd =>
      obtain ⟨es, h1, h2, -⟩ := incremental_did p.env p.c allow uri fd p.s
      exact ⟨es, h1, h2⟩
  have hw : Writes (fun _ _ => True) (fun _ _ => True) (Finished p.c p.result.2) p.s p.result.1 := by
    unfold Process.result
    cases p.task with
    | baseline allow audit => exact writes_baseline p.env p.c allow audit p.s hk hpr (fun _ _ _ _ _ _ => ⟨by simp, by simp⟩)
    | incremental allow uri fd => exact writes_incremental p.env p.c allow uri fd p.s (fun _ _ _ _ _ _ _ => ⟨by simp, by simp⟩)
  obtain ⟨es, h1, h2⟩ := hdid
  have hd : p.does = es := by unfold Process.does doneBetween; rw [h1, List.drop_left]
  have hsegs := hw.does.1
  rw [show doneBetween p.s p.result.1 = p.does from rfl, hd] at hsegs
  rw [hd, h2, apply_fs]
  refine alone_step n hsegs _ _ ?_ l hl
  intro k hk
  unfold Shared.contents Shared.of
  simp only
  cases p.s.world.fs.get k with
  | none => simp
  | some m => cases m <;> simp

namespace ClientExample

/-- one file of two bytes, with its length -/
def oneFile : List Resource := [resLen "a" 1000 2]

/-- syncs of it, with an empty directory at the start -/
def syncs : Nat → Process := fun _ => ⟨env oneFile [] [1, 2], cfg, start [], .baseline true false⟩

theorem sync_does (p : Nat) : ∃ rest, (syncs p).does = .get (uri "a") :: .trunc (at_ "a") 1000 :: .append (at_ "a") ([1] ++ [2]) :: rest ∧
    rest = (syncs 0).does.drop 3 ∧ (∀ t, Effect.trunc (at_ "a") t ∉ rest) ∧ Effect.unlink (at_ "a") ∉ rest := by
  have h : (syncs 0).does.take 3 = [.get (uri "a"), .trunc (at_ "a") 1000, .append (at_ "a") [1, 2]] := by
    unfold Process.does doneBetween; decide +kernel
  have h2 : ((syncs 0).does.drop 3).map (fun e => match e with | .utime _ _ => true | .setState _ => true | _ => false) = [true, true] := by
    unfold Process.does doneBetween; decide +kernel
  have h3 : ∀ e ∈ (syncs 0).does.drop 3, (match e with | .utime _ _ => true | .setState _ => true | _ => false) = true := by
    intro e he
    have := List.mem_map_of_mem (f := fun e => match e with | .utime _ _ => true | .setState _ => true | _ => false) he
    rw [h2] at this
    simpa using this
  refine ⟨(syncs 0).does.drop 3, ?_, rfl, ?_, ?_⟩
  rotate_left
  · intro t ht
    have h4 : false = true := h3 _ ht
    cases h4
  · intro ht
    have h4 : false = true := h3 _ ht
    cases h4
  show (syncs 0).does = _
  conv => lhs; rw [← List.take_append_drop 3 (syncs 0).does, h]
  rfl

theorem inPieces_refl : ∀ es, InPieces es es
  | [] => .done
  | e :: es => .next e (inPieces_refl es)

theorem syncs_faithful : FaithfulProcesses [] [(⟨base, "/d".toList⟩, ["d".toList])] (fun _ => [1, 2]) syncs := by
  intro p
  refine ⟨⟨rfl, rfl, env_oneContent _ _ _, env_keyed _ _ _ (by decide), ?_, ?_⟩, ?_⟩
  · intro src h
    rw [env_found (rl := oneFile) (cl := []) (b := [1, 2]) (by decide +kernel) h]
    intro u r h
    simp only [oneFile, listOf, List.map_cons, List.map_nil, List.mem_cons, Prod.mk.injEq, List.not_mem_nil, or_false] at h
    obtain ⟨rfl, -⟩ := h
    exact ⟨_, List.mem_singleton.mpr rfl, ["a".toList], by decide, plain (by decide), by decide +kernel⟩
  · intro u cl h r hr
    simp only [syncs, env] at h
    split at h
    · cases h; cases hr
    · cases h
  · exact (site [] (properFs_of (by decide) (by decide) (by decide) (by decide)) (by decide)).sites

/-- the rest of what a sync does after it has written the file -/
def restOf : List Effect := (syncs 0).does.drop 3

/-- Two syncs; the second opens the file when the first has written half of it -/
def half : Schedule :=
  [(0, .get (uri "a")), (0, .trunc (at_ "a") 1000), (0, .append (at_ "a") [1]), (1, .get (uri "a")), (1, .trunc (at_ "a") 1000)]

/-- the first goes on, and the second too -/
def bothGoOn : Schedule :=
  half ++ ((0, .append (at_ "a") [2]) :: restOf.map (fun e => (0, e))) ++
    ((1, .append (at_ "a") [1]) :: (1, .append (at_ "a") [2]) :: restOf.map (fun e => (1, e)))

/-- the first goes on, the second is ended -/
def oneGoesOn : Schedule := half ++ ((0, .append (at_ "a") [2]) :: restOf.map (fun e => (0, e)))

theorem own_map (p q : Nat) (es : List Effect) : own p (es.map (fun e => (q, e))) = if q = p then es else [] := by
  unfold own
  induction es with
  | nil => simp
  | cons e es ih =>
    rw [List.map_cons, List.filterMap_cons]
    by_cases h : q = p
    · subst h
      rw [if_pos rfl] at ih ⊢
      simp only [if_true]
      rw [ih]
    · rw [if_neg h] at ih ⊢; simp only [h, if_false]; exact ih

theorem own_append (p : Nat) (a b : Schedule) : own p (a ++ b) = own p a ++ own p b := by unfold own; rw [List.filterMap_append]

theorem own_cons (p : Nat) (y : Nat × Effect) (b : Schedule) : own p (y :: b) = if y.1 = p then y.2 :: own p b else own p b := by
  unfold own; rw [List.filterMap_cons]; split <;> split <;> simp_all

theorem sync_pieces (p : Nat) : InPieces (syncs p).does
    (.get (uri "a") :: .trunc (at_ "a") 1000 :: .append (at_ "a") [1] :: .append (at_ "a") [2] :: restOf) := by
  obtain ⟨rest, h1, h2, -⟩ := sync_does p
  rw [h1, h2]
  exact .next _ (.next _ (.piece _ _ _ (.next _ (inPieces_refl _))))

theorem half_own (p : Nat) : own p half = if p = 0 then [.get (uri "a"), .trunc (at_ "a") 1000, .append (at_ "a") [1]] else
    if p = 1 then [.get (uri "a"), .trunc (at_ "a") 1000] else [] := by
  unfold half
  simp only [own_cons]
  by_cases h0 : p = 0
  · subst h0; rfl
  · by_cases h1 : p = 1
    · subst h1; rfl
    · simp [h0, h1, Ne.symm h0, Ne.symm h1, own]

theorem both_own (p : Nat) : own p bothGoOn = if p = 0 ∨ p = 1 then
    [.get (uri "a"), .trunc (at_ "a") 1000, .append (at_ "a") [1], .append (at_ "a") [2]] ++ restOf else [] := by
  unfold bothGoOn
  simp only [own_append, own_cons, own_map, half_own]
  by_cases h0 : p = 0
  · subst h0; simp
  · by_cases h1 : p = 1
    · subst h1; simp
    · simp [h0, h1, Ne.symm h0, Ne.symm h1]

theorem one_own (p : Nat) : own p oneGoesOn = if p = 0 then
    [.get (uri "a"), .trunc (at_ "a") 1000, .append (at_ "a") [1], .append (at_ "a") [2]] ++ restOf else
    if p = 1 then [.get (uri "a"), .trunc (at_ "a") 1000] else [] := by
  unfold oneGoesOn
  simp only [own_append, own_cons, own_map, half_own]
  by_cases h0 : p = 0
  · subst h0; simp
  · by_cases h1 : p = 1
    · subst h1; simp
    · simp [h0, h1, Ne.symm h0]

theorem rest_quiet : (∀ t, Effect.trunc (at_ "a") t ∉ restOf) ∧ Effect.unlink (at_ "a") ∉ restOf := by
  obtain ⟨rest, -, h2, h3, h4⟩ := sync_does 0
  rw [h2] at h3 h4
  exact ⟨h3, h4⟩

theorem both_overlap : Overlap syncs bothGoOn := by
  intro p
  refine ⟨_, sync_pieces p, ?_⟩
  rw [both_own]
  split
  · exact List.prefix_refl _
  · exact List.nil_prefix

theorem both_finish (p : Nat) (h : p = 0 ∨ p = 1) : Finishes syncs bothGoOn p where
  all := by rw [both_own, if_pos h]; exact sync_pieces p
  ok := by show (syncs 0).result.2 = _; decide +kernel
  strict := rfl

/-- the hypotheses of C99_all_partial are met: both processes open the file, the second when the first has written half of it; both
finish; the second half has been written into an empty file, and the gap is then filled -/
example : ((Shared.of (disk [])).run bothGoOn).contents (at_ "a") = some [1, 2] := by
  have hun : ∀ p, (p, Effect.unlink (at_ "a")) ∉ bothGoOn := by
    intro p h
    simp only [bothGoOn, half, List.mem_append, List.mem_cons, Prod.mk.injEq, List.mem_map, List.not_mem_nil, or_false, reduceCtorEq,
      and_false, false_or] at h
    rcases h with ⟨e, h, -, rfl⟩ | ⟨e, h, -, rfl⟩ <;> exact rest_quiet.2 h
  refine C99_all_partial (site := (⟨base, "/d".toList⟩, ["d".toList])) (names := ["a".toList]) syncs_faithful _ bothGoOn both_overlap
    (List.mem_singleton.mpr rfl) hun ⟨1, 1000, by simp [bothGoOn, half, at_]⟩ ?_
  rintro p ⟨t, h⟩
  apply both_finish
  have h : (p, Effect.trunc (at_ "a") t) ∈ bothGoOn := h
  simp only [bothGoOn, half, List.mem_append, List.mem_cons, Prod.mk.injEq, List.mem_map, List.not_mem_nil, or_false, reduceCtorEq,
    and_false, false_or, Effect.trunc.injEq, true_and] at h
  rcases h with ((⟨rfl, -⟩ | ⟨rfl, -⟩) | ⟨e, h, -, rfl⟩) | ⟨e, h, -, rfl⟩
  · exact .inl rfl
  · exact .inr rfl
  · exact absurd h (rest_quiet.1 t)
  · exact absurd h (rest_quiet.1 t)

/-- what is in the file on the way: the gap -/
example : ((Shared.of (disk [])).run (half ++ [(0, .append (at_ "a") [2])])).contents (at_ "a") = some [0, 2] ∧
    Patches [1, 2] [0, 2] := by
  refine ⟨by decide +kernel, by decide, ?_⟩
  intro i x h
  match i with
  | 0 => cases h; exact .inr rfl
  | 1 => cases h; exact .inl rfl
  | i + 2 => cases h

/-- Violated: the second of two syncs opens the file when the first has written half of it, and is ended.  The first goes on, writes the
second half at its position, and comes to its end with success.  There is a gap in the file, but its length and its time are as they should
be, so the next sync succeeds and does nothing. -/
theorem C99_violated :
    Overlap syncs oneGoesOn ∧ Finishes syncs oneGoesOn 0 ∧ (∀ p tr u, (syncs p).env.serve tr u = .body [1, 2] none) ∧
    (∀ p, (p, Effect.unlink (at_ "a")) ∉ oneGoesOn) ∧
    ((Shared.of (disk [])).run oneGoesOn).contents (at_ "a") = some [0, 2] ∧
    (let s : St := { world := { fs := (at_ "a", .file [0, 2] 1000) :: disk [] } }
     let r := baselineOrAudit (env oneFile [] [1, 2]) cfg true false s
     r.2 = .ok () ∧ doneBetween s r.1 = []) := by
  refine ⟨?_, ⟨?_, ?_, rfl⟩, fun _ _ _ => rfl, ?_, ?_, ?_⟩
  · intro p
    refine ⟨_, sync_pieces p, ?_⟩
    rw [one_own]
    split
    · exact List.prefix_refl _
    · split
      · exact ⟨_, rfl⟩
      · exact List.nil_prefix
  · rw [one_own, if_pos rfl]; exact sync_pieces 0
  · decide +kernel
  · intro p h
    simp only [oneGoesOn, half, List.mem_append, List.mem_cons, Prod.mk.injEq, List.mem_map, List.not_mem_nil, or_false, reduceCtorEq,
      and_false, false_or] at h
    obtain ⟨e, h, -, rfl⟩ := h
    exact rest_quiet.2 h
  · decide +kernel
  · unfold doneBetween; decide +kernel

end ClientExample

end Resync
