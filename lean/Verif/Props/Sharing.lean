import Verif.Proofs.Sharing
import Mathlib.Data.List.Induction
import Mathlib.Tactic.Push
/-
C92: resources are separate objects: what is done to one is not done to another. It fails for the links of
copies.
-/

namespace Resync
open Py

/-- The specification: resources as separate values. A statement makes a new one from what the copied one
reads as, or changes the one it is about, and nothing else. -/
def ownExec (rs : List Resource) : ResCmd → List Resource
  | .create src a =>
    match Resource.new { a with resource := src.bind (fun i => rs[i]?) } with
    | .ok r => rs ++ [r]
    | .error _ => rs
  | .assign i op =>
    match rs[i]? with
    | some r => rs.set i (r.step op).1
    | none => rs

/-- resources `i` and `j` refer to one list of links -/
def Memory.Share (m : Memory) (i j : Nat) : Prop :=
  ∃ o o' l, m.objs[i]? = some o ∧ m.objs[j]? = some o' ∧ o.ln = some l ∧ o'.ln = some l

/-- `link_set` (and the setters that use it) or `link_add` -/
def ResOp.IsLinkSet : ResOp → Prop
  | .linkSet _ _ _ _ => True
  | _ => False

instance (op : ResOp) : Decidable op.IsLinkSet := by cases op <;> unfold ResOp.IsLinkSet <;> infer_instance

theorem views_get (m : Memory) (j : Nat) : m.views[j]? = (m.objs[j]?).map m.view := by
  simp [Memory.views]

theorem create_ok {m : Memory} {src : Option Nat} {a : ResArgs} {r : Resource}
    (h : Resource.new { a with resource := (src.bind (fun i => m.objs[i]?)).map m.view } = .ok r) :
    r.ln = pick a.ln ((src.bind (fun i => m.objs[i]?)).bind (fun o => (m.view o).ln)) := by
  unfold Resource.new at h
  dsimp only at h
  generalize hres : (src.bind (fun i => m.objs[i]?)) = q at h ⊢
  have hq : (Option.map m.view q).bind (fun x => x.ln) = q.bind (fun o => (m.view o).ln) := by
    cases q <;> rfl
  rw [← hq]
  generalize (Option.map m.view q) = q' at h ⊢
  revert h
  simp only [bind, Except.bind, pure, Except.pure, throw, throwThe, MonadExceptOf.throw]
  intro h
  repeat' split at h
  all_goals first | (cases h; done) | (cases h; rfl)

theorem create_views (m : Memory) (hs : m.Sound) (src : Option Nat) (a : ResArgs) :
    (m.create src a).1.views = ownExec m.views (.create src a) ∧ (m.create src a).1.Sound := by
  have hsrc : src.bind (fun i => m.views[i]?) = (src.bind (fun i => m.objs[i]?)).map m.view := by
    cases src with
    | none => rfl
    | some i => exact views_get m i
  unfold Memory.create ownExec
  dsimp only
  rw [hsrc]
  cases h : Resource.new { a with resource := (src.bind (fun i => m.objs[i]?)).map m.view } with
  | error e => exact ⟨rfl, hs⟩
  | ok r =>
    have hln := create_ok h
    dsimp only
    cases ha : a.ln with
    | some ls =>
      rw [ha] at hln
      simp only [Option.isSome_some, if_true]
      constructor
      · unfold Memory.views
        dsimp only
        rw [giveLn_objs, List.map_append]
        congr 1
        · exact List.map_congr_left (fun o ho => giveLn_view m hs _ o ho)
        · have hv := giveLn_value m (some ls)
          simp only [List.map_singleton, List.cons.injEq, and_true]
          show ({ r with ln := (m.giveLn (some ls)).2.map (m.giveLn (some ls)).1.links } : Resource) = r
          rw [hv, ← show r.ln = some ls from hln]
      · exact push_sound (giveLn_sound m hs _) _ (fun l hl => (giveLn_ref m _ l hl).1)
    | none =>
      rw [ha] at hln
      simp only [Option.isSome_none, Bool.false_eq_true, if_false]
      constructor
      · unfold Memory.views
        dsimp only
        rw [List.map_append]
        congr 1
        simp only [List.map_singleton, List.cons.injEq, and_true]
        show ({ r with ln := (((src.bind (fun i => m.objs[i]?)).bind (·.ln)).map m.links) } : Resource) = r
        have : r.ln = ((src.bind (fun i => m.objs[i]?)).bind (·.ln)).map m.links := by
          rw [hln]
          cases (src.bind (fun i => m.objs[i]?)) <;> rfl
        rw [← this]
      · refine push_sound hs _ ?_
        intro l hl
        dsimp only at hl
        cases hq : src.bind (fun i => m.objs[i]?) with
        | none => rw [hq] at hl; cases hl
        | some o =>
          rw [hq] at hl
          have hm : o ∈ m.objs := by
            cases src with
            | none => cases hq
            | some i => exact List.mem_of_getElem? hq
          exact hs.inLists o hm l hl

/-- the general account of an assignment or link operation -/
theorem assign_views (m : Memory) (hs : m.Sound) (i : Nat) (op : ResOp) :
    (m.assign i op).1.Sound ∧
    (∀ r, m.views[i]? = some r →
      (m.assign i op).1.views[i]? = some (r.step op).1 ∧ (m.assign i op).2 = (r.step op).2) ∧
    (∀ j, j ≠ i → ¬ (op.IsLinkSet ∧ m.Share i j) → (m.assign i op).1.views[j]? = m.views[j]?) ∧
    (∀ j ri rj, j ≠ i → op.IsLinkSet → m.Share i j → m.views[i]? = some ri → m.views[j]? = some rj →
      (m.assign i op).1.views[j]? = some { rj with ln := (ri.step op).1.ln }) := by
  simp only [views_get]
  cases hi : m.objs[i]? with
  | none =>
    have he : m.assign i op = (m, none) := by unfold Memory.assign; rw [hi]
    rw [he]
    refine ⟨hs, ?_, fun _ _ _ => rfl, ?_⟩
    · intro r h; cases h
    · intro j ri rj _ _ _ h; cases h
  | some o =>
    have hom : o ∈ m.objs := List.mem_of_getElem? hi
    have hlt : i < m.objs.length := (List.getElem?_eq_some_iff.1 hi).1
    have hset : ∀ o' : Obj, (m.objs.set i o')[i]? = some o' := fun o' => by simp [hlt]
    have hset' : ∀ (o' : Obj) j, j ≠ i → (m.objs.set i o')[j]? = m.objs[j]? :=
      fun o' j hj => List.getElem?_set_ne (fun e => hj e.symm)
    by_cases hplain : op.PlainOp
    · have he : m.assign i op =
          ({ m with objs := m.objs.set i { o with own := (o.own.step op).1 } }, (o.own.step op).2) := by
        unfold Memory.assign
        rw [hi]
        cases op <;> first | rfl | exact absurd hplain (by simp [ResOp.PlainOp])
      rw [he]
      refine ⟨set_sound hs i _ (fun l hl => hs.inLists o hom l hl), ?_, ?_, ?_⟩
      · intro r hr
        simp only [Option.map_some, Option.some.injEq] at hr
        subst hr
        have hst := step_ln o.own (o.ln.map m.links) op hplain
        dsimp only
        rw [hset]
        show _ = some (Resource.step { o.own with ln := o.ln.map m.links } op).1 ∧
          _ = (Resource.step { o.own with ln := o.ln.map m.links } op).2
        rw [hst]
        exact ⟨rfl, rfl⟩
      · intro j hj _
        dsimp only
        rw [hset' _ j hj]
        rfl
      · intro j ri rj _ h
        exfalso
        cases op <;> first | exact h | exact hplain
    · cases op with
      | setLn v =>
        have he : m.assign i (.setLn v) =
            ({ (m.giveLn v).1 with objs := m.objs.set i { o with ln := (m.giveLn v).2 } }, none) := by
          unfold Memory.assign
          rw [hi]
          simp only [giveLn_objs]
        rw [he]
        refine ⟨?_, ?_, ?_, fun j ri rj _ h => h.elim⟩
        · have := set_sound (giveLn_sound m hs v) i { o with ln := (m.giveLn v).2 }
            (fun l hl => (giveLn_ref m v l hl).1)
          rw [giveLn_objs] at this
          exact this
        · intro r hr
          simp only [Option.map_some, Option.some.injEq] at hr
          subst hr
          refine ⟨?_, rfl⟩
          dsimp only
          rw [hset]
          have hv := giveLn_value m v
          show some ({ o.own with ln := (m.giveLn v).2.map (m.giveLn v).1.links } : Resource) = _
          rw [hv]
          rfl
        · intro j hj _
          dsimp only
          rw [hset' _ j hj]
          cases hoj : m.objs[j]? with
          | none => rfl
          | some o' =>
            have := giveLn_view m hs v o' (List.mem_of_getElem? hoj)
            simp only [Option.map_some]
            rw [← this]
            rfl
      | linkSet rel href dup atts =>
        have he : m.assign i (.linkSet rel href dup atts) = (m.linkSet i o rel href dup atts, none) := by
          unfold Memory.assign
          rw [hi]
        rw [he]
        cases hl : o.ln with
        | none =>
          have hm : m.linkSet i o rel href dup atts =
              { m.newList [addAtts [(sRel, rel), (sHref, href)] atts] with
                objs := m.objs.set i { o with ln := some m.lists.length } } := by
            unfold Memory.linkSet
            rw [hl]
            rfl
          dsimp only
          rw [hm]
          refine ⟨?_, ?_, ?_, ?_⟩
          · refine set_sound (newList_sound m hs _) i _ ?_
            intro l h
            cases h
            simp [Memory.newList]
          · intro r hr
            simp only [Option.map_some, Option.some.injEq] at hr
            subst hr
            refine ⟨?_, rfl⟩
            dsimp only
            rw [hset]
            have hv := newList_links_new m [addAtts [(sRel, rel), (sHref, href)] atts]
            show some ({ o.own with ln := some ((m.newList _).links m.lists.length) } : Resource) = _
            rw [hv]
            unfold Resource.step Resource.linkSet Memory.view
            rw [hl]
            simp [linkSetList, findLink]
          · intro j hj _
            dsimp only
            rw [hset' _ j hj]
            cases hoj : m.objs[j]? with
            | none => rfl
            | some o' =>
              have := newList_view m hs [addAtts [(sRel, rel), (sHref, href)] atts] o' (List.mem_of_getElem? hoj)
              simp only [Option.map_some]
              rw [← this]
              rfl
          · intro j ri rj _ _ hsh
            obtain ⟨a, b, l, h1, _, h3, _⟩ := hsh
            rw [hi] at h1
            cases h1
            rw [hl] at h3
            cases h3
        | some l =>
          obtain ⟨h1, h2, h3, h4⟩ := linkSet_some m hs i o rel href dup atts l hl (hs.inLists o hom l hl)
          refine ⟨h4, ?_, ?_, ?_⟩
          · intro r hr
            simp only [Option.map_some, Option.some.injEq] at hr
            subst hr
            refine ⟨?_, rfl⟩
            dsimp only
            rw [h3, hi]
            simp only [Option.map_some]
            unfold Resource.step Resource.linkSet Memory.view
            rw [hl]
            simp only [Option.map_some, Option.getD_some]
            rw [h1]
          · intro j hj hns
            dsimp only
            rw [h3]
            cases hoj : m.objs[j]? with
            | none => rfl
            | some o' =>
              simp only [Option.map_some]
              unfold Memory.view
              cases hl' : o'.ln with
              | none => rfl
              | some l' =>
                have hne : l' ≠ l := by
                  intro e
                  exact hns ⟨trivial, o, o', l, hi, hoj, hl, e ▸ hl'⟩
                simp only [Option.map_some]
                rw [h2 l' hne]
          · intro j ri rj hj _ hsh hri hrj
            obtain ⟨a, o', l', g1, g2, g3, g4⟩ := hsh
            rw [hi] at g1
            cases g1
            rw [hl] at g3
            cases g3
            dsimp only
            rw [h3]
            rw [g2] at hrj ⊢
            simp only [Option.map_some, Option.some.injEq] at hri hrj ⊢
            subst hri hrj
            unfold Resource.step Resource.linkSet Memory.view
            rw [hl, g4]
            simp only [Option.map_some, Option.getD_some]
            rw [h1]
      | _ => exact absurd trivial hplain

theorem exec_sound (m : Memory) (hs : m.Sound) (c : ResCmd) : (m.exec c).Sound := by
  cases c with
  | create src a => exact (create_views m hs src a).2
  | assign i op => exact (assign_views m hs i op).1

theorem run_append (m : Memory) (p : List ResCmd) (c : ResCmd) : m.run (p ++ [c]) = (m.run p).exec c := by
  simp [Memory.run]

theorem run_sound (p : List ResCmd) : (Memory.run {} p).Sound := by
  have h0 : ({} : Memory).Sound := by
    refine ⟨?_, ?_, ?_, ?_⟩ <;> simp
  have : ∀ m : Memory, m.Sound → (m.run p).Sound := by
    induction p with
    | nil => exact fun m h => h
    | cons c t ih => exact fun m h => ih _ (exec_sound m h c)
  exact this _ h0

/-- **C92**, making a resource: the new resource reads as the constructor says, given what the copied one
reads as, and every other resource reads as before; if the constructor raises there is no new one. -/
theorem C92_create (p : List ResCmd) (src : Option Nat) (a : ResArgs) :
    (Memory.run {} (p ++ [.create src a])).views = ownExec (Memory.run {} p).views (.create src a) := by
  rw [run_append]
  exact (create_views _ (run_sound p) src a).1

/-- **C92**, an assignment or link operation on a resource `i`, after any program: it has its effect on `i`; it has no
effect on any other resource, except that link operations also change the links of the resources that
share their list of links with `i`. -/
theorem C92_assign_partial (p : List ResCmd) (i : Nat) (op : ResOp) :
    let m := Memory.run {} p
    let m' := Memory.run {} (p ++ [.assign i op])
    (∀ r, m.views[i]? = some r → m'.views[i]? = some (r.step op).1) ∧
    (∀ j, j ≠ i → ¬ (op.IsLinkSet ∧ m.Share i j) → m'.views[j]? = m.views[j]?) ∧
    (∀ j ri rj, j ≠ i → op.IsLinkSet → m.Share i j → m.views[i]? = some ri → m.views[j]? = some rj →
      m'.views[j]? = some { rj with ln := (ri.step op).1.ln }) := by
  dsimp only
  rw [run_append]
  obtain ⟨_, h1, h2, h3⟩ := assign_views _ (run_sound p) i op
  exact ⟨fun r hr => (h1 r hr).1, h2, h3⟩

/-- **C92**, which resources share: assignments and link operations make no two resources share their links, and
assigning `ln` ends the sharing. -/
theorem C92_sharing_ends (p : List ResCmd) (k : Nat) (op : ResOp) (i j : Nat) (hij : i ≠ j) :
    (Memory.run {} (p ++ [.assign k op])).Share i j ↔
      (Memory.run {} p).Share i j ∧ ¬ ((∃ v, op = .setLn v) ∧ (i = k ∨ j = k)) := by
  rw [run_append]
  have hs := run_sound p
  generalize Memory.run {} p = m at hs ⊢
  show (m.assign k op).1.Share i j ↔ _
  have hfresh : ∀ (m' : Memory) (o : Obj) (lk : Option Nat), m.objs[k]? = some o →
      m'.objs = m.objs.set k { o with ln := lk } → (∀ l, lk = some l → m.lists.length ≤ l) →
      (m'.Share i j ↔ m.Share i j ∧ ¬ (i = k ∨ j = k)) := by
    intro m' o lk ho hobjs hlk
    have hlt : k < m.objs.length := (List.getElem?_eq_some_iff.1 ho).1
    have hk : m'.objs[k]? = some { o with ln := lk } := by rw [hobjs]; simp [hlt]
    have hne : ∀ x, x ≠ k → m'.objs[x]? = m.objs[x]? := fun x hx => by
      rw [hobjs]; exact List.getElem?_set_ne (fun e => hx e.symm)
    have hno : ∀ x, x ≠ k → ∀ o', m'.objs[x]? = some o' → ∀ l, o'.ln = some l → lk = some l → False := by
      intro x hx o' ho' l hl hl'
      rw [hne x hx] at ho'
      have := hs.inLists o' (List.mem_of_getElem? ho') l hl
      have := hlk l hl'
      omega
    constructor
    · rintro ⟨a, b, l, h1, h2, h3, h4⟩
      by_cases hi : i = k
      · subst hi
        rw [hk] at h1
        cases h1
        exact (hno j (fun e => hij e.symm) b h2 l h4 h3).elim
      · by_cases hj : j = k
        · subst hj
          rw [hk] at h2
          cases h2
          exact (hno i hi a h1 l h3 h4).elim
        · rw [hne i hi] at h1
          rw [hne j hj] at h2
          exact ⟨⟨a, b, l, h1, h2, h3, h4⟩, by rintro (h | h) <;> contradiction⟩
    · rintro ⟨⟨a, b, l, h1, h2, h3, h4⟩, hn⟩
      push Not at hn
      exact ⟨a, b, l, by rw [hne i hn.1]; exact h1, by rw [hne j hn.2]; exact h2, h3, h4⟩
  cases ho : m.objs[k]? with
  | none =>
    have he : m.assign k op = (m, none) := by unfold Memory.assign; rw [ho]
    rw [he]
    constructor
    · rintro ⟨a, b, l, h1, h2, h3, h4⟩
      refine ⟨⟨a, b, l, h1, h2, h3, h4⟩, ?_⟩
      rintro ⟨_, h | h⟩
      · subst h; rw [ho] at h1; cases h1
      · subst h; rw [ho] at h2; cases h2
    · exact fun h => h.1
  | some o =>
    by_cases hplain : op.PlainOp
    · have he : (m.assign k op).1.objs = m.objs.set k { o with own := (o.own.step op).1 } := by
        unfold Memory.assign
        rw [ho]
        cases op <;> first | rfl | exact absurd hplain (by simp [ResOp.PlainOp])
      have hno : ¬ ∃ v, op = .setLn v := by
        rintro ⟨v, rfl⟩
        exact hplain
      have hlt : k < m.objs.length := (List.getElem?_eq_some_iff.1 ho).1
      have hget : ∀ x : Nat, ((m.assign k op).1.objs[x]?).map Obj.ln = (m.objs[x]?).map Obj.ln := by
        intro x
        rw [he]
        by_cases hx : x = k
        · subst hx
          rw [ho]
          simp [hlt]
        · rw [List.getElem?_set_ne (fun e => hx e.symm)]
      have hsh : ∀ m' : Memory, m'.Share i j ↔
          ∃ l, (m'.objs[i]?).map Obj.ln = some (some l) ∧ (m'.objs[j]?).map Obj.ln = some (some l) := by
        intro m'
        constructor
        · rintro ⟨a, b, l, h1, h2, h3, h4⟩
          exact ⟨l, by rw [h1]; simp [h3], by rw [h2]; simp [h4]⟩
        · rintro ⟨l, h1, h2⟩
          rw [Option.map_eq_some_iff] at h1 h2
          obtain ⟨a, ha, ha'⟩ := h1
          obtain ⟨b, hb, hb'⟩ := h2
          exact ⟨a, b, l, ha, hb, ha', hb'⟩
      rw [hsh, hsh]
      simp only [hget]
      constructor
      · exact fun h => ⟨h, fun h' => hno h'.1⟩
      · exact fun h => h.1
    · cases op with
      | setLn v =>
        have hx := hfresh (m.assign k (.setLn v)).1 o (m.giveLn v).2 ho
          (by unfold Memory.assign; rw [ho]; simp only [giveLn_objs]) (fun l hl => (giveLn_ref m v l hl).2)
        rw [hx]
        simp
      | linkSet rel href dup atts =>
        have he : (m.assign k (.linkSet rel href dup atts)).1 = m.linkSet k o rel href dup atts := by
          unfold Memory.assign
          rw [ho]
        rw [he]
        have hno : ¬ ∃ v, ResOp.linkSet rel href dup atts = .setLn v := by rintro ⟨v, h⟩; cases h
        cases hl : o.ln with
        | none =>
          have hx := hfresh (m.linkSet k o rel href dup atts) o (some m.lists.length) ho
            (by unfold Memory.linkSet; rw [hl]; rfl) (fun l h => by cases h; exact le_refl _)
          rw [hx]
          have hk : ∀ x, ¬ m.Share k x ∧ ¬ m.Share x k := by
            intro x
            constructor
            · rintro ⟨a, b, l, h1, _, h3, _⟩
              rw [ho] at h1; cases h1; rw [hl] at h3; cases h3
            · rintro ⟨a, b, l, _, h1, _, h3⟩
              rw [ho] at h1; cases h1; rw [hl] at h3; cases h3
          constructor
          · exact fun h => ⟨h.1, fun h' => hno h'.1⟩
          · rintro ⟨h, _⟩
            refine ⟨h, ?_⟩
            rintro (e | e)
            · exact (hk j).1 (e ▸ h)
            · exact (hk i).2 (e ▸ h)
        | some l =>
          obtain ⟨_, _, h3, _⟩ :=
            linkSet_some m hs k o rel href dup atts l hl (hs.inLists o (List.mem_of_getElem? ho) l hl)
          unfold Memory.Share
          rw [h3]
          constructor
          · exact fun h => ⟨h, fun h' => hno h'.1⟩
          · exact fun h => h.1
      | _ => exact absurd trivial hplain

/-- **C92**, where sharing comes from: the new resource shares its links with `i` just if it is a copy for
which no links were given, of a resource that has links and is `i` or shares them with `i`; others are not
affected. -/
theorem C92_sharing_begins (p : List ResCmd) (src : Option Nat) (a : ResArgs) (i : Nat) :
    let m := Memory.run {} p
    let m' := Memory.run {} (p ++ [.create src a])
    (∀ j, i < m.objs.length → j < m.objs.length → (m'.Share i j ↔ m.Share i j)) ∧
    (m'.objs.length = m.objs.length + 1 → i < m.objs.length →
      (m'.Share i m.objs.length ↔ a.ln = none ∧ ∃ s, src = some s ∧ m.Share s i)) := by
  dsimp only
  rw [run_append]
  have hs := run_sound p
  generalize Memory.run {} p = m at hs ⊢
  show (∀ j, i < m.objs.length → j < m.objs.length → ((m.create src a).1.Share i j ↔ m.Share i j)) ∧
    ((m.create src a).1.objs.length = m.objs.length + 1 → i < m.objs.length →
      ((m.create src a).1.Share i m.objs.length ↔ a.ln = none ∧ ∃ s, src = some s ∧ m.Share s i))
  unfold Memory.create
  dsimp only
  cases h : Resource.new { a with resource := (src.bind (fun i => m.objs[i]?)).map m.view } with
  | error e => exact ⟨fun _ _ _ => Iff.rfl, fun h => absurd h (by simp)⟩
  | ok r =>
    dsimp only
    have hobjs : (if a.ln.isSome then m.giveLn a.ln else (m, (src.bind (fun i => m.objs[i]?)).bind (·.ln))).1.objs
        = m.objs := by
      split_ifs
      · exact giveLn_objs m _
      · rfl
    have hold : ∀ (x : Nat) (o : Obj), x < m.objs.length → (m.objs ++ [o])[x]? = m.objs[x]? :=
      fun x o hx => List.getElem?_append_left hx
    constructor
    · intro j hi hj
      unfold Memory.Share
      dsimp only
      rw [hobjs]
      simp only [hold i _ hi, hold j _ hj]
    · intro _ hi
      unfold Memory.Share
      dsimp only
      rw [hobjs]
      simp only [hold i _ hi]
      rw [List.getElem?_append_right (le_refl _)]
      simp only [Nat.sub_self, List.getElem?_cons_zero, Option.some.injEq]
      constructor
      · rintro ⟨o, o', l, h1, h2, h3, h4⟩
        subst h2
        dsimp only at h4
        cases ha : a.ln with
        | some ls =>
          rw [ha] at h4
          simp only [Option.isSome_some, if_true] at h4
          have := (giveLn_ref m _ l h4).2
          have := hs.inLists o (List.mem_of_getElem? h1) l h3
          omega
        | none =>
          rw [ha] at h4
          simp only [Option.isSome_none, Bool.false_eq_true, if_false] at h4
          refine ⟨rfl, ?_⟩
          cases src with
          | none => cases h4
          | some s =>
            refine ⟨s, rfl, ?_⟩
            cases hq : m.objs[s]? with
            | none => simp [hq] at h4
            | some os =>
              simp only [Option.bind_some, hq] at h4
              exact ⟨os, o, l, rfl, h1, h4, h3⟩
      · rintro ⟨ha, s, hsrc, os, o, l, h1, h2, h3, h4⟩
        subst hsrc
        refine ⟨o, _, l, h2, rfl, h4, ?_⟩
        rw [ha]
        simp [h1, h3]

theorem ownExec_assign (m : Memory) (hs : m.Sound) (i : Nat) (op : ResOp)
    (h : ∀ j, j ≠ i → ¬ (op.IsLinkSet ∧ m.Share i j)) : (m.assign i op).1.views = ownExec m.views (.assign i op) := by
  obtain ⟨_, h1, h2, _⟩ := assign_views m hs i op
  apply List.ext_getElem?
  intro j
  unfold ownExec
  dsimp only
  cases hi : m.views[i]? with
  | none =>
    have hio : m.objs[i]? = none := by
      rw [views_get] at hi
      exact Option.map_eq_none_iff.1 hi
    have he : m.assign i op = (m, none) := by unfold Memory.assign; rw [hio]
    rw [he]
  | some r =>
    dsimp only
    by_cases hj : j = i
    · subst hj
      have hlt : j < m.views.length := (List.getElem?_eq_some_iff.1 hi).1
      rw [(h1 r hi).1]
      simp [hlt]
    · rw [h2 j hj (h j hj), List.getElem?_set_ne (fun e => hj e.symm)]

/-- **C92**: a program in which no `link_set` is done on a resource while it shares its links runs as if
all resources were separate. -/
theorem C92_separate_partial (p : List ResCmd)
    (h : ∀ p1 i op p2, p = p1 ++ .assign i op :: p2 → op.IsLinkSet → ∀ j, j ≠ i → ¬ (Memory.run {} p1).Share i j) :
    (Memory.run {} p).views = p.foldl ownExec [] := by
  induction p using List.reverseRecOn with
  | nil => rfl
  | append_singleton t c ih =>
    have ih := ih (fun p1 i op p2 e => h p1 i op (p2 ++ [c]) (by rw [e]; simp))
    rw [run_append, List.foldl_append, List.foldl_cons, List.foldl_nil, ← ih]
    cases c with
    | create src a => exact (create_views _ (run_sound t) src a).1
    | assign i op =>
      refine ownExec_assign _ (run_sound t) i op ?_
      rintro j hj ⟨h1, h2⟩
      exact h t i op [] rfl h1 j hj h2

/-- **C92**, in particular for programs without link operations (links may be given to constructors or
assigned) -/
theorem C92_no_link_operations_partial (p : List ResCmd) (h : ∀ i op, .assign i op ∈ p → ¬ op.IsLinkSet) :
    (Memory.run {} p).views = p.foldl ownExec [] := by
  refine C92_separate_partial p ?_
  intro p1 i op p2 e hl
  exact absurd hl (h i op (by rw [e]; simp))

theorem create_length (m : Memory) (src : Option Nat) (a : ResArgs) :
    (m.create src a).1.objs.length = m.objs.length ∨ (m.create src a).1.objs.length = m.objs.length + 1 := by
  unfold Memory.create
  dsimp only
  cases Resource.new { a with resource := (src.bind (fun i => m.objs[i]?)).map m.view } with
  | error e => exact Or.inl rfl
  | ok r =>
    right
    dsimp only
    split_ifs
    · simp [giveLn_objs]
    · simp

/-- **C92**, and for programs in which every copy is given its own links -/
theorem C92_copies_with_links_partial (p : List ResCmd) (h : ∀ s a, .create (some s) a ∈ p → a.ln ≠ none) :
    (Memory.run {} p).views = p.foldl ownExec [] := by
  refine C92_separate_partial p ?_
  intro p1 i op p2 e _ j hj
  have h1 : ∀ s a, .create (some s) a ∈ p1 → a.ln ≠ none := fun s a hm => h s a (by rw [e]; simp [hm])
  clear h e p2
  have : ∀ x y, x ≠ y → ¬ (Memory.run {} p1).Share x y := by
    clear hj i j
    induction p1 using List.reverseRecOn with
    | nil => rintro x y _ ⟨a, b, l, h, _⟩; simp [Memory.run] at h
    | append_singleton t c ih =>
      have ih := ih (fun s a hm => h1 s a (by simp [hm]))
      intro x y hxy hsh
      cases c with
      | assign k op => exact ih x y hxy ((C92_sharing_ends t k op x y hxy).1 hsh).1
      | create src a =>
        have hb := fun i => C92_sharing_begins t src a i
        have hsym : ∀ x y, (Memory.run {} (t ++ [.create src a])).Share x y →
            (Memory.run {} (t ++ [.create src a])).Share y x := by
          rintro x y ⟨a, b, l, h1, h2, h3, h4⟩
          exact ⟨b, a, l, h2, h1, h4, h3⟩
        have hlen : (Memory.run {} (t ++ [.create src a])).objs.length = (Memory.run {} t).objs.length ∨
            (Memory.run {} (t ++ [.create src a])).objs.length = (Memory.run {} t).objs.length + 1 := by
          rw [run_append]
          exact create_length _ src a
        have hkey : ∀ x, x < (Memory.run {} t).objs.length →
            ¬ (Memory.run {} (t ++ [.create src a])).Share x (Memory.run {} t).objs.length := by
          intro x hx hsh
          have hl : (Memory.run {} (t ++ [.create src a])).objs.length = (Memory.run {} t).objs.length + 1 := by
            rcases hlen with hl | hl
            · obtain ⟨_, _, _, _, h2, _⟩ := hsh
              have := (List.getElem?_eq_some_iff.1 h2).1
              omega
            · exact hl
          obtain ⟨ha, s, hsrc, _⟩ := ((hb x).2 hl hx).1 hsh
          exact h1 s a (by rw [hsrc]; simp) ha
        have hx : x < (Memory.run {} t).objs.length + 1 := by
          obtain ⟨_, _, _, h2, _⟩ := hsh
          have := (List.getElem?_eq_some_iff.1 h2).1
          omega
        have hy : y < (Memory.run {} t).objs.length + 1 := by
          obtain ⟨_, _, _, _, h2, _⟩ := hsh
          have := (List.getElem?_eq_some_iff.1 h2).1
          omega
        by_cases hx' : x < (Memory.run {} t).objs.length
        · by_cases hy' : y < (Memory.run {} t).objs.length
          · exact ih x y hxy (((hb x).1 y hx' hy').1 hsh)
          · have : y = (Memory.run {} t).objs.length := by omega
            exact hkey x hx' (this ▸ hsh)
        · have : x = (Memory.run {} t).objs.length := by omega
          exact hkey y (by omega) (this ▸ hsym x y hsh)
  exact this i j (fun e => hj e.symm)

namespace SharingExample

def sUp : Str := "up".toList
def lk (href : String) : Link := [(sRel, sUp), (sHref, href.toList)]

/-- a resource with a link, a copy of it marked as updated, and a change to the copy's links -/
def prog : List ResCmd :=
  [.create none { uri := some "http://a.org/1".toList, ln := some [lk "http://a.org/x"] },
   .create (some 0) { change := some sUpdated },
   .assign 1 (.setMd5 (some "d".toList)),
   .assign 1 (.linkSet sUp "http://a.org/y".toList false [])]

/-- the copy has been changed, and so has the original, in its links only -/
example : (Memory.run {} prog).views =
    [{ uri := "http://a.org/1".toList, ln := some [lk "http://a.org/y"] },
     { uri := "http://a.org/1".toList, ln := some [lk "http://a.org/y"], change := some sUpdated,
       md5 := some "d".toList }] := by decide +kernel

/-- not vacuous: the first three statements are without link operations, and make a copy that shares -/
example : (∀ i op, .assign i op ∈ prog.take 3 → ¬ op.IsLinkSet) ∧ (Memory.run {} (prog.take 3)).Share 1 0 := by
  refine ⟨?_, _, _, 0, rfl, rfl, rfl, rfl⟩
  intro i op h
  simp only [prog, List.take, List.mem_cons, reduceCtorEq, ResCmd.assign.injEq, List.not_mem_nil, or_false,
    false_or] at h
  rw [h.2]
  exact id

/-- not vacuous: a copy that is given links of its own may have them changed -/
example : (∀ s a, .create (some s) a ∈ [ResCmd.create none { uri := some "u".toList, ln := some [lk "x"] },
      .create (some 0) { ln := some [lk "x"] }, .assign 1 (.linkSet sUp "y".toList false [])] → a.ln ≠ none) ∧
    (Memory.run {} [ResCmd.create none { uri := some "u".toList, ln := some [lk "x"] },
      .create (some 0) { ln := some [lk "x"] }, .assign 1 (.linkSet sUp "y".toList false [])]).views =
    [{ uri := "u".toList, ln := some [lk "x"] }, { uri := "u".toList, ln := some [lk "y"] }] := by
  refine ⟨?_, by decide +kernel⟩
  intro s a h
  simp only [List.mem_cons, reduceCtorEq, ResCmd.create.injEq, List.not_mem_nil, or_false, false_and,
    false_or] at h
  rw [h.2]
  simp

/-- **C92** fails: a copy is not separate from the original, changing its links changes the original's. -/
theorem C92_violated : ¬ ∀ p : List ResCmd, (Memory.run {} p).views = p.foldl ownExec [] := by
  intro h
  have := h prog
  revert this
  decide +kernel

end SharingExample

end Resync
