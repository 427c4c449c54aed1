import Verif.Model.Sharing
import Mathlib.Data.List.Basic
/-
Lemmas about resources as objects (Model/Sharing).
-/

namespace Resync
open Py

/-- neither an assignment to `ln` nor a link operation -/
def ResOp.PlainOp : ResOp → Prop
  | .setLn _ => False
  | .linkSet _ _ _ _ => False
  | _ => True

theorem hashLoop_ln (ws seen : List Str) (b : Bool) (r : Resource) (x : Option (List Link)) :
    hashLoop ws seen b { r with ln := x } =
      ({ (hashLoop ws seen b r).1 with ln := x }, (hashLoop ws seen b r).2) := by
  induction ws generalizing seen b r with
  | nil => rfl
  | cons w t ih =>
    unfold hashLoop
    split
    · rfl
    · split_ifs <;> first | exact ih _ _ _ | (rw [← ih])

theorem setHash_ln (r : Resource) (s : Option Str) (x : Option (List Link)) :
    Resource.setHash { r with ln := x } s = ({ (r.setHash s).1 with ln := x }, (r.setHash s).2) := by
  unfold Resource.setHash
  cases s with
  | none => rfl
  | some s => exact hashLoop_ln _ _ _ { r with md5 := none, sha1 := none, sha256 := none } x

theorem setDate_ln (r : Resource) (s : Option Str) (f : Option Rat → Resource) (g : Option Rat → Resource)
    (x : Option (List Link)) (h : ∀ t, g t = { f t with ln := x }) :
    setDate { r with ln := x } s g = ({ (setDate r s f).1 with ln := x }, (setDate r s f).2) := by
  unfold setDate
  cases strToDatetime? s with
  | none => rfl
  | some t => simp [h]

theorem step_ln (r : Resource) (x : Option (List Link)) (op : ResOp) (h : op.PlainOp) :
    Resource.step { r with ln := x } op = ({ (r.step op).1 with ln := x }, (r.step op).2) := by
  cases op with
  | setLn v => exact absurd h (by simp [ResOp.PlainOp])
  | linkSet => exact absurd h (by simp [ResOp.PlainOp])
  | setHash s => exact setHash_ln r s x
  | setChange v =>
    unfold Resource.step Resource.setChange
    cases v with
    | none => rfl
    | some c => dsimp only; split_ifs <;> rfl
  | setLastmod s => exact setDate_ln r s _ _ x (fun _ => rfl)
  | setDatetime s => exact setDate_ln r s _ _ x (fun _ => rfl)
  | setMdAt s => exact setDate_ln r s _ _ x (fun _ => rfl)
  | setMdCompleted s => exact setDate_ln r s _ _ x (fun _ => rfl)
  | setMdFrom s => exact setDate_ln r s _ _ x (fun _ => rfl)
  | setMdUntil s => exact setDate_ln r s _ _ x (fun _ => rfl)
  | _ => rfl

/-- every dict is in one place of one list, and references lead somewhere -/
structure Memory.Sound (m : Memory) : Prop where
  once : ∀ l, (m.lists.getD l []).Nodup
  apart : ∀ l l' d, d ∈ m.lists.getD l [] → d ∈ m.lists.getD l' [] → l = l'
  inDicts : ∀ l d, d ∈ m.lists.getD l [] → d < m.dicts.length
  inLists : ∀ o ∈ m.objs, ∀ l, o.ln = some l → l < m.lists.length

theorem getD_append_of_lt {α : Type} (xs ys : List α) (n : Nat) (x : α) (h : n < xs.length) :
    (xs ++ ys).getD n x = xs.getD n x := by
  simp [List.getD_eq_getElem?_getD, List.getElem?_append_left h]

theorem getD_append_length {α : Type} (xs : List α) (y x : α) : (xs ++ [y]).getD xs.length x = y := by
  simp [List.getD_eq_getElem?_getD]

theorem getD_of_le {α : Type} (xs : List α) (n : Nat) (x : α) (h : xs.length ≤ n) : xs.getD n x = x := by
  simp [List.getD_eq_getElem?_getD, List.getElem?_eq_none h]

theorem getD_set_ne {α : Type} (xs : List α) (n k : Nat) (y x : α) (h : n ≠ k) :
    (xs.set n y).getD k x = xs.getD k x := by
  simp [List.getD_eq_getElem?_getD, List.getElem?_set_ne h]

theorem getD_set_self {α : Type} (xs : List α) (n : Nat) (y x : α) (h : n < xs.length) :
    (xs.set n y).getD n x = y := by
  simp [List.getD_eq_getElem?_getD, h]

theorem getD_snoc {α : Type} (xs : List α) (y x : α) (n : Nat) :
    (xs ++ [y]).getD n x = if n = xs.length then y else xs.getD n x := by
  by_cases h : n < xs.length
  · rw [getD_append_of_lt _ _ _ _ h, if_neg (by omega)]
  · by_cases h' : n = xs.length
    · subst h'; rw [getD_append_length, if_pos rfl]
    · rw [getD_of_le _ _ _ (by simp; omega), if_neg h', getD_of_le _ _ _ (by omega)]

/-- links read the same as long as their dicts and list are the same -/
theorem links_congr {m m' : Memory} {l : Nat} (hl : m'.lists.getD l [] = m.lists.getD l [])
    (hd : ∀ d ∈ m.lists.getD l [], m'.dicts.getD d [] = m.dicts.getD d []) : m'.links l = m.links l := by
  unfold Memory.links
  rw [hl]
  exact List.map_congr_left hd

/-! ### a new list -/

theorem newList_links_old (m : Memory) (hs : m.Sound) (ls : List Link) (l : Nat) (hl : l < m.lists.length) :
    (m.newList ls).links l = m.links l := by
  apply links_congr
  · exact getD_append_of_lt _ _ _ _ hl
  · intro d hd
    exact getD_append_of_lt _ _ _ _ (hs.inDicts l d hd)

theorem newList_links_new (m : Memory) (ls : List Link) : (m.newList ls).links m.lists.length = ls := by
  unfold Memory.links Memory.newList
  dsimp only
  rw [getD_append_length]
  apply List.ext_getElem?
  intro n
  rw [List.getElem?_map]
  by_cases h : n < ls.length
  · rw [List.getElem?_range' h]
    simp [List.getD_eq_getElem?_getD, h]
  · rw [List.getElem?_eq_none (by simp; omega), List.getElem?_eq_none (by omega)]
    rfl

theorem newList_sound (m : Memory) (hs : m.Sound) (ls : List Link) : (m.newList ls).Sound := by
  have hlist : ∀ l, (m.newList ls).lists.getD l [] =
      if l = m.lists.length then List.range' m.dicts.length ls.length else m.lists.getD l [] :=
    fun l => getD_snoc _ _ _ _
  have hlen : (m.newList ls).dicts.length = m.dicts.length + ls.length := by
    simp [Memory.newList]
  refine ⟨?_, ?_, ?_, ?_⟩
  · intro l
    rw [hlist]
    split_ifs
    · exact List.nodup_range'
    · exact hs.once l
  · intro l l' d h h'
    rw [hlist] at h h'
    split_ifs at h h' with h1 h2 h2
    · omega
    · have := hs.inDicts l' d h'
      have := (List.mem_range'_1.1 h).1
      omega
    · have := hs.inDicts l d h
      have := (List.mem_range'_1.1 h').1
      omega
    · exact hs.apart l l' d h h'
  · intro l d h
    rw [hlist] at h
    rw [hlen]
    split_ifs at h with h1
    · exact (List.mem_range'_1.1 h).2
    · have := hs.inDicts l d h
      omega
  · intro o ho l hl
    have := hs.inLists o ho l hl
    simp [Memory.newList]
    omega

/-- objects that have been there read the same after a new list has been made -/
theorem newList_view (m : Memory) (hs : m.Sound) (ls : List Link) (o : Obj) (ho : o ∈ m.objs) :
    (m.newList ls).view o = m.view o := by
  unfold Memory.view
  cases h : o.ln with
  | none => rfl
  | some l => simp [newList_links_old m hs ls l (hs.inLists o ho l h)]

theorem giveLn_objs (m : Memory) (v : Option (List Link)) : (m.giveLn v).1.objs = m.objs := by
  cases v <;> rfl

theorem giveLn_sound (m : Memory) (hs : m.Sound) (v : Option (List Link)) : (m.giveLn v).1.Sound := by
  cases v with
  | none => exact hs
  | some ls => exact newList_sound m hs ls

theorem giveLn_view (m : Memory) (hs : m.Sound) (v : Option (List Link)) (o : Obj) (ho : o ∈ m.objs) :
    (m.giveLn v).1.view o = m.view o := by
  cases v with
  | none => rfl
  | some ls => exact newList_view m hs ls o ho

theorem giveLn_value (m : Memory) (v : Option (List Link)) :
    (m.giveLn v).2.map (m.giveLn v).1.links = v := by
  cases v with
  | none => rfl
  | some ls => simp [Memory.giveLn, newList_links_new]

theorem giveLn_ref (m : Memory) (v : Option (List Link)) (l : Nat) (h : (m.giveLn v).2 = some l) :
    l < (m.giveLn v).1.lists.length ∧ m.lists.length ≤ l := by
  cases v with
  | none => exact absurd h (by simp [Memory.giveLn])
  | some ls =>
    simp only [Memory.giveLn, Option.some.injEq] at h
    subst h
    simp [Memory.giveLn, Memory.newList]

/-- giving an object a reference to a list that exists -/
theorem set_sound {m : Memory} (hs : m.Sound) (i : Nat) (o : Obj)
    (h : ∀ l, o.ln = some l → l < m.lists.length) : ({ m with objs := m.objs.set i o } : Memory).Sound := by
  refine ⟨hs.once, hs.apart, hs.inDicts, ?_⟩
  intro o' ho' l hl
  rcases List.mem_or_eq_of_mem_set ho' with h' | h'
  · exact hs.inLists o' h' l hl
  · exact h l (h' ▸ hl)

theorem push_sound {m : Memory} (hs : m.Sound) (o : Obj)
    (h : ∀ l, o.ln = some l → l < m.lists.length) : ({ m with objs := m.objs ++ [o] } : Memory).Sound := by
  refine ⟨hs.once, hs.apart, hs.inDicts, ?_⟩
  intro o' ho' l hl
  rcases List.mem_append.1 ho' with h' | h'
  · exact hs.inLists o' h' l hl
  · exact h l ((List.mem_singleton.1 h') ▸ hl)

/-! ### link_set on a list that is there -/

theorem find?_findRef (m : Memory) (l : Nat) (rel : Str) :
    findLink (m.links l) rel = (m.findRef l rel).map (fun d => m.dicts.getD d []) := by
  unfold findLink Memory.links Memory.findRef
  rw [List.find?_map]
  rfl

/-- updating the first dict found in place -/
theorem updateFirst_set (m : Memory) (rel : Str) (f : Link → Link) (refs : List Nat) (d : Nat)
    (hn : refs.Nodup) (hlt : ∀ x ∈ refs, x < m.dicts.length)
    (hd : refs.find? (fun d => dget (m.dicts.getD d []) sRel = some rel) = some d) :
    refs.map (fun x => (m.dicts.set d (f (m.dicts.getD d []))).getD x []) =
      updateFirst (refs.map (fun d => m.dicts.getD d [])) rel f := by
  induction refs with
  | nil => cases hd
  | cons x t ih =>
    rw [List.nodup_cons] at hn
    rw [List.find?_cons] at hd
    simp only [List.map_cons]
    unfold updateFirst
    by_cases hx : dget (m.dicts.getD x []) sRel = some rel
    · simp only [hx, decide_true, Option.some.injEq] at hd
      subst hd
      rw [if_pos hx, getD_set_self _ _ _ _ (hlt x (List.mem_cons_self ..))]
      congr 1
      apply List.map_congr_left
      intro y hy
      exact getD_set_ne _ _ _ _ _ (fun e => hn.1 (e ▸ hy))
    · simp only [hx, decide_false] at hd
      have hmem := List.mem_of_find?_eq_some hd
      have hdx : d ≠ x := fun e => hn.1 (e ▸ hmem)
      rw [if_neg hx, getD_set_ne _ _ _ _ _ hdx]
      congr 1
      exact ih hn.2 (fun y hy => hlt y (List.mem_cons_of_mem _ hy)) hd

/-- a new dict appended to a list -/
def Memory.appendLink (m : Memory) (l : Nat) (new : Link) : Memory :=
  { m with dicts := m.dicts ++ [new], lists := m.lists.set l (m.lists.getD l [] ++ [m.dicts.length]) }

theorem linkSet_some (m : Memory) (hs : m.Sound) (i : Nat) (o : Obj) (rel href : Str) (dup : Bool)
    (atts : List (Str × Str)) (l : Nat) (hl : o.ln = some l) (hlt : l < m.lists.length) :
    (m.linkSet i o rel href dup atts).links l = linkSetList (m.links l) rel href dup atts ∧
    (∀ l', l' ≠ l → (m.linkSet i o rel href dup atts).links l' = m.links l') ∧
    (m.linkSet i o rel href dup atts).objs = m.objs ∧ (m.linkSet i o rel href dup atts).Sound := by
  have happ : ∀ new : Link,
      (m.appendLink l new).links l = m.links l ++ [new] ∧
      (∀ l', l' ≠ l → (m.appendLink l new).links l' = m.links l') ∧ (m.appendLink l new).Sound := by
    intro new
    unfold Memory.appendLink
    have hlist : ∀ k, (m.lists.set l (m.lists.getD l [] ++ [m.dicts.length])).getD k [] =
        if k = l then m.lists.getD l [] ++ [m.dicts.length] else m.lists.getD k [] := by
      intro k
      split_ifs with h
      · subst h; exact getD_set_self _ _ _ _ hlt
      · exact getD_set_ne _ _ _ _ _ (fun e => h e.symm)
    refine ⟨?_, ?_, ?_⟩
    · unfold Memory.links
      dsimp only
      rw [hlist, if_pos rfl, List.map_append, List.map_singleton, getD_append_length]
      congr 1
      exact List.map_congr_left (fun d hd => getD_append_of_lt _ _ _ _ (hs.inDicts l d hd))
    · intro l' hne
      apply links_congr
      · exact (hlist l').trans (if_neg hne)
      · intro d hd
        exact getD_append_of_lt _ _ _ _ (hs.inDicts l' d hd)
    · have hnew : ∀ k d, d ∈ m.lists.getD k [] → d ≠ m.dicts.length :=
        fun k d hd => Nat.ne_of_lt (hs.inDicts k d hd)
      refine ⟨?_, ?_, ?_, ?_⟩
      · intro k
        dsimp only
        rw [hlist]
        split_ifs
        · rw [List.nodup_append]
          refine ⟨hs.once l, List.nodup_singleton _, ?_⟩
          intro a ha b hb
          rw [List.mem_singleton.1 hb]
          exact hnew l a ha
        · exact hs.once k
      · intro k k' d h h'
        dsimp only at h h'
        rw [hlist] at h h'
        split_ifs at h h' with h1 h2 h2
        · rw [h1, h2]
        · rcases List.mem_append.1 h with h | h
          · rw [h1]; exact hs.apart l k' d h h'
          · exact absurd (List.mem_singleton.1 h) (hnew k' d h')
        · rcases List.mem_append.1 h' with h' | h'
          · rw [h2]; exact hs.apart k l d h h'
          · exact absurd (List.mem_singleton.1 h') (hnew k d h)
        · exact hs.apart k k' d h h'
      · intro k d h
        dsimp only at h ⊢
        rw [hlist] at h
        simp only [List.length_append, List.length_singleton]
        split_ifs at h
        · rcases List.mem_append.1 h with h | h
          · have := hs.inDicts l d h; omega
          · have := List.mem_singleton.1 h; omega
        · have := hs.inDicts k d h; omega
      · intro o' ho' k hk
        simpa using hs.inLists o' ho' k hk
  have hinpl : ∀ d (f : Link → Link), m.findRef l rel = some d →
      ({ m with dicts := m.dicts.set d (f (m.dicts.getD d [])) } : Memory).links l = updateFirst (m.links l) rel f ∧
      (∀ l', l' ≠ l → ({ m with dicts := m.dicts.set d (f (m.dicts.getD d [])) } : Memory).links l' = m.links l') ∧
      ({ m with dicts := m.dicts.set d (f (m.dicts.getD d [])) } : Memory).Sound := by
    intro d f hd
    refine ⟨?_, ?_, ?_⟩
    · exact updateFirst_set m rel f (m.lists.getD l []) d (hs.once l) (fun x hx => hs.inDicts l x hx) hd
    · intro l' hne
      refine links_congr (m := m) rfl ?_
      intro x hx
      refine getD_set_ne _ _ _ _ _ ?_
      intro e
      exact hne (hs.apart l' l x hx (e ▸ List.mem_of_find?_eq_some hd))
    · refine ⟨hs.once, hs.apart, ?_, hs.inLists⟩
      intro k x hx
      simpa using hs.inDicts k x hx
  unfold linkSetList
  rw [find?_findRef]
  unfold Memory.linkSet
  rw [hl]
  dsimp only
  cases hf : m.findRef l rel with
  | none =>
    rw [if_neg (by simp)]
    have := happ (addAtts [(sRel, rel), (sHref, href)] atts)
    exact ⟨this.1, this.2.1, rfl, this.2.2⟩
  | some d =>
    cases dup with
    | true =>
      rw [if_neg (by simp)]
      have := happ (addAtts [(sRel, rel), (sHref, href)] atts)
      exact ⟨this.1, this.2.1, rfl, this.2.2⟩
    | false =>
      rw [if_pos (by simp)]
      have := hinpl d (fun x => addAtts (dset x sHref href) atts) hf
      exact ⟨this.1, this.2.1, rfl, this.2.2⟩

end Resync
