import Verif.Spec.Container
import Verif.Props.Sitemap
import Verif.Props.W3CDatetime
import Verif.Proofs.ListRead
import Verif.Proofs.Resource
import Mathlib.Data.List.Induction
/-
C76: the accessors of containers for top-level metadata and links.
-/

namespace Resync
open Py Resync.Spec

/-- carrying out an assignment; `none` is an exception -/
def Container.assign (c : Container) : Assign → Option Container
  | .capability v => some (c.setCapability v)
  | .md_from v clock => c.setMdFrom v clock
  | .md_until v clock => c.setMdUntil v clock
  | .md_at v clock => c.setMdAt v clock
  | .md_completed v clock => c.setMdCompleted v clock
  | .describedby uri => some (c.setDescribedby uri)
  | .up uri => some (c.setUp uri)
  | .index uri => some (c.setIndex uri)
  | .link_set rel href atts => some (c.linkSet rel href atts)

/-- carrying out a history of assignments -/
def Container.assignAll (c : Container) : List Assign → Option Container
  | [] => some c
  | a :: t => (c.assign a).bind (fun c => c.assignAll t)

/-- reading a slot with the accessors -/
def Container.read (c : Container) : Slot → Except ResErr (Option Str)
  | .capability => .ok c.capability
  | .md_from => .ok c.mdFrom
  | .md_until => .ok c.mdUntil
  | .md_at => .ok c.mdAt
  | .md_completed => .ok c.mdCompleted
  | .link rel => c.linkHref rel

/-- keyword arguments cannot be called rel or href -/
def AssignOk : Assign → Prop
  | .link_set _ _ atts => ∀ kv ∈ atts, kv.1 ≠ "rel".toList ∧ kv.1 ≠ "href".toList
  | _ => True

/-! ### Lemmas -/

theorem mdGet_dset (c : Container) (k k' : Str) (v : Option Str) :
    ({ c with md := dset c.md k v } : Container).mdGet k' = if k = k' then v else c.mdGet k' := by
  unfold Container.mdGet
  simp only [dget_dset]
  split <;> simp

/-- the key of an attribute -/
def slotKey : Slot → Str
  | .capability => kCapability
  | .md_from => kMdFrom
  | .md_until => kMdUntil
  | .md_at => kMdAt
  | .md_completed => kMdCompleted
  | .link _ => []

theorem slotKey_inj {a b : Slot} (h : slotKey a = slotKey b) (hb : slotKey b ≠ []) : a = b := by
  cases a <;> cases b <;> first
    | rfl
    | (exact absurd h (by decide))
    | (exact absurd rfl hb)
    | (exact absurd h.symm (by decide))
    | (exact absurd h.symm hb)
    | (exact absurd h (Ne.symm hb))

theorem read_dset_other (c : Container) (k : Str) (v : Option Str) (slot : Slot) (h : slotKey slot ≠ k) :
    ({ c with md := dset c.md k v } : Container).read slot = c.read slot := by
  cases slot with
  | link rel => rfl
  | capability => exact congrArg Except.ok ((mdGet_dset c k kCapability v).trans (if_neg (Ne.symm h)))
  | md_from => exact congrArg Except.ok ((mdGet_dset c k kMdFrom v).trans (if_neg (Ne.symm h)))
  | md_until => exact congrArg Except.ok ((mdGet_dset c k kMdUntil v).trans (if_neg (Ne.symm h)))
  | md_at => exact congrArg Except.ok ((mdGet_dset c k kMdAt v).trans (if_neg (Ne.symm h)))
  | md_completed => exact congrArg Except.ok ((mdGet_dset c k kMdCompleted v).trans (if_neg (Ne.symm h)))

theorem strDatetimeNow_says {v : TimeArg} {clock : Rat} {s : Option Str} (h : strDatetimeNow v clock = some s) :
    SaysTime v clock s := by
  have key : ∀ t, datetimeToStr? (some t) false = some s → ∃ x, s = some x ∧ TimeText x t := by
    intro t ht
    simp only [datetimeToStr?, Option.map_eq_some_iff] at ht
    obtain ⟨x, hx, rfl⟩ := ht
    obtain ⟨q, h1, -, h2⟩ := C11_written_denotes t x hx
    exact ⟨x, rfl, q, h1, h2⟩
  unfold strDatetimeNow at h
  cases v with
  | none => simp only [datetimeToStr?, Option.some.injEq] at h; exact h.symm
  | number t => exact key t h
  | text x =>
    simp only at h
    unfold SaysTime
    simp only
    split at h
    · rw [if_pos ‹_›]; exact key _ h
    · rw [if_neg ‹_›]; exact (Option.some.inj h).symm

theorem linkSet_read (c : Container) (rel href : Str) (atts : List (Str × Str)) (ha : AttsOk atts) :
    (c.linkSet rel href atts).linkHref rel = .ok (some href) ∧
    ∀ rel', rel' ≠ rel → (c.linkSet rel href atts).linkHref rel' = c.linkHref rel' := by
  have h := C20_link_set { uri := [], ln := some c.ln } rel href atts ha
  simp only at h
  refine ⟨h.1, fun rel' hne => ?_⟩
  have := h.2.1 rel' hne
  show hrefOf (findLink (linkSetList c.ln rel href false atts) rel') = hrefOf (findLink c.ln rel')
  exact congrArg hrefOf this

theorem assign_read (c c' : Container) (a : Assign) (hok : AssignOk a) (h : c.assign a = some c') :
    (∃ v, c'.read a.slot = .ok v ∧ a.Says v) ∧ (∀ slot, slot ≠ a.slot → c'.read slot = c.read slot) ∧
    c'.resources = c.resources ∧ c'.capability_name = c.capability_name := by
  have time : ∀ (k : Str) (v : TimeArg) (clock : Rat) (set : TimeArg → Rat → Option Container),
      (∀ v clock, set v clock = (strDatetimeNow v clock).map (fun s => { c with md := dset c.md k s })) →
      set v clock = some c' → ∃ s, SaysTime v clock s ∧ c' = { c with md := dset c.md k s } := by
    intro k v clock set hset h
    rw [hset, Option.map_eq_some_iff] at h
    obtain ⟨s, hs, rfl⟩ := h
    exact ⟨s, strDatetimeNow_says hs, rfl⟩
  have lnk : ∀ (rel href : Str) (atts : List (Str × Str)), AttsOk atts → c' = c.linkSet rel href atts →
      (c'.read (.link rel) = .ok (some href) ∧ (∀ slot, slot ≠ .link rel → c'.read slot = c.read slot) ∧
      c'.resources = c.resources ∧ c'.capability_name = c.capability_name) := by
    intro rel href atts ha e
    subst e
    obtain ⟨h1, h2⟩ := linkSet_read c rel href atts ha
    refine ⟨h1, ?_, rfl, rfl⟩
    intro slot hne
    cases slot with
    | link rel' => exact h2 rel' (fun e => hne (by rw [e]))
    | _ => rfl
  have none_atts : AttsOk [] := by intro kv hkv; simp at hkv
  cases a with
  | capability v =>
    simp only [Container.assign, Option.some.injEq] at h
    subst h
    refine ⟨⟨v, ?_, rfl⟩, ?_, rfl, rfl⟩
    · simp [Container.read, Assign.slot, Container.capability, Container.setCapability, mdGet_dset]
    · intro slot hne
      exact read_dset_other c _ _ slot (fun e => hne (slotKey_inj (b := .capability) e (by decide)))
  | md_from v clock =>
    obtain ⟨s, hs, rfl⟩ := time kMdFrom v clock c.setMdFrom (fun _ _ => rfl) h
    refine ⟨⟨s, ?_, hs⟩, ?_, rfl, rfl⟩
    · simp [Container.read, Assign.slot, Container.mdFrom, mdGet_dset]
    · intro slot hne
      exact read_dset_other c _ _ slot (fun e => hne (slotKey_inj (b := .md_from) e (by decide)))
  | md_until v clock =>
    obtain ⟨s, hs, rfl⟩ := time kMdUntil v clock c.setMdUntil (fun _ _ => rfl) h
    refine ⟨⟨s, ?_, hs⟩, ?_, rfl, rfl⟩
    · simp [Container.read, Assign.slot, Container.mdUntil, mdGet_dset]
    · intro slot hne
      exact read_dset_other c _ _ slot (fun e => hne (slotKey_inj (b := .md_until) e (by decide)))
  | md_at v clock =>
    obtain ⟨s, hs, rfl⟩ := time kMdAt v clock c.setMdAt (fun _ _ => rfl) h
    refine ⟨⟨s, ?_, hs⟩, ?_, rfl, rfl⟩
    · simp [Container.read, Assign.slot, Container.mdAt, mdGet_dset]
    · intro slot hne
      exact read_dset_other c _ _ slot (fun e => hne (slotKey_inj (b := .md_at) e (by decide)))
  | md_completed v clock =>
    obtain ⟨s, hs, rfl⟩ := time kMdCompleted v clock c.setMdCompleted (fun _ _ => rfl) h
    refine ⟨⟨s, ?_, hs⟩, ?_, rfl, rfl⟩
    · simp [Container.read, Assign.slot, Container.mdCompleted, mdGet_dset]
    · intro slot hne
      exact read_dset_other c _ _ slot (fun e => hne (slotKey_inj (b := .md_completed) e (by decide)))
  | describedby uri =>
    obtain ⟨h1, h2⟩ := lnk "describedby".toList uri [] none_atts (Option.some.inj h).symm
    exact ⟨⟨_, h1, rfl⟩, h2⟩
  | up uri =>
    obtain ⟨h1, h2⟩ := lnk "up".toList uri [] none_atts (Option.some.inj h).symm
    exact ⟨⟨_, h1, rfl⟩, h2⟩
  | index uri =>
    obtain ⟨h1, h2⟩ := lnk "index".toList uri [] none_atts (Option.some.inj h).symm
    exact ⟨⟨_, h1, rfl⟩, h2⟩
  | link_set rel href atts =>
    obtain ⟨h1, h2⟩ := lnk rel href atts hok (Option.some.inj h).symm
    exact ⟨⟨_, h1, rfl⟩, h2⟩

theorem assignAll_append (c : Container) (h : List Assign) (a : Assign) :
    c.assignAll (h ++ [a]) = (c.assignAll h).bind (fun c => c.assign a) := by
  induction h generalizing c with
  | nil =>
    simp only [List.nil_append, Container.assignAll, Option.bind_some]
    cases c.assign a <;> rfl
  | cons b t ih =>
    simp only [List.cons_append, Container.assignAll]
    cases c.assign b with
    | none => rfl
    | some c1 => simp only [Option.bind_some, ih]

/-! ### C76 -/

/-- After any history of assignments to any container, each accessor returns what the last assignment to
it said (a text for a given time or for the present, in W3C form), and what it returned before if there
was none; the entries are not touched. -/
theorem C76_last_assignment (c c' : Container) (history : List Assign) (hok : ∀ a ∈ history, AssignOk a)
    (h : c.assignAll history = some c') :
    (∀ slot, match lastTo slot history with
      | some a => ∃ v, c'.read slot = .ok v ∧ a.Says v
      | none => c'.read slot = c.read slot) ∧ c'.resources = c.resources ∧ c'.uris = c.resources.map (·.uri) := by
  have main : (∀ slot, match lastTo slot history with
      | some a => ∃ v, c'.read slot = .ok v ∧ a.Says v
      | none => c'.read slot = c.read slot) ∧ c'.resources = c.resources := by
    induction history using List.reverseRecOn generalizing c' with
    | nil =>
      simp only [Container.assignAll, Option.some.injEq] at h
      subst h
      exact ⟨fun _ => rfl, rfl⟩
    | append_singleton t a ih =>
      rw [assignAll_append, Option.bind_eq_some_iff] at h
      obtain ⟨c1, h1, h2⟩ := h
      obtain ⟨i1, i2⟩ := ih c1 (fun b hb => hok b (by simp [hb])) h1
      obtain ⟨a1, a2, a3, -⟩ := assign_read c1 c' a (hok a (by simp)) h2
      refine ⟨fun slot => ?_, a3.trans i2⟩
      have e : lastTo slot (t ++ [a]) = if a.slot = slot then some a else lastTo slot t := by
        simp only [lastTo, List.reverse_append, List.reverse_cons, List.reverse_nil, List.nil_append,
          List.singleton_append, List.find?_cons]
        by_cases ha : a.slot = slot <;> simp [ha]
      rw [e]
      by_cases ha : a.slot = slot
      · rw [if_pos ha, ← ha]; exact a1
      · rw [if_neg ha, a2 slot (Ne.symm ha)]; exact i1 slot
  exact ⟨main.1, main.2, by unfold Container.uris; rw [main.2]⟩

/-! ### Lemmas for the document -/

def fiveKeys : List Str := [kCapability, kMdFrom, kMdUntil, kMdAt, kMdCompleted]

/-- what the assignments keep -/
structure ContInv (c : Container) : Prop where
  nodup : (dkeys c.md).Nodup
  keys : ∀ k ∈ dkeys c.md, k ∈ fiveKeys
  chars : ∀ k v, dget c.md k = some (some v) → XmlOk v
  ln : ∀ l ∈ c.ln, LinkOk l

theorem ContInv.dset {c : Container} (h : ContInv c) {k : Str} (hk : k ∈ fiveKeys) {v : Option Str}
    (hv : ∀ x, v = some x → XmlOk x) : ContInv { c with md := dset c.md k v } := by
  refine ⟨nodup_dset _ _ _ h.nodup, ?_, ?_, h.ln⟩
  · intro k' hk'
    rcases (mem_dkeys_dset _ _ _ _).mp hk' with rfl | hk'
    · exact hk
    · exact h.keys k' hk'
  · intro k' v' hv'
    rw [dget_dset] at hv'
    split at hv'
    · exact hv v' (Option.some.inj hv')
    · exact h.chars k' v' hv'

theorem strDatetimeNow_chars {v : TimeArg} {clock : Rat} {s : Option Str} (h : strDatetimeNow v clock = some s)
    (hv : TimeArgOk v) : ∀ x, s = some x → XmlOk x := by
  have key : ∀ t, datetimeToStr? (some t) false = some s → ∀ x, s = some x → XmlOk x := by
    intro t ht x hx
    simp only [datetimeToStr?, Option.map_eq_some_iff] at ht
    obtain ⟨y, hy, rfl⟩ := ht
    obtain ⟨t', rfl⟩ := datetimeToStr_shape hy
    cases hx
    exact xmlOk_isoformat t'
  unfold strDatetimeNow at h
  cases v with
  | none =>
    simp only [datetimeToStr?, Option.some.injEq] at h
    intro x hx; rw [← h] at hx; cases hx
  | number t => exact key t h
  | text x =>
    simp only at h
    split at h
    · exact key _ h
    · intro y hy; rw [← Option.some.inj h] at hy; cases hy; exact hv

theorem setAtt_ok {l : Link} (h : LinkOk l) {kv : Str × Str} (hk : AttOk kv) : LinkOk (dset l kv.1 kv.2) := by
  obtain ⟨k, v⟩ := kv
  obtain ⟨hx, hk⟩ := hk
  simp only at hx hk ⊢
  have hne : k ≠ "href".toList ∧ k ≠ "rel".toList := by
    rcases hk with hk | ⟨rfl, -⟩ | ⟨rfl, -⟩
    · simp only [List.mem_cons, List.not_mem_nil, or_false] at hk
      rcases hk with rfl | rfl | rfl | rfl <;> decide
    · decide
    · decide
  refine ⟨nodup_dset _ _ _ h.keys_nodup, ?_, ?_, ?_, ?_, ?_, ?_⟩
  · intro k' hk'
    rcases (mem_dkeys_dset _ _ _ _).mp hk' with rfl | hk'
    · rcases hk with hk | ⟨rfl, -⟩ | ⟨rfl, -⟩
      · simp only [List.mem_cons, List.not_mem_nil, or_false] at hk
        rcases hk with rfl | rfl | rfl | rfl <;> decide
      · decide
      · decide
    · exact h.keys k' hk'
  · rw [dget_dset_ne _ _ hne.1]; exact h.href
  · rw [dget_dset_ne _ _ hne.2]; exact h.rel
  · intro k' v' hv'
    rw [dget_dset] at hv'
    split at hv'
    · cases hv'; exact hx
    · exact h.chars k' v' hv'
  · intro v' hv'
    rw [dget_dset] at hv'
    split at hv'
    · rename_i e
      cases hv'
      subst e
      rcases hk with hk | ⟨-, hn⟩ | ⟨e, -⟩
      · exact absurd hk (by decide)
      · exact hn
      · exact absurd e (by decide)
    · exact h.length v' hv'
  · intro v' hv'
    rw [dget_dset] at hv'
    split at hv'
    · rename_i e
      cases hv'
      subst e
      rcases hk with hk | ⟨e, -⟩ | ⟨-, hn⟩
      · exact absurd hk (by decide)
      · exact absurd e (by decide)
      · exact hn
    · exact h.pri v' hv'

theorem addAtts_ok {l : Link} (h : LinkOk l) {atts : List (Str × Str)} (ha : ∀ kv ∈ atts, AttOk kv) :
    LinkOk (addAtts l atts) := by
  unfold addAtts
  induction atts generalizing l with
  | nil => exact h
  | cons kv t ih => exact ih (setAtt_ok h (ha kv (by simp))) (fun x hx => ha x (by simp [hx]))

theorem newLink_ok {rel uri : Str} (hr : XmlOk rel) (hu : XmlOk uri) : LinkOk [(sRel, rel), (sHref, uri)] := by
  have hd : ∀ k, dget [(sRel, rel), (sHref, uri)] k =
      if sRel = k then some rel else if sHref = k then some uri else none := by
    intro k; simp [dget]
  have hk : dkeys [(sRel, rel), (sHref, uri)] = [sRel, sHref] := rfl
  refine ⟨by rw [hk]; decide, by rw [hk]; decide, rfl, rfl, ?_, ?_, ?_⟩
  · intro k v hv
    rw [hd] at hv
    split at hv
    · cases hv; exact hr
    · split at hv
      · cases hv; exact hu
      · cases hv
  · intro v hv; rw [hd, if_neg (by decide), if_neg (by decide)] at hv; cases hv
  · intro v hv; rw [hd, if_neg (by decide), if_neg (by decide)] at hv; cases hv

theorem updateFirst_all {ln : List Link} {rel : Str} {f : Link → Link} (h : ∀ l ∈ ln, LinkOk l)
    (hf : ∀ l, LinkOk l → LinkOk (f l)) : ∀ l ∈ updateFirst ln rel f, LinkOk l := by
  induction ln with
  | nil => intro l hl; simp [updateFirst] at hl
  | cons a t ih =>
    intro l hl
    simp only [updateFirst] at hl
    split at hl
    · rcases List.mem_cons.mp hl with rfl | hl
      · exact hf a (h a (by simp))
      · exact h l (by simp [hl])
    · rcases List.mem_cons.mp hl with rfl | hl
      · exact h l (by simp)
      · exact ih (fun x hx => h x (by simp [hx])) l hl

theorem linkSetList_ok {ln : List Link} (h : ∀ l ∈ ln, LinkOk l) {rel href : Str} {atts : List (Str × Str)}
    (hr : XmlOk rel) (hu : XmlOk href) (ha : ∀ kv ∈ atts, AttOk kv) :
    ∀ l ∈ linkSetList ln rel href false atts, LinkOk l := by
  intro l hl
  unfold linkSetList at hl
  split at hl
  · exact updateFirst_all h (fun x hx => addAtts_ok (setHref_ok hx hu) ha) l hl
  · rcases List.mem_append.mp hl with hl | hl
    · exact h l hl
    · rw [List.mem_singleton.mp hl]; exact addAtts_ok (newLink_ok hr hu) ha

theorem ContInv.assign {c c' : Container} (h : ContInv c) {a : Assign} (ha : a.Ok) (e : c.assign a = some c') :
    ContInv c' := by
  have time : ∀ (k : Str) (_ : k ∈ fiveKeys) (v : TimeArg) (clock : Rat), TimeArgOk v →
      (strDatetimeNow v clock).map (fun s => ({ c with md := Py.dset c.md k s } : Container)) = some c' → ContInv c' := by
    intro k hk v clock hv e
    rw [Option.map_eq_some_iff] at e
    obtain ⟨s, hs, rfl⟩ := e
    exact h.dset hk (strDatetimeNow_chars hs hv)
  have lnk : ∀ (rel href : Str) (atts : List (Str × Str)), XmlOk rel → XmlOk href → (∀ kv ∈ atts, AttOk kv) →
      some (c.linkSet rel href atts) = some c' → ContInv c' := by
    intro rel href atts h1 h2 h3 e
    cases e
    exact ⟨h.nodup, h.keys, h.chars, linkSetList_ok h.ln h1 h2 h3⟩
  cases a with
  | capability v => cases e; exact h.dset (by decide) ha
  | md_from v clock => exact time kMdFrom (by decide) v clock ha e
  | md_until v clock => exact time kMdUntil (by decide) v clock ha e
  | md_at v clock => exact time kMdAt (by decide) v clock ha e
  | md_completed v clock => exact time kMdCompleted (by decide) v clock ha e
  | describedby uri => exact lnk _ uri [] (by intro x hx; revert x hx; decide) ha (by simp) e
  | up uri => exact lnk _ uri [] (by intro x hx; revert x hx; decide) ha (by simp) e
  | index uri => exact lnk _ uri [] (by intro x hx; revert x hx; decide) ha (by simp) e
  | link_set rel href atts => exact lnk rel href atts ha.1 ha.2.1 ha.2.2 e

theorem ContInv.assignAll {c c' : Container} (h : ContInv c) {history : List Assign} (ha : ∀ a ∈ history, a.Ok)
    (e : c.assignAll history = some c') : ContInv c' := by
  induction history generalizing c with
  | nil => cases e; exact h
  | cons a t ih =>
    simp only [Container.assignAll, Option.bind_eq_some_iff] at e
    obtain ⟨c1, e1, e2⟩ := e
    exact ih (h.assign (ha a (by simp)) e1) (fun b hb => ha b (by simp [hb])) e2

theorem dkeys_writtenMd (md : Dict (Option Str)) : (dkeys (writtenMd md)).Sublist (dkeys md) := by
  induction md with
  | nil => exact List.Sublist.slnil
  | cons p t ih =>
    obtain ⟨k, v⟩ := p
    cases v with
    | none => exact List.Sublist.cons _ ih
    | some v => exact List.Sublist.cons_cons _ ih

theorem dget_writtenMd (md : Dict (Option Str)) (h : (dkeys md).Nodup) (k : Str) :
    dget (writtenMd md) k = (dget md k).join := by
  induction md with
  | nil => rfl
  | cons p t ih =>
    obtain ⟨k', v⟩ := p
    have hn : k' ∉ dkeys t ∧ (dkeys t).Nodup := List.nodup_cons.mp h
    cases v with
    | none =>
      show dget (writtenMd t) k = _
      rw [ih hn.2]
      by_cases e : k' = k
      · subst e; simp [dget, (dget_eq_none_iff t k').mpr hn.1]
      · simp [dget, e]
    | some v =>
      show dget ((k', v) :: writtenMd t) k = _
      by_cases e : k' = k
      · simp [dget, e]
      · simp only [dget, e, if_false]; exact ih hn.2

theorem hrefOf_same {a b : List Link} (h : SameLinks a b) (rel : Str) :
    hrefOf (findLink a rel) = hrefOf (findLink b rel) := by
  induction h with
  | nil => rfl
  | cons h _ ih =>
    rw [findLink_cons, findLink_cons, h sRel]
    split
    · simp only [hrefOf, h sHref]
    · exact ih

theorem dget_mapSome (d : Dict Str) (k : Str) : (dget (d.map (fun kv => (kv.1, some kv.2))) k).join = dget d k := by
  induction d with
  | nil => rfl
  | cons p t ih =>
    obtain ⟨k', v⟩ := p
    by_cases e : k' = k
    · simp [dget, e]
    · simp only [List.map_cons, dget, e, if_false]; exact ih

theorem defaultCap_inv {c : Container} (h : ContInv c) (hc : ∀ n, c.capability_name = some n → XmlOk n) :
    ContInv c.defaultCap := by
  unfold Container.defaultCap
  split
  · exact h.dset (by decide) (fun x hx => by cases hx; exact hc _ ‹_›)
  · exact h

/-- A container with any entries that the format can express is filled by any history of assignments of
expressible values and written, as sitemap or sitemapindex and with any settings.  Then the document can
be read, and the reader's accessors return what the accessors of the container written return; for the
capability, which has the container's own name if it was never assigned. -/
theorem C76_read_back (s : Sitemap) (rs : List Resource) (name : Option Str) (history : List Assign) (c : Container)
    (sitemapindex : Bool) (hrs : ∀ r ∈ rs, ResOk r) (hname : ∀ n, name = some n → XmlOk n)
    (hok : ∀ a ∈ history, AssignOk a ∧ a.Ok)
    (h : ({ resources := rs, capability_name := name } : Container).assignAll history = some c)
    (expected : Option Str)
    (hexp : ∀ x, expected = some x → (if lastTo .capability history = none then name else c.capability) = some x) :
    ∃ t t' d, c.asXml s sitemapindex = .ok t ∧ reparse t = some t' ∧
      parseXml s listAdd { resources := [] } t' expected (some sitemapindex) = .ok (d, sitemapindex, rs.length) ∧
      List.Forall₂ (Recorded s.spec_1_0 s.add_lastmod) rs d.resources ∧
      (∀ slot, slot ≠ .capability → (Container.ofCont d expected).read slot = c.read slot) ∧
      (Container.ofCont d expected).capability =
        (if lastTo .capability history = none then name else c.capability) := by
  have inv0 : ContInv { resources := rs, capability_name := name } :=
    ⟨List.nodup_nil, by simp [dkeys], by intro k v hv; simp [dget] at hv, by simp⟩
  have inv := inv0.assignAll (fun a ha => (hok a ha).2) h
  have last := C76_last_assignment _ c history (fun a ha => (hok a ha).1) h
  have res : c.resources = rs := last.2.1
  -- the name of the container, and whether the capability was assigned
  have keep : ∀ (hist : List Assign) (c0 c1 : Container), c0.assignAll hist = some c1 →
      c1.capability_name = c0.capability_name ∧
      (dget c1.md kCapability = none ↔ dget c0.md kCapability = none ∧ lastTo .capability hist = none) := by
    intro hist
    induction hist using List.reverseRecOn with
    | nil =>
      intro c0 c1 e
      cases e
      exact ⟨rfl, by simp [lastTo]⟩
    | append_singleton t a ih =>
      intro c0 c1 e
      rw [assignAll_append, Option.bind_eq_some_iff] at e
      obtain ⟨c2, e1, e2⟩ := e
      obtain ⟨i1, i2⟩ := ih c0 c2 e1
      have el : lastTo .capability (t ++ [a]) = if a.slot = .capability then some a else lastTo .capability t := by
        simp only [lastTo, List.reverse_append, List.reverse_cons, List.reverse_nil, List.nil_append,
          List.singleton_append, List.find?_cons]
        by_cases ha : a.slot = .capability <;> simp [ha]
      rw [el]
      have time : ∀ (k : Str) (_ : k ≠ kCapability) (v : TimeArg) (clock : Rat),
          (strDatetimeNow v clock).map (fun s => ({ c2 with md := dset c2.md k s } : Container)) = some c1 →
          c1.capability_name = c2.capability_name ∧ dget c1.md kCapability = dget c2.md kCapability := by
        intro k hk v clock e
        rw [Option.map_eq_some_iff] at e
        obtain ⟨s, -, rfl⟩ := e
        exact ⟨rfl, dget_dset_ne _ _ hk⟩
      have other : a.slot ≠ .capability → c1.capability_name = c2.capability_name ∧
          dget c1.md kCapability = dget c2.md kCapability := by
        intro hs
        cases a with
        | capability v => exact absurd rfl hs
        | md_from v clock => exact time kMdFrom (by decide) v clock e2
        | md_until v clock => exact time kMdUntil (by decide) v clock e2
        | md_at v clock => exact time kMdAt (by decide) v clock e2
        | md_completed v clock => exact time kMdCompleted (by decide) v clock e2
        | describedby uri => cases e2; exact ⟨rfl, rfl⟩
        | up uri => cases e2; exact ⟨rfl, rfl⟩
        | index uri => cases e2; exact ⟨rfl, rfl⟩
        | link_set rel href atts => cases e2; exact ⟨rfl, rfl⟩
      by_cases hs : a.slot = .capability
      · cases a with
        | capability v =>
          cases e2
          refine ⟨i1, ?_⟩
          simp [Container.setCapability, dget_dset_self, Assign.slot]
        | _ => exact absurd hs (by simp [Assign.slot])
      · obtain ⟨o1, o2⟩ := other hs
        rw [if_neg hs]
        exact ⟨o1.trans i1, by rw [o2]; exact i2⟩
  obtain ⟨k1, k2⟩ := keep history _ c h
  have k1 : c.capability_name = name := k1
  have k2 : dget c.md kCapability = none ↔ lastTo .capability history = none := by
    rw [k2]; simp [dget]
  have inv' := defaultCap_inv inv (by rw [k1]; exact hname)
  have hcap : c.defaultCap.capability = (if lastTo .capability history = none then name else c.capability) := by
    unfold Container.defaultCap
    rw [k1]
    by_cases e : lastTo .capability history = none
    · have e' := k2.mpr e
      rw [if_pos e, e']
      cases name with
      | none => simp [Container.capability, Container.mdGet, e']
      | some n => exact (mdGet_dset c kCapability kCapability (some n)).trans (if_pos rfl)
    · rw [if_neg e]
      cases e' : dget c.md kCapability with
      | none => exact absurd (k2.mp e') e
      | some v => rfl
  have hsame : ∀ slot, slot ≠ .capability → c.defaultCap.read slot = c.read slot := by
    intro slot hs
    unfold Container.defaultCap
    split
    · exact read_dset_other c _ _ slot (fun e => hs (slotKey_inj (b := .capability) e (by decide)))
    · rfl
  have hres : c.defaultCap.resources = rs := by
    unfold Container.defaultCap; split <;> exact res
  have mdok : MdOk (mdAttKeys s) (writtenMd c.defaultCap.md) := by
    have sub := dkeys_writtenMd c.defaultCap.md
    have hk : ∀ k ∈ dkeys (writtenMd c.defaultCap.md), k ∈ fiveKeys := fun k hk => inv'.keys k (sub.subset hk)
    have hno : ∀ k, k ∉ fiveKeys → dget (writtenMd c.defaultCap.md) k = none := by
      intro k hk'
      rw [dget_eq_none_iff]
      exact fun hm => hk' (hk k hm)
    refine ⟨sub.nodup inv'.nodup, ?_, ?_, ?_, ?_⟩
    · intro k hk'
      have := hk k hk'
      simp only [fiveKeys, List.mem_cons, List.not_mem_nil, or_false] at this
      rcases this with rfl | rfl | rfl | rfl | rfl <;> simp [mdAttKeys]
    · intro k v hv
      rw [dget_writtenMd _ inv'.nodup] at hv
      exact inv'.chars k v (Option.join_eq_some_iff.mp hv)
    · rw [hno _ (by decide)]; exact .inl rfl
    · intro v hv; rw [hno _ (by decide)] at hv; cases hv
  have hmdget : ∀ k, dget (writtenMd c.defaultCap.md) k = c.defaultCap.mdGet k := fun k => dget_writtenMd _ inv'.nodup k
  obtain ⟨t, t', d, h1, h2, h3, h4, h5, h6⟩ := C34_round_trip_partial s (writtenMd c.defaultCap.md) c.defaultCap.ln
    rs sitemapindex mdok inv'.ln hrs expected (by
      intro x hx
      have := hexp x hx
      rw [← hcap] at this
      rw [hmdget]; exact this) (some sitemapindex) (.inr rfl)
  have hread : ∀ k, (Container.ofCont d expected).mdGet k = c.defaultCap.mdGet k := by
    intro k
    rw [← hmdget, h5 k]
    exact dget_mapSome d.md k
  refine ⟨t, t', d, ?_, h2, h3, h4, ?_, ?_⟩
  · unfold Container.asXml; simp only [hres]; exact h1
  · intro slot hs
    rw [← hsame slot hs]
    cases slot with
    | link rel => exact (hrefOf_same h6 rel).symm
    | capability => exact absurd rfl hs
    | md_from => exact congrArg Except.ok (hread kMdFrom)
    | md_until => exact congrArg Except.ok (hread kMdUntil)
    | md_at => exact congrArg Except.ok (hread kMdAt)
    | md_completed => exact congrArg Except.ok (hread kMdCompleted)
  · rw [← hcap]; exact hread kCapability

/-- A history with every kind of assignment, some of them repeated: the hypotheses are met, and the reader
gets the last values. -/
def exHistory : List Assign :=
  [.md_from (.number 0) 5, .md_at (.text "now".toList) (3 / 2), .up "http://a/up".toList, .md_from (.text "2000".toList) 6,
   .capability (some "changelist".toList), .md_until .none 7, .up "http://a/up2".toList,
   .link_set "describedby".toList "http://a/d".toList [("mime_type".toList, "text/plain".toList)]]

def exContainer : Container := { resources := [exRes], capability_name := some "resourcelist".toList }

example : (exContainer.assignAll exHistory).map (fun c => [c.mdFrom, c.mdAt, c.mdUntil, c.mdCompleted, c.capability]) =
    some [some "2000".toList, some "1970-01-01T00:00:01.500000Z".toList, none, none, some "changelist".toList] := by
  decide +kernel
example : (exContainer.assignAll exHistory).map (fun c => [c.up.toOption, c.describedby.toOption, c.index.toOption]) =
    some [some (some "http://a/up2".toList), some (some "http://a/d".toList), some none] := by
  decide +kernel

example : ∀ a ∈ exHistory, AssignOk a ∧ a.Ok := by
  intro a ha
  simp only [exHistory, List.mem_cons, List.not_mem_nil, or_false] at ha
  rcases ha with rfl | rfl | rfl | rfl | rfl | rfl | rfl | rfl
  · exact ⟨trivial, trivial⟩
  · refine ⟨trivial, ?_⟩
    show ∀ c ∈ "now".toList, _
    decide
  · refine ⟨trivial, ?_⟩
    show ∀ c ∈ "http://a/up".toList, _
    decide
  · refine ⟨trivial, ?_⟩
    show ∀ c ∈ "2000".toList, _
    decide
  · refine ⟨trivial, ?_⟩
    intro x hx; cases hx
    show ∀ c ∈ "changelist".toList, _
    decide
  · exact ⟨trivial, trivial⟩
  · refine ⟨trivial, ?_⟩
    show ∀ c ∈ "http://a/up2".toList, _
    decide
  · refine ⟨?_, ?_, ?_, ?_⟩
    · intro kv hkv
      rw [List.mem_singleton.mp hkv]; decide
    · show ∀ c ∈ "describedby".toList, _
      decide
    · show ∀ c ∈ "http://a/d".toList, _
      decide
    · intro kv hkv
      rw [List.mem_singleton.mp hkv]
      refine ⟨?_, .inl (by decide)⟩
      show ∀ c ∈ "text/plain".toList, _
      decide

end Resync
