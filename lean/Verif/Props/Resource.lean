import Verif.Proofs.Resource
/-
C15–C20: single resources (resource.py).
-/

namespace Resync
open Py Resync.Spec

/-! ## C15 equality -/

/-- `r1 == r2` exactly when nothing both sides know tells them apart. -/
theorem C15_eq_iff_no_proof_of_inequality (r o : Resource) :
    r.eq (some o) = true ↔
      r.uri = o.uri ∧ SameTime 1 r.timestamp o.timestamp ∧ NoConflict r.md5 o.md5 ∧
        NoConflict r.sha1 o.sha1 ∧ NoConflict r.sha256 o.sha256 ∧ NoConflict r.length o.length :=
  equal_iff r o 1

/-- Nothing equals `None`. -/
theorem C15_not_eq_none (r : Resource) : r.eq none = false := rfl

theorem C15_reflexive (r : Resource) : r.eq (some r) = true := by
  rw [C15_eq_iff_no_proof_of_inequality]
  refine ⟨rfl, ?_, ?_, ?_, ?_, ?_⟩
  · unfold SameTime
    cases r.timestamp with
    | none => exact .inl ⟨rfl, rfl⟩
    | some t => exact .inr ⟨t, t, rfl, rfl, by simp, by simp⟩
  all_goals (intro x y h1 h2; rw [h1] at h2; exact Option.some.inj h2)

theorem C15_symmetric (r o : Resource) : r.eq (some o) = o.eq (some r) := by
  have key : ∀ a b : Resource, a.eq (some b) = true → b.eq (some a) = true := by
    intro a b h
    rw [C15_eq_iff_no_proof_of_inequality] at h ⊢
    obtain ⟨h1, h2, h3, h4, h5, h6⟩ := h
    refine ⟨h1.symm, ?_, fun x y hx hy => (h3 y x hy hx).symm, fun x y hx hy => (h4 y x hy hx).symm,
      fun x y hx hy => (h5 y x hy hx).symm, fun x y hx hy => (h6 y x hy hx).symm⟩
    rcases h2 with ⟨ha, hb⟩ | ⟨x, y, ha, hb, hc, hd⟩
    · exact .inl ⟨hb, ha⟩
    · exact .inr ⟨y, x, hb, ha, hd, hc⟩
  rw [Bool.eq_iff_iff]
  exact ⟨key r o, key o r⟩

/-- It is not an equivalence: missing information and the 1s window break transitivity. -/
theorem C15_not_transitive : ¬ ∀ a b c : Resource,
    a.eq (some b) = true → b.eq (some c) = true → a.eq (some c) = true := by
  intro h
  have := h { uri := "u".toList, md5 := some "x".toList } { uri := "u".toList }
    { uri := "u".toList, md5 := some "y".toList } (by decide) (by decide)
  revert this; decide

example : ({ uri := "u".toList, timestamp := some 10, md5 := some "aa".toList } : Resource).eq
    (some { uri := "u".toList, timestamp := some (21 / 2), length := some 3 }) = true := by
  decide +kernel
example : ({ uri := "u".toList, timestamp := some 10 } : Resource).eq
    (some { uri := "u".toList, timestamp := some 11 }) = false := by
  decide +kernel

/-! ## C16 equal() with the default delta – violated -/

/-- `r.equal(r)` is False for a resource with a timestamp. -/
theorem C16_violated : ¬ ∀ r : Resource, r.equal (some r) = true := by
  intro h
  have := h { uri := "u".toList, timestamp := some 0 }
  revert this; decide +kernel

/-- With the default delta two resources are equal exactly when neither has a timestamp and nothing
else conflicts (partial: full reflexivity fails). -/
theorem C16_default_delta_partial (r o : Resource) : r.equal (some o) = true ↔
    r.uri = o.uri ∧ r.timestamp = none ∧ o.timestamp = none ∧ NoConflict r.md5 o.md5 ∧
      NoConflict r.sha1 o.sha1 ∧ NoConflict r.sha256 o.sha256 ∧ NoConflict r.length o.length := by
  rw [show r.equal (some o) = r.equal (some o) 0 from rfl, equal_iff]
  have : SameTime 0 r.timestamp o.timestamp ↔ r.timestamp = none ∧ o.timestamp = none := by
    constructor
    · rintro (h | ⟨x, y, _, _, h1, h2⟩)
      · exact h
      · exfalso; linarith
    · exact .inl
  rw [this]
  tauto

/-- What is missing from the claim: every positive delta is reflexive. -/
theorem C16_positive_delta_partial (r : Resource) (δ : Rat) (h : 0 < δ) :
    r.equal (some r) δ = true := by
  rw [equal_iff]
  refine ⟨rfl, ?_, ?_, ?_, ?_, ?_⟩
  · unfold SameTime
    cases r.timestamp with
    | none => exact .inl ⟨rfl, rfl⟩
    | some t => exact .inr ⟨t, t, rfl, rfl, by simpa using h, by simpa using h⟩
  all_goals (intro x y h1 h2; rw [h1] at h2; exact Option.some.inj h2)

example : ({ uri := "u".toList, md5 := some "aa".toList } : Resource).equal
    (some { uri := "u".toList, md5 := some "aa".toList }) = true := by decide +kernel

/-! ## C17 hash string round trip -/

/-- Reading the hash of `s` and assigning it to any resource `r` gives `r` the digests of `s`, with
no exception and nothing else changed. -/
theorem C17_hash_round_trip (r s : Resource) (h1 : ∀ v, s.md5 = some v → NoSpace v)
    (h2 : ∀ v, s.sha1 = some v → NoSpace v) (h3 : ∀ v, s.sha256 = some v → NoSpace v) :
    r.setHash s.hash = ({ r with md5 := s.md5, sha1 := s.sha1, sha256 := s.sha256 }, none) := by
  have w1 : NoSpace "md5:".toList := by unfold NoSpace; decide
  have w2 : NoSpace "sha-1:".toList := by unfold NoSpace; decide
  have w3 : NoSpace "sha-256:".toList := by unfold NoSpace; decide
  have app : ∀ {a b : Str}, NoSpace a → NoSpace b → NoSpace (a ++ b) := by
    intro a b ha hb c hc
    rcases List.mem_append.mp hc with hc | hc
    · exact ha c hc
    · exact hb c hc
  have n1 : sSha1 ≠ sMd5 := by decide
  have n2 : sSha256 ≠ sMd5 := by decide
  have n3 : sSha256 ≠ sSha1 := by decide
  have p1 : ∀ v, split1 ':' ("md5:".toList ++ v) = (sMd5, some v) := fun v =>
    split1_append (a := sMd5) (by decide)
  have p2 : ∀ v, split1 ':' ("sha-1:".toList ++ v) = (sSha1, some v) := fun v =>
    split1_append (a := sSha1) (by decide)
  have p3 : ∀ v, split1 ':' ("sha-256:".toList ++ v) = (sSha256, some v) := fun v =>
    split1_append (a := sSha256) (by decide)
  have q1 : ∀ v, "md5:".toList ++ v ≠ [] := by intro v; simp
  have q2 : ∀ v, "sha-1:".toList ++ v ≠ [] := by intro v; simp
  have q3 : ∀ v, "sha-256:".toList ++ v ≠ [] := by intro v; simp
  have nil : splitWs ([] : Str) = [] := rfl
  unfold Resource.setHash Resource.hash
  cases hm : s.md5 <;> cases hs : s.sha1 <;> cases ht : s.sha256 <;>
    simp only [List.nil_append, List.append_nil, List.cons_append, List.length_cons, List.length_nil,
      gt_iff_lt, Nat.lt_irrefl, if_false, Nat.zero_lt_succ, if_true]
  all_goals
    rw [splitWs_join]
    · simp only [hashLoop, p1, p2, p3, n1, n2, n3, List.mem_cons, List.not_mem_nil,
        or_self, if_true, if_false, Bool.false_eq_true]
    · intro w hw
      have hw' : (∃ v, s.md5 = some v ∧ w = "md5:".toList ++ v) ∨
          (∃ v, s.sha1 = some v ∧ w = "sha-1:".toList ++ v) ∨
          (∃ v, s.sha256 = some v ∧ w = "sha-256:".toList ++ v) := by
        simp only [hm, hs, ht, Option.some.injEq, reduceCtorEq, false_and, exists_false, false_or,
          or_false, exists_eq_left']
        simpa using hw
      rcases hw' with ⟨v, hv, rfl⟩ | ⟨v, hv, rfl⟩ | ⟨v, hv, rfl⟩
      · exact ⟨q1 _, app w1 (h1 _ hv)⟩
      · exact ⟨q2 _, app w2 (h2 _ hv)⟩
      · exact ⟨q3 _, app w3 (h3 _ hv)⟩

example : ({ uri := "u".toList, md5 := some "aa".toList, sha256 := some "b:b".toList } : Resource).hash
    = some "md5:aa sha-256:b:b".toList := by decide
example : NoSpace "b:b".toList := by unfold NoSpace; decide

/-! ## C18 no stale digests -/

/-- After assigning any string to `hash` – exception or not – every digest is absent or the first
value the string gives for its type; whatever was there before is gone. -/
theorem C18_no_stale_digest (r : Resource) (s : Str) :
    let r' := (r.setHash (some s)).1
    (r'.md5 = none ∨ ∃ v, FirstGiven (splitWs s) "md5".toList v ∧ r'.md5 = some v) ∧
    (r'.sha1 = none ∨ ∃ v, FirstGiven (splitWs s) "sha-1".toList v ∧ r'.sha1 = some v) ∧
    (r'.sha256 = none ∨ ∃ v, FirstGiven (splitWs s) "sha-256".toList v ∧ r'.sha256 = some v) := by
  have n1 : sSha1 ≠ sMd5 := by decide
  have n2 : sSha256 ≠ sMd5 := by decide
  have n3 : sSha256 ≠ sSha1 := by decide
  simp only [Resource.setHash]
  refine ⟨?_, ?_, ?_⟩
  · rcases hashLoop_sound (.inl rfl) (splitWs s) [] false
      { r with md5 := none, sha1 := none, sha256 := none } with h | ⟨-, v, h1, h2⟩
    · exact .inl (by simpa [digestOf] using h)
    · exact .inr ⟨v, h1, by simpa [digestOf] using h2⟩
  · rcases hashLoop_sound (.inr (.inl rfl)) (splitWs s) [] false
      { r with md5 := none, sha1 := none, sha256 := none } with h | ⟨-, v, h1, h2⟩
    · exact .inl (by simpa [digestOf, n1] using h)
    · exact .inr ⟨v, h1, by simpa [digestOf, n1] using h2⟩
  · rcases hashLoop_sound (.inr (.inr rfl)) (splitWs s) [] false
      { r with md5 := none, sha1 := none, sha256 := none } with h | ⟨-, v, h1, h2⟩
    · exact .inl (by simpa [digestOf, n2, n3] using h)
    · exact .inr ⟨v, h1, by simpa [digestOf, n2, n3] using h2⟩

/-- Conversely, if every word of the string has the form `type:value`, the first value given for each
supported type is the one stored (even if an exception about other words is raised). -/
theorem C18_first_value_stored (r : Resource) (s v : Str) (hall : ∀ w ∈ splitWs s, ':' ∈ w) :
    let r' := (r.setHash (some s)).1
    (FirstGiven (splitWs s) "md5".toList v → r'.md5 = some v) ∧
    (FirstGiven (splitWs s) "sha-1".toList v → r'.sha1 = some v) ∧
    (FirstGiven (splitWs s) "sha-256".toList v → r'.sha256 = some v) := by
  have n1 : sSha1 ≠ sMd5 := by decide
  have n2 : sSha256 ≠ sMd5 := by decide
  have n3 : sSha256 ≠ sSha1 := by decide
  simp only [Resource.setHash]
  refine ⟨fun h => ?_, fun h => ?_, fun h => ?_⟩
  · simpa [digestOf] using hashLoop_complete (.inl rfl) (splitWs s) [] false
      { r with md5 := none, sha1 := none, sha256 := none } hall (by simp) h
  · simpa [digestOf, n1] using hashLoop_complete (.inr (.inl rfl)) (splitWs s) [] false
      { r with md5 := none, sha1 := none, sha256 := none } hall (by simp) h
  · simpa [digestOf, n2, n3] using hashLoop_complete (.inr (.inr rfl)) (splitWs s) [] false
      { r with md5 := none, sha1 := none, sha256 := none } hall (by simp) h

/-- An exception is raised exactly when some word is not `type:value` with a supported type or a type
occurs twice. -/
theorem C18_error_iff (r : Resource) (s : Str) :
    (r.setHash (some s)).2 = none ↔
      ∃ kvs : List (Str × Str), splitWs s = kvs.map (fun kv => kv.1 ++ ':' :: kv.2) ∧
        (∀ kv ∈ kvs, kv.1 = "md5".toList ∨ kv.1 = "sha-1".toList ∨ kv.1 = "sha-256".toList) ∧
        (kvs.map Prod.fst).Nodup := by
  simp only [Resource.setHash]
  rw [hashLoop_noError_iff]
  simp only [List.not_mem_nil, not_false_eq_true, and_true, true_and]
  rfl

/-- Nothing but the digests changes. -/
theorem C18_frame (r : Resource) (s : Option Str) :
    ∃ a b c, (r.setHash s).1 = { r with md5 := a, sha1 := b, sha256 := c } := by
  cases s with
  | none => exact ⟨none, none, none, rfl⟩
  | some s =>
    obtain ⟨a, b, c, h⟩ := hashLoop_frame (splitWs s) [] false
      { r with md5 := none, sha1 := none, sha256 := none }
    exact ⟨a, b, c, by simp only [Resource.setHash]; rw [h]⟩

example : ({ uri := "u".toList, sha1 := some "old".toList } : Resource).setHash
      (some "md5:1 md5:2 foo:3".toList) =
    ({ uri := "u".toList, md5 := some "1".toList }, some .value) := by decide
example : FirstGiven (splitWs "foo:3 md5:1 md5:2".toList) "md5".toList "1".toList :=
  ⟨["foo:3".toList], ["md5:2".toList], by decide, by decide⟩

/-! ## C19 change types -/

/-- Resources obtainable through the public interface: constructor (possibly copying a reachable
resource), attribute assignment and link methods – including those that raise. -/
inductive ReachableRes : Resource → Prop
  | new (a : ResArgs) (r : Resource) (hres : ∀ s, a.resource = some s → ReachableRes s)
      (h : Resource.new a = .ok r) : ReachableRes r
  | step (r : Resource) (op : ResOp) (h : ReachableRes r) : ReachableRes (r.step op).1

theorem changeTypes_valid {c : Str} : c ∈ CHANGE_TYPES ↔ ValidChange (some c) := by
  unfold CHANGE_TYPES sCreated sUpdated sDeleted ValidChange
  simp

theorem checkChange_ok {v : Option Str} : checkChange v = .ok () ↔ ValidChange v := by
  cases v with
  | none => exact ⟨fun _ => .inl rfl, fun _ => rfl⟩
  | some c =>
    rw [← changeTypes_valid]
    by_cases h : c ∈ CHANGE_TYPES <;> simp [checkChange, h]

theorem checkChange_err {v : Option Str} (h : ¬ ValidChange v) : checkChange v = .error .changeType := by
  cases v with
  | none => exact absurd (.inl rfl) h
  | some c =>
    rw [← changeTypes_valid] at h
    simp [checkChange, h]

theorem except_bind_ok {ε α β : Type} {x : Except ε α} {f : α → Except ε β} {b : β}
    (h : x >>= f = .ok b) : ∃ a, x = .ok a ∧ f a = .ok b := by
  cases x with
  | error e => exact absurd h (by simp [bind, Except.bind])
  | ok a => exact ⟨a, rfl, h⟩

theorem new_change {a : ResArgs} {r : Resource} (h : Resource.new a = .ok r) :
    ValidChange r.change := by
  unfold Resource.new at h
  simp only [] at h
  obtain ⟨_, h1, h⟩ := except_bind_ok h
  obtain ⟨_, h2, h⟩ := except_bind_ok h
  obtain ⟨_, -, h⟩ := except_bind_ok h
  obtain ⟨_, -, h⟩ := except_bind_ok h
  obtain ⟨_, -, h⟩ := except_bind_ok h
  obtain ⟨_, -, h⟩ := except_bind_ok h
  obtain ⟨_, -, h⟩ := except_bind_ok h
  obtain ⟨_, -, h⟩ := except_bind_ok h
  split at h
  · simp [throw, throwThe, MonadExceptOf.throw] at h
  · simp only [pure, Except.pure, Except.ok.injEq] at h
    subst h
    have h1 := checkChange_ok.mp h1
    have h2 := checkChange_ok.mp h2
    simp only [pick]
    split
    · rename_i v hv; rw [hv] at h2; exact h2
    · exact h1

theorem setDate_change (r : Resource) (s : Option Str) (f : Option Rat → Resource)
    (hf : ∀ t, (f t).change = r.change) : (setDate r s f).1.change = r.change := by
  unfold setDate; split
  · rfl
  · exact hf _

theorem setDate_valid (r : Resource) (s : Option Str) (f : Option Rat → Resource)
    (hf : ∀ t, (f t).change = r.change) (h : ValidChange r.change) :
    ValidChange (setDate r s f).1.change := by
  rw [setDate_change r s f hf]; exact h

/-- In every reachable state the change type is absent or one of the three. -/
theorem C19_change_always_valid (r : Resource) (h : ReachableRes r) : ValidChange r.change := by
  induction h with
  | new a r hres h ih => exact new_change h
  | step r op h ih =>
    cases op with
    | setChange v =>
      simp only [Resource.step, Resource.setChange]
      cases v with
      | none => exact .inl rfl
      | some c =>
        by_cases hc : c ∈ CHANGE_TYPES
        · simp only [hc, not_true, if_false]; exact changeTypes_valid.mp hc
        · simp only [hc, not_false_eq_true, if_true]; exact ih
    | setHash s =>
      obtain ⟨a, b, c, e⟩ := C18_frame r s
      simp only [Resource.step, e]; exact ih
    | setLastmod s => exact setDate_valid r s _ (fun _ => rfl) ih
    | setDatetime s => exact setDate_valid r s _ (fun _ => rfl) ih
    | setMdAt s => exact setDate_valid r s _ (fun _ => rfl) ih
    | setMdCompleted s => exact setDate_valid r s _ (fun _ => rfl) ih
    | setMdFrom s => exact setDate_valid r s _ (fun _ => rfl) ih
    | setMdUntil s => exact setDate_valid r s _ (fun _ => rfl) ih
    | _ => exact ih

/-- Assigning anything else raises ChangeTypeError and leaves the resource unchanged; assigning a
valid value stores it and changes nothing else. -/
theorem C19_assignment (r : Resource) (v : Option Str) :
    (ValidChange v → r.setChange v = ({ r with change := v }, none)) ∧
    (¬ ValidChange v → r.setChange v = (r, some .changeType)) := by
  cases v with
  | none => exact ⟨fun _ => rfl, fun h => absurd (.inl rfl) h⟩
  | some c =>
    unfold Resource.setChange
    rw [← changeTypes_valid]
    constructor <;> intro h <;> simp [h]

/-- The constructor raises ChangeTypeError for an invalid change argument. -/
theorem C19_constructor_rejects (a : ResArgs) (hres : ∀ s, a.resource = some s → ReachableRes s)
    (h : ¬ ValidChange a.change) : Resource.new a = .error .changeType := by
  have ho : checkChange (a.resource.bind (·.change)) = .ok () := by
    rw [checkChange_ok]
    cases hr : a.resource with
    | none => exact .inl rfl
    | some s => exact C19_change_always_valid s (hres s hr)
  simp only [Resource.new, ho, checkChange_err h, bind, Except.bind]

example : ReachableRes
    ((({ uri := "u".toList, change := some "created".toList } : Resource).step
      (.setChange (some "bad".toList))).1) :=
  .step _ _ (.new { uri := some "u".toList, change := some "created".toList } _ (by simp) (by rfl))
example : ({ uri := "u".toList } : Resource).setChange (some "Created".toList) =
    ({ uri := "u".toList }, some .changeType) := by decide

/-! ## C20 links -/

/-- Keyword arguments of `link_set` cannot be called rel or href (Python binds those to the named
parameters). -/
def AttsOk (atts : List (Str × Str)) : Prop := ∀ kv ∈ atts, kv.1 ≠ "rel".toList ∧ kv.1 ≠ "href".toList

/-- `link_set(rel, href, **atts)`: looking up `rel` gives `href`, every other rel is untouched, and
the list grows by one exactly if there was no such link. -/
theorem C20_link_set (r : Resource) (rel href : Str) (atts : List (Str × Str)) (ha : AttsOk atts) :
    let r' := r.linkSet rel href false atts
    r'.linkHref rel = .ok (some href) ∧
    (∀ rel', rel' ≠ rel → r'.link rel' = r.link rel') ∧
    (r'.ln.getD []).length =
      (r.ln.getD []).length + (if r.link rel = none then 1 else 0) := by
  have hrel : ∀ kv ∈ atts, kv.1 ≠ sRel := fun kv h => (ha kv h).1
  have hhref : ∀ kv ∈ atts, kv.1 ≠ sHref := fun kv h => (ha kv h).2
  have hrh : sHref ≠ sRel := by decide
  have hl : ∀ rel', r.link rel' = findLink (r.ln.getD []) rel' := by
    intro rel'; unfold Resource.link; cases r.ln <;> rfl
  simp only [Resource.linkSet, Resource.linkHref, hl, Option.getD_some]
  have hl' : ∀ rel' x, ({ r with ln := some x } : Resource).link rel' = findLink x rel' := fun _ _ => rfl
  simp only [hl', linkSetList, not_false_eq_true, and_true, Bool.false_eq_true]
  cases hf : findLink (r.ln.getD []) rel with
  | none =>
    simp only [Option.isSome_none, Bool.false_eq_true, if_false, findLink_append_singleton,
      List.length_append, List.length_singleton, if_true, and_true]
    have hn : dget (addAtts [(sRel, rel), (sHref, href)] atts) sRel = some rel := by
      rw [dget_addAtts _ _ _ hrel, dget_new_rel]
    refine ⟨?_, ?_⟩
    · rw [hf]
      simp only [hn, if_true, hrefOf, dget_addAtts _ _ _ hhref, dget_new_href]
    · intro rel' hne
      cases findLink (r.ln.getD []) rel' with
      | some x => rfl
      | none => simp [hn, Ne.symm hne]
  | some l =>
    have hkeep : ∀ l : Link, dget (addAtts (dset l sHref href) atts) sRel = dget l sRel := by
      intro l
      rw [dget_addAtts _ _ _ hrel, dget_dset_ne _ _ hrh]
    simp only [Option.isSome_some, if_true, findLink_updateFirst _ _ _ hkeep, hf, Option.map_some,
      length_updateFirst, reduceCtorEq, if_false, Nat.add_zero, and_true]
    refine ⟨?_, ?_⟩
    · simp only [hrefOf, dget_addAtts _ _ _ hhref, dget_dset_self]
    · intro rel' hne; simp [hne]

/-- The attributes given are set on that link. -/
theorem C20_link_set_attribute (r : Resource) (rel href k v : Str) (hk : k ≠ "rel".toList) :
    ∃ l, (r.linkSet rel href false [(k, v)]).link rel = some l ∧ dget l k = some v := by
  have hrh : sHref ≠ sRel := by decide
  have hk' : k ≠ sRel := hk
  simp only [Resource.linkSet, Resource.link, linkSetList, not_false_eq_true, and_true,
    Bool.false_eq_true]
  split
  · rename_i h
    have hkeep : ∀ l : Link, dget (addAtts (dset l sHref href) [(k, v)]) sRel = dget l sRel := by
      intro l
      rw [dget_addAtts _ _ _ (by simpa using hk'), dget_dset_ne _ _ hrh]
    rw [findLink_updateFirst _ _ _ hkeep]
    obtain ⟨l, hl⟩ := Option.isSome_iff_exists.mp h
    exact ⟨_, by simp [hl]; rfl, by simp [addAtts, dget_dset_self]⟩
  · rename_i h
    rw [findLink_append_singleton]
    have : findLink (r.ln.getD []) rel = none := by simpa using h
    rw [this]
    refine ⟨addAtts [(sRel, rel), (sHref, href)] [(k, v)], ?_, ?_⟩
    · simp only []
      rw [if_pos]
      rw [dget_addAtts _ _ _ (by simpa using hk'), dget_new_rel]
    · simp [addAtts, dget_dset_self]

/-- `link_add` always adds exactly one link, at the end, and hides nothing: existing lookups are
unchanged, and `rel` now finds something. -/
theorem C20_link_add (r : Resource) (rel href : Str) (atts : List (Str × Str)) (ha : AttsOk atts) :
    let r' := r.linkAdd rel href atts
    (r'.ln.getD []).length = (r.ln.getD []).length + 1 ∧
    (∀ rel', (r.link rel').isSome → r'.link rel' = r.link rel') ∧
    (∀ rel', rel' ≠ rel → r'.link rel' = r.link rel') ∧
    (r.link rel = none → r'.linkHref rel = .ok (some href)) := by
  have hrel : ∀ kv ∈ atts, kv.1 ≠ sRel := fun kv h => (ha kv h).1
  have hhref : ∀ kv ∈ atts, kv.1 ≠ sHref := fun kv h => (ha kv h).2
  have hl : ∀ rel', r.link rel' = findLink (r.ln.getD []) rel' := by
    intro rel'; unfold Resource.link; cases r.ln <;> rfl
  have hl' : ∀ rel' x, ({ r with ln := some x } : Resource).link rel' = findLink x rel' := fun _ _ => rfl
  have hn : dget (addAtts [(sRel, rel), (sHref, href)] atts) sRel = some rel := by
    rw [dget_addAtts _ _ _ hrel, dget_new_rel]
  simp only [Resource.linkAdd, Resource.linkSet, Resource.linkHref, hl, hl', linkSetList, not_true,
    and_false, if_false, Option.getD_some, findLink_append_singleton, List.length_append,
    List.length_singleton, true_and]
  refine ⟨?_, ?_, ?_⟩
  · intro rel' h
    obtain ⟨x, hx⟩ := Option.isSome_iff_exists.mp h
    simp [hx]
  · intro rel' hne
    cases findLink (r.ln.getD []) rel' with
    | some x => rfl
    | none => simp [hn, Ne.symm hne]
  · intro h
    simp only [h, hn, if_true, hrefOf, dget_addAtts _ _ _ hhref, dget_new_href]

example : AttsOk [("type".toList, "application/xml".toList)] := by unfold AttsOk; decide
example : (({ uri := "u".toList } : Resource).linkSet "up".toList "a".toList).linkHref "up".toList =
    .ok (some "a".toList) := by decide
example : ((({ uri := "u".toList } : Resource).linkSet "up".toList "a".toList).linkSet
    "up".toList "b".toList).linkHref "up".toList = .ok (some "b".toList) := by decide

end Resync
