import Verif.Spec.OptionOrder
import Verif.Props.Hashes
import Verif.Props.Builder
import Verif.Model.ClientWrite
import Verif.Model.Client
/- Options that are given several times. -/

namespace Resync
open Py Resync.Spec

theorem hashObj_same {hs hs' : List Str} (h : SameValues hs hs') (lib : HashLib) (content : Option Bytes) (r : Resource) :
    (HashObj.new hs (some content)).map (fun o => o.setOn lib r) = (HashObj.new hs' (some content)).map (fun o => o.setOn lib r) := by
  have e1 : ∀ x : HashErr, HashObj.new hs (some content) = .error x ↔ HashObj.new hs' (some content) = .error x := by
    intro x
    cases x with
    | unsupported =>
      rw [(C65_errors hs content).1, (C65_errors hs' content).1]
      exact ⟨fun ⟨t, h1, h2⟩ => ⟨t, (h t).mp h1, h2⟩, fun ⟨t, h1, h2⟩ => ⟨t, (h t).mpr h1, h2⟩⟩
    | os =>
      rw [(C65_errors hs content).2, (C65_errors hs' content).2]
      exact ⟨fun ⟨h1, h2⟩ => ⟨h1, fun t ht => h2 t ((h t).mpr ht)⟩, fun ⟨h1, h2⟩ => ⟨h1, fun t ht => h2 t ((h t).mp ht)⟩⟩
  cases h1 : HashObj.new hs (some content) with
  | error e => rw [(e1 e).mp h1]
  | ok o =>
    cases h2 : HashObj.new hs' (some content) with
    | error e => rw [(e1 e).mpr h2] at h1; cases h1
    | ok o' =>
      cases content with
      | none =>
        exfalso
        simp only [HashObj.new, bind_ok_iff] at h1
        obtain ⟨_, -, h⟩ := h1
        cases h
      | some b =>
        simp only [Except.map]
        rw [C65_set lib hs b r o h1, C65_set lib hs' b r o' h2]
        simp only [h _]

theorem fileResource_same {b b' : Builder} (h1 : b.set_path = b'.set_path) (h2 : b.set_length = b'.set_length)
    (h3 : (b.set_hashes = none ∧ b'.set_hashes = none) ∨ ∃ hs hs', b.set_hashes = some hs ∧ b'.set_hashes = some hs' ∧ SameValues hs hs')
    (lib : HashLib) (uri file : Str) (st : Stat) : b.fileResource lib uri file st = b'.fileResource lib uri file st := by
  unfold Builder.fileResource
  rw [h1, h2]
  rcases h3 with ⟨e1, e2⟩ | ⟨hs, hs', e1, e2, h⟩
  · rw [e1, e2]
  · rw [e1, e2]
    simp only
    have key := hashObj_same h lib st.content (if b'.set_path = true then { uri := uri, timestamp := some st.mtime, path := some file }
      else { uri := uri, timestamp := some st.mtime })
    cases k1 : HashObj.new hs (some st.content) <;> cases k2 : HashObj.new hs' (some st.content) <;> rw [k1, k2] at key
    · cases key; rfl
    · cases key
    · cases key
    · simp only [Except.map, Except.ok.injEq] at key ⊢
      rw [key]

/-- two builders that differ in the order of options only give the same list -/
theorem fromDisk_same {b b' : Builder} (hm : b.mapper = b'.mapper) (h1 : b.set_path = b'.set_path) (h2 : b.set_length = b'.set_length)
    (h3 : (b.set_hashes = none ∧ b'.set_hashes = none) ∨ ∃ hs hs', b.set_hashes = some hs ∧ b'.set_hashes = some hs' ∧ SameValues hs hs')
    (h4 : b.include_symlinks = b'.include_symlinks) (h5 : ∀ name, b.exclude name = b'.exclude name)
    (lib : HashLib) (disk : Disk) (rl : Dict Resource) (paths : Option (List Str)) :
    b.fromDisk lib disk rl paths = b'.fromDisk lib disk rl paths := by
  have hex : b.exclude = b'.exclude := funext h5
  have hadd : b.addFile lib = b'.addFile lib := by
    funext rl dir file islink st
    unfold Builder.addFile
    simp only [hex, h4, hm, fileResource_same h1 h2 h3]
  have hall : b.addAll lib = b'.addAll lib := by
    funext rl fs
    unfold Builder.addAll
    rw [hadd]
  have hpath : b.addPath lib disk = b'.addPath lib disk := by
    funext rl path
    unfold Builder.addPath
    rw [hall, hadd, hex]
  unfold Builder.fromDisk
  rw [hpath, hm]

theorem new_hashes_same {hs hs' : List Str} (h : SameValues hs hs') (m : Mapper) (l p : Bool) :
    ((Builder.new m (some hs) l p).set_hashes = none ∧ (Builder.new m (some hs') l p).set_hashes = none) ∨
    ∃ x x', (Builder.new m (some hs) l p).set_hashes = some x ∧ (Builder.new m (some hs') l p).set_hashes = some x' ∧ SameValues x x' := by
  cases hs with
  | nil =>
    cases hs' with
    | nil => exact .inl ⟨rfl, rfl⟩
    | cons a t => exact absurd ((h a).mpr (by simp)) (by simp)
  | cons a t =>
    cases hs' with
    | nil => exact absurd ((h a).mp (by simp)) (by simp)
    | cons a' t' => exact .inr ⟨_, _, rfl, rfl, h⟩

/-! ### The client -/

/-- with other types of digest asked for -/
def withHashes {α : Type} (h : List Str) (x : St × α) : St × α := ({ x.1 with hashes := h }, x.2)

section
variable (env : Env) (c : ClientCfg) (h : List Str)

theorem emit_hashes (s : St) (e : Effect) : St.emit { s with hashes := h } e = { s.emit e with hashes := h } := rfl

theorem mkpath_hashes (rest : List Str) : ∀ (pre : Loc) (s : St), mkpath env pre rest { s with hashes := h } = withHashes h (mkpath env pre rest s) := by
  induction rest with
  | nil => intro pre s; rfl
  | cons n t ih =>
    intro pre s
    simp only [mkpath]
    cases s.world.fs.get (pre ++ [n]) with
    | none =>
      simp only
      by_cases hf : env.mkdirFails s.trace (pre ++ [n]) = true
      · rw [if_pos hf, if_pos hf]; rfl
      · rw [if_neg hf, if_neg hf]
        exact ih (pre ++ [n]) (s.emit _)
    | some x =>
      cases x with
      | dir => exact ih _ s
      | file _ _ => rfl

theorem openW_hashes (s : St) (l : Loc) : openW env { s with hashes := h } l = (openW env s l).map (fun s => { s with hashes := h }) := by
  by_cases hc : l = [] ∨ s.world.fs.get l = some .dir ∨ ¬ s.world.fs.isDir l.dropLast ∨ env.openFails s.trace l
  · have e1 : openW env { s with hashes := h } l = none := if_pos hc
    have e2 : openW env s l = none := if_pos hc
    rw [e1, e2]; rfl
  · have e1 : openW env { s with hashes := h } l = some _ := if_neg hc
    have e2 : openW env s l = some _ := if_neg hc
    rw [e1, e2]; rfl

theorem tryGet_hashes (s : St) (uri : Str) (l : Loc) : tryGet env { s with hashes := h } uri l = withHashes h (tryGet env s uri l) := by
  unfold tryGet
  simp only
  cases env.serve s.trace uri with
  | fail e => rfl
  | body b broken =>
    simp only [emit_hashes, openW_hashes]
    cases openW env (s.emit (.get uri)) l <;> rfl

theorem getLoop_hashes (ig : Bool) (uri : Str) (l : Loc) (n : Nat) : ∀ s : St,
    getLoop env ig uri l n { s with hashes := h } = withHashes h (getLoop env ig uri l n s) := by
  induction n with
  | zero => intro s; rfl
  | succ n ih =>
    intro s
    simp only [getLoop, tryGet_hashes]
    cases ht : tryGet env s uri l with
    | mk s1 f =>
    simp only [withHashes]
    cases f with
    | none => rfl
    | some e =>
      cases e with
      | timeout =>
        simp only
        split
        · rfl
        · exact ih s1
      | io => rfl
      | other => rfl

theorem seen_hashes (s : St) (t : Option Rat) : St.seen { s with hashes := h } t = { s.seen t with hashes := h } := by
  unfold St.seen
  cases t with
  | none => rfl
  | some t =>
    simp only
    split <;> rfl

theorem setTime_hashes (s : St) (l : Loc) (t : Option Rat) : setTime { s with hashes := h } l t = withHashes h (setTime s l t) := by
  unfold setTime
  simp only
  cases s.world.fs.get l with
  | none => rfl
  | some x =>
    cases t with
    | none => rfl
    | some t => simp only [emit_hashes, seen_hashes]; rfl

theorem updateResource_hashes (s : St) (r : Resource) (fn : Str) :
    updateResource env c { s with hashes := h } r fn = withHashes h (updateResource env c s r fn) := by
  unfold updateResource
  rw [mkpath_hashes]
  cases hk : mkpath env [] (location env.cwd (dirname fn)) s with
  | mk s1 b =>
  cases b with
  | false => rfl
  | true =>
    simp only [withHashes]
    split
    · rfl
    · rw [getLoop_hashes]
      cases hg : getLoop env c.ignore_failures r.uri (location env.cwd fn) c.tries s1 with
      | mk s2 g =>
      cases g with
      | raised e => rfl
      | gaveUp => rfl
      | updated =>
        simp only [withHashes, setTime_hashes]
        cases setTime s2 (location env.cwd fn) r.timestamp with
        | mk s3 x => cases x <;> rfl
      | skipped =>
        simp only [withHashes, setTime_hashes]
        cases setTime s2 (location env.cwd fn) r.timestamp with
        | mk s3 x => cases x <;> rfl

theorem deleteResource_hashes (allow : Bool) (s : St) (r : Resource) (fn : Str) :
    deleteResource env c allow { s with hashes := h } r fn = withHashes h (deleteResource env c allow s r fn) := by
  unfold deleteResource
  simp only [seen_hashes]
  repeat' split
  all_goals rfl

theorem updateOne_hashes (s : St) (r : Resource) : updateOne env c { s with hashes := h } r = withHashes h (updateOne env c s r) := by
  unfold updateOne
  cases c.disc.mapper.srcToDst r.uri with
  | error e => rfl
  | ok fn =>
    simp only [updateResource_hashes]
    cases updateResource env c s r fn with
    | mk s1 x => cases x <;> rfl

theorem deleteOne_hashes (allow : Bool) (s : St) (r : Resource) :
    deleteOne env c allow { s with hashes := h } r = withHashes h (deleteOne env c allow s r) := by
  unfold deleteOne
  cases c.disc.mapper.srcToDst r.uri with
  | error e => rfl
  | ok fn => simp only [deleteResource_hashes]; rfl

theorem forEach_hashes {f : St → Resource → St × Except ClientErr Unit} (hf : ∀ s r, f { s with hashes := h } r = withHashes h (f s r))
    (rs : List Resource) : ∀ s, forEach f rs { s with hashes := h } = withHashes h (forEach f rs s) := by
  induction rs with
  | nil => intro s; rfl
  | cons r rs ih =>
    intro s
    simp only [forEach, hf]
    cases f s r with
    | mk s1 x =>
    cases x with
    | error e => rfl
    | ok u => exact ih s1

theorem storeState_hashes (s : St) : storeState env c { s with hashes := h } = withHashes h (storeState env c s) := by
  unfold storeState
  cases c.disc.sitemap with
  | error e => rfl
  | ok site =>
    simp only
    cases setState env.ft s.world.state site (some s.last_timestamp) with
    | error e => rfl
    | ok t => cases t <;> rfl

theorem baselineSync_hashes (allow : Bool) (src : Dict Resource) (cmp : Comparison) (s : St) :
    baselineSync env c allow src cmp { s with hashes := h } = withHashes h (baselineSync env c allow src cmp s) := by
  unfold baselineSync
  cases baselineAuthority c src with
  | error e => rfl
  | ok u =>
    simp only
    have e1 := forEach_hashes h (updateOne_hashes env c h) (iterList cmp.created) { s with last_timestamp := 0 }
    simp only at e1
    rw [e1]
    cases forEach (updateOne env c) (iterList cmp.created) { s with last_timestamp := 0 } with
    | mk s1 x =>
    cases x with
    | error e => rfl
    | ok u =>
      simp only [withHashes, forEach_hashes h (updateOne_hashes env c h) (iterList cmp.updated) s1]
      cases forEach (updateOne env c) (iterList cmp.updated) s1 with
      | mk s2 x =>
      cases x with
      | error e => rfl
      | ok u =>
        simp only [withHashes, forEach_hashes h (deleteOne_hashes env c h allow) (iterList cmp.deleted) s2]
        cases forEach (deleteOne env c allow) (iterList cmp.deleted) s2 with
        | mk s3 x =>
        cases x with
        | error e => rfl
        | ok u =>
          simp only [withHashes]
          split
          · exact storeState_hashes env c h s3
          · rfl

end

theorem baselinePlan_withHashes {env : Env} {c : ClientCfg} {audit : Bool} {s : St} {h : List Str} (hh : SameValues s.hashes h) :
    ∃ h', SameValues (baselinePlan env c audit s).1.hashes h' ∧
      baselinePlan env c audit { s with hashes := h } = withHashes h' (baselinePlan env c audit s) := by
  unfold baselinePlan
  by_cases hm : c.disc.mapper = []
  · rw [if_pos hm, if_pos hm]; exact ⟨h, hh, rfl⟩
  rw [if_neg hm, if_neg hm]
  split
  · exact ⟨h, hh, rfl⟩
  · exact ⟨h, hh, rfl⟩
  · split
    · exact ⟨h, hh, rfl⟩
    · rename_i src _
      split
      · exact ⟨h, hh, rfl⟩
      · have hnil : s.hashes ≠ [] ↔ h ≠ [] := by
          rw [ne_eq, ne_eq, List.eq_nil_iff_forall_not_mem, List.eq_nil_iff_forall_not_mem]
          simp only [hh _]
        obtain ⟨h1, h2, k1, k2, k3⟩ : ∃ h1 h2, SameValues h1 h2 ∧
            (if s.hashes ≠ [] then { s with hashes := pruneHashes s.hashes (listHashes (iterList src)) } else s) = { s with hashes := h1 } ∧
            (if h ≠ [] then { s with hashes := pruneHashes h (listHashes (iterList src)) } else { s with hashes := h }) =
              ({ s with hashes := h2 } : St) := by
          by_cases he : s.hashes ≠ []
          · refine ⟨pruneHashes s.hashes (listHashes (iterList src)), pruneHashes h (listHashes (iterList src)), ?_, ?_, ?_⟩
            · intro x
              simp only [pruneHashes, List.mem_filter, hh x]
            · rw [if_pos he]
            · rw [if_pos (hnil.mp he)]
          · refine ⟨s.hashes, h, hh, ?_, ?_⟩
            · rw [if_neg he]
            · rw [if_neg (fun e => he (hnil.mpr e))]
        refine ⟨h2, ?_⟩
        simp only [k2, k3]
        have hd := fromDisk_same (b := Builder.new c.disc.mapper (some h2) true false) (b' := Builder.new c.disc.mapper (some h1) true false) rfl rfl
          rfl (new_hashes_same (fun x => (k1 x).symm) _ _ _) rfl (fun _ => rfl) env.lib (s.world.fs.disk env.cwd) [] none
        rw [hd]
        cases (Builder.new c.disc.mapper (some h1) true false).fromDisk env.lib (s.world.fs.disk env.cwd) with
        | error e => exact ⟨k1, rfl⟩
        | ok dst =>
          simp only
          cases compare (pairHeap dst src) 0 1 with
          | error e => exact ⟨k1, rfl⟩
          | ok x => exact ⟨k1, rfl⟩

end Resync
