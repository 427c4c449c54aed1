import Verif.Proofs.OptionOrder
import Verif.Props.ClientExample
import Verif.Props.ClientWrite
/-
C119: options that may be given several times.
-/

namespace Resync
open Py Resync.Spec

theorem compileExcludes_good {ps : List Str} (h : ∀ p ∈ ps, ∃ r, compile p = .ok r) :
    ∃ rs, compileExcludes ps = .ok rs ∧ ∀ r, r ∈ rs ↔ ∃ p ∈ ps, compile p = .ok r := by
  induction ps with
  | nil => exact ⟨[], rfl, by simp⟩
  | cons p ps ih =>
    obtain ⟨re, hre⟩ := h p (by simp)
    obtain ⟨rs, h1, h2⟩ := ih (fun q hq => h q (by simp [hq]))
    refine ⟨re :: rs, ?_, ?_⟩
    · rw [compileExcludes, hre]; simp only; rw [h1]; rfl
    · intro r
      simp only [List.mem_cons, h2, exists_eq_or_imp]
      exact or_congr_left ⟨fun e => by rw [hre, e], fun e => by rw [hre] at e; cases e; rfl⟩

theorem compileExcludes_bad {ps : List Str} (hin : ∀ p ∈ ps, compile p ≠ .error .outside) (h : ∃ p ∈ ps, compile p = .error .bad) :
    compileExcludes ps = .error .value := by
  induction ps with
  | nil => obtain ⟨p, hp, -⟩ := h; cases hp
  | cons p ps ih =>
    rw [compileExcludes]
    cases hc : compile p with
    | error e =>
      cases e with
      | bad => rfl
      | outside => exact absurd hc (hin p (by simp))
    | ok r =>
      have : ∃ q ∈ ps, compile q = .error .bad := by
        obtain ⟨q, hq, hb⟩ := h
        rcases List.mem_cons.mp hq with rfl | hq
        · rw [hc] at hb; cases hb
        · exact ⟨q, hq, hb⟩
      simp only
      rw [ih (fun q hq => hin q (by simp [hq])) this]
      rfl

/-- the settings with other types of digest and exclude patterns -/
def WriteCfg.withOptions (c : WriteCfg) (hashes patterns : List Str) : WriteCfg := { c with hashes := hashes, exclude_patterns := patterns }

theorem buildResourceList_same (c : WriteCfg) (env : WriteEnv) (hashes patterns : List Str) (hh : SameValues c.hashes hashes)
    (hp : SameValues c.exclude_patterns patterns) (hin : ∀ p ∈ patterns, compile p ≠ .error .outside) (paths : Option Str) (set_path : Bool) :
    buildResourceList (c.withOptions hashes patterns) env paths set_path = buildResourceList c env paths set_path := by
  unfold buildResourceList WriteCfg.withOptions
  by_cases hm : c.mapper = []
  · rw [if_pos hm, if_pos hm]
  rw [if_neg hm, if_neg hm]
  simp only
  by_cases hbad : ∃ p ∈ patterns, compile p = .error .bad
  · rw [compileExcludes_bad hin hbad, compileExcludes_bad (fun p h => hin p ((hp p).mp h)) (by
      obtain ⟨p, h1, h2⟩ := hbad
      exact ⟨p, (hp p).mpr h1, h2⟩)]
  · have hgood : ∀ p ∈ patterns, ∃ r, compile p = .ok r := by
      intro p h
      cases hc : compile p with
      | ok r => exact ⟨r, rfl⟩
      | error e =>
        cases e with
        | bad => exact absurd ⟨p, h, hc⟩ hbad
        | outside => exact absurd hc (hin p h)
    obtain ⟨rs, h1, h2⟩ := compileExcludes_good hgood
    obtain ⟨rs', h1', h2'⟩ := compileExcludes_good (ps := c.exclude_patterns) (fun p h => hgood p ((hp p).mp h))
    rw [h1, h1']
    simp only
    rw [fromDisk_same (b := { Builder.new c.mapper (some hashes) true false with set_path := set_path, excludes := rs })
      (b' := { Builder.new c.mapper (some c.hashes) true false with set_path := set_path, excludes := rs' }) rfl rfl rfl
      (new_hashes_same (fun x => (hh x).symm) c.mapper true false) rfl]
    intro name
    unfold Builder.exclude
    rw [Bool.eq_iff_iff, List.any_eq_true, List.any_eq_true]
    have : ∀ r, r ∈ rs ↔ r ∈ rs' := by
      intro r
      rw [h2, h2']
      exact ⟨fun ⟨p, a, b⟩ => ⟨p, (hp p).mpr a, b⟩, fun ⟨p, a, b⟩ => ⟨p, (hp p).mp a, b⟩⟩
    simp only [this]

/-- C119, publishing.  Whatever the order in which types of digest (--hash) and exclude patterns (--exclude) are given, and however often
each of them: the same resource list, dump or change list is written, or the same error is raised.  (`hin`: patterns within the syntax the
model knows.) -/
theorem C119_publishing (c : WriteCfg) (env : WriteEnv) (hashes patterns : List Str) (hh : SameValues c.hashes hashes)
    (hp : SameValues c.exclude_patterns patterns) (hin : ∀ p ∈ patterns, compile p ≠ .error .outside) (paths outfile : Option Str)
    (links : Option (List Link)) (dump : Bool) :
    writeResourceList (c.withOptions hashes patterns) env paths outfile links dump = writeResourceList c env paths outfile links dump ∧
    ∀ ref newref empty, writeChangeList (c.withOptions hashes patterns) env paths outfile ref newref empty links dump =
      writeChangeList c env paths outfile ref newref empty links dump := by
  have hb := fun sp => buildResourceList_same c env hashes patterns hh hp hin paths sp
  constructor
  · unfold writeResourceList
    rw [hb]
    rfl
  · intro ref newref empty
    unfold writeChangeList changeListEntries
    rw [hb]
    rfl

/-- C119, syncs.  Whatever the order in which types of digest are given, and however often each: a baseline sync or audit makes the same
requests and the same changes with the same result, and an incremental sync does, too. -/
theorem C119_sync (env : Env) (c : ClientCfg) (s : St) (hashes : List Str) (hh : SameValues s.hashes hashes) (allow_deletion : Bool) :
    (∀ audit_only, SameButHashes (baselineOrAudit env c allow_deletion audit_only s)
      (baselineOrAudit env c allow_deletion audit_only { s with hashes := hashes })) ∧
    ∀ uri from_datetime, SameButHashes (incremental env c allow_deletion uri from_datetime s)
      (incremental env c allow_deletion uri from_datetime { s with hashes := hashes }) := by
  constructor
  · intro audit
    unfold baselineOrAudit
    obtain ⟨h', k1, k2⟩ := baselinePlan_withHashes (env := env) (c := c) (audit := audit) hh
    rw [k2]
    cases hpl : baselinePlan env c audit s with
    | mk s1 x =>
    rw [hpl] at k1
    cases x with
    | error e => exact ⟨rfl, rfl, rfl, k1, rfl⟩
    | ok p =>
      obtain ⟨src, cmp⟩ := p
      simp only [withHashes]
      split
      · exact ⟨rfl, rfl, rfl, k1, rfl⟩
      · rw [baselineSync_hashes env c h' allow_deletion src cmp s1]
        refine ⟨rfl, rfl, rfl, ?_, rfl⟩
        have e : (baselineSync env c allow_deletion src cmp s1).1.hashes = s1.hashes := by
          have := baselineSync_hashes env c s1.hashes allow_deletion src cmp s1
          have h2 := congrArg (fun x => x.1.hashes) this
          exact h2
        rw [e]
        exact k1
  · intro uri fd
    by_cases he : s.hashes = []
    · have : hashes = [] := by
        rw [List.eq_nil_iff_forall_not_mem]
        intro x hx
        have := (hh x).mpr hx
        rw [he] at this
        cases this
      have e : ({ s with hashes := hashes } : St) = s := by rw [this, ← he]
      rw [e]
      exact ⟨rfl, rfl, rfl, fun _ => Iff.rfl, rfl⟩
    · have he' : hashes ≠ [] := by
        rintro rfl
        apply he
        rw [List.eq_nil_iff_forall_not_mem]
        intro x hx
        exact absurd ((hh x).mp hx) (by simp)
      have key : ∃ e, incremental env c allow_deletion uri fd s = (s, .error e) ∧
          incremental env c allow_deletion uri fd { s with hashes := hashes } = ({ s with hashes := hashes }, .error e) := by
        have hst : startTime env c fd { s with hashes := hashes } = startTime env c fd s := rfl
        unfold incremental incrementalPlan
        rw [hst]
        by_cases hm : c.disc.mapper = []
        · rw [if_pos hm, if_pos hm]; exact ⟨_, rfl, rfl⟩
        rw [if_neg hm, if_neg hm]
        cases c.disc.mapper.isUnsafe with
        | error e => exact ⟨_, rfl, rfl⟩
        | ok b =>
          cases b with
          | true => exact ⟨_, rfl, rfl⟩
          | false =>
            simp only
            cases startTime env c fd s with
            | error e => exact ⟨_, rfl, rfl⟩
            | ok t =>
              simp only
              cases c.disc.sitemapUri (c.changeListName uri) with
              | error e => exact ⟨_, rfl, rfl⟩
              | ok u =>
                simp only
                cases env.changeList u with
                | none => exact ⟨_, rfl, rfl⟩
                | some cl =>
                  simp only
                  rw [if_pos he, if_pos he']
                  exact ⟨_, rfl, rfl⟩
      obtain ⟨e, k1, k2⟩ := key
      rw [k1, k2]
      exact ⟨rfl, rfl, rfl, hh, rfl⟩

/-- Digests asked for in another order, and one of them twice; and a directory with two patterns in another order -/
example : SameValues ["md5".toList, "sha-1".toList] ["sha-1".toList, "md5".toList, "sha-1".toList] := by
  intro x
  simp only [List.mem_cons, List.not_mem_nil, or_false]
  constructor
  · rintro (h | h)
    · exact .inr (.inl h)
    · exact .inl h
  · rintro (h | h | h)
    · exact .inr h
    · exact .inl h
    · exact .inr h

open ClientExample in
/-- a sync for which sha-256 and md5 digests are asked for -/
example :
    let s : St := { start ["c"] with hashes := ["md5".toList, "sha-256".toList] }
    let s' : St := { start ["c"] with hashes := ["sha-256".toList, "md5".toList, "md5".toList] }
    (baselineOrAudit (env [res "a" 50] [] [1]) cfg true false s).1.world.fs = (baselineOrAudit (env [res "a" 50] [] [1]) cfg true false s').1.world.fs ∧
    (baselineOrAudit (env [res "a" 50] [] [1]) cfg true false s).2 = .ok () ∧
    (baselineOrAudit (env [res "a" 50] [] [1]) cfg true false s).1.trace ≠ [] := by
  refine ⟨?_, by decide +kernel, by decide +kernel⟩
  have := ((C119_sync (env [res "a" 50] [] [1]) cfg { start ["c"] with hashes := ["md5".toList, "sha-256".toList] }
    ["sha-256".toList, "md5".toList, "md5".toList] (by
      intro x
      simp only [List.mem_cons, List.not_mem_nil, or_false, or_self]
      exact or_comm) true).1 false).1
  exact congrArg World.fs this

open WriteExample in
/-- the directory of WriteExample with digests and exclude patterns: they do something, and in the other order the same -/
example :
    let c := cfg.withOptions ["md5".toList, "sha-1".toList] ["b".toList, "x+".toList]
    let c' := cfg.withOptions ["sha-1".toList, "md5".toList] ["x+".toList, "b".toList, "b".toList]
    writeResourceList c' env none (some "/d/list.xml".toList) none false = writeResourceList c env none (some "/d/list.xml".toList) none false := by
  have := (C119_publishing (cfg.withOptions ["md5".toList, "sha-1".toList] ["b".toList, "x+".toList]) env ["sha-1".toList, "md5".toList]
    ["x+".toList, "b".toList, "b".toList]
    (by intro x; simp only [WriteCfg.withOptions, List.mem_cons, List.not_mem_nil, or_false]; exact or_comm)
    (by intro x; simp only [WriteCfg.withOptions, List.mem_cons, List.not_mem_nil, or_false, or_self]; exact or_comm)
    (by
      intro p hp
      simp only [List.mem_cons, List.not_mem_nil, or_false, or_self] at hp
      have hout : ∀ p ∈ ["x+", "b"], (match compile p.toList with | .error .outside => true | _ => false) = false := by decide +kernel
      intro h
      rcases hp with rfl | rfl
      · have := hout "x+" (by simp)
        rw [h] at this; cases this
      · have := hout "b" (by simp)
        rw [h] at this; cases this) none (some "/d/list.xml".toList) none false).1
  exact this

end Resync
