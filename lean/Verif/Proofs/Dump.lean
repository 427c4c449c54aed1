import Verif.Model.Dump
import Verif.Spec.Dump
import Verif.Spec.Lists
import Verif.Proofs.Path
import Verif.Proofs.ResourceList
import Verif.Proofs.SitemapDoc

namespace Resync
open Py Resync.Spec

theorem commonPrefix_prefix {α : Type} [DecidableEq α] (a b : List α) : commonPrefix a b <+: a := by
  induction a generalizing b with
  | nil => simp [commonPrefix]
  | cons x t ih =>
    cases b with
    | nil => simp [commonPrefix]
    | cons y u =>
      simp only [commonPrefix]
      split
      · exact List.cons_prefix_cons.mpr ⟨rfl, ih u⟩
      · simp

theorem commonPrefix_greatest {α : Type} [DecidableEq α] {d a b : List α} (h1 : d <+: a) (h2 : d <+: b) :
    d <+: commonPrefix a b := by
  induction d generalizing a b with
  | nil => simp
  | cons x t ih =>
    cases a with
    | nil => simp at h1
    | cons y u =>
      cases b with
      | nil => simp at h2
      | cons z v =>
        obtain ⟨rfl, k1⟩ := List.cons_prefix_cons.mp h1
        obtain ⟨rfl, k2⟩ := List.cons_prefix_cons.mp h2
        simp only [commonPrefix, if_true]
        exact List.cons_prefix_cons.mpr ⟨rfl, ih k1 k2⟩

/-! ### check_files -/

theorem checkFile_ok (cfg : DumpCfg) (getsize : Str → Option Int) (r r' : Resource) (p : Str) (n : Int) :
    checkFile cfg true true getsize r = (r', .ok (p, n)) ↔
      r.path = some p ∧ getsize p = some n ∧ n ≤ cfg.max_size ∧ (r.length = none ∨ r.length = some n) ∧
        r' = { r with length := some n } := by
  unfold checkFile
  cases hp : r.path with
  | none => simp
  | some q =>
    simp only [Option.some.injEq]
    cases hg : getsize q with
    | none =>
      simp only [Prod.mk.injEq, reduceCtorEq, and_false, false_iff]
      rintro ⟨rfl, h, -⟩; rw [hg] at h; cases h
    | some size =>
      simp only
      cases hl : r.length with
      | none =>
        simp only [if_true]
        by_cases hs : size > cfg.max_size
        · rw [if_pos hs]
          simp only [Prod.mk.injEq, reduceCtorEq, and_false, false_iff]
          rintro ⟨rfl, h, h2, -⟩; rw [hg] at h; cases h; omega
        · rw [if_neg hs]
          simp only [Prod.mk.injEq, Except.ok.injEq]
          constructor
          · rintro ⟨rfl, rfl, rfl⟩; exact ⟨rfl, hg, by omega, by simp, rfl⟩
          · rintro ⟨rfl, h, h2, -, rfl⟩; rw [hg] at h; cases h; exact ⟨rfl, rfl, rfl⟩
      | some len =>
        simp only [true_and]
        by_cases h1 : len ≠ size
        · rw [if_pos h1]
          simp only [Prod.mk.injEq, reduceCtorEq, and_false, false_iff]
          rintro ⟨rfl, h, h2, h3, -⟩; rw [hg] at h; cases h
          rcases h3 with h3 | h3
          · cases h3
          · cases h3; exact h1 rfl
        · rw [if_neg h1]
          have h1 : len = size := by omega
          subst h1
          by_cases hs : len > cfg.max_size
          · rw [if_pos hs]
            simp only [Prod.mk.injEq, reduceCtorEq, and_false, false_iff]
            rintro ⟨rfl, h, h2, -⟩; rw [hg] at h; cases h; omega
          · rw [if_neg hs]
            simp only [Prod.mk.injEq, Except.ok.injEq]
            constructor
            · rintro ⟨rfl, rfl, rfl⟩
              exact ⟨rfl, hg, by omega, by simp, by rw [← hl, ← hp]⟩
            · rintro ⟨rfl, h, h2, -, rfl⟩; rw [hg] at h; cases h
              exact ⟨by rw [← hl, ← hp], rfl, rfl⟩

/-- the resource with the size of its file -/
def sized (getsize : Str → Option Int) (r : Resource) : Resource :=
  { r with length := r.path.bind getsize }

theorem checkFiles_ok (cfg : DumpCfg) (getsize : Str → Option Int) (rs : List Resource) :
    ∀ (pre : Option Str) (tot : Int) (rs' : List Resource) (x : Option Str × Int),
    checkFiles cfg true true getsize rs pre tot = (rs', .ok x) →
      (∀ r ∈ rs, FileAgrees cfg.max_size getsize r) ∧ rs' = rs.map (sized getsize) ∧
      x.2 = tot + totalLength rs' ∧
      (∀ q, x.1 = some q → (∀ o, pre = some o → q <+: o) ∧ (∀ r ∈ rs, ∀ p, r.path = some p → q <+: dirname p) ∧
        ∀ d, (∀ o, pre = some o → d <+: o) → (∀ r ∈ rs, ∀ p, r.path = some p → d <+: dirname p) → d <+: q) ∧
      (x.1 = none ↔ pre = none ∧ rs = []) := by
  induction rs with
  | nil =>
    intro pre tot rs' x h
    simp only [checkFiles, Prod.mk.injEq, Except.ok.injEq] at h
    obtain ⟨rfl, rfl⟩ := h
    refine ⟨by simp, rfl, by simp [totalLength], ?_, by simp⟩
    intro q hq
    simp only at hq
    exact ⟨fun o ho => by rw [hq] at ho; cases ho; exact List.prefix_refl _, by simp, fun d h _ => h q hq⟩
  | cons r rs ih =>
    intro pre tot rs' x h
    simp only [checkFiles] at h
    rcases hc : checkFile cfg true true getsize r with ⟨r', e | ⟨p, n⟩⟩
    · rw [hc] at h; simp at h
    · rw [hc] at h
      simp only at h
      rcases hcs : checkFiles cfg true true getsize rs (some (nextPrefix pre p)) (tot + n) with ⟨rs1, e | y⟩
      · rw [hcs] at h; simp at h
      · rw [hcs] at h
        simp only [Prod.mk.injEq, Except.ok.injEq] at h
        obtain ⟨rfl, rfl⟩ := h
        obtain ⟨h1, h2, h3, h4, h5⟩ := (checkFile_ok cfg getsize r r' p n).mp hc
        obtain ⟨g1, g2, g3, g4, g5⟩ := ih _ _ _ _ hcs
        have hr' : r' = sized getsize r := by rw [h5, sized, h1]; simp [h2]
        refine ⟨?_, by rw [g2, hr']; rfl, ?_, ?_, ?_⟩
        · intro a ha
          rcases List.mem_cons.mp ha with rfl | ha
          · exact ⟨⟨p, n, h1, h2, h3, h4⟩⟩
          · exact g1 a ha
        · rw [g3, h5]; simp only [totalLength, Option.getD_some]; omega
        · intro q hq
          obtain ⟨k1, k2, k4⟩ := g4 q hq
          have k3 := k1 _ rfl
          have hpre : (∀ o, pre = some o → nextPrefix pre p <+: o) ∧ nextPrefix pre p <+: dirname p := by
            cases pre with
            | none => exact ⟨by simp, List.prefix_refl _⟩
            | some o =>
              refine ⟨?_, ?_⟩
              · intro o' ho; cases ho; exact commonPrefix_prefix _ _
              · show commonPrefix o (dirname p) <+: dirname p
                rw [commonPrefix_comm]; exact commonPrefix_prefix _ _
          refine ⟨fun o ho => k3.trans (hpre.1 o ho), ?_, ?_⟩
          · intro a ha p' hp'
            rcases List.mem_cons.mp ha with rfl | ha
            · rw [h1] at hp'; cases hp'; exact k3.trans hpre.2
            · exact k2 a ha p' hp'
          · intro d hd1 hd2
            refine k4 d ?_ (fun a ha => hd2 a (by simp [ha]))
            intro o ho
            rw [← Option.some.inj ho]
            have hdp := hd2 r (by simp) p h1
            cases pre with
            | none => exact hdp
            | some o' => exact commonPrefix_greatest (hd1 o' rfl) hdp
        · rw [g5]; simp

theorem checkFiles_success (cfg : DumpCfg) (getsize : Str → Option Int) (rs : List Resource)
    (h : ∀ r ∈ rs, FileAgrees cfg.max_size getsize r) : ∀ (pre : Option Str) (tot : Int),
    ∃ rs' x, checkFiles cfg true true getsize rs pre tot = (rs', .ok x) := by
  induction rs with
  | nil => intro pre tot; exact ⟨_, _, rfl⟩
  | cons r rs ih =>
    intro pre tot
    obtain ⟨p, n, h1, h2, h3, h4⟩ := (h r (by simp)).ok
    have hc := (checkFile_ok cfg getsize r { r with length := some n } p n).mpr ⟨h1, h2, h3, h4, rfl⟩
    obtain ⟨rs', x, hx⟩ := ih (fun a ha => h a (by simp [ha])) (some (nextPrefix pre p)) (tot + n)
    exact ⟨{ r with length := some n } :: rs', x, by simp only [checkFiles, hc, hx]⟩

theorem checkFiles_error (cfg : DumpCfg) (getsize : Str → Option Int) (rs : List Resource) :
    ∀ (pre : Option Str) (tot : Int) (rs' : List Resource) (e : DumpErr),
    checkFiles cfg true true getsize rs pre tot = (rs', .error e) →
      (e = .noPath ∧ ∃ r ∈ rs, r.path = none) ∨
      (e = .os ∧ ∃ r ∈ rs, ∃ p, r.path = some p ∧ getsize p = none) ∨
      (e = .size ∧ ∃ r ∈ rs, ∃ p n len, r.path = some p ∧ getsize p = some n ∧ r.length = some len ∧ len ≠ n) ∨
      (e = .tooBig ∧ ∃ r ∈ rs, ∃ p n, r.path = some p ∧ getsize p = some n ∧ n > cfg.max_size) := by
  induction rs with
  | nil => intro pre tot rs' e h; simp [checkFiles] at h
  | cons r rs ih =>
    intro pre tot rs' e h
    simp only [checkFiles] at h
    rcases hc : checkFile cfg true true getsize r with ⟨r', e1 | ⟨p, n⟩⟩
    · rw [hc] at h
      simp only [Prod.mk.injEq, Except.error.injEq] at h
      obtain ⟨-, rfl⟩ := h
      unfold checkFile at hc
      cases hp : r.path with
      | none => rw [hp] at hc; simp at hc; exact .inl ⟨hc.2.symm, r, by simp, hp⟩
      | some q =>
        rw [hp] at hc
        simp only at hc
        cases hg : getsize q with
        | none => rw [hg] at hc; simp at hc; exact .inr (.inl ⟨hc.2.symm, r, by simp, q, hp, hg⟩)
        | some size =>
          rw [hg] at hc
          simp only at hc
          cases hl : r.length with
          | none =>
            rw [hl] at hc
            simp only at hc
            by_cases hs : size > cfg.max_size
            · rw [if_pos hs] at hc; simp at hc
              exact .inr (.inr (.inr ⟨hc.2.symm, r, by simp, q, size, hp, hg, hs⟩))
            · rw [if_neg hs] at hc; simp at hc
          | some len =>
            rw [hl] at hc
            simp only [true_and] at hc
            by_cases h1 : len ≠ size
            · rw [if_pos h1] at hc; simp at hc
              exact .inr (.inr (.inl ⟨hc.2.symm, r, by simp, q, size, len, hp, hg, hl, h1⟩))
            · rw [if_neg h1] at hc
              by_cases hs : size > cfg.max_size
              · rw [if_pos hs] at hc; simp at hc
                exact .inr (.inr (.inr ⟨hc.2.symm, r, by simp, q, size, hp, hg, hs⟩))
              · rw [if_neg hs] at hc; simp at hc
    · rw [hc] at h
      simp only at h
      rcases hcs : checkFiles cfg true true getsize rs (some (nextPrefix pre p)) (tot + n) with ⟨rs1, e2 | y⟩
      · rw [hcs] at h
        simp only [Prod.mk.injEq, Except.error.injEq] at h
        obtain ⟨-, rfl⟩ := h
        rcases ih _ _ _ _ hcs with ⟨a, b, c, d⟩ | ⟨a, b, c, d⟩ | ⟨a, b, c, d⟩ | ⟨a, b, c, d⟩
        · exact .inl ⟨a, b, by simp [c], d⟩
        · exact .inr (.inl ⟨a, b, by simp [c], d⟩)
        · exact .inr (.inr (.inl ⟨a, b, by simp [c], d⟩))
        · exact .inr (.inr (.inr ⟨a, b, by simp [c], d⟩))
      · rw [hcs] at h; simp at h

/-! ### partition_dumps -/

/-- the entries of a manifest in the order they were added -/
def added (m : Dict Resource) : List Resource := m.map (·.2)

theorem dset_fresh {α : Type} {d : Dict α} {k : Str} (v : α) (h : dget d k = none) : dset d k v = d ++ [(k, v)] := by
  induction d with
  | nil => rfl
  | cons p t ih =>
    obtain ⟨a, b⟩ := p
    simp only [dget] at h
    split at h
    · cases h
    · rename_i hk
      simp [dset, hk, ih h]

theorem dictAdd_ok {d d' : Dict Resource} {r : Resource} (h : dictAdd d r false = .ok d') :
    dget d r.uri = none ∧ d' = d ++ [(r.uri, r)] := by
  unfold dictAdd at h
  split at h
  · cases h
  · rename_i hc
    have : dget d r.uri = none := by
      cases hd : dget d r.uri with
      | none => rfl
      | some y => exact absurd ⟨by simp [hd], by simp⟩ hc
    cases h
    exact ⟨this, dset_fresh r this⟩

theorem totalLength_append (a b : List Resource) : totalLength (a ++ b) = totalLength a + totalLength b := by
  induction a with
  | nil => simp [totalLength]
  | cons r t ih => simp only [List.cons_append, totalLength, ih]; omega

/-- each manifest: well formed, not empty, within the number limit, and below the size limit without
its last entry -/
structure ManifestOk (cfg : DumpCfg) (m : Dict Resource) : Prop where
  wf : WF m
  ne : m ≠ []
  files : m.length ≤ max 1 cfg.max_files
  size : totalLength (added m).dropLast < cfg.max_size ∨ m.length = 1

theorem partLoop_spec (cfg : DumpCfg) (rs : List Resource) : ∀ (d : Dict Resource) (size : Int) (n : Nat)
    (ms : List (Dict Resource)) (res : Except DumpErr Unit), WF d → n = d.length → n < max 1 cfg.max_files →
    size = totalLength (added d) → (d = [] ∨ size < cfg.max_size) →
    (totalLength (added d).dropLast < cfg.max_size ∨ d.length ≤ 1) → partLoop cfg rs d size n = (ms, res) →
    (∀ m ∈ ms, ManifestOk cfg m) ∧
    (res = .ok () → (ms.map added).flatten = added d ++ rs) := by
  induction rs with
  | nil =>
    intro d size n ms res hd hn hlt hs hb hl h
    simp only [partLoop, Prod.mk.injEq] at h
    obtain ⟨rfl, rfl⟩ := h
    by_cases h0 : n > 0
    · rw [if_pos h0]
      refine ⟨?_, by simp⟩
      intro m hm
      rw [List.mem_singleton.mp hm]
      have hne : d ≠ [] := by rintro rfl; simp at hn; omega
      exact ⟨hd, hne, by omega, by omega⟩
    · rw [if_neg h0]
      have : d = [] := by cases d with
        | nil => rfl
        | cons _ _ => simp at hn; omega
      subst this
      simp [added]
  | cons r rs ih =>
    intro d size n ms res hd hn hlt hs hb hl h
    simp only [partLoop] at h
    cases hadd : dictAdd d r false with
    | error e => rw [hadd] at h; simp at h; obtain ⟨rfl, rfl⟩ := h; simp
    | ok d' =>
      rw [hadd] at h
      simp only at h
      obtain ⟨hf, hd'⟩ := dictAdd_ok hadd
      have hwf : WF d' := by
        rw [hd', ← dset_fresh r hf]; exact WF_dset hd r
      have hadded : added d' = added d ++ [r] := by rw [hd']; simp [added]
      cases hlen : r.length with
      | none => rw [hlen] at h; simp at h; obtain ⟨rfl, rfl⟩ := h; simp
      | some len =>
        rw [hlen] at h
        simp only at h
        have htot : size + len = totalLength (added d') := by
          rw [hadded, totalLength_append]; simp [totalLength, hlen, hs]
        have hdl : totalLength (added d').dropLast < cfg.max_size ∨ d'.length ≤ 1 := by
          rw [hadded, List.dropLast_concat, ← hs]
          rcases hb with rfl | hb
          · right; rw [hd']; simp
          · exact .inl hb
        have hln : d'.length = n + 1 := by rw [hd', hn]; simp
        by_cases hc : size + len ≥ cfg.max_size ∨ n + 1 ≥ cfg.max_files
        · rw [if_pos hc] at h
          rcases hp : partLoop cfg rs [] 0 0 with ⟨ms1, res1⟩
          rw [hp] at h
          simp only [Prod.mk.injEq] at h
          obtain ⟨rfl, rfl⟩ := h
          obtain ⟨g1, g2⟩ := ih [] 0 0 ms1 res1 WF_nil rfl (by omega) rfl (.inl rfl) (.inr (by simp)) hp
          refine ⟨?_, ?_⟩
          · intro m hm
            rcases List.mem_cons.mp hm with rfl | hm
            · exact ⟨hwf, by rw [hd']; simp, by omega, by omega⟩
            · exact g1 m hm
          · intro he
            rw [List.map_cons, List.flatten_cons, g2 he, hadded]
            simp [added]
        · rw [if_neg hc] at h
          obtain ⟨g1, g2⟩ := ih d' (size + len) (n + 1) ms res hwf hln.symm (by omega) htot
            (.inr (by omega)) hdl h
          refine ⟨g1, ?_⟩
          intro he
          rw [g2 he, hadded]; simp

theorem partLoop_success (cfg : DumpCfg) (rs : List Resource) : ∀ (d : Dict Resource) (size : Int) (n : Nat),
    (dkeys d ++ rs.map (·.uri)).Nodup → (∀ r ∈ rs, r.length ≠ none) →
    ∃ ms, partLoop cfg rs d size n = (ms, .ok ()) := by
  induction rs with
  | nil => intro d size n _ _; exact ⟨_, rfl⟩
  | cons r rs ih =>
    intro d size n hnd hlen
    have hf : dget d r.uri = none := by
      rw [dget_eq_none_iff]
      intro hm
      have := (List.nodup_append.mp hnd).2.2 _ hm r.uri (by simp)
      exact this rfl
    have hadd : dictAdd d r false = .ok (dset d r.uri r) := by
      unfold dictAdd; rw [if_neg]; simp [hf]
    obtain ⟨len, hl⟩ := Option.ne_none_iff_exists'.mp (hlen r (by simp))
    have hk : dkeys (dset d r.uri r) = dkeys d ++ [r.uri] := by rw [dset_fresh r hf]; simp [dkeys]
    simp only [partLoop, hadd, hl]
    split
    · obtain ⟨ms, h⟩ := ih [] 0 0 (by
        have := (List.nodup_append.mp hnd).2.1
        simpa [dkeys] using (List.nodup_cons.mp (by simpa using this)).2) (fun a ha => hlen a (by simp [ha]))
      exact ⟨dset d r.uri r :: ms, by rw [h]⟩
    · exact ih _ _ _ (by rw [hk]; simpa using hnd) (fun a ha => hlen a (by simp [ha]))

theorem filterMap_dkeys (d : Dict Resource) (h : (dkeys d).Nodup) : (dkeys d).filterMap (dget d) = added d := by
  induction d with
  | nil => rfl
  | cons p t ih =>
    obtain ⟨k, v⟩ := p
    have hk : dkeys ((k, v) :: t) = k :: dkeys t := rfl
    rw [hk] at h ⊢
    obtain ⟨h1, h2⟩ := List.nodup_cons.mp h
    have e : (dkeys t).filterMap (dget ((k, v) :: t)) = (dkeys t).filterMap (dget t) := by
      refine List.filterMap_congr fun x hx => ?_
      have : k ≠ x := fun e => h1 (e ▸ hx)
      simp [dget, this]
    rw [List.filterMap_cons, e, ih h2]
    simp [dget, added]

theorem manifestEntries_perm {m : Dict Resource} (hm : WF m) : (manifestEntries m).Perm (added m) := by
  unfold manifestEntries
  rw [← filterMap_dkeys m hm.1]
  exact (sortStr_perm _).filterMap _

/-- when the resources come sorted by URI, iterating over a manifest gives them in the order added -/
theorem manifestEntries_sorted {m : Dict Resource} (hm : WF m)
    (hs : (added m).Pairwise (fun a b => a.uri < b.uri)) : manifestEntries m = added m := by
  refine List.Perm.eq_of_pairwise (le := fun a b : Resource => a.uri < b.uri) ?_ (listing_sorted hm) hs
    (manifestEntries_perm hm)
  intro a b _ _ h1 h2
  exact absurd (lt_trans h1 h2) (lt_irrefl _)

/-! ### archive_path -/

theorem walkFrom_comps (cur cs : List Str) (h : Names cur) (h1 : ∀ c ∈ cur, '/' ∉ c) (h2 : ∀ c ∈ cs, '/' ∉ c) :
    Names (walkFrom cur cs) ∧ ∀ c ∈ walkFrom cur cs, '/' ∉ c := by
  induction cs generalizing cur with
  | nil => exact ⟨h, h1⟩
  | cons c cs ih =>
    have h2' : ∀ c ∈ cs, '/' ∉ c := fun d hd => h2 d (by simp [hd])
    simp only [walkFrom]
    by_cases e1 : c = [] ∨ c = ['.']
    · rw [if_pos e1]; exact ih cur h h1 h2'
    · rw [if_neg e1]
      by_cases e2 : c = ['.', '.']
      · rw [if_pos e2]
        exact ih _ (fun d hd => h d (List.dropLast_subset _ hd)) (fun d hd => h1 d (List.dropLast_subset _ hd)) h2'
      · rw [if_neg e2]
        refine ih _ ?_ ?_ h2'
        · intro d hd
          rcases List.mem_append.mp hd with hd | hd
          · exact h d hd
          · rw [List.mem_singleton.mp hd]; exact ⟨fun e => e1 (.inl e), fun e => e1 (.inr e), e2⟩
        · intro d hd
          rcases List.mem_append.mp hd with hd | hd
          · exact h1 d hd
          · rw [List.mem_singleton.mp hd]; exact h2 c (by simp)

theorem location_comps (cwd : List Str) (p : Str) (h : Names cwd) (h1 : ∀ c ∈ cwd, '/' ∉ c) :
    Names (location cwd p) ∧ ∀ c ∈ location cwd p, '/' ∉ c := by
  unfold location
  split
  · exact walkFrom_comps [] _ (by simp [Names]) (by simp) (fun c hc => not_mem_of_mem_splitOn hc)
  · exact walkFrom_comps cwd _ h h1 (fun c hc => not_mem_of_mem_splitOn hc)

theorem pathParts_slashes (n : Nat) (ns : List Str) (h : Names ns) (h1 : ∀ c ∈ ns, '/' ∉ c) :
    pathParts (List.replicate n '/' ++ join ['/'] ns) = ns := by
  induction n with
  | zero =>
    simp only [List.replicate_zero, List.nil_append]
    cases ns with
    | nil => rfl
    | cons a t =>
      rw [pathParts, splitOn_join (by simp) h1]
      rw [List.filter_eq_self]
      intro c hc; simpa using (h c hc).1
  | succ n ih =>
    have e : splitOn '/' (List.replicate (n + 1) '/' ++ join ['/'] ns) =
        [] :: splitOn '/' (List.replicate n '/' ++ join ['/'] ns) := by
      have := splitOn_append_sep '/' [] (List.replicate n '/' ++ join ['/'] ns)
      simpa [List.replicate_succ, splitOn] using this
    rw [pathParts, e]
    simpa [pathParts] using ih

/-- an absolute path -/
def IsAbs (p : Str) : Prop := ∃ t, p = '/' :: t

theorem initialSlashes_abs {p : Str} (h : IsAbs p) : initialSlashes p ≠ 0 := by
  obtain ⟨t, rfl⟩ := h
  unfold initialSlashes
  split <;> simp_all

theorem location_abs {p : Str} (h : IsAbs p) (cwd cwd' : List Str) : location cwd p = location cwd' p := by
  obtain ⟨t, rfl⟩ := h; rfl

/-- the parts of an absolute path are its location -/
theorem pathParts_abspath {cwd : Str} (hc : IsAbs cwd) (p : Str) :
    pathParts (abspath cwd p) = location (location [] cwd) p := by
  have hL := location_comps [] cwd (by simp [Names]) (by simp)
  by_cases hp : IsAbs p
  · obtain ⟨t, rfl⟩ := hp
    have hab : IsAbs ('/' :: t) := ⟨t, rfl⟩
    have : abspath cwd ('/' :: t) = normpath ('/' :: t) := by simp [abspath, startsWith]
    rw [this, normpath_abs (location [] cwd) (initialSlashes_abs hab)]
    obtain ⟨a, b⟩ := location_comps (location [] cwd) ('/' :: t) hL.1 hL.2
    exact pathParts_slashes _ _ a b
  · have hs : startsWith p ['/'] = false := by
      cases p with
      | nil => rfl
      | cons c t =>
        have : c ≠ '/' := fun e => hp ⟨t, by rw [e]⟩
        simp [startsWith, List.isPrefixOf, Ne.symm this]
    have hj : ∃ d, pathJoin cwd p = d ++ '/' :: p ∧ location [] (d ++ ['/']) = location [] cwd ∧ IsAbs (pathJoin cwd p) := by
      obtain ⟨t, rfl⟩ := hc
      unfold pathJoin
      rw [hs]
      simp only [Bool.false_eq_true, if_false, List.cons_ne_nil, false_or]
      by_cases he : endsWith ('/' :: t) ['/']
      · rw [if_pos he]
        have : ['/'] <:+ '/' :: t := by simpa [endsWith] using he
        obtain ⟨d, hd⟩ := this
        exact ⟨d, by rw [← hd]; simp, by rw [hd], ⟨t ++ p, rfl⟩⟩
      · rw [if_neg he]
        refine ⟨'/' :: t, rfl, ?_, ⟨t ++ '/' :: p, rfl⟩⟩
        show walkFrom [] (splitOn '/' (('/' :: t) ++ '/' :: [])) = walkFrom [] (splitOn '/' ('/' :: t))
        rw [splitOn_append_sep, walkFrom_append]
        simp [splitOn, walkFrom]
    obtain ⟨d, hd, hl, hab⟩ := hj
    have : abspath cwd p = normpath (pathJoin cwd p) := by simp [abspath, hs]
    have hloc : location [] (pathJoin cwd p) = location (location [] cwd) p := by
      rw [hd, location_append, hl]
      generalize location [] cwd = L
      unfold location
      split
      · rename_i t; exact absurd ⟨t, rfl⟩ hp
      · rfl
    rw [this, normpath_abs [] (initialSlashes_abs hab), hloc]
    obtain ⟨a, b⟩ := location_comps (location [] cwd) p hL.1 hL.2
    exact pathParts_slashes _ _ a b

theorem pathJoinAll_join (a : Str) (l : List Str) (ha : a ≠ []) (ha' : a.getLast? ≠ some '/')
    (hl : ∀ c ∈ l, c ≠ [] ∧ '/' ∉ c) : l.foldl pathJoin a = join ['/'] (a :: l) := by
  induction l generalizing a with
  | nil => rfl
  | cons b t ih =>
    obtain ⟨hb1, hb2⟩ := hl b (by simp)
    have hs : startsWith b ['/'] = false := by
      cases b with
      | nil => rfl
      | cons c u =>
        have : c ≠ '/' := fun e => hb2 (by simp [e])
        simp [startsWith, List.isPrefixOf, Ne.symm this]
    have he : ¬ (a = [] ∨ endsWith a ['/'] = true) := by
      rintro (h | h)
      · exact ha h
      · have : ['/'] <:+ a := by simpa [endsWith] using h
        obtain ⟨d, hd⟩ := this
        exact ha' (by rw [← hd]; simp)
    have hj : pathJoin a b = a ++ '/' :: b := by
      unfold pathJoin; rw [hs, if_neg (by simp), if_neg he]
    rw [List.foldl_cons, hj, ih _ (by simp) ?_ (fun c hc => hl c (by simp [hc]))]
    · cases t with
      | nil => simp [join]
      | cons c u => simp [join]
    · obtain ⟨x, hx⟩ := List.getLast?_isSome.mpr hb1 |> Option.isSome_iff_exists.mp
      have : (a ++ '/' :: b).getLast? = some x := by
        rw [List.getLast?_append]
        cases b with
        | nil => exact absurd rfl hb1
        | cons c u => simp only [List.getLast?_cons_cons] at hx ⊢; rw [hx]; rfl
      rw [this]
      rintro h
      cases h
      exact hb2 (List.mem_of_getLast? hx)

/-- relpath as components: up to the common directory, then down -/
def relComps (sl pl : List Str) : List Str :=
  List.replicate (sl.length - (commonPrefix sl pl).length) ['.', '.'] ++ pl.drop (commonPrefix sl pl).length

theorem relComps_ok (sl : List Str) {pl : List Str} (h1 : Names pl) (h2 : ∀ c ∈ pl, '/' ∉ c) :
    ∀ c ∈ relComps sl pl, c ≠ [] ∧ c ≠ ['.'] ∧ '/' ∉ c := by
  intro c hc
  rcases List.mem_append.mp hc with hc | hc
  · rw [List.eq_of_mem_replicate hc]; decide
  · have := List.mem_of_mem_drop hc
    exact ⟨(h1 c this).1, (h1 c this).2.1, h2 c this⟩

theorem relpath_eq {cwd : Str} (hc : IsAbs cwd) {p : Str} (hp : p ≠ []) (start : Str) :
    ∃ a, relpath cwd p start = some a ∧
      splitOn '/' a = (let r := relComps (location (location [] cwd) start) (location (location [] cwd) p)
        if r = [] then [['.']] else r) := by
  have hL := location_comps [] cwd (by simp [Names]) (by simp)
  have hP := location_comps (location [] cwd) p hL.1 hL.2
  have hr := relComps_ok (location (location [] cwd) start) hP.1 hP.2
  unfold relpath
  rw [if_neg hp, pathParts_abspath hc, pathParts_abspath hc]
  refine ⟨_, rfl, ?_⟩
  simp only
  rw [← relComps]
  generalize relComps (location (location [] cwd) start) (location (location [] cwd) p) = r at hr
  by_cases h0 : r = []
  · rw [if_pos h0, if_pos h0]; decide
  · rw [if_neg h0, if_neg h0]
    cases r with
    | nil => exact absurd rfl h0
    | cons a t =>
      have ha := hr a (by simp)
      show splitOn '/' (t.foldl pathJoin a) = a :: t
      rw [pathJoinAll_join a t ha.1 (fun e => ha.2.2 (List.mem_of_getLast? e))
        (fun c hc => ⟨(hr c (by simp [hc])).1, (hr c (by simp [hc])).2.2⟩)]
      exact splitOn_join (by simp) (fun c hc => (hr c hc).2.2)

theorem relComps_injective (sl : List Str) {p q : List Str} (hp : ['.', '.'] ∉ p) (hq : ['.', '.'] ∉ q)
    (h : relComps sl p = relComps sl q) : p = q := by
  have hcount : ∀ x : List Str, ['.', '.'] ∉ x →
      (relComps sl x).count ['.', '.'] = sl.length - (commonPrefix sl x).length := by
    intro x hx
    unfold relComps
    rw [List.count_append, List.count_replicate_self, List.count_eq_zero_of_not_mem, Nat.add_zero]
    exact fun hm => hx (List.mem_of_mem_drop hm)
  have hlen : ∀ x : List Str, (commonPrefix sl x).length ≤ sl.length := fun x => (commonPrefix_prefix sl x).length_le
  have e1 : (commonPrefix sl p).length = (commonPrefix sl q).length := by
    have a := hcount p hp
    have b := hcount q hq
    rw [h] at a
    have := hlen p
    have := hlen q
    omega
  have hdrop : p.drop (commonPrefix sl p).length = q.drop (commonPrefix sl q).length := by
    unfold relComps at h
    rw [e1] at h
    rw [e1]
    exact List.append_cancel_left h
  have htake : ∀ x : List Str, x.take (commonPrefix sl x).length = sl.take (commonPrefix sl x).length := by
    intro x
    have h1 := (commonPrefix_prefix sl x)
    have h2 : commonPrefix sl x <+: x := by rw [commonPrefix_comm]; exact commonPrefix_prefix x sl
    rw [← List.prefix_iff_eq_take.mp h1, ← List.prefix_iff_eq_take.mp h2]
  calc p = p.take (commonPrefix sl p).length ++ p.drop (commonPrefix sl p).length := (List.take_append_drop _ _).symm
    _ = q.take (commonPrefix sl q).length ++ q.drop (commonPrefix sl q).length := by
        rw [htake p, hdrop, e1, ← htake q]
    _ = q := List.take_append_drop _ _

theorem relComps_noDotDot (sl : List Str) {p : List Str} (hp : ['.', '.'] ∉ p) :
    ['.', '.'] ∉ relComps sl p ↔ sl <+: p := by
  unfold relComps
  have hle := (commonPrefix_prefix sl p).length_le
  constructor
  · intro h
    have : sl.length - (commonPrefix sl p).length = 0 := by
      by_contra hne
      exact h (List.mem_append_left _ (List.mem_replicate.mpr ⟨hne, rfl⟩))
    rw [← commonPrefix_eq_left]
    exact ((commonPrefix_prefix sl p).eq_of_length (by omega)).symm
  · intro h
    rw [commonPrefix_of_prefix h]
    simp only [Nat.sub_self, List.replicate_zero, List.nil_append]
    exact fun hm => hp (List.mem_of_mem_drop hm)

theorem archivePath_some {cwd : Str} (hc : IsAbs cwd) (pre : Option Str) {p : Str} (hp : p ≠ []) :
    ∃ a, archivePath cwd pre p = some a := by
  unfold archivePath
  split
  · exact ⟨p, rfl⟩
  · exact ⟨p, rfl⟩
  · obtain ⟨a, ha, -⟩ := relpath_eq hc hp (_ : Str)
    exact ⟨a, ha⟩

theorem archivePath_injective {cwd : Str} (hc : IsAbs cwd) (pre : Option Str) {p q a : Str} (hp : p ≠ []) (hq : q ≠ [])
    (h1 : archivePath cwd pre p = some a) (h2 : archivePath cwd pre q = some a) :
    location (location [] cwd) p = location (location [] cwd) q := by
  unfold archivePath at h1 h2
  split at h1
  · cases h1; cases h2; rfl
  · simp at h2; cases h1; cases h2; rfl
  · rename_i s hs
    split at h2
    · cases ‹some s = none›
    · rename_i h; cases h; exact absurd rfl hs
    · rename_i h; cases h
      obtain ⟨a1, e1, s1⟩ := relpath_eq hc hp s
      obtain ⟨a2, e2, s2⟩ := relpath_eq hc hq s
      rw [h1] at e1; cases e1
      rw [h2] at e2; cases e2
      have hL := location_comps [] cwd (by simp [Names]) (by simp)
      have hP := location_comps (location [] cwd) p hL.1 hL.2
      have hQ := location_comps (location [] cwd) q hL.1 hL.2
      rw [s1] at s2
      have rp := relComps_ok (location (location [] cwd) s) hP.1 hP.2
      have rq := relComps_ok (location (location [] cwd) s) hQ.1 hQ.2
      refine relComps_injective (location (location [] cwd) s) (fun hm => (hP.1 _ hm).2.2 rfl) (fun hm => (hQ.1 _ hm).2.2 rfl) ?_
      generalize relComps (location (location [] cwd) s) (location (location [] cwd) p) = x at *
      generalize relComps (location (location [] cwd) s) (location (location [] cwd) q) = y at *
      simp only at s2
      by_cases hx : x = [] <;> by_cases hy : y = []
      · rw [hx, hy]
      · rw [if_pos hx, if_neg hy] at s2
        exact absurd rfl (rq ['.'] (by rw [← s2]; simp)).2.1
      · rw [if_neg hx, if_pos hy] at s2
        exact absurd rfl (rp ['.'] (by rw [s2]; simp)).2.1
      · rw [if_neg hx, if_neg hy] at s2; exact s2

theorem relpath_noDotDot {cwd : Str} (hc : IsAbs cwd) {p s a : Str} (hp : p ≠ []) (h : relpath cwd p s = some a) :
    NoDotDot a ↔ Within (location (location [] cwd) s) (location (location [] cwd) p) := by
  obtain ⟨a1, e1, s1⟩ := relpath_eq hc hp s
  rw [h] at e1; cases e1
  have hL := location_comps [] cwd (by simp [Names]) (by simp)
  have hP := location_comps (location [] cwd) p hL.1 hL.2
  unfold NoDotDot Within
  rw [← relComps_noDotDot _ (fun hm => (hP.1 _ hm).2.2 rfl), s1]
  simp only
  by_cases h0 : relComps (location (location [] cwd) s) (location (location [] cwd) p) = []
  · rw [if_pos h0, h0]; decide
  · rw [if_neg h0]

/-! ### write_zip and write -/

theorem renameLoop_ok (cwd : Str) (pre : Option Str) (rs : List Resource) : ∀ (real real' : Dict Str) (rs' : List Resource),
    renameLoop cwd pre rs real = .ok (real', rs') →
    (∀ a p, dget real a = some p → archivePath cwd pre p = some a) →
    (∀ a p, dget real' a = some p → archivePath cwd pre p = some a ∧ (dget real a = some p ∨ ∃ r ∈ rs, r.path = some p)) ∧
    List.Forall₂ (fun r r' => ∃ p a, r.path = some p ∧ archivePath cwd pre p = some a ∧ r' = { r with path := some a }) rs rs' := by
  induction rs with
  | nil =>
    intro real real' rs' h hr
    simp only [renameLoop, Except.ok.injEq, Prod.mk.injEq] at h
    obtain ⟨rfl, rfl⟩ := h
    exact ⟨fun a p h => ⟨hr a p h, .inl h⟩, .nil⟩
  | cons r rs ih =>
    intro real real' rs' h hr
    simp only [renameLoop] at h
    cases hp : r.path with
    | none => rw [hp] at h; cases h
    | some p =>
      rw [hp] at h
      simp only at h
      cases ha : archivePath cwd pre p with
      | none => rw [ha] at h; cases h
      | some a =>
        rw [ha] at h
        simp only [bind_ok_iff, epure] at h
        obtain ⟨⟨real1, rs1⟩, h1, h2⟩ := h
        cases h2
        have hinv : ∀ b q, dget (dset real a p) b = some q → archivePath cwd pre q = some b := by
          intro b q hb
          by_cases e : a = b
          · subst e; rw [dget_dset_self] at hb; cases hb; exact ha
          · rw [dget_dset_ne _ _ e] at hb; exact hr b q hb
        obtain ⟨g1, g2⟩ := ih _ _ _ h1 hinv
        refine ⟨?_, .cons ⟨p, a, hp, ha, rfl⟩ g2⟩
        intro b q hb
        obtain ⟨k1, k2⟩ := g1 b q hb
        refine ⟨k1, ?_⟩
        rcases k2 with k2 | ⟨r', hr', k2⟩
        · by_cases e : a = b
          · subst e; rw [dget_dset_self] at k2; cases k2; exact .inr ⟨r, by simp, hp⟩
          · rw [dget_dset_ne _ _ e] at k2; exact .inl k2
        · exact .inr ⟨r', by simp [hr'], k2⟩

theorem memberLoop_ok (real : Dict Str) (rs : List Resource) : ∀ ms, memberLoop real rs = .ok ms →
    List.Forall₂ (fun r m => r.path = some m.1 ∧ dget real m.1 = some m.2) rs ms := by
  induction rs with
  | nil => intro ms h; cases h; exact .nil
  | cons r rs ih =>
    intro ms h
    simp only [memberLoop] at h
    cases hp : r.path with
    | none => rw [hp] at h; cases h
    | some a =>
      rw [hp] at h
      simp only at h
      cases ha : dget real a with
      | none => rw [ha] at h; cases h
      | some p =>
        rw [ha] at h
        simp only [bind_ok_iff, epure] at h
        obtain ⟨ms', h1, h2⟩ := h
        cases h2
        exact .cons ⟨hp, ha⟩ (ih _ h1)

/-- the entry of manifest.xml and the archive member for a resource -/
structure Packed (cwd : Str) (pre : Option Str) (r : Resource) (e : Resource) (m : Str × Str) : Prop where
  path : r.path = some m.2
  arc : archivePath cwd pre m.2 = some m.1
  entry : e = { r with path := some m.1 }

theorem writeZip_ok {cwd : Str} {pre : Option Str} {file : Str} {rs : List Resource} {p : Package}
    (h : writeZip cwd pre file rs = .ok p)
    (hinj : ∀ r ∈ rs, ∀ r' ∈ rs, ∀ p q a, r.path = some p → r'.path = some q →
      archivePath cwd pre p = some a → archivePath cwd pre q = some a → p = q) :
    p.file = file ∧ p.inner.length = rs.length ∧ p.members.length = rs.length ∧
      List.Forall₂ (fun r (x : Resource × (Str × Str)) => Packed cwd pre r x.1 x.2) rs (p.inner.zip p.members) := by
  simp only [writeZip, bind_ok_iff, epure] at h
  obtain ⟨⟨real, rs'⟩, h1, ms, h2, h3⟩ := h
  cases h3
  obtain ⟨g1, g2⟩ := renameLoop_ok cwd pre rs [] real rs' h1 (by simp [dget])
  have g3 := memberLoop_ok real rs' ms h2
  refine ⟨rfl, g2.length_eq.symm, (g2.length_eq.trans g3.length_eq).symm, ?_⟩
  have key : ∀ (l : List Resource) (l' : List Resource) (ms : List (Str × Str)), (∀ r ∈ l, r ∈ rs) →
      List.Forall₂ (fun r r' => ∃ p a, r.path = some p ∧ archivePath cwd pre p = some a ∧ r' = { r with path := some a }) l l' →
      List.Forall₂ (fun (r : Resource) (m : Str × Str) => r.path = some m.1 ∧ dget real m.1 = some m.2) l' ms →
      List.Forall₂ (fun r (x : Resource × (Str × Str)) => Packed cwd pre r x.1 x.2) l (l'.zip ms) := by
    intro l l' ms hmem ha hb
    induction ha generalizing ms with
    | nil => cases hb; exact .nil
    | @cons r r' l l' hr _ ih =>
      cases hb with
      | @cons _ m _ ms' hm hb =>
        refine .cons ?_ (ih _ (fun r hr => hmem r (by simp [hr])) hb)
        obtain ⟨p, a, e1, e2, e3⟩ := hr
        obtain ⟨m1, m2⟩ := hm
        rw [e3] at m1
        simp only [Option.some.injEq] at m1
        subst m1
        obtain ⟨k1, k2⟩ := g1 _ _ m2
        rcases k2 with k2 | ⟨r2, hr2, k2⟩
        · simp [dget] at k2
        · have : p = m.2 := hinj r (hmem r (by simp)) r2 hr2 p m.2 _ e1 k2 e2 k1
          subst this
          exact ⟨e1, e2, e3⟩
  exact key rs rs' ms (fun _ h => h) g2 g3

theorem writeZip_entries {cwd : Str} {pre : Option Str} {file : Str} {rs : List Resource} {p : Package}
    (h : writeZip cwd pre file rs = .ok p) :
    p.file = file ∧ p.inner.length = rs.length ∧ p.members.length = rs.length ∧
      p.inner.map (·.uri) = rs.map (·.uri) := by
  simp only [writeZip, bind_ok_iff, epure] at h
  obtain ⟨⟨real, rs'⟩, h1, ms, h2, h3⟩ := h
  cases h3
  obtain ⟨g1, g2⟩ := renameLoop_ok cwd pre rs [] real rs' h1 (by simp [dget])
  have g3 := memberLoop_ok real rs' ms h2
  refine ⟨rfl, g2.length_eq.symm, (g2.length_eq.trans g3.length_eq).symm, ?_⟩
  clear h1 h2 g1 g3
  simp only
  induction g2 with
  | nil => rfl
  | cons hr _ ih =>
    obtain ⟨p, a, -, -, rfl⟩ := hr
    simp [ih]

/-- the packages among the effects -/
def packages (effs : List DumpEff) : List Package :=
  effs.filterMap fun | .package p => some p | .manifest _ _ => none | .warc _ _ => none

theorem writePackages_ok (cfg : DumpCfg) (cwd : Str) (pre : Option Str) (base : Str) (sep : Bool) (ms : List (Dict Resource)) :
    ∀ (n k : Nat) (effs : List DumpEff), writePackages cfg cwd pre base sep ms n = (effs, .ok k) →
      k = n + ms.length ∧ (ms ≠ [] → cfg.format = "zip".toList) ∧ List.Forall₂ (fun (x : Nat × Dict Resource) p =>
        writeZip cwd pre (base ++ natPad 5 x.1 ++ ".zip".toList) (manifestEntries x.2) = .ok p)
        ((List.range' n ms.length).zip ms) (packages effs) := by
  induction ms with
  | nil =>
    intro n k effs h
    simp only [writePackages, Prod.mk.injEq, Except.ok.injEq] at h
    obtain ⟨rfl, rfl⟩ := h
    exact ⟨rfl, by simp, .nil⟩
  | cons m ms ih =>
    intro n k effs h
    simp only [writePackages] at h
    by_cases hf : cfg.format = "zip".toList
    · rw [if_pos hf] at h
      rcases hz : writeZip cwd pre (base ++ natPad 5 n ++ '.' :: cfg.format) (manifestEntries m) with e | p
      · rw [hz] at h; simp at h
      · rw [hz] at h
        simp only at h
        rcases hw : writePackages cfg cwd pre base sep ms (n + 1) with ⟨effs1, res⟩
        rw [hw] at h
        simp only [Prod.mk.injEq] at h
        obtain ⟨rfl, rfl⟩ := h
        obtain ⟨g1, -, g2⟩ := ih _ _ _ hw
        refine ⟨by rw [g1]; simp; omega, fun _ => hf, ?_⟩
        have hp : ∀ l : List DumpEff, packages ((if sep = true then [DumpEff.manifest (base ++ natPad 5 n ++ ".xml".toList) (manifestEntries m)] else []) ++ .package p :: l) = p :: packages l := by
          intro l; cases sep <;> simp [packages]
        rw [hp, List.length_cons, List.range'_succ, List.zip_cons_cons]
        refine .cons ?_ g2
        rw [hf] at hz
        exact hz
    · rw [if_neg hf] at h
      split at h <;> simp at h

theorem writeDump_ok {cfg : DumpCfg} {cwd : Str} {getsize : Str → Option Int} {rs : List Resource} {base : Str}
    {sep : Bool} {effs : List DumpEff} {n : Nat} (hs : rs.Pairwise (fun a b => a.uri < b.uri))
    (h : writeDump cfg cwd getsize rs base sep = (effs, .ok n)) :
    ∃ (pre : Option Str) (tot : Int) (ls : List (List Resource)),
      checkFiles cfg true true getsize rs none 0 = (rs.map (sized getsize), .ok (pre, tot)) ∧
      ls.length = n ∧ ls.flatten = rs.map (sized getsize) ∧
      (∀ l ∈ ls, l ≠ [] ∧ l.length ≤ max 1 cfg.max_files) ∧
      List.Forall₂ (fun (x : Nat × List Resource) p =>
        writeZip cwd pre (base ++ natPad 5 x.1 ++ ".zip".toList) x.2 = .ok p)
        ((List.range n).zip ls) (packages effs) := by
  unfold writeDump at h
  rcases hc : checkFiles cfg true true getsize rs none 0 with ⟨rs', e | ⟨pre, tot⟩⟩
  · rw [hc] at h; simp at h
  · rw [hc] at h
    simp only at h
    obtain ⟨k1, rfl, -⟩ := checkFiles_ok cfg getsize rs none 0 rs' _ hc
    rcases hp : partitionDumps cfg (rs.map (sized getsize)) with ⟨ms, res⟩
    rw [hp] at h
    simp only at h
    rcases hw : writePackages cfg cwd pre base sep ms 0 with ⟨effs1, e | k⟩
    · rw [hw] at h; simp at h
    · rw [hw] at h
      simp only [Prod.mk.injEq] at h
      obtain ⟨rfl, h2⟩ := h
      cases res with
      | error e => cases h2
      | ok u =>
        cases h2
        obtain ⟨g1, g2⟩ := partLoop_spec cfg _ [] 0 0 ms _ WF_nil rfl (by omega) rfl (.inl rfl) (.inr (by simp)) hp
        have g3 : (ms.map added).flatten = rs.map (sized getsize) := (g2 rfl).trans (List.nil_append _)
        have hs' : ((ms.map added).flatten).Pairwise (fun a b => a.uri < b.uri) := by
          rw [g3, List.pairwise_map]; exact hs
        rw [List.pairwise_flatten] at hs'
        have hm : ms.map manifestEntries = ms.map added := by
          refine List.map_congr_left fun m hm => manifestEntries_sorted (g1 m hm).wf ?_
          exact hs'.1 _ (List.mem_map_of_mem hm)
        obtain ⟨w1, -, w2⟩ := writePackages_ok cfg cwd pre base sep ms 0 k _ hw
        have w1 : k = ms.length := by omega
        refine ⟨pre, tot, ms.map manifestEntries, rfl, by simp [w1], by rw [hm, g3], ?_, ?_⟩
        · intro l hl
          rw [hm] at hl
          obtain ⟨m, hmem, rfl⟩ := List.mem_map.mp hl
          have := g1 m hmem
          exact ⟨by simpa [added] using this.ne, by simpa [added] using this.files⟩
        · rw [w1, List.range_eq_range']
          have : (List.range' 0 ms.length).zip (ms.map manifestEntries) =
              ((List.range' 0 ms.length).zip ms).map (fun x => (x.1, manifestEntries x.2)) := by
            rw [List.zip_map_right]; rfl
          rw [this, List.forall₂_map_left_iff]
          exact w2

/-! ### dirname -/

theorem headSlash_append (d rel : Str) : headSlash (d ++ '/' :: rel) = d ++ '/' :: headSlash rel := by
  unfold headSlash
  rw [List.reverse_append, List.reverse_cons, List.append_assoc]
  have : ∀ x y : Str, (x ++ ('/' :: y)).dropWhile (· != '/') = x.dropWhile (· != '/') ++ ('/' :: y) := by
    intro x y
    induction x with
    | nil => simp
    | cons c t ih =>
      simp only [List.cons_append, List.dropWhile_cons]
      split
      · exact ih
      · rfl
  rw [List.singleton_append, this]
  simp

theorem rstripSlash_append {d : Str} (hd : d ≠ []) (hl : d.getLast? ≠ some '/') (t : Str) :
    rstripSlash (d ++ t) = d ++ rstripSlash t := by
  unfold rstripSlash
  rw [List.reverse_append]
  have hr : ∃ c u, d.reverse = c :: u ∧ c ≠ '/' := by
    cases h : d.reverse with
    | nil => exact absurd (List.reverse_eq_nil_iff.mp h) hd
    | cons c u =>
      refine ⟨c, u, rfl, fun e => hl ?_⟩
      rw [List.getLast?_eq_head?_reverse, h, e]; rfl
  obtain ⟨c, u, h1, h2⟩ := hr
  have : ∀ x : Str, (x ++ d.reverse).dropWhile (· == '/') = x.dropWhile (· == '/') ++ d.reverse := by
    intro x
    induction x with
    | nil => rw [List.nil_append, h1, List.dropWhile_cons]; simp [h2]
    | cons c t ih =>
      simp only [List.cons_append, List.dropWhile_cons]
      split
      · exact ih
      · rfl
  rw [this]; simp

theorem dirname_below {d : Str} (hd : d ≠ []) (hl : d.getLast? ≠ some '/') (rel : Str) :
    d <+: dirname (d ++ '/' :: rel) ∧ ('/' ∉ rel → dirname (d ++ '/' :: rel) = d) := by
  have hall : (d ++ '/' :: headSlash rel).all (· == '/') = false := by
    rw [List.all_eq_false]
    have := List.getLast_mem hd
    refine ⟨d.getLast hd, by simp, ?_⟩
    intro e
    have e : d.getLast hd = '/' := by simpa using e
    exact hl (by rw [List.getLast?_eq_some_getLast hd, e])
  have e : dirname (d ++ '/' :: rel) = d ++ rstripSlash ('/' :: headSlash rel) := by
    unfold dirname
    simp only [headSlash_append]
    rw [hall]
    simp only [Bool.false_eq_true, if_false]
    exact rstripSlash_append hd hl _
  rw [e]
  refine ⟨List.prefix_append _ _, ?_⟩
  intro hn
  have : headSlash rel = [] := by
    unfold headSlash
    have : ∀ x : Str, '/' ∉ x → x.dropWhile (· != '/') = [] := by
      intro x hx
      induction x with
      | nil => rfl
      | cons c t ih =>
        have hc : c ≠ '/' := fun e => hx (by simp [e])
        rw [List.dropWhile_cons, if_pos (by simpa using hc)]
        exact ih (fun h => hx (by simp [h]))
    rw [this _ (by simpa using hn)]; rfl
  rw [this]
  simp [rstripSlash]

end Resync
