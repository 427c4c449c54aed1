import Verif.Proofs.DocOrder
/-
C115: the order of the entries in the documents of a source has no effect on a baseline sync.
-/

namespace Resync
open Py Resync.Spec

theorem siteReordered_symm {a b : Str → Option Elem} (h : SiteReordered a b) : SiteReordered b a := by
  intro u
  rcases h u with ⟨h1, h2⟩ | ⟨root, root', h1, h2, h3, s, es, es', h4, h5, h6, h7⟩
  · exact .inl ⟨h2, h1⟩
  · exact .inr ⟨root', root, h2, h1, h3.symm, s, es', es, h5, h4, h6.symm, fun e he => h7 e (h6.mem_iff.mpr he)⟩

/-- C115.  A resource list, single or an index with its parts, is read as the same list, with the same metadata and links, whatever the order of the
entries in its documents. -/
theorem C115_read (cfg : ReadCfg) (docAt' : Str → Option Elem) (h : SiteReordered cfg.docAt docAt') (uri : Str) (index_only : Bool)
    (c : Cont (Dict Resource)) (hc : readList cfg { resources := [] } uri index_only = .ok c) :
    ∃ c', readList { cfg with docAt := docAt' } { resources := [] } uri index_only = .ok c' ∧
      iterList c'.resources = iterList c.resources ∧ c'.md = c.md ∧ c'.ln = c.ln := by
  have := readList_same (cfg := cfg) (cfg' := { cfg with docAt := docAt' }) rfl h uri index_only
  rw [hc] at this
  cases hc' : readList { cfg with docAt := docAt' } { resources := [] } uri index_only with
  | error e => rw [hc'] at this; exact this.elim
  | ok c' =>
    rw [hc'] at this
    exact ⟨c', rfl, by rw [iterList_eq, iterList_eq, this.1.listing], this.2.1.symm, this.2.2.symm⟩

/-- C115, discovery: the same documents are tried in the same order and the same list is found, or the same exception is raised. -/
theorem C115_found (docAt docAt' : Str → Option Elem) (h : SiteReordered docAt docAt') (mapper : Mapper) (multi : Bool) (uw : Char → Bool) (c : DiscCfg) :
    let f := findResourceList (Sources.ofDocs docAt mapper multi uw) c
    let f' := findResourceList (Sources.ofDocs docAt' mapper multi uw) c
    f'.1 = f.1 ∧ f'.2.map iterList = f.2.map iterList := by
  obtain ⟨h1, h2⟩ := findResourceList_same (ofDocs_same h mapper multi uw) c
  refine ⟨h1.symm, ?_⟩
  revert h2
  cases (findResourceList (Sources.ofDocs docAt mapper multi uw) c).2 <;>
    cases (findResourceList (Sources.ofDocs docAt' mapper multi uw) c).2 <;> intro h2
  · cases h2; rfl
  · exact h2.elim
  · exact h2.elim
  · simp only [Except.map, iterList_eq, SameDict.listing h2]

theorem mkpath_sources (env : Env) (x : Sources) : ∀ (rest : List Str) (pre : Loc) (s : St), mkpath { env with sources := x } pre rest s = mkpath env pre rest s
  | [], _, _ => rfl
  | n :: rest, pre, s => by
    unfold mkpath
    simp only [mkpath_sources env x rest]

theorem getLoop_sources (env : Env) (x : Sources) (ign : Bool) (uri : Str) (l : Loc) : ∀ (n : Nat) (s : St),
    getLoop { env with sources := x } ign uri l n s = getLoop env ign uri l n s
  | 0, _ => rfl
  | n + 1, s => by
    unfold getLoop
    have e : ∀ s, tryGet { env with sources := x } s uri l = tryGet env s uri l := fun _ => rfl
    simp only [getLoop_sources env x ign uri l n, e]

theorem updateOne_sources (env : Env) (x : Sources) (c : ClientCfg) : updateOne { env with sources := x } c = updateOne env c := by
  funext s r
  unfold updateOne updateResource
  simp only [mkpath_sources, getLoop_sources]

/-- C115.  A baseline sync or an audit makes the same requests and the same changes in the same order, with the same result and the same files and state file
afterwards, whatever the order of the entries in the documents of the source. -/
theorem C115_sync (env : Env) (docAt docAt' : Str → Option Elem) (mapper : Mapper) (multi : Bool) (uw : Char → Bool)
    (henv : env.sources = Sources.ofDocs docAt mapper multi uw) (h : SiteReordered docAt docAt')
    (c : ClientCfg) (allow_deletion audit_only : Bool) (s : St) (sites : List (Map × Loc))
    (hsites : Sites c env.cwd sites s.world.fs) (hh : ∀ t ∈ s.hashes, HashType t) :
    let p := baselineOrAudit env c allow_deletion audit_only s
    let p' := baselineOrAudit { env with sources := Sources.ofDocs docAt' mapper multi uw } c allow_deletion audit_only s
    p'.2 = p.2 ∧ p'.1.trace = p.1.trace ∧ p'.1.world.state = p.1.world.state ∧ ∀ l, p'.1.world.fs.get l = p.1.world.fs.get l := by
  suffices SameEnd (baselineOrAudit env c allow_deletion audit_only s)
      (baselineOrAudit { env with sources := Sources.ofDocs docAt' mapper multi uw } c allow_deletion audit_only s) from
    ⟨this.2, this.1.trace, this.1.state, this.1.fs⟩
  have hrefl : ∀ t : St, SameMoment t t := fun t => ⟨fun _ => rfl, rfl, rfl, rfl, rfl⟩
  obtain ⟨-, hf⟩ := findResourceList_same (ofDocs_same h mapper multi uw) c.disc
  rw [← henv] at hf
  unfold baselineOrAudit baselinePlan
  by_cases hm : c.disc.mapper = []
  · rw [if_pos hm, if_pos hm]; exact ⟨hrefl _, rfl⟩
  rw [if_neg hm, if_neg hm]
  cases (if audit_only then Except.ok false else c.disc.mapper.isUnsafe) with
  | error e => exact ⟨hrefl _, rfl⟩
  | ok b =>
    cases b with
    | true => exact ⟨hrefl _, rfl⟩
    | false =>
      simp only
      cases h1 : (findResourceList env.sources c.disc).2 with
      | error e =>
        cases h2 : (findResourceList (Sources.ofDocs docAt' mapper multi uw) c.disc).2 with
        | ok _ => rw [h1, h2] at hf; exact hf.elim
        | error e' =>
          rw [h1, h2] at hf
          simp only at hf
          subst hf
          exact ⟨hrefl _, rfl⟩
      | ok src =>
        cases h2 : (findResourceList (Sources.ofDocs docAt' mapper multi uw) c.disc).2 with
        | error _ => rw [h1, h2] at hf; exact hf.elim
        | ok src' =>
          rw [h1, h2] at hf
          simp only at hf ⊢
          have hl := hf.listing
          have hi : iterList src' = iterList src := by rw [iterList_eq, iterList_eq, hl]
          have hnil : src' = [] ↔ src = [] := by
            rw [← List.length_eq_zero_iff, ← List.length_eq_zero_iff, ← listing_len hf.left, ← listing_len hf.right, hl]
          by_cases hne : src = []
          · rw [if_pos hne, if_pos (hnil.mpr hne)]; exact ⟨hrefl _, rfl⟩
          rw [if_neg hne, if_neg (fun h => hne (hnil.mp h))]
          have est : (if s.hashes ≠ [] then { s with hashes := pruneHashes s.hashes (listHashes (iterList src)) } else s)
              = { s with hashes := leftHashes s src } := by
            unfold leftHashes; split <;> rfl
          rw [hi, est]
          obtain ⟨dst, k1, -⟩ := hsites.scan env.lib (leftHashes s src) (fun t ht => hh t (leftHashes_sub ht))
          have hdw : WF dst := (fromDisk_found' hsites.proper k1).1
          obtain ⟨g, cmp, a1, -, a3, a4⟩ := compare_spec (pairHeap dst src) 0 1 (by decide) hdw hf.left
          obtain ⟨g', cmp', b1, -, b3, b4⟩ := compare_spec (pairHeap dst src') 0 1 (by decide) hdw hf.right
          have hl' : listing (pairHeap dst src' 1).dict = listing (pairHeap dst src 1).dict := hl.symm
          have hr' : listing (pairHeap dst src' 0).dict = listing (pairHeap dst src 0).dict := rfl
          rw [hl', hr'] at b3
          have lu := listing_ext b4.updated a4.updated (fun u r => (b3.updated u r).trans (a3.updated u r).symm)
          have ld := listing_ext b4.deleted a4.deleted (fun u r => (b3.deleted u r).trans (a3.deleted u r).symm)
          have lc := listing_ext b4.created a4.created (fun u r => (b3.created u r).trans (a3.created u r).symm)
          have nu : cmp'.updated.length = cmp.updated.length := by rw [← listing_len b4.updated, lu, listing_len a4.updated]
          have nd : cmp'.deleted.length = cmp.deleted.length := by rw [← listing_len b4.deleted, ld, listing_len a4.deleted]
          have nc : cmp'.created.length = cmp.created.length := by rw [← listing_len b4.created, lc, listing_len a4.created]
          simp only [k1, a1, b1, nu, nd, nc]
          split
          · exact ⟨hrefl _, rfl⟩
          · have e : baselineSync { env with sources := Sources.ofDocs docAt' mapper multi uw } c allow_deletion src' cmp' { s with hashes := leftHashes s src } =
                baselineSync env c allow_deletion src cmp' { s with hashes := leftHashes s src } := by
              have ha : baselineAuthority c src' = baselineAuthority c src := by unfold baselineAuthority; rw [hi]
              have hd : deleteOne { env with sources := Sources.ofDocs docAt' mapper multi uw } c allow_deletion = deleteOne env c allow_deletion := rfl
              have hs : ∀ t, storeState { env with sources := Sources.ofDocs docAt' mapper multi uw } c t = storeState env c t := fun _ => rfl
              unfold baselineSync
              simp only [ha, updateOne_sources, hd, hs]
            rw [e]
            exact baselineSync_same env c allow_deletion src lc lu ld (hrefl _)

namespace OrderSourceExample
open SitesExample

def item (u : String) : Elem := .mk (smTag "url") [] none [.mk (smTag "loc") [] (some u.toList) [], .mk (smTag "lastmod") [] (some "2013-01-03".toList) []]

def list (es : List Elem) : Elem :=
  .mk (smTag "urlset") [] none (.mk (rsTag "md") [("capability".toList, "resourcelist".toList)] none [] :: es)

/-- the list of a site, and the same with the entries the other way round -/
def one : Str → Option Elem := fun u => if u = "http://s/rl.xml".toList then some (list [item "http://s/a", item "http://t/x/b"]) else none

def other : Str → Option Elem := fun u => if u = "http://s/rl.xml".toList then some (list [item "http://t/x/b", item "http://s/a"]) else none

theorem reordered : SiteReordered one other := by
  intro u
  by_cases h : u = "http://s/rl.xml".toList
  · refine .inr ⟨_, _, if_pos h, if_pos h, rfl, [_], [item "http://s/a", item "http://t/x/b"], [item "http://t/x/b", item "http://s/a"], rfl, rfl,
      List.Perm.swap _ _ _, ?_⟩
    intro e he
    have : e.tag = smTag "url" := by
      simp only [List.mem_cons, List.not_mem_nil, or_false] at he
      rcases he with rfl | rfl <;> rfl
    rw [this]
    decide
  · exact .inl ⟨if_neg h, if_neg h⟩

def env3 : Env := { env2 with sources := Sources.ofDocs one [mS, mT] true (fun _ => false) }

example (allow audit : Bool) :
    (baselineOrAudit { env3 with sources := Sources.ofDocs other [mS, mT] true (fun _ => false) } cfg2 allow audit s2).1.trace =
      (baselineOrAudit env3 cfg2 allow audit s2).1.trace :=
  (C115_sync env3 one other [mS, mT] true (fun _ => false) rfl reordered cfg2 allow audit s2 two sites2 (by intro t h; cases h)).2.1

/-- the dictionaries read are in different orders -/
example : (findResourceList (Sources.ofDocs one [mS, mT] true (fun _ => false)) cfg2.disc).2.toOption.map dkeys = some ["http://s/a".toList, "http://t/x/b".toList] ∧
    (findResourceList (Sources.ofDocs other [mS, mT] true (fun _ => false)) cfg2.disc).2.toOption.map dkeys = some ["http://t/x/b".toList, "http://s/a".toList] := by
  decide +kernel

/-- … and there is plenty to do -/
example : 6 < (baselineOrAudit env3 cfg2 true false s2).1.trace.length := by decide +kernel

end OrderSourceExample

end Resync
