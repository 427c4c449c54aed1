import Verif.Props.OrderSync
/-
C116: the order of mappings has no effect unless they overlap.
-/

namespace Resync
open Py Resync.Spec

theorem covers_get {a u : Str} (h : DotCovers a u) {i : Nat} {x : Char} (hx : (a ++ ['/'])[i]? = some x) (hd : x ≠ '.') :
    u[i]? = some x ∨ (i = a.length ∧ x = '/' ∧ u[i]? = none) := by
  obtain ⟨p, rest, rfl, hp, hr⟩ := h
  have hlen := DotEq.length hp
  rcases Nat.lt_or_ge i a.length with hlt | hge
  · rw [List.getElem?_append_left hlt] at hx
    left
    rw [List.getElem?_append_left (by omega)]
    exact DotEq.get hp hx hd
  · have : i < (a ++ ['/']).length := (List.getElem?_eq_some_iff.mp hx).1
    simp only [List.length_append, List.length_singleton] at this
    have hi : i = a.length := by omega
    subst hi
    simp only [List.getElem?_concat_length, Option.some.injEq] at hx
    subst hx
    rw [List.getElem?_append_right (by omega), hlen]
    rcases hr with rfl | ⟨t, rfl⟩
    · right; simp
    · left; simp

/-- nothing is covered by two bases that are apart -/
theorem apart_covers {a b u : Str} (h : Apart a b) (ha : DotCovers a u) : ¬ DotCovers b u := by
  intro hb
  obtain ⟨i, x, y, h1, h2, h3, h4, h5⟩ := h
  rcases covers_get ha h1 h4 with k | ⟨k1, k2, k3⟩
  · rcases covers_get hb h2 h5 with l | ⟨l1, l2, l3⟩
    · rw [k] at l; exact h3 (Option.some.inj l)
    · rw [k] at l3; cases l3
  · rcases covers_get hb h2 h5 with l | ⟨l1, l2, l3⟩
    · rw [k3] at l; cases l
    · exact h3 (k2.trans l2.symm)

/-- one of the two directions, for permuted mappings -/
theorem first_perm (f : Map → Except MapErr (Option Str)) (g : Mapper → Except MapErr Str)
    (hcons : ∀ m ms, g (m :: ms) = match f m with | .error e => .error e | .ok (some p) => .ok p | .ok none => g ms) {ms ms' : Mapper}
    (hp : ms.Perm ms') : (∀ m ∈ ms, ∃ o, f m = .ok o) → ms.Pairwise (fun a b => f a = .ok none ∨ f b = .ok none) → g ms = g ms' := by
  induction hp with
  | nil => intro _ _; rfl
  | cons m _ ih =>
    intro h1 h2
    rw [hcons, hcons, ih (fun x hx => h1 x (by simp [hx])) (List.pairwise_cons.mp h2).2]
  | swap a b t =>
    intro h1 h2
    have hab := (List.pairwise_cons.mp h2).1 a (by simp)
    obtain ⟨oa, ha⟩ := h1 a (by simp)
    obtain ⟨ob, hb⟩ := h1 b (by simp)
    rw [hcons, hcons, hcons, hcons, ha, hb]
    rw [ha, hb] at hab
    rcases hab with e | e
    · cases e; cases oa <;> rfl
    · cases e; cases ob <;> rfl
  | trans p1 _ ih1 ih2 =>
    intro h1 h2
    rw [ih1 h1 h2, ih2 (fun x hx => h1 x (p1.mem_iff.mpr hx)) ((p1.pairwise_iff (fun h => h.symm)).mp h2)]

theorem apart_translate {a b r r' u : Str} (ha : LiteralOrDot a) (hb : LiteralOrDot b) (h : Apart a b) (hu : OneLine u) :
    translate a r u = .ok none ∨ translate b r' u = .ok none := by
  by_cases hc : DotCovers a u
  · exact .inr ((translate_none_iff_dot hb hu).mpr (apart_covers h hc))
  · exact .inl ((translate_none_iff_dot ha hu).mpr hc)

/-- C116.  The file of a URI, and the URI of a file, do not depend on the order of mappings none of which covers what another one does: no
source is at or below another one (where a dot counts for any character), and the same for the destinations. -/
theorem C116_mapped (ms ms' : Mapper) (hp : ms.Perm ms') (u : Str) (hu : OneLine u) :
    ((∀ m ∈ ms, LiteralOrDot m.src_uri) → ms.Pairwise (fun a b => Apart a.src_uri b.src_uri) → Mapper.srcToDst ms' u = Mapper.srcToDst ms u) ∧
    ((∀ m ∈ ms, LiteralOrDot m.dst_path) → ms.Pairwise (fun a b => Apart a.dst_path b.dst_path) → Mapper.dstToSrc ms' u = Mapper.dstToSrc ms u) := by
  constructor
  · intro hl ha
    refine (first_perm (fun m => m.srcToDst u) (fun ms => Mapper.srcToDst ms u) (fun _ _ => rfl) hp
      (fun m hm => translate_ok_of_dot _ _ (hl m hm)) ?_).symm
    exact ha.imp_of_mem (fun hx hy h => apart_translate (hl _ hx) (hl _ hy) h hu)
  · intro hl ha
    refine (first_perm (fun m => m.dstToSrc u) (fun ms => Mapper.dstToSrc ms u) (fun _ _ => rfl) hp
      (fun m hm => translate_ok_of_dot _ _ (hl m hm)) ?_).symm
    exact ha.imp_of_mem (fun hx hy h => apart_translate (hl _ hx) (hl _ hy) h hu)

theorem safe_iff (ms : Mapper) : ms.isUnsafe = .ok false ↔ ∀ m ∈ ms, m.isUnsafe = .ok false := by
  induction ms with
  | nil => simp [Mapper.isUnsafe]
  | cons m ms ih =>
    unfold Mapper.isUnsafe
    cases h : m.isUnsafe with
    | error e => simp [h]
    | ok b => cases b <;> simp [h, ih]

/-- the client with its mappings in another order -/
def ClientCfg.remap (c : ClientCfg) (ms : Mapper) : ClientCfg := { c with disc := { c.disc with mapper := ms } }

theorem sites_remap {c : ClientCfg} {cwd : Loc} {sites sites' : List (Map × Loc)} {fs : Fs} (hp : sites'.Perm sites) (h : Sites c cwd sites fs) :
    Sites (c.remap (sites'.map Prod.fst)) cwd sites' fs where
  mapper := rfl
  nonempty := fun e => h.nonempty (by subst e; exact hp.symm.eq_nil)
  src p hq := h.src p (hp.mem_iff.mp hq)
  dst p hq := h.dst p (hp.mem_iff.mp hq)
  place p hq := h.place p (hp.mem_iff.mp hq)
  apart := (hp.pairwise_iff (fun ⟨x1, x2, x3, x4⟩ => ⟨x1.symm, x2.symm, x4, x3⟩)).mpr h.apart
  proper := h.proper
  names := h.names
  cwdNames := h.cwdNames
  notFile p hq := h.notFile p (hp.mem_iff.mp hq)

theorem forEach_congr {f g : St → Resource → St × Except ClientErr Unit} : ∀ (rs : List Resource), (∀ r ∈ rs, ∀ s, f s r = g s r) →
    ∀ s, forEach f rs s = forEach g rs s
  | [], _, _ => rfl
  | r :: rs, h, s => by
    unfold forEach
    rw [h r (by simp)]
    simp only [forEach_congr rs (fun x hx => h x (by simp [hx]))]

/-- C116.  A baseline sync or an audit of several sites, the list being told, makes the same requests and the same changes in the same order, with the same
result, in whatever order the sites are given. -/
theorem C116_sync (env : Env) (c : ClientCfg) (allow_deletion audit_only : Bool) (s : St) (sites sites' : List (Map × Loc))
    (hsites : Sites c env.cwd sites s.world.fs) (hp : sites'.Perm sites) (hsafe : c.disc.mapper.isUnsafe = .ok false)
    (list : Str) (hlist : c.disc.sitemap_name = some list) (hh : ∀ t ∈ s.hashes, HashType t) (hk : ListsKeyed env.sources)
    (hone : ∀ src, env.sources.resourceList list = some src → ∀ u r, (u, r) ∈ src → OneLine u) :
    let p := baselineOrAudit env c allow_deletion audit_only s
    let p' := baselineOrAudit env (c.remap (sites'.map Prod.fst)) allow_deletion audit_only s
    p'.2 = p.2 ∧ p'.1.trace = p.1.trace ∧ p'.1.world.state = p.1.world.state ∧ ∀ l, p'.1.world.fs.get l = p.1.world.fs.get l := by
  suffices SameEnd (baselineOrAudit env c allow_deletion audit_only s)
      (baselineOrAudit env (c.remap (sites'.map Prod.fst)) allow_deletion audit_only s) from
    ⟨this.2, this.1.trace, this.1.state, this.1.fs⟩
  have hsites' := sites_remap hp hsites
  have hrefl : ∀ t : St, SameMoment t t := fun t => ⟨fun _ => rfl, rfl, rfl, rfl, rfl⟩
  have hsafe' : (c.remap (sites'.map Prod.fst)).disc.mapper.isUnsafe = .ok false := by
    rw [safe_iff]
    rw [safe_iff, hsites.mapper] at hsafe
    intro m hm
    exact hsafe m ((hp.map _).mem_iff.mp hm)
  have hmap : ∀ u, OneLine u → (c.remap (sites'.map Prod.fst)).disc.mapper.srcToDst u = c.disc.mapper.srcToDst u := by
    intro u hu
    rw [hsites.mapper]
    refine (C116_mapped _ _ (hp.map _).symm u hu).1 ?_ ?_
    · intro m hm
      obtain ⟨q, hq, rfl⟩ := List.mem_map.mp hm
      exact (hsites.src q hq).1
    · rw [List.pairwise_map]
      exact hsites.apart.imp (fun x => x.1)
  have hm : c.disc.mapper ≠ [] := by rw [hsites.mapper]; simpa using hsites.nonempty
  have hm' : (c.remap (sites'.map Prod.fst)).disc.mapper ≠ [] := by rw [hsites'.mapper]; simpa using hsites'.nonempty
  have hfind : ∀ c : ClientCfg, c.disc.sitemap_name = some list → findResourceList env.sources c.disc = readResourceList env.sources list := by
    intro c h; unfold findResourceList; rw [h]
  have hif : ∀ b : Bool, (if b = true then Except.ok false else (Except.ok false : Except MapErr Bool)) = .ok false := by intro b; cases b <;> rfl
  unfold baselineOrAudit baselinePlan
  rw [if_neg hm, if_neg hm', hsafe, hsafe', hif, hfind c hlist, hfind (c.remap (sites'.map Prod.fst)) hlist]
  unfold readResourceList
  cases hsrc : env.sources.resourceList list with
  | none => exact ⟨hrefl _, rfl⟩
  | some src =>
    have hw : WF src := listsKeyed_WF hk hsrc
    simp only
    by_cases hne : src = []
    · rw [if_pos hne, if_pos hne]; exact ⟨hrefl _, rfl⟩
    rw [if_neg hne, if_neg hne]
    have est : (if s.hashes ≠ [] then { s with hashes := pruneHashes s.hashes (listHashes (iterList src)) } else s)
        = { s with hashes := leftHashes s src } := by
      unfold leftHashes; split <;> rfl
    rw [est]
    obtain ⟨dst, k1, k2⟩ := hsites.scan env.lib (leftHashes s src) (fun t ht => hh t (leftHashes_sub ht))
    obtain ⟨dst', k1', k2'⟩ := hsites'.scan env.lib (leftHashes s src) (fun t ht => hh t (leftHashes_sub ht))
    have hdw : WF dst := (fromDisk_found' hsites.proper k1).1
    have hdw' : WF dst' := (fromDisk_found' hsites.proper k1').1
    have hl : listing dst' = listing dst := by
      apply listing_ext hdw' hdw
      intro u r
      rw [k2, k2']
      simp only [hp.mem_iff]
      exact Iff.rfl
    obtain ⟨g, cmp, a1, -, a3, a4⟩ := compare_spec (pairHeap dst src) 0 1 (by decide) hdw hw
    obtain ⟨g', cmp', b1, -, b3, b4⟩ := compare_spec (pairHeap dst' src) 0 1 (by decide) hdw' hw
    have hl' : listing (pairHeap dst' src 0).dict = listing (pairHeap dst src 0).dict := hl
    have hr' : listing (pairHeap dst' src 1).dict = listing (pairHeap dst src 1).dict := rfl
    rw [hl', hr'] at b3
    have lu := listing_ext b4.updated a4.updated (fun u r => (b3.updated u r).trans (a3.updated u r).symm)
    have ld := listing_ext b4.deleted a4.deleted (fun u r => (b3.deleted u r).trans (a3.deleted u r).symm)
    have lc := listing_ext b4.created a4.created (fun u r => (b3.created u r).trans (a3.created u r).symm)
    have nu : cmp'.updated.length = cmp.updated.length := by rw [← listing_len b4.updated, lu, listing_len a4.updated]
    have nd : cmp'.deleted.length = cmp.deleted.length := by rw [← listing_len b4.deleted, ld, listing_len a4.deleted]
    have nc : cmp'.created.length = cmp.created.length := by rw [← listing_len b4.created, lc, listing_len a4.created]
    simp only [k1, k1', a1, b1, nu, nd, nc]
    split
    · exact ⟨hrefl _, rfl⟩
    · have osrc : ∀ r, r ∈ listing src → OneLine r.uri := fun r hr => hone src hsrc _ _ (mem_of_dget ((mem_listing hw).mp hr))
      have odst : ∀ r, r ∈ listing dst → OneLine r.uri := by
        intro r hr
        obtain ⟨p, hp, names, b, t, hne, hf, hu, -⟩ := (k2 _ _).mp ((mem_listing hdw).mp hr)
        rw [hu]
        exact oneLine_below (hsites.src p hp).2 (fun n hn => (names_of_file hsites.tidy hne hf n hn).2)
      have ou : ∀ r ∈ iterList cmp'.updated, OneLine r.uri := by
        intro r hr
        rcases (b3.updated _ _).mp ((mem_iterList b4.updated).mp hr) with h | ⟨h, -⟩
        · cases h
        · exact osrc r h
      have oc : ∀ r ∈ iterList cmp'.created, OneLine r.uri := by
        intro r hr
        rcases (b3.created _ _).mp ((mem_iterList b4.created).mp hr) with h | ⟨h, -⟩
        · cases h
        · exact osrc r h
      have od : ∀ r ∈ iterList cmp'.deleted, OneLine r.uri := by
        intro r hr
        rcases (b3.deleted _ _).mp ((mem_iterList b4.deleted).mp hr) with h | ⟨h, -⟩
        · cases h
        · exact odst r h
      have upd : ∀ r, OneLine r.uri → ∀ s, updateOne env (c.remap (sites'.map Prod.fst)) s r = updateOne env c s r := by
        intro r hr s
        unfold updateOne
        rw [hmap _ hr]
        rfl
      have del : ∀ r, OneLine r.uri → ∀ s, deleteOne env (c.remap (sites'.map Prod.fst)) allow_deletion s r = deleteOne env c allow_deletion s r := by
        intro r hr s
        unfold deleteOne
        rw [hmap _ hr]
        rfl
      have hsm : (c.remap (sites'.map Prod.fst)).disc.sitemap = c.disc.sitemap := by
        unfold DiscCfg.sitemap
        rw [hlist]
        show (match c.disc.sitemap_name with | some n => _ | none => _) = _
        rw [hlist]
      have ha : baselineAuthority (c.remap (sites'.map Prod.fst)) src = baselineAuthority c src := by
        unfold baselineAuthority
        rw [hsm]
        rfl
      have hst : ∀ t, storeState env (c.remap (sites'.map Prod.fst)) t = storeState env c t := by
        intro t
        unfold storeState
        rw [hsm]
      have e : ∀ t, baselineSync env (c.remap (sites'.map Prod.fst)) allow_deletion src cmp' t = baselineSync env c allow_deletion src cmp' t := by
        intro t
        unfold baselineSync
        simp only [ha, hst, forEach_congr _ (fun r hr s => upd r (oc r hr) s), forEach_congr _ (fun r hr s => upd r (ou r hr) s),
          forEach_congr _ (fun r hr s => del r (od r hr) s)]
      rw [e]
      exact baselineSync_same env c allow_deletion src lc lu ld (hrefl _)

/-- The hypothesis is needed: of overlapping mappings the first one counts. -/
theorem C116_overlap : ∃ a b : Map, Mapper.srcToDst [a, b] "http://s/x/f".toList ≠ Mapper.srcToDst [b, a] "http://s/x/f".toList :=
  ⟨⟨"http://s".toList, "/d".toList⟩, ⟨"http://s/x".toList, "/e".toList⟩, by decide +kernel⟩

namespace MapOrderExample
open SitesExample

example (allow audit : Bool) : (baselineOrAudit env2 (cfg2.remap [mT, mS]) allow audit s2).1.trace = (baselineOrAudit env2 cfg2 allow audit s2).1.trace :=
  (C116_sync env2 cfg2 allow audit s2 two two.reverse sites2 (List.reverse_perm _) (by decide +kernel) "http://s/rl.xml".toList rfl (by intro t h; cases h) keyed2
    (by
      intro src h u r hur
      have : src = ClientExample.listOf rl := by
        simp only [env2, if_true] at h
        exact (Option.some.inj h).symm
      subst this
      have hu : u = "http://s/a".toList ∨ u = "http://t/x/b/c".toList := by
        simp only [ClientExample.listOf, rl, List.map_cons, List.map_nil, List.mem_cons, Prod.mk.injEq, List.not_mem_nil, or_false] at hur
        rcases hur with ⟨h, -⟩ | ⟨h, -⟩
        · exact .inl h
        · exact .inr h
      unfold OneLine
      rcases hu with rfl | rfl <;> decide)).2.1

end MapOrderExample

end Resync
