import Verif.Proofs.Separate
/-
C124: syncs to separate destinations do not get in each other's way.
-/

namespace Resync
open Py Resync.Spec

theorem separate_inside {j k : Job} (hs : j.Separate k) {l : Loc} (hl : NearSites k.sites l) : ¬ Inside j.sites l := by
  rintro ⟨p, hp, names, -, rfl⟩
  obtain ⟨q, hq, h | h⟩ := hl
  · rcases List.prefix_or_prefix_of_prefix h (List.prefix_append p.2 names) with h' | h'
    · exact (hs p hp q hq).2 h'
    · exact (hs p hp q hq).1 h'
  · exact (hs p hp q hq).1 ((List.prefix_append p.2 names).trans h)

/-- one half of C124: what the second sync leaves -/
theorem separate_second {j k : Job} {fs x xy y : Fs} (hj : j.Fits fs) (hk : k.Fits fs) (hs : j.Separate k)
    (h1 : j.Leaves fs x) (h2 : k.Leaves x xy) (h3 : k.Leaves fs y) : (∀ l, NearSites k.sites l → xy.get l = y.get l) ∧
    ∀ l, ¬ Inside k.sites l → xy.get l = x.get l := by
  have hout : ∀ l, NearSites k.sites l → ¬ Inside j.sites l := fun l => separate_inside hs
  have hkx : k.Fits x := leaves_fits hj hk (fun p hp => hout _ ⟨p, hp, .inl (List.prefix_refl _)⟩) h1
  exact ⟨leaves_same hk hkx (fun l hl => leaves_outside hj h1 l (hout l hl)) h3 h2, leaves_outside hkx h2⟩

/-- C124.  Two syncs, each a baseline sync or an incremental one from a given time on, whose destinations are separate (and exist), whether they end well or not: done in either order they leave the
same disk.  At the destinations of each of them this is what it leaves when it is the only one; everywhere else nothing has changed. -/
theorem C124_either_order (j k : Job) (fs x xy y yx : Fs) (hj : j.Fits fs) (hk : k.Fits fs) (hs : j.Separate k)
    (h1 : j.Leaves fs x) (h2 : k.Leaves x xy) (h3 : k.Leaves fs y) (h4 : j.Leaves y yx) :
    (∀ l, xy.get l = yx.get l) ∧ (∀ l, j.Owns l → xy.get l = x.get l) ∧ (∀ l, k.Owns l → xy.get l = y.get l) ∧
    ∀ l, ¬ j.Owns l → ¬ k.Owns l → xy.get l = fs.get l := by
  have hs' : k.Separate j := fun p hp q hq => (hs q hq p hp).symm
  obtain ⟨a1, a2⟩ := separate_second hj hk hs h1 h2 h3
  obtain ⟨b1, b2⟩ := separate_second hk hj hs' h3 h4 h1
  have near : ∀ {j : Job} {l}, j.Owns l → NearSites j.sites l := fun ⟨p, hp, h⟩ => ⟨p, hp, .inl h⟩
  have owns : ∀ {j : Job} {l}, Inside j.sites l → j.Owns l := by
    rintro j l ⟨p, hp, names, -, rfl⟩
    exact ⟨p, hp, List.prefix_append _ _⟩
  have hJ : ∀ l, j.Owns l → xy.get l = x.get l := fun l hl => a2 l (separate_inside hs' (near hl))
  have hK : ∀ l, k.Owns l → xy.get l = y.get l := fun l hl => a1 l (near hl)
  have hN : ∀ l, ¬ j.Owns l → ¬ k.Owns l → xy.get l = fs.get l := fun l n1 n2 => by
    rw [a2 l (fun h => n2 (owns h)), leaves_outside hj h1 l (fun h => n1 (owns h))]
  refine ⟨?_, hJ, hK, hN⟩
  intro l
  by_cases ol : j.Owns l
  · rw [hJ l ol, b1 l (near ol)]
  by_cases ok : k.Owns l
  · rw [hK l ok, b2 l (separate_inside hs (near ok))]
  · rw [hN l ol ok, b2 l (fun h => ol (owns h)), leaves_outside hk h3 l (fun h => ok (owns h))]

/-- C124: the results of the second one are also those it has on its own: it makes the same requests and changes, and ends in the same way
if what is in the state file is the same. -/
theorem C124_same_run (j k : Job) (fs x : Fs) (state : Option Str) (hj : j.Fits fs) (hk : k.Fits fs) (hs : j.Separate k) (h1 : j.Leaves fs x) :
    let run := fun fs => k.run (k.start fs state)
    (run x).2 = (run fs).2 ∧ (run x).1.trace = (run fs).1.trace ∧ (run x).1.world.state = (run fs).1.world.state := by
  have hout : ∀ l, NearSites k.sites l → ¬ Inside j.sites l := fun l => separate_inside hs
  have hkx : k.Fits x := leaves_fits hj hk (fun p hp => hout _ ⟨p, hp, .inl (List.prefix_refl _)⟩) h1
  have := run_same hk hkx (fun l hl => leaves_outside hj h1 l (hout l hl)) state
  exact ⟨this.1, this.2.1, this.2.2.1⟩

theorem separate_owns {j k : Job} (hs : j.Separate k) {l : Loc} (hj : j.Owns l) : ¬ k.Owns l := by
  rintro ⟨q, hq, h⟩
  obtain ⟨p, hp, h'⟩ := hj
  rcases List.prefix_or_prefix_of_prefix h h' with h1 | h1
  · exact (hs p hp q hq).2 h1
  · exact (hs p hp q hq).1 h1

theorem fits_leaves (j : Job) (fs : Fs) : ∃ x, j.Leaves fs x := ⟨_, none, rfl⟩

/-- C124 for any number of syncs: at the destinations of each there is afterwards what it leaves when it is the only one, and everywhere
else there is what there was. -/
theorem C124_any_number (js : List Job) : ∀ (fs out : Fs), (∀ j ∈ js, j.Fits fs) → js.Pairwise Job.Separate → DoneInTurn js fs out →
    (∀ j ∈ js, ∀ x, j.Leaves fs x → ∀ l, j.Owns l → out.get l = x.get l) ∧ ∀ l, (∀ j ∈ js, ¬ j.Owns l) → out.get l = fs.get l := by
  induction js with
  | nil =>
    intro fs out _ _ h
    cases h
    exact ⟨fun j hj => absurd hj List.not_mem_nil, fun _ _ => rfl⟩
  | cons j js ih =>
    intro fs out hf hp h
    cases h with
    | @next _ _ _ x _ h1 h2 =>
      obtain ⟨hsep, hp'⟩ := List.pairwise_cons.mp hp
      have hj := hf j List.mem_cons_self
      have hk : ∀ k ∈ js, k.Fits fs := fun k hk => hf k (List.mem_cons_of_mem _ hk)
      have hkx : ∀ k ∈ js, k.Fits x := fun k hk' =>
        leaves_fits hj (hk k hk') (fun p hp => separate_inside (hsep k hk') ⟨p, hp, .inl (List.prefix_refl _)⟩) h1
      obtain ⟨i1, i2⟩ := ih x out hkx hp' h2
      constructor
      · intro k hk' y hy l hl
        rcases List.mem_cons.mp hk' with rfl | hk'
        · rw [i2 l (fun m hm => separate_owns (hsep m hm) hl)]
          obtain ⟨p, hp, hl⟩ := hl
          exact leaves_same hj hj (fun _ _ => rfl) hy h1 l ⟨p, hp, .inl hl⟩
        · obtain ⟨z, hz⟩ := fits_leaves k x
          rw [i1 k hk' z hz l hl]
          obtain ⟨p, hp, hl⟩ := hl
          exact (separate_second hj (hk k hk') (hsep k hk') h1 hz hy).1 l ⟨p, hp, .inl hl⟩
      · intro l hl
        rw [i2 l (fun m hm => hl m (List.mem_cons_of_mem _ hm))]
        refine leaves_outside hj h1 l ?_
        rintro ⟨p, hp, names, -, rfl⟩
        exact hl j List.mem_cons_self ⟨p, hp, List.prefix_append _ _⟩

/-- C124: their order does not matter. -/
theorem C124_any_order (js js' : List Job) (hperm : js'.Perm js) (fs out out' : Fs) (hf : ∀ j ∈ js, j.Fits fs) (hp : js.Pairwise Job.Separate)
    (h : DoneInTurn js fs out) (h' : DoneInTurn js' fs out') : ∀ l, out'.get l = out.get l := by
  have sym : ∀ {j k : Job}, j.Separate k → k.Separate j := fun hs p hp q hq => (hs q hq p hp).symm
  have hp' : js'.Pairwise Job.Separate := hperm.symm.pairwise hp sym
  obtain ⟨a1, a2⟩ := C124_any_number js fs out hf hp h
  obtain ⟨b1, b2⟩ := C124_any_number js' fs out' (fun j hj => hf j (hperm.mem_iff.mp hj)) hp' h'
  intro l
  by_cases ho : ∃ j ∈ js, j.Owns l
  · obtain ⟨j, hj, ho⟩ := ho
    obtain ⟨x, hx⟩ := fits_leaves j fs
    rw [a1 j hj x hx l ho, b1 j (hperm.mem_iff.mpr hj) x hx l ho]
  · have hn : ∀ j ∈ js, ¬ j.Owns l := fun j hj h => ho ⟨j, hj, h⟩
    rw [a2 l hn, b2 l (fun j hj => hn j (hperm.mem_iff.mp hj))]

namespace SeparateExample
open SitesExample
open ClientExample (listOf)

def rlS : List Resource := [{ uri := "http://s/a".toList, timestamp := some 100, length := some 2 }]
def changesT : List Resource := [{ uri := "http://t/x/b/c".toList, timestamp := some 300, ts_datetime := some 300, change := some "created".toList },
  { uri := "http://t/x/old".toList, timestamp := some 301, ts_datetime := some 301, change := some "deleted".toList }]

def envOf (rs : List Resource) : Env := { env2 with
  sources := { resourceList := fun _ => some (listOf rs), sourceDescription := fun _ => none, capabilityList := fun _ => none } }

/-- one sync for each of the destinations of the example for several sites, the second one incremental -/
def jobS : Job where
  work := .baseline
  env := envOf rlS
  cfg := { disc := { mapper := [mS], sitemap_name := some "http://s/rl.xml".toList }, tries := 2, noauth := true }
  allow_deletion := true
  hashes := []
  sites := [(mS, ["d".toList])]

def jobT : Job where
  work := .incremental (some "http://t/x/cl.xml".toList) "1970-01-01T00:00:00Z".toList
  env := { envOf [] with changeList := fun _ => some changesT }
  cfg := { disc := { mapper := [mT], sitemap_name := some "http://t/x/rl.xml".toList }, tries := 2, noauth := true }
  allow_deletion := true
  hashes := []
  sites := [(mT, ["e".toList, "f".toList])]

theorem keyedOf {rs : List Resource} (h : (rs.map (·.uri)).Nodup) : ListsKeyed (envOf rs).sources := by
  intro u d hd
  have hd : some (listOf rs) = some d := hd
  cases hd
  refine ⟨?_, ?_⟩
  · simpa [listOf, List.map_map, Function.comp_def] using h
  · intro k r hm
    simp only [listOf, List.mem_map, Prod.mk.injEq] at hm
    obtain ⟨a, -, rfl, rfl⟩ := hm
    rfl

theorem fitsS : jobS.Fits fs2 where
  sites :=
    { mapper := rfl
      nonempty := by decide
      src := by unfold LiteralOrDot OneLine; decide
      dst := by unfold LiteralOrDot OneLine; decide
      place := by decide
      apart := .cons (by simp) .nil
      proper := sites2.proper
      names := sites2.names
      cwdNames := sites2.cwdNames
      notFile := fun p hp => sites2.notFile p (by simp only [jobS, List.mem_singleton] at hp; subst hp; simp [two]) }
  hashes := by intro t h; cases h
  keyed := keyedOf (by decide)
  below := by
    intro src h
    have e : (findResourceList jobS.env.sources jobS.cfg.disc).2 = .ok (listOf rlS) := by decide +kernel
    rw [e] at h
    cases h
    intro u r h
    simp only [listOf, rlS, List.map_cons, List.map_nil, List.mem_cons, Prod.mk.injEq, List.not_mem_nil, or_false] at h
    obtain ⟨rfl, -⟩ := h
    exact ⟨(mS, ["d".toList]), by simp [jobS], ["a".toList], by decide, ClientExample.plain (by unfold ProperName OneLine; decide), by decide⟩
  there := by decide

theorem fitsT : jobT.Fits fs2 where
  sites :=
    { mapper := rfl
      nonempty := by decide
      src := by unfold LiteralOrDot OneLine; decide
      dst := by unfold LiteralOrDot OneLine; decide
      place := by decide
      apart := .cons (by simp) .nil
      proper := sites2.proper
      names := sites2.names
      cwdNames := sites2.cwdNames
      notFile := fun p hp => sites2.notFile p (by simp only [jobT, List.mem_singleton] at hp; subst hp; simp [two]) }
  hashes := by intro t h; cases h
  keyed := keyedOf (by decide)
  below := by
    rintro changes ⟨uri, -, h⟩
    have h : some changesT = some changes := h
    cases h
    intro r hr
    simp only [changesT, List.mem_cons, List.not_mem_nil, or_false] at hr
    rcases hr with rfl | rfl
    · exact ⟨(mT, ["e".toList, "f".toList]), by simp [jobT], ["b".toList, "c".toList], by decide,
        ClientExample.plain (by unfold ProperName OneLine; decide), by decide⟩
    · exact ⟨(mT, ["e".toList, "f".toList]), by simp [jobT], ["old".toList], by decide,
        ClientExample.plain (by unfold ProperName OneLine; decide), by decide⟩
  there := by decide

theorem separateST : jobS.Separate jobT := by unfold Job.Separate; decide

def after (j : Job) (fs : Fs) : Fs := (j.run (j.start fs none)).1.world.fs

/-- C124 applies … -/
example : ∀ l, (after jobT (after jobS fs2)).get l = (after jobS (after jobT fs2)).get l :=
  (C124_either_order jobS jobT fs2 (after jobS fs2) _ (after jobT fs2) _ fitsS fitsT separateST ⟨none, rfl⟩ ⟨none, rfl⟩ ⟨none, rfl⟩
    ⟨none, rfl⟩).1

example (out out' : Fs) (h : DoneInTurn [jobS, jobT] fs2 out) (h' : DoneInTurn [jobT, jobS] fs2 out') : ∀ l, out'.get l = out.get l :=
  C124_any_order [jobS, jobT] [jobT, jobS] (.swap _ _ _) fs2 out out'
    (by intro j hj; simp only [List.mem_cons, List.not_mem_nil, or_false] at hj; rcases hj with rfl | rfl; exacts [fitsS, fitsT])
    (.cons (by intro k hk; simp only [List.mem_singleton] at hk; subst hk; exact separateST) (.cons (by simp) .nil)) h h'

example : DoneInTurn [jobS, jobT] fs2 (after jobT (after jobS fs2)) := .next ⟨none, rfl⟩ (.next ⟨none, rfl⟩ (.none _))

/-- … to syncs that both change something -/
example : (after jobT (after jobS fs2)).get ["d".toList, "a".toList] = some (.file [1, 2] 100) ∧
    (after jobT (after jobS fs2)).get ["d".toList, "old".toList] = none ∧
    (after jobT (after jobS fs2)).get ["e".toList, "f".toList, "b".toList, "c".toList] = some (.file [1, 2] 300) ∧
    (after jobT (after jobS fs2)).get ["e".toList, "f".toList, "old".toList] = none := by
  refine ⟨by decide +kernel, by decide +kernel, by decide +kernel, by decide +kernel⟩

end SeparateExample

end Resync
