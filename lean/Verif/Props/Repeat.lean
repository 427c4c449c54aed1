import Verif.Proofs.Repeat
import Verif.Props.ClientProgress
import Mathlib.Tactic.Linarith
/-
C97: syncs that are interrupted can be repeated.
-/

namespace Resync
open Py Resync.Spec

section
variable {cwd : Loc} {sites : List (Map × Loc)} {content : Str → Bytes}

/-- what there may be: a file below a destination has a beginning of its resource's content -/
def MayBegin (sites : List (Map × Loc)) (content : Str → Bytes) (l : Loc) : FsNode → Prop
  | .dir => True
  | .file b _ => (∀ p ∈ sites, l ≠ p.2) ∧ ∀ p ∈ sites, ∀ names, l = p.2 ++ names → b <+: content (uriBelow p.1 names)

/-- and nothing is in the way, and times are not late -/
def MayStand (sites : List (Map × Loc)) (content : Str → Bytes) (places : Loc → Prop) (l : Loc) : FsNode → Prop
  | .dir => ¬ places l
  | .file b t => MayBegin sites content l (.file b t) ∧ (∀ q, places q → l <+: q → l = q) ∧
      ((∃ p ∈ sites, Within p.2 l) → Before10000 t)

theorem Spec.Sites.forMapper {c c' : ClientCfg} {fs : Fs} (h : Sites c cwd sites fs) (hm : c'.disc.mapper = sites.map Prod.fst) :
    Sites c' cwd sites fs := { h with mapper := hm }

theorem serves_prefix {env : Env} (h : OneContent env content) {tr : List Effect} {u : Str} {b : Bytes} {e : Option Failure}
    (hb : env.serve tr u = .body b e) : b <+: content u := by
  cases e with
  | none => rw [h.whole _ _ _ hb]; exact List.prefix_refl _
  | some e => exact h.part _ _ _ _ hb

theorem mayBegin_file {c : ClientCfg} {fs : Fs} (hs : Sites c cwd sites fs) {p : Map × Loc} (hp : p ∈ sites) {names : List Str}
    (hne : names ≠ []) {b : Bytes} {t : Rat} (hb : b <+: content (uriBelow p.1 names)) : MayBegin sites content (p.2 ++ names) (.file b t) := by
  constructor
  · intro q hq e
    obtain ⟨-, e'⟩ := hs.loc_inj hp hq (a := names) (b := []) (by rw [e, List.append_nil])
    exact hne e'
  · intro q hq names' e
    obtain ⟨rfl, rfl⟩ := hs.loc_inj hp hq e
    exact hb

theorem mayBegin_fetch {c : ClientCfg} {fs : Fs} {env : Env} (hs : Sites c cwd sites fs) (hcwd : env.cwd = cwd) (hv : OneContent env content)
    {r : Resource} (hr : Placed sites r.uri) {fn : Str} (hfn : c.disc.mapper.srcToDst r.uri = .ok fn) :
    MayFetch (MayBegin sites content) env r fn := by
  subst hcwd
  obtain ⟨p, hp, names, hne, hn, hu⟩ := hr
  obtain ⟨fn', h1, h2, h3⟩ := hs.maps hp hne hn
  rw [hu, h1] at hfn
  cases hfn
  refine ⟨h2, fun _ _ _ => trivial, ?_, ?_, ?_⟩
  · intro tr
    rw [h3]
    exact mayBegin_file hs hp hne (List.nil_prefix)
  · intro tr b e hb b' hb' tr'
    rw [h3]
    refine mayBegin_file hs hp hne ?_
    rw [hu] at hb
    exact hb'.trans (serves_prefix hv hb)
  · intro t ht b m hm
    exact hm

/-- the invariant over any number of attempts -/
theorem attempts_begin {c : ClientCfg} {w w' : World} (hs : Sites c cwd sites w.fs) (hb : Beginnings sites content w.fs)
    (h : Attempts (FaithfulRun cwd sites content) w w') : FsKeeps (MayBegin sites content) w'.fs := by
  have key : Inv (MayBegin sites content) (fun _ => True) w' := by
    induction h with
    | none =>
      refine ⟨⟨hs.tidy, ?_⟩, trivial⟩
      intro l n hl hg
      cases n with
      | dir => trivial
      | file b t =>
        refine ⟨?_, ?_⟩
        · rintro p hp rfl
          exact hs.notFile p hp ⟨b, t, hg⟩
        · rintro p hp names rfl
          exact hb p hp names b t hg
    | more _ h ih =>
      obtain ⟨env, c', s, hr, rfl, h⟩ := h
      have hs' := hs.forMapper hr.mapper
      rcases h with ⟨allow, audit, h⟩ | ⟨allow, uri, fd, h⟩
      · refine (kept_baseline env c' allow audit s (by rw [hr.cwd]; exact hs.cwdNames) (fun _ _ _ _ _ _ _ => trivial) ih hr.keyed ?_).left h
        intro src r hf hm fn hfn
        exact mayBegin_fetch hs' hr.cwd hr.serves (hr.listed src hf _ _ hm) hfn
      · refine (kept_incremental env c' allow uri fd s (by rw [hr.cwd]; exact hs.cwdNames) (fun _ _ _ _ _ _ _ => trivial) ih ?_).left h
        intro clUri cl r hf hm fn hfn
        exact mayBegin_fetch hs' hr.cwd hr.serves (hr.changed clUri cl hf r hm) hfn
  exact key.1

theorem attempts_sites {c : ClientCfg} {w w' : World} (hs : Sites c cwd sites w.fs) (h : FsKeeps (MayBegin sites content) w'.fs) :
    Sites c cwd sites w'.fs :=
  { hs with
    proper := h.tidy.proper
    names := h.tidy.names
    notFile := by
      rintro p hp ⟨b, t, hf⟩
      by_cases hl : p.2 = []
      · unfold IsFile at hf; rw [hl, get_root] at hf; cases hf
      · exact (h.nodes _ _ hl hf).1 p hp rfl }

/-- C97, at any time.  Sites mapped to directories of their own, in which files have the contents of their resources or beginnings of them
(there may be none at all); a server on which every resource has one content.  However often syncs and audits are started, with whatever
options, however they fail, and at whatever moments they are ended, also in the middle of writing a file: each file below the
destinations has a beginning of its resource's content. -/
theorem C97_beginnings (c : ClientCfg) (w w' : World) (hs : Sites c cwd sites w.fs) (hb : Beginnings sites content w.fs)
    (h : Attempts (FaithfulRun cwd sites content) w w') : Sites c cwd sites w'.fs ∧ Beginnings sites content w'.fs := by
  have hk := attempts_begin hs hb h
  refine ⟨attempts_sites hs hk, ?_⟩
  intro p hp names b t hf
  by_cases hl : p.2 ++ names = []
  · unfold IsFile at hf; rw [hl, get_root] at hf; cases hf
  · exact (hk.nodes _ _ hl hf).2 p hp names rfl

theorem prefix_same_length {a b : Bytes} (h : a <+: b) (hl : a.length = b.length) : a = b := h.eq_of_length hl

/-- C97, the part that holds.  After any such attempts, a baseline sync that succeeds (not a dry run, without ignore_failures, at
least one try, files can be unlinked) repairs whatever they have left, if the list states the lengths of the resources: every listed
resource's file has the content of the resource.  With deletion there is no other file below the destinations.
Missing: without the lengths the beginning of a file may be taken for the whole (C97_violated). -/
theorem C97_repaired_partial (env : Env) (c : ClientCfg) (allow_deletion : Bool) (s : St) (w : World) (src : Dict Resource)
    -- what there was, and what has been tried
    (hs : Sites c env.cwd sites w.fs) (hb : Beginnings sites content w.fs)
    (htried : Attempts (FaithfulRun env.cwd sites content) w s.world)
    -- the run that succeeds
    (hv : OneContent env content) (hh : ∀ t ∈ s.hashes, HashType t) (hk : ListsKeyed env.sources)
    (hfound : (findResourceList env.sources c.disc).2 = .ok src) (hreg : ListBelow sites src)
    (hlen : ∀ u r, (u, r) ∈ src → r.length = some ((content u).length : Int))
    (hd : c.dryrun = false) (hi : c.ignore_failures = false) (ht : 0 < c.tries) (hu : ∀ tr l, env.unlinkFails tr l = false)
    (hok : (baselineOrAudit env c allow_deletion false s).2 = .ok ()) :
    (∀ u r, (u, r) ∈ src → ∃ l t, MapsTo c env.cwd u l ∧ IsFile (baselineOrAudit env c allow_deletion false s).1.world.fs l (content u) t ∧
      ∀ x, r.timestamp = some x → t - x < 1 ∧ x - t < 1) ∧
    (allow_deletion = true → ∀ p ∈ sites, ∀ l, Within p.2 l → HasFile (baselineOrAudit env c allow_deletion false s).1.world.fs l →
      ∃ u r, (u, r) ∈ src ∧ MapsTo c env.cwd u l) := by
  obtain ⟨hs', hb'⟩ := C97_beginnings c w s.world hs hb htried
  obtain ⟨h1, h2⟩ := C50_sites_partial env c allow_deletion s sites src hs' hh hk hfound hreg hd hi ht hu hok
  have hw := found_WF hk hfound
  refine ⟨?_, h2⟩
  intro u r hr
  obtain ⟨l, hm, -, h⟩ := h1 u r hr
  have hru : r.uri = u := hw.2 _ _ (dget_of_mem hw.1 hr)
  rcases h with ⟨b, m, ⟨tr, -, hbody⟩, hf, hmt⟩ | ⟨b, m, hf0, hf, ⟨x, hx, hn1, hn2⟩, hl⟩
  · rw [hru] at hbody
    rw [hv.whole _ _ _ hbody] at hf
    refine ⟨l, m, hm, hf, ?_⟩
    intro x hx
    rw [hmt x hx]
    exact truncRat_near x
  · obtain ⟨p, hp, names, hne, hn, rfl⟩ := hreg u r hr
    obtain rfl := (hs'.mapsTo hp hne hn).mp hm
    have e : b = content (uriBelow p.1 names) := by
      refine prefix_same_length (hb' p hp names b m hf0) ?_
      have := hl _ (hlen _ _ hr)
      omega
    rw [e] at hf
    refine ⟨_, m, hm, hf, ?_⟩
    intro x' hx'
    rw [hx] at hx'
    cases hx'
    exact ⟨hn1, hn2⟩

theorem before_trunc {t : Rat} (h : Before10000 t) : Before10000 (truncRat t) := by
  have h1 := (truncRat_near t).1
  unfold Before10000 at h ⊢
  by_cases hn : 0 ≤ t.num
  · have hd : (0 : Rat) < t.den := by exact_mod_cast t.den_pos
    have e1 : t * t.den = t.num := Rat.mul_den_eq_num t
    have e2 : t.num = t.den * truncRat t + t.num.tmod t.den := (Int.mul_tdiv_add_tmod t.num t.den).symm
    have e3 : 0 ≤ t.num.tmod t.den := Int.tmod_nonneg _ hn
    have e4 : (t.den : Int) * truncRat t ≤ t.num := by omega
    have e5 : (t.den : Rat) * truncRat t ≤ t.num := by exact_mod_cast e4
    have : (truncRat t : Rat) ≤ t := by
      rw [← e1, mul_comm t] at e5
      exact le_of_mul_le_mul_left e5 hd
    linarith
  · have h0 : t < 0 := by
      rw [← Rat.num_neg]; omega
    linarith

theorem mayStand_fetch {c : ClientCfg} {fs : Fs} {env : Env} {places : Loc → Prop} (hs : Sites c cwd sites fs) (hcwd : env.cwd = cwd)
    (hv : OneContent env content) (hclock : ∀ tr, Before10000 (env.now tr)) (hapart : ∀ a b, places a → places b → a <+: b → a = b)
    {r : Resource} (hr : Placed sites r.uri) (hin : ∀ p ∈ sites, ∀ names, names ≠ [] → (∀ n ∈ names, PlainName n) →
      r.uri = uriBelow p.1 names → places (p.2 ++ names))
    (htime : ∀ t, r.timestamp = some t → Before10000 t)
    {fn : Str} (hfn : c.disc.mapper.srcToDst r.uri = .ok fn) :
    MayFetch (MayStand sites content places) env r fn := by
  have hm := mayBegin_fetch hs hcwd hv hr hfn
  subst hcwd
  obtain ⟨p, hp, names, hne, hn, hu⟩ := hr
  obtain ⟨fn', h1, h2, h3⟩ := hs.maps_dir hp hne hn
  rw [hu, h1] at hfn
  cases hfn
  have hpl : places (p.2 ++ names) := hin p hp names hne hn hu
  have hfile : ∀ q, places q → location env.cwd fn <+: q → location env.cwd fn = q := by
    intro q hq
    rw [h2]
    exact hapart _ _ hpl hq
  refine ⟨hm.line, ?_, ?_, ?_, ?_⟩
  · intro pre hpre _ hin'
    rw [h3] at hpre
    have e := hapart _ _ hin' hpl (hpre.trans (List.dropLast_prefix _))
    have := hpre.length_le
    have hpos : 0 < names.length := List.length_pos_iff.mpr hne
    rw [e, List.length_dropLast, List.length_append] at this
    omega
  · intro tr
    exact ⟨hm.empty tr, hfile, fun _ => hclock tr⟩
  · intro tr b e hb b' hb' tr'
    exact ⟨hm.body tr b e hb b' hb' tr', hfile, fun _ => hclock tr'⟩
  · intro t ht b m hP
    exact ⟨hm.time t ht b m hP.1, hfile, fun _ => before_trunc (htime t ht)⟩

theorem attempts_stand {c : ClientCfg} {w w' : World} {ft : FloatText Rat} {places : Loc → Prop} (hs : Sites c cwd sites w.fs)
    (hb : Beginnings sites content w.fs) (hroom : FreeFor places w.fs)
    (hlate : ∀ p ∈ sites, ∀ names b t, IsFile w.fs (p.2 ++ names) b t → Before10000 t) (hown : OwnState ft w.state)
    (h : Attempts (OrderlyRun cwd sites content ft places) w w') : Inv (MayStand sites content places) (OwnState ft) w' := by
  induction h with
  | none =>
    refine ⟨⟨hs.tidy, ?_⟩, hown⟩
    intro l n hl hg
    cases n with
    | dir =>
      intro hp
      exact hroom.noDir l hp hg
    | file b t =>
      refine ⟨⟨?_, ?_⟩, ?_, ?_⟩
      · rintro p hp rfl
        exact hs.notFile p hp ⟨b, t, hg⟩
      · rintro p hp names rfl
        exact hb p hp names b t hg
      · intro q hq hlq
        by_contra hne
        exact hroom.noFile q hq l hlq hne ⟨b, t, hg⟩
      · rintro ⟨p, hp, names, rfl⟩
        exact hlate p hp names b t hg
  | more _ h ih =>
    obtain ⟨env, c', s, hr, rfl, h⟩ := h
    have hs' := hs.forMapper hr.mapper
    have hq : KeepsState (OwnState ft) env c' := by
      intro site file t file' h1 h2 h3
      rw [hr.text] at h3
      exact OwnState_set h2 (hr.named site h1) h3
    rcases h with ⟨allow, audit, h⟩ | ⟨allow, uri, fd, h⟩
    · refine (kept_baseline env c' allow audit s (by rw [hr.cwd]; exact hs.cwdNames) hq ih hr.keyed ?_).left h
      intro src r hf hm fn hfn
      refine mayStand_fetch hs' hr.cwd hr.serves hr.clock hroom.apart (hr.listed src hf _ _ hm) ?_ (hr.listedTimes src hf _ _ · hm) hfn
      intro p hp names h1 h2 h3
      exact hr.listedIn src hf _ ⟨p, hp, names, h1, h2, rfl, r, h3 ▸ hm⟩
    · refine (kept_incremental env c' allow uri fd s (by rw [hr.cwd]; exact hs.cwdNames) hq ih ?_).left h
      intro clUri cl r hf hm fn hfn
      refine mayStand_fetch hs' hr.cwd hr.serves hr.clock hroom.apart (hr.changed clUri cl hf r hm) ?_ (hr.changedTimes clUri cl hf r hm) hfn
      intro p hp names _ _ h3
      exact hr.changedIn clUri cl hf r hm p hp names h3

/-- C97, getting there in the end.  There is room for all the files that are ever published; whatever has been tried before: when
the server delivers each listed resource within the number of tries the client makes, and the disk does what it is asked, the next
baseline sync succeeds, and then (if the list states lengths) every listed resource's file has the content of the resource. -/
theorem C97_finishes_partial (env : Env) (hft : FloatOk env.ft) (c : ClientCfg) (allow_deletion : Bool) (s : St) (w : World)
    (src : Dict Resource) (places : Loc → Prop)
    -- what there was, and what has been tried
    (hs : Sites c env.cwd sites w.fs) (hb : Beginnings sites content w.fs) (hroom : FreeFor places w.fs)
    (hlate : ∀ p ∈ sites, ∀ names b t, IsFile w.fs (p.2 ++ names) b t → Before10000 t) (hown : OwnState env.ft w.state)
    (htried : Attempts (OrderlyRun env.cwd sites content env.ft places) w s.world)
    -- the last run
    (hrun : OrderlyRun env.cwd sites content env.ft places env c) (hh : ∀ t ∈ s.hashes, HashType t)
    (hfound : (findResourceList env.sources c.disc).2 = .ok src) (hne : src ≠ [])
    (hlen : ∀ u r, (u, r) ∈ src → r.length = some ((content u).length : Int))
    (site : Str) (hset : SetUp c site) (hdisk : DiskWorks env)
    (hauth : c.noauth = true ∨ ∀ u r, (u, r) ∈ src → Authorised c.strictauth site u)
    (hserve : ∀ u r, (u, r) ∈ src → Delivers env c.tries u) :
    (baselineOrAudit env c allow_deletion false s).2 = .ok () ∧
    ∀ u r, (u, r) ∈ src → ∃ l t, MapsTo c env.cwd u l ∧ IsFile (baselineOrAudit env c allow_deletion false s).1.world.fs l (content u) t := by
  have hst := attempts_stand hs hb hroom hlate hown htried
  have htried' : Attempts (FaithfulRun env.cwd sites content) w s.world := by
    have : ∀ w', Attempts (OrderlyRun env.cwd sites content env.ft places) w w' → Attempts (FaithfulRun env.cwd sites content) w w' := by
      intro w' h
      induction h with
      | none => exact .none
      | more _ h ih =>
        obtain ⟨e, c', s', hr, h⟩ := h
        exact .more ih ⟨e, c', s', hr.toFaithfulRun, h⟩
    exact this _ htried
  obtain ⟨hs', hb'⟩ := C97_beginnings c w s.world hs hb htried'
  have hreg : ListBelow sites src := hrun.listed src hfound
  have hnode : ∀ l b t, IsFile s.world.fs l b t → MayStand sites content places l (.file b t) := by
    intro l b t hf
    refine hst.1.nodes l _ ?_ hf
    rintro rfl
    unfold IsFile at hf; rw [get_root] at hf; cases hf
  obtain ⟨ops, hops, hstate⟩ := hst.2
  have hok := C79_sites_succeed_partial env hft c allow_deletion s sites src hs' hh hrun.keyed hset.safe hfound hne hreg site hset.source hset.named
    hauth hset.real hserve hdisk.mkdir hdisk.openW ⟨?_, ?_, ?_⟩ (hrun.listedTimes src hfound) ?_ ops hops hstate
  · refine ⟨hok, ?_⟩
    intro u r hr
    obtain ⟨l, t, h1, h2, -⟩ := (C97_repaired_partial env c allow_deletion s w src hs hb htried' hrun.serves hh hrun.keyed hfound hreg hlen hset.real
      hset.strict hset.tries hdisk.unlink hok).1 u r hr
    exact ⟨l, t, h1, h2⟩
  · intro a b ha hb
    exact hroom.apart a b (hrun.listedIn src hfound a ha) (hrun.listedIn src hfound b hb)
  · intro l hl hg
    have hp := hrun.listedIn src hfound l hl
    by_cases h0 : l = []
    · subst h0
      exact hroom.noDir [] hp (get_root _)
    · exact hst.1.nodes l _ h0 hg hp
  · rintro l hl p hpl hne ⟨b, t, hf⟩
    exact hne ((hnode p b t hf).2.1 l (hrun.listedIn src hfound l hl) hpl)
  · intro p hp names b t hf
    exact (hnode _ b t hf).2.2 ⟨p, hp, List.prefix_append _ _⟩

end

namespace ClientExample

theorem env_oneContent (rl cl : List Resource) (b : Bytes) : OneContent (env rl cl b) (fun _ => b) where
  whole := by intro tr u b' h; cases h; rfl
  part := by intro tr u b' e h; cases h

theorem env_found {rl : List Resource} {cl : List Resource} {b : Bytes} {src : Dict Resource}
    (h : (findResourceList (env rl cl b).sources cfg.disc).2 = .ok (listOf rl))
    (hf : (findResourceList (env rl cl b).sources cfg.disc).2 = .ok src) : src = listOf rl := by
  rw [h] at hf; cases hf; rfl

/-- two files, with lengths -/
def twoFiles : List Resource := [resLen "a" 1000 2, resLen "b/x" 200 2]

theorem two_placed : ∀ u r, (u, r) ∈ listOf twoFiles → Placed [(⟨base, "/d".toList⟩, ["d".toList])] u := by
  intro u r h
  simp only [twoFiles, listOf, List.map_cons, List.map_nil, List.mem_cons, Prod.mk.injEq, List.not_mem_nil, or_false] at h
  rcases h with ⟨rfl, -⟩ | ⟨rfl, -⟩
  · exact ⟨_, List.mem_singleton.mpr rfl, ["a".toList], by decide, plain (by decide), by decide +kernel⟩
  · exact ⟨_, List.mem_singleton.mpr rfl, ["b".toList, "x".toList], by decide, plain (by decide), by decide +kernel⟩

/-- the places of the two files -/
def twoPlaces (l : Loc) : Prop := l = at_ "a" ∨ l = ["d".toList, "b".toList, "x".toList]

theorem two_run : OrderlyRun [] [(⟨base, "/d".toList⟩, ["d".toList])] (fun _ => [1, 2]) ratFt twoPlaces (env twoFiles [] [1, 2]) cfg where
  cwd := rfl
  mapper := rfl
  serves := env_oneContent _ _ _
  keyed := env_keyed _ _ _ (by decide)
  listed := by
    intro src h
    rw [env_found (by decide +kernel) h]
    exact two_placed
  changed := by
    intro u cl h r hr
    simp only [env] at h
    split at h
    · cases h; cases hr
    · cases h
  text := rfl
  named := by
    intro site h
    have : cfg.disc.sitemap = .ok (uri "rl.xml") := by decide +kernel
    rw [this] at h
    cases h
    decide
  clock := by intro tr; show Before10000 1000; decide +kernel
  listedIn := by
    intro src h
    rw [env_found (by decide +kernel) h]
    rintro l ⟨p, hp, names, h1, h2, rfl, r, hr⟩
    rw [List.mem_singleton] at hp
    subst hp
    simp only [twoFiles, listOf, List.map_cons, List.map_nil, List.mem_cons, Prod.mk.injEq, List.not_mem_nil, or_false] at hr
    rcases hr with ⟨hr, -⟩ | ⟨hr, -⟩
    · rw [uriBelow_inj h1 (b := ["a".toList]) (by decide) (fun n hn => (h2 n hn).1) (by decide) hr]
      exact .inl rfl
    · rw [uriBelow_inj h1 (b := ["b".toList, "x".toList]) (by decide) (fun n hn => (h2 n hn).1) (by decide) hr]
      exact .inr rfl
  listedTimes := by
    intro src h u r t hr ht
    rw [env_found (by decide +kernel) h] at hr
    simp only [twoFiles, listOf, List.map_cons, List.map_nil, List.mem_cons, Prod.mk.injEq, List.not_mem_nil, or_false] at hr
    rcases hr with ⟨-, rfl⟩ | ⟨-, rfl⟩ <;> cases ht <;> decide +kernel
  changedIn := by
    intro u cl h r hr
    simp only [env] at h
    split at h
    · cases h; cases hr
    · cases h
  changedTimes := by
    intro u cl h r hr
    simp only [env] at h
    split at h
    · cases h; cases hr
    · cases h

/-- a process ended in the middle of writing the first file: one byte is there -/
def cutWorld : World := { fs := (at_ "a", .file [1] 1000) :: disk [] }

theorem cut_left : LeftBy (start []) (baselineOrAudit (env twoFiles [] [1, 2]) cfg true false (start [])).1 cutWorld := by
  refine .inr ⟨2, at_ "a", [1, 2], [1], by decide +kernel, by decide, ?_⟩
  rfl

theorem disk_empty (p : Loc) (b : Bytes) (t : Rat) : ¬ IsFile (disk []) p b t := by
  intro h
  unfold IsFile at h
  by_cases h0 : p = []
  · rw [h0, get_root] at h; cases h
  · have := mem_of_get h0 h
    simp [disk] at this

/-- the hypotheses of C97_finishes_partial are met by a sync that is ended in the middle of writing a file, and repeated: the file, whose
time agrees with the list, is found too short, and fetched again -/
example : ∃ r, r = baselineOrAudit (env twoFiles [] [1, 2]) cfg true false { world := cutWorld } ∧ r.2 = .ok () ∧
    ∀ u x, (u, x) ∈ listOf twoFiles → ∃ l t, MapsTo cfg [] u l ∧ IsFile r.1.world.fs l [1, 2] t := by
  refine ⟨_, rfl, ?_⟩
  refine C97_finishes_partial (sites := [(⟨base, "/d".toList⟩, ["d".toList])]) (content := fun _ => [1, 2]) (env twoFiles [] [1, 2]) ratFt_ok cfg true
    { world := cutWorld } (start []).world (listOf twoFiles) twoPlaces
    (site [] (properFs_of (by decide) (by decide) (by decide) (by decide)) (by decide)).sites
    (fun p _ names b t hf => absurd hf (disk_empty _ b t)) ⟨?_, ?_, ?_⟩ (fun p _ names b t hf => absurd hf (disk_empty _ b t)) ⟨[], by simp, rfl⟩
    (.more .none ⟨_, cfg, start [], two_run, rfl, .inl ⟨true, false, cut_left⟩⟩) two_run (by simp) (by decide +kernel) (by decide) ?_ (uri "rl.xml")
    ⟨by decide +kernel, by decide +kernel, by decide, rfl, rfl, by decide⟩ ⟨fun _ _ => rfl, fun _ _ => rfl, fun _ _ => rfl⟩ (.inr ?_)
    (fun _ _ _ => delivers_always (by decide) (fun _ => ⟨_, rfl⟩))
  · rintro a b (rfl | rfl) (rfl | rfl) h
    · rfl
    · exact absurd h (by decide)
    · exact absurd h (by decide)
    · rfl
  · rintro l (rfl | rfl) <;> decide
  · rintro l (rfl | rfl) p _ _ ⟨b, t, hf⟩
    · exact disk_empty _ b t hf
    · exact disk_empty _ b t hf
  · intro u r h
    simp only [twoFiles, listOf, List.map_cons, List.map_nil, List.mem_cons, Prod.mk.injEq, List.not_mem_nil, or_false] at h
    rcases h with ⟨-, rfl⟩ | ⟨-, rfl⟩ <;> rfl
  · intro u r h
    simp only [twoFiles, listOf, List.map_cons, List.map_nil, List.mem_cons, Prod.mk.injEq, List.not_mem_nil, or_false] at h
    rcases h with ⟨rfl, -⟩ | ⟨rfl, -⟩ <;> exact ⟨_, rfl, by decide +kernel⟩

/-- what happens in it: the byte that is there, and the files after the second run -/
example : cutWorld.fs.get (at_ "a") = some (.file [1] 1000) ∧
    (let r := baselineOrAudit (env twoFiles [] [1, 2]) cfg true false { world := cutWorld }
     r.1.world.fs.get (at_ "a") = some (.file [1, 2] 1000) ∧
     r.1.world.fs.get ["d".toList, "b".toList, "x".toList] = some (.file [1, 2] 200)) := by
  decide +kernel

/-- Violated without lengths: the sync of a resource that has just changed (its time is that of the clock) is interrupted when half
of it has been written.  The next sync takes the half for the whole, succeeds and does nothing. -/
theorem C97_violated :
    let e := env [res "a" 1000] [] [1, 2]
    let w : World := { fs := (at_ "a", .file [1] 1000) :: disk [] }
    let r := baselineOrAudit e cfg true false { world := w }
    LeftBy (start []) (baselineOrAudit e cfg true false (start [])).1 w ∧ (∀ tr u, e.serve tr u = .body [1, 2] none) ∧
    r.2 = .ok () ∧ doneBetween { world := w } r.1 = [] ∧ IsFile r.1.world.fs (at_ "a") [1] 1000 := by
  refine ⟨.inr ⟨2, at_ "a", [1, 2], [1], by decide +kernel, by decide, rfl⟩, fun _ _ => rfl, ?_⟩
  unfold IsFile doneBetween
  decide +kernel

end ClientExample

end Resync
