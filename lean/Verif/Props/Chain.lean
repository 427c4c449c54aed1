import Verif.Props.Mirror
import Verif.Spec.Chain
/-
C113: mirrors of mirrors.
-/

namespace Resync
open Py Resync.Spec

/-- One hop of a chain: the directory `cs` is published with the settings `c`, its list and files are served, a baseline sync
at a place without files succeeds, and `cs'` is what is then at that place. -/
inductive Hop (c : WriteCfg) (cs cs' : List FNode) : Prop
  | mk {wenv : WriteEnv} {m : Map} {f : Str} {links : Option (List Link)} {before : Str → Option FileState} {cc : ClientCfg}
      {env : Env} {mm : Map} (h : Mirror c wenv m cs f links before cc env mm) (hserve : Honest c m cs env) (s : St) (root : Loc)
      (hone : OneSite cc env.cwd mm root s.world.fs) (hh : ∀ t ∈ s.hashes, HashType t) (allow_deletion : Bool)
      (hd : cc.dryrun = false) (hi : cc.ignore_failures = false) (ht : 0 < cc.tries) (hu : ∀ tr l, env.unlinkFails tr l = false)
      (hempty : ∀ l, Within root l → ¬ HasFile s.world.fs l)
      (hok : (baselineOrAudit env cc allow_deletion false s).2 = .ok ())
      (hsame : FilesAt cs' root (baselineOrAudit env cc allow_deletion false s).1.world.fs)

/-- a chain of mirrors from the directory `cs` to the directory `cs'`, with the settings of each publisher -/
inductive Chain : List FNode → List WriteCfg → List FNode → Prop
  | here (cs : List FNode) : Chain cs [] cs
  | hop {c : WriteCfg} {cfgs : List WriteCfg} {cs cs1 cs' : List FNode} : Hop c cs cs1 → Chain cs1 cfgs cs' → Chain cs (c :: cfgs) cs'

theorem truncRat_int (n : Int) : truncRat (n : Rat) = n := by
  unfold truncRat
  simp

theorem truncRat_toward (x : Rat) : (0 ≤ x → (truncRat x : Rat) ≤ x) ∧ (x ≤ 0 → x ≤ (truncRat x : Rat)) := by
  have hd : (0 : Rat) < x.den := by exact_mod_cast x.den_pos
  have h1 : x * x.den = x.num := Rat.mul_den_eq_num x
  have h2 : x.num = x.den * truncRat x + x.num.tmod x.den := (Int.mul_tdiv_add_tmod x.num x.den).symm
  have h4 : ((x.num.tmod x.den : Int) : Rat) = (x - truncRat x) * x.den := by
    have : (x.num : Rat) = x.den * truncRat x + (x.num.tmod x.den : Int) := by exact_mod_cast h2
    linarith [this, h1]
  constructor
  · intro h
    have : 0 ≤ x.num.tmod x.den := Int.tmod_nonneg _ (Rat.num_nonneg.mpr h)
    have h5 : (0 : Rat) ≤ (x - truncRat x) * x.den := by rw [← h4]; exact_mod_cast this
    have := nonneg_of_mul_nonneg_left h5 hd
    linarith
  · intro h
    have h6 : 0 ≤ (-x.num).tmod x.den := Int.tmod_nonneg _ (by have := Rat.num_nonpos.mpr h; omega)
    rw [Int.neg_tmod] at h6
    have h5 : (0 : Rat) ≤ (truncRat x - x) * x.den := by
      have : (0 : Rat) ≤ ((-(x.num.tmod x.den) : Int) : Rat) := by exact_mod_cast h6
      rw [Int.cast_neg, h4] at this
      linarith
    have := nonneg_of_mul_nonneg_left h5 hd
    linarith

/-- what a hop makes of a file -/
structure Hopped (st st' : Stat) : Prop where
  content : ∃ b, st.content = some b ∧ st'.content = some b
  settled : WholeStat st'
  near : st'.mtime - st.mtime < 1 + 1 / 1000000 ∧ st.mtime - st'.mtime < 1 + 1 / 1000000
  years : InYears st'.mtime
  same : WholeStat st → st' = st

theorem hop_facts {c : WriteCfg} {cs cs' : List FNode} (hop : Hop c cs cs') :
    (∀ names st, Eligible (ExcludedBy c) cs names st → ∃ st', HasEntry cs' names st' ∧ Hopped st st') ∧
    (∀ names st', HasEntry cs' names st' → ∃ st, Eligible (ExcludedBy c) cs names st ∧ Hopped st st') := by
  cases hop with
  | @mk wenv m f links before cc env mm h hserve s root hone hh allow_deletion hd hi ht hu hempty hok hsame =>
  obtain ⟨hk, src, hfound, hw, hdesc, hreg⟩ := h.finds
  have key : ∀ names st, Eligible (ExcludedBy c) cs names st → ∃ b t,
      IsFile (baselineOrAudit env cc allow_deletion false s).1.world.fs (root ++ names) b t ∧
      Hopped st { mtime := t, size := b.length, content := some b } := by
    intro names st he
    obtain ⟨e, h1, h2⟩ := hdesc.complete names st he
    obtain ⟨hne, hn, hu'⟩ := h.plain he
    obtain ⟨l, h3, b, t, h4, h5, h6⟩ := C50_first_sync env cc allow_deletion s mm root src hone hh hk hfound hreg hd hi ht hu hempty hok
      (siteUri m names) e (mem_of_dget h1)
    rw [hu', hone.mapsTo hne hn] at h3
    subst h3
    obtain ⟨pre, -, h7⟩ := h4
    rw [hw.2 _ _ h1] at h7
    have hc := hserve _ _ _ _ he h7
    have htime := h2.lastmod
    have hyears : InYears st.mtime := by
      obtain ⟨⟨nm, sp, hr⟩, -⟩ := he
      exact h.site.times _ _ _ _ hr
    cases hts : e.timestamp with
    | none => rw [hts] at htime; exact htime.elim
    | some x =>
      rw [hts] at htime
      obtain ⟨t1, t2⟩ := htime
      have ht := h6 x hts
      obtain ⟨t3, t4⟩ := truncRat_near x
      refine ⟨b, t, h5, ⟨b, hc, rfl⟩, ⟨⟨truncRat x, ht⟩, ?_⟩, ⟨by simp only [ht]; linarith, by simp only [ht]; linarith⟩, ?_, ?_⟩
      · intro b' hb'
        cases hb'; rfl
      · obtain ⟨y1, y2⟩ := hyears
        obtain ⟨w1, w2⟩ := truncRat_toward x
        show InYears t
        rw [ht]
        rcases le_total 0 x with hx | hx
        · have w := w1 hx
          have a1 : ((-1 : Int) : Rat) < truncRat x := by push_cast; linarith
          have a2 : (truncRat x : Rat) < ((253402300800 : Int) : Rat) := by push_cast; linarith
          have a3 := Int.cast_lt.mp a1
          have a4 := Int.cast_lt.mp a2
          have a5 : (0 : Rat) ≤ truncRat x := by exact_mod_cast (by omega : (0 : Int) ≤ truncRat x)
          have a6 : (truncRat x : Rat) ≤ 253402300799 := by exact_mod_cast (by omega : truncRat x ≤ (253402300799 : Int))
          constructor <;> linarith
        · have w := w2 hx
          have a1 : ((-62135596801 : Int) : Rat) < truncRat x := by push_cast; linarith
          have a3 := Int.cast_lt.mp a1
          have a5 : (-62135596800 : Rat) ≤ truncRat x := by exact_mod_cast (by omega : (-62135596800 : Int) ≤ truncRat x)
          constructor <;> linarith
      · rintro ⟨⟨n, hn⟩, hsz⟩
        have hm : MicroTime st.mtime := by
          obtain ⟨y1, y2⟩ := hyears
          rw [hn] at y1 y2
          have a1 : ((-62135596800 : Int) : Rat) ≤ n := by push_cast; linarith
          have a2 : (n : Rat) < ((253402300800 : Int) : Rat) := by push_cast; linarith
          have a3 := Int.cast_le.mp a1
          have a4 := Int.cast_lt.mp a2
          refine ⟨n * 1000000, by omega, by omega, ?_⟩
          rw [hn]
          push_cast
          linarith
        have hx := h2.exact hm
        rw [hts] at hx
        cases hx
        obtain ⟨mt, sz, co⟩ := st
        simp only at hn hc hsz ht ⊢
        subst hn hc ht
        rw [truncRat_int, hsz b rfl]
  have copy := C78_mirror h hserve s root hone hh allow_deletion hd hi ht hu hempty hok
  constructor
  · intro names st he
    obtain ⟨b, t, h1, h2⟩ := key names st he
    exact ⟨_, (hsame names _).mpr ⟨b, t, h1, rfl⟩, h2⟩
  · intro names st' he
    obtain ⟨b, t, h1, rfl⟩ := (hsame names st').mp he
    obtain ⟨names', st, h3, h4⟩ := copy.sound (root ++ names) ⟨names, rfl⟩ ⟨b, t, h1⟩
    cases List.append_cancel_left h4
    obtain ⟨b', t', h5, h6⟩ := key names st h3
    unfold IsFile at h1 h5
    rw [h5] at h1
    cases h1
    exact ⟨st, h3, h6⟩

theorem hop_settled {c : WriteCfg} {cs cs' : List FNode} (hop : Hop c cs cs') {names : List Str} {st : Stat}
    (h : HasEntry cs' names st) : WholeStat st := by
  obtain ⟨st0, -, h1⟩ := (hop_facts hop).2 names st h
  exact h1.settled

/-- C113.  A chain of mirrors, of any length and whatever each excludes, that starts from files with modification times in whole
seconds (and sizes that are those of the contents) ends with exactly the files that nobody excluded, each with the same content,
size and modification time. -/
theorem C113_exact {cs cs' : List FNode} {cfgs : List WriteCfg} (chain : Chain cs cfgs cs')
    (hs : ∀ names st, Eligible (ExcludedByAny cfgs) cs names st → WholeStat st) :
    ∀ names st, HasEntry cs' names st ↔ Eligible (ExcludedByAny cfgs) cs names st := by
  induction chain with
  | here cs =>
    intro names st
    constructor
    · intro h
      exact ⟨h, by rintro x - ⟨c, hc, -⟩; cases hc⟩
    · exact fun h => h.1
  | @hop c cfgs cs cs1 cs' hop rest ih =>
    obtain ⟨h1, h2⟩ := hop_facts hop
    have ih := ih (fun names st he => hop_settled hop he.1)
    intro names st
    constructor
    · intro he
      obtain ⟨he1, hx⟩ := (ih names st).mp he
      obtain ⟨st0, e0, hp⟩ := h2 names st he1
      have e1 : Eligible (ExcludedByAny (c :: cfgs)) cs names st0 := by
        refine ⟨e0.1, ?_⟩
        rintro x hx' ⟨d, hd, hex⟩
        rcases List.mem_cons.mp hd with rfl | hd
        · exact e0.2 x hx' hex
        · exact hx x hx' ⟨d, hd, hex⟩
      rw [hp.same (hs names st0 e1)]
      exact e1
    · intro he
      obtain ⟨st', e1, hp⟩ := h1 names st ⟨he.1, fun x hx hex => he.2 x hx ⟨c, List.mem_cons_self, hex⟩⟩
      rw [hp.same (hs names st he)] at e1
      exact (ih names st).mpr ⟨e1, fun x hx ⟨d, hd, hex⟩ => he.2 x hx ⟨d, List.mem_cons_of_mem _ hd, hex⟩⟩

/-- C113, the times settle at the first mirror: further on, whatever the times of the source, nothing changes any more. -/
theorem C113_settled {c : WriteCfg} {cs cs1 cs' : List FNode} {cfgs : List WriteCfg} (hop : Hop c cs cs1) (chain : Chain cs1 cfgs cs') :
    ∀ names st, HasEntry cs' names st ↔ Eligible (ExcludedByAny cfgs) cs1 names st :=
  C113_exact chain (fun _ _ he => hop_settled hop he.1)

/-- C113, whatever the times of the source.  The last directory of a chain of any positive length has exactly the files that nobody
excluded, each with the content it has at the source, and with a modification time in whole seconds that differs from the one at the
source by little more than a second at most, however long the chain is. -/
theorem C113_chain {cs cs' : List FNode} {cfgs : List WriteCfg} (chain : Chain cs cfgs cs') (hlen : cfgs ≠ []) :
    (∀ names, (∃ st, HasEntry cs' names st) ↔ ∃ st, Eligible (ExcludedByAny cfgs) cs names st) ∧
    (∀ names st, Eligible (ExcludedByAny cfgs) cs names st → ∃ b st', st.content = some b ∧ HasEntry cs' names st' ∧
      st'.content = some b ∧ st'.size = (b.length : Int) ∧ (∃ n : Int, st'.mtime = n) ∧
      st'.mtime - st.mtime < 1 + 1 / 1000000 ∧ st.mtime - st'.mtime < 1 + 1 / 1000000) := by
  cases chain with
  | here => exact absurd rfl hlen
  | @hop c cfgs cs cs1 cs' hop rest =>
    obtain ⟨h1, h2⟩ := hop_facts hop
    have hset := C113_settled hop rest
    have main : ∀ names st, Eligible (ExcludedByAny (c :: cfgs)) cs names st → ∃ b st', st.content = some b ∧ HasEntry cs' names st' ∧
        st'.content = some b ∧ st'.size = (b.length : Int) ∧ (∃ n : Int, st'.mtime = n) ∧
        st'.mtime - st.mtime < 1 + 1 / 1000000 ∧ st.mtime - st'.mtime < 1 + 1 / 1000000 := by
      intro names st he
      obtain ⟨st', e1, hp⟩ := h1 names st ⟨he.1, fun x hx hex => he.2 x hx ⟨c, List.mem_cons_self, hex⟩⟩
      obtain ⟨b, b1, b2⟩ := hp.content
      exact ⟨b, st', b1, (hset names st').mpr ⟨e1, fun x hx ⟨d, hd, hex⟩ => he.2 x hx ⟨d, List.mem_cons_of_mem _ hd, hex⟩⟩, b2,
        hp.settled.2 b b2, hp.settled.1, hp.near.1, hp.near.2⟩
    refine ⟨?_, main⟩
    intro names
    constructor
    · rintro ⟨st, he⟩
      obtain ⟨he1, hx⟩ := (hset names st).mp he
      obtain ⟨st0, e0, -⟩ := h2 names st he1
      refine ⟨st0, e0.1, ?_⟩
      rintro x hx' ⟨d, hd, hex⟩
      rcases List.mem_cons.mp hd with rfl | hd
      · exact e0.2 x hx' hex
      · exact hx x hx' ⟨d, hd, hex⟩
    · rintro ⟨st, he⟩
      obtain ⟨b, st', -, e1, -⟩ := main names st he
      exact ⟨st', e1⟩

/-- the tree that os.walk finds at a place has the files at that place, and is a real directory -/
theorem filesAt_tree {fs : Fs} {root : Loc} (h : ProperFs fs) (hroot : ¬ HasFile fs root) :
    FilesAt (fs.tree (fs.depth + 1) root) root fs ∧ RealDir (fs.tree (fs.depth + 1) root) := by
  refine ⟨?_, realDir_tree h _ _⟩
  intro names st
  constructor
  · rintro ⟨nm, sp, hr⟩
    obtain ⟨j, name, x, k1, k2, k3⟩ := reach_tree h hr _ _ rfl
    cases x with
    | dir => simp [nodeOf] at k3
    | file b t =>
      simp only [nodeOf, FNode.file.injEq, Option.some.injEq] at k3
      exact ⟨b, t, k2, k3.2.2⟩
  · rintro ⟨b, t, hf, rfl⟩
    have hne : names ≠ [] := by
      rintro rfl
      rw [List.append_nil] at hf
      exact hroot ⟨b, t, hf⟩
    have hm := mem_of_get (by simp [hne]) hf
    have hd := depth_ge hm
    obtain ⟨nm, hr⟩ := Resync.tree_reach h names (fs.depth + 1) root hne (by simp at hd; omega) hf
    exact ⟨nm, false, hr⟩

/-- C113, on one disk: after the sync, whoever looks at the destination of the mirror finds a real directory there (if there was a
file to copy), and with what they find the chain has one more hop. -/
theorem C113_found {c : WriteCfg} {cs : List FNode} {wenv : WriteEnv} {m : Map} {f : Str} {links : Option (List Link)}
    {before : Str → Option FileState} {cc : ClientCfg} {env : Env} {mm : Map} (h : Mirror c wenv m cs f links before cc env mm)
    (hserve : Honest c m cs env) (s : St) (root : Loc) (hone : OneSite cc env.cwd mm root s.world.fs)
    (hh : ∀ t ∈ s.hashes, HashType t) (allow_deletion : Bool) (hd : cc.dryrun = false) (hi : cc.ignore_failures = false)
    (ht : 0 < cc.tries) (hu : ∀ tr l, env.unlinkFails tr l = false) (hempty : ∀ l, Within root l → ¬ HasFile s.world.fs l)
    (hok : (baselineOrAudit env cc allow_deletion false s).2 = .ok ()) (hsome : ∃ names st, Eligible (ExcludedBy c) cs names st) :
    ∃ nm cs', ((baselineOrAudit env cc allow_deletion false s).1.world.fs.disk env.cwd).resolve mm.dst_path = some (.dir nm true cs') ∧
      RealDir cs' ∧ Hop c cs cs' := by
  obtain ⟨hk, src, hfound, -, -, hreg⟩ := h.finds
  obtain ⟨-, -, hone', -, -⟩ := baseline_result hone hh hk hfound hreg hd hi ht hu hok
  obtain ⟨hfiles, hreal⟩ := filesAt_tree hone'.proper hone'.notFile
  have hop : Hop c cs _ := .mk h hserve s root hone hh allow_deletion hd hi ht hu hempty hok hfiles
  refine ⟨root.getLast?.getD [], _, ?_, hreal, hop⟩
  obtain ⟨names, st, he⟩ := hsome
  obtain ⟨b, t, -, hf, -⟩ := (C78_mirror h hserve s root hone hh allow_deletion hd hi ht hu hempty hok).complete names st he
  have hdir := get_prefix hone'.proper names (h.plain he).1 hf
  unfold Fs.disk
  simp only
  rw [← hone'.place, hdir]

/-- C113, a copy can be published in turn: if every directory of the copy has a file below it, the names in the copy, the times and
the contents are such as a publisher needs. -/
theorem C113_publishable {c : WriteCfg} {cs cs' : List FNode} (hop : Hop c cs cs')
    (hfull : ∀ names n, Reach cs' names n → ∃ more st, HasEntry cs' (names ++ more) st) :
    (∀ names n, Reach cs' names n → ∀ x ∈ names, OneLine x ∧ XmlOk x ∧ '\r' ∉ x ∧ x ≠ ".".toList ∧ x ≠ "..".toList) ∧
    (∀ names nm special st, Reach cs' names (.file nm special (some st)) → InYears st.mtime ∧ st.content ≠ none) := by
  obtain ⟨-, h2⟩ := hop_facts hop
  constructor
  · intro names n hr x hx
    obtain ⟨more, st, he⟩ := hfull names n hr
    obtain ⟨st0, ⟨⟨nm, sp, h3⟩, -⟩, -⟩ := h2 _ _ he
    cases hop with
    | mk h =>
      have h4 := h.site.names _ _ h3 x (List.mem_append_left _ hx)
      exact ⟨h4.1, h4.2.1, h4.2.2, h.dots _ _ h3 x (List.mem_append_left _ hx)⟩
  · intro names nm sp st hr
    obtain ⟨st0, -, hp⟩ := h2 names st ⟨nm, sp, hr⟩
    obtain ⟨b, -, hb⟩ := hp.content
    exact ⟨hp.years, by rw [hb]; simp⟩

/-- a chain of copies made in whatever way: by baseline syncs (C78), by following change lists (C106), or by the programs (C80) -/
inductive CopyChain : List FNode → List WriteCfg → List FNode → Prop
  | here (cs : List FNode) : CopyChain cs [] cs
  | hop {c : WriteCfg} {cfgs : List WriteCfg} {cs cs1 cs' : List FNode} {root : Loc} {fs : Fs} :
      CopyOf c cs root fs → FilesAt cs1 root fs → CopyChain cs1 cfgs cs' → CopyChain cs (c :: cfgs) cs'

/-- C113, for copies made in whatever way.  The last copy has exactly the files that nobody excluded, with the content they have at the
source; the times are moved by little more than a second at most at each step. -/
theorem C113_contents {cs cs' : List FNode} {cfgs : List WriteCfg} (chain : CopyChain cs cfgs cs') :
    (∀ names, (∃ st, HasEntry cs' names st) ↔ ∃ st, Eligible (ExcludedByAny cfgs) cs names st) ∧
    (∀ names st, Eligible (ExcludedByAny cfgs) cs names st → ∃ st', HasEntry cs' names st' ∧ st'.content = st.content ∧
      st'.mtime - st.mtime ≤ cfgs.length * (1 + 1 / 1000000) ∧ st.mtime - st'.mtime ≤ cfgs.length * (1 + 1 / 1000000)) := by
  induction chain with
  | here cs =>
    have h : ∀ names st, HasEntry cs names st ↔ Eligible (ExcludedByAny []) cs names st := by
      intro names st
      exact ⟨fun h => ⟨h, by rintro x - ⟨c, hc, -⟩; cases hc⟩, fun h => h.1⟩
    refine ⟨fun names => exists_congr (h names), ?_⟩
    intro names st he
    exact ⟨st, he.1, rfl, by simp, by simp⟩
  | @hop c cfgs cs cs1 cs' root fs copy at1 rest ih =>
    obtain ⟨i1, i2⟩ := ih
    have step : ∀ names st, Eligible (ExcludedByAny (c :: cfgs)) cs names st → ∃ st1, Eligible (ExcludedByAny cfgs) cs1 names st1 ∧
        st1.content = st.content ∧ st1.mtime - st.mtime < 1 + 1 / 1000000 ∧ st.mtime - st1.mtime < 1 + 1 / 1000000 := by
      intro names st he
      obtain ⟨b, t, h1, h2, h3, h4⟩ := copy.complete names st ⟨he.1, fun x hx hex => he.2 x hx ⟨c, List.mem_cons_self, hex⟩⟩
      exact ⟨_, ⟨(at1 names _).mpr ⟨b, t, h2, rfl⟩, fun x hx ⟨d, hd, hex⟩ => he.2 x hx ⟨d, List.mem_cons_of_mem _ hd, hex⟩⟩, h1.symm, h3, h4⟩
    constructor
    · intro names
      constructor
      · intro h
        obtain ⟨st1, he1, hx⟩ := (i1 names).mp h
        obtain ⟨b, t, hf, -⟩ := (at1 names st1).mp he1
        obtain ⟨names', st, h3, h4⟩ := copy.sound (root ++ names) ⟨names, rfl⟩ ⟨b, t, hf⟩
        cases List.append_cancel_left h4
        refine ⟨st, h3.1, ?_⟩
        rintro x hx' ⟨d, hd, hex⟩
        rcases List.mem_cons.mp hd with rfl | hd
        · exact h3.2 x hx' hex
        · exact hx x hx' ⟨d, hd, hex⟩
      · rintro ⟨st, he⟩
        obtain ⟨st1, h1, -⟩ := step names st he
        exact (i1 names).mpr ⟨st1, h1⟩
    · intro names st he
      obtain ⟨st1, h1, h2, h3, h4⟩ := step names st he
      obtain ⟨st', h5, h6, h7, h8⟩ := i2 names st1 h1
      refine ⟨st', h5, h6.trans h2, ?_, ?_⟩ <;>
        rw [List.length_cons] <;> push_cast <;> linarith

namespace ChainExample
open MirrorExample (stb m mm cfg cc start)

/-- the files a and sub/b, the first last modified at `q` -/
def tree (q : Rat) : List FNode :=
  [.file "a".toList false (some ⟨q, 2, some [1, 2]⟩), .dir "sub".toList true [.file "b".toList false (some stb)]]

def wenv (q : Rat) : WriteEnv := { WriteExample.env with
  disk := { resolve := fun p => if p = "/d".toList then some (.dir "d".toList true (tree q)) else none, islink := fun _ => false } }

theorem reach_cases {q : Rat} {names : List Str} {n : FNode} (h : Reach (tree q) names n) :
    (names = ["a".toList] ∧ n = .file "a".toList false (some ⟨q, 2, some [1, 2]⟩)) ∨
    (∃ ds, names = ["sub".toList] ∧ n = .dir "sub".toList true ds) ∨
    (names = ["sub".toList, "b".toList] ∧ n = .file "b".toList false (some stb)) := by
  cases h with
  | here h =>
    simp only [tree, List.mem_cons, List.not_mem_nil, or_false] at h
    rcases h with rfl | rfl <;> simp [FNode.name]
  | sub h h' =>
    simp only [tree, List.mem_cons, List.not_mem_nil, or_false, reduceCtorEq, false_or, FNode.dir.injEq] at h
    obtain ⟨rfl, -, rfl⟩ := h
    cases h' with
    | here h =>
      simp only [List.mem_cons, List.not_mem_nil, or_false] at h
      subst h
      simp [FNode.name]
    | sub h _ => simp at h

theorem reach_in {q : Rat} {names : List Str} {n : FNode} (h : Reach (tree q) names n) :
    ∀ x ∈ names, x ∈ ["a".toList, "sub".toList, "b".toList] := by
  rcases reach_cases h with ⟨rfl, -⟩ | ⟨_, rfl, -⟩ | ⟨rfl, -⟩ <;> decide

theorem entry_cases {q : Rat} {names : List Str} {st : Stat} : HasEntry (tree q) names st ↔
    names = ["a".toList] ∧ st = ⟨q, 2, some [1, 2]⟩ ∨ names = ["sub".toList, "b".toList] ∧ st = stb := by
  constructor
  · rintro ⟨nm, sp, h⟩
    rcases reach_cases h with ⟨hn, h⟩ | ⟨_, -, h⟩ | ⟨hn, h⟩ <;> cases h
    · exact .inl ⟨hn, rfl⟩
    · exact .inr ⟨hn, rfl⟩
  · rintro (⟨rfl, rfl⟩ | ⟨rfl, rfl⟩)
    · exact ⟨_, false, .here (n := .file "a".toList false _) (by simp [tree])⟩
    · exact ⟨_, false, .sub (name := "sub".toList) (ds := [.file "b".toList false (some stb)]) (by simp [tree])
        (.here (n := .file "b".toList false _) (by simp))⟩

theorem site {q : Rat} (hq : InYears q) : Site cfg (wenv q) m (tree q) where
  mapper := rfl
  src_literal := MirrorExample.site.src_literal
  src_line := MirrorExample.site.src_line
  src_chars := MirrorExample.site.src_chars
  dst_literal := MirrorExample.site.dst_literal
  dst_line := MirrorExample.site.dst_line
  dst_ne := MirrorExample.site.dst_ne
  dst_slash := MirrorExample.site.dst_slash
  dir := ⟨"d".toList, rfl⟩
  real := by
    refine .mk (by simp [tree, FNode.name]) (by simp [tree, FNode.name]) ?_
    intro name r ds h
    simp only [tree, List.mem_cons, List.not_mem_nil, or_false, reduceCtorEq, false_or, FNode.dir.injEq] at h
    obtain ⟨-, -, rfl⟩ := h
    exact .mk (by decide) (by decide) (by intro _ _ _ h; simp at h)
  patterns := MirrorExample.site.patterns
  names := by
    intro names n h x hx
    have all : ∀ y ∈ ["a".toList, "sub".toList, "b".toList], OneLine y ∧ XmlOk y ∧ '\r' ∉ y := by unfold OneLine XmlOk; decide
    exact all x (reach_in h x hx)
  times := by
    intro names nm sp s h
    rcases (entry_cases (q := q)).mp ⟨nm, sp, h⟩ with ⟨-, rfl⟩ | ⟨-, rfl⟩
    · exact hq
    · show InYears 7
      unfold InYears; constructor <;> norm_num
  hash_types := by decide
  readable := by
    intro _ names nm sp s h
    rcases (entry_cases (q := q)).mp ⟨nm, sp, h⟩ with ⟨-, rfl⟩ | ⟨-, rfl⟩ <;> simp [stb]
  digests := WriteExample.site.digests
  scan := WriteExample.site.scan

def served (q : Rat) (u : Str) : Option Elem :=
  match u with
  | 'h' :: 't' :: 't' :: 'p' :: ':' :: '/' :: '/' :: 'h' :: '/' :: g =>
    fileDoc (runFs (fun _ => none) (writeResourceList cfg (wenv q) none (some "/d/list.xml".toList) none false).1.files ("/d/".toList ++ g))
  | _ => none

def menv (q : Rat) : Env := { MirrorExample.menv with sources := Sources.ofDocs (served q) [mm] true (fun _ => false) }

theorem mirror {q : Rat} (hq : InYears q) : Mirror cfg (wenv q) m (tree q) "list.xml".toList none (fun _ => none) cc (menv q) mm where
  site := site hq
  multi := rfl
  file := MirrorExample.mirror.file
  linksOk := by simp
  stat := WriteExample.statOk
  dots := by
    intro names n h x hx
    have all : ∀ y ∈ ["a".toList, "sub".toList, "b".toList], y ≠ ".".toList ∧ y ≠ "..".toList := by decide
    exact all x (reach_in h x hx)
  scheme := .inl ⟨"//h".toList, rfl⟩
  same := rfl
  found := ⟨served q, _, rfl, fun g => rfl⟩
  told := rfl

/-- the disk after the sync -/
def after : Fs :=
  [(["e".toList, "sub".toList, "b".toList], .file [9] 7), (["e".toList, "sub".toList], .dir), (["e".toList, "a".toList], .file [1, 2] 5),
   (["e".toList], .dir)]

theorem after_files : FilesAt (tree 5) ["e".toList] after := by
  intro names st
  refine (entry_cases (q := 5) (names := names) (st := st)).trans ?_
  constructor
  · rintro (⟨rfl, rfl⟩ | ⟨rfl, rfl⟩)
    · exact ⟨[1, 2], 5, rfl, rfl⟩
    · exact ⟨[9], 7, rfl, rfl⟩
  · rintro ⟨b, t, h, rfl⟩
    have h' : after.lookup ("e".toList :: names) = some (.file b t) := h
    have hm : ("e".toList :: names, FsNode.file b t) ∈ after := by
      clear h
      generalize after = l at h'
      induction l with
      | nil => cases h'
      | cons p l ih =>
        obtain ⟨k, v⟩ := p
        rw [List.lookup_cons] at h'
        split at h'
        · rename_i e
          cases h'
          rw [beq_iff_eq] at e
          rw [e]; exact List.mem_cons_self
        · exact List.mem_cons_of_mem _ (ih h')
    simp only [after, List.mem_cons, Prod.mk.injEq, List.cons.injEq, true_and, FsNode.file.injEq, reduceCtorEq, and_false, or_false,
      false_or, List.not_mem_nil] at hm
    rcases hm with ⟨rfl, rfl, rfl⟩ | ⟨rfl, rfl, rfl⟩
    · exact .inr ⟨rfl, rfl⟩
    · exact .inl ⟨rfl, rfl⟩

theorem hop_of {q : Rat} (hq : InYears q) (hok : (baselineOrAudit (menv q) cc false false start).2 = .ok ())
    (hfs : (baselineOrAudit (menv q) cc false false start).1.world.fs = after) : Hop cfg (tree q) (tree 5) := by
  refine .mk (mirror hq) ?_ start ["e".toList] MirrorExample.one (by simp [start]) false rfl rfl (by decide) (fun _ _ => rfl) ?_ hok
    (by rw [hfs]; exact after_files)
  · intro tr names st b h hb
    rcases (entry_cases (q := q)).mp h.1 with ⟨rfl, rfl⟩ | ⟨rfl, rfl⟩ <;> cases hb <;> rfl
  · rintro l - ⟨b, t, h⟩
    unfold IsFile at h
    cases l <;> cases h

/-- the first mirror of files modified at a third of a second -/
theorem first : Hop cfg (tree (16 / 3)) (tree 5) :=
  hop_of (by unfold InYears; constructor <;> norm_num) (by decide +kernel) (by decide +kernel)

theorem again : Hop cfg (tree 5) (tree 5) :=
  hop_of (by unfold InYears; constructor <;> norm_num) (by decide +kernel) (by decide +kernel)

/-- chains of every length -/
theorem long : ∀ n, Chain (tree 5) (List.replicate n cfg) (tree 5)
  | 0 => .here _
  | n + 1 => .hop again (long n)

example (n : Nat) : ∃ b st', some [1, 2] = some b ∧ HasEntry (tree 5) ["a".toList] st' ∧ st'.content = some b ∧
    st'.size = (b.length : Int) ∧ (∃ n : Int, st'.mtime = n) ∧ st'.mtime - 16 / 3 < 1 + 1 / 1000000 ∧ 16 / 3 - st'.mtime < 1 + 1 / 1000000 := by
  refine (C113_chain (.hop first (long n)) (by simp)).2 ["a".toList] ⟨16 / 3, 2, some [1, 2]⟩ ⟨entry_cases.mpr (.inl ⟨rfl, rfl⟩), ?_⟩
  rintro x hx ⟨c, hc, h⟩
  have : c = cfg := by
    rcases List.mem_cons.mp hc with h | h
    · exact h
    · exact List.eq_of_mem_replicate h
  subst this
  simp only [List.mem_cons, List.not_mem_nil, or_false] at hx
  subst hx
  exact MirrorExample.not_excluded h

/-- the hypotheses of the exact form and of publishing again -/
example (n : Nat) : ∀ names st, HasEntry (tree 5) names st ↔ Eligible (ExcludedByAny (List.replicate n cfg)) (tree 5) names st :=
  C113_settled first (long n)

example : ∀ names nm special st, Reach (tree 5) names (.file nm special (some st)) → InYears st.mtime ∧ st.content ≠ none := by
  refine (C113_publishable first ?_).2
  intro names n h
  rcases reach_cases h with ⟨rfl, -⟩ | ⟨_, rfl, -⟩ | ⟨rfl, -⟩
  · exact ⟨[], _, entry_cases.mpr (.inl ⟨rfl, rfl⟩)⟩
  · exact ⟨["b".toList], _, entry_cases.mpr (.inr ⟨rfl, rfl⟩)⟩
  · exact ⟨[], _, entry_cases.mpr (.inr ⟨rfl, rfl⟩)⟩

theorem found_of {q : Rat} (hq : InYears q) (hok : (baselineOrAudit (menv q) cc false false start).2 = .ok ()) :
    ∃ nm cs', ((baselineOrAudit (menv q) cc false false start).1.world.fs.disk (menv q).cwd).resolve mm.dst_path = some (.dir nm true cs') ∧
    RealDir cs' ∧ Hop cfg (tree q) cs' := by
  refine C113_found (mirror hq) ?_ start ["e".toList] MirrorExample.one (by simp [start]) false rfl rfl
    (by decide) (fun _ _ => rfl) ?_ hok ⟨["a".toList], _, entry_cases.mpr (.inl ⟨rfl, rfl⟩), ?_⟩
  · intro tr names st b h hb
    rcases (entry_cases (q := q)).mp h.1 with ⟨rfl, rfl⟩ | ⟨rfl, rfl⟩ <;> cases hb <;> rfl
  · rintro l - ⟨b, t, h⟩
    unfold IsFile at h
    cases l <;> cases h
  · intro x hx
    simp only [List.mem_cons, List.not_mem_nil, or_false] at hx
    subst hx
    exact MirrorExample.not_excluded

/-- what is found at /e after the first mirror can be the start of the rest of a chain -/
example : ∃ cs', RealDir cs' ∧ Hop cfg (tree (16 / 3)) cs' := by
  obtain ⟨-, cs', -, h⟩ := found_of (q := 16 / 3) (by unfold InYears; constructor <;> norm_num) (by decide +kernel)
  exact ⟨cs', h⟩

theorem copy_of {q : Rat} (hq : InYears q) (hok : (baselineOrAudit (menv q) cc false false start).2 = .ok ())
    (hfs : (baselineOrAudit (menv q) cc false false start).1.world.fs = after) : CopyOf cfg (tree q) ["e".toList] after := by
  rw [← hfs]
  refine C78_mirror (mirror hq) ?_ start ["e".toList] MirrorExample.one (by simp [start]) false rfl rfl (by decide) (fun _ _ => rfl) ?_ hok
  · intro tr names st b h hb
    rcases (entry_cases (q := q)).mp h.1 with ⟨rfl, rfl⟩ | ⟨rfl, rfl⟩ <;> cases hb <;> rfl
  · rintro l - ⟨b, t, h⟩
    unfold IsFile at h
    cases l <;> cases h

/-- a chain of copies of any length -/
example : ∀ n, CopyChain (tree 5) (List.replicate n cfg) (tree 5) := by
  have h := copy_of (q := 5) (by unfold InYears; constructor <;> norm_num) (by decide +kernel) (by decide +kernel)
  intro n
  induction n with
  | zero => exact .here _
  | succ n ih => exact .hop h after_files ih

end ChainExample

end Resync
