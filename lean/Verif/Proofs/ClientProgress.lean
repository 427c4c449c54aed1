import Mathlib.Data.List.Chain
import Verif.Proofs.ClientBaseline
/-
When a baseline sync succeeds (lemmas for C79).
-/

namespace Resync
open Py Resync.Spec

theorem Spec.OneSite.maps_dir {c : ClientCfg} {cwd : Loc} {m : Map} {root : Loc} {fs : Fs} (h : OneSite c cwd m root fs)
    {names : List Str} (hne : names ≠ []) (hn : ∀ n ∈ names, PlainName n) :
    ∃ fn, c.disc.mapper.srcToDst (uriBelow m names) = .ok fn ∧ location cwd fn = root ++ names ∧
      location cwd (dirname fn) = (root ++ names).dropLast := h.sites.maps_dir (p := (m, root)) (by simp) hne hn

/-- making a directory for which there is no obstacle -/
theorem mkpath_ok {env : Env} (hmk : ∀ tr l, env.mkdirFails tr l = false) : ∀ (rest : List Str) (pre : Loc) (s : St),
    s.world.fs.get pre = some .dir → (∀ p, p <+: pre ++ rest → ¬ HasFile s.world.fs p) →
    ∃ s', mkpath env pre rest s = (s', true) ∧ s'.world.fs.get (pre ++ rest) = some .dir ∧ s'.world.state = s.world.state ∧
      ∀ l, s'.world.fs.get l = s.world.fs.get l ∨ (s.world.fs.get l = none ∧ s'.world.fs.get l = some .dir ∧ l <+: pre ++ rest) := by
  intro rest
  induction rest with
  | nil => intro pre s hp _; exact ⟨s, rfl, by simpa using hp, rfl, fun l => .inl rfl⟩
  | cons n t ih =>
    intro pre s hp hno
    have e : pre ++ n :: t = (pre ++ [n]) ++ t := by simp
    rw [e] at hno ⊢
    simp only [mkpath]
    cases hg : s.world.fs.get (pre ++ [n]) with
    | some x =>
      cases x with
      | dir => exact ih (pre ++ [n]) s hg hno
      | file b m => exact absurd ⟨b, m, hg⟩ (hno _ (List.prefix_append _ _))
    | none =>
      simp only [hmk, Bool.false_eq_true, if_false]
      have hset : (s.emit (.mkdir (pre ++ [n]))).world.fs = s.world.fs.set (pre ++ [n]) .dir := by
        simp only [St.emit, World.apply, Effect.onFs, hg]
      obtain ⟨s', h1, h2, h3, h4⟩ := ih (pre ++ [n]) (s.emit (.mkdir (pre ++ [n])))
        (by rw [hset, get_set_self _ _ _ (by simp)]) (by
          rintro p hpre ⟨b, m, hf⟩
          unfold IsFile at hf
          rw [hset] at hf
          by_cases hpn : p = pre ++ [n]
          · rw [hpn, get_set_self _ _ _ (by simp)] at hf; cases hf
          · rw [get_set_other _ _ _ _ hpn] at hf
            exact hno p hpre ⟨b, m, hf⟩)
      refine ⟨s', h1, h2, by rw [h3]; rfl, ?_⟩
      intro l
      rw [hset] at h4
      by_cases hl : l = pre ++ [n]
      · subst hl
        rcases h4 (pre ++ [n]) with h | ⟨h, -, -⟩
        · rw [get_set_self _ _ _ (by simp)] at h
          exact .inr ⟨hg, h, List.prefix_append _ _⟩
        · rw [get_set_self _ _ _ (by simp)] at h; cases h
      · have := h4 l
        rwa [get_set_other _ _ _ _ hl] at this

theorem Spec.FreeFor.ne_nil {places : Loc → Prop} {fs : Fs} (h : FreeFor places fs) {l : Loc} (hl : places l) : l ≠ [] := by
  rintro rfl
  exact h.noDir _ hl (get_root _)

/-- nothing is wrong with the surroundings for this URI -/
structure Works (env : Env) (tries : Nat) (uri : Str) : Prop where
  serve : Delivers env tries uri
  mkdir : ∀ tr l, env.mkdirFails tr l = false
  open_ : ∀ tr l, env.openFails tr l = false

/-- one try: a file is opened and written to, unless the request timed out at once -/
theorem tryGet_works {env : Env} {uri : Str} {l : Loc} (hopen : ∀ tr l, env.openFails tr l = false) (hne : l ≠ []) {s : St}
    (hnd : s.world.fs.get l ≠ some .dir) (hdir : s.world.fs.get l.dropLast = some .dir)
    (hs : (∃ b, env.serve s.trace uri = .body b none) ∨ env.serve s.trace uri = .fail .timeout ∨
      ∃ b, env.serve s.trace uri = .body b (some .timeout)) :
    ∃ s' o, tryGet env s uri l = (s', o) ∧ (o = none ∧ (∃ b m, s'.world.fs.get l = some (.file b m)) ∨
        o = some .timeout ∧ (∀ b, env.serve s.trace uri ≠ .body b none) ∧ s'.world.fs.get l ≠ some .dir) ∧
      (∀ x, x ≠ l → s'.world.fs.get x = s.world.fs.get x) ∧ s'.world.state = s.world.state ∧
      NextTry uri s.trace s'.trace := by
  have hopen : openW env (s.emit (.get uri)) l = some ((s.emit (.get uri)).emit (.trunc l (env.now (s.emit (.get uri)).trace))) := by
    unfold openW
    rw [if_neg]
    rintro (h | h | h | h)
    · exact hne h
    · exact hnd h
    · apply h
      show Fs.isDir s.world.fs l.dropLast = true
      unfold Fs.isDir
      rw [hdir]; rfl
    · rw [hopen] at h; cases h
  have hbody : ∀ b o, env.serve s.trace uri = .body b o → ∃ s', tryGet env s uri l = (s', o) ∧
      (∃ b m, s'.world.fs.get l = some (.file b m)) ∧ (∀ x, x ≠ l → s'.world.fs.get x = s.world.fs.get x) ∧
      s'.world.state = s.world.state ∧ NextTry uri s.trace s'.trace := by
    intro b o hb
    refine ⟨((s.emit (.get uri)).emit (.trunc l (env.now (s.emit (.get uri)).trace))).emit (.append l b), ?_, ?_, ?_, ?_, ?_⟩
    · unfold tryGet
      simp only [hb, hopen]
    · simp only [St.emit, World.apply, Effect.onFs, get_set_self _ _ _ hne]
      exact ⟨_, _, rfl⟩
    · intro x hx
      simp only [St.emit, World.apply, Effect.onFs, get_set_self _ _ _ hne]
      rw [get_set_other _ _ _ _ hx, get_set_other _ _ _ _ hx]
    · simp [St.emit, World.apply]
    · exact ⟨[.trunc l (env.now (s.emit (.get uri)).trace), .append l b], by simp [St.emit], by simp⟩
  rcases hs with ⟨b, hb⟩ | hb | ⟨b, hb⟩
  · obtain ⟨s', h1, h2, h3⟩ := hbody b _ hb
    exact ⟨s', none, h1, .inl ⟨rfl, h2⟩, h3⟩
  · refine ⟨s.emit (.get uri), some .timeout, by unfold tryGet; simp only [hb], .inr ⟨rfl, by simp [hb], hnd⟩, fun _ _ => rfl, rfl, [], ?_, by simp⟩
    simp [St.emit]
  · obtain ⟨s', h1, ⟨b', m', h2⟩, h3⟩ := hbody b _ hb
    exact ⟨s', _, h1, .inr ⟨rfl, by simp [hb], by rw [h2]; simp⟩, h3⟩

/-- among the tries there is one that succeeds -/
theorem getLoop_succeeds {env : Env} {uri : Str} {tries : Nat} (hw : Delivers env tries uri) (hopen : ∀ tr l, env.openFails tr l = false)
    {l : Loc} (hne : l ≠ []) (hdl : l.dropLast ≠ l) (ig : Bool) : ∀ (n : Nat) (past : List (List Effect)) (s : St), past.length + n = tries →
    (past ++ [s.trace]).IsChain (NextTry uri) → (∀ tr ∈ past, ∀ b, env.serve tr uri ≠ .body b none) →
    s.world.fs.get l ≠ some .dir → s.world.fs.get l.dropLast = some .dir →
    ∃ s', getLoop env ig uri l n s = (s', .updated) ∧ (∃ b m, s'.world.fs.get l = some (.file b m)) ∧
      (∀ x, x ≠ l → s'.world.fs.get x = s.world.fs.get x) ∧ s'.world.state = s.world.state := by
  intro n
  induction n with
  | zero =>
    intro past s h1 h2 h4 h5 h6
    obtain ⟨tr, k1, b, k2⟩ := hw.2 past (by simpa using h1) h2.left_of_append
    exact absurd k2 (h4 tr k1 b)
  | succ n ih =>
    intro past s h1 h2 h4 h5 h6
    obtain ⟨s', o, t1, t2, t3, t4, t5⟩ := tryGet_works hopen hne h5 h6 (hw.1 s.trace)
    rcases t2 with ⟨rfl, t2⟩ | ⟨rfl, t2, t7⟩
    · exact ⟨s', by simp only [getLoop, t1], t2, t3, t4⟩
    · have h4' : ∀ tr ∈ past ++ [s.trace], ∀ b, env.serve tr uri ≠ .body b none := by
        intro tr htr
        rcases List.mem_append.mp htr with h | h
        · exact h4 tr h
        · rw [List.mem_singleton.mp h]; exact t2
      have hn : n ≠ 0 := by
        rintro rfl
        obtain ⟨tr, k1, b, k2⟩ := hw.2 _ (by simpa using h1) h2
        exact h4' tr k1 b k2
      have hp : (past ++ [s.trace] ++ [s'.trace]).IsChain (NextTry uri) := by
        refine List.IsChain.append h2 (List.isChain_singleton _) ?_
        intro x hx y hy
        simp only [List.getLast?_append, List.getLast?_singleton, Option.some_or, Option.mem_some_iff, List.head?_cons] at hx hy
        subst hx; subst hy
        exact t5
      obtain ⟨s2, u1, u2, u3, u4⟩ := ih (past ++ [s.trace]) s' (by simp; omega) hp h4' t7 (by rw [t3 _ hdl]; exact h6)
      refine ⟨s2, ?_, u2, ?_, u4.trans t4⟩
      · simp only [getLoop, t1, if_neg hn]
        exact u1
      · intro x hx
        rw [u3 x hx, t3 x hx]

/-- a server that always delivers -/
theorem delivers_always {env : Env} {tries : Nat} {uri : Str} (ht : 0 < tries) (h : ∀ tr, ∃ b, env.serve tr uri = .body b none) :
    Delivers env tries uri := by
  refine ⟨fun tr => .inl (h tr), ?_⟩
  intro trs hl _
  cases trs with
  | nil => simp at hl; omega
  | cons tr t => exact ⟨tr, by simp, h tr⟩

theorem updateResource_succeeds {env : Env} {c : ClientCfg} {r : Resource} (hw : Works env c.tries r.uri) (hd : c.dryrun = false)
    {fn : Str} {l : Loc} (hl : location env.cwd fn = l) (hdir : location env.cwd (dirname fn) = l.dropLast)
    {places : Loc → Prop} (hm : places l) {s : St} (hc : FreeFor places s.world.fs) :
    ∃ s' n, updateResource env c s r fn = (s', .ok n) ∧ FreeFor places s'.world.fs ∧ s'.world.state = s.world.state := by
  have hne := hc.ne_nil hm
  have hnd := hc.noDir l hm
  have hway := hc.noFile l hm
  have hdl : l.dropLast <+: l := List.dropLast_prefix l
  have hdl' : l.dropLast ≠ l := by
    intro e
    have := congrArg List.length e
    rw [List.length_dropLast] at this
    have : l.length ≠ 0 := by simpa using hne
    omega
  obtain ⟨s1, m1, m2, m3, m4⟩ := mkpath_ok hw.mkdir l.dropLast [] s (get_root _) (by
    intro p hp
    rw [List.nil_append] at hp
    refine hway p (hp.trans hdl) ?_
    rintro rfl
    have := hp.length_le
    rw [List.length_dropLast] at this
    have : p.length ≠ 0 := by simpa using hne
    omega)
  rw [List.nil_append] at m2
  have hnd1 : s1.world.fs.get l ≠ some .dir := by
    rcases m4 l with h | ⟨-, -, h⟩
    · rw [h]; exact hnd
    · have := h.length_le
      rw [List.nil_append, List.length_dropLast] at this
      have : l.length ≠ 0 := by simpa using hne
      omega
  obtain ⟨s2, hloop, ⟨fb, fm, f1⟩, f2, f3⟩ := getLoop_succeeds hw.serve hw.open_ hne hdl' c.ignore_failures c.tries [] s1 (by simp)
    (by simp) (by simp) hnd1 m2
  have htime : ∃ s3, setTime s2 l r.timestamp = (s3, .ok ()) ∧ (∃ b m, s3.world.fs.get l = some (.file b m)) ∧
      (∀ x, x ≠ l → s3.world.fs.get x = s2.world.fs.get x) ∧ s3.world.state = s2.world.state := by
    unfold setTime
    rw [f1]
    cases hts : r.timestamp with
    | none => exact ⟨s2, rfl, ⟨_, _, f1⟩, fun _ _ => rfl, rfl⟩
    | some t =>
      refine ⟨_, rfl, ?_, ?_, ?_⟩
      · rw [St.seen_world]
        simp only [St.emit, World.apply, Effect.onFs, f1, get_set_self _ _ _ hne]
        exact ⟨_, _, rfl⟩
      · intro x hx
        rw [St.seen_world]
        simp only [St.emit, World.apply, Effect.onFs, f1, get_set_other _ _ _ _ hx]
      · rw [St.seen_world]; rfl
  obtain ⟨s3, t1, ⟨b3, m3', t2⟩, t3, t4⟩ := htime
  refine ⟨s3, 1, ?_, ?_, by rw [t4, f3, m3]⟩
  · unfold updateResource
    rw [hdir, m1]
    simp only [hd, Bool.false_eq_true, if_false, hl, hloop, t1]
  · have hx : ∀ x, x ≠ l → s3.world.fs.get x = s.world.fs.get x ∨
        (s.world.fs.get x = none ∧ s3.world.fs.get x = some .dir ∧ x <+: l) := by
      intro x hx
      rw [t3 x hx, f2 x hx]
      rcases m4 x with h | ⟨h1, h2, h3⟩
      · exact .inl h
      · exact .inr ⟨h1, h2, h3.trans hdl⟩
    refine ⟨hc.apart, ?_, ?_⟩
    · intro t ht
      by_cases e : t = l
      · rw [e, t2]; simp
      · rcases hx t e with h | ⟨-, -, h⟩
        · rw [h]; exact hc.noDir t ht
        · exact absurd (hc.apart _ _ ht hm h) e
    · rintro t ht p hp hpt ⟨bb, mm, hf⟩
      unfold IsFile at hf
      by_cases e : p = l
      · subst e
        exact hpt (hc.apart _ _ hm ht hp)
      · rcases hx p e with h | ⟨-, h, -⟩
        · rw [h] at hf
          exact hc.noFile t ht p hp hpt ⟨bb, mm, hf⟩
        · rw [h] at hf; cases hf

theorem forEach_succeeds {f : St → Resource → St × Except ClientErr Unit} (I : St → Prop) (rs : List Resource)
    (hf : ∀ r ∈ rs, ∀ s, I s → ∃ s', f s r = (s', .ok ()) ∧ I s') : ∀ s, I s → ∃ s', forEach f rs s = (s', .ok ()) ∧ I s' := by
  induction rs with
  | nil => intro s hs; exact ⟨s, rfl, hs⟩
  | cons r t ih =>
    intro s hs
    obtain ⟨s1, h1, h2⟩ := hf r List.mem_cons_self s hs
    obtain ⟨s2, h3, h4⟩ := ih (fun r hr => hf r (List.mem_cons_of_mem _ hr)) s1 h2
    exact ⟨s2, by simp only [forEach, h1, h3], h4⟩

theorem deleteResource_state (env : Env) (c : ClientCfg) (allow : Bool) (s : St) (r : Resource) (fn : Str) :
    (deleteResource env c allow s r fn).1.world.state = s.world.state := by
  unfold deleteResource
  simp only
  split
  · rw [St.seen_world]
  · split
    · rw [St.seen_world]
    · split
      · split
        · rw [St.seen_world]
        · simp only [St.emit, World.apply, St.seen_world]
      · rw [St.seen_world]

end Resync
