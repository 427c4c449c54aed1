import Verif.Props.PublishedChanges
import Verif.Props.FirstCopy
import Verif.Props.Mirror
/-
C106: a client follows a directory: it makes a copy of it from its published list (C78), and later takes over what has changed from the
change list that the publisher has made by comparing the directory with the list (C91).
-/

namespace Resync
open Py Resync.Spec

theorem reach_unique {names : List Str} : ∀ {cs : List FNode} {n n' : FNode}, RealDir cs → Reach cs names n → Reach cs names n' →
    n = n' := by
  induction names with
  | nil => intro cs n n' _ h _; exact absurd rfl (reach_ne h)
  | cons x t ih =>
    intro cs n n' hreal h h'
    cases hreal with
    | mk hnd hnm hsub =>
      have same : ∀ y ∈ cs, ∀ z ∈ cs, y.name = z.name → y = z := fun y hy z hz e => List.inj_on_of_nodup_map hnd hy hz e
      cases h with
      | here h1 =>
        generalize hx : n.name = x at h'
        cases h' with
        | here h2 => exact same _ h1 _ h2 hx
        | sub h2 h2' => exact absurd rfl (reach_ne h2')
      | sub h1 h1' =>
        cases h' with
        | here h2 => exact absurd rfl (reach_ne h1')
        | sub h2 h2' =>
          have := same _ h1 _ h2 rfl
          simp only [FNode.dir.injEq, true_and] at this
          subst this
          exact ih (hsub _ _ _ h1) h1' h2'

theorem eligible_unique {p : Str → Prop} {cs : List FNode} (hr : RealDir cs) {names : List Str} {st st' : Stat}
    (h : Eligible p cs names st) (h' : Eligible p cs names st') : st = st' := by
  obtain ⟨⟨nm, sp, h⟩, -⟩ := h
  obtain ⟨⟨nm', sp', h'⟩, -⟩ := h'
  have := reach_unique hr h h'
  simp only [FNode.file.injEq, Option.some.injEq] at this
  exact this.2.2

/-- what a directory has: for the URI of each file that is not excluded its content and time -/
def DirHas (c : WriteCfg) (m : Map) (cs : List FNode) (S : Snapshot) : Prop :=
  ∀ u content t, S u = some (content, t) ↔
    ∃ names st, Eligible (ExcludedBy c) cs names st ∧ u = siteUri m names ∧ st.content.getD [] = content ∧ st.mtime = t

/-- the names in the directory, and the files that matter can be read and have times from 1970 to 9999 -/
structure Tree (c : WriteCfg) (wenv : WriteEnv) (m : Map) (cs : List FNode) : Prop where
  site : Site c wenv m cs
  dots : ∀ names n, Reach cs names n → ∀ x ∈ names, x ≠ ".".toList ∧ x ≠ "..".toList
  readable : ∀ names st, Eligible (ExcludedBy c) cs names st → st.content ≠ none
  years : ∀ names st, Eligible (ExcludedBy c) cs names st → 0 ≤ st.mtime ∧ st.mtime ≤ 253402300798

theorem Tree.plain {c : WriteCfg} {wenv : WriteEnv} {m : Map} {cs : List FNode} (h : Tree c wenv m cs)
    {names : List Str} {st : Stat} (he : Eligible (ExcludedBy c) cs names st) : names ≠ [] ∧ (∀ n ∈ names, PlainName n) := by
  obtain ⟨⟨nm, sp, hr⟩, -⟩ := he
  refine ⟨reach_ne hr, ?_⟩
  intro x hx
  obtain ⟨h1, h2⟩ := reach_names h.site.real hr x hx
  obtain ⟨h3, h4⟩ := h.dots _ _ hr x hx
  exact ⟨⟨h1, h3, h4, h2⟩, (h.site.names _ _ hr x hx).1⟩

theorem Tree.inj {c : WriteCfg} {wenv wenv' : WriteEnv} {m : Map} {cs cs' : List FNode} (h : Tree c wenv m cs) (h' : Tree c wenv' m cs')
    {names names' : List Str} {st st' : Stat} (he : Eligible (ExcludedBy c) cs names st) (he' : Eligible (ExcludedBy c) cs' names' st')
    (hu : siteUri m names = siteUri m names') : names = names' :=
  uriBelow_inj (m := m) (h.plain he).1 (h'.plain he').1 (fun n hn => ((h.plain he).2 n hn).1) (fun n hn => ((h'.plain he').2 n hn).1) hu

open Classical in
theorem Tree.has {c : WriteCfg} {wenv : WriteEnv} {m : Map} {cs : List FNode} (h : Tree c wenv m cs) : ∃ S, DirHas c m cs S := by
  refine ⟨fun u => if hu : ∃ p : List Str × Stat, Eligible (ExcludedBy c) cs p.1 p.2 ∧ u = siteUri m p.1 then
      some ((Classical.choose hu).2.content.getD [], (Classical.choose hu).2.mtime) else none, ?_⟩
  intro u content t
  constructor
  · intro hs
    simp only at hs
    split at hs
    · rename_i hu
      obtain ⟨h1, h2⟩ := Classical.choose_spec hu
      simp only [Option.some.injEq, Prod.mk.injEq] at hs
      exact ⟨_, _, h1, h2, hs.1, hs.2⟩
    · cases hs
  · rintro ⟨names, st, h1, h2, h3, h4⟩
    have hu : ∃ p : List Str × Stat, Eligible (ExcludedBy c) cs p.1 p.2 ∧ u = siteUri m p.1 := ⟨(names, st), h1, h2⟩
    obtain ⟨k1, k2⟩ := Classical.choose_spec hu
    have hn := h.inj h k1 h1 (k2.symm.trans h2)
    rw [hn] at k1
    have hst := eligible_unique h.site.real k1 h1
    simp only
    rw [dif_pos hu, hst, h3, h4]

theorem DirHas.of {c : WriteCfg} {m : Map} {cs : List FNode} {S : Snapshot} (h : DirHas c m cs S) {names : List Str} {st : Stat}
    (he : Eligible (ExcludedBy c) cs names st) : S (siteUri m names) = some (st.content.getD [], st.mtime) :=
  (h _ _ _).mpr ⟨names, st, he, rfl, rfl, rfl⟩

theorem DirHas.some {c : WriteCfg} {m : Map} {cs : List FNode} {S : Snapshot} (h : DirHas c m cs S) {u : Str} (hu : S u ≠ none) :
    ∃ names st, Eligible (ExcludedBy c) cs names st ∧ u = siteUri m names ∧ S u = some (st.content.getD [], st.mtime) := by
  cases hs : S u with
  | none => exact absurd hs hu
  | some p =>
    obtain ⟨names, st, h1, h2, h3, h4⟩ := (h u p.1 p.2).mp hs
    exact ⟨names, st, h1, h2, by rw [h3, h4]⟩

/-- a copy of something very near to what the directory has is a copy of the directory -/
theorem copyOf_near {c : WriteCfg} {wenv : WriteEnv} {m mm : Map} {cs : List FNode} (h : Tree c wenv m cs) (hsame : mm.src_uri = m.src_uri)
    {S S' : Snapshot} (hS : DirHas c m cs S) (hn : NearSnapshot S S') {cc : ClientCfg} {cwd root : Loc} {fs : Fs}
    (hm : Sites cc cwd [(mm, root)] fs) (hc : IsCopy [(mm, root)] fs S') : CopyOf c cs root fs := by
  have hb : ∀ names, siteUri m names = uriBelow mm names := by intro names; unfold siteUri uriBelow; rw [hsame]
  constructor
  · intro names st he
    obtain ⟨p1, p2⟩ := h.plain he
    have h1 := hS.of he
    obtain ⟨n1, n2⟩ := hn (siteUri m names)
    rw [h1] at n1 n2
    cases hs : S' (siteUri m names) with
    | none => rw [hs] at n1; cases n1
    | some p =>
      obtain ⟨b, t⟩ := p
      rw [hs] at n1 n2
      simp only [Option.map_some, Option.some.injEq] at n1 n2
      obtain ⟨n2, n3⟩ := n2
      have hf := (hc (mm, root) (by simp) names p1 p2 b (truncRat t)).mpr ⟨t, by rw [← hb]; exact hs, rfl⟩
      obtain ⟨t1, t2⟩ := truncRat_near t
      refine ⟨b, _, ?_, hf, by linarith, by linarith⟩
      cases hcn : st.content with
      | none => exact absurd hcn (h.readable _ _ he)
      | some b' => rw [hcn] at n1; simp only [Option.getD_some] at n1; rw [n1]
  · rintro l ⟨names, rfl⟩ ⟨b, t, hf⟩
    have hne : names ≠ [] := by
      rintro rfl
      rw [List.append_nil] at hf
      exact hm.notFile (mm, root) (by simp) ⟨b, t, hf⟩
    have hmem := mem_of_get (by simp [hne]) hf
    have hpl : ∀ n ∈ names, PlainName n := fun n hn =>
      ⟨hm.proper.names _ hmem n (List.mem_append_right _ hn), hm.names _ hmem n (List.mem_append_right _ hn)⟩
    obtain ⟨t', h1, h2⟩ := (hc (mm, root) (by simp) names hne hpl b t).mp hf
    obtain ⟨n1, -⟩ := hn (uriBelow mm names)
    rw [h1] at n1
    have hsn : S (uriBelow mm names) ≠ none := by intro e; rw [e] at n1; cases n1
    obtain ⟨names', st, k1, k2, -⟩ := hS.some hsn
    have : names = names' := uriBelow_inj (m := mm) hne (h.plain k1).1 (fun n hn => (hpl n hn).1)
      (fun n hn => ((h.plain k1).2 n hn).1) (by rw [k2, hb])
    subst this
    exact ⟨names, st, k1, rfl⟩


/-- an entry that was read can be written again -/
theorem expressible_recorded {r e : Resource} (hx : Expressible r) (hln : r.ln = none) (h : RecordedNear false false r e)
    (ht : ∀ t, e.timestamp = some t ∨ e.ts_datetime = some t → InYears t) : Expressible e := by
  obtain ⟨a, hn, hr⟩ := h
  have f : ∀ {α : Type} (g : Resource → α), (∀ r, g (timeless r) = g r) → g a = g (timeless r) := by
    intro α g hg
    rw [← hg a, hn.rest]
  have o := hx.rest
  obtain ⟨l1, l2, l3, l4⟩ := hr.lost
  constructor
  · refine ⟨?_, ?_, ?_, ?_, (by intro t ht; cases ht), (by intro t ht; cases ht), (by intro t ht; cases ht), (by intro t ht; cases ht),
      (by intro t ht; cases ht), (by intro t ht; cases ht), ?_, ?_, ?_, ?_, ?_, ?_, ?_⟩
    · show e.uri ≠ []
      rw [hr.uri, f (·.uri) (fun _ => rfl)]; exact o.uri_ne
    · show XmlOk e.uri
      rw [hr.uri, f (·.uri) (fun _ => rfl)]; exact o.uri
    · show '\r' ∉ e.uri
      rw [hr.uri, f (·.uri) (fun _ => rfl)]; exact o.uri_cr
    · show ValidChange e.change
      rw [hr.change, f (·.change) (fun _ => rfl)]; exact o.change
    · show ∀ v, e.mime_type = some v → _
      rw [hr.mime_type, f (·.mime_type) (fun _ => rfl)]; exact o.mime_type
    · show ∀ v, e.path = some v → _
      rw [hr.path, f (·.path) (fun _ => rfl)]; exact o.path
    · show ∀ v, e.capability = some v → _
      rw [hr.capability, f (·.capability) (fun _ => rfl)]; exact o.capability
    · show ∀ v, e.md5 = some v → _
      rw [hr.md5, f (·.md5) (fun _ => rfl)]; exact o.md5
    · show ∀ v, e.sha1 = some v → _
      rw [hr.sha1, f (·.sha1) (fun _ => rfl)]; exact o.sha1
    · show ∀ v, e.sha256 = some v → _
      rw [hr.sha256, f (·.sha256) (fun _ => rfl)]; exact o.sha256
    · intro ls hls l hl
      have hls : e.ln = some ls := hls
      have h1 := hr.ln
      have h2 : a.ln = none := by
        rw [f (·.ln) (fun _ => rfl)]; exact hln
      rw [hls, h2] at h1
      simp only [Option.getD_none, Option.getD_some] at h1
      cases h1
      cases hl
  · intro t h
    rw [l1, l2, l3, l4] at h
    simp only [reduceCtorEq, or_false] at h
    exact ht t h

/-- The publisher has compared the directory, as it is now (`cs'`), with the list that was published when it was as it was (`cs`), and
serves the change list at the file `g` of the directory; a client knows where the lists are, may use them, and is served the files as
they are.  The clocks and hash functions are the same. -/
structure Followed (c : WriteCfg) (wenv wenv' : WriteEnv) (m : Map) (cs cs' : List FNode) (f g : Str) (links clinks : Option (List Link))
    (before before' : Str → Option FileState) (cc : ClientCfg) (env env' : Env) (mm : Map) (uri : Option Str) : Prop where
  mirror : Mirror c wenv m cs f links before cc env mm
  old : Tree c wenv m cs
  new : Tree c wenv' m cs'
  lib : wenv'.lib = wenv.lib
  reference : Serves m (runFs before (writeResourceList c wenv none (some (m.dst_path ++ '/' :: f)) links false).1.files) wenv'.docAt
  clinksOk : ∀ x ∈ clinks.getD [], LinkOk x
  fits : ∀ cl, changeListEntries c wenv' none (m.src_uri ++ '/' :: f) none false = .ok cl →
    cl.length ≤ max 1 (c.max_sitemap_entries.getD 50000)
  asked : cc.disc.sitemapUri (cc.changeListName uri) = .ok (m.src_uri ++ '/' :: g)
  changes : ∃ docAt, env'.changeList = readChangeList docAt ∧ docAt (m.src_uri ++ '/' :: g) =
    fileDoc (runFs before' (writeChangeList c wenv' none (some (m.dst_path ++ '/' :: g)) (m.src_uri ++ '/' :: f) none false clinks false).1.files
      (m.dst_path ++ '/' :: g))
  stays : env'.ft = env.ft ∧ env'.cwd = env.cwd
  auth : cc.noauth = true ∨ ((∃ a, UrlAuthority.new (some (m.src_uri ++ '/' :: f)) false = some a) ∧
    (∃ a, UrlAuthority.new (some (m.src_uri ++ '/' :: g)) cc.strictauth = some a) ∧
    ∀ names st, Eligible (ExcludedBy c) cs names st ∨ Eligible (ExcludedBy c) cs' names st →
      Authorised cc.strictauth (m.src_uri ++ '/' :: f) (siteUri m names) ∧ Authorised cc.strictauth (m.src_uri ++ '/' :: g) (siteUri m names))
  served : ∀ names st, Eligible (ExcludedBy c) cs names st → Delivers env cc.tries (siteUri m names) ∧
    ∀ tr b, env.serve tr (siteUri m names) = .body b none → st.content = some b
  served' : ∀ names st, Eligible (ExcludedBy c) cs' names st → Delivers env' cc.tries (siteUri m names) ∧
    ∀ tr b, env'.serve tr (siteUri m names) = .body b none → st.content = some b
  disk : DiskWorks env ∧ DiskWorks env'

/-- How the directory has changed, seen from the time `t0`: what is still there is as it was or differs in size or by more than a second,
and was modified after `t0`; so were the files that are new, and those that are gone. -/
structure ChangedSince (c : WriteCfg) (cs cs' : List FNode) (t0 : Rat) : Prop where
  still : ∀ names st st', Eligible (ExcludedBy c) cs names st → Eligible (ExcludedBy c) cs' names st' → st' = st ∨
    (t0 + 1 / 1000000 ≤ st'.mtime ∧ (st'.size ≠ st.size ∨ st.mtime + 1 + 1 / 1000000 ≤ st'.mtime ∨ st'.mtime + 1 + 1 / 1000000 ≤ st.mtime))
  created : ∀ names st', Eligible (ExcludedBy c) cs' names st' → (∀ st, ¬ Eligible (ExcludedBy c) cs names st) →
    t0 + 1 / 1000000 ≤ st'.mtime
  deleted : ∀ names st, Eligible (ExcludedBy c) cs names st → (∀ st', ¬ Eligible (ExcludedBy c) cs' names st') →
    t0 + 2 / 1000000 ≤ st.mtime

theorem entryFor_eq {lib : HashLib} {hashes : List Str} {st : Stat} {u : Str} {e r : Resource} (he : EntryFor lib hashes st e)
    (hr : EntryFor lib hashes st r) (hrt : r.timestamp = some st.mtime) (hu : e.uri = u) (hu' : r.uri = u) : e.eq (some r) = true := by
  unfold Resource.eq Resource.equal
  have h0 : timesDiffer e.timestamp r.timestamp 1 = false := by
    rw [hrt]; exact timesDiffer_near he.lastmod
  have hb : ∀ {α : Type} [DecidableEq α] (x : Option α), bothDiffer x x = false := by
    intro α _ x; cases x <;> simp [bothDiffer]
  simp only
  rw [if_neg (by rw [hu, hu']; simp), if_neg (by rw [h0]; simp), he.md5, hr.md5, he.sha1, hr.sha1, he.sha256, hr.sha256, he.length, hr.length,
    if_neg (by rw [hb]; simp), if_neg (by rw [hb]; simp), if_neg (by rw [hb]; simp), if_neg (by rw [hb]; simp)]

theorem entryFor_differ {lib : HashLib} {hashes : List Str} {st st' : Stat} {e r : Resource} (he : EntryFor lib hashes st e)
    (hr : EntryFor lib hashes st' r) (hrt : r.timestamp = some st'.mtime)
    (hd : st'.size ≠ st.size ∨ st.mtime + 1 + 1 / 1000000 ≤ st'.mtime ∨ st'.mtime + 1 + 1 / 1000000 ≤ st.mtime) :
    e.eq (some r) = false := by
  cases hb : e.eq (some r) with
  | false => rfl
  | true =>
    exfalso
    unfold Resource.eq Resource.equal at hb
    simp only at hb
    split at hb
    · cases hb
    split at hb
    · cases hb
    rename_i _ htd
    split at hb
    · cases hb
    split at hb
    · cases hb
    split at hb
    · cases hb
    split at hb
    · cases hb
    rename_i hlen
    have hl := he.lastmod
    cases ht : e.timestamp with
    | none => rw [ht] at hl; exact hl.elim
    | some x =>
      rw [ht] at hl
      obtain ⟨h1, h2⟩ := hl
      rw [ht, hrt] at htd
      rw [he.length, hr.length] at hlen
      simp only [timesDiffer, pyAbs] at htd
      rcases hd with hd | hd | hd
      · apply hlen
        simp [bothDiffer]
        exact fun e => hd e.symm
      · split at htd <;> rw [decide_eq_true_eq] at htd <;> linarith
      · split at htd <;> rw [decide_eq_true_eq] at htd <;> linarith


/-- what the list that was read says, entry by entry -/
structure OldList (c : WriteCfg) (lib : HashLib) (m : Map) (cs : List FNode) (old : Dict Resource) : Prop where
  describes : DescribesDir c lib m cs old
  ok : ∀ k r, dget old k = some r → Expressible r ∧ r.ts_datetime = none

theorem oldList_of {c : WriteCfg} {wenv : WriteEnv} {m : Map} {cs : List FNode} (ht : Tree c wenv m cs) {d old : Dict Resource} {ex : List Re}
    (hd : ∀ u r, dget d u = some r ↔ ∃ names st, Eligible (ExcludedBy c) cs names st ∧ u = siteUri m names ∧
        r = describes (clientBuilder c ex false) wenv.lib u (m.dst_path ++ '/' :: join ['/'] names) st)
    (h : SameListNear false false d old) : OldList c wenv.lib m cs old := by
  refine ⟨describesDir_of hd h, ?_⟩
  intro k r hr
  have h1 := h k
  rw [hr] at h1
  cases hx : dget d k with
  | none => rw [hx] at h1; exact h1.elim
  | some x =>
    rw [hx] at h1
    obtain ⟨names, st, h2, rfl, rfl⟩ := (hd k x).mp hx
    have hdt : r.ts_datetime = none := by
      obtain ⟨a, hn, hrec⟩ := h1
      have n := hn.ts_datetime
      rw [describes_client] at n
      have e := hrec.ts_datetime
      simp only [Bool.false_eq_true, if_false] at e
      rw [e]
      cases ha : a.ts_datetime with
      | none => rfl
      | some y => rw [ha] at n; exact n.elim
    refine ⟨expressible_recorded (site_expressible ht.site h2 _) (by rw [describes_client]) h1 ?_, hdt⟩
    intro t h
    rw [hdt] at h
    simp only [reduceCtorEq, or_false] at h
    have hl := (entryFor_recorded h1).2.lastmod
    rw [h] at hl
    obtain ⟨a1, a2⟩ := hl
    obtain ⟨y1, y2⟩ := ht.years _ _ h2
    constructor <;> linarith

/-- the publisher's view: what it has listed, what it has now, and that these are the states of the directory -/
theorem Followed.publication {c : WriteCfg} {wenv wenv' : WriteEnv} {m : Map} {cs cs' : List FNode} {f g : Str}
    {links clinks : Option (List Link)} {before before' : Str → Option FileState} {cc : ClientCfg} {env env' : Env} {mm : Map}
    {uri : Option Str} (h : Followed c wenv wenv' m cs cs' f g links clinks before before' cc env env' mm uri) {SO SN : Snapshot}
    (hO : DirHas c m cs SO) (hN : DirHas c m cs' SN)
    (hstill : ∀ names st st', Eligible (ExcludedBy c) cs names st → Eligible (ExcludedBy c) cs' names st' → st' = st ∨
      (st'.size ≠ st.size ∨ st.mtime + 1 + 1 / 1000000 ≤ st'.mtime ∨ st'.mtime + 1 + 1 / 1000000 ≤ st.mtime)) :
    ∃ old new, Publication c wenv' none none (m.src_uri ++ '/' :: f) old new SO SN ∧ OldList c wenv.lib m cs old ∧
      ∀ u r, dget new u = some r ↔ ∃ names st ex, Eligible (ExcludedBy c) cs' names st ∧ u = siteUri m names ∧
        r = describes (clientBuilder c ex false) wenv.lib u (m.dst_path ++ '/' :: join ['/'] names) st := by
  obtain ⟨-, l, d, ex, k1, k2, k3, -⟩ := published_near c wenv m cs h.old.site h.mirror.multi f h.mirror.file links h.mirror.linksOk
    h.mirror.stat before { mapper := some c.mapper, uw := wenv'.uw, docAt := wenv'.docAt } ⟨rfl, rfl, rfl⟩
    (by rcases h.mirror.scheme with h | h; exact .inl h; exact .inr ⟨h, rfl⟩) h.reference
  have hold := oldList_of h.old k3 k2
  obtain ⟨rl, ex', b1, b2, -, -, b5⟩ := build_site h.new.site false
  have hread : readReference c wenv' (m.src_uri ++ '/' :: f) = .ok l.resources := by
    unfold readReference
    rw [h.mirror.multi]
    simp only [Bool.not_true, k1]
  have hnew : newState c wenv' none none = .ok rl.dict := by
    unfold newState
    simp only [b1]
    rfl
  have wo := readReference_WF hread
  rw [h.lib] at b5
  have en : ∀ {names st}, Eligible (ExcludedBy c) cs' names st → ∀ ex,
      EntryFor wenv.lib c.hashes st (describes (clientBuilder c ex false) wenv.lib (siteUri m names) (m.dst_path ++ '/' :: join ['/'] names) st) ∧
      (describes (clientBuilder c ex false) wenv.lib (siteUri m names) (m.dst_path ++ '/' :: join ['/'] names) st).timestamp = some st.mtime := by
    intro names st _ ex
    rw [describes_client]
    exact ⟨⟨⟨by linarith, by linarith⟩, fun _ => rfl, rfl, rfl, rfl, rfl⟩, rfl⟩
  refine ⟨l.resources, rl.dict, ⟨hread, hnew, fun k r hr => (hold.ok k r hr).1, ?_, ?_, h.fits, ?_, ?_, ?_, ?_⟩, hold, ?_⟩
  · intro k r hr
    obtain ⟨names, st, q1, rfl, rfl⟩ := (b5 k r).mp hr
    rw [← h.lib]
    exact site_expressible h.new.site q1 _
  · intro k r hr
    rcases hr with hr | hr
    · exact (hold.ok k r hr).2
    · obtain ⟨names, st, q1, rfl, rfl⟩ := (b5 k r).mp hr
      rw [describes_client]
  · intro u
    constructor
    · intro hu
      by_contra hne
      obtain ⟨names, st, q1, rfl, -⟩ := hO.some hne
      obtain ⟨e, q2, -⟩ := hold.describes.complete _ _ q1
      rw [hu] at q2; cases q2
    · intro hu
      cases hg : dget l.resources u with
      | none => rfl
      | some e =>
        obtain ⟨-, names, st, q1, rfl, -⟩ := hold.describes.sound _ _ hg
        rw [hO.of q1] at hu; cases hu
  · constructor
    · intro u r hr
      obtain ⟨names, st, q1, rfl, rfl⟩ := (b5 u r).mp (dget_of_mem b2.1 hr)
      exact ⟨_, _, hN.of q1, (en q1 ex').2⟩
    · intro u hu
      obtain ⟨names, st, q1, rfl, -⟩ := hN.some hu
      exact ⟨_, mem_of_dget ((b5 _ _).mpr ⟨names, st, q1, rfl, rfl⟩)⟩
  · intro u r r' hr hr' heq
    obtain ⟨hur, names, st, q1, rfl, q2⟩ := hold.describes.sound _ _ hr
    obtain ⟨names', st', q3, q4, rfl⟩ := (b5 _ _).mp hr'
    have := h.old.inj h.new q1 q3 q4
    subst this
    rcases hstill _ _ _ q1 q3 with rfl | hd
    · rw [hO.of q1, hN.of q3]
    · have := entryFor_differ q2 (en q3 ex').1 (en q3 ex').2 hd
      rw [heq] at this; cases this
  · intro u r t hr ht
    rcases hr with hr | hr
    · obtain ⟨-, names, st, q1, rfl, q2⟩ := hold.describes.sound _ _ hr
      have := q2.lastmod
      rw [ht] at this
      obtain ⟨a1, a2⟩ := this
      have := (h.old.years _ _ q1).2
      linarith
    · obtain ⟨names, st, q1, rfl, rfl⟩ := (b5 u r).mp hr
      rw [(en q1 ex').2] at ht
      cases ht
      have := (h.new.years _ _ q1).2
      linarith
  · intro u r
    rw [b5]
    constructor
    · rintro ⟨names, st, q1, q2, q3⟩
      exact ⟨names, st, ex', q1, q2, q3⟩
    · rintro ⟨names, st, ex2, q1, q2, q3⟩
      refine ⟨names, st, q1, q2, ?_⟩
      rw [q3, describes_client, describes_client]

/-- the destination of the client, and room at it for the files of both states of the directory -/
structure Destination (c : WriteCfg) (cs cs' : List FNode) (cc : ClientCfg) (env : Env) (mm : Map) (root : Loc) (places : Loc → Prop) (w : World) :
    Prop where
  stands : Stands env.ft env.cwd cc [(mm, root)] places w (fun _ => none)
  room : ∀ names st, Eligible (ExcludedBy c) cs names st ∨ Eligible (ExcludedBy c) cs' names st → places (root ++ names)

theorem DirHas.belowSites {c : WriteCfg} {wenv : WriteEnv} {m mm : Map} {cs : List FNode} (h : Tree c wenv m cs) (hsame : mm.src_uri = m.src_uri)
    {S : Snapshot} (hS : DirHas c m cs S) {root : Loc} {u : Str} (hu : S u ≠ none) : BelowSites [(mm, root)] u := by
  obtain ⟨names, st, q1, rfl, -⟩ := hS.some hu
  obtain ⟨p1, p2⟩ := h.plain q1
  exact ⟨(mm, root), by simp, names, p1, p2, by unfold siteUri uriBelow; rw [hsame]⟩

theorem DirHas.placeOf {c : WriteCfg} {wenv : WriteEnv} {m mm : Map} {cs : List FNode} (h : Tree c wenv m cs) (hsame : mm.src_uri = m.src_uri)
    {S S' : Snapshot} (hS : DirHas c m cs S) (hn : ∀ u, S' u ≠ none → S u ≠ none) {root l : Loc} (hl : PlaceOf [(mm, root)] S' l) :
    ∃ names st, Eligible (ExcludedBy c) cs names st ∧ l = root ++ names := by
  obtain ⟨p, hp, names, h1, h2, h3, h4⟩ := hl
  simp only [List.mem_singleton] at hp
  subst hp
  obtain ⟨names', st, q1, q2, -⟩ := hS.some (hn _ h4)
  have : names = names' := uriBelow_inj (m := mm) h1 (h.plain q1).1 (fun n hn => (h2 n hn).1) (fun n hn => ((h.plain q1).2 n hn).1)
    (by rw [q2]; unfold siteUri uriBelow; rw [hsame])
  subst this
  exact ⟨names, st, q1, h3⟩

theorem near_none {S S' : Snapshot} (h : NearSnapshot S S') (u : Str) : S' u ≠ none ↔ S u ≠ none := by
  have := (h u).1
  cases h1 : S u <;> cases h2 : S' u <;> rw [h1, h2] at this <;> simp at this ⊢

/-- the first sync: a copy, and the time that is stored -/
theorem Followed.first {c : WriteCfg} {wenv wenv' : WriteEnv} {m : Map} {cs cs' : List FNode} {f g : Str}
    {links clinks : Option (List Link)} {before before' : Str → Option FileState} {cc : ClientCfg} {env env' : Env} {mm : Map}
    {uri : Option Str} (h : Followed c wenv wenv' m cs cs' f g links clinks before before' cc env env' mm uri)
    (hft : FloatOk env.ft) (hu : SetUp cc (m.src_uri ++ '/' :: f)) (s : St) (hh : ∀ t ∈ s.hashes, HashType t)
    (root : Loc) (places : Loc → Prop) (hd : Destination c cs cs' cc env mm root places s.world)
    (hpos : ∃ names st, Eligible (ExcludedBy c) cs names st ∧ 1 ≤ st.mtime) :
    (baselineOrAudit env cc true false s).2 = .ok () ∧
    ∃ SO S0, DirHas c m cs SO ∧ NearSnapshot SO S0 ∧
      Stands env.ft env.cwd cc [(mm, root)] places (baselineOrAudit env cc true false s).1.world S0 ∧
      ∃ t, startTime env cc none (baselineOrAudit env cc true false s).1 = .ok t ∧
        (∃ names st, Eligible (ExcludedBy c) cs names st ∧ t < st.mtime + 1 / 1000000) ∧
        ∀ names st, Eligible (ExcludedBy c) cs names st → st.mtime < t + 1 / 1000000 := by
  obtain ⟨SO, hO⟩ := h.old.has
  obtain ⟨hk, src, hfound, hw, hdesc, hreg⟩ := h.mirror.finds
  have hsame := h.mirror.same
  -- what the list says
  let S0 : Snapshot := fun u => match dget src u, SO u with
    | some e, some p => some (p.1, e.timestamp.getD 0)
    | _, _ => none
  have val : ∀ {names st}, Eligible (ExcludedBy c) cs names st → ∃ e x, dget src (siteUri m names) = some e ∧ e.timestamp = some x ∧
      st.mtime - 1 / 1000000 < x ∧ x < st.mtime + 1 / 1000000 ∧ S0 (siteUri m names) = some (st.content.getD [], x) := by
    intro names st he
    obtain ⟨e, h1, h2⟩ := hdesc.complete names st he
    have h3 := h2.lastmod
    cases hx : e.timestamp with
    | none => rw [hx] at h3; exact h3.elim
    | some x =>
      rw [hx] at h3
      refine ⟨e, x, h1, hx, h3.1, h3.2, ?_⟩
      simp only [S0, h1, hO.of he, hx, Option.getD_some]
  have back : ∀ u, S0 u ≠ none → ∃ names st, Eligible (ExcludedBy c) cs names st ∧ u = siteUri m names := by
    intro u hne
    cases hs : SO u with
    | none =>
      exfalso
      apply hne
      simp only [S0, hs]
      cases dget src u <;> rfl
    | some p =>
      obtain ⟨names, st, q1, q2, -⟩ := hO.some (u := u) (by rw [hs]; simp)
      exact ⟨names, st, q1, q2⟩
  have hnear : NearSnapshot SO S0 := by
    intro u
    by_cases hs : SO u = none
    · have : S0 u = none := by
        by_contra hne
        obtain ⟨names, st, q1, rfl⟩ := back u hne
        rw [hO.of q1] at hs; cases hs
      rw [hs, this]
      exact ⟨rfl, trivial⟩
    · obtain ⟨names, st, q1, rfl, q2⟩ := hO.some hs
      obtain ⟨e, x, -, -, v1, v2, v3⟩ := val q1
      rw [q2, v3]
      exact ⟨rfl, v1, v2⟩
  have hlists : Lists src S0 := by
    constructor
    · intro u r hr
      obtain ⟨-, names, st, q1, rfl, -⟩ := hdesc.sound u r (dget_of_mem hw.1 hr)
      obtain ⟨e, x, v0, v1, -, -, v3⟩ := val q1
      have : e = r := by
        have := dget_of_mem hw.1 hr
        rw [v0] at this
        cases this; rfl
      subst this
      exact ⟨_, _, v3, v1⟩
    · intro u hu
      obtain ⟨names, st, q1, rfl⟩ := back u hu
      obtain ⟨e, x, v0, -⟩ := val q1
      exact ⟨e, mem_of_dget v0⟩
  obtain ⟨r1, r2, t, r3, ⟨u, b, r4⟩, r5⟩ := C87_first_copy env hft cc (m.src_uri ++ '/' :: f) hu s hh hk [(mm, root)] places src S0 hfound
    (by intro u r hr
        obtain ⟨names, a1, a2, a3⟩ := hreg u r hr
        exact ⟨(mm, root), by simp, names, a1, a2, a3⟩)
    hlists
    (by refine h.auth.imp id ?_
        rintro ⟨-, -, ha⟩ u r hr
        obtain ⟨-, names, st, q1, rfl, -⟩ := hdesc.sound u r (dget_of_mem hw.1 hr)
        exact (ha names st (.inl q1)).1)
    (by intro u content t hu
        obtain ⟨names, st, q1, rfl⟩ := back u (by rw [hu]; simp)
        obtain ⟨e, x, -, -, -, -, v3⟩ := val q1
        rw [v3] at hu
        simp only [Option.some.injEq, Prod.mk.injEq] at hu
        obtain ⟨d1, d2⟩ := h.served names st q1
        refine ⟨d1, ?_⟩
        intro tr b hb
        rw [← hu.1, d2 tr b hb]; rfl)
    h.disk.1 hd.stands
    (by intro l hl
        obtain ⟨names, st, q1, rfl⟩ := hO.placeOf h.old hsame (fun u => (near_none hnear u).mp) hl
        exact hd.room names st (.inl q1))
    (by obtain ⟨names, st, q1, q2⟩ := hpos
        obtain ⟨e, x, -, -, v1, -, v3⟩ := val q1
        exact ⟨_, _, x, v3, by linarith⟩)
    (by intro u content t hu
        obtain ⟨names, st, q1, rfl⟩ := back u (by rw [hu]; simp)
        obtain ⟨e, x, -, -, -, v2, v3⟩ := val q1
        rw [v3] at hu
        simp only [Option.some.injEq, Prod.mk.injEq] at hu
        have := (h.old.years names st q1).2
        unfold Before10000
        rw [← hu.2]
        linarith)
  refine ⟨r1, SO, S0, hO, hnear, r2, t, r3, ?_, ?_⟩
  · obtain ⟨names, st, q1, rfl⟩ := back u (by rw [r4]; simp)
    obtain ⟨e, x, -, -, -, v2, v3⟩ := val q1
    rw [v3] at r4
    simp only [Option.some.injEq, Prod.mk.injEq] at r4
    exact ⟨names, st, q1, by rw [← r4.2]; exact v2⟩
  · intro names st q1
    obtain ⟨e, x, -, -, v1, -, v3⟩ := val q1
    have := r5 _ _ _ v3
    linarith

/-- C106, the part that holds.  A client makes a copy of a published directory; later the publisher compares the directory with the
published list and publishes the change list; the client, in another run, takes over the changes from a time on since when, by their times of last
modification, all new and changed files have been modified – and also those that are gone.  Both syncs succeed; after
the first the destination is a copy of the directory as it was, after the second of the directory as it is.  Missing: without the last
condition, which deletions do not satisfy as a rule (C106_deleted_stays, C106_violated). -/
theorem C106_follow_partial {c : WriteCfg} {wenv wenv' : WriteEnv} {m : Map} {cs cs' : List FNode} {f g : Str}
    {links clinks : Option (List Link)} {before before' : Str → Option FileState} {cc : ClientCfg} {env env' : Env} {mm : Map}
    {uri : Option Str} (h : Followed c wenv wenv' m cs cs' f g links clinks before before' cc env env' mm uri)
    (hft : FloatOk env.ft) (hu : SetUp cc (m.src_uri ++ '/' :: f)) (hv : cc.spec_version = "1.0".toList)
    (s : St) (hh : ∀ t ∈ s.hashes, HashType t)
    (root : Loc) (places : Loc → Prop) (hd : Destination c cs cs' cc env mm root places s.world)
    (hpos : ∃ names st, Eligible (ExcludedBy c) cs names st ∧ 1 ≤ st.mtime)
    (s2 : St) (hs2 : s2.world = (baselineOrAudit env cc true false s).1.world) (hh2 : s2.hashes = [])
    (from_datetime : Option Str) (t0 : Rat) (hstart : startTime env' cc from_datetime s2 = .ok t0) (ht0 : InYears t0)
    (hch : ChangedSince c cs cs' t0) :
    (baselineOrAudit env cc true false s).2 = .ok () ∧ CopyOf c cs root (baselineOrAudit env cc true false s).1.world.fs ∧
    (incremental env' cc true uri from_datetime s2).2 = .ok () ∧ CopyOf c cs' root (incremental env' cc true uri from_datetime s2).1.world.fs := by
  obtain ⟨r1, SO, S0, hO, hnear, hst, -⟩ := h.first hft hu s hh root places hd hpos
  obtain ⟨SN, hN⟩ := h.new.has
  have hsame := h.mirror.same
  obtain ⟨old, new, hp, hold, hnew⟩ := h.publication hO hN (fun names st st' a b => (hch.still names st st' a b).imp id And.right)
  obtain ⟨docAt, hc1, hc2⟩ := h.changes
  have hents : ∀ u, SO u ≠ none ∨ SN u ≠ none →
      ∃ names st, (Eligible (ExcludedBy c) cs names st ∨ Eligible (ExcludedBy c) cs' names st) ∧ u = siteUri m names := by
    rintro u (hu | hu)
    · obtain ⟨names, st, q1, q2, -⟩ := hO.some hu
      exact ⟨names, st, .inl q1, q2⟩
    · obtain ⟨names, st, q1, q2, -⟩ := hN.some hu
      exact ⟨names, st, .inr q1, q2⟩
  have hts : ∀ names st ex, (describes (clientBuilder c ex false) wenv.lib (siteUri m names) (m.dst_path ++ '/' :: join ['/'] names) st).timestamp
      = some st.mtime := by
    intro names st ex; rw [describes_client]
  obtain ⟨i1, S', i2, i3⟩ := C91_applied_partial c wenv' none none (m.src_uri ++ '/' :: f) (m.dst_path ++ '/' :: g) clinks h.clinksOk old new SO SN hp
    before' env' (by rw [h.stays.1]; exact hft) cc (m.src_uri ++ '/' :: f) hu hv uri from_datetime s2 hh2 [(mm, root)] places S0 hnear
    (by rw [h.stays.1, h.stays.2, hs2]; exact hst) docAt hc1 (m.src_uri ++ '/' :: g) h.asked hc2
    (by refine h.auth.imp id ?_
        rintro ⟨a1, a2, a3⟩
        refine ⟨a1, a2, ?_⟩
        intro u hu
        obtain ⟨names, st, q1, rfl⟩ := hents u hu
        exact (a3 names st q1).2)
    (by intro u content t hu
        obtain ⟨names, st, q1, rfl, q2⟩ := hN.some (u := u) (by rw [hu]; simp)
        rw [q2] at hu
        simp only [Option.some.injEq, Prod.mk.injEq] at hu
        obtain ⟨d1, d2⟩ := h.served' names st q1
        refine ⟨d1, ?_⟩
        intro tr b hb
        rw [← hu.1, d2 tr b hb]; rfl)
    h.disk.2 t0 hstart ht0
    (by intro u r hr hne
        obtain ⟨names, st', ex, q1, rfl, rfl⟩ := (hnew u r).mp hr
        refine ⟨st'.mtime, hts names st' ex, ?_⟩
        by_cases hx : ∃ st, Eligible (ExcludedBy c) cs names st
        · obtain ⟨st, q2⟩ := hx
          rcases hch.still _ _ _ q2 q1 with rfl | hx
          · exfalso
            obtain ⟨e, e1, e2⟩ := hold.describes.complete _ _ q2
            have e3 := hne e e1
            rw [entryFor_eq e2 (by rw [describes_client]; exact ⟨⟨by linarith, by linarith⟩, fun _ => rfl, rfl, rfl, rfl, rfl⟩) (hts names _ ex)
              (hold.describes.sound _ _ e1).1 (by rw [describes_client])] at e3
            cases e3
          · exact hx.1
        · exact hch.created _ _ q1 (fun st q2 => hx ⟨st, q2⟩))
    (by intro u r hr hne
        obtain ⟨-, names, st, q1, rfl, q2⟩ := hold.describes.sound u r hr
        have h1 := hch.deleted names st q1 (by
          intro st' q3
          have := (hnew _ _).mpr ⟨names, st', [], q3, rfl, rfl⟩
          rw [hne] at this; cases this)
        have h2 := q2.lastmod
        cases hx : r.timestamp with
        | none => rw [hx] at h2; exact h2.elim
        | some x =>
          rw [hx] at h2
          obtain ⟨h2, -⟩ := h2
          exact ⟨x, rfl, by linarith⟩)
    (by rintro u (hu | hu)
        · exact hO.belowSites h.old hsame hu
        · exact hN.belowSites h.new hsame hu)
    (by intro l hl
        obtain ⟨names, st, q1, rfl⟩ := hN.placeOf h.new hsame (fun u => id) hl
        exact hd.room names st (.inr q1))
  exact ⟨r1, copyOf_near h.old hsame hO hnear hst.mapped hst.copy, i1, copyOf_near h.new hsame hN i2 i3.mapped i3.copy⟩

/-- C106 with the time that the first sync has stored: if nothing has been deleted and everything that is new or changed was modified later
than everything that was there before, no time need be given. -/
theorem C106_stored_partial {c : WriteCfg} {wenv wenv' : WriteEnv} {m : Map} {cs cs' : List FNode} {f g : Str}
    {links clinks : Option (List Link)} {before before' : Str → Option FileState} {cc : ClientCfg} {env env' : Env} {mm : Map}
    {uri : Option Str} (h : Followed c wenv wenv' m cs cs' f g links clinks before before' cc env env' mm uri)
    (hft : FloatOk env.ft) (hu : SetUp cc (m.src_uri ++ '/' :: f)) (hv : cc.spec_version = "1.0".toList)
    (s : St) (hh : ∀ t ∈ s.hashes, HashType t)
    (root : Loc) (places : Loc → Prop) (hd : Destination c cs cs' cc env mm root places s.world)
    (hpos : ∃ names st, Eligible (ExcludedBy c) cs names st ∧ 1 ≤ st.mtime)
    (s2 : St) (hs2 : s2.world = (baselineOrAudit env cc true false s).1.world) (hh2 : s2.hashes = [])
    (hkept : ∀ names st, Eligible (ExcludedBy c) cs names st → ∃ st', Eligible (ExcludedBy c) cs' names st')
    (hlater : ∀ names st', Eligible (ExcludedBy c) cs' names st' → Eligible (ExcludedBy c) cs names st' ∨
      ((∀ names1 st1, Eligible (ExcludedBy c) cs names1 st1 → st1.mtime + 2 / 1000000 ≤ st'.mtime) ∧
        ∀ st, Eligible (ExcludedBy c) cs names st → st'.size ≠ st.size ∨ st.mtime + 1 + 1 / 1000000 ≤ st'.mtime)) :
    (incremental env' cc true uri none s2).2 = .ok () ∧ CopyOf c cs' root (incremental env' cc true uri none s2).1.world.fs := by
  obtain ⟨r1, SO, S0, hO, hnear, hst, t, ht, ⟨names0, st0, k1, k2⟩, k3⟩ := h.first hft hu s hh root places hd hpos
  have hstart : startTime env' cc none s2 = .ok t := by
    rw [← ht]
    unfold startTime
    rw [hs2, h.stays.1]
  have ha : ∀ st' : Stat, (∀ names1 st1, Eligible (ExcludedBy c) cs names1 st1 → st1.mtime + 2 / 1000000 ≤ st'.mtime) →
      t + 1 / 1000000 ≤ st'.mtime := by
    intro st' ha
    have := ha _ _ k1
    linarith
  obtain ⟨-, -, a, b⟩ := C106_follow_partial h hft hu hv s hh root places hd hpos s2 hs2 hh2 none t hstart
    (by have h1 := h.old.years _ _ k1
        have h2 := k3 _ _ k1
        unfold InYears
        constructor <;> linarith)
    (by constructor
        · intro names st st' q1 q2
          rcases hlater names st' q2 with q3 | ⟨q3, q4⟩
          · exact .inl (eligible_unique h.old.site.real q3 q1)
          · exact .inr ⟨ha _ q3, (q4 st q1).imp id .inl⟩
        · intro names st' q1 q2
          rcases hlater names st' q1 with q3 | ⟨q3, -⟩
          · exact absurd q3 (q2 _)
          · exact ha _ q3
        · intro names st q1 q2
          obtain ⟨st', q3⟩ := hkept names st q1
          exact absurd q3 (q2 st'))
  exact ⟨a, b⟩

/-- C106: deletions are not followed.  With the time stored by the first sync, a file that is gone from the directory stays at the
destination – if it was not the newest when the copy was made – although the publisher has listed the deletion, for the entry bears the
time at which the file was last modified. -/
theorem C106_deleted_stays_violated {c : WriteCfg} {wenv wenv' : WriteEnv} {m : Map} {cs cs' : List FNode} {f g : Str}
    {links clinks : Option (List Link)} {before before' : Str → Option FileState} {cc : ClientCfg} {env env' : Env} {mm : Map}
    {uri : Option Str} (h : Followed c wenv wenv' m cs cs' f g links clinks before before' cc env env' mm uri)
    (hft : FloatOk env.ft) (hu : SetUp cc (m.src_uri ++ '/' :: f)) (hv : cc.spec_version = "1.0".toList)
    (s : St) (hh : ∀ t ∈ s.hashes, HashType t)
    (root : Loc) (places : Loc → Prop) (hd : Destination c cs cs' cc env mm root places s.world)
    (s2 : St) (hs2 : s2.world = (baselineOrAudit env cc true false s).1.world)
    (hdiffer : ∀ names st st', Eligible (ExcludedBy c) cs names st → Eligible (ExcludedBy c) cs' names st' → st' = st ∨
      (st'.size ≠ st.size ∨ st.mtime + 1 + 1 / 1000000 ≤ st'.mtime ∨ st'.mtime + 1 + 1 / 1000000 ≤ st.mtime))
    (names : List Str) (st : Stat) (hwas : Eligible (ExcludedBy c) cs names st) (hgone : ∀ st', ¬ Eligible (ExcludedBy c) cs' names st')
    (names1 : List Str) (st1 : Stat) (hnewer : Eligible (ExcludedBy c) cs names1 st1) (h1 : 1 ≤ st1.mtime)
    (hn : st.mtime + 3 / 1000000 ≤ st1.mtime) (allow_deletion : Bool) :
    HasFile (incremental env' cc allow_deletion uri none s2).1.world.fs (root ++ names) ∧
    ¬ CopyOf c cs' root (incremental env' cc allow_deletion uri none s2).1.world.fs := by
  obtain ⟨r1, SO, S0, hO, hnear, hst, t, ht, -, k3⟩ := h.first hft hu s hh root places hd ⟨names1, st1, hnewer, h1⟩
  obtain ⟨SN, hN⟩ := h.new.has
  have hsame := h.mirror.same
  have hb : ∀ names, siteUri m names = uriBelow mm names := by intro names; unfold siteUri uriBelow; rw [hsame]
  obtain ⟨old, new, hp, hold, hnew⟩ := h.publication hO hN hdiffer
  obtain ⟨docAt, hc1, hc2⟩ := h.changes
  obtain ⟨changes, g1, -, g3, -⟩ := C83_one_document_partial c wenv' none none (m.src_uri ++ '/' :: f) (m.dst_path ++ '/' :: g) clinks h.clinksOk
    old new hp.old_list hp.new_list hp.old_ok hp.new_ok hp.fits before' docAt (m.src_uri ++ '/' :: g) hc2
  have hstart : startTime env' cc none s2 = .ok t := by
    rw [← ht]
    unfold startTime
    rw [hs2, h.stays.1]
  obtain ⟨p1, p2⟩ := h.old.plain hwas
  have hfile : HasFile (incremental env' cc allow_deletion uri none s2).1.world.fs (root ++ names) := by
    obtain ⟨b, x, -, hf, -⟩ := (copyOf_near h.old hsame hO hnear hst.mapped hst.copy).complete names st hwas
    refine ⟨b, x, (C49_incremental env' cc allow_deletion uri none s2 (root ++ names) ?_ _
      (incremental_did env' cc allow_deletion uri none s2).final b x).mpr (by rw [hs2]; exact hf)⟩
    rintro changes' t0 r ⟨clUri, e1, e2⟩ e3 ⟨bef, aft, e4, ⟨y, e5, e6⟩, -⟩ hmap
    rw [h.asked] at e1
    cases e1
    rw [hc1, g1] at e2
    cases e2
    rw [hstart] at e3
    cases e3
    obtain ⟨r0, ⟨x0, hx0, hk⟩, hrn⟩ := g3 r (by rw [e4]; simp)
    obtain ⟨hchg, hur⟩ := recordedNear_change hrn
    -- the entry is one for this file
    have hbel : ∃ names', names' ≠ [] ∧ (∀ n ∈ names', PlainName n) ∧ r0.uri = siteUri m names' ∧
        ((∃ st', Eligible (ExcludedBy c) cs' names' st') ∨ dget old r0.uri = some x0) := by
      have fromNew : dget new r0.uri = some x0 → ∃ names', names' ≠ [] ∧ (∀ n ∈ names', PlainName n) ∧ r0.uri = siteUri m names' ∧
          ((∃ st', Eligible (ExcludedBy c) cs' names' st') ∨ dget old r0.uri = some x0) := by
        intro h2
        obtain ⟨names', st', ex, q1, q2, -⟩ := (hnew _ _).mp h2
        exact ⟨names', (h.new.plain q1).1, (h.new.plain q1).2, q2, .inl ⟨st', q1⟩⟩
      rcases hk with ⟨-, -, h2⟩ | ⟨-, h2, -⟩ | ⟨-, h2, -⟩
      · exact fromNew h2
      · exact fromNew h2
      · obtain ⟨-, names', st', q1, q2, -⟩ := hold.describes.sound _ _ h2
        exact ⟨names', (h.old.plain q1).1, (h.old.plain q1).2, q2, .inr h2⟩
    obtain ⟨names', n1, n2, n3, n4⟩ := hbel
    rw [hur, n3, hb, h.stays.2, hst.mapped.mapsTo (p := (mm, root)) (by simp) n1 n2] at hmap
    have := List.append_cancel_left hmap
    subst this
    rcases n4 with ⟨st', n4⟩ | n4
    · exact hgone st' n4
    · obtain ⟨-, names2, st2, q1, q2, q3⟩ := hold.describes.sound _ _ n4
      have := h.old.inj h.old hwas q1 (by rw [← n3, q2])
      subst this
      have := eligible_unique h.old.site.real hwas q1
      subst this
      have q4 := q3.lastmod
      have e7 : r.timestamp = some y := by
        unfold changeTime at e5
        rwa [if_pos hv] at e5
      obtain ⟨a, hna, hrec⟩ := hrn
      have e8 : a.timestamp = some y := by rw [← e7, hrec.timestamp, if_neg (by simp)]
      have n5 := hna.timestamp
      rw [hx0, e8] at n5
      have n6 := k3 _ _ hnewer
      cases hz : x0.timestamp with
      | none => rw [hz] at q4; exact q4.elim
      | some z =>
        rw [hz] at q4
        have n5 : NearTime x0.timestamp (some y) := n5
        rw [hz] at n5
        obtain ⟨-, a1⟩ := q4
        obtain ⟨-, a2⟩ := n5
        linarith
  refine ⟨hfile, ?_⟩
  intro hc
  obtain ⟨names', st', q1, q2⟩ := hc.sound _ ⟨names, rfl⟩ hfile
  have := List.append_cancel_left q2
  subst this
  exact hgone st' q1

end Resync
