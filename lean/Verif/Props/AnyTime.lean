import Verif.Proofs.RoundTimes
import Verif.Spec.Times
import Verif.Props.Sitemap
import Verif.Props.ListRead
/-
C31, C33, C34 for times of any resolution.
-/

namespace Resync
open Py Resync.Spec

theorem rndR_near (r : Resource) : NearCopy r (rndR r) := by
  have h : ∀ t : Option Rat, NearTime t (t.map rndT) := by
    intro t
    cases t with
    | none => trivial
    | some t => exact rndT_near t
  refine ⟨rfl, h _, h _, h _, h _, h _, h _, ?_⟩
  intro t ht e
  show r.timestamp.map rndT = some t
  rw [e, Option.map_some, rndT_exact ht]

theorem rndR_ok {r : Resource} (h : Expressible r) : ResOk (rndR r) := by
  have ht : ∀ (o : Option Rat), (∀ t, o = some t → InYears t) → ∀ t, o.map rndT = some t → MicroTime t := by
    intro o ho t e
    cases o with
    | none => cases e
    | some q => cases e; exact rndT_micro (ho q rfl).1 (ho q rfl).2
  have hr := h.rest
  exact {
    uri_ne := hr.uri_ne, uri := hr.uri, uri_cr := hr.uri_cr, change := hr.change
    timestamp := ht _ (fun t e => h.times t (.inl e))
    ts_datetime := ht _ (fun t e => h.times t (.inr (.inl e)))
    ts_at := ht _ (fun t e => h.times t (.inr (.inr (.inl e))))
    ts_completed := ht _ (fun t e => h.times t (.inr (.inr (.inr (.inl e)))))
    ts_from := ht _ (fun t e => h.times t (.inr (.inr (.inr (.inr (.inl e))))))
    ts_until := ht _ (fun t e => h.times t (.inr (.inr (.inr (.inr (.inr e))))))
    mime_type := hr.mime_type, path := hr.path, capability := hr.capability
    md5 := hr.md5, sha1 := hr.sha1, sha256 := hr.sha256, ln := hr.ln }

/-- C33 with times of any resolution: they are read back to the microsecond. -/
theorem C33_any_time_partial (s : Sitemap) (r : Resource) (h : Expressible r) (name : Str)
    (hn : name = "url".toList ∨ name = "sitemap".toList) :
    ∃ e e' r', resourceEtreeElement s r name = .ok e ∧ roundTripElem e = some e' ∧
      resourceFromEtree s e' = .ok r' ∧ RecordedNear s.spec_1_0 s.add_lastmod r r' := by
  obtain ⟨e, e', r', h1, h2, h3, h4⟩ := C33_round_trip_settings_partial s (rndR r) (rndR_ok h) name hn
  rw [resourceEtreeElement_rnd] at h1
  exact ⟨e, e', r', h1, h2, h3, _, rndR_near r, h4⟩

theorem forall₂_rnd {v a : Bool} : ∀ {rs rs' : List Resource}, List.Forall₂ (Recorded v a) (rs.map rndR) rs' →
    List.Forall₂ (RecordedNear v a) rs rs'
  | [], _, h => by cases h; exact .nil
  | r :: t, _, h => by
    cases h with
    | cons h1 h2 => exact .cons ⟨_, rndR_near r, h1⟩ (forall₂_rnd h2)

/-- C34 with times of any resolution. -/
theorem C34_any_time_partial (s : Sitemap) (md : Dict Str) (ln : List Link) (rs : List Resource) (index : Bool)
    (hmd : MdOk (mdAttKeys s) md) (hln : ∀ l ∈ ln, LinkOk l) (hrs : ∀ r ∈ rs, Expressible r)
    (cap : Option Str) (hcap : ∀ c, cap = some c → dget md "capability".toList = some c)
    (want : Option Bool) (hwant : want = none ∨ want = some index) :
    ∃ t t' c, resourcesAsXml s md ln rs index = .ok t ∧ reparse t = some t' ∧
      parseXml s listAdd { resources := [] } t' cap want = .ok (c, index, rs.length) ∧
      List.Forall₂ (RecordedNear s.spec_1_0 s.add_lastmod) rs c.resources ∧ SameMap md c.md ∧ SameLinks ln c.ln := by
  obtain ⟨t, t', c, h1, h2, h3, h4, h5, h6⟩ := C34_round_trip_partial s md ln (rs.map rndR) index hmd hln
    (by intro r hr; obtain ⟨x, hx, rfl⟩ := List.mem_map.mp hr; exact rndR_ok (hrs x hx)) cap hcap want hwant
  rw [resourcesAsXml_rnd] at h1
  rw [List.length_map] at h3
  exact ⟨t, t', c, h1, h2, h3, forall₂_rnd h4, h5, h6⟩

theorem sameListNear_of_rnd {v a : Bool} {d e : Dict Resource} (h3 : SameList v a (rndD d) e) : SameListNear v a d e := by
  intro u
  have := h3 u
  rw [dget_rndD] at this
  cases hx : dget d u with
  | none =>
    rw [hx] at this
    cases hy : dget e u with
    | none => trivial
    | some y => rw [hy] at this; exact this
  | some x =>
    rw [hx] at this
    cases hy : dget e u with
    | none => rw [hy] at this; exact this
    | some y => rw [hy] at this; exact ⟨_, rndR_near x, this⟩

/-- C31 with times of any resolution, of the resources and of the files written. -/
theorem C31_any_time_partial (d : Dict Resource) (hd : WF d) (hres : ∀ k r, dget d k = some r → Expressible r)
    (l : LBI) (hl : iterAll d = .ok l.resources) (m : Nat) (hm : l.max_sitemap_entries = some m)
    (hidx : l.sitemapindex = false) (hmulti : l.allow_multifile = true)
    (cap : Str) (hcn : l.capability_name = some cap)
    (hcap : dget (defaultCapability l.md l.capability_name) "capability".toList = some cap)
    (hmd : MdOk (mdAttKeys l.sitemap) (defaultCapability l.md l.capability_name)) (hln : ∀ x ∈ l.ln, LinkOk x)
    (mp : Mapper) (hmp : l.mapper = some mp) (basename : Str) (env : StatEnv)
    (cfg : ReadCfg) (hcfg : cfg.sitemap = l.sitemap ∧ cfg.capability_name = some cap ∧ cfg.allow_multifile = true ∧
      cfg.mapper = some mp)
    (hbase : ∃ u, mp.dstToSrc basename = .ok u ∧ XmlOk u) (hlocal : isFileUri cfg.uw basename = true)
    (hparts : ∀ i < l.resources.length, (∃ u, PublishedAs mp cfg.uw (partName basename i) u) ∧
      InYears (env.mtime (partName basename i)) ∧
      XmlOk (env.md5 (partName basename i)) ∧ NoSpace (env.md5 (partName basename i)))
    (fs : Str → Option FileState)
    (hopen : ∀ p, p = basename ∨ (∃ i, p = partName basename i) →
      cfg.docAt p = fileDoc (runFs fs (l.write env basename).1 p)) :
    (l.write env basename).2 = .ok () ∧
    ∃ c, readList cfg { resources := [] } basename = .ok c ∧
      SameListNear l.sitemap.spec_1_0 l.sitemap.add_lastmod d c.resources ∧
      SameMap (defaultCapability l.md l.capability_name) c.md ∧
      ((∀ x ∈ l.ln, dget x "rel".toList ≠ some "index".toList) → SameLinks l.ln c.ln) := by
  have hlen : (rndL l).resources.length = l.resources.length := List.length_map _
  have key := C31_round_trip_partial (rndD d) (WF_rndD hd) (by
      intro k r hr
      rw [dget_rndD] at hr
      cases hk : dget d k with
      | none => rw [hk] at hr; cases hr
      | some x => rw [hk] at hr; cases hr; exact rndR_ok (hres k x hk))
    (rndL l) (by
      rw [iterAll_listing] at hl
      rw [iterAll_listing, listing_rndD, Except.ok.inj hl]; rfl)
    m hm hidx hmulti cap hcn hcap hmd hln mp hmp basename (rndEnv env) cfg hcfg hbase hlocal (by
      intro i hi
      rw [hlen] at hi
      obtain ⟨h1, h2, h3⟩ := hparts i hi
      exact ⟨h1, rndT_micro h2.1 h2.2, h3⟩) fs (by rw [write_rnd]; exact hopen)
  rw [write_rnd] at key
  obtain ⟨h1, c, h2, h3, h4⟩ := key
  exact ⟨h1, c, h2, sameListNear_of_rnd h3, h4⟩

/-- The same for a reader elsewhere, see C31_remote_partial. -/
theorem C31_any_time_remote_partial (d : Dict Resource) (hd : WF d) (hres : ∀ k r, dget d k = some r → Expressible r)
    (l : LBI) (hl : iterAll d = .ok l.resources) (m : Nat) (hm : l.max_sitemap_entries = some m)
    (hidx : l.sitemapindex = false) (hmulti : l.allow_multifile = true)
    (cap : Str) (hcn : l.capability_name = some cap)
    (hcap : dget (defaultCapability l.md l.capability_name) "capability".toList = some cap)
    (hmd : MdOk (mdAttKeys l.sitemap) (defaultCapability l.md l.capability_name)) (hln : ∀ x ∈ l.ln, LinkOk x)
    (mp : Mapper) (hmp : l.mapper = some mp) (basename : Str) (env : StatEnv)
    (cfg : ReadCfg) (hcfg : cfg.sitemap = l.sitemap ∧ cfg.capability_name = some cap ∧ cfg.allow_multifile = true)
    (uri : Str) (hbase : mp.dstToSrc basename = .ok uri) (hchars : XmlOk uri)
    (hremote : isFileUri cfg.uw uri = false ∨ cfg.check_url_authority = false ∧
      ∀ i < l.resources.length, ∀ u, mp.dstToSrc (partName basename i) = .ok u → isFileUri cfg.uw u = true)
    (hparts : ∀ i < l.resources.length, (∃ u, MapsBack mp (partName basename i) u) ∧
      InYears (env.mtime (partName basename i)) ∧
      XmlOk (env.md5 (partName basename i)) ∧ NoSpace (env.md5 (partName basename i)))
    (fs : Str → Option FileState)
    (hserve : ∀ p u, p = basename ∨ (∃ i, p = partName basename i) → mp.dstToSrc p = .ok u →
      cfg.docAt u = fileDoc (runFs fs (l.write env basename).1 p)) :
    (l.write env basename).2 = .ok () ∧
    ∃ c, readList cfg { resources := [] } uri = .ok c ∧
      SameListNear l.sitemap.spec_1_0 l.sitemap.add_lastmod d c.resources ∧
      SameMap (defaultCapability l.md l.capability_name) c.md ∧
      ((∀ x ∈ l.ln, dget x "rel".toList ≠ some "index".toList) → SameLinks l.ln c.ln) := by
  have hlen : (rndL l).resources.length = l.resources.length := List.length_map _
  have key := C31_remote_partial (rndD d) (WF_rndD hd) (by
      intro k r hr
      rw [dget_rndD] at hr
      cases hk : dget d k with
      | none => rw [hk] at hr; cases hr
      | some x => rw [hk] at hr; cases hr; exact rndR_ok (hres k x hk))
    (rndL l) (by
      rw [iterAll_listing] at hl
      rw [iterAll_listing, listing_rndD, Except.ok.inj hl]; rfl)
    m hm hidx hmulti cap hcn hcap hmd hln mp hmp basename (rndEnv env) cfg hcfg uri hbase hchars (by rw [hlen]; exact hremote) (by
      intro i hi
      rw [hlen] at hi
      obtain ⟨h1, h2, h3⟩ := hparts i hi
      exact ⟨h1, rndT_micro h2.1 h2.2, h3⟩) fs (by rw [write_rnd]; exact hserve)
  rw [write_rnd] at key
  obtain ⟨h1, c, h2, h3, h4⟩ := key
  exact ⟨h1, c, h2, sameListNear_of_rnd h3, h4⟩

theorem timed_expressible (u : Str) (t : Rat) (h1 : u ≠ []) (h2 : XmlOk u) (h3 : '\r' ∉ u) (ht : InYears t) :
    Expressible { uri := u, timestamp := some t } := by
  refine ⟨plainRes_ok u h1 h2 h3, ?_⟩
  intro t' h
  simp only [Option.some.injEq, reduceCtorEq, or_false] at h
  exact h ▸ ht

/-- a time of nanosecond resolution, as file systems have it -/
def exNano : Rat := 1500000000123456789 / 1000000000

example : Expressible { uri := "http://example.com/a".toList, timestamp := some exNano } := by
  refine timed_expressible _ _ (by decide) (by unfold XmlOk; decide) (by decide) ?_
  unfold InYears exNano
  constructor <;> norm_num

/-- its time is not that of any document -/
example : ¬ MicroTime exNano := by
  rintro ⟨n, -, -, hn⟩
  unfold exNano at hn
  have : ((1500000000123456789 : Int) : Rat) = ((n * 1000 : Int) : Rat) := by push_cast; linarith
  have := Int.cast_injective this
  omega

end Resync
