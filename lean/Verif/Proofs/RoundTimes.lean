import Verif.Proofs.W3CWrite
import Verif.Proofs.ResourceList
import Verif.Model.ListIndex
import Verif.Spec.ListIndex
import Mathlib.Tactic.Linarith
import Mathlib.Tactic.NormNum
/-
Times of any resolution: what is written only depends on the times rounded to microseconds.
-/

namespace Resync
open Py Resync.Spec

/-- the time rounded as it is when written -/
def rndT (q : Rat) : Rat := (roundHalfEven ((q + 1 / 10000000) * 1000000) : Rat) / 1000000

theorem datetimeToStr_rnd (q : Rat) : datetimeToStr (rndT q) false = datetimeToStr q false := by
  have hr : roundHalfEven ((rndT q + 1 / 10000000) * 1000000) = roundHalfEven ((q + 1 / 10000000) * 1000000) := by
    unfold rndT
    generalize roundHalfEven ((q + 1 / 10000000) * 1000000) = n
    apply roundHalfEven_unique <;> linarith
  simp only [datetimeToStr, utcFromTimestamp, Bool.false_eq_true, if_false, hr]

theorem rndT_near (q : Rat) : q - 1 / 1000000 < rndT q ∧ rndT q < q + 1 / 1000000 := by
  obtain ⟨h1, h2⟩ := roundHalfEven_near ((q + 1 / 10000000) * 1000000)
  unfold rndT
  generalize roundHalfEven ((q + 1 / 10000000) * 1000000) = n at *
  constructor <;> linarith

theorem rndT_exact {q : Rat} (h : MicroTime q) : rndT q = q := by
  obtain ⟨n, -, -, rfl⟩ := h
  unfold rndT
  have : roundHalfEven (((n : Rat) / 1000000 + 1 / 10000000) * 1000000) = n := by
    apply roundHalfEven_unique <;> linarith
  rw [this]

theorem rndT_micro {q : Rat} (h1 : -62135596800 ≤ q) (h2 : q < 253402300800 - 1 / 1000000) : MicroTime (rndT q) := by
  obtain ⟨h3, h4⟩ := roundHalfEven_near ((q + 1 / 10000000) * 1000000)
  refine ⟨roundHalfEven ((q + 1 / 10000000) * 1000000), ?_, ?_, rfl⟩
  · have : ((-62135596800000000 - 1 : Int) : Rat) < roundHalfEven ((q + 1 / 10000000) * 1000000) := by push_cast; linarith
    have := Int.cast_lt.mp this
    omega
  · have : (roundHalfEven ((q + 1 / 10000000) * 1000000) : Rat) < ((253402300800000000 : Int) : Rat) := by push_cast; linarith
    exact Int.cast_lt.mp this

/-- the resource with its times rounded -/
def rndR (r : Resource) : Resource :=
  { r with
    timestamp := r.timestamp.map rndT, ts_datetime := r.ts_datetime.map rndT, ts_at := r.ts_at.map rndT
    ts_completed := r.ts_completed.map rndT, ts_from := r.ts_from.map rndT, ts_until := r.ts_until.map rndT }

theorem dateAttr_rnd (t : Option Rat) : dateAttr (t.map rndT) = dateAttr t := by
  cases t with
  | none => rfl
  | some t =>
    show dateAttr (some (rndT t)) = dateAttr (some t)
    unfold dateAttr
    simp only
    rw [datetimeToStr_rnd]

theorem resourceAttr_rnd (r : Resource) (att : Str) : resourceAttr (rndR r) att = resourceAttr r att := by
  have h : (rndR r).hash = r.hash := rfl
  unfold resourceAttr
  rw [h]
  simp only [rndR, dateAttr_rnd]

theorem mdAtts_rnd (r : Resource) (ks : List Str) : mdAtts (rndR r) ks = mdAtts r ks := by
  induction ks with
  | nil => rfl
  | cons k t ih => simp only [mdAtts, resourceAttr_rnd, ih]

theorem lastmodText_rnd (s : Sitemap) (r : Resource) : lastmodText s (rndR r) = lastmodText s r := by
  simp only [lastmodText, rndR, dateAttr_rnd]

theorem resourceEtreeElement_rnd (s : Sitemap) (r : Resource) (n : Str) :
    resourceEtreeElement s (rndR r) n = resourceEtreeElement s r n := by
  simp only [resourceEtreeElement, mdAtts_rnd, lastmodText_rnd]
  rfl

theorem resourceElements_rnd (s : Sitemap) (n : Str) (rs : List Resource) :
    resourceElements s n (rs.map rndR) = resourceElements s n rs := by
  induction rs with
  | nil => rfl
  | cons r t ih => simp only [List.map_cons, resourceElements, resourceEtreeElement_rnd, ih]

theorem resourcesAsXml_rnd (s : Sitemap) (md : Dict Str) (ln : List Link) (rs : List Resource) (i : Bool) :
    resourcesAsXml s md ln (rs.map rndR) i = resourcesAsXml s md ln rs i := by
  simp only [resourcesAsXml, resourceElements_rnd]

/-! ### Writing a list -/

theorem chunkLoop_map (f : Resource → Resource) (m : Nat) : ∀ (it chunk : List Resource),
    chunkLoop m (chunk.map f) (it.map f) = ((chunkLoop m chunk it).1.map f, (chunkLoop m chunk it).2.map f)
  | [], chunk => rfl
  | r :: t, chunk => by
    simp only [List.map_cons, chunkLoop]
    have e : chunk.map f ++ [f r] = (chunk ++ [r]).map f := by simp
    rw [e, List.length_map]
    split
    · rfl
    · exact chunkLoop_map f m t (chunk ++ [r])

theorem getResourcesChunk_map (f : Resource → Resource) (m : Option Nat) (it : List Resource) (first : Option Resource) :
    getResourcesChunk m (it.map f) (first.map f) =
      (getResourcesChunk m it first).map (fun x => (x.1.map f, x.2.1.map f, x.2.2.map f)) := by
  cases m with
  | none =>
    cases it with
    | nil => cases first <;> rfl
    | cons a t => rfl
  | some m =>
    have e : (first.map f).toList = first.toList.map f := by cases first <;> rfl
    simp only [getResourcesChunk, e, chunkLoop_map]
    cases h : chunkLoop m first.toList it with
    | mk c r => cases r <;> rfl

/-- what is found out about written files, with times rounded -/
def rndEnv (env : StatEnv) : StatEnv := { env with mtime := fun f => rndT (env.mtime f) }

def rndL (l : LBI) : LBI := { l with resources := l.resources.map rndR }

theorem writeParts_rnd (l : LBI) (env : StatEnv) (basename index_uri : Str) : ∀ (n : Nat) (chunk : List Resource)
    (nxt : Option Resource) (it index : List Resource),
    writeParts (rndL l) (rndEnv env) basename index_uri n (chunk.map rndR) (nxt.map rndR) (it.map rndR) (index.map rndR) =
      ((writeParts l env basename index_uri n chunk nxt it index).1,
       (writeParts l env basename index_uri n chunk nxt it index).2.map (List.map rndR))
  | 0, _, _, _, _ => rfl
  | n + 1, chunk, nxt, it, index => by
    simp only [writeParts, List.length_map, List.map_eq_nil_iff]
    by_cases hc : chunk = []
    · simp only [hc, if_true]; rfl
    · simp only [if_neg hc, resourcesAsXml_rnd]
      have e1 : (rndL l).mapper = l.mapper := rfl
      have e2 : (rndL l).sitemap = l.sitemap := rfl
      have e3 : (rndL l).md = l.md := rfl
      have e4 : (rndL l).capability_name = l.capability_name := rfl
      have e5 : (rndL l).ln = l.ln := rfl
      have e6 : (rndL l).max_sitemap_entries = l.max_sitemap_entries := rfl
      rw [e1, e2, e3, e4, e5, e6]
      cases mapFile l.mapper (partName basename index.length) with
      | error e => rfl
      | ok uri =>
        simp only
        cases writeDoc (partName basename index.length) (resourcesAsXml l.sitemap (defaultCapability l.md l.capability_name)
            (setIndexLink l.ln index_uri) chunk false) with
        | mk effs res =>
          cases res with
          | error e => rfl
          | ok u =>
            simp only [getResourcesChunk_map]
            cases getResourcesChunk l.max_sitemap_entries it nxt with
            | error e => rfl
            | ok x =>
              obtain ⟨a, b, c⟩ := x
              simp only [Except.map]
              have := writeParts_rnd l env basename index_uri n a b c
                (index ++ [{ uri := uri, timestamp := some (env.mtime (partName basename index.length)),
                             md5 := some (env.md5 (partName basename index.length)) }])
              rw [List.map_append] at this
              have e7 : List.map rndR [({ uri := uri, timestamp := some (env.mtime (partName basename index.length)), md5 := some (env.md5 (partName basename index.length)) } : Resource)] =
                [{ uri := uri, timestamp := some ((rndEnv env).mtime (partName basename index.length)), md5 := some ((rndEnv env).md5 (partName basename index.length)) }] := rfl
              rw [e7] at this
              rw [this]
              rfl

theorem write_rnd (l : LBI) (env : StatEnv) (basename : Str) : (rndL l).write (rndEnv env) basename = l.write env basename := by
  have e1 : (rndL l).mapper = l.mapper := rfl
  have e2 : (rndL l).sitemap = l.sitemap := rfl
  have e3 : (rndL l).md = l.md := rfl
  have e4 : (rndL l).capability_name = l.capability_name := rfl
  have e5 : (rndL l).ln = l.ln := rfl
  have e6 : (rndL l).max_sitemap_entries = l.max_sitemap_entries := rfl
  have e7 : (rndL l).resources = l.resources.map rndR := rfl
  have e8 : (rndL l).allow_multifile = l.allow_multifile := rfl
  have e9 : (rndL l).sitemapindex = l.sitemapindex := rfl
  unfold LBI.write
  rw [e1, e2, e3, e4, e5, e6, e7, e8, e9]
  have h := getResourcesChunk_map rndR l.max_sitemap_entries l.resources none
  simp only [Option.map_none] at h
  rw [h]
  cases getResourcesChunk l.max_sitemap_entries l.resources none with
  | error e => rfl
  | ok x =>
    obtain ⟨a, b, c⟩ := x
    simp only [Except.map]
    cases b with
    | none => simp only [Option.map_none, resourcesAsXml_rnd]
    | some b =>
      simp only [Option.map_some, List.length_map]
      split
      · rfl
      · cases mapFile l.mapper basename with
        | error e => rfl
        | ok u =>
          simp only
          have := writeParts_rnd l env basename u (l.resources.length + 1) a (some b) c []
          simp only [Option.map_some, List.map_nil] at this
          rw [this]
          cases writeParts l env basename u (l.resources.length + 1) a (some b) c [] with
          | mk effs res =>
            cases res with
            | error e => rfl
            | ok index => simp only [Except.map, resourcesAsXml_rnd]

/-! ### Dictionaries -/

def rndD (d : Dict Resource) : Dict Resource := d.map (fun p => (p.1, rndR p.2))

theorem dget_rndD (d : Dict Resource) (u : Str) : dget (rndD d) u = (dget d u).map rndR := by
  induction d with
  | nil => rfl
  | cons p t ih =>
    obtain ⟨a, b⟩ := p
    simp only [rndD, List.map_cons, dget]
    split
    · rfl
    · exact ih

theorem dkeys_rndD (d : Dict Resource) : dkeys (rndD d) = dkeys d := by
  simp [dkeys, rndD, Function.comp_def]

theorem WF_rndD {d : Dict Resource} (h : WF d) : WF (rndD d) := by
  refine ⟨by rw [dkeys_rndD]; exact h.1, ?_⟩
  intro k r hr
  rw [dget_rndD] at hr
  cases hd : dget d k with
  | none => rw [hd] at hr; cases hr
  | some x => rw [hd] at hr; cases hr; exact h.2 k x hd

theorem listing_rndD (d : Dict Resource) : listing (rndD d) = (listing d).map rndR := by
  unfold listing
  rw [dkeys_rndD]
  induction sortStr (dkeys d) with
  | nil => rfl
  | cons k t ih =>
    rw [List.filterMap_cons, List.filterMap_cons, ih, dget_rndD]
    cases dget d k <;> rfl

end Resync
