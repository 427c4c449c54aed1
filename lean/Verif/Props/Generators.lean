import Verif.Model.GenList
import Verif.Props.ListIndex
/-
C107: lists over generators.
-/

namespace Resync
open Py Resync.Spec

/-- the URIs in a document, in order -/
def docUris (t : Elem) : List (Option Str) := (entries "url" t).map entryUri

/-- the list with the same items and settings, and no count -/
def GenList.asList (g : GenList) : LBI := { g.l with count := none }

/-- the count, if it is needed, is right -/
def GenList.Counted (g : GenList) : Prop := g.l.count = some g.l.resources.length

theorem counted_requires {g : GenList} (h : g.Counted) : g.requiresMultifile = g.asList.requiresMultifile := by
  unfold GenList.requiresMultifile GenList.asList LBI.requiresMultifile LBI.len
  rw [h]
  cases g.l.max_sitemap_entries <;> rfl

theorem counted_len {g : GenList} (h : g.Counted) : g.l.len = g.asList.len := by
  unfold GenList.asList LBI.len
  rw [h]; rfl

/-- C107.  as_xml() of a list over a generator, with the right count, gives what the list of the same items gives. -/
theorem C107_as_xml (g : GenList) (h : g.Counted) (allow_multifile : Bool) (basename : Str) :
    (g.asXml allow_multifile basename).map Prod.fst = g.asList.asXml allow_multifile basename := by
  unfold GenList.asXml LBI.asXml
  rw [counted_requires h]
  have hi : g.l.asXmlIndex basename = g.asList.asXmlIndex basename := by
    unfold LBI.asXmlIndex
    have : g.l.requiresMultifile = g.asList.requiresMultifile := by
      unfold LBI.requiresMultifile; rw [counted_len h]; rfl
    rw [this]; rfl
  cases g.asList.requiresMultifile with
  | error e => rfl
  | ok o =>
    cases o with
    | none =>
      rw [ebind_ok, ebind_ok]
      simp only
      simp only [GenList.asList]
      cases resourcesAsXml g.l.sitemap (defaultCapability g.l.md g.l.capability_name) g.l.ln g.l.resources g.l.sitemapindex <;> rfl
    | some n =>
      rw [ebind_ok, ebind_ok]
      simp only
      cases allow_multifile with
      | false => rfl
      | true =>
        simp only [if_true]
        rw [hi]
        cases g.asList.asXmlIndex basename <;> rfl

/-- C107.  So does any one component. -/
theorem C107_part (g : GenList) (h : g.Counted) (basename : Str) (i : Nat) :
    (g.asXmlPart basename i).map Prod.fst = g.asList.asXmlPart basename i := by
  unfold GenList.asXmlPart LBI.asXmlPart
  rw [counted_requires h, counted_len h]
  have hm : g.asList.max_sitemap_entries = g.l.max_sitemap_entries := rfl
  rw [hm]
  cases g.asList.requiresMultifile with
  | error e => rfl
  | ok o =>
    rw [ebind_ok, ebind_ok]
    cases o with
    | none => rfl
    | some n =>
      cases g.l.max_sitemap_entries with
      | none => rfl
      | some m =>
        simp only
        split
        · rfl
        · generalize (if i * m + m > g.asList.len then g.asList.len else i * m + m) = stop
          simp only [GenList.asList]
          cases resourcesAsXml g.l.sitemap (defaultCapability [] g.l.capability_name) (setIndexLink [] basename)
            ((g.l.resources.drop (i * m)).take (stop - i * m)) false <;> rfl

theorem writeParts_count (l : LBI) (c : Option Nat) (env : StatEnv) (basename iu : Str) (n : Nat) :
    ∀ chunk nxt it index, writeParts { l with count := c } env basename iu n chunk nxt it index = writeParts l env basename iu n chunk nxt it index := by
  induction n with
  | zero => intro _ _ _ _; rfl
  | succ n ih =>
    intro chunk nxt it index
    unfold writeParts
    simp only [ih]

theorem write_count (l : LBI) (c : Option Nat) (env : StatEnv) (basename : Str) :
    ({ l with count := c } : LBI).write env basename = l.write env basename := by
  unfold LBI.write
  simp only [writeParts_count]

/-- C107.  write() does with a generator what it does with a list, and neither needs a count nor looks at it. -/
theorem C107_write (g : GenList) (env : StatEnv) (basename : Str) :
    (g.write env basename).1 = (g.asList.write env basename).1 ∧
    (g.write env basename).2.map (fun _ => ()) = (g.asList.write env basename).2 := by
  have h : g.asList.write env basename = g.l.write env basename := write_count g.l none env basename
  rw [h]
  unfold GenList.write
  cases g.l.write env basename with
  | mk effs res => cases res <;> exact ⟨rfl, rfl⟩

/-- Without a count as_xml() fails if there is a limit on the number of entries (there is one by default). -/
theorem C107_no_count (g : GenList) (h : g.l.count = none) (m : Nat) (hm : g.l.max_sitemap_entries = some m) (allow_multifile : Bool) (basename : Str) :
    g.asXml allow_multifile basename = .error .type := by
  unfold GenList.asXml GenList.requiresMultifile
  rw [h, hm]; rfl

theorem no_entries {s : Sitemap} {md : Dict Str} {ln : List Link} {index : Bool} : ∃ t, resourcesAsXml s md ln [] index = .ok t ∧
    entries (if index then "sitemap" else "url") t = [] := by
  obtain ⟨t, hw⟩ : ∃ t, resourcesAsXml s md ln [] index = Except.ok t := ⟨_, (resourcesAsXml_ok (index := index)).mpr ⟨[], rfl, rfl⟩⟩
  refine ⟨t, hw, ?_⟩
  cases index with
  | false => exact (Except.ok.inj (entries_url hw)).symm
  | true => exact (Except.ok.inj (entries_sitemap hw)).symm

/-- C107 fails for the second time: a document without entries is made, and no error. -/
theorem C107_second_violated (g g' : GenList) (allow_multifile : Bool) (basename : Str) (t : Elem) (hs : g.requiresMultifile = .ok none)
    (h : g.asXml allow_multifile basename = .ok (t, g')) :
    ∃ t' g'', g'.asXml allow_multifile basename = .ok (t', g'') ∧ entries (if g.l.sitemapindex then "sitemap" else "url") t' = [] := by
  unfold GenList.asXml at h
  rw [hs, ebind_ok] at h
  simp only at h
  split at h
  · cases h
    unfold GenList.asXml
    have : (GenList.mk { g.l with md := defaultCapability g.l.md g.l.capability_name, resources := [] }).requiresMultifile = .ok none := by
      rw [← hs]
      unfold GenList.requiresMultifile
      cases hm : g.l.max_sitemap_entries with
      | none => simp only [hm]; unfold LBI.requiresMultifile; simp only [hm]
      | some m =>
        cases hc : g.l.count with
        | none =>
          unfold GenList.requiresMultifile at hs
          rw [hm, hc] at hs
        | some n =>
          simp only [hm, hc]
          unfold LBI.requiresMultifile LBI.len
          simp only [hm, hc, Option.getD_some]
    rw [this, ebind_ok]
    obtain ⟨t', h1, h2⟩ := no_entries (s := g.l.sitemap) (md := defaultCapability (defaultCapability g.l.md g.l.capability_name) g.l.capability_name)
      (ln := g.l.ln) (index := g.l.sitemapindex)
    refine ⟨t', ⟨{ g.l with md := defaultCapability (defaultCapability g.l.md g.l.capability_name) g.l.capability_name, resources := [] }⟩, ?_, h2⟩
    simp only [h1]
  · cases h

/-- C107 fails for the second time: what was written is overwritten with a document without entries. -/
theorem C107_write_again_violated (g g' : GenList) (env : StatEnv) (basename : Str) (h : (g.write env basename).2 = .ok g') :
    ∃ t g'', g'.write env basename = ([.openW basename, .finish basename t], .ok g'') ∧
      entries (if g.l.sitemapindex then "sitemap" else "url") t = [] := by
  have hg : g' = ⟨{ g.l with resources := [] }⟩ := by
    unfold GenList.write at h
    split at h <;> cases h
    rfl
  subst hg
  obtain ⟨t, h1, h2⟩ := no_entries (s := g.l.sitemap) (md := defaultCapability g.l.md g.l.capability_name)
      (ln := g.l.ln) (index := g.l.sitemapindex)
  refine ⟨t, ⟨{ g.l with resources := [] }⟩, ?_, h2⟩
  unfold GenList.write LBI.write
  cases hm : g.l.max_sitemap_entries with
  | none => simp only [getResourcesChunk, Option.toList, h1, writeDoc]
  | some m => simp only [getResourcesChunk, chunkLoop, Option.toList, h1, writeDoc]

theorem asXmlPart_ok {g g' : GenList} {name : Str} {i m : Nat} {t : Elem} (hm : g.l.max_sitemap_entries = some m)
    (h : g.asXmlPart name i = .ok (t, g')) : ∃ stop, i * m ≤ stop ∧ docUris t = ((g.l.resources.drop (i * m)).take (stop - i * m)).map (fun r => some r.uri) ∧
      g' = ⟨{ g.l with resources := g.l.resources.drop stop }⟩ ∧ stop = min (i * m + m) g.l.len := by
  unfold GenList.asXmlPart at h
  cases hr : g.requiresMultifile with
  | error e => rw [hr] at h; cases h
  | ok o =>
    rw [hr, ebind_ok, hm] at h
    cases o with
    | none => cases h
    | some n =>
      simp only at h
      split at h
      · cases h
      · rename_i hle
        split at h
        · rename_i t' ht
          cases h
          refine ⟨_, ?_, resourceElements_uris (entries_url ht), rfl, ?_⟩
          · split <;> omega
          · split <;> omega
        · cases h

/-- C107.  The number of components, and with it the index, is not affected by their having been asked for. -/
theorem C107_number (g g' : GenList) (h : g.Counted) (name basename : Str) (i : Nat) (t : Elem) (hp : g.asXmlPart name i = .ok (t, g')) :
    g'.requiresMultifile = g.requiresMultifile ∧ (g'.asXml true basename).map Prod.fst = g.asList.asXml true basename := by
  obtain ⟨m, hm⟩ : ∃ m, g.l.max_sitemap_entries = some m := by
    cases hm : g.l.max_sitemap_entries with
    | some m => exact ⟨m, rfl⟩
    | none =>
      unfold GenList.asXmlPart at hp
      rw [hm] at hp
      cases hr : g.requiresMultifile with
      | error e => rw [hr] at hp; cases hp
      | ok o => rw [hr, ebind_ok] at hp; cases o <;> cases hp
  obtain ⟨stop, -, -, h3, -⟩ := asXmlPart_ok hm hp
  subst h3
  have hq : (GenList.mk { g.l with resources := g.l.resources.drop stop }).requiresMultifile = g.requiresMultifile := by
    unfold GenList.requiresMultifile
    simp only [hm, show g.l.count = some g.l.resources.length from h]
    unfold LBI.requiresMultifile LBI.len
    simp only [hm, show g.l.count = some g.l.resources.length from h, Option.getD_some]
  refine ⟨hq, ?_⟩
  rw [← C107_as_xml g h]
  have hsome : ∃ n, g.requiresMultifile = .ok (some n) := by
    unfold GenList.asXmlPart at hp
    rw [hm] at hp
    cases hr : g.requiresMultifile with
    | error e => rw [hr] at hp; cases hp
    | ok o =>
      rw [hr, ebind_ok] at hp
      cases o with
      | none => cases hp
      | some n => exact ⟨n, rfl⟩
  obtain ⟨n, hn⟩ := hsome
  have hl : g.l.requiresMultifile = .ok (some n) := by
    rw [← hn]
    unfold GenList.requiresMultifile
    simp only [hm, show g.l.count = some g.l.resources.length from h]
  have hl' : ({ g.l with resources := g.l.resources.drop stop } : LBI).requiresMultifile = .ok (some n) := by
    rw [← hn, ← hq]
    unfold GenList.requiresMultifile
    simp only [hm, show g.l.count = some g.l.resources.length from h]
  unfold GenList.asXml
  rw [hq, hn, ebind_ok, ebind_ok]
  simp only [if_true]
  unfold LBI.asXmlIndex
  rw [hl, hl', ebind_ok]
  simp only
  generalize resourcesAsXml {} (defaultCapability [] g.l.capability_name) []
        ((List.range n).map (fun i => { uri := partName basename i : Resource })) true = x
  cases x <;> rfl

theorem partsFrom_uris {name : Str} {m : Nat} {rs : List Resource} (k : Nat) : ∀ {g : GenList} {i : Nat} {docs : List Elem}, g.l.max_sitemap_entries = some m →
    1 ≤ i → (∃ j, m ≤ j ∧ g.l.resources = rs.drop j) → g.partsFrom name i k = .ok docs →
    ∀ t ∈ docs, ∀ u ∈ docUris t, ∃ r ∈ rs.drop (2 * m), u = some r.uri := by
  induction k with
  | zero =>
    intro g i docs _ _ _ h t ht
    cases h; cases ht
  | succ k ih =>
    rintro g i docs hm hi ⟨j, hj, hr⟩ h t ht u hu
    unfold GenList.partsFrom at h
    split at h
    · cases h
    · rename_i t0 g' h0
      obtain ⟨stop, h1, h2, h3, -⟩ := asXmlPart_ok hm h0
      split at h
      · cases h
      · rename_i ts hts
        cases h
        rcases List.mem_cons.mp ht with rfl | ht
        · rw [h2, hr] at hu
          obtain ⟨r, h4, rfl⟩ := List.mem_map.mp hu
          refine ⟨r, ?_, rfl⟩
          have h5 := List.mem_of_mem_take h4
          rw [List.drop_drop] at h5
          have hle : 2 * m ≤ j + i * m := by
            have : 1 * m ≤ i * m := Nat.mul_le_mul_right m hi
            omega
          rw [show j + i * m = 2 * m + (j + i * m - 2 * m) by omega, ← List.drop_drop] at h5
          exact List.mem_of_mem_drop h5
        · subst h3
          exact ih (by exact hm) (by omega) ⟨j + stop, by omega, by simp only [hr, List.drop_drop]⟩ hts t ht u hu

/-- C107 fails for components: when they are asked for one after the other, the second skips as many items as the first had, and so the
items that belong in it are in none. -/
theorem C107_parts_violated (g : GenList) (h : g.Counted) (m : Nat) (hm : g.l.max_sitemap_entries = some m)
    (hd : (g.l.resources.map Resource.uri).Nodup) (name : Str) (docs : List Elem) (k : Nat) (hk : 1 ≤ k) (hrun : g.partsFrom name 0 k = .ok docs)
    (hlen : m < g.l.resources.length)
    (i : Nat) (hi : i < g.l.resources.length) (h1 : m ≤ i) (h2 : i < 2 * m) : ∀ t ∈ docs, some g.l.resources[i].uri ∉ docUris t := by
  obtain ⟨k, rfl⟩ : ∃ k', k = k' + 1 := ⟨k - 1, by omega⟩
  unfold GenList.partsFrom at hrun
  split at hrun
  · cases hrun
  rename_i t0 g' h0
  obtain ⟨stop, -, h4, h5, h6⟩ := asXmlPart_ok hm h0
  split at hrun
  · cases hrun
  rename_i ts hts
  cases hrun
  have hl : g.l.len = g.l.resources.length := by unfold LBI.len; rw [h]; rfl
  have hstop : stop = m := by rw [h6, hl]; omega
  -- the URI is that of one item only
  have uniq : ∀ j (hj : j < g.l.resources.length), g.l.resources[j].uri = g.l.resources[i].uri → j = i := by
    intro j hj e
    have := (List.nodup_iff_injective_get.mp hd) (a₁ := ⟨j, by simpa using hj⟩) (a₂ := ⟨i, by simpa using hi⟩) (by simpa using e)
    simpa using this
  intro t ht hu
  rcases List.mem_cons.mp ht with rfl | ht
  · rw [h4, hstop] at hu
    simp only [Nat.zero_mul, List.drop_zero, Nat.sub_zero] at hu
    obtain ⟨r, h7, h8⟩ := List.mem_map.mp hu
    obtain ⟨j, hj, rfl⟩ := List.mem_iff_getElem.mp h7
    rw [List.getElem_take] at h8
    rw [List.length_take] at hj
    have := uniq j (by omega) (by simpa using h8)
    omega
  · subst h5
    obtain ⟨r, h7, h8⟩ := partsFrom_uris (rs := g.l.resources) k (m := m) (by exact hm) (by omega) ⟨stop, by omega, rfl⟩ hts t ht _ hu
    obtain ⟨j, hj, rfl⟩ := List.mem_iff_getElem.mp h7
    rw [List.getElem_drop] at h8
    rw [List.length_drop] at hj
    have := uniq (2 * m + j) (by omega) (by simpa using h8.symm)
    omega

/-- three items, two in a document -/
def exGen : GenList := ⟨{ exList 2 with count := some 3 }⟩

example : exGen.Counted ∧ (exGen.l.resources.map Resource.uri).Nodup ∧ 2 < exGen.l.resources.length := by
  unfold GenList.Counted; decide +kernel

/-- both parts can be had, and the third item is in neither -/
example : (exGen.partsFrom exBase 0 2).toOption.map (fun ts => ts.map docUris) =
    some [[some (exList 2).resources[0].uri, some (exList 2).resources[1].uri], []] := by decide +kernel

/-- a second document without entries -/
example : (GenList.mk { exList 5 with count := some 3 }).requiresMultifile = .ok none ∧
    ((GenList.mk { exList 5 with count := some 3 }).asXml false exBase).toOption.map (fun p => (docUris p.1).length) = some 3 := by decide +kernel

end Resync
