import Verif.Props.ExplorerAccount
import Verif.Props.Discovery
/-
C89: where the explorer starts.
-/

namespace Resync
open Py Resync.Spec

/-- The visits of a user who goes back from each starting point -/
def backVisits (w : ExpWorld) (starts : List XResource) (n : Nat) : List Visit :=
  (starts.zipIdx n).map (fun p => ⟨p.1, false, display w p.2 p.1, some .back⟩)

theorem explore_back (w : ExpWorld) : ∀ (starts : List XResource) (n : Nat),
    exploreStarts w n starts (List.replicate starts.length ['b']) = (backVisits w starts n, .done) := by
  intro starts
  induction starts with
  | nil => intro n; rfl
  | cons s ss ih =>
    intro n
    rw [exploreStarts_cons, exploreAll_cons]
    have ha : ask (display w n s).options (List.replicate (s :: ss).length ['b']) = some (.back, List.replicate ss.length ['b']) := by
      rw [List.length_cons, List.replicate_succ, ask, (goodKeys_display w n s).2]
      rfl
    have hu : exploreUri w n s (!([] : List XResource).isEmpty) (List.replicate (s :: ss).length ['b'])
        = (⟨s, false, display w n s, some .back⟩, .back (List.replicate ss.length ['b'])) := by
      unfold exploreUri
      dsimp only
      rw [ha]
      rfl
    rw [hu]
    simp only
    rw [exploreAll_nil, ih]
    rfl

/-- The names looked for in a local directory, in this order -/
def likelyDocuments : List Str :=
  ["resourcesync".toList, "capabilities.xml".toList, "resourcelist.xml".toList, "changelist.xml".toList]

/-- The user sees these documents, in this order, when going back from each: then the exploration is over. -/
def StartsWith (w : ExpWorld) (c : DiscCfg) (starts : List XResource) : Prop :=
  ∃ vs, explore w c (List.replicate starts.length "b".toList) = .ok (vs, .done) ∧ vs.map Visit.xr = starts ∧
    ∀ v ∈ vs, v.show_back = false ∧ v.answer = some .back

theorem startsWith_of {w : ExpWorld} {c : DiscCfg} {starts : List XResource} (h : explorerStarts w c = .ok starts) :
    StartsWith w c starts := by
  refine ⟨backVisits w starts 0, ?_, ?_, ?_⟩
  · unfold explore
    rw [h]
    simp only
    rw [show "b".toList = ['b'] from rfl, explore_back]
  · unfold backVisits
    rw [List.map_map]
    exact List.zipIdx_map_fst 0 starts
  · intro v hv
    unfold backVisits at hv
    obtain ⟨p, -, rfl⟩ := List.mem_map.mp hv
    exact ⟨rfl, rfl⟩

/-- C89. With an explicit sitemap there is one starting point: that one; nothing is expected of it. -/
theorem C89_explicit (w : ExpWorld) (c : DiscCfg) (name : Str) (h : c.sitemap_name = some name) :
    StartsWith w c [{ uri := name }] := by
  refine startsWith_of ?_
  unfold explorerStarts
  rw [h]

/-- C89. Without any source the exploration does not start. -/
theorem C89_nothing (w : ExpWorld) (c : DiscCfg) (inputs : List Str) (h : c.sitemap_name = none) (hm : c.mapper = []) :
    explore w c inputs = .error .fatal := by
  unfold explore explorerStarts
  rw [h, hm]
  rfl

/-- C89. The first mapping leads from a local directory: those of the likely documents that are there are the starting points, in the
order given above; and if there is none the exploration does not start. -/
theorem C89_directory (w : ExpWorld) (c : DiscCfg) (m : Map) (rest : List Map) (hn : c.sitemap_name = none)
    (hm : c.mapper = m :: rest) (hu : urlparse m.src_uri = some ⟨[], [], m.src_uri, [], [], []⟩) (hd : w.isdir m.src_uri = true)
    (hslash : m.src_uri.getLast? ≠ some '/') (hne : m.src_uri ≠ []) :
    ((∀ name ∈ likelyDocuments, w.stat 0 (m.src_uri ++ '/' :: name) = none) → ∀ inputs, explore w c inputs = .error .fatal) ∧
    ((∃ name ∈ likelyDocuments, w.stat 0 (m.src_uri ++ '/' :: name) ≠ none) → ∃ names : List Str, names.Sublist likelyDocuments ∧
      (∀ name ∈ likelyDocuments, name ∈ names ↔ w.stat 0 (m.src_uri ++ '/' :: name) ≠ none) ∧
      StartsWith w c (names.map (fun name => { uri := m.src_uri ++ '/' :: name }))) := by
  have hjoin : likelyNames.map (pathJoin m.src_uri) = likelyDocuments.map (fun name => m.src_uri ++ '/' :: name) := by
    refine List.map_congr_left (fun name hname => ?_)
    have h0 : startsWith name ['/'] = false := (show ∀ x ∈ likelyNames, startsWith x ['/'] = false by decide) name hname
    have h1 : endsWith m.src_uri ['/'] = false := by
      rw [Bool.eq_false_iff]
      intro h
      obtain ⟨t, ht⟩ := (List.isSuffixOf_iff_suffix (l₁ := ['/']) (l₂ := m.src_uri)).mp h
      exact hslash (by rw [← ht]; simp)
    simp [pathJoin, h0, h1, hne]
  have hstarts : explorerStarts w c = if likelyDocuments.filter (fun name => (w.stat 0 (m.src_uri ++ '/' :: name)).isSome) = []
      then .error .fatal
      else .ok ((likelyDocuments.filter (fun name => (w.stat 0 (m.src_uri ++ '/' :: name)).isSome)).map
        (fun name => { uri := m.src_uri ++ '/' :: name })) := by
    unfold explorerStarts
    rw [hn, hm]
    simp only [Mapper.defaultSrcUri, hu, hd, if_true, and_self, hjoin, List.filter_map, List.map_map, List.map_eq_nil_iff]
    rfl
  constructor
  · intro h inputs
    have : likelyDocuments.filter (fun name => (w.stat 0 (m.src_uri ++ '/' :: name)).isSome) = [] := by
      rw [List.filter_eq_nil_iff]
      intro name hname
      rw [h name hname]
      simp
    rw [if_pos this] at hstarts
    unfold explore
    rw [hstarts]
  · rintro ⟨name, h1, h2⟩
    have hne : likelyDocuments.filter (fun name => (w.stat 0 (m.src_uri ++ '/' :: name)).isSome) ≠ [] := by
      intro he
      rw [List.filter_eq_nil_iff] at he
      exact he name h1 (Option.isSome_iff_ne_none.mpr h2)
    rw [if_neg hne] at hstarts
    refine ⟨_, List.filter_sublist, ?_, startsWith_of hstarts⟩
    intro name hname
    rw [List.mem_filter, Option.isSome_iff_ne_none]
    exact ⟨fun h => h.2, fun h => ⟨hname, h⟩⟩

/-- C89. The first mapping leads from something else that is local: this is the starting point, whether it exists or not. -/
theorem C89_file (w : ExpWorld) (c : DiscCfg) (m : Map) (rest : List Map) (hn : c.sitemap_name = none)
    (hm : c.mapper = m :: rest) (hu : urlparse m.src_uri = some ⟨[], [], m.src_uri, [], [], []⟩) (hd : w.isdir m.src_uri = false) :
    StartsWith w c [{ uri := m.src_uri }] := by
  refine startsWith_of ?_
  unfold explorerStarts
  rw [hn, hm]
  simp only [Mapper.defaultSrcUri, hu, hd, if_true, and_self, Bool.false_eq_true, if_false]

/-- C89. The first mapping leads from a server, or from something on a server: that something, if there is one, and then the well-known
place at that server, where a capability list is expected. -/
theorem C89_server (w : ExpWorld) (c : DiscCfg) (m : Map) (rest : List Map) (scheme host : Str) (segs : List Str)
    (hn : c.sitemap_name = none) (hm : c.mapper = m :: rest) (hsch : HttpScheme scheme) (hh : HostName host) (hho : host ≠ [])
    (hsegs : ∀ s ∈ segs, Segment s) (hsrc : m.src_uri = httpBase scheme host segs) :
    StartsWith w c ((if segs = [] then [] else [{ uri := m.src_uri }]) ++
      [{ uri := scheme ++ "://".toList ++ host ++ "/.well-known/resourcesync".toList,
         caps := some (.kinds ["capabilitylist".toList, "capabilitylistindex".toList]) }]) := by
  refine startsWith_of ?_
  have hs0 : scheme ≠ [] := by rcases hsch with rfl | rfl <;> decide
  have hwk : urlunparse ⟨scheme, host, "/.well-known/resourcesync".toList, [], [], []⟩
      = scheme ++ "://".toList ++ host ++ "/.well-known/resourcesync".toList := by
    have hp : ¬ ("/.well-known/resourcesync".toList ≠ [] ∧ "/.well-known/resourcesync".toList.head? ≠ some '/') := by decide
    generalize "/.well-known/resourcesync".toList = p at hp ⊢
    unfold urlunparse urlunsplit
    simp only [ne_eq, not_true_eq_false, if_false, hho, not_false_eq_true, true_or, if_true, hs0]
    rw [if_neg hp]
    simp
  unfold explorerStarts
  rw [hn, hm]
  simp only [Mapper.defaultSrcUri, hsrc, urlparse_http hsch hh hsegs, hs0, false_and, if_false, hwk]
  cases segs with
  | nil => rfl
  | cons s t => rfl

/-! ### Concrete cases -/

namespace ExplorerExample
/-- a directory with two of the likely documents -/
def dirWorld : ExpWorld where
  docAt _ _ := none
  isdir p := p == "/d".toList
  stat _ f := if f = "/d/resourcelist.xml".toList ∨ f = "/d/resourcesync".toList then some (10, 100) else none
def dirCfg (s : String) : DiscCfg := { mapper := [⟨s.toList, "/e".toList⟩] }
end ExplorerExample
open ExplorerExample

/-- C89_directory applies, and the starting points are these -/
example : urlparse "/d".toList = some ⟨[], [], "/d".toList, [], [], []⟩ ∧ dirWorld.isdir "/d".toList = true ∧
    (∃ name ∈ likelyDocuments, dirWorld.stat 0 ("/d".toList ++ '/' :: name) ≠ none) ∧
    explorerStarts dirWorld (dirCfg "/d") = .ok [{ uri := "/d/resourcesync".toList }, { uri := "/d/resourcelist.xml".toList }] := by
  decide +kernel

/-- C89_file: a file, or something that does not exist -/
example : urlparse "/x.xml".toList = some ⟨[], [], "/x.xml".toList, [], [], []⟩ ∧ dirWorld.isdir "/x.xml".toList = false := by
  decide +kernel

/-- C89_server with a path -/
example : HttpScheme "http".toList ∧ HostName "a.org".toList ∧ (∀ s ∈ ["x".toList], Segment s) ∧
    "http://a.org/x".toList = httpBase "http".toList "a.org".toList ["x".toList] ∧
    explorerStarts dirWorld (dirCfg "http://a.org/x") = .ok [{ uri := "http://a.org/x".toList },
      { uri := "http://a.org/.well-known/resourcesync".toList,
        caps := some (.kinds ["capabilitylist".toList, "capabilitylistindex".toList]) }] := by
  unfold HttpScheme HostName Segment noneOf
  decide +kernel

end Resync
