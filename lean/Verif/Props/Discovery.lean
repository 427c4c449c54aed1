import Verif.Model.Discovery
import Verif.Spec.Discovery
import Verif.Props.CapabilityList
import Verif.Proofs.Url
import Verif.Proofs.Path
import Verif.Proofs.ReadWF
import Verif.Props.UrlOpen
/-
C61: where the client looks for the resource list.
-/

namespace Resync
open Py Resync.Spec

/-- the documents of the specification are what the model reads -/
def Sources.docs (s : Sources) : Docs := ⟨s.resourceList, s.sourceDescription, s.capabilityList⟩

def ReadOp.place : ReadOp → Place
  | .rl u => .list u
  | .sd u => .description u
  | .cl u => .capabilities u

/-- the outcome as the exception or value a caller sees, when running out of places raises e -/
def outcomeOk (e : ClientErr) (r : Except ClientErr (Dict Resource)) : Outcome → Prop
  | .found d => r = .ok d
  | .missing => r = .error e
  | .stop => r = .error .fatal ∨ r = .error .uncaught

/-- descriptions and capability lists are kept by URI, as the containers' add() ensures -/
def Sources.Keyed (s : Sources) : Prop :=
  (∀ u d, s.sourceDescription u = some d → WF d) ∧ (∀ u d, s.capabilityList u = some d → WF d)

theorem readResourceList_gives (s : Sources) (u : Str) : ∃ o,
    Gives s.docs urljoin (.list u) ((readResourceList s u).1.map ReadOp.place) o ∧
    outcomeOk .error (readResourceList s u).2 o ∧ o ≠ .stop := by
  unfold readResourceList
  cases h : s.resourceList u with
  | none => exact ⟨.missing, .noList h, rfl, by simp⟩
  | some d => exact ⟨.found d, .list h, rfl, by simp⟩

theorem resourceListEntry_iff {d : Dict Resource} (hd : WF d) (r : Resource) :
    ResourceListEntry d r ↔ capabilityInfo d (some "resourcelist".toList) = some r := by
  rw [C63_info hd]
  unfold ResourceListEntry
  constructor
  · rintro ⟨⟨k, hk⟩, h2, h3⟩
    refine ⟨by rw [hd.2 _ _ hk]; exact hk, h2, fun r' h => h3 r'.uri r' h⟩
  · rintro ⟨h1, h2, h3⟩
    exact ⟨⟨_, h1⟩, h2, fun k r' h h' => h3 r' (by rw [hd.2 _ _ h]; exact h) h'⟩

theorem capabilities_gives (s : Sources) (hs : s.Keyed) (u : Str) : ∃ o,
    Gives s.docs urljoin (.capabilities u) ((thenRead s (findFromCapabilityList s u)).1.map ReadOp.place) o ∧
    outcomeOk .error (thenRead s (findFromCapabilityList s u)).2 o := by
  cases h : s.capabilityList u with
  | none =>
    have e : findFromCapabilityList s u = ([.cl u], .error .error) := by simp only [findFromCapabilityList, h]
    rw [e]
    exact ⟨.missing, .noCapabilityList h, rfl⟩
  | some cl =>
    have hw := hs.2 u cl h
    cases h2 : capabilityInfo cl (some "resourcelist".toList) with
    | none =>
      have e : findFromCapabilityList s u = ([.cl u], .error .fatal) := by simp only [findFromCapabilityList, h, h2]
      rw [e]
      refine ⟨.stop, .notOffered h ?_, .inl rfl⟩
      intro r hr
      rw [(resourceListEntry_iff hw r).mp hr] at h2
      cases h2
    | some r =>
      have hr := (resourceListEntry_iff hw r).mpr h2
      cases h3 : urljoin u r.uri with
      | none =>
        have e : findFromCapabilityList s u = ([.cl u], .error .uncaught) := by
          simp only [findFromCapabilityList, h, h2, h3]
        rw [e]
        exact ⟨.stop, .badListReference h hr h3, .inr rfl⟩
      | some l =>
        have e : findFromCapabilityList s u = ([.cl u], .ok l) := by
          simp only [findFromCapabilityList, h, h2, h3]
        rw [e]
        obtain ⟨o, h4, h5, -⟩ := readResourceList_gives s l
        exact ⟨o, .viaCapabilities h hr h3 h4, h5⟩

theorem listing'_eq_listing (d : Dict Resource) : findFromSourceDescription.listing' d = listing d := rfl

theorem listing_singleton (k : Str) (v : Resource) : listing [(k, v)] = [v] := by
  simp [listing, dkeys, sortStr, dget]

theorem onlyEntry_iff {d : Dict Resource} (hd : WF d) (e : Resource) : OnlyEntry d e ↔ listing d = [e] := by
  unfold OnlyEntry
  have hlen : (listing d).length = d.length := by
    have := congrArg List.length (listing_uris hd)
    rw [(sortStr_perm (dkeys d)).length_eq] at this
    simpa [dkeys] using this
  rcases d with _ | ⟨⟨k, v⟩, _ | ⟨q, t⟩⟩
  · constructor
    · intro h; cases h
    · intro h; rw [h] at hlen; simp at hlen
  · rw [listing_singleton]; simp
  · constructor
    · intro h; simp at h
    · intro h; rw [h] at hlen; simp at hlen

theorem description_gives (s : Sources) (hs : s.Keyed) (u : Str) : ∃ o,
    Gives s.docs urljoin (.description u) ((thenRead s (findFromSourceDescription s u)).1.map ReadOp.place) o ∧
    outcomeOk .error (thenRead s (findFromSourceDescription s u)).2 o := by
  unfold findFromSourceDescription
  cases h : s.sourceDescription u with
  | none => exact ⟨.missing, .noDescription h, rfl⟩
  | some sd =>
    have hw := hs.1 u sd h
    simp only [listing'_eq_listing]
    have notOne : (∀ r, listing sd ≠ [r]) → ∀ e, ¬ OnlyEntry sd e :=
      fun hn e he => hn e ((onlyEntry_iff hw e).mp he)
    split
    · rename_i r hl
      have he := (onlyEntry_iff hw r).mpr hl
      cases h3 : urljoin u r.uri with
      | none => exact ⟨.stop, .badReference h he h3, .inr rfl⟩
      | some c =>
        obtain ⟨o, h4, h5⟩ := capabilities_gives s hs c
        refine ⟨o, ?_, ?_⟩
        · have h6 := Gives.viaDescription (w := s.docs) h he h3 h4
          have e : (thenRead s (ReadOp.sd u :: (findFromCapabilityList s c).1, (findFromCapabilityList s c).2)).1 =
              ReadOp.sd u :: (thenRead s (findFromCapabilityList s c)).1 := by
            unfold thenRead
            cases (findFromCapabilityList s c).2 <;> rfl
          simp only
          rw [e]
          exact h6
        · have e : (thenRead s (ReadOp.sd u :: (findFromCapabilityList s c).1, (findFromCapabilityList s c).2)).2 =
              (thenRead s (findFromCapabilityList s c)).2 := by
            unfold thenRead
            cases (findFromCapabilityList s c).2 <;> rfl
          simp only
          rw [e]
          exact h5
    · rename_i hn
      exact ⟨.stop, .notOneSource h (notOne (fun r hr => hn r hr)), .inl rfl⟩

theorem tryEach_search (s : Sources) (attempt : Str → Found (Dict Resource)) (place : Str → Place)
    (ha : ∀ u, ∃ o, Gives s.docs urljoin (place u) ((attempt u).1.map ReadOp.place) o ∧ outcomeOk .error (attempt u).2 o)
    (rest : List Place) (after : Found (Dict Resource)) (oa : Outcome)
    (hafter : Search s.docs urljoin rest (after.1.map ReadOp.place) oa) (hoa : outcomeOk .fatal after.2 oa)
    (us : List Str) : ∃ o,
    Search s.docs urljoin (us.map place ++ rest) ((tryEach attempt us after).1.map ReadOp.place) o ∧
    outcomeOk .fatal (tryEach attempt us after).2 o := by
  induction us with
  | nil => exact ⟨oa, hafter, hoa⟩
  | cons u us ih =>
    obtain ⟨o, h1, h2⟩ := ha u
    obtain ⟨o', h3, h4⟩ := ih
    unfold tryEach
    cases o with
    | found d =>
      simp only [outcomeOk] at h2
      simp only [h2]
      exact ⟨.found d, .decisive h1 (by simp), rfl⟩
    | missing =>
      simp only [outcomeOk] at h2
      simp only [h2, List.map_append]
      exact ⟨o', .next h1 h3, h4⟩
    | stop =>
      simp only [outcomeOk] at h2
      rcases h2 with h2 | h2 <;> simp only [h2] <;>
      · exact ⟨.stop, .decisive h1 (by simp), by simp [outcomeOk]⟩

/-- C61.  An explicit resource list is the only document read. -/
theorem C61_explicit_list (s : Sources) (c : DiscCfg) (n : Str) (h : c.sitemap_name = some n) : ∃ o,
    Gives s.docs urljoin (.list n) ((findResourceList s c).1.map ReadOp.place) o ∧
    outcomeOk .error (findResourceList s c).2 o := by
  unfold findResourceList
  simp only [h]
  obtain ⟨o, h1, h2, -⟩ := readResourceList_gives s n
  exact ⟨o, h1, h2⟩

/-- C61.  Otherwise an explicit capability list is used, and nothing else is tried if that does not work. -/
theorem C61_explicit_capability_list (s : Sources) (hs : s.Keyed) (c : DiscCfg) (u : Str) (h : c.sitemap_name = none)
    (h2 : c.capability_list_uri = some u) : ∃ o,
    Gives s.docs urljoin (.capabilities u) ((findResourceList s c).1.map ReadOp.place) o ∧
    outcomeOk .error (findResourceList s c).2 o := by
  unfold findResourceList
  simp only [h, h2]
  exact capabilities_gives s hs u

/-! ### The locations -/

theorem urlparse_eq_urlparseD (u : Str) : urlparseD u [] = urlparse u := by
  unfold urlparseD urlparse
  simp only
  have : (if (splitScheme (urlClean u)).1 = [] then [] else (splitScheme (urlClean u)).1) = (splitScheme (urlClean u)).1 := by
    split
    · rename_i h; rw [h]
    · rfl
  rw [this]

theorem urlparseD_some {u d : Str} {r : Url} (h : urlparse u = some r) (hn : r.scheme ≠ []) : urlparseD u d = some r := by
  have hs : r.scheme = (splitScheme (urlClean u)).1 := by
    unfold urlparse at h
    simp only at h
    split at h
    · cases h
    · cases h; rfl
  unfold urlparseD
  unfold urlparse at h
  simp only at h ⊢
  have hn' : (splitScheme (urlClean u)).1 ≠ [] := hs ▸ hn
  simp only [if_neg hn']
  exact h

def dirText (segs : List Str) : Str := (segs.map (fun s => '/' :: s)).flatten

theorem join_nil_segs (segs : List Str) : join ['/'] ([] :: segs) = dirText segs := by
  induction segs with
  | nil => rfl
  | cons a t ih =>
    have : join ['/'] (a :: t) = a ++ dirText t := by
      cases t with
      | nil => simp [join, dirText]
      | cons b t =>
        simp only [join, List.nil_append, List.cons_append] at ih
        simp only [join, List.append_assoc, List.singleton_append]
        rw [ih]
    simp only [join, List.nil_append, List.singleton_append, this]
    rfl

theorem splitOn_dirText {segs : List Str} (h : ∀ s ∈ segs, '/' ∉ s) : splitOn '/' (dirText segs) = [] :: segs := by
  rw [← join_nil_segs, splitOn_join (by simp)]
  intro x hx
  rcases List.mem_cons.mp hx with rfl | hx
  · simp
  · exact h x hx

theorem dirText_append (a b : List Str) : dirText (a ++ b) = dirText a ++ dirText b := by simp [dirText]

theorem resolveSegs_plain (acc segs : List Str) (h : ∀ s ∈ segs, s ≠ "..".toList ∧ s ≠ ".".toList) :
    segs.foldl (fun acc seg =>
      if seg = "..".toList then acc.dropLast else if seg = ".".toList then acc else acc ++ [seg]) acc = acc ++ segs := by
  induction segs generalizing acc with
  | nil => simp
  | cons a t ih =>
    rw [List.foldl_cons, if_neg (h a (by simp)).1, if_neg (h a (by simp)).2, ih _ (fun s hs => h s (by simp [hs]))]
    simp

theorem filterMiddle_plain (l : List Str) (a : Str) (h : ∀ s ∈ l, s ≠ []) : filterMiddle (a :: l) = a :: l := by
  cases l with
  | nil => rfl
  | cons b t =>
    simp only [filterMiddle]
    rw [List.filter_eq_self.mpr]
    · simp only [List.cons_append, List.dropLast_append_getLast]
    · intro x hx
      simpa using h x (List.mem_of_mem_take (by rw [List.dropLast_eq_take] at hx; exact hx))

theorem Segment_slash {s : Str} (h : Segment s) : '/' ∉ s := fun hm => h.2.2.2 _ hm (by decide)

theorem dirText_plain {segs : List Str} (h : ∀ s ∈ segs, Segment s) : PlainPath (dirText segs) := by
  intro c hc
  simp only [dirText, List.mem_flatten, List.mem_map] at hc
  obtain ⟨l, ⟨s, hs, rfl⟩, hc⟩ := hc
  rcases List.mem_cons.mp hc with rfl | hc
  · decide
  · have := (h s hs).2.2.2 c hc
    intro hx
    apply this
    have e : "/?#;\t\r\n".toList = '/' :: "?#;\t\r\n".toList := by decide
    rw [e]
    exact List.mem_cons_of_mem _ hx

theorem dirText_form (segs : List Str) : dirText segs = [] ∨ ∃ t, dirText segs = '/' :: t := by
  cases segs with
  | nil => exact .inl rfl
  | cons a t => exact .inr ⟨_, rfl⟩

def HttpScheme (s : Str) : Prop := s = "http".toList ∨ s = "https".toList

theorem HttpScheme.name {s : Str} (h : HttpScheme s) : SchemeName s := by
  rcases h with rfl | rfl
  · exact ⟨⟨'h', "ttp".toList, by decide, by decide⟩, by decide⟩
  · exact ⟨⟨'h', "ttps".toList, by decide, by decide⟩, by decide⟩

theorem HttpScheme.uses {s : Str} (h : HttpScheme s) : s ∈ usesRelative ∧ s ∈ usesNetloc ∧ s ≠ [] := by
  rcases h with rfl | rfl <;> decide

theorem urlparse_http {scheme host : Str} (hs : HttpScheme scheme) (hh : HostName host) {segs : List Str}
    (h : ∀ s ∈ segs, Segment s) :
    urlparse (httpBase scheme host segs) = some ⟨scheme, host, dirText segs, [], [], []⟩ :=
  urlparse_webUrl hs.name hh (dirText_plain h) (dirText_form segs)

theorem splitScheme_none {u : Str} (h : ':' ∉ u) : splitScheme u = ([], u) := by
  unfold splitScheme
  rw [split1_none h]

theorem urlparse_rel {rel dflt : Str} (hc : ∀ c ∈ rel, c.toNat > 32) (hf : noneOf ":?#;".toList rel)
    (h0 : rel.head? ≠ some '/') : urlparseD rel dflt = some ⟨dflt, [], rel, [], [], []⟩ := by
  have hm : ∀ c, c ∈ ":?#;".toList → c ∉ rel := fun c h1 h2 => hf c h2 h1
  have hclean : urlClean rel = rel := by
    unfold urlClean
    have e1 : rel.dropWhile (fun c => decide (c.toNat ≤ 32)) = rel := by
      cases rel with
      | nil => rfl
      | cons a t => rw [List.dropWhile_cons_of_neg]; have := hc a (by simp); simp; omega
    rw [e1, List.filter_eq_self]
    intro c h
    have := hc c h
    simp only [Bool.and_eq_true, bne_iff_ne, ne_eq]
    refine ⟨⟨?_, ?_⟩, ?_⟩ <;> (rintro rfl; revert this; decide)
  have hnet : splitNetloc rel = ([], rel) := by
    unfold splitNetloc
    split
    · rename_i r; exact absurd rfl h0
    · rfl
  unfold urlparseD
  simp only [hclean, splitScheme_none (hm ':' (by decide)), if_true, hnet]
  have hcut1 : cut '#' rel = (rel, []) := cut_none (hm '#' (by decide))
  have hcut2 : cut '?' rel = (rel, []) := cut_none (hm '?' (by decide))
  have hsemi : rel.contains ';' = false := by
    rw [Bool.eq_false_iff]; intro h; exact hm ';' (by decide) (by simpa using h)
  simp only [hcut1, hcut2, hsemi, Bool.and_false]
  simp

/-- relative references made of ordinary segments -/
structure RelRef (rel : Str) (rs : List Str) : Prop where
  text : rel = join ['/'] rs
  ne : rs ≠ []
  segs : ∀ s ∈ rs, Segment s
  chars : ∀ c ∈ rel, c.toNat > 32
  flat : noneOf ":?#;".toList rel
  head : rel.head? ≠ some '/'

theorem urljoin_aux {scheme host base rel : Str} (hs : HttpScheme scheme) (hho : host ≠ [])
    (segs : List Str) {rs : List Str} (hr : RelRef rel rs)
    (hb : urlparse base = some ⟨scheme, host, dirText segs, [], [], []⟩) (hne : base ≠ []) (bseg : List Str)
    (hbs : bseg = if (splitOn '/' (dirText segs)).getLast? ≠ some [] then (splitOn '/' (dirText segs)).dropLast
      else splitOn '/' (dirText segs)) (dsegs : List Str) (hds : bseg = [] :: dsegs) (hd : ∀ s ∈ dsegs, Segment s) :
    urljoin base rel = some (httpBase scheme host (dsegs ++ rs)) := by
  have hrel : rel ≠ [] := by
    intro e
    have h1 := hr.text
    obtain ⟨a, t, e2⟩ := List.exists_cons_of_ne_nil hr.ne
    rw [e2, e] at h1
    have := (hr.segs a (by simp [e2])).1
    cases t with
    | nil => exact this (by simpa [join] using h1.symm)
    | cons b t => simp [join, this] at h1
  have hsp : splitOn '/' rel = rs := by
    rw [hr.text, splitOn_join hr.ne (fun s hs => Segment_slash (hr.segs s hs))]
  unfold urljoin
  rw [if_neg hne, if_neg hrel, urlparse_eq_urlparseD, hb]
  simp only
  rw [urlparse_rel hr.chars hr.flat hr.head]
  simp only
  rw [if_neg (by simp [hs.uses.1]), if_neg (by simp), if_pos hs.uses.2.1, if_neg (by simp [hrel]), ← hbs, if_neg hr.head, hsp,
    hds]
  have hall : ∀ s ∈ dsegs ++ rs, Segment s := by
    intro s h
    rcases List.mem_append.mp h with h | h
    · exact hd s h
    · exact hr.segs s h
  have e1 : filterMiddle (([] :: dsegs) ++ rs) = [] :: (dsegs ++ rs) := by
    rw [List.cons_append, filterMiddle_plain _ _ (fun s hs => (hall s hs).1)]
  have e2 : resolveSegs ([] :: (dsegs ++ rs)) = [] :: (dsegs ++ rs) := by
    unfold resolveSegs
    rw [resolveSegs_plain _ _ (by
      intro s h
      rcases List.mem_cons.mp h with rfl | h
      · decide
      · exact ⟨(hall s h).2.2.1, (hall s h).2.1⟩)]
    rfl
  rw [e1, e2]
  have hlast : ([] :: (dsegs ++ rs)).getLast? = rs.getLast? := by
    rw [List.getLast?_cons]
    have : (dsegs ++ rs).getLast? = rs.getLast? := by
      rw [List.getLast?_append]
      cases h : rs.getLast? with
      | none => exact absurd (List.getLast?_eq_none_iff.mp h) hr.ne
      | some a => rfl
    rw [this]
    cases h : rs.getLast? with
    | none => exact absurd (List.getLast?_eq_none_iff.mp h) hr.ne
    | some a => rfl
  have hl2 : ¬ (([] :: (dsegs ++ rs)).getLast? = some ".".toList ∨ ([] :: (dsegs ++ rs)).getLast? = some "..".toList) := by
    rw [hlast]
    rintro (h | h)
    · exact (hr.segs _ (List.mem_of_getLast? h)).2.1 rfl
    · exact (hr.segs _ (List.mem_of_getLast? h)).2.2.1 rfl
  rw [if_neg hl2, join_nil_segs]
  have hne2 : dirText (dsegs ++ rs) ≠ [] := by
    rw [dirText_append]
    obtain ⟨a, t, e2⟩ := List.exists_cons_of_ne_nil hr.ne
    rw [e2]; simp [dirText]
  rw [if_neg hne2]
  unfold urlunparse urlunsplit
  simp only [ne_eq, not_true_eq_false, if_false, hho, not_false_eq_true, true_or, if_true, hs.uses.2.2]
  have hsl : ¬ (¬ dirText (dsegs ++ rs) = [] ∧ ¬ (dirText (dsegs ++ rs)).head? = some '/') := by
    rcases dirText_form (dsegs ++ rs) with h | ⟨t, h⟩
    · simp [h]
    · simp [h]
  rw [if_neg hsl]
  simp [httpBase, dirText]

theorem httpBase_ne (scheme host : Str) (segs : List Str) : httpBase scheme host segs ≠ [] := by
  simp [httpBase]

/-- joining a relative reference to the URI of a document -/
theorem urljoin_doc {scheme host rel : Str} (hs : HttpScheme scheme) (hh : HostName host) (hho : host ≠ [])
    (segs : List Str) (hsegs : ∀ s ∈ segs, Segment s) (file : Str) (hf : Segment file) {rs : List Str} (hr : RelRef rel rs) :
    urljoin (httpBase scheme host (segs ++ [file])) rel = some (httpBase scheme host (segs ++ rs)) := by
  have hall : ∀ s ∈ segs ++ [file], Segment s := by
    intro s h
    rcases List.mem_append.mp h with h | h
    · exact hsegs s h
    · rw [List.mem_singleton.mp h]; exact hf
  refine urljoin_aux hs hho (segs ++ [file]) hr (urlparse_http hs hh hall) (httpBase_ne _ _ _) ([] :: segs) ?_ segs rfl hsegs
  rw [splitOn_dirText (fun s h => Segment_slash (hall s h))]
  have e : ([] : Str) :: (segs ++ [file]) = ([] :: segs) ++ [file] := rfl
  rw [e, List.getLast?_concat, List.dropLast_concat, if_pos]
  simpa using hf.1

/-- joining a relative reference to a bare host -/
theorem urljoin_host {scheme host rel : Str} (hs : HttpScheme scheme) (hh : HostName host) (hho : host ≠ [])
    {rs : List Str} (hr : RelRef rel rs) :
    urljoin (httpBase scheme host []) rel = some (httpBase scheme host rs) :=
  urljoin_aux hs hho [] hr (urlparse_http hs hh (by simp)) (httpBase_ne _ _ _) [[]] (by decide) [] rfl (by simp)

theorem relRef_wk : RelRef ".well-known/resourcesync".toList [".well-known".toList, "resourcesync".toList] where
  text := by decide
  ne := by simp
  segs := by
    intro s h
    simp only [List.mem_cons, List.not_mem_nil, or_false] at h
    rcases h with rfl | rfl <;> (unfold Segment noneOf; decide)
  chars := by decide
  flat := by unfold noneOf; decide
  head := by decide

theorem relRef_rl : RelRef "resourcelist.xml".toList ["resourcelist.xml".toList] where
  text := by decide
  ne := by simp
  segs := by
    intro s h
    simp only [List.mem_cons, List.not_mem_nil, or_false] at h
    subst h; unfold Segment noneOf; decide
  chars := by decide
  flat := by unfold noneOf; decide
  head := by decide

theorem relRef_sm : RelRef "sitemap.xml".toList ["sitemap.xml".toList] where
  text := by decide
  ne := by simp
  segs := by
    intro s h
    simp only [List.mem_cons, List.not_mem_nil, or_false] at h
    subst h; unfold Segment noneOf; decide
  chars := by decide
  flat := by unfold noneOf; decide
  head := by decide

theorem stripFile_http {scheme : Str} (hs : HttpScheme scheme) (host : Str) (segs : List Str) :
    stripFile (httpBase scheme host segs) = httpBase scheme host segs := by
  unfold stripFile lstripChars httpBase
  rcases hs with rfl | rfl
  · have e : "http".toList = 'h' :: "ttp".toList := by decide
    rw [e]
    simp only [List.cons_append]
    rw [List.dropWhile_cons_of_neg (by decide)]
  · have e : "https".toList = 'h' :: "ttps".toList := by decide
    rw [e]
    simp only [List.cons_append]
    rw [List.dropWhile_cons_of_neg (by decide)]

theorem httpBase_snoc (scheme host : Str) (segs rs : List Str) :
    httpBase scheme host (segs ++ rs) = httpBase scheme host segs ++ dirText rs := by
  simp [httpBase, dirText]

/-- C61.  With neither given, for a source at http(s)://host/seg/.../seg the client looks for a source description at
base/.well-known/resourcesync, then at host/.well-known/resourcesync, then for a resource list at base/resourcelist.xml,
base/sitemap.xml and host/sitemap.xml; it reads these and the documents they lead to in this order, and stops at the
first place where a list is found or where what is found is unusable.  If there is none the result is a
ClientFatalError. -/
theorem C61_search (s : Sources) (hs : s.Keyed) (c : DiscCfg) (h1 : c.sitemap_name = none) (h2 : c.capability_list_uri = none)
    (scheme host : Str) (segs : List Str) (dst : Str) (ms : Mapper) (hsch : HttpScheme scheme) (hh : HostName host)
    (hho : host ≠ []) (hseg : ∀ x ∈ segs, Segment x)
    (h3 : c.mapper = ⟨httpBase scheme host segs, dst⟩ :: ms) (h4 : c.resource_list_name = "resourcelist.xml".toList) : ∃ o,
    Search s.docs urljoin (places (httpBase scheme host segs) (httpBase scheme host []))
      ((findResourceList s c).1.map ReadOp.place) o ∧
    outcomeOk .fatal (findResourceList s c).2 o := by
  have hrl : Segment "resourcelist.xml".toList := relRef_rl.segs _ (by simp)
  have hsm : c.sitemap = .ok (httpBase scheme host (segs ++ ["resourcelist.xml".toList])) := by
    unfold DiscCfg.sitemap
    rw [h1]
    simp only
    unfold DiscCfg.sitemapUri
    rw [h4]
    have e1 : hasScheme c.uw "resourcelist.xml".toList = false := by
      rw [Bool.eq_false_iff]
      intro h
      obtain ⟨w, rest, e, -, -⟩ := (hasScheme_iff' c.uw _).mp h
      have : ':' ∈ "resourcelist.xml".toList := by rw [e]; simp
      revert this; decide
    rw [e1, if_neg (by simp), if_neg (by decide), h3]
    simp only [Mapper.defaultSrcUri]
    rw [httpBase_snoc]
    simp [dirText]
  have hall : ∀ x ∈ segs ++ ["resourcelist.xml".toList], Segment x := by
    intro x hx
    rcases List.mem_append.mp hx with hx | hx
    · exact hseg x hx
    · rw [List.mem_singleton.mp hx]; exact hrl
  have hhost : urlHost (httpBase scheme host (segs ++ ["resourcelist.xml".toList])) = some (httpBase scheme host []) := by
    unfold urlHost
    rw [urlparse_http hsch hh hall]
    unfold urlunsplit
    simp only [ne_eq, hho, not_false_eq_true, true_or, if_true, not_true_eq_false, if_false, hsch.uses.2.2]
    simp [httpBase]
  unfold findResourceList
  simp only [h1, h2, hsm, hhost]
  rw [urljoin_doc hsch hh hho segs hseg _ hrl relRef_wk, urljoin_host hsch hh hho relRef_wk,
    urljoin_doc hsch hh hho segs hseg _ hrl relRef_rl, urljoin_doc hsch hh hho segs hseg _ hrl relRef_sm,
    urljoin_host hsch hh hho relRef_sm]
  simp only
  have hlists := tryEach_search s (fun u => readResourceList s (stripFile u)) (fun u => .list (stripFile u))
    (fun u => by obtain ⟨o, a, b, -⟩ := readResourceList_gives s (stripFile u); exact ⟨o, a, b⟩) [] ([], .error .fatal) .missing
    .nowhere rfl [httpBase scheme host (segs ++ ["resourcelist.xml".toList]),
      httpBase scheme host (segs ++ ["sitemap.xml".toList]), httpBase scheme host ["sitemap.xml".toList]]
  obtain ⟨o, a, b⟩ := hlists
  have hdesc := tryEach_search s (fun u => thenRead s (findFromSourceDescription s (stripFile u)))
    (fun u => .description (stripFile u)) (fun u => description_gives s hs (stripFile u)) _ _ o a b
    [httpBase scheme host (segs ++ [".well-known".toList, "resourcesync".toList]),
     httpBase scheme host [".well-known".toList, "resourcesync".toList]]
  obtain ⟨o', a', b'⟩ := hdesc
  refine ⟨o', ?_, b'⟩
  simp only [List.map_cons, List.map_nil, stripFile_http hsch, List.cons_append, List.nil_append] at a'
  have e2 : httpBase scheme host [".well-known".toList, "resourcesync".toList] =
      httpBase scheme host [] ++ dirText [".well-known".toList, "resourcesync".toList] := httpBase_snoc _ _ [] _
  have e3 : httpBase scheme host ["sitemap.xml".toList] = httpBase scheme host [] ++ dirText ["sitemap.xml".toList] :=
    httpBase_snoc _ _ [] _
  unfold places
  have d1 : dirText [".well-known".toList, "resourcesync".toList] = "/.well-known/resourcesync".toList := by decide
  have d2 : dirText ["sitemap.xml".toList] = "/sitemap.xml".toList := by decide
  have d3 : dirText ["resourcelist.xml".toList] = "/resourcelist.xml".toList := by decide
  rw [← d1, ← d2, ← d3, ← e2, ← e3, ← httpBase_snoc, ← httpBase_snoc, ← httpBase_snoc]
  exact a'
where
  hasScheme_iff' (uw : Char → Bool) (uri : Str) : hasScheme uw uri = true ↔
      ∃ w rest, uri = w ++ ':' :: rest ∧ w ≠ [] ∧ ∀ c ∈ w, isWord uw c = true := hasScheme_iff uw uri

/-- The hypothesis on the documents holds for whatever XML documents there are. -/
theorem keyed_ofDocs (docAt : Str → Option Elem) (m : Mapper) (am : Bool) (uw : Char → Bool) :
    (Sources.ofDocs docAt m am uw).Keyed :=
  ⟨fun _ _ h => readDescription_WF h, fun _ _ h => readPlain_WF h⟩

/-- C61.  A web URI in a source description or capability list is followed as it is given. -/
theorem C61_absolute_link {scheme host scheme' host' : Str} (hs : HttpScheme scheme) (hh : HostName host)
    (hs' : HttpScheme scheme') (hh' : HostName host') (hho' : host' ≠ []) (segs segs' : List Str)
    (h : ∀ s ∈ segs, Segment s) (h' : ∀ s ∈ segs', Segment s) :
    urljoin (httpBase scheme host segs) (httpBase scheme' host' segs') = some (httpBase scheme' host' segs') := by
  have hp := urlparse_http hs hh h
  have hp' := urlparse_http hs' hh' h'
  unfold urljoin
  rw [if_neg (httpBase_ne _ _ _), if_neg (httpBase_ne _ _ _), urlparse_eq_urlparseD, hp]
  simp only
  rw [urlparseD_some hp' hs'.uses.2.2]
  simp only
  by_cases hc : scheme' ≠ scheme ∨ scheme' ∉ usesRelative
  · rw [if_pos hc]
  · rw [if_neg hc, if_pos ⟨hs'.uses.2.1, hho'⟩]
    unfold urlunparse urlunsplit
    simp only [ne_eq, hho', not_false_eq_true, true_or, if_true, not_true_eq_false, if_false, hs'.uses.2.2]
    rw [if_neg]
    · simp [httpBase, dirText]
    · rintro ⟨h1, h2⟩
      rcases dirText_form segs' with e | ⟨t, e⟩
      · exact h1 e
      · rw [e] at h2; exact h2 rfl

/-- C61.  A relative one is taken relative to the document's directory. -/
theorem C61_relative_link {scheme host rel : Str} (hs : HttpScheme scheme) (hh : HostName host) (hho : host ≠ [])
    (segs : List Str) (hsegs : ∀ s ∈ segs, Segment s) (file : Str) (hf : Segment file) {rs : List Str} (hr : RelRef rel rs) :
    urljoin (httpBase scheme host (segs ++ [file])) rel = some (httpBase scheme host (segs ++ rs)) :=
  urljoin_doc hs hh hho segs hsegs file hf hr

/-! ### A concrete world -/
namespace DiscoveryExample

def one (u cap : String) : Dict Resource := [(u.toList, { uri := u.toList, capability := some cap.toList })]

def list1 : Dict Resource := [("http://h/a/r".toList, { uri := "http://h/a/r".toList })]

/-- a description at the host, whose capability list names a resource list -/
def world : Sources where
  resourceList u := if u = "http://h/a/list.xml".toList then some list1 else none
  sourceDescription u := if u = "http://h/.well-known/resourcesync".toList then some (one "/a/caps.xml" "capabilitylist") else none
  capabilityList u := if u = "http://h/a/caps.xml".toList then some (one "list.xml" "resourcelist") else none

def cfg : DiscCfg where
  mapper := [⟨"http://h/a".toList, "/dst".toList⟩]

theorem world_keyed : world.Keyed := by
  have h1 : ∀ u c : String, WF (one u c) := by
    intro u c
    refine ⟨by simp [one, dkeys], ?_⟩
    intro k r h
    have := mem_of_dget h
    simp only [one, List.mem_singleton, Prod.mk.injEq] at this
    rw [this.1, this.2]
  constructor
  · intro u d h
    simp only [world] at h
    split at h
    · cases h; exact h1 _ _
    · cases h
  · intro u d h
    simp only [world] at h
    split at h
    · cases h; exact h1 _ _
    · cases h

example : findResourceList world cfg =
    ([.sd "http://h/a/.well-known/resourcesync".toList, .sd "http://h/.well-known/resourcesync".toList,
      .cl "http://h/a/caps.xml".toList, .rl "http://h/a/list.xml".toList], .ok list1) := by decide

example : ∃ o, Search world.docs urljoin (places "http://h/a".toList "http://h".toList)
    ((findResourceList world cfg).1.map ReadOp.place) o ∧ outcomeOk .fatal (findResourceList world cfg).2 o :=
  C61_search world world_keyed cfg rfl rfl "http".toList "h".toList ["a".toList] "/dst".toList [] (.inl rfl)
    (by unfold HostName noneOf; decide) (by decide) (by
      intro x hx
      rw [List.mem_singleton.mp hx]
      unfold Segment noneOf; decide) rfl rfl

/-- a source on a local disk: the list is at /src/resourcelist.xml -/
def localWorld : Sources where
  resourceList u := if u = "/src/resourcelist.xml".toList then some list1 else none
  sourceDescription _ := none
  capabilityList _ := none

def localCfg : DiscCfg where
  mapper := [⟨"/src".toList, "/dst".toList⟩]

/-- an ftp source: the list is at ftp://h/resourcelist.xml -/
def ftpWorld : Sources where
  resourceList u := if u = "ftp://h/resourcelist.xml".toList then some list1 else none
  sourceDescription _ := none
  capabilityList _ := none

def ftpCfg : DiscCfg where
  mapper := [⟨"ftp://h".toList, "/dst".toList⟩]

end DiscoveryExample

open DiscoveryExample in
/-- C61 fails for sources that are not at http or https: `lstrip('file:///')` removes every leading character out of
"file:/", so that the leading '/' of a local path is lost, and an ftp: URI turns into tp:.  The list at
base/resourcelist.xml is not found although it is there. -/
theorem C61_violated :
    findResourceList localWorld localCfg =
      ([.sd "src/.well-known/resourcesync".toList, .sd ".well-known/resourcesync".toList, .rl "src/resourcelist.xml".toList,
        .rl "src/sitemap.xml".toList, .rl "sitemap.xml".toList], .error .fatal) ∧
    localWorld.resourceList "/src/resourcelist.xml".toList = some list1 ∧
    (findResourceList ftpWorld ftpCfg).2 = .error .fatal ∧
    ftpWorld.resourceList "ftp://h/resourcelist.xml".toList = some list1 := by decide

end Resync
