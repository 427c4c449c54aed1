import Verif.Model.Listing
import Verif.Props.Sitemap
import Verif.Props.Scripts
/-
C90: resync-sync --parse, what it reports about a document.
-/

namespace Resync
open Py Resync.Spec

theorem parseStep_counts {s : Sitemap} {tag : Str} {st st' : ParseSt (List Resource)} {e : Elem} (htag : tag ≠ rsTag "md")
    (h : parseStep s listAdd tag st e = .ok st') :
    st'.cont.resources.length = st.cont.resources.length + (if e.tag = tag then 1 else 0) ∧
    (e.tag ≠ rsTag "md" → st'.cont.md = st.cont.md ∧ st'.seen_md = st.seen_md) ∧
    (e.tag = rsTag "md" → st.seen_md = false ∧ st'.seen_md = true ∧
      dget st'.cont.md kCapability = dget e.attrib "capability".toList) := by
  unfold parseStep at h
  by_cases h1 : e.tag = tag
  · rw [if_pos h1, bind_ok_iff] at h
    obtain ⟨r, -, h⟩ := h
    rw [bind_ok_iff] at h
    obtain ⟨rs, h2, h⟩ := h
    cases h
    simp only [listAdd, Except.ok.injEq] at h2
    subst h2
    refine ⟨by simp [h1], fun _ => ⟨rfl, rfl⟩, fun h => absurd (h1.symm.trans h) htag⟩
  · rw [if_neg h1] at h
    by_cases h2 : e.tag = rsTag "md"
    · rw [if_pos h2] at h
      by_cases h3 : st.in_preamble
      · rw [if_pos h3] at h
        by_cases h4 : st.seen_md
        · rw [if_pos h4] at h; cases h
        · rw [if_neg h4, bind_ok_iff] at h
          obtain ⟨md, h5, h⟩ := h
          cases h
          refine ⟨by simp [h1], fun h => absurd h2 h, fun _ => ⟨by simpa using h4, rfl, ?_⟩⟩
          unfold mdFromEtree at h5
          dsimp only at h5
          rw [bind_ok_iff] at h5
          obtain ⟨-, -, h5⟩ := h5
          show dget md kCapability = _
          rw [convInt_get h5 (by decide), dget_grabAtts, if_pos (by simp [mdAttKeys])]
          rfl
      · rw [if_neg h3] at h; cases h
    · rw [if_neg h2] at h
      by_cases h3 : e.tag = rsTag "ln"
      · rw [if_pos h3] at h
        by_cases h4 : st.in_preamble
        · rw [if_pos h4, bind_ok_iff] at h
          obtain ⟨l, -, h⟩ := h
          cases h
          exact ⟨by simp [h1], fun _ => ⟨rfl, rfl⟩, fun h => absurd h h2⟩
        · rw [if_neg h4] at h; cases h
      · rw [if_neg h3] at h
        cases h
        exact ⟨by simp [h1], fun _ => ⟨rfl, rfl⟩, fun h => absurd h h2⟩

theorem parseLoop_counts {s : Sitemap} {tag : Str} (htag : tag ≠ rsTag "md") (es : List Elem) :
    ∀ {st st' : ParseSt (List Resource)}, parseLoop s listAdd tag es st = .ok st' →
    st'.cont.resources.length = st.cont.resources.length + es.countP (fun e => e.tag = tag) ∧
    ((∀ e ∈ es, e.tag ≠ rsTag "md") → st'.cont.md = st.cont.md) ∧
    (∀ e ∈ es, e.tag = rsTag "md" → st.seen_md = false ∧ dget st'.cont.md kCapability = dget e.attrib "capability".toList) := by
  induction es with
  | nil => intro st st' h; simp only [parseLoop] at h; cases h; exact ⟨rfl, fun _ => rfl, fun _ h => by cases h⟩
  | cons e t ih =>
    intro st st' h
    simp only [parseLoop, bind_ok_iff] at h
    obtain ⟨st1, h1, h2⟩ := h
    obtain ⟨a1, a2, a3⟩ := parseStep_counts htag h1
    obtain ⟨b1, b2, b3⟩ := ih h2
    refine ⟨?_, ?_, ?_⟩
    · rw [b1, a1, List.countP_cons]
      by_cases he : e.tag = tag <;> simp [he] <;> omega
    · intro hall
      rw [b2 (fun x hx => hall x (List.mem_cons_of_mem _ hx)), (a2 (hall e (by simp))).1]
    · intro x hx htx
      rcases List.mem_cons.mp hx with rfl | hx
      · obtain ⟨c1, c2, c3⟩ := a3 htx
        refine ⟨c1, ?_⟩
        rw [b2, c3]
        intro y hy hty
        have := (b3 y hy hty).1
        rw [c2] at this
        cases this
      · obtain ⟨c1, c2⟩ := b3 x hx htx
        refine ⟨?_, c2⟩
        by_cases he : e.tag = rsTag "md"
        · exact (a3 he).1
        · rw [← (a2 he).2]; exact c1

/-- C90. What is reported about a document: the number of its url elements (sitemap elements, for an index), and the capability given in
its rs:md element, if it has one. -/
theorem C90_counts (docAt : Str → Option Elem) (sitemap cap : Str) (n : Nat) (h : parseDocument docAt sitemap = .ok (cap, n)) :
    ∃ root, docAt sitemap = some root ∧
      ((root.tag = smTag "urlset" ∧ n = root.children.countP (fun e => e.tag = smTag "url")) ∨
       (root.tag = smTag "sitemapindex" ∧ n = root.children.countP (fun e => e.tag = smTag "sitemap"))) ∧
      ((∀ e ∈ root.children, e.tag ≠ rsTag "md") → cap = "(unknown capability)".toList) ∧
      (∀ e ∈ root.children, e.tag = rsTag "md" → cap = (dget e.attrib "capability".toList).getD "(unknown capability)".toList) := by
  unfold parseDocument at h
  cases hd : docAt sitemap with
  | none => rw [hd] at h; cases h
  | some root =>
    rw [hd] at h
    dsimp only at h
    refine ⟨root, rfl, ?_⟩
    split at h
    · cases h
    · rename_i c b k hp
      cases h
      unfold parseXml at hp
      rw [bind_ok_iff] at hp
      obtain ⟨pi, hk, hp⟩ := hp
      simp only [bind_ok_iff] at hp
      obtain ⟨st, h2, md, h3, hp⟩ := hp
      cases hp
      cases h3
      have htag : (if b then smTag "sitemap" else smTag "url") ≠ rsTag "md" := by
        cases b <;> decide
      obtain ⟨a1, a2, a3⟩ := parseLoop_counts htag root.children h2
      have hkind : (root.tag = smTag "urlset" ∧ b = false) ∨ (root.tag = smTag "sitemapindex" ∧ b = true) := by
        unfold rootKind at hk
        split at hk
        · rename_i h4; cases hk; exact .inl ⟨h4, rfl⟩
        · split at hk
          · rename_i h4; cases hk; exact .inr ⟨h4, rfl⟩
          · cases hk
      refine ⟨?_, ?_, ?_⟩
      · rcases hkind with ⟨h4, rfl⟩ | ⟨h4, rfl⟩
        · exact .inl ⟨h4, by simpa using a1⟩
        · exact .inr ⟨h4, by simpa using a1⟩
      · intro hall
        show (dget st.cont.md kCapability).getD _ = _
        rw [a2 hall]
        rfl
      · intro e he hte
        show (dget st.cont.md kCapability).getD _ = _
        rw [(a3 e he hte).2]

/-- C90. For a document the library has written for any resources, its capability and their number are reported. -/
theorem C90_written (s : Sitemap) (md : Dict Str) (ln : List Link) (rs : List Resource) (index : Bool) (cap : Str)
    (hmd : MdOk (mdAttKeys s) md) (hln : ∀ l ∈ ln, LinkOk l) (hrs : ∀ r ∈ rs, ResOk r) (hcap : dget md "capability".toList = some cap)
    (hs : s = {}) : ∃ t t', resourcesAsXml s md ln rs index = .ok t ∧ reparse t = some t' ∧
      ∀ docAt sitemap, docAt sitemap = some t' → parseDocument docAt sitemap = .ok (cap, rs.length) := by
  obtain ⟨t, t', c, h1, h2, h3, h4, h5, -⟩ := C34_round_trip_partial s md ln rs index hmd hln hrs none (fun _ h => by cases h) none (.inl rfl)
  refine ⟨t, t', h1, h2, ?_⟩
  intro docAt sitemap hd
  subst hs
  unfold parseDocument
  rw [hd]
  dsimp only
  rw [h3]
  have hc : dget c.md kCapability = some cap := by
    rw [← hcap]
    exact (h5 "capability".toList).symm
  have hl := h4.length_eq
  dsimp only
  rw [hc, hl]
  rfl

/-- C90. --parse with a sitemap reports what is to be reported of that document, or fails. -/
theorem C90_script (w : SyncWorld) (a : SyncArgs) (world : World) (u : Str) (ho : OptionsOk a.toSharedArgs) (hp : a.mode = .parse)
    (hm : a.map = []) (hs : a.sitemap = some u) (hu : u ≠ []) :
    (∀ r, (syncMain w a world).parsed = some r ↔ parseDocument w.docAt u = .ok r) ∧
    ((syncMain w a world).exit = .done ↔ ∃ r, parseDocument w.docAt u = .ok r) := by
  have hmap : mappings w.uw a.map = .ok [] := by rw [hm]; rfl
  have hg : given a.sitemap = some u := by
    rw [hs]
    cases u with
    | nil => exact absurd rfl hu
    | cons c t => rfl
  have hsm : (a.client w.uw []).disc.sitemap = .ok u := by
    show (match given a.sitemap with
      | some n => Except.ok n
      | none => _) = _
    rw [hg]
  unfold syncMain
  rw [processShared_ok ho]
  simp only [hmap, hp]
  rw [hsm]
  dsimp only
  cases hpd : parseDocument w.docAt u with
  | ok r => simp
  | error e => cases e <;> simp

/-! ### The listing of --verbose -/

theorem listEntries_spec (ts : Nat) : ∀ (rs : List Resource) (n : Nat) (texts : List Str), n < ts →
    (rs.take (ts - n)).map Resource.str = texts.map some →
    listEntries ts n rs = ((texts.zipIdx n).map (fun p => (p.2, p.1)), true) := by
  intro rs
  induction rs with
  | nil =>
    intro n texts hn h
    rw [List.take_nil, List.map_nil] at h
    rw [List.map_eq_nil_iff.mp h.symm]
    rfl
  | cons r t ih =>
    intro n texts hn h
    obtain ⟨m, hm⟩ : ∃ m, ts - n = m + 1 := ⟨ts - n - 1, by omega⟩
    rw [hm, List.take_succ_cons, List.map_cons] at h
    cases texts with
    | nil => cases h
    | cons s texts =>
      rw [List.map_cons, List.cons.injEq] at h
      rw [listEntries, h.1]
      dsimp only
      by_cases hlast : ts ≤ n + 1
      · rw [if_pos hlast]
        have : m = 0 := by omega
        subst this
        rw [List.take_zero, List.map_nil] at h
        rw [List.map_eq_nil_iff.mp h.2.symm]
        rfl
      · rw [if_neg hlast, ih (n + 1) texts (by omega) (by rw [show ts - (n + 1) = m by omega]; exact h.2)]
        rfl

/-- C90 (listing), the part that holds: --verbose shows one line for each entry, numbered from 0 in the order of the document, up to a
maximum which is the one asked for (100 otherwise); and if the document has more it says how many are shown.  (If their times lie in the
years that can be shown.)  Missing: the order is said to be that of the URIs (C90_order_violated). -/
theorem C90_listing_partial (docAt : Str → Option Elem) (sitemap cap : Str) (n : Nat) (max : Option Nat) (c : Cont (List Resource))
    (index : Bool) (created : Nat) (root : Elem) (hd : docAt sitemap = some root)
    (hp : parseXml {} listAdd ({ resources := [] } : Cont (List Resource)) root none none = .ok (c, index, created))
    (h : parseDocument docAt sitemap = .ok (cap, n)) (k : Nat) (hk : k = match max with | some (m + 1) => m + 1 | _ => 100)
    (texts : List Str) (htexts : (c.resources.take k).map Resource.str = texts.map some) :
    parseVerbose docAt sitemap max = .ok ((cap, n), {
      announced := if k < n then some k else none
      lines := texts.zipIdx.map (fun p => (p.2, p.1))
      complete := true }) := by
  have hk' : entriesToShow max = k := by
    rw [hk]
    unfold entriesToShow
    rfl
  have hpos : 0 < k := by
    rw [hk]
    split <;> omega
  unfold parseDocument at h
  rw [hd] at h
  dsimp only at h
  rw [hp] at h
  dsimp only at h
  unfold parseVerbose
  rw [hd]
  dsimp only
  rw [hp]
  dsimp only
  unfold verboseListing
  dsimp only
  rw [hk', listEntries_spec k c.resources 0 texts hpos htexts]
  cases h
  rfl

/-- C90. The text for an entry begins with its URI. -/
theorem C90_text (r : Resource) (s : Str) (h : r.str = some s) : ("[ ".toList ++ r.uri ++ " | ".toList) <+: s := by
  unfold Resource.str at h
  split at h
  · cases h
  · rename_i lm _
    have key : ∀ (x : List Str), ("[ ".toList ++ r.uri ++ " | ".toList) <+:
        "[ ".toList ++ join " | ".toList ([r.uri, strOpt lm, strOpt (r.length.map intStr), strOpt r.someHash] ++ x) ++ " ]".toList := by
      intro x
      refine ⟨join " | ".toList ([strOpt lm, strOpt (r.length.map intStr), strOpt r.someHash] ++ x) ++ " ]".toList, ?_⟩
      simp only [List.cons_append, join, List.append_assoc]
    dsimp only at h
    split at h
    · cases h; exact key _
    · split at h
      · cases h
      · cases h; simpa using key _
      · cases h; simpa using key _

/-- C90. What the text for an entry says: the URI, the modification time, the length and a hash, md5 before sha-1 before sha-256, then
the change with its time and the path if there are any. -/
theorem C90_text_parts (r : Resource) (s : Str) (h : r.str = some s) : ∃ lastmod length hash change,
    s = "[ ".toList ++ join " | ".toList ([r.uri, lastmod, length, hash] ++ change ++ r.path.toList) ++ " ]".toList ∧
    (r.timestamp = none → lastmod = "None".toList) ∧ (∀ t, r.timestamp = some t → datetimeToStr t false = some lastmod) ∧
    (r.length = none → length = "None".toList) ∧ (∀ n, r.length = some n → length = intStr n) ∧
    (∀ x, r.md5 = some x → x ≠ [] → hash = x) ∧
    (r.md5 = none ∨ r.md5 = some [] → (∀ x, r.sha1 = some x → x ≠ [] → hash = x) ∧
      (r.sha1 = none ∨ r.sha1 = some [] → hash = r.sha256.getD "None".toList)) ∧
    (r.change = none → change = []) ∧
    (∀ c, r.change = some c → (r.ts_datetime = none → change = [c]) ∧
      (∀ t, r.ts_datetime = some t → ∃ d, datetimeToStr t false = some d ∧ change = [c ++ " @ ".toList ++ d])) := by
  have hash_ok : (∀ x, r.md5 = some x → x ≠ [] → strOpt r.someHash = x) ∧
      (r.md5 = none ∨ r.md5 = some [] → (∀ x, r.sha1 = some x → x ≠ [] → strOpt r.someHash = x) ∧
        (r.sha1 = none ∨ r.sha1 = some [] → strOpt r.someHash = r.sha256.getD "None".toList)) := by
    refine ⟨fun x hx hne => ?_, fun hm => ⟨fun x hx hne => ?_, fun hs => ?_⟩⟩
    · cases x with
      | nil => exact absurd rfl hne
      | cons c t => simp [Resource.someHash, hx, strOpt]
    · cases x with
      | nil => exact absurd rfl hne
      | cons c t => rcases hm with hm | hm <;> simp [Resource.someHash, hm, hx, strOpt]
    · rcases hm with hm | hm <;> rcases hs with hs | hs <;> simp [Resource.someHash, hm, hs, strOpt]
  unfold Resource.str at h
  split at h
  · cases h
  · rename_i lm hlm
    have time_ok : (r.timestamp = none → strOpt lm = "None".toList) ∧
        (∀ t, r.timestamp = some t → datetimeToStr t false = some (strOpt lm)) := by
      refine ⟨fun ht => ?_, fun t ht => ?_⟩
      · rw [ht] at hlm
        cases hlm; rfl
      · rw [ht] at hlm
        simp only [datetimeToStr?, Option.map_eq_some_iff] at hlm
        obtain ⟨a, ha, rfl⟩ := hlm
        exact ha
    have len_ok : (r.length = none → strOpt (r.length.map intStr) = "None".toList) ∧
        (∀ n, r.length = some n → strOpt (r.length.map intStr) = intStr n) :=
      ⟨fun hl => by rw [hl]; rfl, fun n hl => by rw [hl]; rfl⟩
    dsimp only at h
    split at h
    · rename_i hc
      cases h
      refine ⟨strOpt lm, strOpt (r.length.map intStr), strOpt r.someHash, [], by cases r.path <;> rfl,
        time_ok.1, time_ok.2, len_ok.1, len_ok.2, hash_ok.1, hash_ok.2, fun _ => rfl, fun c hc' => ?_⟩
      rw [hc] at hc'; cases hc'
    · rename_i c hc
      split at h
      · cases h
      · rename_i hd
        cases h
        refine ⟨strOpt lm, strOpt (r.length.map intStr), strOpt r.someHash, [c], by cases r.path <;> rfl,
          time_ok.1, time_ok.2, len_ok.1, len_ok.2, hash_ok.1, hash_ok.2, fun hc' => ?_, fun c' hc' => ?_⟩
        · rw [hc] at hc'; cases hc'
        · rw [hc] at hc'; cases hc'
          refine ⟨fun _ => rfl, fun t ht => ?_⟩
          rw [ht] at hd
          simp [datetimeToStr?] at hd
      · rename_i d hd
        cases h
        refine ⟨strOpt lm, strOpt (r.length.map intStr), strOpt r.someHash, [c ++ " @ ".toList ++ d], by cases r.path <;> rfl,
          time_ok.1, time_ok.2, len_ok.1, len_ok.2, hash_ok.1, hash_ok.2,
          fun hc' => ?_, fun c' hc' => ?_⟩
        · rw [hc] at hc'; cases hc'
        · rw [hc] at hc'; cases hc'
          refine ⟨fun ht => ?_, fun t ht => ?_⟩
          · rw [ht] at hd; cases hd
          · rw [ht] at hd
            simp only [datetimeToStr?, Option.map_eq_some_iff] at hd
            obtain ⟨a, ha, hda⟩ := hd
            cases hda
            exact ⟨_, ha, rfl⟩

/-! ### Concrete cases -/

namespace ParseExample

def url (loc : String) : Elem := .mk (smTag "url") [] none [.mk (smTag "loc") [] (some loc.toList) []]

/-- a resource list with two entries, not in the order of their URIs -/
def doc : Elem := .mk (smTag "urlset") [] none
  [.mk (rsTag "md") [("capability".toList, "resourcelist".toList)] none [], url "http://h/b", url "http://h/a"]

def docs (u : Str) : Option Elem := if u = "/l.xml".toList then some doc else none

/-- the same, shown one by one -/
def shown (max : Option Nat) : Option (Option Nat × List (Nat × Str)) :=
  match parseVerbose docs "/l.xml".toList max with
  | .ok (_, l) => some (l.announced, l.lines)
  | .error _ => none

end ParseExample
open ParseExample

example : parseDocument docs "/l.xml".toList = .ok ("resourcelist".toList, 2) := by decide +kernel

example : shown none = some (none, [(0, "[ http://h/b | None | None | None ]".toList), (1, "[ http://h/a | None | None | None ]".toList)]) := by
  decide +kernel

/-- a text with all the parts -/
example :
    ({ uri := "u".toList, timestamp := some 0, length := some 7, md5 := some [], sha256 := some "x".toList,
       change := some "updated".toList, ts_datetime := some 1, path := some "/p".toList } : Resource).str =
    some "[ u | 1970-01-01T00:00:00Z | 7 | x | updated @ 1970-01-01T00:00:01Z | /p ]".toList := by
  decide +kernel

/-- hypotheses of C90_written: see the example of C34 for such metadata, links and resources -/
example : dget [("capability".toList, "changelist".toList)] "capability".toList = some "changelist".toList := by decide

/-- C90 fails: the entries shown are announced as the first ones in the order of the URIs; with a limit of one the second in that order
is shown. -/
theorem C90_order_violated : ∃ docAt sitemap, ∃ r1 r2 s2 : Str,
    (∃ c, parseXml {} listAdd ({ resources := [] } : Cont (List Resource)) ((docAt sitemap).getD doc) none none = .ok (c, false, 2) ∧
      c.resources.map (·.uri) = [r2, r1]) ∧ r1 < r2 ∧
    (∃ l, parseVerbose docAt sitemap (some 1) = .ok (("resourcelist".toList, 2), l) ∧ l.announced = some 1 ∧ l.lines = [(0, s2)]) ∧
    ("[ ".toList ++ r2 ++ " | ".toList) <+: s2 := by
  refine ⟨docs, "/l.xml".toList, "http://h/a".toList, "http://h/b".toList, "[ http://h/b | None | None | None ]".toList,
    ⟨_, rfl, ?_⟩, by decide, ⟨_, rfl, ?_, ?_⟩, ?_⟩
  · decide +kernel
  · decide +kernel
  · decide +kernel
  · decide +kernel

end Resync
