import Verif.Proofs.SitemapRT
/-
Round trip of a single resource through its element.
-/

namespace Resync
open Py Resync.Spec

/-- value written for an attribute -/
def attrVal (r : Resource) (k : Str) : Option Str :=
  match resourceAttr r k with
  | .ok v => v
  | .error _ => none

theorem dateAttr_isOk {o : Option Rat} (h : ∀ t, o = some t → MicroTime t) :
    ∃ s, dateAttr o = .ok s ∧ ∀ v, s = some v → XmlOk v := by
  obtain ⟨s, h1, h2, -⟩ := dateAttr_ok o h
  exact ⟨s, h1, fun v hv => (h2 v hv).1⟩

theorem resourceAttr_isOk (r : Resource) (h : ResOk r) (k : Str) :
    ∃ s, resourceAttr r k = .ok s ∧ ∀ v, s = some v → XmlOk v := by
  unfold resourceAttr
  split
  · exact dateAttr_isOk h.ts_at
  split
  · exact ⟨_, rfl, h.capability⟩
  split
  · refine ⟨_, rfl, ?_⟩
    intro v hv
    rcases h.change with e | e | e | e <;> rw [e] at hv
    · cases hv
    all_goals
      injection hv with hv; subst hv
      intro c hc; revert hc c; decide
  split
  · exact dateAttr_isOk h.ts_datetime
  split
  · exact dateAttr_isOk h.ts_completed
  split
  · exact dateAttr_isOk h.ts_from
  split
  · exact ⟨_, rfl, xmlOk_hash r (fun v hv => (h.md5 v hv).1) (fun v hv => (h.sha1 v hv).1)
      (fun v hv => (h.sha256 v hv).1)⟩
  split
  · refine ⟨_, rfl, ?_⟩
    intro v hv
    cases hl : r.length with
    | none => rw [hl] at hv; cases hv
    | some n => rw [hl] at hv; injection hv with hv; subst hv; exact xmlOk_intStr n
  split
  · exact ⟨_, rfl, h.path⟩
  split
  · exact ⟨_, rfl, h.mime_type⟩
  split
  · exact dateAttr_isOk h.ts_until
  · exact ⟨none, rfl, by simp⟩

theorem resourceAttr_val (r : Resource) (h : ResOk r) (k : Str) : resourceAttr r k = .ok (attrVal r k) := by
  obtain ⟨s, h1, -⟩ := resourceAttr_isOk r h k
  simp [attrVal, h1]

theorem attrVal_xmlOk (r : Resource) (h : ResOk r) (k v : Str) (hv : attrVal r k = some v) : XmlOk v := by
  obtain ⟨s, h1, h2⟩ := resourceAttr_isOk r h k
  simp only [attrVal, h1] at hv
  exact h2 v hv

/-- the dictionary written as rs:md -/
def mdDict (s : Sitemap) (r : Resource) : Dict Str :=
  (mdAttKeys s).filterMap (fun k => (attrVal r k).map (fun x => (k, x)))

theorem dget_mdDict (s : Sitemap) (r : Resource) (k : Str) :
    dget (mdDict s r) k = if k ∈ mdAttKeys s then attrVal r k else none :=
  dget_filterMap _ _ _

theorem mem_mdAttKeys (s : Sitemap) : kCapability ∈ mdAttKeys s ∧ kChange ∈ mdAttKeys s ∧
    kLength ∈ mdAttKeys s ∧ kPath ∈ mdAttKeys s ∧ kMimeType ∈ mdAttKeys s ∧ kHash ∈ mdAttKeys s ∧
    (kDatetime ∈ mdAttKeys s ↔ s.spec_1_0 = false) := by
  cases h : s.spec_1_0 <;> (unfold mdAttKeys; rw [h]; decide)

theorem mdDict_ok (s : Sitemap) (r : Resource) (h : ResOk r) : MdOk (mdAttKeys s) (mdDict s r) where
  keys_nodup := by
    unfold mdDict; rw [filterMap_keys]; exact (mdAttKeys_nodup s).filter _
  keys_known := by
    intro k hk
    unfold mdDict at hk
    rw [filterMap_keys] at hk
    exact (List.mem_filter.mp hk).1
  chars := by
    intro k v hv
    rw [dget_mdDict] at hv
    split at hv
    · exact attrVal_xmlOk r h k v hv
    · cases hv
  change := by
    have : dget (mdDict s r) kChange = r.change := by
      rw [dget_mdDict, if_pos (mem_mdAttKeys s).2.1]; rfl
    have h2 := h.change
    rw [← this] at h2
    exact h2
  length := by
    intro v hv
    have : dget (mdDict s r) kLength = r.length.map intStr := by
      rw [dget_mdDict, if_pos (mem_mdAttKeys s).2.2.1]; rfl
    have hv : dget (mdDict s r) kLength = some v := hv
    rw [this] at hv
    cases hl : r.length with
    | none => rw [hl] at hv; cases hv
    | some n => rw [hl] at hv; injection hv with hv; exact ⟨n, hv.symm⟩

/-! ### Links -/

theorem links_round_trip (ls : List Link) (h : ∀ l ∈ ls, LinkOk l) :
    ∃ es, reparseList SITEMAP_NS RS_NS (ls.flatMap (elementWithAtts "rs:ln".toList)) = some es ∧
      (∀ e ∈ es, e.tag = rsTag "ln") ∧ es.length = ls.length ∧
      ∃ ls', lnList es = .ok ls' ∧ SameLinks ls ls' := by
  induction ls with
  | nil => exact ⟨[], rfl, by simp, rfl, [], rfl, .nil⟩
  | cons l t ih =>
    obtain ⟨es, h1, h2, h3, ls', h4, h5⟩ := ih (fun x hx => h x (by simp [hx]))
    obtain ⟨e', g1, g2, l', g3, g4⟩ := link_round_trip l (h l (by simp))
    refine ⟨[e'] ++ es, ?_, ?_, by simp [h3], l' :: ls', ?_, .cons g4 h5⟩
    · rw [List.flatMap_cons]; exact reparseList_append_ok g1 h1
    · intro e he
      rcases List.mem_append.mp he with he | he
      · rw [List.mem_singleton.mp he]; exact g2
      · exact h2 e he
    · simp only [List.singleton_append, lnList, g3, h4, ebind_ok, epure]

/-! ### Copying md values into a resource -/

theorem hash_step (x r : Resource) (h1 : x.md5 = none) (h2 : x.sha1 = none) (h3 : x.sha256 = none)
    (hr : ResOk r) :
    putHash x r.hash =
      { x with md5 := r.md5, sha1 := r.sha1, sha256 := r.sha256 } := by
  have c := C17_hash_round_trip x r (fun v hv => (hr.md5 v hv).2) (fun v hv => (hr.sha1 v hv).2)
    (fun v hv => (hr.sha256 v hv).2)
  cases hh : r.hash with
  | some v =>
    rw [hh] at c
    simp only [putHash, c]
  | none =>
    rw [hh] at c
    have c1 : ({ x with md5 := none, sha1 := none, sha256 := none } : Resource) =
      { x with md5 := r.md5, sha1 := r.sha1, sha256 := r.sha256 } := congrArg Prod.fst c
    simp only [putHash]
    rw [← c1]
    cases x
    simp only at h1 h2 h3
    subst h1; subst h2; subst h3
    rfl

/-- the resource read back: location `u`, times `t` and `dt`, and the rest from `r` -/
def readBack (r : Resource) (u : Str) (t dt : Option Rat) : Resource where
  uri := u
  timestamp := t
  length := r.length
  mime_type := r.mime_type
  md5 := r.md5
  sha1 := r.sha1
  sha256 := r.sha256
  change := r.change
  ts_datetime := dt
  path := r.path
  capability := r.capability

theorem applyMd_ok (md : Dict Str) (r : Resource) (hr : ResOk r) (u : Str) (t dt : Option Rat) (sdt : Option Str)
    (k1 : dget md kCapability = r.capability) (k2 : dget md kChange = r.change)
    (k3 : dget md kDatetime = sdt) (k3' : sdt.bind (fun v => strToDatetime v) = dt) (k3'' : sdt = none ↔ dt = none)
    (k4 : dget md kLength = r.length.map intStr) (k5 : dget md kPath = r.path)
    (k6 : dget md kMimeType = r.mime_type) (k7 : dget md kHash = r.hash) :
    applyMd md { uri := u, timestamp := t } =
      .ok (readBack r u t dt) := by
  have e1 : putCapability { uri := u, timestamp := t } r.capability =
      { uri := u, timestamp := t, capability := r.capability } := by
    cases r.capability <;> rfl
  have e2 : putChange { uri := u, timestamp := t, capability := r.capability } r.change =
      .ok { uri := u, timestamp := t, capability := r.capability, change := r.change } := by
    rcases hr.change with e | e | e | e <;> rw [e] <;> rfl
  have e3 : putDatetime { uri := u, timestamp := t, capability := r.capability, change := r.change } sdt =
      .ok { uri := u, timestamp := t, capability := r.capability, change := r.change, ts_datetime := dt } := by
    cases sdt with
    | none => rw [k3''.mp rfl]; rfl
    | some v =>
      simp only [Option.bind_some] at k3'
      cases dt with
      | none => exact absurd (k3''.mpr rfl) (by simp)
      | some x => simp only [putDatetime, k3']
  have e4 : ∀ x : Resource, x.length = none → putLength x (r.length.map intStr) = { x with length := r.length } := by
    intro x hx
    cases hl : r.length with
    | none => cases x; simp only at hx; subst hx; rfl
    | some n => simp only [putLength, Option.map_some, pyInt_intStr]
  have e5 : ∀ x : Resource, x.path = none → putPath x r.path = { x with path := r.path } := by
    intro x hx
    cases r.path with
    | none => cases x; simp only at hx; subst hx; rfl
    | some n => rfl
  have e6 : ∀ x : Resource, x.mime_type = none → putMimeType x r.mime_type = { x with mime_type := r.mime_type } := by
    intro x hx
    cases r.mime_type with
    | none => cases x; simp only at hx; subst hx; rfl
    | some n => rfl
  have e7 := fun x a b c => hash_step x r a b c hr
  unfold applyMd
  rw [k1, k2, k3, k4, k5, k6, k7, e1, e2, ebind_ok, e3, ebind_ok, e4 _ rfl, e5 _ rfl, e6 _ rfl, e7 _ rfl rfl rfl]
  rfl

/-! ### The whole element -/

theorem filter_tag_all {l : List Elem} {t : Str} (h : ∀ e ∈ l, e.tag = t) :
    l.filter (fun c => decide (c.tag = t)) = l :=
  List.filter_eq_self.mpr (fun e he => by simp [h e he])

theorem filter_tag_none {l : List Elem} {t t' : Str} (h : ∀ e ∈ l, e.tag = t') (hne : t' ≠ t) :
    l.filter (fun c => decide (c.tag = t)) = [] :=
  List.filter_eq_nil_iff.mpr (fun e he => by simp [h e he, hne])

theorem resource_round_trip (s : Sitemap) (r : Resource) (h : ResOk r) (item q : Str)
    (hq : qualify SITEMAP_NS RS_NS item = some q) :
    ∃ e e' r', resourceEtreeElement s r item = .ok e ∧ reparseElem SITEMAP_NS RS_NS e = some e' ∧
      e'.tag = q ∧ resourceFromEtree s e' = .ok r' ∧ Recorded s.spec_1_0 s.add_lastmod r r' ∧
      r'.ts_at = none ∧ r'.ts_completed = none ∧ r'.ts_from = none ∧ r'.ts_until = none := by
  obtain ⟨sts, ts1, ts2, ts3, ts4⟩ := dateAttr_ok r.timestamp h.timestamp
  obtain ⟨sdt, dt1, dt2, dt3, dt4⟩ := dateAttr_ok r.ts_datetime h.ts_datetime
  -- what is written as lastmod
  let lmT : Option Rat := if r.timestamp = none ∧ (s.spec_1_0 = true ∨ s.add_lastmod = true) then r.ts_datetime
    else r.timestamp
  obtain ⟨lm, lm1, lm2, lm3, lm4⟩ : ∃ lm : Option Str, lastmodText s r = .ok lm ∧
      (∀ v, lm = some v → XmlOk v ∧ '\r' ∉ v ∧ v ≠ []) ∧ lm.bind (fun v => strToDatetime v) = lmT ∧
      (lm = none ↔ lmT = none) := by
    cases hsts : sts with
    | some v =>
      have hne : r.timestamp ≠ none := fun e => by rw [← ts4, hsts] at e; cases e
      have hT : lmT = r.timestamp := if_neg (fun c => hne c.1)
      rw [hT]
      subst hsts
      exact ⟨some v, by simp only [lastmodText, ts1, ebind_ok, epure], ts2, ts3, ts4⟩
    | none =>
      have he : r.timestamp = none := ts4.mp hsts
      subst hsts
      by_cases hc : s.spec_1_0 = true ∨ s.add_lastmod = true
      · have hc' : (s.spec_1_0 || s.add_lastmod) = true := by simpa using hc
        have hT : lmT = r.ts_datetime := if_pos ⟨he, hc⟩
        rw [hT]
        exact ⟨sdt, by simp only [lastmodText, ts1, ebind_ok, hc', if_true, dt1], dt2, dt3, dt4⟩
      · have hc' : (s.spec_1_0 || s.add_lastmod) = false := by
          cases h1 : s.spec_1_0 <;> cases h2 : s.add_lastmod <;> simp_all
        have hT : lmT = none := (if_neg (fun c => hc c.2)).trans he
        rw [hT]
        exact ⟨none, by simp only [lastmodText, ts1, ebind_ok, hc', Bool.false_eq_true, if_false, epure], by simp,
          rfl, by simp⟩
  have hmd : mdAtts r (mdAttKeys s) = .ok (mdDict s r) :=
    mdAtts_ok r (attrVal r) _ (mdAttKeys_nodup s) (fun k _ => resourceAttr_val r h k)
  have hln : ∀ l ∈ r.ln.getD [], LinkOk l := by
    cases hl : r.ln with
    | none => simp
    | some ls => exact h.ln ls hl
  obtain ⟨les, l1, l2, l3, ls', l4, l5⟩ := links_round_trip (r.ln.getD []) hln
  obtain ⟨mes, m1, m2⟩ := md_round_trip s (mdDict s r) (mdDict_ok s r h)
  -- loc
  have hloc : reparseList SITEMAP_NS RS_NS [.mk "loc".toList [] (some r.uri) []] =
      some [.mk (smTag "loc") [] (some r.uri) []] := by
    have hqq : qualify SITEMAP_NS RS_NS "loc".toList = some (smTag "loc") := by decide
    simp only [reparseList, reparseElem, dget, Option.getD_none, hqq, reparseAtts, reparseText_ok r.uri h.uri_ne h.uri h.uri_cr]
  -- lastmod
  obtain ⟨lmes, x1, x2⟩ : ∃ lmes, reparseList SITEMAP_NS RS_NS
      (match lm with | some t => [.mk "lastmod".toList [] (some t) []] | none => []) = some lmes ∧
      ((lm = none ∧ lmes = []) ∨ ∃ v, lm = some v ∧ lmes = [.mk (smTag "lastmod") [] (some v) []]) := by
    cases hlm : lm with
    | none => exact ⟨[], rfl, .inl ⟨rfl, rfl⟩⟩
    | some v =>
      obtain ⟨a, b, c⟩ := lm2 v hlm
      have hqq : qualify SITEMAP_NS RS_NS "lastmod".toList = some (smTag "lastmod") := by decide
      refine ⟨[.mk (smTag "lastmod") [] (some v) []], ?_, .inr ⟨v, rfl, rfl⟩⟩
      simp only [reparseList, reparseElem, dget, Option.getD_none, hqq, reparseAtts, reparseText_ok v c a b]
  have hch := reparseList_append_ok (reparseList_append_ok (reparseList_append_ok hloc x1) m1) l1
  let e' : Elem := .mk q [] none ([.mk (smTag "loc") [] (some r.uri) []] ++ lmes ++ mes ++ les)
  -- tags
  have tl : ∀ e ∈ lmes, e.tag = smTag "lastmod" := by
    rcases x2 with ⟨-, rfl⟩ | ⟨v, -, rfl⟩
    · simp
    · intro e he; rw [List.mem_singleton.mp he]; rfl
  have tm : ∀ e ∈ mes, e.tag = rsTag "md" := by
    rcases m2 with ⟨-, rfl⟩ | ⟨-, e1, rfl, ht, -⟩
    · simp
    · intro e he; rw [List.mem_singleton.mp he]; exact ht
  have f1 : e'.findall (smTag "loc") = [.mk (smTag "loc") [] (some r.uri) []] := by
    simp only [Elem.findall, Elem.children, e', List.filter_append]
    rw [filter_tag_none tl (by decide), filter_tag_none tm (by decide), filter_tag_none l2 (by decide)]
    rfl
  have f2 : e'.findall (smTag "lastmod") = lmes := by
    simp only [Elem.findall, Elem.children, e', List.filter_append]
    rw [filter_tag_all tl, filter_tag_none tm (by decide), filter_tag_none l2 (by decide)]
    have : List.filter (fun c : Elem => decide (c.tag = smTag "lastmod")) [Elem.mk (smTag "loc") [] (some r.uri) []] = [] :=
      filter_tag_none (t' := smTag "loc") (by intro e he; rw [List.mem_singleton.mp he]; rfl) (by decide)
    rw [this]; simp
  have f3 : e'.findall (rsTag "md") = mes := by
    simp only [Elem.findall, Elem.children, e', List.filter_append]
    rw [filter_tag_none tl (by decide), filter_tag_all tm, filter_tag_none l2 (by decide)]
    have : List.filter (fun c : Elem => decide (c.tag = rsTag "md")) [Elem.mk (smTag "loc") [] (some r.uri) []] = [] :=
      filter_tag_none (t' := smTag "loc") (by intro e he; rw [List.mem_singleton.mp he]; rfl) (by decide)
    rw [this]; simp
  have f4 : e'.findall (rsTag "ln") = les := by
    simp only [Elem.findall, Elem.children, e', List.filter_append]
    rw [filter_tag_none tl (by decide), filter_tag_none tm (by decide), filter_tag_all l2]
    have : List.filter (fun c : Elem => decide (c.tag = rsTag "ln")) [Elem.mk (smTag "loc") [] (some r.uri) []] = [] :=
      filter_tag_none (t' := smTag "loc") (by intro e he; rw [List.mem_singleton.mp he]; rfl) (by decide)
    rw [this]; simp
  -- the steps of the reader
  have g1 : locText e' = .ok r.uri := by
    simp only [locText, f1, Elem.text]; rw [if_neg h.uri_ne]
  have g2 : lastmodStep e' { uri := r.uri } = .ok { uri := r.uri, timestamp := lmT } := by
    simp only [lastmodStep, f2]
    rcases x2 with ⟨hl, rfl⟩ | ⟨v, hl, rfl⟩
    · rw [lm4.mp hl]
    · subst hl
      simp only [Option.bind_some] at lm3
      have hne : lmT ≠ none := fun e => by simp at lm4; exact lm4 e
      cases hT : lmT with
      | none => exact absurd hT hne
      | some x =>
        rw [hT] at lm3
        simp only [Elem.text, strToDatetime?, lm3, Option.map_some]
  let dt : Option Rat := if s.spec_1_0 = true then none else r.ts_datetime
  obtain ⟨k1, k2, k4, k5, k6, k7, k3⟩ := mem_mdAttKeys s
  let rm : Resource := readBack r r.uri lmT dt
  have g3 : mdStep s e' { uri := r.uri, timestamp := lmT } = .ok rm := by
    have key : ∀ md, SameMap (mdDict s r) md → applyMd md { uri := r.uri, timestamp := lmT } = .ok rm := by
      intro md hs
      refine applyMd_ok md r h r.uri lmT dt (if s.spec_1_0 = true then none else sdt) ?_ ?_ ?_ ?_ ?_ ?_ ?_ ?_ ?_
      · rw [← hs, dget_mdDict, if_pos k1]; rfl
      · rw [← hs, dget_mdDict, if_pos k2]; rfl
      · rw [← hs, dget_mdDict]
        cases hv : s.spec_1_0 with
        | true => rw [if_neg (fun c => by rw [k3.mp c] at hv; cases hv)]; rfl
        | false =>
          rw [if_pos (k3.mpr hv)]
          simp only [Bool.false_eq_true, if_false]
          have : resourceAttr r kDatetime = dateAttr r.ts_datetime := rfl
          simp only [attrVal, this, dt1]
      · cases hv : s.spec_1_0 with
        | true => simp [dt, hv]
        | false => simp only [dt, hv, Bool.false_eq_true, if_false]; exact dt3
      · cases hv : s.spec_1_0 with
        | true => simp [dt, hv]
        | false => simp only [dt, hv, Bool.false_eq_true, if_false]; exact dt4
      · rw [← hs, dget_mdDict, if_pos k4]; rfl
      · rw [← hs, dget_mdDict, if_pos k5]; rfl
      · rw [← hs, dget_mdDict, if_pos k6]; rfl
      · rw [← hs, dget_mdDict, if_pos k7]; rfl
    simp only [mdStep, f3]
    rcases m2 with ⟨hm, rfl⟩ | ⟨-, e1, rfl, -, md', hm, hs⟩
    · have := key [] (by rw [hm]; exact fun k => rfl)
      rw [← this]
      rfl
    · simp only [hm, ebind_ok]
      exact key md' hs
  have g4 : ∃ r', lnStep e' rm = .ok r' ∧ SameLinks (r.ln.getD []) (r'.ln.getD []) ∧
      r' = { rm with ln := r'.ln } := by
    simp only [lnStep, f4]
    cases hles : les with
    | nil =>
      refine ⟨rm, rfl, ?_, rfl⟩
      rw [hles] at l3
      have : r.ln.getD [] = [] := List.length_eq_zero_iff.mp l3.symm
      rw [this]
      exact .nil
    | cons a b =>
      rw [hles] at l4
      refine ⟨{ rm with ln := some ls' }, ?_, l5, rfl⟩
      simp only [l4, ebind_ok, epure]
  obtain ⟨r', g5, g6, g7⟩ := g4
  refine ⟨.mk item [] none ([.mk "loc".toList [] (some r.uri) []] ++
     (match lm with | some t => [.mk "lastmod".toList [] (some t) []] | none => []) ++
     elementWithAtts "rs:md".toList (mdDict s r) ++
     ((r.ln.getD []).flatMap (elementWithAtts "rs:ln".toList))), e', r', ?_, ?_, rfl, ?_, ?_, ?_⟩
  · simp only [resourceEtreeElement, lm1, hmd, ebind_ok, epure]
    cases lm <;> rfl
  · simp only [reparseElem, dget, Option.getD_none, hq, reparseAtts, reparseText, hch, e']
  · simp only [resourceFromEtree, g1, g2, g3, g5, ebind_ok]
  · rw [g7]
    exact ⟨rfl, rfl, rfl, rfl, rfl, rfl, rfl, rfl, rfl, rfl, rfl, by rw [g7] at g6; exact g6, rfl, rfl, rfl, rfl⟩
  · rw [g7]; exact ⟨rfl, rfl, rfl, rfl⟩

end Resync
