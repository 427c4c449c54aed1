import Verif.Proofs.SitemapRes
/-
Lemmas on reading whole documents.
-/

namespace Resync
open Py Resync.Spec

theorem smName_eq (l : String) : smName l = smTag l := rfl
theorem rsName_eq (l : String) : rsName l = rsTag l := rfl

theorem bind_isOk {ε α β : Type} (x : Except ε α) (f : α → Except ε β) :
    (∃ b, (x >>= f) = .ok b) ↔ ∃ a, x = .ok a ∧ ∃ b, f a = .ok b := by
  cases x with
  | ok a => simp [ebind_ok]
  | error e => simp [ebind_err]

theorem bind_ok_iff {ε α β : Type} (x : Except ε α) (f : α → Except ε β) (b : β) :
    (x >>= f) = .ok b ↔ ∃ a, x = .ok a ∧ f a = .ok b := by
  cases x with
  | ok a => simp [ebind_ok]
  | error e => simp [ebind_err]

/-! ### When each step succeeds -/

theorem convInt_isOk (d : Dict Str) (k : Str) :
    (∃ x, convInt d k = .ok x) ↔ ∀ v, dget d k = some v → (pyInt v).isSome := by
  unfold convInt
  cases h : dget d k with
  | none => simp
  | some v => cases h2 : pyInt v <;> simp [h2]

theorem checkPri_isOk (d : Dict Str) :
    (∃ x, checkPri d = .ok x) ↔ ∀ v, dget d kPri = some v → ∃ n, pyInt v = some n ∧ 1 ≤ n ∧ n ≤ 999999 := by
  unfold checkPri
  cases h : dget d kPri with
  | none => simp
  | some v =>
    cases h2 : pyInt v with
    | none => simp [h2]
    | some n =>
      by_cases h3 : n < 1 ∨ n > 999999
      · simp only [h2, h3, if_true]
        constructor
        · rintro ⟨x, hx⟩; cases hx
        · intro hh
          obtain ⟨m, h4, h5, h6⟩ := hh v rfl
          rw [h2] at h4; cases h4
          omega
      · simp only [h2, h3, if_false]
        constructor
        · rintro - w hw; cases hw; exact ⟨n, h2, by omega, by omega⟩
        · intro; exact ⟨_, rfl⟩

theorem mdFromEtree_isOk (s : Sitemap) (e : Elem) : (∃ x, mdFromEtree s e = .ok x) ↔ MdElemOk e := by
  obtain ⟨k1, k2, k3, -⟩ := mem_mdAttKeys s
  unfold mdFromEtree
  simp only [bind_isOk, convInt_isOk]
  have hc : dget (grabAtts (mdAttKeys s) e.attrib) kChange = dget e.attrib "change".toList := by
    rw [dget_grabAtts, if_pos k2]; rfl
  have hl : dget (grabAtts (mdAttKeys s) e.attrib) kLength = dget e.attrib "length".toList := by
    rw [dget_grabAtts, if_pos k3]; rfl
  rw [hl]
  unfold checkMdChange
  rw [hc]
  constructor
  · rintro ⟨_, h1, h2⟩
    refine ⟨?_, h2⟩
    intro v hv
    rw [hv] at h1
    simp only at h1
    split at h1
    · rename_i hm
      simpa [sCreated, sUpdated, sDeleted] using hm
    · cases h1
  · intro h
    refine ⟨(), ?_, h.length⟩
    cases hv : dget e.attrib "change".toList with
    | none => rfl
    | some v =>
      have := h.change v hv
      simp only
      rw [if_pos (by simpa [sCreated, sUpdated, sDeleted] using this)]

theorem convInt_get {d d' : Dict Str} {k j : Str} (h : convInt d k = .ok d') (hj : j ≠ k) :
    dget d' j = dget d j := by
  unfold convInt at h
  cases h1 : dget d k with
  | none => rw [h1] at h; cases h; rfl
  | some v =>
    rw [h1] at h
    simp only at h
    cases h2 : pyInt v with
    | none => rw [h2] at h; cases h
    | some n => rw [h2] at h; cases h; rw [dget_dset]; simp [Ne.symm hj]

theorem convInt_get_same {d d' : Dict Str} {k : Str} (h : convInt d k = .ok d') :
    dget d' k = (dget d k).bind (fun v => (pyInt v).map intStr) := by
  unfold convInt at h
  cases h1 : dget d k with
  | none => rw [h1] at h; cases h; simp [h1]
  | some v =>
    rw [h1] at h
    simp only at h
    cases h2 : pyInt v with
    | none => rw [h2] at h; cases h
    | some n => rw [h2] at h; cases h; rw [dget_dset]; simp [h2]

theorem lnFromEtree_isOk (e : Elem) : (∃ x, lnFromEtree e = .ok x) ↔ LnElemOk e := by
  unfold lnFromEtree
  simp only [bind_isOk, checkPri_isOk]
  have g : ∀ k ∈ lnAttKeys, dget (grabAtts lnAttKeys e.attrib) k = dget e.attrib (xmlAttName k) := by
    intro k hk; rw [dget_grabAtts, if_pos hk]
  have g1 : dget (grabAtts lnAttKeys e.attrib) sHref = dget e.attrib "href".toList := g _ (by decide)
  have g2 : dget (grabAtts lnAttKeys e.attrib) sRel = dget e.attrib "rel".toList := g _ (by decide)
  have g3 : dget (grabAtts lnAttKeys e.attrib) kLength = dget e.attrib "length".toList := g _ (by decide)
  have g4 : dget (grabAtts lnAttKeys e.attrib) kPri = dget e.attrib "pri".toList := g _ (by decide)
  unfold checkLinkAtts
  rw [g1, g2]
  constructor
  · rintro ⟨_, h1, d, h2, h3⟩
    have a := (convInt_isOk _ _).mp ⟨d, h2⟩
    rw [g3] at a
    rw [convInt_get h2 (by decide), g4] at h3
    split at h1
    · cases h1
    · split at h1
      · cases h1
      · rename_i x y
        refine ⟨?_, ?_, a, h3⟩
        · cases hh : dget e.attrib "href".toList with
          | none => exact absurd (congrArg Option.isNone hh) x
          | some v => rfl
        · cases hh : dget e.attrib "rel".toList with
          | none => exact absurd (congrArg Option.isNone hh) y
          | some v => rfl
  · intro h
    have h1 := h.href
    have h2 := h.rel
    obtain ⟨d, hd⟩ := (convInt_isOk (grabAtts lnAttKeys e.attrib) kLength).mpr (by rw [g3]; exact h.length)
    refine ⟨(), ?_, d, hd, ?_⟩
    · rw [if_neg, if_neg]
      · rw [← Option.not_isSome]; rw [h2]; decide
      · rw [← Option.not_isSome]; rw [h1]; decide
    · rw [convInt_get hd (by decide), g4]; exact h.pri

theorem lnList_isOk (l : List Elem) : (∃ x, lnList l = .ok x) ↔ ∀ e ∈ l, LnElemOk e := by
  induction l with
  | nil => simp [lnList]
  | cons e t ih =>
    simp only [lnList, bind_isOk, epure, List.forall_mem_cons]
    rw [← ih, ← lnFromEtree_isOk]
    constructor
    · rintro ⟨a, ha, b, hb, -⟩; exact ⟨⟨a, ha⟩, ⟨b, hb⟩⟩
    · rintro ⟨⟨a, ha⟩, ⟨b, hb⟩⟩; exact ⟨a, ha, b, hb, _, rfl⟩

theorem putChange_isOk (r : Resource) {o : Option Str} (h : ValidChange o) : ∃ x, putChange r o = .ok x := by
  rcases h with e | e | e | e <;> rw [e] <;> exact ⟨_, rfl⟩

theorem putDatetime_isOk (r : Resource) (o : Option Str) :
    (∃ x, putDatetime r o = .ok x) ↔ ∀ v, o = some v → (strToDatetime v).isSome := by
  cases o with
  | none => simp [putDatetime]
  | some v => cases h : strToDatetime v <;> simp [putDatetime, h]

/-- values of a parsed md dictionary -/
theorem mdFromEtree_get {s : Sitemap} {e : Elem} {md : Dict Str} (h : mdFromEtree s e = .ok md) (k : Str) :
    dget md k = if k = kLength then (dget e.attrib kLength).bind (fun v => (pyInt v).map intStr)
      else if k ∈ mdAttKeys s then dget e.attrib (xmlAttName k) else none := by
  obtain ⟨k1, k2, k3, -⟩ := mem_mdAttKeys s
  unfold mdFromEtree at h
  simp only [bind_ok_iff] at h
  obtain ⟨-, -, h⟩ := h
  by_cases hk : k = kLength
  · subst hk
    rw [if_pos rfl, convInt_get_same h, dget_grabAtts, if_pos k3]
    rfl
  · rw [if_neg hk, convInt_get h hk, dget_grabAtts]

theorem applyMd_isOk (s : Sitemap) (e : Elem) (md : Dict Str) (r : Resource) (h : mdFromEtree s e = .ok md) :
    (∃ x, applyMd md r = .ok x) ↔ (s.spec_1_0 = false → ∀ t, dget e.attrib "datetime".toList = some t →
      (strToDatetime t).isSome) := by
  obtain ⟨k1, k2, k3, -, -, -, k4⟩ := mem_mdAttKeys s
  have hm := (mdFromEtree_isOk s e).mp ⟨md, h⟩
  have hc : ValidChange (dget md kChange) := by
    rw [mdFromEtree_get h, if_neg (by decide), if_pos k2]
    show ValidChange (dget e.attrib "change".toList)
    cases hv : dget e.attrib "change".toList with
    | none => exact .inl rfl
    | some v =>
      rcases hm.change v hv with rfl | rfl | rfl
      · exact .inr (.inl rfl)
      · exact .inr (.inr (.inl rfl))
      · exact .inr (.inr (.inr rfl))
  have hd : dget md kDatetime = if s.spec_1_0 = false then dget e.attrib "datetime".toList else none := by
    rw [mdFromEtree_get h, if_neg (by decide)]
    simp only [k4]
    rfl
  unfold applyMd
  simp only [bind_isOk, epure]
  constructor
  · rintro ⟨a, -, b, hb, -⟩ hs
    have := (putDatetime_isOk _ _).mp ⟨b, hb⟩
    rw [hd, if_pos hs] at this
    exact this
  · intro hh
    obtain ⟨a, ha⟩ := putChange_isOk (putCapability r (dget md kCapability)) hc
    obtain ⟨b, hb⟩ := (putDatetime_isOk a (dget md kDatetime)).mpr (by
      rw [hd]
      split
      · rename_i hs; exact hh hs
      · simp)
    exact ⟨a, ha, b, hb, _, rfl⟩

theorem resourceFromEtree_isOk (s : Sitemap) (e : Elem) :
    (∃ r, resourceFromEtree s e = .ok r) ↔ EntryOk (fun t => (strToDatetime t).isSome) s.spec_1_0 e := by
  unfold resourceFromEtree
  simp only [bind_isOk]
  constructor
  · rintro ⟨u, h1, r1, h2, r2, h3, r3, h4⟩
    refine ⟨?_, ?_, ?_, ?_, ?_, ?_, ?_⟩ <;> simp only [smName_eq, rsName_eq]
    · unfold locText at h1
      split at h1
      · rename_i l hl
        split at h1
        · cases h1
        · rename_i t ht
          split at h1
          · cases h1
          · rename_i hne
            exact ⟨l, t, hl, ht, hne⟩
      · cases h1
    · unfold lastmodStep at h2
      split at h2
      · rename_i hl; rw [hl]; simp
      · rename_i hl; rw [hl]; simp
      · cases h2
    · intro l hl t ht
      unfold lastmodStep at h2
      split at h2
      · rename_i hl'; rw [hl'] at hl; simp at hl
      · rename_i l' hl'; rw [hl'] at hl
        rw [List.mem_singleton.mp hl] at ht
        rw [ht] at h2
        simp only [strToDatetime?] at h2
        cases hd : strToDatetime t with
        | none => rw [hd] at h2; cases h2
        | some x => rfl
      · cases h2
    · unfold mdStep at h3
      split at h3
      · rename_i hl; rw [hl]; simp
      · rename_i hl; rw [hl]; simp
      · cases h3
    · intro m hm
      unfold mdStep at h3
      split at h3
      · rename_i hl; rw [hl] at hm; simp at hm
      · rename_i m' hl; rw [hl] at hm
        rw [List.mem_singleton.mp hm]
        simp only [bind_ok_iff] at h3
        obtain ⟨md, h3, -⟩ := h3
        exact (mdFromEtree_isOk s m').mp ⟨md, h3⟩
      · cases h3
    · intro hs m hm
      unfold mdStep at h3
      split at h3
      · rename_i hl; rw [hl] at hm; simp at hm
      · rename_i m' hl; rw [hl] at hm
        rw [List.mem_singleton.mp hm]
        simp only [bind_ok_iff] at h3
        obtain ⟨md, h3, h5⟩ := h3
        exact (applyMd_isOk s m' md r1 h3).mp ⟨r2, h5⟩ hs
      · cases h3
    · unfold lnStep at h4
      split at h4
      · rename_i hl; rw [hl]; simp
      · simp only [bind_ok_iff] at h4
        obtain ⟨ls, h4, -⟩ := h4
        exact (lnList_isOk _).mp ⟨ls, h4⟩
  · intro h
    obtain ⟨l, t, hl, ht, hne⟩ := h.loc
    have h2 := h.lastmod_one
    have h3 := h.lastmod
    have h4 := h.md_one
    have h5 := h.md
    have h6 := h.datetime
    have h7 := h.ln
    simp only [smName_eq, rsName_eq] at hl h2 h3 h4 h5 h6 h7
    refine ⟨t, by simp [locText, hl, ht, hne], ?_⟩
    obtain ⟨r1, hr1⟩ : ∃ r, lastmodStep e { uri := t } = .ok r := by
      unfold lastmodStep
      match hh : e.findall (smTag "lastmod") with
      | [] => exact ⟨_, rfl⟩
      | [x] =>
        have := h3 x (by rw [hh]; simp)
        cases hx : x.text with
        | none => simp only [hx, strToDatetime?]; exact ⟨_, rfl⟩
        | some y =>
          have := this y hx
          cases hd : strToDatetime y with
          | none => rw [hd] at this; cases this
          | some q => simp only [hx, strToDatetime?, hd, Option.map_some]; exact ⟨_, rfl⟩
      | _ :: _ :: _ => rw [hh] at h2; simp at h2
    refine ⟨r1, hr1, ?_⟩
    obtain ⟨r2, hr2⟩ : ∃ r, mdStep s e r1 = .ok r := by
      unfold mdStep
      match hh : e.findall (rsTag "md") with
      | [] => exact ⟨_, rfl⟩
      | [x] =>
        obtain ⟨md, hmd⟩ := (mdFromEtree_isOk s x).mpr (h5 x (by rw [hh]; simp))
        obtain ⟨r2, hr2⟩ := (applyMd_isOk s x md r1 hmd).mpr (fun hs => h6 hs x (by rw [hh]; simp))
        exact ⟨r2, by simp only [hmd, ebind_ok, hr2]⟩
      | _ :: _ :: _ => rw [hh] at h4; simp at h4
    refine ⟨r2, hr2, ?_⟩
    unfold lnStep
    match hh : e.findall (rsTag "ln") with
    | [] => exact ⟨_, rfl⟩
    | a :: b =>
      rw [hh] at h7
      obtain ⟨ls, hls⟩ := (lnList_isOk (a :: b)).mpr h7
      exact ⟨_, by simp only [hls, ebind_ok, epure]; rfl⟩

/-! ### The loop -/

/-- what the loop needs from the remaining children -/
structure LoopOk (s : Sitemap) (tag : Str) (p m : Bool) (ch : List Elem) : Prop where
  entries : ∀ e ∈ ch, e.tag = tag → EntryOk (fun t => (strToDatetime t).isSome) s.spec_1_0 e
  md : ∀ e ∈ ch, e.tag = rsTag "md" → MdElemOk e
  ln : ∀ e ∈ ch, e.tag = rsTag "ln" → LnElemOk e
  one : (ch.filter (fun c => decide (c.tag = rsTag "md"))).length ≤ if m then 0 else 1
  post : p = false → ∀ e ∈ ch, e.tag ≠ rsTag "md" ∧ e.tag ≠ rsTag "ln"
  order : ch.Pairwise (fun a b => a.tag = tag → b.tag ≠ rsTag "md" ∧ b.tag ≠ rsTag "ln")

theorem parseLoop_isOk {σ : Type} (s : Sitemap) (add : σ → Resource → Except SmErr σ)
    (hadd : ∀ c r, ∃ c', add c r = .ok c') (tag : Str) (h1 : tag ≠ rsTag "md")
    (h2 : tag ≠ rsTag "ln") (ch : List Elem) (st : ParseSt σ) :
    (∃ x, parseLoop s add tag ch st = .ok x) ↔ LoopOk s tag st.in_preamble st.seen_md ch := by
  have h3 : rsTag "md" ≠ rsTag "ln" := by decide
  induction ch generalizing st with
  | nil =>
    simp only [parseLoop]
    exact ⟨fun _ => ⟨by simp, by simp, by simp, by simp, by simp, .nil⟩, fun _ => ⟨_, rfl⟩⟩
  | cons e t ih =>
    simp only [parseLoop, bind_isOk]
    unfold parseStep
    by_cases c1 : e.tag = tag
    · simp only [c1, if_true]
      have hm : e.tag ≠ rsTag "md" := by rw [c1]; exact h1
      have hl : e.tag ≠ rsTag "ln" := by rw [c1]; exact h2
      constructor
      · rintro ⟨a, ha, x⟩
        simp only [bind_ok_iff, epure] at ha
        obtain ⟨r, hr, c', hc, ha⟩ := ha
        cases ha
        have L := (ih _).mp x
        simp only at L
        refine ⟨?_, ?_, ?_, ?_, ?_, ?_⟩
        · intro e' he' ht
          rcases List.mem_cons.mp he' with rfl | he'
          · exact (resourceFromEtree_isOk s _).mp ⟨r, hr⟩
          · exact L.entries e' he' ht
        · intro e' he' ht
          rcases List.mem_cons.mp he' with rfl | he'
          · exact absurd ht hm
          · exact L.md e' he' ht
        · intro e' he' ht
          rcases List.mem_cons.mp he' with rfl | he'
          · exact absurd ht hl
          · exact L.ln e' he' ht
        · simp only [List.filter_cons, hm, decide_false, Bool.false_eq_true, if_false]; exact L.one
        · intro hp e' he'
          rcases List.mem_cons.mp he' with rfl | he'
          · exact ⟨hm, hl⟩
          · exact L.post rfl e' he'
        · exact .cons (fun b hb _ => L.post rfl b hb) L.order
      · intro L
        obtain ⟨r, hr⟩ := (resourceFromEtree_isOk s e).mpr (L.entries e (by simp) c1)
        obtain ⟨c', hc⟩ := hadd st.cont.resources r
        refine ⟨_, by simp only [hr, hc, ebind_ok, epure]; rfl, ?_⟩
        refine (ih _).mpr ?_
        simp only
        refine ⟨fun e' he' => L.entries e' (by simp [he']), fun e' he' => L.md e' (by simp [he']),
          fun e' he' => L.ln e' (by simp [he']), ?_, ?_, (List.pairwise_cons.mp L.order).2⟩
        · have := L.one
          simpa only [List.filter_cons, hm, decide_false, Bool.false_eq_true, if_false] using this
        · intro _ e' he'
          exact (List.pairwise_cons.mp L.order).1 e' he' c1
    · by_cases c2 : e.tag = rsTag "md"
      · rw [if_neg c1, if_pos c2]
        have hl : e.tag ≠ rsTag "ln" := by rw [c2]; exact h3
        constructor
        · rintro ⟨a, ha, x⟩
          split at ha
          · rename_i hp
            split at ha
            · cases ha
            · rename_i hs
              simp only [bind_ok_iff, epure] at ha
              obtain ⟨md, hmd, ha⟩ := ha
              cases ha
              have L := (ih _).mp x
              simp only at L
              refine ⟨?_, ?_, ?_, ?_, ?_, ?_⟩
              · intro e' he' ht
                rcases List.mem_cons.mp he' with rfl | he'
                · exact absurd ht c1
                · exact L.entries e' he' ht
              · intro e' he' ht
                rcases List.mem_cons.mp he' with rfl | he'
                · exact (mdFromEtree_isOk s _).mp ⟨md, hmd⟩
                · exact L.md e' he' ht
              · intro e' he' ht
                rcases List.mem_cons.mp he' with rfl | he'
                · exact absurd ht hl
                · exact L.ln e' he' ht
              · have := L.one
                simp only [if_true] at this
                rw [Bool.not_eq_true] at hs
                simp only [List.filter_cons, c2, decide_true, if_true, List.length_cons, hs, Bool.false_eq_true, if_false]
                omega
              · intro hp2; rw [hp] at hp2; cases hp2
              · exact .cons (fun b hb hh => absurd hh c1) L.order
          · cases ha
        · intro L
          obtain ⟨md, hmd⟩ := (mdFromEtree_isOk s e).mpr (L.md e (by simp) c2)
          have hp : st.in_preamble = true := by
            cases hp : st.in_preamble with
            | true => rfl
            | false => exact absurd c2 (L.post hp e (by simp)).1
          have hone := L.one
          simp only [List.filter_cons, c2, decide_true, if_true, List.length_cons] at hone
          have hs : st.seen_md = false := by
            cases hs : st.seen_md with
            | false => rfl
            | true => rw [hs] at hone; simp at hone
          rw [hs] at hone
          simp only [Bool.false_eq_true, if_false] at hone
          refine ⟨_, by simp only [hp, hs, hmd, ebind_ok, epure, if_true, Bool.false_eq_true, if_false]; rfl, ?_⟩
          refine (ih _).mpr ?_
          refine ⟨fun e' he' => L.entries e' (by simp [he']), fun e' he' => L.md e' (by simp [he']),
            fun e' he' => L.ln e' (by simp [he']), ?_, ?_, (List.pairwise_cons.mp L.order).2⟩
          · simp only [if_true]; omega
          · intro hp2; cases hp2
      · by_cases c3 : e.tag = rsTag "ln"
        · rw [if_neg c1, if_neg c2, if_pos c3]
          constructor
          · rintro ⟨a, ha, x⟩
            split at ha
            · rename_i hp
              simp only [bind_ok_iff, epure] at ha
              obtain ⟨l, hl, ha⟩ := ha
              cases ha
              have L := (ih _).mp x
              simp only at L
              refine ⟨?_, ?_, ?_, ?_, ?_, ?_⟩
              · intro e' he' ht
                rcases List.mem_cons.mp he' with rfl | he'
                · exact absurd ht c1
                · exact L.entries e' he' ht
              · intro e' he' ht
                rcases List.mem_cons.mp he' with rfl | he'
                · exact absurd ht c2
                · exact L.md e' he' ht
              · intro e' he' ht
                rcases List.mem_cons.mp he' with rfl | he'
                · exact (lnFromEtree_isOk _).mp ⟨l, hl⟩
                · exact L.ln e' he' ht
              · simp only [List.filter_cons, c2, decide_false, Bool.false_eq_true, if_false]; exact L.one
              · intro hp2; rw [hp] at hp2; cases hp2
              · exact .cons (fun b hb hh => absurd hh c1) L.order
            · cases ha
          · intro L
            obtain ⟨l, hl⟩ := (lnFromEtree_isOk e).mpr (L.ln e (by simp) c3)
            have hp : st.in_preamble = true := by
              cases hp : st.in_preamble with
              | true => rfl
              | false => exact absurd c3 (L.post hp e (by simp)).2
            refine ⟨_, by simp only [hp, hl, ebind_ok, epure, if_true]; rfl, ?_⟩
            refine (ih _).mpr ?_
            refine ⟨fun e' he' => L.entries e' (by simp [he']), fun e' he' => L.md e' (by simp [he']),
              fun e' he' => L.ln e' (by simp [he']), ?_, ?_, (List.pairwise_cons.mp L.order).2⟩
            · have := L.one
              simpa only [List.filter_cons, c2, decide_false, Bool.false_eq_true, if_false] using this
            · intro hp2; cases hp2
        · rw [if_neg c1, if_neg c2, if_neg c3]
          constructor
          · rintro ⟨a, ha, x⟩
            cases ha
            have L := (ih _).mp x
            refine ⟨?_, ?_, ?_, ?_, ?_, ?_⟩
            · intro e' he' ht
              rcases List.mem_cons.mp he' with rfl | he'
              · exact absurd ht c1
              · exact L.entries e' he' ht
            · intro e' he' ht
              rcases List.mem_cons.mp he' with rfl | he'
              · exact absurd ht c2
              · exact L.md e' he' ht
            · intro e' he' ht
              rcases List.mem_cons.mp he' with rfl | he'
              · exact absurd ht c3
              · exact L.ln e' he' ht
            · simp only [List.filter_cons, c2, decide_false, Bool.false_eq_true, if_false]; exact L.one
            · intro hp2 e' he'
              rcases List.mem_cons.mp he' with rfl | he'
              · exact ⟨c2, c3⟩
              · exact L.post hp2 e' he'
            · exact .cons (fun b hb hh => absurd hh c1) L.order
          · intro L
            refine ⟨st, rfl, ?_⟩
            refine (ih _).mpr ?_
            refine ⟨fun e' he' => L.entries e' (by simp [he']), fun e' he' => L.md e' (by simp [he']),
              fun e' he' => L.ln e' (by simp [he']), ?_, ?_, (List.pairwise_cons.mp L.order).2⟩
            · have := L.one
              simpa only [List.filter_cons, c2, decide_false, Bool.false_eq_true, if_false] using this
            · intro hp2 e' he'
              exact L.post hp2 e' (by simp [he'])

/-- the resources made from entries -/
theorem resourceFromEtree_uri {s : Sitemap} {e : Elem} {r : Resource} (h : resourceFromEtree s e = .ok r) :
    ∃ l, e.findall (smTag "loc") = [l] ∧ l.text = some r.uri := by
  unfold resourceFromEtree at h
  simp only [bind_ok_iff] at h
  obtain ⟨u, h1, r1, h2, r2, h3, h4⟩ := h
  have k1 : r1.uri = u := by
    unfold lastmodStep at h2
    split at h2
    · cases h2; rfl
    · split at h2
      · cases h2
      · cases h2; rfl
    · cases h2
  have k2 : r2.uri = r1.uri := by
    unfold mdStep at h3
    split at h3
    · cases h3; rfl
    · simp only [bind_ok_iff, applyMd] at h3
      obtain ⟨md, -, a, ha, b, hb, h3⟩ := h3
      cases h3
      have ka : a.uri = r1.uri := by
        have : (putCapability r1 (dget md kCapability)).uri = r1.uri := by
          cases dget md kCapability <;> rfl
        unfold putChange at ha
        cases hc : dget md kChange with
        | none => rw [hc] at ha; cases ha; exact this
        | some v =>
          rw [hc] at ha
          simp only [Resource.setChange] at ha
          split at ha
          · rename_i hh
            cases ha
            split at hh
            · cases hh
            · cases hh; exact this
          · cases ha
      have kb : b.uri = a.uri := by
        unfold putDatetime at hb
        split at hb
        · split at hb
          · cases hb; rfl
          · cases hb
        · cases hb; rfl
      have kc : ∀ x o, (putLength x o).uri = x.uri := by intro x o; cases o <;> rfl
      have kd : ∀ x o, (putPath x o).uri = x.uri := by intro x o; cases o <;> rfl
      have ke : ∀ x o, (putMimeType x o).uri = x.uri := by intro x o; cases o <;> rfl
      have kf : ∀ x o, (putHash x o).uri = x.uri := by
        intro x o; cases o with
        | none => rfl
        | some v =>
          obtain ⟨a, b, c, hh⟩ := hashLoop_frame (splitWs v) [] false { x with md5 := none, sha1 := none, sha256 := none }
          simp only [putHash, Resource.setHash, hh]
      rw [kf, ke, kd, kc, kb, ka]
    · cases h3
  have k3 : r.uri = r2.uri := by
    unfold lnStep at h4
    split at h4
    · cases h4; rfl
    · simp only [bind_ok_iff, epure] at h4
      obtain ⟨ls, -, h4⟩ := h4
      cases h4; rfl
  rw [k3, k2, k1]
  unfold locText at h1
  split at h1
  · rename_i l hl
    split at h1
    · cases h1
    · rename_i t ht
      split at h1
      · cases h1
      · cases h1; exact ⟨l, hl, ht⟩
  · cases h1

/-- the loop adds one resource per entry, in order -/
theorem parseLoop_entries {σ : Type} (s : Sitemap) (add : σ → Resource → Except SmErr σ) (tag : Str)
    (ch : List Elem) (st st' : ParseSt σ) (h : parseLoop s add tag ch st = .ok st') :
    ∃ rs, List.Forall₂ (fun e r => resourceFromEtree s e = .ok r) (ch.filter (fun c => decide (c.tag = tag))) rs ∧
      rs.foldlM add st.cont.resources = .ok st'.cont.resources ∧ st'.created = st.created + rs.length := by
  induction ch generalizing st with
  | nil => cases h; exact ⟨[], .nil, rfl, rfl⟩
  | cons e t ih =>
    simp only [parseLoop, bind_ok_iff] at h
    obtain ⟨a, ha, h⟩ := h
    obtain ⟨rs, h1, h2, h3⟩ := ih a h
    unfold parseStep at ha
    by_cases c1 : e.tag = tag
    · simp only [c1, if_true, bind_ok_iff, epure] at ha
      obtain ⟨r, hr, c', hc, ha⟩ := ha
      cases ha
      refine ⟨r :: rs, ?_, ?_, ?_⟩
      · rw [List.filter_cons, if_pos (by simpa using c1)]; exact .cons hr h1
      · rw [List.foldlM_cons, hc]; exact h2
      · simp only at h3; rw [h3, List.length_cons]; omega
    · rw [if_neg c1] at ha
      have key : a.cont.resources = st.cont.resources ∧ a.created = st.created := by
        split at ha
        · split at ha
          · split at ha
            · cases ha
            · simp only [bind_ok_iff, epure] at ha
              obtain ⟨_, _, ha⟩ := ha; cases ha; exact ⟨rfl, rfl⟩
          · cases ha
        · split at ha
          · split at ha
            · simp only [bind_ok_iff, epure] at ha
              obtain ⟨_, _, ha⟩ := ha; cases ha; exact ⟨rfl, rfl⟩
            · cases ha
          · cases ha; exact ⟨rfl, rfl⟩
      rw [key.1] at h2
      rw [key.2] at h3
      refine ⟨rs, ?_, h2, h3⟩
      rw [List.filter_cons, if_neg (by simpa using c1)]; exact h1

end Resync

namespace Resync
open Py Resync.Spec

/-! ### Round trip of the entries -/

theorem entries_round_trip (s : Sitemap) (item q : Str) (hq : qualify SITEMAP_NS RS_NS item = some q)
    (rs : List Resource) (h : ∀ r ∈ rs, ResOk r) :
    ∃ es es' rs', resourceElements s item rs = .ok es ∧ reparseList SITEMAP_NS RS_NS es = some es' ∧
      (∀ e ∈ es', e.tag = q) ∧ List.Forall₂ (fun e r => resourceFromEtree s e = .ok r) es' rs' ∧
      List.Forall₂ (Recorded s.spec_1_0 s.add_lastmod) rs rs' := by
  induction rs with
  | nil => exact ⟨[], [], [], rfl, rfl, by simp, .nil, .nil⟩
  | cons r t ih =>
    obtain ⟨es, es', rs', h1, h2, h3, h4, h5⟩ := ih (fun x hx => h x (by simp [hx]))
    obtain ⟨e, e', r', g1, g2, g3, g4, g5, -⟩ := resource_round_trip s r (h r (by simp)) item q hq
    refine ⟨e :: es, e' :: es', r' :: rs', ?_, ?_, ?_, .cons g4 h4, .cons g5 h5⟩
    · simp only [resourceElements, g1, h1, ebind_ok, epure]
    · simp only [reparseList, g2, h2]
    · intro x hx
      rcases List.mem_cons.mp hx with rfl | hx
      · exact g3
      · exact h3 x hx

theorem parseLoop_append {σ : Type} (s : Sitemap) (add : σ → Resource → Except SmErr σ) (tag : Str)
    (a b : List Elem) (st : ParseSt σ) :
    parseLoop s add tag (a ++ b) st = (parseLoop s add tag a st >>= parseLoop s add tag b) := by
  induction a generalizing st with
  | nil => rfl
  | cons e t ih =>
    simp only [List.cons_append, parseLoop]
    cases h : parseStep s add tag st e with
    | error x => rfl
    | ok st' => simp only [ebind_ok]; exact ih st'

/-- the loop over a run of entries -/
theorem parseLoop_run {σ : Type} (s : Sitemap) (add : σ → Resource → Except SmErr σ) (tag : Str)
    {es : List Elem} {rs : List Resource} (h1 : ∀ e ∈ es, e.tag = tag)
    (h2 : List.Forall₂ (fun e r => resourceFromEtree s e = .ok r) es rs) (st : ParseSt σ) {x : σ}
    (h3 : rs.foldlM add st.cont.resources = .ok x) :
    ∃ st', parseLoop s add tag es st = .ok st' ∧ st'.cont.resources = x ∧ st'.cont.md = st.cont.md ∧
      st'.cont.ln = st.cont.ln ∧ st'.created = st.created + rs.length := by
  induction h2 generalizing st with
  | nil => cases h3; exact ⟨st, rfl, rfl, rfl, rfl, rfl⟩
  | @cons e r es rs he _ ih =>
    rw [List.foldlM_cons, bind_ok_iff] at h3
    obtain ⟨c, hc, h3⟩ := h3
    obtain ⟨st', g1, g2, g3, g4, g5⟩ := ih (fun e he => h1 e (by simp [he]))
      { st with cont := { st.cont with resources := c }, in_preamble := false, created := st.created + 1 } h3
    refine ⟨st', ?_, g2, g3, g4, ?_⟩
    · have ht := h1 e (by simp)
      simp only [parseLoop, parseStep, ht, if_true, he, hc, ebind_ok, epure]
      exact g1
    · rw [g5, List.length_cons]; simp only; omega

/-- the loop over a run of preamble links -/
theorem parseLoop_links {σ : Type} (s : Sitemap) (add : σ → Resource → Except SmErr σ) (tag : Str)
    (hne : tag ≠ rsTag "ln") {es : List Elem} {ls : List Link} (h1 : ∀ e ∈ es, e.tag = rsTag "ln")
    (h2 : lnList es = .ok ls) (st : ParseSt σ) (hp : st.in_preamble = true) :
    parseLoop s add tag es st = .ok { st with cont := { st.cont with ln := st.cont.ln ++ ls } } := by
  induction es generalizing st ls with
  | nil => cases h2; simp [parseLoop]
  | cons e t ih =>
    simp only [lnList, bind_ok_iff, epure] at h2
    obtain ⟨l, hl, ls', hls, h2⟩ := h2
    cases h2
    have ht := h1 e (by simp)
    have hm : rsTag "ln" ≠ rsTag "md" := by decide
    simp only [parseLoop, parseStep, ht, if_neg (Ne.symm hne), if_neg hm, if_true, hp, hl, ebind_ok, epure]
    rw [ih (fun e he => h1 e (by simp [he])) hls _ rfl]
    simp [hp]

/-! ### Reading only looks at known children -/

theorem filter_keep {ch : List Elem} {tag : Str} {known : List Str} (h : tag ∈ known) :
    (ch.filter (fun c => decide (c.tag ∈ known))).filter (fun c => decide (c.tag = tag)) =
      ch.filter (fun c => decide (c.tag = tag)) := by
  rw [List.filter_filter]
  apply List.filter_congr
  intro c _
  by_cases hc : c.tag = tag
  · simp [hc, h]
  · simp [hc]

theorem findall_keepKnown (known : List Str) (e : Elem) (tag : Str) (h : tag ∈ known) :
    (keepKnown known e).findall tag = e.findall tag := by
  cases e with
  | mk t a x ch => exact filter_keep h

theorem keepKnown_tag (known : List Str) (e : Elem) : (keepKnown known e).tag = e.tag := by cases e; rfl

theorem resourceFromEtree_congr (s : Sitemap) (e e' : Elem)
    (h1 : e.findall (smTag "loc") = e'.findall (smTag "loc"))
    (h2 : e.findall (smTag "lastmod") = e'.findall (smTag "lastmod"))
    (h3 : e.findall (rsTag "md") = e'.findall (rsTag "md"))
    (h4 : e.findall (rsTag "ln") = e'.findall (rsTag "ln")) : resourceFromEtree s e = resourceFromEtree s e' := by
  unfold resourceFromEtree locText lastmodStep mdStep lnStep
  rw [h1, h2, h3, h4]

theorem parseLoop_filter {σ : Type} (s : Sitemap) (add : σ → Resource → Except SmErr σ) (tag : Str)
    (ch : List Elem) (st : ParseSt σ) :
    parseLoop s add tag (ch.filter (fun c => decide (c.tag ∈ [tag, rsTag "md", rsTag "ln"]))) st =
      parseLoop s add tag ch st := by
  induction ch generalizing st with
  | nil => rfl
  | cons e t ih =>
    by_cases h : e.tag ∈ [tag, rsTag "md", rsTag "ln"]
    · rw [List.filter_cons, if_pos (by simpa using h)]
      simp only [parseLoop]
      congr 1
      funext st'
      exact ih st'
    · rw [List.filter_cons, if_neg (by simpa using h), ih]
      simp only [List.mem_cons, List.not_mem_nil, or_false, not_or] at h
      simp only [parseLoop, parseStep, h.1, h.2.1, h.2.2, if_false, ebind_ok]

theorem parseLoop_map {σ : Type} (s : Sitemap) (add : σ → Resource → Except SmErr σ) (tag : Str)
    (f : Elem → Elem) (hf : ∀ e, (f e).tag = e.tag) (h1 : ∀ e, e.tag ≠ tag → f e = e)
    (h2 : ∀ e, resourceFromEtree s (f e) = resourceFromEtree s e) (ch : List Elem) (st : ParseSt σ) :
    parseLoop s add tag (ch.map f) st = parseLoop s add tag ch st := by
  induction ch generalizing st with
  | nil => rfl
  | cons e t ih =>
    have : parseStep s add tag st (f e) = parseStep s add tag st e := by
      by_cases h : e.tag = tag
      · unfold parseStep; rw [hf, h2, if_pos h, if_pos h]
      · rw [h1 e h]
    simp only [List.map_cons, parseLoop, this]
    congr 1
    funext st'
    exact ih st'

end Resync

namespace Resync
open Py Resync.Spec

/-- success with any container implies success with one that accepts everything -/
theorem parseLoop_unit {σ : Type} (s : Sitemap) (add : σ → Resource → Except SmErr σ) (tag : Str)
    (ch : List Elem) (st st' : ParseSt σ) (u : ParseSt Unit) (h : parseLoop s add tag ch st = .ok st')
    (h1 : u.in_preamble = st.in_preamble) (h2 : u.seen_md = st.seen_md) :
    ∃ x, parseLoop s (fun _ _ => .ok ()) tag ch u = .ok x := by
  induction ch generalizing st u with
  | nil => exact ⟨_, rfl⟩
  | cons e t ih =>
    simp only [parseLoop] at h ⊢
    rw [bind_ok_iff] at h
    rw [bind_isOk]
    obtain ⟨a, ha, h⟩ := h
    unfold parseStep at ha ⊢
    by_cases c1 : e.tag = tag
    · simp only [c1, if_true, bind_ok_iff, epure] at ha ⊢
      obtain ⟨r, hr, c', hc, ha⟩ := ha
      cases ha
      exact ⟨_, ⟨r, hr, (), trivial, rfl⟩, ih _ _ h rfl h2⟩
    · rw [if_neg c1] at ha ⊢
      by_cases c2 : e.tag = rsTag "md"
      · rw [if_pos c2] at ha ⊢
        rw [h1, h2]
        by_cases c3 : st.in_preamble = true
        · rw [if_pos c3] at ha ⊢
          by_cases c4 : st.seen_md = true
          · rw [if_pos c4] at ha; cases ha
          · rw [if_neg c4] at ha ⊢
            simp only [bind_ok_iff, epure] at ha ⊢
            obtain ⟨md, hm, ha⟩ := ha
            cases ha
            exact ⟨_, ⟨md, hm, rfl⟩, ih _ _ h rfl rfl⟩
        · rw [if_neg c3] at ha; cases ha
      · rw [if_neg c2] at ha ⊢
        by_cases c5 : e.tag = rsTag "ln"
        · rw [if_pos c5] at ha ⊢
          rw [h1]
          by_cases c3 : st.in_preamble = true
          · rw [if_pos c3] at ha ⊢
            simp only [bind_ok_iff, epure] at ha ⊢
            obtain ⟨l, hl, ha⟩ := ha
            cases ha
            exact ⟨_, ⟨l, hl, rfl⟩, ih _ _ h rfl h2⟩
          · rw [if_neg c3] at ha; cases ha
        · rw [if_neg c5] at ha ⊢
          cases ha
          exact ⟨_, rfl, ih _ _ h h1 h2⟩

/-- top-level metadata after the loop -/
theorem parseLoop_md {σ : Type} (s : Sitemap) (add : σ → Resource → Except SmErr σ) (tag : Str)
    (hne : tag ≠ rsTag "md") (ch : List Elem) (st st' : ParseSt σ) (h : parseLoop s add tag ch st = .ok st') :
    (ch.filter (fun c => decide (c.tag = rsTag "md")) = [] ∧ st'.cont.md = st.cont.md) ∨
    ∃ m rest, ch.filter (fun c => decide (c.tag = rsTag "md")) = m :: rest ∧ st.seen_md = false ∧ rest = [] ∧
      mdFromEtree s m = .ok st'.cont.md := by
  induction ch generalizing st with
  | nil => cases h; exact .inl ⟨rfl, rfl⟩
  | cons e t ih =>
    simp only [parseLoop, bind_ok_iff] at h
    obtain ⟨a, ha, h⟩ := h
    have IH := ih a h
    unfold parseStep at ha
    by_cases c1 : e.tag = tag
    · simp only [c1, if_true, bind_ok_iff, epure] at ha
      obtain ⟨r, hr, c', hc, ha⟩ := ha
      cases ha
      rw [List.filter_cons, if_neg (by simpa [c1] using hne)]
      exact IH
    · rw [if_neg c1] at ha
      by_cases c2 : e.tag = rsTag "md"
      · rw [if_pos c2] at ha
        rw [List.filter_cons, if_pos (by simpa using c2)]
        split at ha
        · split at ha
          · cases ha
          · rename_i hs
            simp only [bind_ok_iff, epure] at ha
            obtain ⟨md, hm, ha⟩ := ha
            cases ha
            rcases IH with ⟨i1, i2⟩ | ⟨_, _, _, i2, _⟩
            · refine .inr ⟨e, _, rfl, by simpa using hs, i1, ?_⟩
              rw [i2]; exact hm
            · cases i2
        · cases ha
      · rw [if_neg c2] at ha
        rw [List.filter_cons, if_neg (by simpa using c2)]
        split at ha
        · split at ha
          · simp only [bind_ok_iff, epure] at ha
            obtain ⟨l, hl, ha⟩ := ha
            cases ha
            exact IH
          · cases ha
        · cases ha; exact IH

/-- Writing a document and parsing it with any container, see C34. -/
theorem doc_round_trip (s : Sitemap) (md : Dict Str) (ln : List Link) (rs : List Resource) (index : Bool)
    (hmd : MdOk (mdAttKeys s) md) (hln : ∀ l ∈ ln, LinkOk l) (hrs : ∀ r ∈ rs, ResOk r) :
    ∃ t t' rs', resourcesAsXml s md ln rs index = .ok t ∧ reparse t = some t' ∧
      List.Forall₂ (Recorded s.spec_1_0 s.add_lastmod) rs rs' ∧
      ∀ {σ : Type} (add : σ → Resource → Except SmErr σ) (r0 x : σ), rs'.foldlM add r0 = .ok x →
      ∀ (cap : Option Str) (_ : ∀ c, cap = some c → dget md "capability".toList = some c)
        (want : Option Bool) (_ : want = none ∨ want = some index),
      ∃ c, parseXml s add { resources := r0 } t' cap want = .ok (c, index, rs.length) ∧
        c.resources = x ∧ SameMap md c.md ∧ SameLinks ln c.ln := by
  let item : Str := if index then "sitemap".toList else "url".toList
  let tag : Str := if index then smTag "sitemap" else smTag "url"
  have hq : qualify SITEMAP_NS RS_NS item = some tag := by
    cases index
    · show qualify SITEMAP_NS RS_NS "url".toList = some (smTag "url"); decide
    · show qualify SITEMAP_NS RS_NS "sitemap".toList = some (smTag "sitemap"); decide
  have ht1 : tag ≠ rsTag "md" := by cases index <;> decide
  have ht2 : tag ≠ rsTag "ln" := by cases index <;> decide
  obtain ⟨es, es', rs', h1, h2, h3, h4, h5⟩ := entries_round_trip s item tag hq rs hrs
  obtain ⟨les, l1, l2, l3, ls', l4, l5⟩ := links_round_trip ln hln
  obtain ⟨mes, m1, m2⟩ := md_round_trip s md hmd
  have hch := reparseList_append_ok (reparseList_append_ok l1 m1) h2
  let rootTag : Str := if index then smTag "sitemapindex" else smTag "urlset"
  let txt : Option Str := if s.pretty_xml then some "\n".toList else none
  let root' : Elem := .mk rootTag [] txt (les ++ mes ++ es')
  let root : Elem := .mk (if index then "sitemapindex".toList else "urlset".toList)
      [(sXmlns, SITEMAP_NS), ("xmlns:rs".toList, RS_NS)] txt
      (ln.flatMap (elementWithAtts "rs:ln".toList) ++ elementWithAtts "rs:md".toList md ++ es)
  have e1 : resourcesAsXml s md ln rs index = .ok root := by
    simp only [resourcesAsXml]
    rw [h1]
    rfl
  have e2 : reparse root = some root' := by
    have q1 : dget root.attrib sXmlns = some SITEMAP_NS := by
      show dget [(sXmlns, SITEMAP_NS), ("xmlns:rs".toList, RS_NS)] sXmlns = some SITEMAP_NS; decide
    have q2 : dget root.attrib "xmlns:rs".toList = some RS_NS := by
      show dget [(sXmlns, SITEMAP_NS), ("xmlns:rs".toList, RS_NS)] "xmlns:rs".toList = some RS_NS; decide
    have q3 : qualify SITEMAP_NS RS_NS (if index then "sitemapindex".toList else "urlset".toList) = some rootTag := by
      cases index
      · show qualify SITEMAP_NS RS_NS "urlset".toList = some (smTag "urlset"); decide
      · show qualify SITEMAP_NS RS_NS "sitemapindex".toList = some (smTag "sitemapindex"); decide
    have q4 : reparseAtts [(sXmlns, SITEMAP_NS), ("xmlns:rs".toList, RS_NS)] = some [] := by decide
    have q5 : reparseText txt = some txt := by
      simp only [txt]; cases s.pretty_xml <;> decide
    unfold reparse
    rw [q1, q2]
    have q1' : dget [(sXmlns, SITEMAP_NS), ("xmlns:rs".toList, RS_NS)] sXmlns = some SITEMAP_NS := q1
    have q2' : dget [(sXmlns, SITEMAP_NS), ("xmlns:rs".toList, RS_NS)] "xmlns:rs".toList = some RS_NS := q2
    simp only [root, reparseElem, q1', q2', Option.getD_some, q3, q4, q5, hch, root']
  refine ⟨root, root', rs', e1, e2, h5, ?_⟩
  intro σ add r0 x hx cap hcap want hwant
  -- the loop
  obtain ⟨st1, k1, k2⟩ : ∃ st1 : ParseSt σ, parseLoop s add tag (les ++ mes)
      { cont := { resources := r0 } } = .ok st1 ∧ st1.cont.resources = r0 ∧ SameMap md st1.cont.md ∧
      st1.cont.ln = ls' ∧ st1.created = 0 := by
    rw [parseLoop_append, parseLoop_links s add tag ht2 l2 l4 _ rfl, ebind_ok]
    rcases m2 with ⟨hm, rfl⟩ | ⟨hm, e', rfl, hte, md', hmd', hs⟩
    · exact ⟨_, rfl, rfl, by rw [hm]; exact fun k => rfl, by simp, rfl⟩
    · refine ⟨{ cont := { resources := r0, md := md', ln := ls' }, seen_md := true }, ?_, rfl, hs, rfl, rfl⟩
      · simp only [parseLoop, parseStep, hte, if_neg (Ne.symm ht1), if_true, Bool.false_eq_true, if_false, hmd', ebind_ok,
          epure]
        rfl
  obtain ⟨k2, k3, k4, k5⟩ := k2
  obtain ⟨st2, j1, j2, j3, j4, j5⟩ := parseLoop_run s add tag h3 h4 st1 (x := x) (by rw [k2]; exact hx)
  have e3 : parseLoop s add tag (les ++ mes ++ es') { cont := { resources := r0 } } = .ok st2 := by
    rw [parseLoop_append, k1, ebind_ok]; exact j1
  have hlen : rs'.length = rs.length := h5.length_eq.symm
  have e4 : rootKind root' want = .ok index := by
    unfold rootKind
    cases index
    · rcases hwant with rfl | rfl <;>
      · show (if smTag "urlset" = smTag "urlset" then _ else _) = _
        simp
    · have : smTag "sitemapindex" ≠ smTag "urlset" := by decide
      rcases hwant with rfl | rfl <;>
      · show (if smTag "sitemapindex" = smTag "urlset" then _ else _) = _
        rw [if_neg this]
        simp [root', Elem.tag, rootTag]
  have e5 : checkCapability cap st2.cont.md = .ok st2.cont.md := by
    cases cap with
    | none => rfl
    | some c =>
      have : dget st2.cont.md kCapability = some c := by
        rw [j3, ← k3 kCapability]; exact hcap c rfl
      simp only [checkCapability, this, if_true]
  refine ⟨{ st2.cont with md := st2.cont.md }, ?_, ?_, ?_, ?_⟩
  · simp only [parseXml, e4, ebind_ok]
    show (parseLoop s add tag (les ++ mes ++ es') { cont := { resources := r0 } } >>= _) = _
    rw [e3, ebind_ok, e5, ebind_ok, epure, j5, k5, hlen, Nat.zero_add]
  · exact j2
  · show SameMap md st2.cont.md
    rw [j3]; exact k3
  · show SameLinks ln st2.cont.ln
    rw [j4, k4]; exact l5


end Resync
