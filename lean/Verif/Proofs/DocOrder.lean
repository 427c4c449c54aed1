import Verif.Spec.DocOrder
import Verif.Props.OrderSync
import Verif.Props.CapabilityList
import Verif.Proofs.ReadWF
/-
Reading documents with the entries in another order.
-/

namespace Resync
open Py Resync.Spec

/-- both fail, or both succeed with related results -/
def BothOr {ε ε' α β : Type} (R : α → β → Prop) : Except ε α → Except ε' β → Prop
  | .ok a, .ok b => R a b
  | .error _, .error _ => True
  | _, _ => False

theorem BothOr.trans {ε α : Type} {R : α → α → Prop} (ht : ∀ {a b c : α}, R a b → R b c → R a c) {x y z : Except ε α}
    (h1 : BothOr R x y) (h2 : BothOr R y z) : BothOr R x z := by
  cases x <;> cases y <;> cases z <;> simp only [BothOr] at h1 h2 ⊢
  exact ht h1 h2

theorem BothOr.bind {ε ε' α β γ δ : Type} {R : α → β → Prop} {S : γ → δ → Prop} {x : Except ε α} {y : Except ε' β}
    {f : α → Except ε γ} {g : β → Except ε' δ} (h : BothOr R x y) (hf : ∀ {a b}, R a b → BothOr S (f a) (g b)) :
    BothOr S (x >>= f) (y >>= g) := by
  cases x <;> cases y <;> simp only [BothOr] at h
  · exact trivial
  · exact hf h

theorem foldlM_both {ε α β : Type} {R : α → α → Prop} {f : α → β → Except ε α} : ∀ (l : List β),
    (∀ x ∈ l, ∀ {a b}, R a b → BothOr R (f a x) (f b x)) → ∀ {a b}, R a b → BothOr R (l.foldlM f a) (l.foldlM f b)
  | [], _, _, _, h => h
  | x :: l, hf, a, b, h => by
    rw [List.foldlM_cons, List.foldlM_cons]
    exact (hf x List.mem_cons_self h).bind (fun h => foldlM_both l (fun y hy => hf y (List.mem_cons_of_mem _ hy)) h)

theorem foldlM_perm {ε α β : Type} {R : α → α → Prop} (hs : ∀ {a b}, R a b → R b a) (ht : ∀ {a b c}, R a b → R b c → R a c)
    {f : α → β → Except ε α} {l l' : List β} (h : l.Perm l') : (∀ x ∈ l, ∀ {a b}, R a b → BothOr R (f a x) (f b x)) →
    (∀ x ∈ l, ∀ y ∈ l, ∀ {a b}, R a b → BothOr R (f a x >>= (f · y)) (f b y >>= (f · x))) →
    ∀ {a b}, R a b → BothOr R (l.foldlM f a) (l'.foldlM f b) := by
  induction h with
  | nil => intro _ _ a b h; exact h
  | cons x _ ih =>
    intro hf hc a b h
    rw [List.foldlM_cons, List.foldlM_cons]
    exact (hf x List.mem_cons_self h).bind (fun h => ih (fun y hy => hf y (List.mem_cons_of_mem _ hy))
      (fun y hy z hz => hc y (List.mem_cons_of_mem _ hy) z (List.mem_cons_of_mem _ hz)) h)
  | swap x y t =>
    intro hf hc a b h
    have e : ∀ (a : α) (x y : β), (y :: x :: t).foldlM f a = ((f a y >>= (f · x)) >>= fun c => t.foldlM f c) := by
      intro a x y
      simp only [List.foldlM_cons, bind_assoc]
    rw [e, e]
    exact (hc y (by simp) x (by simp) h).bind (fun h => foldlM_both t (fun z hz => hf z (by simp [hz])) h)
  | trans h1 _ ih1 ih2 =>
    intro hf hc a b h
    refine BothOr.trans (R := R) ht (ih1 hf hc (ht h (hs h))) (ih2 (fun x hx => hf x (h1.mem_iff.mpr hx))
      (fun x hx y hy => hc x (h1.mem_iff.mpr hx) y (h1.mem_iff.mpr hy)) h)

/-- adding entries in any order leads to related collections -/
structure Commutes {σ : Type} (R : σ → σ → Prop) (add : σ → Resource → Except SmErr σ) : Prop where
  symm : ∀ {a b}, R a b → R b a
  trans : ∀ {a b c}, R a b → R b c → R a c
  resp : ∀ r {a b}, R a b → BothOr R (add a r) (add b r)
  comm : ∀ r r' {a b}, R a b → BothOr R (add a r >>= (add · r')) (add b r' >>= (add · r))

/-- related moments of parsing -/
structure SameParse {σ : Type} (R : σ → σ → Prop) (st st' : ParseSt σ) : Prop where
  res : R st.cont.resources st'.cont.resources
  md : st.cont.md = st'.cont.md
  ln : st.cont.ln = st'.cont.ln
  pre : st.in_preamble = st'.in_preamble
  seen : st.seen_md = st'.seen_md
  created : st.created = st'.created

theorem parseLoop_fold {σ : Type} (s : Sitemap) (add : σ → Resource → Except SmErr σ) (tag : Str) : ∀ (es : List Elem) (st : ParseSt σ),
    parseLoop s add tag es st = es.foldlM (parseStep s add tag) st
  | [], _ => rfl
  | e :: es, st => by
    rw [List.foldlM_cons]
    unfold parseLoop
    congr 1
    funext st'
    exact parseLoop_fold s add tag es st'

theorem parseStep_same {σ : Type} {R : σ → σ → Prop} {add : σ → Resource → Except SmErr σ} (hc : Commutes R add) (s : Sitemap) (tag : Str) (e : Elem)
    {st st' : ParseSt σ} (h : SameParse R st st') : BothOr (SameParse R) (parseStep s add tag st e) (parseStep s add tag st' e) := by
  unfold parseStep
  rw [h.pre, h.seen, h.ln, h.created]
  split
  · cases resourceFromEtree s e with
    | error _ => exact trivial
    | ok r =>
      refine BothOr.bind (R := R) (hc.resp r h.res) ?_
      intro a b hab
      exact ⟨hab, h.md, h.ln, rfl, rfl, rfl⟩
  · split
    · split
      · split
        · exact trivial
        · cases mdFromEtree s e with
          | error _ => exact trivial
          | ok md => exact ⟨h.res, rfl, h.ln, rfl, rfl, rfl⟩
      · exact trivial
    · split
      · split
        · cases lnFromEtree e with
          | error _ => exact trivial
          | ok l => exact ⟨h.res, h.md, rfl, rfl, rfl, rfl⟩
        · exact trivial
      · exact h

theorem parseStep_comm {σ : Type} {R : σ → σ → Prop} {add : σ → Resource → Except SmErr σ} (hc : Commutes R add) (s : Sitemap) (tag : Str) (e e' : Elem)
    (he : e.tag ≠ rsTag "md" ∧ e.tag ≠ rsTag "ln") (he' : e'.tag ≠ rsTag "md" ∧ e'.tag ≠ rsTag "ln")
    {st st' : ParseSt σ} (h : SameParse R st st') :
    BothOr (SameParse R) (parseStep s add tag st e >>= (parseStep s add tag · e')) (parseStep s add tag st' e' >>= (parseStep s add tag · e)) := by
  have other : ∀ (x : Elem), x.tag ≠ tag → x.tag ≠ rsTag "md" ∧ x.tag ≠ rsTag "ln" → ∀ st, parseStep s add tag st x = .ok st := by
    intro x h1 h2 st
    unfold parseStep
    rw [if_neg h1, if_neg h2.1, if_neg h2.2]
  by_cases t1 : e.tag = tag
  · by_cases t2 : e'.tag = tag
    · have entry : ∀ (x : Elem), x.tag = tag → ∀ st, parseStep s add tag st x = (resourceFromEtree s x >>= fun r => add st.cont.resources r >>= fun rs =>
          .ok { st with cont := { st.cont with resources := rs }, in_preamble := false, created := st.created + 1 }) := by
        intro x h1 st
        unfold parseStep
        rw [if_pos h1]
        rfl
      simp only [entry e t1, entry e' t2]
      cases h1 : resourceFromEtree s e with
      | error a =>
        cases h2 : resourceFromEtree s e' with
        | error b => exact trivial
        | ok r' =>
          simp only [bind, Except.bind]
          cases add st'.cont.resources r' with
          | error _ => exact trivial
          | ok _ => exact trivial
      | ok r =>
        cases h2 : resourceFromEtree s e' with
        | error b =>
          simp only [bind, Except.bind]
          cases add st.cont.resources r with
          | error _ => exact trivial
          | ok _ => exact trivial
        | ok r' =>
          have hx := hc.comm r r' h.res
          simp only [bind, Except.bind] at hx ⊢
          cases k1 : add st.cont.resources r with
          | error a =>
            rw [k1] at hx
            simp only at hx ⊢
            cases k2 : add st'.cont.resources r' with
            | error b => exact trivial
            | ok d =>
              rw [k2] at hx
              simp only at hx ⊢
              cases k3 : add d r with
              | error b => exact trivial
              | ok d' => rw [k3] at hx; exact absurd hx (by simp [BothOr])
          | ok d1 =>
            rw [k1] at hx
            simp only at hx ⊢
            cases k2 : add st'.cont.resources r' with
            | error b =>
              rw [k2] at hx
              simp only at hx ⊢
              cases k3 : add d1 r' with
              | error b => exact trivial
              | ok d' => rw [k3] at hx; exact absurd hx (by simp [BothOr])
            | ok d2 =>
              rw [k2] at hx
              simp only at hx ⊢
              cases k3 : add d1 r' with
              | error b =>
                cases k4 : add d2 r with
                | error c => exact trivial
                | ok d' => rw [k3, k4] at hx; exact absurd hx (by simp [BothOr])
              | ok d' =>
                cases k4 : add d2 r with
                | error c => rw [k3, k4] at hx; exact absurd hx (by simp [BothOr])
                | ok d'' =>
                  rw [k3, k4] at hx
                  exact ⟨hx, h.md, h.ln, rfl, h.seen, by simp [h.created]⟩
    · have e1 : (parseStep s add tag st e >>= (parseStep s add tag · e')) = parseStep s add tag st e := by
        simp only [other e' t2 he']
        cases parseStep s add tag st e <;> rfl
      have e2 : (parseStep s add tag st' e' >>= (parseStep s add tag · e)) = parseStep s add tag st' e := by
        rw [other e' t2 he']; rfl
      rw [e1, e2]
      exact parseStep_same hc s tag e h
  · have e1 : (parseStep s add tag st e >>= (parseStep s add tag · e')) = parseStep s add tag st e' := by
      rw [other e t1 he]; rfl
    have e2 : (parseStep s add tag st' e' >>= (parseStep s add tag · e)) = parseStep s add tag st' e' := by
      simp only [other e t1 he]
      cases parseStep s add tag st' e' <;> rfl
    rw [e1, e2]
    exact parseStep_same hc s tag e' h

theorem SameParse.symm {σ : Type} {R : σ → σ → Prop} (hs : ∀ {a b}, R a b → R b a) {a b : ParseSt σ} (h : SameParse R a b) : SameParse R b a :=
  ⟨hs h.res, h.md.symm, h.ln.symm, h.pre.symm, h.seen.symm, h.created.symm⟩

theorem SameParse.trans {σ : Type} {R : σ → σ → Prop} (ht : ∀ {a b c}, R a b → R b c → R a c) {a b c : ParseSt σ} (h : SameParse R a b)
    (g : SameParse R b c) : SameParse R a c :=
  ⟨ht h.res g.res, h.md.trans g.md, h.ln.trans g.ln, h.pre.trans g.pre, h.seen.trans g.seen, h.created.trans g.created⟩

/-- documents with the entries in another order parse alike -/
theorem parseXml_reordered {σ : Type} {R : σ → σ → Prop} {add : σ → Resource → Except SmErr σ} (hc : Commutes R add) (s : Sitemap) (c : Cont σ)
    (hr : R c.resources c.resources) {root root' : Elem} (h : EntriesReordered root root') (cap : Option Str) (ix : Option Bool) :
    BothOr (fun p p' => R p.1.resources p'.1.resources ∧ p.1.md = p'.1.md ∧ p.1.ln = p'.1.ln ∧ p.2 = p'.2)
      (parseXml s add c root cap ix) (parseXml s add c root' cap ix) := by
  obtain ⟨h1, start, es, es', h2, h3, h4, h5⟩ := h
  have hk : rootKind root' ix = rootKind root ix := by unfold rootKind; rw [h1]
  unfold parseXml
  rw [hk, h2, h3]
  cases rootKind root ix with
  | error _ => exact trivial
  | ok parsed_index =>
    simp only [parseLoop_fold]
    have key : ∀ tag, BothOr (SameParse R) ((start ++ es).foldlM (parseStep s add tag) { cont := c })
        ((start ++ es').foldlM (parseStep s add tag) { cont := c }) := by
      intro tag
      rw [List.foldlM_append, List.foldlM_append]
      refine BothOr.bind (foldlM_both (R := SameParse R) start (fun e _ _ _ h => parseStep_same hc s tag e h) ⟨hr, rfl, rfl, rfl, rfl, rfl⟩) ?_
      intro a b hab
      exact foldlM_perm (R := SameParse R) (fun h => h.symm hc.symm) (fun h g => SameParse.trans (R := R) hc.trans h g) h4 (fun e _ _ _ h => parseStep_same hc s tag e h)
        (fun e he e' he' _ _ h => parseStep_comm hc s tag e e' (h5 e he) (h5 e' he') h) hab
    refine BothOr.bind (R := SameParse R) (key _) ?_
    intro a b hab
    rw [← hab.md]
    cases checkCapability cap a.cont.md with
    | error _ => exact trivial
    | ok md => exact ⟨hab.res, rfl, hab.ln, by rw [hab.created]⟩

/-- dictionaries with the same entries -/
structure SameDict (d d' : Dict Resource) : Prop where
  left : WF d
  right : WF d'
  get : ∀ u, dget d u = dget d' u

theorem SameDict.listing {d d' : Dict Resource} (h : SameDict d d') : listing d = listing d' :=
  listing_ext h.left h.right (fun u r => by rw [h.get])

theorem SameDict.keys {d d' : Dict Resource} (h : SameDict d d') : dictUris d = dictUris d' := by
  unfold dictUris
  apply sortStr_eq_of_perm
  rw [List.perm_ext_iff_of_nodup h.left.1 h.right.1]
  intro u
  rw [dkeys_mem, dkeys_mem, h.get]

theorem rlAdd_ok {d : Dict Resource} {r : Resource} : (dget d r.uri = none → rlAdd d r = .ok (dset d r.uri r)) ∧
    ((dget d r.uri).isSome → rlAdd d r = .error .dupe) := by
  unfold rlAdd dictAdd
  constructor
  · intro h; simp [h]
  · intro h; simp [h]

theorem rlAdd_commutes : Commutes SameDict rlAdd where
  symm h := ⟨h.right, h.left, fun u => (h.get u).symm⟩
  trans h g := ⟨h.left, g.right, fun u => (h.get u).trans (g.get u)⟩
  resp r a b h := by
    cases hd : dget a r.uri with
    | some x =>
      rw [rlAdd_ok.2 (by simp [hd]), rlAdd_ok.2 (by rw [← h.get]; simp [hd])]
      exact trivial
    | none =>
      rw [rlAdd_ok.1 hd, rlAdd_ok.1 (by rw [← h.get]; exact hd)]
      refine ⟨WF_dset h.left _, WF_dset h.right _, ?_⟩
      intro u
      rw [dget_dset, dget_dset, h.get]
  comm r r' a b h := by
    cases hd : dget a r.uri with
    | some x =>
      rw [rlAdd_ok.2 (by simp [hd])]
      cases hd' : dget b r'.uri with
      | some y => rw [rlAdd_ok.2 (by simp [hd'])]; exact trivial
      | none =>
        rw [rlAdd_ok.1 hd']
        show BothOr _ (Except.error _) (rlAdd (dset b r'.uri r') r)
        rw [rlAdd_ok.2 (by rw [dget_dset]; split <;> simp [← h.get, hd])]
        exact trivial
    | none =>
      rw [rlAdd_ok.1 hd]
      show BothOr _ (rlAdd (dset a r.uri r) r') _
      cases hd' : dget b r'.uri with
      | some y =>
        rw [(rlAdd_ok (d := b)).2 (by simp [hd']), (rlAdd_ok (d := dset a r.uri r)).2 (by rw [dget_dset]; split <;> simp [h.get, hd'])]
        exact trivial
      | none =>
        rw [rlAdd_ok.1 hd']
        show BothOr _ _ (rlAdd (dset b r'.uri r') r)
        by_cases e : r.uri = r'.uri
        · rw [rlAdd_ok.2 (by rw [dget_dset]; simp [e]), rlAdd_ok.2 (by rw [dget_dset]; simp [e])]
          exact trivial
        · rw [rlAdd_ok.1 (by rw [dget_dset, if_neg e, h.get]; exact hd'),
            rlAdd_ok.1 (by rw [dget_dset, if_neg (Ne.symm e), ← h.get]; exact hd)]
          refine ⟨WF_dset (WF_dset h.left _) _, WF_dset (WF_dset h.right _) _, ?_⟩
          intro u
          rw [dget_dset, dget_dset, dget_dset, dget_dset, h.get]
          by_cases e1 : u = r.uri
          · subst e1; simp [Ne.symm e]
          · by_cases e2 : u = r'.uri
            · subst e2; simp [e]
            · rw [if_neg (Ne.symm e2), if_neg (Ne.symm e1), if_neg (Ne.symm e1), if_neg (Ne.symm e2)]

theorem listAdd_commutes : Commutes List.Perm listAdd where
  symm h := h.symm
  trans h g := h.trans g
  resp r a b h := h.append_right _
  comm r r' a b h := by
    show ((a ++ [r]) ++ [r']).Perm ((b ++ [r']) ++ [r])
    rw [List.append_assoc, List.append_assoc]
    exact h.append (List.Perm.swap r' r [])

theorem liftSm_both {α β : Type} {R : α → β → Prop} {x : Except SmErr α} {y : Except SmErr β} (h : BothOr R x y) : BothOr R (liftSm x) (liftSm y) := by
  cases x <;> cases y <;> exact h

theorem liftSm_bind {α β : Type} (x : Except SmErr α) (f : α → Except SmErr β) : liftSm (x >>= f) = (liftSm x >>= fun a => liftSm (f a)) := by
  cases x <;> rfl

theorem WF_same {d : Dict Resource} (h : WF d) : SameDict d d := ⟨h, h, fun _ => rfl⟩

theorem readComponent_same {cfg cfg' : ReadCfg} (hcfg : cfg' = { cfg with docAt := cfg'.docAt }) (hdocs : SiteReordered cfg.docAt cfg'.docAt)
    (ix : Str) (isf : Bool) (u : Str) {d d' : Dict Resource} (h : SameDict d d') :
    BothOr SameDict (readComponent cfg ix isf d u) (readComponent cfg' ix isf d' u) := by
  have e1 : componentLocation cfg' ix u isf = componentLocation cfg ix u isf := by rw [hcfg]; rfl
  have e2 : cfg'.sitemap = cfg.sitemap := by rw [hcfg]
  unfold readComponent
  rw [e1, e2]
  cases componentLocation cfg ix u isf with
  | error _ => exact trivial
  | ok loc =>
    show BothOr SameDict (match cfg.docAt loc with | none => _ | some root => _) (match cfg'.docAt loc with | none => _ | some root => _)
    rcases hdocs loc with ⟨h1, h2⟩ | ⟨root, root', h1, h2, h3⟩
    · rw [h1, h2]; exact trivial
    · rw [h1, h2]
      refine BothOr.bind (liftSm_both (parseXml_reordered listAdd_commutes cfg.sitemap { resources := [] } (List.Perm.refl _) h3 none (some false))) ?_
      rintro ⟨c, i, n⟩ ⟨c', i', n'⟩ ⟨k1, -, -, -⟩
      refine foldlM_perm (R := SameDict) rlAdd_commutes.symm rlAdd_commutes.trans k1 ?_ ?_ h
      · intro r _ a b hab
        exact liftSm_both (rlAdd_commutes.resp r hab)
      · intro r _ r' _ a b hab
        have := liftSm_both (rlAdd_commutes.comm r r' hab)
        rw [liftSm_bind, liftSm_bind] at this
        exact this

theorem readList_same {cfg cfg' : ReadCfg} (hcfg : cfg' = { cfg with docAt := cfg'.docAt }) (hdocs : SiteReordered cfg.docAt cfg'.docAt)
    (uri : Str) (index_only : Bool) :
    BothOr (fun c c' => SameDict c.resources c'.resources ∧ c.md = c'.md ∧ c.ln = c'.ln)
      (readList cfg { resources := [] } uri index_only) (readList cfg' { resources := [] } uri index_only) := by
  have e1 : cfg'.sitemap = cfg.sitemap := by rw [hcfg]
  have e2 : cfg'.capability_name = cfg.capability_name := by rw [hcfg]
  have e3 : cfg'.allow_multifile = cfg.allow_multifile := by rw [hcfg]
  have e4 : cfg'.uw = cfg.uw := by rw [hcfg]
  unfold readList
  rcases hdocs uri with ⟨h1, h2⟩ | ⟨root, root', h1, h2, h3⟩
  · rw [h1, h2]; exact trivial
  · rw [h1, h2, e1, e2, e3, e4]
    refine BothOr.bind (liftSm_both (parseXml_reordered rlAdd_commutes cfg.sitemap { resources := [] } (WF_same WF_nil) h3 cfg.capability_name none)) ?_
    rintro ⟨c, i, n⟩ ⟨c', i', n'⟩ ⟨k1, k2, k3, k4⟩
    cases k4
    simp only at k1 k2 k3 ⊢
    cases i with
    | false => exact ⟨k1, k2, k3⟩
    | true =>
      simp only [if_true]
      split
      · exact trivial
      · split
        · exact ⟨k1, k2, k3⟩
        · rw [k1.keys]
          have : BothOr SameDict ((dictUris c'.resources).foldlM (readComponent cfg uri (isFileUri cfg.uw uri)) [])
              ((dictUris c'.resources).foldlM (readComponent cfg' uri (isFileUri cfg.uw uri)) []) := by
            have gen : ∀ (us : List Str) (d d' : Dict Resource), SameDict d d' → BothOr SameDict (us.foldlM (readComponent cfg uri (isFileUri cfg.uw uri)) d)
                (us.foldlM (readComponent cfg' uri (isFileUri cfg.uw uri)) d') := by
              intro us
              induction us with
              | nil => intro d d' h; exact h
              | cons u us ih =>
                intro d d' h
                rw [List.foldlM_cons, List.foldlM_cons]
                exact (readComponent_same hcfg hdocs uri _ u h).bind (fun h => ih _ _ h)
            exact gen _ _ _ (WF_same WF_nil)
          refine BothOr.bind this ?_
          intro a b hab
          exact ⟨hab, k2, k3⟩

/-- both absent, or both there with related values -/
def OptBoth {α : Type} (R : α → α → Prop) : Option α → Option α → Prop
  | some a, some b => R a b
  | none, none => True
  | _, _ => False

/-- sources whose documents say the same -/
structure SameSources (s s' : Sources) : Prop where
  rl : ∀ u, OptBoth SameDict (s.resourceList u) (s'.resourceList u)
  sd : ∀ u, OptBoth SameDict (s.sourceDescription u) (s'.sourceDescription u)
  cl : ∀ u, OptBoth SameDict (s.capabilityList u) (s'.capabilityList u)

theorem ofDocs_same {docAt docAt' : Str → Option Elem} (h : SiteReordered docAt docAt') (mapper : Mapper) (multi : Bool) (uw : Char → Bool) :
    SameSources (Sources.ofDocs docAt mapper multi uw) (Sources.ofDocs docAt' mapper multi uw) where
  rl u := by
    have := readList_same (cfg := { allow_multifile := multi, mapper := some mapper, uw := uw, docAt := docAt })
      (cfg' := { allow_multifile := multi, mapper := some mapper, uw := uw, docAt := docAt' }) rfl h u false
    show OptBoth SameDict (match readList _ _ _ with | .ok c => _ | .error _ => _) (match readList _ _ _ with | .ok c => _ | .error _ => _)
    revert this
    cases readList { allow_multifile := multi, mapper := some mapper, uw := uw, docAt := docAt } { resources := [] } u <;>
      cases readList { allow_multifile := multi, mapper := some mapper, uw := uw, docAt := docAt' } { resources := [] } u <;> intro this
    · exact trivial
    · exact this
    · exact this
    · exact this.1
  sd u := by
    show OptBoth SameDict (readDescription docAt u) (readDescription docAt' u)
    unfold readDescription
    rcases h u with ⟨h1, h2⟩ | ⟨root, root', h1, h2, h3⟩
    · rw [h1, h2]; exact trivial
    · rw [h1, h2]
      have := parseXml_reordered rlAdd_commutes {} { resources := [] } (WF_same WF_nil) h3 (some "description".toList) none
      revert this
      simp only
      cases parseXml {} rlAdd { resources := [] } root (some "description".toList) none <;>
        cases parseXml {} rlAdd { resources := [] } root' (some "description".toList) none <;> intro this
      · exact trivial
      · exact this.elim
      · exact this.elim
      · rename_i p p'
        obtain ⟨c, i, n⟩ := p
        obtain ⟨c', i', n'⟩ := p'
        obtain ⟨k1, -, -, k4⟩ := this
        cases k4
        cases i
        · exact k1
        · exact trivial
  cl u := by
    show OptBoth SameDict (readPlain docAt _ u) (readPlain docAt' _ u)
    unfold readPlain
    rcases h u with ⟨h1, h2⟩ | ⟨root, root', h1, h2, h3⟩
    · rw [h1, h2]; exact trivial
    · rw [h1, h2]
      have := parseXml_reordered rlAdd_commutes {} { resources := [] } (WF_same WF_nil) h3 (some "capabilitylist".toList) (some false)
      revert this
      simp only
      cases parseXml {} rlAdd { resources := [] } root (some "capabilitylist".toList) (some false) <;>
        cases parseXml {} rlAdd { resources := [] } root' (some "capabilitylist".toList) (some false) <;> intro this
      · exact trivial
      · exact this.elim
      · exact this.elim
      · exact this.1

theorem capabilityInfo_same {d d' : Dict Resource} (h : SameDict d d') (name : Option Str) : capabilityInfo d name = capabilityInfo d' name := by
  have hm : ∀ r, r ∈ capIter d ↔ r ∈ capIter d' := by
    intro r
    rw [C63_every_entry h.left, C63_every_entry h.right, h.get]
  have before : ∀ {d : Dict Resource}, WF d → ∀ {r r' : Resource}, capabilityInfo d name = some r → r' ∈ capIter d → r'.capability = name → r' ≠ r →
      r.uri < r'.uri := by
    intro d hd r r' h1 h2 h3 h4
    unfold capabilityInfo at h1
    rw [List.find?_eq_some_iff_append] at h1
    obtain ⟨hp, as, bs, he, hno⟩ := h1
    have hpw := capIter_pairwise hd
    rw [he] at hpw h2
    rcases List.mem_append.mp h2 with h2 | h2
    · have := hno r' h2
      simp [h3] at this
    · rcases List.mem_cons.mp h2 with h2 | h2
      · exact absurd h2 h4
      · have hb := (List.pairwise_cons.mp (List.pairwise_append.mp hpw).2.1).1 r' h2
        have hrc : r.capability = r'.capability := by
          rw [h3]; simpa using hp
        rcases hb with hb | hb | hb
        · rw [hrc] at hb; exact absurd hb (Nat.lt_irrefl _)
        · exact hb.2
        · exact absurd hrc hb.1
  have found : ∀ {d : Dict Resource} {r : Resource}, capabilityInfo d name = some r → r ∈ capIter d ∧ r.capability = name := by
    intro d r h1
    unfold capabilityInfo at h1
    exact ⟨List.mem_of_find?_eq_some h1, by simpa using List.find?_some h1⟩
  cases h1 : capabilityInfo d name with
  | none =>
    cases h2 : capabilityInfo d' name with
    | none => rfl
    | some r' =>
      have := found h2
      unfold capabilityInfo at h1
      rw [List.find?_eq_none] at h1
      exact absurd this.2 (by simpa using h1 r' ((hm r').mpr this.1))
  | some r =>
    have f1 := found h1
    cases h2 : capabilityInfo d' name with
    | none =>
      unfold capabilityInfo at h2
      rw [List.find?_eq_none] at h2
      exact absurd f1.2 (by simpa using h2 r ((hm r).mp f1.1))
    | some r' =>
      have f2 := found h2
      by_cases e : r = r'
      · rw [e]
      · have a := before h.left h1 ((hm r').mpr f2.1) f2.2 (Ne.symm e)
        have b := before h.right h2 ((hm r).mp f1.1) f1.2 e
        exact absurd (lt_trans a b) (lt_irrefl _)

/-- the same requests and the same error, or the same entries -/
def SameFound (f f' : Found (Dict Resource)) : Prop :=
  f.1 = f'.1 ∧ match f.2, f'.2 with
    | .ok d, .ok d' => SameDict d d'
    | .error e, .error e' => e = e'
    | _, _ => False

theorem readResourceList_same {s s' : Sources} (h : SameSources s s') (u : Str) : SameFound (readResourceList s u) (readResourceList s' u) := by
  have := h.rl u
  unfold readResourceList
  revert this
  cases s.resourceList u <;> cases s'.resourceList u <;> intro this
  · exact ⟨rfl, rfl⟩
  · exact this.elim
  · exact this.elim
  · exact ⟨rfl, this⟩

theorem findFromCapabilityList_same {s s' : Sources} (h : SameSources s s') (u : Str) : findFromCapabilityList s u = findFromCapabilityList s' u := by
  have := h.cl u
  unfold findFromCapabilityList
  revert this
  cases s.capabilityList u <;> cases s'.capabilityList u <;> intro this
  · rfl
  · exact this.elim
  · exact this.elim
  · simp only [capabilityInfo_same this]

theorem findFromSourceDescription_same {s s' : Sources} (h : SameSources s s') (u : Str) :
    findFromSourceDescription s u = findFromSourceDescription s' u := by
  have := h.sd u
  unfold findFromSourceDescription
  revert this
  cases s.sourceDescription u <;> cases s'.sourceDescription u <;> intro this
  · rfl
  · exact this.elim
  · exact this.elim
  · rename_i d d'
    have e : findFromSourceDescription.listing' d = findFromSourceDescription.listing' d' := this.listing
    simp only [e, findFromCapabilityList_same h]

theorem thenRead_same {s s' : Sources} (h : SameSources s s') (f : Found Str) : SameFound (thenRead s f) (thenRead s' f) := by
  unfold thenRead
  cases f.2 with
  | error e => exact ⟨rfl, rfl⟩
  | ok u =>
    obtain ⟨h1, h2⟩ := readResourceList_same h u
    exact ⟨by simp only [h1], h2⟩

theorem tryEach_same {g g' : Str → Found (Dict Resource)} (hg : ∀ u, SameFound (g u) (g' u)) : ∀ (us : List Str) (a a' : Found (Dict Resource)),
    SameFound a a' → SameFound (tryEach g us a) (tryEach g' us a')
  | [], _, _, h => h
  | u :: us, a, a', h => by
    have hu := hg u
    have ih := tryEach_same hg us a a' h
    unfold tryEach
    obtain ⟨h1, h2⟩ := hu
    rcases hx : g u with ⟨l, x⟩
    rcases hx' : g' u with ⟨l', x'⟩
    rw [hx, hx'] at h1 h2
    simp only at h1 h2
    subst h1
    cases x with
    | ok d =>
      cases x' with
      | ok d' => exact ⟨rfl, h2⟩
      | error e => exact h2.elim
    | error e =>
      cases x' with
      | ok d' => exact h2.elim
      | error e' =>
        simp only at h2
        subst h2
        cases e with
        | error => exact ⟨by simp only [ih.1], ih.2⟩
        | fatal => exact ⟨rfl, rfl⟩
        | uncaught => exact ⟨rfl, rfl⟩

theorem findResourceList_same {s s' : Sources} (h : SameSources s s') (c : DiscCfg) : SameFound (findResourceList s c) (findResourceList s' c) := by
  unfold findResourceList
  split
  · exact readResourceList_same h _
  split
  · rw [findFromCapabilityList_same h]; exact thenRead_same h _
  split
  · exact ⟨rfl, rfl⟩
  split
  · exact ⟨rfl, rfl⟩
  simp only
  split
  · apply tryEach_same
    · intro u
      rw [findFromSourceDescription_same h]
      exact thenRead_same h _
    · split
      · exact tryEach_same (fun u => readResourceList_same h _) _ _ _ ⟨rfl, rfl⟩
      · exact ⟨rfl, rfl⟩
  · exact ⟨rfl, rfl⟩

end Resync
