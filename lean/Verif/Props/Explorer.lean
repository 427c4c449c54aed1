import Verif.Proofs.ExplorerOptions
/-
C66, C68-C71: the explorer.
-/

namespace Resync
open Py Resync.Spec

/-- C66: after a tour, however long, one is at the same document as before it, and back is on offer there as it was before. -/
theorem C66_back_returns (w : ExpWorld) (c : DiscCfg) (inputs : List Str) (pre mid post : List Visit) (v v' : Visit) (e : Ending)
    (h : explore w c inputs = .ok (pre ++ v :: mid ++ v' :: post, e)) (ht : Tour (v :: mid)) :
    v'.xr = v.xr ∧ v'.show_back = v.show_back := by
  unfold explore at h
  cases hs : explorerStarts w c with
  | error x => rw [hs] at h; simp at h
  | ok starts =>
    rw [hs] at h
    simp only [Except.ok.injEq] at h
    cases starts with
    | nil => exact absurd rfl (explorerStarts_ne hs)
    | cons s ss =>
      rw [exploreStarts_cons, List.append_assoc, List.cons_append] at h
      obtain ⟨n', hist', inputs', h1, h2, -, -⟩ := at_visit w v (mid ++ v' :: post) e (s :: ss) pre 0 0 [s] inputs
        (by simpa using h) rfl (by simp)
      generalize List.drop _ _ = ss' at h1
      have key : ∃ n' inputs', exploreAll w n' (v.xr :: hist') ss' inputs' = (v' :: post, e) := by
        rcases exploreAll_cases w n' v.xr hist' ss' inputs' with
          ⟨-, e1⟩ | ⟨rest, ha, e1⟩ | ⟨rest, ha, e1⟩ | ⟨k', r, rest, ha, -, e1⟩ | ⟨k', r, rest, x, ha, -, e1⟩ <;> rw [e1] at h1 <;>
        simp only [Prod.mk.injEq, List.cons.injEq, List.nil_eq, List.append_eq_nil_iff, reduceCtorEq, and_false, false_and] at h1
        · obtain ⟨⟨hv, -⟩, -⟩ := h1
          have hw : weight v = -1 := (congrArg weight hv).symm
          by_cases hm : mid = []
          · have := ht.1
            rw [hm] at this
            simp [net, hw] at this
          · have := ht.2 [v] (by simp) (by simp) (by simpa using Ne.symm hm)
            simp [net, hw] at this
        · obtain ⟨⟨hv, h3⟩, h4⟩ := h1
          have hw : weight v = 1 := (congrArg weight hv).symm
          have hnet : ∀ l, net (v :: l) = 1 + net l := fun l => by simp [net, hw]
          refine stack_pop w (v.xr :: hist') ss' e (v' :: post) mid (n' + 1) [x] rest (Prod.ext h3 h4) ?_ ?_
          · have := ht.1
            rw [hnet] at this
            simp only [List.length_singleton, Nat.cast_one]; omega
          · intro p' h5 h6
            have := ht.2 (v :: p') (List.prefix_cons_inj _ |>.mpr h5) (by simp) (by simpa using h6)
            rw [hnet] at this
            simp only [List.length_singleton, Nat.cast_one]; omega
      obtain ⟨n2, inputs2, h5⟩ := key
      rw [h2]
      rcases exploreAll_cases w n2 v.xr hist' ss' inputs2 with
        ⟨-, e1⟩ | ⟨rest, ha, e1⟩ | ⟨rest, ha, e1⟩ | ⟨k', r, rest, ha, -, e1⟩ | ⟨k', r, rest, x, ha, -, e1⟩ <;> rw [e1] at h5 <;>
      simp only [Prod.mk.injEq, List.cons.injEq] at h5 <;> simp [← h5.1.1]

/-- C66: a document without back on offer is a starting point: the first one to begin with, and the next one each time the user has
gone back from such a document. -/
theorem C66_next_start (w : ExpWorld) (c : DiscCfg) (inputs : List Str) (starts : List XResource) (pre post : List Visit) (v : Visit)
    (e : Ending) (hs : explorerStarts w c = .ok starts) (h : explore w c inputs = .ok (pre ++ v :: post, e))
    (hb : v.show_back = false) : starts[pre.countP leftStart]? = some v.xr := by
  unfold explore at h
  rw [hs] at h
  simp only [Except.ok.injEq] at h
  cases starts with
  | nil => exact absurd rfl (explorerStarts_ne hs)
  | cons s ss =>
    rw [exploreStarts_cons] at h
    obtain ⟨n', hist', inputs', -, h2, h3, -⟩ := at_visit w v post e (s :: ss) pre 0 0 [s] inputs
      (by simpa using h) rfl (by simp)
    rw [hb] at h2
    have : hist' = [] := by simpa using h2.symm
    rw [this] at h3
    rw [Nat.zero_add] at h3
    rw [← h3]; rfl

/-- C66: going back from the first document of every starting point ends the exploration, and it does not end like this before. -/
theorem C66_done (w : ExpWorld) (c : DiscCfg) (inputs : List Str) (starts : List XResource) (vs : List Visit) (e : Ending)
    (hs : explorerStarts w c = .ok starts) (h : explore w c inputs = .ok (vs, e)) :
    e = .done ↔ vs.countP leftStart = starts.length := by
  unfold explore at h
  rw [hs] at h
  simp only [Except.ok.injEq] at h
  cases starts with
  | nil => exact absurd rfl (explorerStarts_ne hs)
  | cons s ss =>
    rw [exploreStarts_cons] at h
    have := at_end w e (s :: ss) vs 0 0 [s] inputs (by simpa using h) (by simp) (by simp)
    constructor
    · intro he; simpa using this.1 he
    · intro hc
      by_contra he
      have := this.2 he
      omega

/-- From the lines typed so far to the further ones -/
theorem explore_more {w : ExpWorld} {c : DiscCfg} {inputs : List Str} {vs : List Visit} {v : Visit}
    (h : explore w c inputs = .ok (vs ++ [v], .eof)) :
    ∃ n' hist' ss', v.shown = display w n' v.xr ∧ v.show_back = !hist'.isEmpty ∧ v.answer = none ∧
      ∀ more, explore w c (inputs ++ more) =
        .ok (vs ++ (exploreAll w n' (v.xr :: hist') ss' more).1, (exploreAll w n' (v.xr :: hist') ss' more).2) := by
  unfold explore at h ⊢
  cases hs : explorerStarts w c with
  | error x => rw [hs] at h; simp at h
  | ok starts =>
    rw [hs] at h
    simp only [Except.ok.injEq] at h
    cases starts with
    | nil => exact absurd rfl (explorerStarts_ne hs)
    | cons s ss =>
      rw [exploreStarts_cons] at h
      obtain ⟨n', hist', ss', h1, h2, h3, h4⟩ := type_more w vs v 0 [s] ss inputs h (by simp)
      refine ⟨n', hist', ss', h1, h2, h3, fun more => ?_⟩
      simp only
      rw [exploreStarts_cons, h4 more]

/-- C66: whenever the explorer asks (the input so far has been used up), q ends the exploration; nothing typed after it is read. -/
theorem C66_quit (w : ExpWorld) (c : DiscCfg) (inputs more : List Str) (vs : List Visit) (v : Visit)
    (h : explore w c inputs = .ok (vs ++ [v], .eof)) :
    explore w c (inputs ++ ['q'] :: more) = .ok (vs ++ [{ v with answer := some .quit }], .quit) := by
  obtain ⟨n', hist', ss', h1, h2, h3, h4⟩ := explore_more h
  rw [h4]
  have ha : ask (display w n' v.xr).options (['q'] :: more) = some (.quit, more) := by
    rw [ask, (goodKeys_display w n' v.xr).1]; rfl
  have e1 : exploreAll w n' (v.xr :: hist') ss' (['q'] :: more)
      = ([⟨v.xr, !hist'.isEmpty, display w n' v.xr, some .quit⟩], .quit) := by
    rw [exploreAll_cons, exploreUri, ha]
  rw [e1, ← h1, ← h2]

/-- C66: whenever the explorer asks, b is accepted as going back, also where it is not offered. -/
theorem C66_back (w : ExpWorld) (c : DiscCfg) (inputs more : List Str) (vs : List Visit) (v : Visit)
    (h : explore w c inputs = .ok (vs ++ [v], .eof)) :
    ∃ post e, explore w c (inputs ++ ['b'] :: more) = .ok (vs ++ { v with answer := some .back } :: post, e) := by
  obtain ⟨n', hist', ss', h1, h2, h3, h4⟩ := explore_more h
  rw [h4]
  have ha : ask (display w n' v.xr).options (['b'] :: more) = some (.back, more) := by
    rw [ask, (goodKeys_display w n' v.xr).2]; rfl
  refine ⟨(exploreAll w (n' + 1) hist' ss' more).1, (exploreAll w (n' + 1) hist' ss' more).2, ?_⟩
  have e1 : exploreAll w n' (v.xr :: hist') ss' (['b'] :: more)
      = (⟨v.xr, !hist'.isEmpty, display w n' v.xr, some .back⟩ :: (exploreAll w (n' + 1) hist' ss' more).1,
          (exploreAll w (n' + 1) hist' ss' more).2) := by
    rw [exploreAll_cons, exploreUri, ha]
  rw [e1, ← h1, ← h2]

/-- Typing an option -/
theorem explore_follow {w : ExpWorld} {c : DiscCfg} {inputs : List Str} {vs : List Visit} {v : Visit} {key : Str} {r : Resource}
    (more : List Str) (h : explore w c inputs = .ok (vs ++ [v], .eof)) (hk : dget v.shown.options key = some r) :
    (∃ v' post e n x, explore w c (inputs ++ key :: more) = .ok (vs ++ { v with answer := some (.follow key r) } :: v' :: post, e) ∧
      nextResource v.shown.capability r = some x ∧ v'.xr = x ∧ v'.shown = display w n v'.xr ∧ v'.show_back = true) ∨
    (explore w c (inputs ++ key :: more) = .ok (vs ++ [{ v with answer := some (.follow key r) }], .crash) ∧
      nextResource v.shown.capability r = none) := by
  obtain ⟨n', hist', ss', h1, h2, h3, h4⟩ := explore_more h
  rw [h4, h1, h2]
  rw [h1] at hk
  have ha : ask (display w n' v.xr).options (key :: more) = some (.follow key r, more) := by
    rw [ask, hk]
  rcases exploreAll_cases w n' v.xr hist' ss' (key :: more) with
    ⟨ha', e1⟩ | ⟨rest, ha', e1⟩ | ⟨rest, ha', e1⟩ | ⟨k', r', rest, ha', hx, e1⟩ | ⟨k', r', rest, x, ha', hx, e1⟩ <;>
  rw [ha] at ha' <;> cases ha'
  · right
    rw [e1]
    exact ⟨rfl, hx⟩
  · left
    rw [e1]
    rcases exploreAll_cases w (n' + 1) x (v.xr :: hist') ss' more with
      ⟨ha', e2⟩ | ⟨rest, ha', e2⟩ | ⟨rest, ha', e2⟩ | ⟨k', r', rest, ha', hx, e2⟩ | ⟨k', r', rest, x, ha', hx, e2⟩ <;>
    rw [e2] <;> exact ⟨_, _, _, n' + 1, _, rfl, ‹_›, rfl, rfl, rfl⟩

theorem nextResource_none {cap : Option Str} {r : Resource} (h : nextResource cap r = none) :
    datetimeToStr? r.timestamp false = none := by
  unfold nextResource at h
  split at h
  · assumption
  · cases h

theorem nextResource_some {cap : Option Str} {r : Resource} {x : XResource} (h : nextResource cap r = some x) :
    ∃ lm, datetimeToStr? r.timestamp false = some lm ∧ x = {
      uri := r.uri
      caps := some (nextCaps cap r)
      checks := some { content_length := r.length, last_modified := lm, content_type := r.mime_type } } := by
  unfold nextResource at h
  split at h
  · cases h
  · rename_i lm hl
    cases h
    exact ⟨lm, hl, rfl⟩

/-- C68: the options shown for a document are those for its links and its listed resources, all of them (or the first 20 of more
than 21), and each has the URI given in the document, resolved against the document's. -/
theorem C68_options (w : ExpWorld) (c : DiscCfg) (inputs : List Str) (pre post : List Visit) (v : Visit) (e : Ending)
    (o : Dict Resource) (cap : Str) (h : explore w c inputs = .ok (pre ++ v :: post, e)) (hv : v.shown = .summary o cap) :
    ∃ n doc index, DocumentAt w n v.xr.uri doc index ∧
      (∀ key r, dget o key = some r →
        (∃ k l, Listed doc.resources k l ∧ key = natStr (k + 1) ∧ urljoin v.xr.uri l.uri = some r.uri ∧
          r.timestamp = l.timestamp ∧ r.length = l.length ∧ r.mime_type = l.mime_type) ∨
        (∃ rel href, (key, rel) ∈ linkKeys ∧ LinksTo doc.ln rel href ∧ urljoin v.xr.uri href = some r.uri)) ∧
      (∀ k l, Listed doc.resources k l → ∃ r, dget o (natStr (k + 1)) = some r ∧ urljoin v.xr.uri l.uri = some r.uri ∧
        r.timestamp = l.timestamp ∧ r.length = l.length ∧ r.mime_type = l.mime_type) ∧
      (∀ key rel href, (key, rel) ∈ linkKeys → LinksTo doc.ln rel href →
        ∃ r, dget o key = some r ∧ urljoin v.xr.uri href = some r.uri) := by
  obtain ⟨n, hn⟩ : ∃ n, v.shown = display w n v.xr := by
    unfold explore at h
    cases hs : explorerStarts w c with
    | error x => rw [hs] at h; simp at h
    | ok starts =>
      rw [hs] at h
      simp only [Except.ok.injEq] at h
      cases starts with
      | nil => exact absurd rfl (explorerStarts_ne hs)
      | cons s ss =>
        rw [exploreStarts_cons] at h
        obtain ⟨n', hist', inputs', -, -, -, h4⟩ := at_visit w v post e (s :: ss) pre 0 0 [s] inputs
          (by simpa using h) rfl (by simp)
        exact ⟨n', h4⟩
  rw [hv] at hn
  obtain ⟨root, doc, index, created, -, hdoc, hp, hsum⟩ := display_summary hn.symm
  obtain ⟨-, o1, o2, o3, l1, l2, l3, he⟩ := showSummary_steps hsum
  have hget := entryOptions_get _ _ _ _ he
  obtain ⟨a1, b1, c1⟩ := linkOption_spec l1
  obtain ⟨a2, b2, c2⟩ := linkOption_spec l2
  obtain ⟨a3, b3, c3⟩ := linkOption_spec l3
  have hlisted : ∀ k l, Listed doc.resources k l ↔
      ∃ hk : k < (doc.resources.take (toShow doc.resources.length)).length,
        (doc.resources.take (toShow doc.resources.length))[k] = l := by
    intro k l
    unfold Listed toShow
    rw [List.getElem?_eq_some_iff]
    constructor
    · rintro ⟨⟨hk, hl⟩, hlt⟩
      refine ⟨?_, by rw [List.getElem_take]; exact hl⟩
      rw [List.length_take]
      split <;> omega
    · rintro ⟨hk, hl⟩
      rw [List.getElem_take] at hl
      rw [List.length_take] at hk
      refine ⟨⟨by omega, hl⟩, ?_⟩
      split at hk <;> omega
  have hnum : ∀ (ch : Char), isDigit ch = false → dget o [ch] = dget o3 [ch] := by
    intro ch hch
    exact (hget [ch]).2 (fun k _ hne => natStr_ne_char _ hch hne.symm)
  refine ⟨n, doc, index, ⟨root, created, hdoc, hp⟩, ?_, ?_, ?_⟩
  · intro key r hkey
    by_cases hk : ∃ k, k < (doc.resources.take (toShow doc.resources.length)).length ∧ key = natStr (k + 1)
    · obtain ⟨k, hk, rfl⟩ := hk
      left
      obtain ⟨r', h1, h2⟩ := (hget (natStr (k + 1))).1 k hk (by rw [Nat.zero_add])
      rw [hkey] at h1
      cases h1
      obtain ⟨h3, h4, h5, h6, -⟩ := entryOption_spec h2
      exact ⟨k, _, (hlisted k _).mpr ⟨hk, rfl⟩, rfl, h3, h4, h5, h6⟩
    · right
      have ho : dget o key = dget o3 key := (hget key).2 (fun k h1 h2 => hk ⟨k, h1, by rw [Nat.zero_add] at h2; exact h2⟩)
      rw [ho] at hkey
      have look : ∀ (rel : Str), (∃ href, LinksTo doc.ln rel href) ∨
          (∀ l href, findLink doc.ln rel = some l → dget l sHref ≠ some href) := by
        intro rel
        by_cases hh : ∃ href, LinksTo doc.ln rel href
        · exact .inl hh
        · exact .inr (fun l href h1 h2 => hh ⟨href, l, h1, h2⟩)
      by_cases hi : key = ['i']
      · subst hi
        rcases look "index".toList with ⟨href, l, h1, h2⟩ | hno
        · obtain ⟨full, h3, h4⟩ := b3 l href h1 h2
          rw [hkey] at h4
          cases h4
          exact ⟨"index".toList, href, by decide, ⟨l, h1, h2⟩, h3⟩
        · rw [c3 hno, a2 _ (by decide), a1 _ (by decide)] at hkey
          cases hkey
      · rw [a3 _ hi] at hkey
        by_cases hu : key = ['u']
        · subst hu
          rcases look "up".toList with ⟨href, l, h1, h2⟩ | hno
          · obtain ⟨full, h3, h4⟩ := b2 l href h1 h2
            rw [hkey] at h4
            cases h4
            exact ⟨"up".toList, href, by decide, ⟨l, h1, h2⟩, h3⟩
          · rw [c2 hno, a1 _ (by decide)] at hkey
            cases hkey
        · rw [a2 _ hu] at hkey
          by_cases hd : key = ['d']
          · subst hd
            rcases look "describedby".toList with ⟨href, l, h1, h2⟩ | hno
            · obtain ⟨full, h3, h4⟩ := b1 l href h1 h2
              rw [hkey] at h4
              cases h4
              exact ⟨"describedby".toList, href, by decide, ⟨l, h1, h2⟩, h3⟩
            · rw [c1 hno] at hkey
              cases hkey
          · rw [a1 _ hd] at hkey
            cases hkey
  · intro k l hl
    obtain ⟨hk, rfl⟩ := (hlisted k l).mp hl
    obtain ⟨r', h1, h2⟩ := (hget (natStr (k + 1))).1 k hk (by rw [Nat.zero_add])
    obtain ⟨h3, h4, h5, h6, -⟩ := entryOption_spec h2
    exact ⟨r', h1, h3, h4, h5, h6⟩
  · intro key rel href hkey hl
    obtain ⟨l, h1, h2⟩ := hl
    simp only [linkKeys, List.mem_cons, Prod.mk.injEq, List.not_mem_nil, or_false] at hkey
    rcases hkey with ⟨rfl, rfl⟩ | ⟨rfl, rfl⟩ | ⟨rfl, rfl⟩
    · obtain ⟨full, h3, h4⟩ := b1 l href h1 h2
      exact ⟨_, by rw [show "d".toList = ['d'] from rfl, hnum 'd' (by decide), a3 _ (by decide), a2 _ (by decide)]; exact h4, h3⟩
    · obtain ⟨full, h3, h4⟩ := b2 l href h1 h2
      exact ⟨_, by rw [show "u".toList = ['u'] from rfl, hnum 'u' (by decide), a3 _ (by decide)]; exact h4, h3⟩
    · obtain ⟨full, h3, h4⟩ := b3 l href h1 h2
      exact ⟨_, by rw [show "i".toList = ['i'] from rfl, hnum 'i' (by decide)]; exact h4, h3⟩

/-- C68: typing an option leads to the URI of the option with back on offer (or to the exception of C71). -/
theorem C68_follow (w : ExpWorld) (c : DiscCfg) (inputs more : List Str) (vs : List Visit) (v : Visit) (key : Str) (r : Resource)
    (h : explore w c inputs = .ok (vs ++ [v], .eof)) (hk : dget v.shown.options key = some r) :
    (∃ v' post e, explore w c (inputs ++ key :: more) = .ok (vs ++ { v with answer := some (.follow key r) } :: v' :: post, e) ∧
      v'.xr.uri = r.uri ∧ v'.show_back = true) ∨
    (explore w c (inputs ++ key :: more) = .ok (vs ++ [{ v with answer := some (.follow key r) }], .crash) ∧
      datetimeToStr? r.timestamp false = none) := by
  rcases explore_follow more h hk with ⟨v', post, e, n, x, h1, h2, h3, h4, h5⟩ | ⟨h1, h2⟩
  · obtain ⟨lm, -, rfl⟩ := nextResource_some h2
    exact .inl ⟨v', post, e, h1, by rw [h3], h5⟩
  · exact .inr ⟨h1, nextResource_none h2⟩

/-- C68: any other line leaves everything as it was. -/
theorem C68_other_input (w : ExpWorld) (c : DiscCfg) (inputs more : List Str) (vs : List Visit) (v : Visit) (line : Str)
    (h : explore w c inputs = .ok (vs ++ [v], .eof)) (hk : dget v.shown.options line = none) (hq : line ≠ "q".toList)
    (hb : line ≠ "b".toList) : explore w c (inputs ++ line :: more) = explore w c (inputs ++ more) := by
  obtain ⟨n', hist', ss', h1, h2, h3, h4⟩ := explore_more h
  rw [h4, h4]
  rw [h1] at hk
  have : exploreAll w n' (v.xr :: hist') ss' (line :: more) = exploreAll w n' (v.xr :: hist') ss' more := by
    apply uri_irrelevant
    rw [ask, hk]
    simp only
    rw [if_neg (by exact hq), if_neg (by exact hb)]
  rw [this]

/-- C71, the part that holds: the exploration ends with an exception other than the end of the input only after the user followed
an entry whose modification time cannot be written as a date.  Missing: that exception, see `C71_violated`. -/
theorem C71_partial (w : ExpWorld) (c : DiscCfg) (inputs : List Str) (vs : List Visit) (e : Ending)
    (h : explore w c inputs = .ok (vs, e)) :
    (e = .quit ∧ ∃ v, vs.getLast? = some v ∧ v.answer = some .quit) ∨
    (e = .done) ∨
    (e = .eof ∧ ∃ v, vs.getLast? = some v ∧ v.answer = none) ∨
    (e = .crash ∧ ∃ v key r, vs.getLast? = some v ∧ v.answer = some (.follow key r) ∧ datetimeToStr? r.timestamp false = none) := by
  unfold explore at h
  cases hs : explorerStarts w c with
  | error x => rw [hs] at h; simp at h
  | ok starts =>
    rw [hs] at h
    simp only [Except.ok.injEq] at h
    cases starts with
    | nil => exact absurd rfl (explorerStarts_ne hs)
    | cons s ss =>
      rw [exploreStarts_cons] at h
      clear hs
      have hne : [s] ≠ [] := by simp
      generalize [s] = hist at h hne
      generalize 0 = n at h
      induction vs generalizing n hist ss inputs with
      | nil =>
        cases hist with
        | nil => exact absurd rfl hne
        | cons xr hist =>
          rcases exploreAll_cases w n xr hist ss inputs with
            ⟨-, e1⟩ | ⟨rest, ha, e1⟩ | ⟨rest, ha, e1⟩ | ⟨k', r, rest, ha, -, e1⟩ | ⟨k', r, rest, x, ha, -, e1⟩ <;> rw [e1] at h <;>
          simp at h
      | cons u vs ih =>
        cases hist with
        | nil => exact absurd rfl hne
        | cons xr hist =>
          rcases exploreAll_cases w n xr hist ss inputs with
            ⟨-, e1⟩ | ⟨rest, ha, e1⟩ | ⟨rest, ha, e1⟩ | ⟨k', r, rest, ha, hx, e1⟩ | ⟨k', r, rest, x, ha, -, e1⟩ <;> rw [e1] at h <;>
          simp only [Prod.mk.injEq, List.cons.injEq, List.nil_eq] at h
          · obtain ⟨⟨rfl, rfl⟩, rfl⟩ := h
            exact .inr (.inr (.inl ⟨rfl, _, rfl, rfl⟩))
          · obtain ⟨⟨rfl, rfl⟩, rfl⟩ := h
            exact .inl ⟨rfl, _, rfl, rfl⟩
          · obtain ⟨⟨rfl, h1⟩, h2⟩ := h
            have lift : ∀ hh ss', hh ≠ [] → exploreAll w (n + 1) hh ss' rest = (vs, e) → _ :=
              fun hh ss' a b => ih rest ss' hh a (n + 1) b
            have glast : ∀ (u : Visit), vs ≠ [] → (u :: vs).getLast? = vs.getLast? := by
              intro u hv
              cases vs with
              | nil => exact absurd rfl hv
              | cons a b => simp
            have fin : ∀ hh ss', hh ≠ [] → exploreAll w (n + 1) hh ss' rest = (vs, e) → vs ≠ [] := by
              intro hh ss' a b hv
              cases hh with
              | nil => exact a rfl
              | cons y hh =>
                rcases exploreAll_cases w (n + 1) y hh ss' rest with
                  ⟨-, e1⟩ | ⟨rest, ha, e1⟩ | ⟨rest, ha, e1⟩ | ⟨k', r, rest, ha, -, e1⟩ | ⟨k', r, rest, x, ha, -, e1⟩ <;>
                rw [e1, hv] at b <;> simp at b
            cases hist with
            | nil =>
              rw [exploreAll_nil] at h1 h2
              cases ss with
              | nil => simp [exploreStarts] at h2; exact .inr (.inl h2.symm)
              | cons s ss =>
                rw [exploreStarts_cons] at h1 h2
                rw [glast _ (fin [s] ss (by simp) (Prod.ext h1 h2))]
                exact lift [s] ss (by simp) (Prod.ext h1 h2)
            | cons x' hist =>
              rw [glast _ (fin (x' :: hist) ss (by simp) (Prod.ext h1 h2))]
              exact lift (x' :: hist) ss (by simp) (Prod.ext h1 h2)
          · obtain ⟨⟨rfl, rfl⟩, rfl⟩ := h
            refine .inr (.inr (.inr ⟨rfl, _, k', r, rfl, rfl, ?_⟩))
            unfold nextResource at hx
            split at hx
            · assumption
            · cases hx
          · obtain ⟨⟨rfl, h1⟩, h2⟩ := h
            have := ih rest ss (x :: xr :: hist) (by simp) (n + 1) (Prod.ext h1 h2)
            have hv : vs ≠ [] := by
              intro hv
              rcases exploreAll_cases w (n + 1) x (xr :: hist) ss rest with
                ⟨-, e1⟩ | ⟨rest, ha, e1⟩ | ⟨rest, ha, e1⟩ | ⟨k', r, rest, ha, -, e1⟩ | ⟨k', r, rest, x, ha, -, e1⟩ <;>
              rw [e1, hv] at h1 <;> simp at h1
            have glast : ∀ (u : Visit), (u :: vs).getLast? = vs.getLast? := by
              intro u
              cases vs with
              | nil => exact absurd rfl hv
              | cons a b => simp
            rw [glast]
            exact this

/-- C69, the part that holds: from a document that is not itself a resource list, change list, resource dump or change dump, typing
any option but the describedby link (and entries marked as capability "resource") shows the document at the URI of the option, the
same way as if the exploration had started there.  Missing: the up and index links of those four, `C69_violated`. -/
theorem C69_partial (w : ExpWorld) (c : DiscCfg) (inputs more : List Str) (vs : List Visit) (v : Visit) (key : Str) (r : Resource)
    (o : Dict Resource) (cap : Str) (h : explore w c inputs = .ok (vs ++ [v], .eof)) (hv : v.shown = .summary o cap)
    (hcap : cap ≠ "resourcelist".toList ∧ cap ≠ "changelist".toList ∧ cap ≠ "resourcedump".toList ∧ cap ≠ "changedump".toList)
    (hk : dget o key = some r) (hr : r.capability ≠ some "resource".toList) (ht : datetimeToStr? r.timestamp false ≠ none) :
    ∃ v' post e n, explore w c (inputs ++ key :: more)
        = .ok (vs ++ { v with answer := some (.follow key r) } :: v' :: post, e) ∧
      v'.shown = display w n { uri := r.uri } := by
  rcases explore_follow (key := key) (r := r) more h (by rw [hv]; exact hk) with ⟨v', post, e, n, x, h1, h2, h3, h4, h5⟩ | ⟨h1, h2⟩
  · obtain ⟨lm, -, rfl⟩ := nextResource_some h2
    refine ⟨v', post, e, n, h1, ?_⟩
    rw [h4, h3]
    have hne : nextCaps v.shown.capability r ≠ .resource := by
      unfold nextCaps
      rw [hv]
      cases hc : r.capability with
      | none =>
        have : ((Shown.summary o cap).capability.getD []) ∉ listKinds := by
          simp only [Shown.capability, Option.getD_some, listKinds, List.mem_cons, List.not_mem_nil, or_false]
          rintro (h | h | h | h)
          · exact hcap.1 h
          · exact hcap.2.1 h
          · exact hcap.2.2.1 h
          · exact hcap.2.2.2 h
        simp only
        rw [if_neg this]
        simp
      | some k =>
        simp only
        rw [if_neg (by rintro rfl; exact hr hc)]
        simp
    unfold display
    rw [if_neg (by simpa using hne), if_neg (by simp)]
  · exact absurd (nextResource_none h2) ht

/-- C69: the resources in such a list (without a capability of their own) and describedby links are examined with HEAD. -/
theorem C69_head (w : ExpWorld) (c : DiscCfg) (inputs more : List Str) (vs : List Visit) (v : Visit) (key : Str) (r : Resource)
    (o : Dict Resource) (cap : Str) (h : explore w c inputs = .ok (vs ++ [v], .eof)) (hv : v.shown = .summary o cap)
    (hk : dget o key = some r)
    (hr : r.capability = some "resource".toList ∨ r.capability = none ∧
      (cap = "resourcelist".toList ∨ cap = "changelist".toList ∨ cap = "resourcedump".toList ∨ cap = "changedump".toList))
    (ht : datetimeToStr? r.timestamp false ≠ none) :
    ∃ v' post e, explore w c (inputs ++ key :: more) = .ok (vs ++ { v with answer := some (.follow key r) } :: v' :: post, e) ∧
      v'.shown.options = [] ∧ v'.shown.capability = none := by
  rcases explore_follow (key := key) (r := r) more h (by rw [hv]; exact hk) with ⟨v', post, e, n, x, h1, h2, h3, h4, h5⟩ | ⟨h1, h2⟩
  · obtain ⟨lm, -, rfl⟩ := nextResource_some h2
    refine ⟨v', post, e, h1, ?_⟩
    have he : nextCaps v.shown.capability r = .resource := by
      unfold nextCaps
      rcases hr with hr | ⟨hr, hc⟩
      · rw [hr]; exact if_pos rfl
      · rw [hr, hv]
        simp only
        rw [if_pos]
        simp only [Shown.capability, Option.getD_some, listKinds, List.mem_cons, List.not_mem_nil, or_false]
        exact hc
    rw [h4, h3]
    unfold display
    simp only [he, if_true]
    split <;> exact ⟨rfl, rfl⟩
  · exact absurd (nextResource_none h2) ht

/-- C70, the part that holds: following an entry of a resource list (or change list or dump) that is a local file shows its length
and time, each with the verdict: match, or the listed value, or nothing when nothing is listed.  Times are compared as they are
written.  Missing: resources at URIs, `C70_violated`. -/
theorem C70_partial (w : ExpWorld) (c : DiscCfg) (inputs more : List Str) (vs : List Visit) (v : Visit) (key : Str) (r : Resource)
    (o : Dict Resource) (cap : Str) (h : explore w c inputs = .ok (vs ++ [v], .eof)) (hv : v.shown = .summary o cap)
    (hk : dget o key = some r) (hr : r.capability = none)
    (hc : cap = "resourcelist".toList ∨ cap = "changelist".toList ∨ cap = "resourcedump".toList ∨ cap = "changedump".toList)
    (ht : datetimeToStr? r.timestamp false ≠ none) (hl : hasScheme w.uw r.uri = false) :
    ∃ v' post e n, explore w c (inputs ++ key :: more)
        = .ok (vs ++ { v with answer := some (.follow key r) } :: v' :: post, e) ∧
      (w.stat n r.uri = none → v'.shown = .head { status := "404".toList }) ∧
      (∀ size mtime lm, w.stat n r.uri = some (size, mtime) → datetimeToStr mtime false = some lm →
        ∃ c1 c2, v'.shown = .head { status := "200".toList, headers := [
            ("content-length".toList, .num size, c1), ("last-modified".toList, .text lm, c2)] } ∧
          (c1 = .noCheck ↔ r.length = none) ∧ (c1 = .matchesExpected ↔ r.length = some size) ∧
          (∀ x, c1 = .expected x ↔ ∃ n, x = .num n ∧ r.length = some n ∧ n ≠ size) ∧
          (c2 = .noCheck ↔ r.timestamp = none) ∧
          (c2 = .matchesExpected ↔ ∃ t, r.timestamp = some t ∧ datetimeToStr t false = some lm) ∧
          (∀ x, c2 = .expected x ↔ ∃ t s, x = .text s ∧ r.timestamp = some t ∧ datetimeToStr t false = some s ∧ s ≠ lm)) := by
  rcases explore_follow (key := key) (r := r) more h (by rw [hv]; exact hk) with ⟨v', post, e, n, x, h1, h2, h3, h4, h5⟩ | ⟨h1, h2⟩
  · obtain ⟨lm, hlm, rfl⟩ := nextResource_some h2
    have he : nextCaps v.shown.capability r = .resource := by
      unfold nextCaps
      rw [hr, hv]
      simp only
      rw [if_pos]
      simp only [Shown.capability, Option.getD_some, listKinds, List.mem_cons, List.not_mem_nil, or_false]
      exact hc
    have hd : v'.shown = (match headOnFile (w.stat n r.uri) (some ⟨r.length, lm, r.mime_type⟩) with
        | none => Shown.failed
        | some h => .head h) := by
      rw [h4, h3]
      unfold display
      simp only [he, if_true]
      unfold showHead
      rw [hl]
      rfl
    refine ⟨v', post, e, n, h1, fun hst => ?_, fun size mtime fl hst hfl => ?_⟩
    · rw [hd, hst]; rfl
    · rw [hst] at hd
      unfold headOnFile at hd
      simp only [hfl] at hd
      obtain ⟨a1, a2, a3⟩ := verdict_spec HeaderVal.num (fun _ _ h => by cases h; rfl) size r.length
      obtain ⟨b1, b2, b3⟩ := verdict_spec HeaderVal.text (fun _ _ h => by cases h; rfl) fl lm
      refine ⟨_, _, hd, a1, a2, a3, ?_, ?_, ?_⟩
      · refine b1.trans ?_
        cases hts : r.timestamp with
        | none => rw [hts] at hlm; cases hlm; simp
        | some t =>
          rw [hts] at hlm
          simp only [datetimeToStr?, Option.map_eq_some_iff] at hlm
          obtain ⟨s, -, rfl⟩ := hlm
          simp
      · refine b2.trans ?_
        cases hts : r.timestamp with
        | none => rw [hts] at hlm; cases hlm; simp
        | some t =>
          rw [hts] at hlm
          simp only [datetimeToStr?, Option.map_eq_some_iff] at hlm
          obtain ⟨s, hs, rfl⟩ := hlm
          simp [hs]
      · intro x
        refine (b3 x).trans ?_
        cases hts : r.timestamp with
        | none => rw [hts] at hlm; cases hlm; simp
        | some t =>
          rw [hts] at hlm
          simp only [datetimeToStr?, Option.map_eq_some_iff] at hlm
          obtain ⟨s, hs, rfl⟩ := hlm
          constructor
          · rintro ⟨b, h1, h2, h3⟩
            cases h2
            exact ⟨t, s, h1, rfl, hs, h3⟩
          · rintro ⟨t', s', h1, h2, h3, h4⟩
            cases h2
            rw [hs] at h3
            cases h3
            exact ⟨s, h1, rfl, h4⟩
  · exact absurd (nextResource_none h2) ht

/-! ### Concrete cases -/

namespace ExplorerExample

def md (cap : String) : Elem := .mk (rsTag "md") [("capability".toList, cap.toList)] none []
def ln (rel href : String) : Elem := .mk (rsTag "ln") [("rel".toList, rel.toList), ("href".toList, href.toList)] none []
def url (loc : String) (rest : List Elem) : Elem := .mk (smTag "url") [] none (.mk (smTag "loc") [] (some loc.toList) [] :: rest)
def lastmod (s : String) : Elem := .mk (smTag "lastmod") [] (some s.toList) []

/-- a capability list with one entry, given by a relative URI -/
def caplist : Elem := .mk (smTag "urlset") [] none [md "capabilitylist", url "rl.xml" [md "resourcelist"]]
/-- a resource list with an up link and one resource -/
def reslist : Elem := .mk (smTag "urlset") [] none [ln "up" "cl.xml", md "resourcelist",
  url "f" [lastmod "1970-01-01T00:01:40Z", .mk (rsTag "md") [("length".toList, "3".toList)] none []]]
/-- a resource list with a time that is valid but, as read (see C13), lies after the year 9999 -/
def farlist : Elem := .mk (smTag "urlset") [] none [md "resourcelist", url "f" [lastmod "9999-12-31T23:59:59+01:00"]]

def docs (base : String) (u : Str) : Option Elem :=
  if u = (base ++ "cl.xml").toList then some caplist
  else if u = (base ++ "rl.xml").toList then some reslist
  else if u = (base ++ "far.xml").toList then some farlist
  else none

/-- a site at http://a/ -/
def web : ExpWorld := { docAt := fun _ => docs "http://a/" }
/-- the same in the local directory /d, with the file f of three bytes -/
def loc : ExpWorld := { docAt := fun _ => docs "/d/", stat := fun _ u => if u = "/d/f".toList then some (3, 100) else none }

def cfg (s : String) : DiscCfg := { mapper := [], sitemap_name := some s.toList }
/-- two starting points: the site given and its well-known place -/
def cfg2 : DiscCfg := { mapper := [⟨"http://a/cl.xml".toList, "/d".toList⟩] }

def uris (r : Except ClientErr (List Visit × Ending)) : List (String × Bool) × Option Ending :=
  match r with
  | .ok (vs, e) => (vs.map (fun v => (String.ofList v.xr.uri, v.show_back)), some e)
  | .error _ => ([], none)

end ExplorerExample
open ExplorerExample

/-- a walk: capability list, resource list, its only resource, back, back, back to the second starting point, quit -/
example : uris (explore web cfg2 ["1".toList, "x".toList, "1".toList, "b".toList, "b".toList, "b".toList, "q".toList]) =
    ([("http://a/cl.xml", false), ("http://a/rl.xml", true), ("http://a/f", true), ("http://a/rl.xml", true),
      ("http://a/cl.xml", false), ("http://a/.well-known/resourcesync", false)], some .quit) := by
  decide +kernel

/-- ... going back from there ends the exploration -/
example : (uris (explore web cfg2 ["b".toList, "b".toList])).2 = some .done := by decide +kernel

/-- the first five visits of the walk make up a tour and the return from it: C66_back_returns applies -/
example : ∃ v1 v2 v3 v4 v5 post e,
    explore web cfg2 ["1".toList, "1".toList, "b".toList, "b".toList, "q".toList] = .ok ([] ++ v1 :: [v2, v3, v4] ++ v5 :: post, e) ∧
    net [v1] = 1 ∧ net [v1, v2] = 2 ∧ net [v1, v2, v3] = 1 ∧ net [v1, v2, v3, v4] = 0 := by
  have h : ∃ vs e, explore web cfg2 ["1".toList, "1".toList, "b".toList, "b".toList, "q".toList] = .ok (vs, e) ∧
      vs.map weight = [1, 1, -1, -1, 0] := by
    refine ⟨_, _, rfl, ?_⟩
    decide +kernel
  obtain ⟨vs, e, h1, h2⟩ := h
  rcases vs with _ | ⟨v1, _ | ⟨v2, _ | ⟨v3, _ | ⟨v4, _ | ⟨v5, post⟩⟩⟩⟩⟩ <;> simp at h2
  refine ⟨v1, v2, v3, v4, v5, post, e, h1, ?_⟩
  simp [net, h2.1, h2.2.1, h2.2.2.1, h2.2.2.2.1]

/-- the explorer asks at the resource list; typing 1 follows its only entry: hypotheses of C66_quit, C68_follow, C69_head -/
example : ∃ vs v o r, explore web (cfg "http://a/rl.xml") [] = .ok (vs ++ [v], .eof) ∧ v.shown = .summary o "resourcelist".toList ∧
    dget o "1".toList = some r ∧ r.uri = "http://a/f".toList ∧ r.capability = none ∧ datetimeToStr? r.timestamp false ≠ none ∧
    dget o "u".toList ≠ none ∧ dget o "2".toList = none := by
  refine ⟨[], _, _, _, rfl, rfl, rfl, ?_⟩
  decide +kernel

/-- C69_partial applies to the entry of the capability list -/
example : ∃ vs v o r, explore web (cfg "http://a/cl.xml") [] = .ok (vs ++ [v], .eof) ∧ v.shown = .summary o "capabilitylist".toList ∧
    dget o "1".toList = some r ∧ r.capability = some "resourcelist".toList ∧ datetimeToStr? r.timestamp false ≠ none := by
  refine ⟨[], _, _, _, rfl, rfl, rfl, ?_⟩
  decide +kernel

/-- C70_partial applies to the local file; size and time match -/
example : (match explore loc (cfg "/d/rl.xml") ["1".toList] with
    | .ok (vs, _) => (vs.map Visit.shown)[1]? | .error _ => none) = some (Shown.head { status := "200".toList, headers := [
      ("content-length".toList, .num 3, .matchesExpected),
      ("last-modified".toList, .text "1970-01-01T00:01:40Z".toList, .matchesExpected)] }) := by
  decide +kernel

/-- C69 fails: the up link of a resource list is not followed to the capability list there, although the explorer shows that
document when it gets there in another way; instead it is treated as a resource and examined with HEAD. -/
theorem C69_violated : ∃ w v1 v2, explore w (cfg "http://a/rl.xml") ["u".toList] = .ok ([v1, v2], .eof) ∧
    v2.xr.uri = "http://a/cl.xml".toList ∧ v2.shown = .failed ∧
    ∃ o, display w 1 { uri := "http://a/cl.xml".toList } = .summary o "capabilitylist".toList := by
  refine ⟨web, _, _, rfl, ?_, ?_, ?_⟩
  · decide +kernel
  · decide +kernel
  · exact ⟨_, rfl⟩

/-- C70 fails: for a resource at a URI nothing is ever reported, whatever the server answers. -/
theorem C70_violated (w : ExpWorld) (n : Nat) (uri : Str) (checks : Option Checks) (h : hasScheme w.uw uri = true) :
    display w n { uri := uri, caps := some .resource, checks := checks } = .failed := by
  simp [display, showHead, h]

example : hasScheme web.uw "http://a/f".toList = true := by decide

/-- C71 fails: following an entry with a valid modification time ends the exploration with an exception. -/
theorem C71_violated : ∃ w c inputs vs, explore w c inputs = .ok (vs, .crash) := by
  have h : (uris (explore web (cfg "http://a/far.xml") ["1".toList])).2 = some .crash := by decide +kernel
  cases hx : explore web (cfg "http://a/far.xml") ["1".toList] with
  | error e => rw [hx] at h; cases h
  | ok p =>
    rw [hx] at h
    obtain ⟨vs, e⟩ := p
    cases h
    exact ⟨_, _, _, vs, hx⟩

end Resync
