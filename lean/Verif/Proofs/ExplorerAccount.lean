import Verif.Proofs.ExplorerOptions
import Verif.Proofs.RegexRel
import Verif.Spec.ExplorerAccount
/-
Lemmas for C88: allowed_entries and the lines printed about a document.
-/

namespace Resync
open Py Resync.Spec

theorem lits_rel (l : Str) (k : Nat) (u rest : Str) (c c' : Py.Caps) :
    (Re.seq (l.map .lit ++ [.eos])).Rel k u rest c c' ↔ u = l ∧ (rest = [] ∨ rest = ['\n']) ∧ c' = c := by
  induction l generalizing k u with
  | nil =>
    simp only [List.map_nil, List.nil_append, Re.seq, Re.Rel]
    constructor
    · rintro ⟨u1, u2, c1, rfl, ⟨rfl, h, rfl⟩, rfl, rfl⟩
      exact ⟨rfl, by simpa using h, rfl⟩
    · rintro ⟨rfl, h, rfl⟩
      exact ⟨[], [], _, rfl, ⟨rfl, by simpa using h, rfl⟩, rfl, rfl⟩
  | cons a l ih =>
    simp only [List.map_cons, List.cons_append, Re.seq]
    show (∃ u1 u2 c1, u = u1 ++ u2 ∧ (Re.lit a).Rel k u1 (u2 ++ rest) c c1 ∧
      (Re.seq (l.map .lit ++ [.eos])).Rel (k + u1.length) u2 rest c1 c') ↔ _
    constructor
    · rintro ⟨u1, u2, c1, rfl, ⟨⟨x, rfl, hx⟩, rfl⟩, h⟩
      obtain ⟨rfl, h2, h3⟩ := (ih _ _).mp h
      have : x = a := by simpa using hx
      subst this
      exact ⟨rfl, h2, h3⟩
    · rintro ⟨rfl, h2, rfl⟩
      exact ⟨[a], l, _, rfl, ⟨⟨a, rfl, by simp⟩, rfl⟩, (ih _ _).mpr ⟨rfl, h2, rfl⟩⟩

/-- `(.+)lit$` -/
theorem ending_rel (l : Str) (u rest : Str) (c' : Py.Caps) :
    (Re.seq ([.grp 1 (.plus .dot)] ++ l.map .lit ++ [.eos])).Rel 0 u rest [] c' ↔
      ∃ g, g ≠ [] ∧ '\n' ∉ g ∧ u = g ++ l ∧ (rest = [] ∨ rest = ['\n']) ∧ c' = [(1, g)] := by
  show (∃ u1 u2 c1, u = u1 ++ u2 ∧ (Re.grp 1 (.plus .dot)).Rel 0 u1 (u2 ++ rest) [] c1 ∧
      (Re.seq (l.map .lit ++ [.eos])).Rel (0 + u1.length) u2 rest c1 c') ↔ _
  have hplus : ∀ (u1 r : Str) (c1 : Py.Caps), (Re.grp 1 (.plus .dot)).Rel 0 u1 r [] c1 ↔
      u1 ≠ [] ∧ '\n' ∉ u1 ∧ c1 = [(1, u1)] := by
    intro u1 r c1
    constructor
    · rintro ⟨c2, ⟨a, b, c3, rfl, ⟨⟨x, rfl, hx⟩, rfl⟩, hb⟩, rfl⟩
      obtain ⟨h1, rfl⟩ := (star_chr_rel _ _ _ _ _ _).mp hb
      refine ⟨by simp, ?_, rfl⟩
      intro hm
      rcases List.mem_append.mp hm with h | h
      · rw [List.mem_singleton] at h
        subst h
        simp at hx
      · have := h1 _ h
        simp at this
    · rintro ⟨h1, h2, rfl⟩
      cases u1 with
      | nil => exact absurd rfl h1
      | cons x t =>
        refine ⟨[], ⟨[x], t, [], rfl, ⟨⟨x, rfl, ?_⟩, rfl⟩, (star_chr_rel _ _ _ _ _ _).mpr ⟨?_, rfl⟩⟩, rfl⟩
        · have : x ≠ '\n' := fun e => h2 (by simp [e])
          simpa using this
        · intro y hy
          have : y ≠ '\n' := fun e => h2 (by rw [← e]; exact List.mem_cons_of_mem _ hy)
          simpa using this
  constructor
  · rintro ⟨u1, u2, c1, rfl, h1, h2⟩
    obtain ⟨h3, h4, rfl⟩ := (hplus _ _ _).mp h1
    obtain ⟨rfl, h5, rfl⟩ := (lits_rel _ _ _ _ _ _).mp h2
    exact ⟨u1, h3, h4, rfl, h5, rfl⟩
  · rintro ⟨g, h3, h4, rfl, h5, rfl⟩
    exact ⟨g, l, _, rfl, (hplus _ _ _).mpr ⟨h3, h4, rfl⟩, (lits_rel _ _ _ _ _ _).mpr ⟨rfl, h5, rfl⟩⟩

theorem ending_some {l s : Str} {m : MSt} (hs : '\n' ∉ s)
    (h : (Re.seq ([.grp 1 (.plus .dot)] ++ l.map .lit ++ [.eos])).matchStart s = some m) :
    ∃ g, g ≠ [] ∧ s = g ++ l ∧ (m.group 1).getD [] = g := by
  obtain ⟨u, h1, -, h2⟩ := matchStart_sound h
  obtain ⟨g, hg, -, rfl, hr, hc⟩ := (ending_rel l u m.rest m.caps).mp h2
  rcases hr with hr | hr
  · rw [hr, List.append_nil] at h1
    exact ⟨g, hg, h1, by simp [MSt.group, hc, List.lookup]⟩
  · rw [hr] at h1
    exact absurd (by rw [h1]; simp) hs

theorem ending_none {l s : Str} (hs : '\n' ∉ s)
    (h : (Re.seq ([.grp 1 (.plus .dot)] ++ l.map .lit ++ [.eos])).matchStart s = none) (g : Str) (hg : g ≠ []) : s ≠ g ++ l := by
  intro e
  obtain ⟨st, h1⟩ := matchStart_complete (r := Re.seq ([.grp 1 (.plus .dot)] ++ l.map .lit ++ [.eos])) (s := s) (u := g ++ l)
    (rest := []) (c := [(1, g)]) (by rw [e, List.append_nil])
    ((ending_rel l _ _ _).mpr ⟨g, hg, fun h => hs (by rw [e]; simp [h]), rfl, .inl rfl, rfl⟩)
  rw [h] at h1
  cases h1

theorem index_ne_archive (a b : Str) : a ++ "index".toList ≠ b ++ "-archive".toList := by
  intro h
  have := congrArg (fun l => l.reverse.head?) h
  simp at this

/-- allowed_entries -/
theorem mem_allowedEntries {doc : Str} (hn : '\n' ∉ doc) (x : Str) : x ∈ allowedEntries doc ↔ MayList doc x := by
  unfold allowedEntries
  split
  · rename_i h
    subst h
    simp only [List.not_mem_nil, false_iff]
    rintro (⟨h1, h2, h3⟩ | ⟨h1, -⟩ | ⟨h1, -⟩ | ⟨h1, -⟩)
    · exact h3 (List.append_cancel_right (show x ++ "index".toList = "capabilitylist".toList ++ "index".toList from h1.symm))
    · exact index_ne_archive "capabilitylist".toList x h1
    · exact absurd h1 (by decide)
    · exact absurd h1 (by decide)
  · rename_i hci
    split
    · rename_i m hm
      obtain ⟨g, hg, hs, hgr⟩ := ending_some hn hm
      rw [hgr, List.mem_singleton]
      constructor
      · rintro rfl
        refine .inl ⟨hs, hg, ?_⟩
        rintro rfl
        exact hci hs
      · rintro (⟨h1, h2, h3⟩ | ⟨h1, -⟩ | ⟨h1, -⟩ | ⟨h1, -⟩)
        · exact List.append_cancel_right (h1.symm.trans hs)
        · exact absurd (hs.symm.trans h1) (index_ne_archive _ _)
        · rw [h1, show indexRe.matchStart "description".toList = none by decide] at hm; cases hm
        · rw [h1, show indexRe.matchStart "capabilitylist".toList = none by decide] at hm; cases hm
    · rename_i hm
      split
      · rename_i m ha
        obtain ⟨g, hg, hs, hgr⟩ := ending_some hn ha
        rw [hgr, List.mem_singleton]
        constructor
        · rintro rfl
          exact .inr (.inl ⟨hs, hg⟩)
        · rintro (⟨h1, h2, h3⟩ | ⟨h1, -⟩ | ⟨h1, -⟩ | ⟨h1, -⟩)
          · exact absurd (h1.symm.trans hs) (index_ne_archive _ _)
          · exact List.append_cancel_right (h1.symm.trans hs)
          · rw [h1, show archiveRe.matchStart "description".toList = none by decide] at ha; cases ha
          · rw [h1, show archiveRe.matchStart "capabilitylist".toList = none by decide] at ha; cases ha
      · rename_i ha
        have n1 := ending_none hn hm
        have n2 := ending_none hn ha
        split
        · rename_i hd
          constructor
          · intro h
            exact .inr (.inr (.inl ⟨hd, List.mem_singleton.mp h⟩))
          · rintro (⟨h1, h2, h3⟩ | ⟨h1, h2⟩ | ⟨-, h1⟩ | ⟨h1, -⟩)
            · exact absurd h1 (n1 x h2)
            · exact absurd h1 (n2 x h2)
            · exact List.mem_singleton.mpr h1
            · rw [hd] at h1; exact absurd h1 (by decide)
        · rename_i hd
          split
          · rename_i hc
            constructor
            · intro h
              exact .inr (.inr (.inr ⟨hc, h⟩))
            · rintro (⟨h1, h2, h3⟩ | ⟨h1, h2⟩ | ⟨h1, -⟩ | ⟨-, h1⟩)
              · exact absurd h1 (n1 x h2)
              · exact absurd h1 (n2 x h2)
              · exact absurd h1 hd
              · exact h1
          · rename_i hc
            simp only [List.not_mem_nil, false_iff]
            rintro (⟨h1, h2, h3⟩ | ⟨h1, h2⟩ | ⟨h1, -⟩ | ⟨h1, -⟩)
            · exact absurd h1 (n1 x h2)
            · exact absurd h1 (n2 x h2)
            · exact hd h1
            · exact hc h1

theorem allowedEntries_nodup (doc : Str) : (allowedEntries doc).Nodup := by
  unfold allowedEntries
  split
  · simp
  · split
    · simp
    · split
      · simp
      · split
        · simp
        · split
          · decide
          · simp

theorem kindText_remark {doc : Str} (hn : '\n' ∉ doc) (k : Option Str) : KindRemark doc k (kindText (allowedEntries doc) k) := by
  have hm := mem_allowedEntries hn
  have hd := allowedEntries_nodup doc
  generalize allowedEntries doc = l at hm hd
  unfold kindText
  split
  · rename_i c
    split
    · rename_i h
      exact .fine ((hm c).mp h)
    · rename_i h
      exact .unexpected (fun h' => h ((hm c).mpr h')) hm
  · rename_i c
    refine .implied (fun x => ?_)
    rw [← hm, List.mem_singleton]
  · rename_i h
    refine .nothing ?_
    rintro ⟨c, hc⟩
    rcases l with _ | ⟨a, _ | ⟨b, t⟩⟩
    · have := (hm c).mpr ((hc c).mpr rfl)
      simp at this
    · exact h a rfl
    · have h1 := (hc a).mp ((hm a).mp (by simp))
      have h2 := (hc b).mp ((hm b).mp (by simp))
      subst h1
      subst h2
      simp at hd

/-! ### The printed lines -/

theorem andThen_true {a : List SumLine × Bool} (b : List SumLine × Bool) (h : a.2 = true) : andThen a b = (a.1 ++ b.1, b.2) := by
  unfold andThen
  rw [if_pos h]

theorem linkText_ok {ln : List Link} {context rel key : Str} {cap : Option Str} {o o' : Dict Resource}
    (h : linkOption ln context rel key cap o = some o') : (docLinkText ln context rel key).2 = true := by
  unfold linkOption at h
  unfold docLinkText expandText
  split at h
  · rename_i h1; rw [h1]
  · rename_i l h1
    rw [h1]
    dsimp only
    split at h
    · rename_i h2; rw [h2]
    · rename_i uri h2
      rw [h2]
      dsimp only
      split at h
      · cases h
      · rename_i full h3
        rw [h3]

/-- the lines about one link -/
theorem linkText_lines {ln : List Link} {context rel key : Str} (h : (docLinkText ln context rel key).2 = true) :
    (findLink ln rel = none ∧ (docLinkText ln context rel key).1 = []) ∨
    (∃ l, findLink ln rel = some l ∧ dget l sHref = none ∧ (docLinkText ln context rel key).1 = [.noHref rel]) ∨
    (∃ l uri full, findLink ln rel = some l ∧ dget l sHref = some uri ∧ urljoin context uri = some full ∧
      (docLinkText ln context rel key).1 = .link key rel uri :: (if full ≠ uri then [.expanded full] else [])) := by
  unfold docLinkText expandText at *
  split at h
  · rename_i h1
    rw [h1]
    exact .inl ⟨rfl, rfl⟩
  · rename_i l h1
    right
    cases h2 : dget l sHref with
    | none =>
      rw [h1]
      exact .inl ⟨l, rfl, h2, rfl⟩
    | some uri =>
      rw [h2] at h
      dsimp only at h
      cases h3 : urljoin context uri with
      | none => rw [h3] at h; simp at h
      | some full =>
        right
        rw [h1]
        refine ⟨l, uri, full, rfl, h2, h3, ?_⟩
        dsimp only
        rw [h3]

/-- The lines about the listed resources, entry by entry -/
theorem entriesText_ok {context : Str} {caps : List Str} {ts ne : Nat} : ∀ (rs : List Resource) (n : Nat) (o o' : Dict Resource),
    entryOptions context caps n (rs.take (ts - n)) o = some o' → (entriesText context caps ts ne n rs).2 = true := by
  intro rs
  induction rs with
  | nil => intro n o o' _; rfl
  | cons r t ih =>
    intro n o o' h
    rw [entriesText]
    split
    · rfl
    · rename_i hn
      obtain ⟨m, hm⟩ : ∃ m, ts - n = m + 1 := ⟨ts - n - 1, by omega⟩
      rw [hm, List.take_succ_cons, entryOptions] at h
      split at h
      · cases h
      · rename_i r1 hr1
        have := (entryOption_spec hr1).1
        unfold expandText
        rw [this]
        dsimp only
        exact ih (n + 1) _ _ (by rw [show ts - (n + 1) = m by omega]; exact h)

/-- one entry's lines -/
def entryLines (context : Str) (caps : List Str) (n : Nat) (r : Resource) : List SumLine :=
  .entry (n + 1) r.uri :: (expandText context r.uri).getD [] ++ kindText caps r.capability

theorem entriesText_lines {context : Str} {caps : List Str} {ts ne : Nat} : ∀ (rs : List Resource) (n : Nat),
    n ≤ ts → (entriesText context caps ts ne n rs).2 = true → (entriesText context caps ts ne n rs).1 =
      ((rs.take (ts - n)).zipIdx n).flatMap (fun p => entryLines context caps p.2 p.1) ++
        (if n + rs.length ≤ ts then [] else [.notShowing (ne - ts)]) := by
  intro rs
  induction rs with
  | nil => intro n hn h; simp [entriesText, hn]
  | cons r t ih =>
    intro n hn h
    rw [entriesText] at h ⊢
    split
    · rename_i hts
      have : n = ts := by omega
      subst this
      simp
    · rename_i hts
      rw [if_neg hts] at h
      obtain ⟨m, hm⟩ : ∃ m, ts - n = m + 1 := ⟨ts - n - 1, by omega⟩
      cases he : expandText context r.uri with
      | none => rw [he] at h; simp at h
      | some e =>
        rw [he] at h
        dsimp only at h ⊢
        rw [ih (n + 1) (by omega) h, hm, List.take_succ_cons, List.zipIdx_cons, List.flatMap_cons,
          show ts - (n + 1) = m by omega, List.length_cons, show n + 1 + t.length = n + (t.length + 1) by omega]
        simp only [entryLines, he, Option.getD_some, List.append_assoc]

theorem summaryText_ok {c : Cont (List Resource)} {index : Bool} {context : Str} {o : Dict Resource} {cap : Str}
    (h : showSummary c index context = some (o, cap)) (expected : Option (List Str)) :
    (docLinkText c.ln context "describedby".toList ['d']).2 = true ∧ (docLinkText c.ln context "up".toList ['u']).2 = true ∧
    (docLinkText c.ln context "index".toList ['i']).2 = true ∧
    (summaryText c index expected context).1 = headText cap c.resources.length expected ++
      ((docLinkText c.ln context "describedby".toList ['d']).1 ++ ((docLinkText c.ln context "up".toList ['u']).1 ++
      ((docLinkText c.ln context "index".toList ['i']).1 ++
      (((c.resources.take (toShow c.resources.length)).zipIdx 0).flatMap (fun p => entryLines context (allowedEntries cap) p.2 p.1) ++
        (if c.resources.length ≤ 21 then [] else [.notShowing (c.resources.length - 20)]))))) := by
  obtain ⟨hcap, o1, o2, o3, l1, l2, l3, he⟩ := showSummary_steps h
  have k1 := linkText_ok l1
  have k2 := linkText_ok l2
  have k3 := linkText_ok l3
  have k4 := entriesText_ok (ts := toShow c.resources.length) (ne := c.resources.length) c.resources 0 o3 o (by simpa using he)
  refine ⟨k1, k2, k3, ?_⟩
  unfold summaryText
  dsimp only
  rw [← hcap, andThen_true _ rfl, andThen_true _ k1, andThen_true _ k2, andThen_true _ k3,
    entriesText_lines c.resources 0 (Nat.zero_le _) k4]
  have hts : (if 0 + c.resources.length ≤ toShow c.resources.length then ([] : List SumLine)
      else [.notShowing (c.resources.length - toShow c.resources.length)])
      = (if c.resources.length ≤ 21 then [] else [.notShowing (c.resources.length - 20)]) := by
    unfold toShow
    by_cases h1 : 21 < c.resources.length
    · rw [if_pos h1, if_neg (by omega), if_neg (by omega)]
    · rw [if_neg h1, if_pos (by omega), if_pos (by omega)]
  rw [hts, Nat.sub_zero]

/-- which line it is -/
def SumLine.isEntry : SumLine → Option (Nat × Str)
  | .entry k uri => some (k, uri)
  | _ => none

theorem mem_headText {cap : Str} {n : Nat} {expected : Option (List Str)} {x : SumLine} :
    x ∈ headText cap n expected ↔ x = .parsed cap n ∨ (∃ kinds, expected = some kinds ∧ cap ∉ kinds ∧ x = .expectedKind kinds) ∨
      (cap ∉ knownDocuments ∧ x = .unknownKind cap) := by
  unfold headText
  rw [List.append_assoc, List.singleton_append, List.mem_cons, List.mem_append]
  apply or_congr Iff.rfl
  apply or_congr
  · cases expected with
    | none => simp
    | some kinds =>
      by_cases h : cap ∈ kinds <;> simp [h]
  · by_cases h : cap ∈ knownDocuments <;> simp [h]

theorem mem_docLinkText {ln : List Link} {context rel key : Str} (h : (docLinkText ln context rel key).2 = true) {x : SumLine} :
    x ∈ (docLinkText ln context rel key).1 ↔
      (∃ l, findLink ln rel = some l ∧ dget l sHref = none ∧ x = .noHref rel) ∨
      (∃ l uri, findLink ln rel = some l ∧ dget l sHref = some uri ∧ x = .link key rel uri) ∨
      (∃ l uri full, findLink ln rel = some l ∧ dget l sHref = some uri ∧ urljoin context uri = some full ∧ full ≠ uri ∧
        x = .expanded full) := by
  rcases linkText_lines h with ⟨h1, h2⟩ | ⟨l, h1, h2, h3⟩ | ⟨l, uri, full, h1, h2, h3, h4⟩
  · rw [h2]
    simp [h1]
  · rw [h3]
    simp [h1, h2]
  · rw [h4]
    by_cases hf : full = uri
    · subst hf
      simp [h1, h2, h3]
    · simp only [ne_eq, hf, not_false_eq_true, if_true, List.mem_cons, List.not_mem_nil, or_false, h1, Option.some.injEq]
      constructor
      · rintro (rfl | rfl)
        · exact .inr (.inl ⟨l, uri, rfl, h2, rfl⟩)
        · exact .inr (.inr ⟨l, uri, full, rfl, h2, h3, hf, rfl⟩)
      · rintro (⟨l', rfl, h5, -⟩ | ⟨l', u', rfl, h5, rfl⟩ | ⟨l', u', f', rfl, h5, h6, -, rfl⟩)
        · rw [h2] at h5; cases h5
        · rw [h2] at h5; cases h5; exact .inl rfl
        · rw [h2] at h5; cases h5
          rw [h3] at h6; cases h6
          exact .inr rfl

theorem kindText_class {caps : List Str} {c : Option Str} {x : SumLine} (h : x ∈ kindText caps c) :
    (∃ a b, x = .kind a b) ∨ ∃ a, x = .shouldBe a := by
  unfold kindText at h
  split at h
  · exact .inl ⟨_, _, List.mem_singleton.mp h⟩
  · exact .inr ⟨_, List.mem_singleton.mp h⟩
  · cases h

theorem expandText_class {context uri : Str} {x : SumLine} (h : x ∈ (expandText context uri).getD []) : ∃ f, x = .expanded f := by
  unfold expandText at h
  split at h
  · cases h
  · rw [Option.getD_some] at h
    split at h
    · exact ⟨_, List.mem_singleton.mp h⟩
    · cases h

theorem entryLines_class {context : Str} {caps : List Str} {n : Nat} {r : Resource} {x : SumLine} (h : x ∈ entryLines context caps n r) :
    x = .entry (n + 1) r.uri ∨ (∃ f, x = .expanded f) ∨ (∃ a b, x = .kind a b) ∨ ∃ a, x = .shouldBe a := by
  unfold entryLines at h
  rw [List.cons_append, List.mem_cons, List.mem_append] at h
  rcases h with h | h | h
  · exact .inl h
  · exact .inr (.inl (expandText_class h))
  · exact .inr (.inr (kindText_class h))

theorem filterMap_none {l : List SumLine} (h : ∀ x ∈ l, x.isEntry = none) : l.filterMap SumLine.isEntry = [] := by
  rw [List.filterMap_eq_nil_iff]
  exact h

theorem entryLines_isEntry (context : Str) (caps : List Str) (n : Nat) (r : Resource) :
    (entryLines context caps n r).filterMap SumLine.isEntry = [(n + 1, r.uri)] := by
  unfold entryLines
  rw [List.cons_append, List.filterMap_cons_some (f := SumLine.isEntry) (a := .entry (n + 1) r.uri) (b := (n + 1, r.uri)) rfl, List.filterMap_append,
    filterMap_none (fun x hx => by obtain ⟨f, rfl⟩ := expandText_class hx; rfl),
    filterMap_none (fun x hx => by rcases kindText_class hx with ⟨a, b, rfl⟩ | ⟨a, rfl⟩ <;> rfl)]
  rfl

theorem entries_isEntry (context : Str) (caps : List Str) : ∀ (rs : List Resource) (n : Nat),
    ((rs.zipIdx n).flatMap (fun p => entryLines context caps p.2 p.1)).filterMap SumLine.isEntry
      = (rs.zipIdx (n + 1)).map (fun p => (p.2, p.1.uri)) := by
  intro rs
  induction rs with
  | nil => intro n; rfl
  | cons r t ih =>
    intro n
    rw [List.zipIdx_cons, List.flatMap_cons, List.filterMap_append, ih, entryLines_isEntry, List.zipIdx_cons, List.map_cons]
    rfl

theorem displayText_summary {w : ExpWorld} {n : Nat} {xr : XResource} {o : Dict Resource} {cap : Str}
    (h : display w n xr = .summary o cap) : ∃ c index created root, w.docAt n xr.uri = some root ∧
      parseXml {} listAdd ({ resources := [] } : Cont (List Resource)) root none none = .ok (c, index, created) ∧
      showSummary c index xr.uri = some (o, cap) ∧
      displayText w n xr = (summaryText c index (xr.caps.map Caps.list) xr.uri).1 := by
  obtain ⟨root, c, index, created, h1, h2, h3, h4⟩ := display_summary h
  refine ⟨c, index, created, root, h2, h3, h4, ?_⟩
  unfold displayText
  rw [if_neg h1, h2]
  dsimp only
  rw [h3]

end Resync
