import Verif.Spec.Resume
import Verif.Proofs.Repeat
/- What incremental syncs leave behind that do not come to their end. -/

namespace Resync
open Py Resync.Spec

/-- an invariant that every effect keeps, and every part of one, holds of whatever an interrupted run leaves -/
theorem left_inv {P : Effect → Prop} {s s' : St} (h : Did P s s') (I : World → Prop) (h0 : I s.world)
    (hstep : ∀ w e, P e → I w → I (w.apply e)) (hpart : ∀ l b b', P (.append l b) → P (.append l b')) {w : World}
    (hw : LeftBy s s' w) : I w := by
  rcases hw with hw | ⟨k, l, b, b', he, -, rfl⟩
  · exact moment_inv h I h0 hstep w hw
  · refine hstep _ _ (hpart l b b' (h.done _ (List.mem_of_getElem? he))) ?_
    exact moment_inv h I h0 hstep _ ⟨k, rfl⟩

theorem syncEff_part {env : Env} {c : ClientCfg} {allow : Bool} {upd del : List Resource} {l : Loc} {b : Bytes} (b' : Bytes)
    (h : SyncEff env c allow upd del (.append l b)) : SyncEff env c allow upd del (.append l b') := by
  rcases h with ⟨r, hr, fn, hm, h⟩ | ⟨r, hr, fn, hm, h, -⟩
  · refine .inl ⟨r, hr, fn, hm, ?_⟩
    rcases h with ⟨d, h, -⟩ | ⟨hd, (h | ⟨_, _, h⟩ | ⟨_, _, h⟩) | ⟨_, h⟩⟩
    · cases h
    · cases h
    · cases h
    · cases h
      exact .inr ⟨hd, .inl (.inr (.inr ⟨by assumption, b', rfl⟩))⟩
    · cases h
  · cases h

section
variable {env : Env} {c : ClientCfg} {allow : Bool} {uri fd : Option Str} {s : St} {l : Loc}

theorem incremental_part : ∀ l b b', (∃ s1 cl t0 clUri raw kept last, IncPlanned env c uri fd s s1 cl t0 clUri raw kept last ∧
      (SyncEff env c allow (changedOf cl) (deletedOf cl) (.append l b) ∨ IsSetState (.append l b))) →
    ∃ s1 cl t0 clUri raw kept last, IncPlanned env c uri fd s s1 cl t0 clUri raw kept last ∧
      (SyncEff env c allow (changedOf cl) (deletedOf cl) (.append l b') ∨ IsSetState (.append l b')) := by
  rintro l b b' ⟨s1, cl, t0, clUri, raw, kept, last, hpl, h | ⟨_, h⟩⟩
  · exact ⟨s1, cl, t0, clUri, raw, kept, last, hpl, .inl (syncEff_part b' h)⟩
  · cases h

/-- files that no change is about are left as they were -/
theorem left_untouched (hl : ∀ changes t0 r, ChangesRead env c uri changes → startTime env c fd s = .ok t0 →
      LastChange changes c.spec_version t0 r → ¬ MapsTo c env.cwd r.uri l) {w : World}
    (hw : LeftBy s (incremental env c allow uri fd s).1 w) (content : Bytes) (mtime : Rat) :
    IsFile w.fs l content mtime ↔ IsFile s.world.fs l content mtime := by
  refine left_inv (incremental_did env c allow uri fd s)
    (fun w => IsFile w.fs l content mtime ↔ IsFile s.world.fs l content mtime) Iff.rfl ?_ incremental_part hw
  rintro w e ⟨s1, cl, t0, clUri, raw, kept, last, hpl, h⟩ hw
  rw [← hw]
  have hno : ¬ ((∃ d, e = .trunc l d) ∨ (∃ b, e = .append l b) ∨ (∃ t, e = .utime l t) ∨ e = .unlink l) := by
    intro hat
    rcases h with h | ⟨t, rfl⟩
    · rcases syncEff_at h hat with ⟨r, hr, hm, _⟩ | ⟨r, hr, hm, _⟩
      · exact hl raw t0 r ⟨clUri, hpl.listUri, hpl.read⟩ hpl.start (planned_last hpl (List.mem_filter.mp hr).1) hm
      · exact hl raw t0 r ⟨clUri, hpl.listUri, hpl.read⟩ hpl.start (planned_last hpl (List.mem_filter.mp hr).1) hm
    · rcases hat with ⟨_, h⟩ | ⟨_, h⟩ | ⟨_, h⟩ | h <;> cases h
  simp only [not_or, not_exists] at hno
  exact onFs_other hno.1 hno.2.1 hno.2.2.1 hno.2.2.2

/-- no file has come into being where only deletions are selected -/
theorem left_no_new_file (hno : ¬ HasFile s.world.fs l)
    (hl : ∀ changes t0 r, ChangesRead env c uri changes → startTime env c fd s = .ok t0 → LastChange changes c.spec_version t0 r →
      MapsTo c env.cwd r.uri l → ¬ (r.change = some sUpdated ∨ r.change = some sCreated)) {w : World}
    (hw : LeftBy s (incremental env c allow uri fd s).1 w) : ¬ HasFile w.fs l := by
  refine left_inv (incremental_did env c allow uri fd s) (fun w => ¬ HasFile w.fs l) hno ?_ incremental_part hw
  rintro w e ⟨s1, cl, t0, clUri, raw, kept, last, hpl, h⟩ hw
  by_cases hat : (∃ d, e = .trunc l d) ∨ (∃ b, e = .append l b) ∨ (∃ t, e = .utime l t) ∨ e = .unlink l
  · rcases h with h | ⟨t, rfl⟩
    · rcases syncEff_at h hat with ⟨r, hr, hm, _⟩ | ⟨r, hr, hm, he⟩
      · obtain ⟨h1, h2⟩ := List.mem_filter.mp hr
        exact absurd (by simpa using h2) (hl raw t0 r ⟨clUri, hpl.listUri, hpl.read⟩ hpl.start (planned_last hpl h1) hm)
      · obtain ⟨rfl, -⟩ := he
        rintro ⟨b, m, hf⟩
        have hf : (w.fs.del l).get l = some (.file b m) := hf
        by_cases hne : l = []
        · rw [hne, get_root] at hf
          cases hf
        · rw [get_del_self _ _ hne] at hf
          cases hf
    · rcases hat with ⟨_, h⟩ | ⟨_, h⟩ | ⟨_, h⟩ | h <;> cases h
  · simp only [not_or, not_exists] at hat
    rintro ⟨b, m, hf⟩
    exact hw ⟨b, m, (onFs_other hat.1 hat.2.1 hat.2.2.1 hat.2.2.2).mp hf⟩

end

/-- what there may be: nothing that is in the way of files at these places -/
def MayRoom (sites : List (Map × Loc)) (places : Loc → Prop) (l : Loc) : FsNode → Prop
  | .dir => ¬ places l
  | .file _ _ => (∀ p ∈ sites, l ≠ p.2) ∧ ∀ q, places q → l <+: q → l = q

section
variable {cwd : Loc} {sites : List (Map × Loc)} {places : Loc → Prop} {c : ClientCfg} {fs : Fs}

theorem mayRoom_start (hs : Sites c cwd sites fs) (hroom : FreeFor places fs) : FsKeeps (MayRoom sites places) fs := by
  refine ⟨hs.tidy, ?_⟩
  intro l n hl hg
  cases n with
  | dir => exact fun hp => hroom.noDir l hp hg
  | file b t =>
    refine ⟨?_, ?_⟩
    · rintro p hp rfl
      exact hs.notFile p hp ⟨b, t, hg⟩
    · intro q hq hlq
      by_contra hne
      exact hroom.noFile q hq l hlq hne ⟨b, t, hg⟩

theorem mayRoom_fetch {env : Env} (hs : Sites c cwd sites fs) (hcwd : env.cwd = cwd)
    (hapart : ∀ a b, places a → places b → a <+: b → a = b) {r : Resource} (hr : BelowSites sites r.uri)
    (hin : ∀ p ∈ sites, ∀ names, names ≠ [] → (∀ n ∈ names, PlainName n) → r.uri = uriBelow p.1 names → places (p.2 ++ names))
    {fn : Str} (hfn : c.disc.mapper.srcToDst r.uri = .ok fn) : MayFetch (MayRoom sites places) env r fn := by
  subst hcwd
  obtain ⟨p, hp, names, hne, hn, hu⟩ := hr
  obtain ⟨fn', h1, h2, h3⟩ := hs.maps_dir hp hne hn
  obtain ⟨fn'', g1, g2, -⟩ := hs.maps hp hne hn
  rw [hu, h1] at hfn
  cases hfn
  rw [h1] at g1
  cases g1
  have hpl : places (p.2 ++ names) := hin p hp names hne hn hu
  have hfile : ∀ b t, MayRoom sites places (location env.cwd fn) (.file b t) := by
    intro b t
    rw [h2]
    refine ⟨?_, fun q hq => hapart _ _ hpl hq⟩
    intro q hq e
    obtain ⟨-, e'⟩ := hs.loc_inj hp hq (a := names) (b := []) (by rw [e, List.append_nil])
    exact hne e'
  refine ⟨g2, ?_, fun _ => hfile _ _, fun _ _ _ _ _ _ _ => hfile _ _, fun _ _ _ _ _ => hfile _ _⟩
  intro pre hpre _ hin'
  rw [h3] at hpre
  have e := hapart _ _ hin' hpl (hpre.trans (List.dropLast_prefix _))
  have := hpre.length_le
  have hpos : 0 < names.length := List.length_pos_iff.mpr hne
  rw [e, List.length_dropLast, List.length_append] at this
  omega

theorem mayRoom_end {fs' : Fs} (hs : Sites c cwd sites fs) (hroom : FreeFor places fs) (h : FsKeeps (MayRoom sites places) fs') :
    Sites c cwd sites fs' ∧ FreeFor places fs' := by
  refine ⟨{ hs with
    proper := h.tidy.proper
    names := h.tidy.names
    notFile := ?_ }, hroom.apart, ?_, ?_⟩
  · rintro p hp ⟨b, t, hf⟩
    by_cases hl : p.2 = []
    · unfold IsFile at hf; rw [hl, get_root] at hf; cases hf
    · exact (h.nodes _ _ hl hf).1 p hp rfl
  · intro l hl hg
    by_cases h0 : l = []
    · subst h0
      exact hroom.noDir _ hl (get_root _)
    · exact h.nodes _ _ h0 hg hl
  · rintro l hl p hpl hne ⟨b, t, hf⟩
    by_cases h0 : p = []
    · unfold IsFile at hf; rw [h0, get_root] at hf; cases hf
    · exact hne ((h.nodes _ _ h0 hf).2 l hl hpl)

/-- What attempts that are broken off leave: the files that no change is about; no files where there were none and only deletions are
selected; room for all the places; and the recorded times. -/
theorem brokenOff_left {ft : FloatText Rat} {fd : Option Str} {changes : List Resource} {t0 : Rat} {w w' : World}
    (hs : Sites c cwd sites w.fs) (hroom : FreeFor places w.fs) (hbelow : ∀ r ∈ changes, BelowSites sites r.uri)
    (hin : ∀ r ∈ changes, ∀ p ∈ sites, ∀ names, names ≠ [] → (∀ n ∈ names, PlainName n) → r.uri = uriBelow p.1 names → places (p.2 ++ names))
    (hstart : ∀ env s, env.ft = ft → s.world.state = w.state → startTime env c fd s = .ok t0)
    (h : BrokenOff (SameTask ft cwd c (fun cl => cl <+: changes ∧ NothingPassing cl changes c.spec_version t0)) fd w w') :
    FsKeeps (MayRoom sites places) w'.fs ∧ w'.state = w.state ∧
    (∀ p ∈ sites, ∀ names, names ≠ [] → (∀ n ∈ names, PlainName n) →
      (∀ r, LastChange changes c.spec_version t0 r → r.uri ≠ uriBelow p.1 names) → ∀ content mtime,
      IsFile w'.fs (p.2 ++ names) content mtime ↔ IsFile w.fs (p.2 ++ names) content mtime) ∧
    (∀ p ∈ sites, ∀ names, names ≠ [] → (∀ n ∈ names, PlainName n) →
      ∀ x r, FirstChange changes c.spec_version t0 x → LastChange changes c.spec_version t0 r → x.uri = uriBelow p.1 names →
        r.uri = uriBelow p.1 names → x.change = some sCreated → r.change = some sDeleted →
      ¬ HasFile w.fs (p.2 ++ names) → ¬ HasFile w'.fs (p.2 ++ names)) := by
  induction h with
  | none => exact ⟨mayRoom_start hs hroom, rfl, fun _ _ _ _ _ _ _ _ => Iff.rfl, fun _ _ _ _ _ _ _ _ _ _ _ _ _ h => h⟩
  | @more w1 w2 env c' allow uri s hb ht hw hleft hsame ih =>
    subst hw
    obtain ⟨i1, i2, i3, i4⟩ := ih
    have hm : c'.disc.mapper = sites.map Prod.fst := by rw [ht.disc]; exact hs.mapper
    have hs' : Sites c' cwd sites w.fs := { hs with mapper := hm }
    have hst : startTime env c' fd s = .ok t0 := by
      rw [← hstart env s ht.text i2]
      unfold startTime
      rw [ht.disc]
    have hat : ∀ ch t r, ChangesRead env c' uri ch → startTime env c' fd s = .ok t → LastChange ch c'.spec_version t r →
        (ch <+: changes ∧ NothingPassing ch changes c.spec_version t0) ∧ LastChange ch c.spec_version t0 r ∧
        ∀ p ∈ sites, ∀ names, MapsTo c' env.cwd r.uri (p.2 ++ names) → r.uri = uriBelow p.1 names := by
      rintro ch t r ⟨u, -, h2⟩ h3 h4
      have hch := ht.list u ch h2
      rw [hst] at h3
      cases h3
      rw [ht.version] at h4
      refine ⟨hch, h4, ?_⟩
      intro p hp names h5
      obtain ⟨q, hq, ns, n1, n2, n3⟩ := hbelow r (hch.1.subset (lastChange_mem h4).1)
      rw [ht.cwd, n3, hs'.mapsTo hq n1 n2] at h5
      obtain ⟨rfl, rfl⟩ := hs.loc_inj hp hq h5
      exact n3
    refine ⟨?_, hsame.trans i2, ?_, ?_⟩
    · have hk := kept_incremental (P := MayRoom sites places) (Q := fun _ => True) env c' allow uri fd s (by rw [ht.cwd]; exact hs.cwdNames)
        (fun _ _ _ _ _ _ _ => trivial) ⟨i1, trivial⟩ (by
          intro clUri cl r hf hr fn hfn
          have hr' := (ht.list clUri cl hf).1.subset hr
          exact mayRoom_fetch hs' ht.cwd hroom.apart (hbelow r hr') (hin r hr') hfn)
      exact (hk.left hleft).1
    · intro p hp names hne hn hno content mtime
      rw [left_untouched (l := p.2 ++ names) (fun ch t r h1 h2 h3 h4 => ?_) hleft]
      · exact i3 p hp names hne hn hno content mtime
      · obtain ⟨⟨g1, -⟩, g2, g3⟩ := hat ch t r h1 h2 h3
        obtain ⟨m1, m2⟩ := lastChange_mem g2
        obtain ⟨r', e1, e2⟩ := exists_last (g1.subset m1) m2
        exact hno r' e2 (e1.trans (g3 p hp names h4))
    · intro p hp names hne hn x r hx hr hxu hru hxc hrc hf
      refine left_no_new_file (i4 p hp names hne hn x r hx hr hxu hru hxc hrc hf) ?_ hleft
      intro ch t y h1 h2 h3 h4
      obtain ⟨⟨-, g1⟩, g2, g3⟩ := hat ch t y h1 h2 h3
      rw [g1 x r hx hr (hxu.trans hru.symm) hxc hrc y g2 ((g3 p hp names h4).trans hru.symm)]
      decide

end

end Resync
