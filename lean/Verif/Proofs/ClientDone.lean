import Verif.Props.ClientFetch
import Verif.Proofs.ClientTime
/- What a successful run has done. -/

namespace Resync
open Py Resync.Spec

/-- without ignore_failures, and with at least one try, an update that does not fail has fetched the resource -/
theorem updateResource_ok_one (env : Env) (c : ClientCfg) (s : St) (r : Resource) (fn : Str) (hd : c.dryrun = false)
    (hi : c.ignore_failures = false) (ht : 0 < c.tries) {n : Nat} (h : (updateResource env c s r fn).2 = .ok n) : n = 1 := by
  have key : ∀ (n : Nat) (x : St), n ≠ 0 → (getLoop env false r.uri (location env.cwd fn) n x).2 ≠ .skipped ∧
      (getLoop env false r.uri (location env.cwd fn) n x).2 ≠ .gaveUp := by
    intro n
    induction n with
    | zero => intro x h; exact absurd rfl h
    | succ n ih =>
      intro x _
      simp only [getLoop]
      split
      · simp
      · split
        · simp
        · rename_i hn
          exact ih _ hn
      · simp
      · simp
  unfold updateResource at h
  cases hm : mkpath env [] (location env.cwd (dirname fn)) s with
  | mk s1 b =>
  rw [hm] at h
  cases b with
  | false => simp at h
  | true =>
    simp only [hd, Bool.false_eq_true, if_false] at h
    obtain ⟨k1, k2⟩ := key c.tries s1 (by omega)
    rw [hi] at h
    cases hg : getLoop env false r.uri (location env.cwd fn) c.tries s1 with
    | mk s2 g =>
    rw [hg] at h k1 k2
    cases g with
    | raised e => simp at h
    | gaveUp => exact absurd rfl k2
    | skipped => exact absurd rfl k1
    | updated =>
      simp only at h
      cases hs : setTime s2 (location env.cwd fn) r.timestamp with
      | mk s3 x =>
      rw [hs] at h
      cases x with
      | error e => simp at h
      | ok _ => simpa using h.symm

theorem doneBetween_trans {P Q R : Effect → Prop} {a b c d : St} (h1 : Did P a b) (h2 : Did Q b c) (h3 : Did R c d) :
    doneBetween a d = doneBetween a b ++ (doneBetween b c ++ doneBetween c d) ∧ b.trace = a.trace ++ doneBetween a b := by
  obtain ⟨x, x1, -, -⟩ := h1
  obtain ⟨y, y1, -, -⟩ := h2
  obtain ⟨z, z1, -, -⟩ := h3
  unfold doneBetween
  rw [z1, y1, x1]
  simp only [List.drop_left, List.append_assoc]
  have e : ∀ w : List Effect, List.drop (a.trace ++ x).length (a.trace ++ (x ++ w)) = w := by
    intro w
    rw [← List.append_assoc, List.drop_left]
  have e2 : List.drop (a.trace ++ (x ++ y)).length (a.trace ++ (x ++ (y ++ z))) = z := by
    rw [show a.trace ++ (x ++ (y ++ z)) = (a.trace ++ (x ++ y)) ++ z by simp, List.drop_left]
  rw [e y, e2]
  exact ⟨rfl, trivial⟩

theorem served_mono {P Q R : Effect → Prop} {env : Env} {a b c d : St} (h1 : Did P a b) (h2 : Did Q b c) (h3 : Did R c d)
    {uri : Str} {x : Bytes} (h : ServedDuring env b c uri x) : ServedDuring env a d uri x := by
  obtain ⟨e1, e2⟩ := doneBetween_trans h1 h2 h3
  obtain ⟨pre, ⟨q, hq⟩, hs⟩ := h
  refine ⟨doneBetween a b ++ pre, ⟨q ++ doneBetween c d, ?_⟩, ?_⟩
  · rw [e1, ← hq]; simp
  · rw [e2] at hs; simpa using hs

theorem updateResource_fetched (env : Env) (c : ClientCfg) (s : St) (r : Resource) (fn : Str) (hd : c.dryrun = false)
    (hi : c.ignore_failures = false) (ht : 0 < c.tries) {n : Nat} (h : (updateResource env c s r fn).2 = .ok n) :
    Fetched env s (updateResource env c s r fn).1 r (location env.cwd fn) := by
  have hn := updateResource_ok_one env c s r fn hd hi ht h
  subst hn
  obtain ⟨-, -, h3⟩ := C58_update_resource env c s r fn
  obtain ⟨b, m, ⟨pre, post, e1, -, e3⟩, hf, hm⟩ := h3 h
  exact ⟨b, m, ⟨pre, ⟨.get r.uri :: post, e1.symm⟩, e3⟩, hf, hm⟩

/-- files at `l` stay as they are when nothing maps to `l` -/
theorem did_untouched {env : Env} {c : ClientCfg} {allow : Bool} {upd del : List Resource} {s s' : St}
    (h : Did (SyncEff env c allow upd del) s s') {l : Loc} (hl : ∀ r ∈ upd ++ del, ¬ MapsTo c env.cwd r.uri l) (b : Bytes) (m : Rat) :
    IsFile s'.world.fs l b m ↔ IsFile s.world.fs l b m := by
  refine moment_inv h (fun w => IsFile w.fs l b m ↔ IsFile s.world.fs l b m) Iff.rfl ?_ _ h.final
  intro w e he hw
  rw [← hw]
  have hno : ¬ ((∃ d, e = .trunc l d) ∨ (∃ b, e = .append l b) ∨ (∃ t, e = .utime l t) ∨ e = .unlink l) := by
    intro hat
    rcases syncEff_at he hat with ⟨r, hr, hm, _⟩ | ⟨r, hr, hm, _⟩
    · exact hl r (List.mem_append_left _ hr) hm
    · exact hl r (List.mem_append_right _ hr) hm
  simp only [not_or, not_exists] at hno
  exact onFs_other hno.1 hno.2.1 hno.2.2.1 hno.2.2.2

/-- after a deletion that was allowed and could be made there is no file -/
theorem deleteResource_gone (env : Env) (c : ClientCfg) (s : St) (r : Resource) (fn : Str) (hd : c.dryrun = false)
    (hu : ∀ tr l, env.unlinkFails tr l = false) : ¬ HasFile (deleteResource env c true s r fn).1.world.fs (location env.cwd fn) := by
  unfold deleteResource
  simp only [hd, hu, not_true_eq_false, Bool.false_eq_true, if_false]
  split
  · rintro ⟨b, m, hf⟩
    unfold IsFile at hf
    simp only [St.emit, World.apply, Effect.onFs] at hf
    rename_i hg
    have hne : location env.cwd fn ≠ [] := by
      intro e
      rw [e, get_root] at hg
      cases hg
    rw [get_del_self _ _ hne] at hf
    cases hf
  · rename_i hn
    rintro ⟨b, m, hf⟩
    exact hn b m hf

end Resync
