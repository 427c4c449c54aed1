import Verif.Model.Fs
/- Lemmas about the file system map. -/

namespace Resync
open Py Resync.Spec

theorem lookup_filter_ne (fs : Fs) (l k : Loc) (h : k ≠ l) : (fs.filter (fun p => p.1 ≠ l)).lookup k = fs.lookup k := by
  induction fs with
  | nil => rfl
  | cons p t ih =>
    obtain ⟨a, n⟩ := p
    by_cases e : a = l
    · have hk : (k == a) = false := by simp [e, h]
      simp only [List.filter, e, ne_eq, not_true_eq_false, decide_false]
      rw [List.lookup_cons, ← e, hk]
      subst e
      simpa using ih
    · have he : decide (a ≠ l) = true := by simpa using e
      simp only [List.filter, he, List.lookup_cons]
      cases (k == a)
      · exact ih
      · rfl

theorem lookup_filter_self (fs : Fs) (l : Loc) : (fs.filter (fun p => p.1 ≠ l)).lookup l = none := by
  rw [List.lookup_eq_none_iff]
  intro p hp
  have := (List.mem_filter.mp hp).2
  simp only [ne_eq, decide_not, Bool.not_eq_true', decide_eq_false_iff_not] at this
  simpa using fun e => this e.symm

theorem get_root (fs : Fs) : fs.get [] = some .dir := by simp [Fs.get]

theorem get_set_self (fs : Fs) (l : Loc) (n : FsNode) (h : l ≠ []) : (fs.set l n).get l = some n := by
  simp [Fs.get, Fs.set, h, List.lookup_cons]

theorem get_set_other (fs : Fs) (l k : Loc) (n : FsNode) (h : k ≠ l) : (fs.set l n).get k = fs.get k := by
  unfold Fs.get Fs.set
  by_cases hk : k = []
  · simp [hk]
  · have : (k == l) = false := by simpa using h
    simp only [hk, if_false, List.lookup_cons, this]
    exact lookup_filter_ne fs l k h

theorem get_del_self (fs : Fs) (l : Loc) (h : l ≠ []) : (fs.del l).get l = none := by
  simp only [Fs.get, Fs.del, h, if_false]
  exact lookup_filter_self fs l

theorem get_del_other (fs : Fs) (l k : Loc) (h : k ≠ l) : (fs.del l).get k = fs.get k := by
  unfold Fs.get Fs.del
  by_cases hk : k = []
  · simp [hk]
  · simp only [hk, if_false]
    exact lookup_filter_ne fs l k h

end Resync
