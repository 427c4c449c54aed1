import Verif.Model.ClientState
/-
What stored state means (C43-C45).
-/

namespace Resync.Spec
open Py

/-- float(str(t)) gives t back, and str(t) is the text of a number: not empty, no white space, no '%' -/
structure FloatOk {T : Type} (ft : FloatText T) : Prop where
  back : ∀ t, ft.float (ft.str t) = some t
  nonempty : ∀ t, ft.str t ≠ []
  clean : ∀ t, ∀ c ∈ ft.str t, isSpace c = false ∧ c ≠ '%'

/-- Two site names for which the same entry is used: of the same length, and at each place the letters and digits agree up
to case, or neither is a letter or digit. -/
def SameKey (s s' : Str) : Prop :=
  List.Forall₂ (fun c d => c.toLower = d.toLower ∨ (c.isAlphanum = false ∧ d.isAlphanum = false)) s s'

/-- set_state calls one after the other -/
def setAll {T : Type} (ft : FloatText T) (file : Option Str) : List (Str × Option T) → Except StateErr (Option Str)
  | [] => .ok file
  | (site, t) :: ops =>
    match setState ft file site t with
    | .error e => .error e
    | .ok file' => setAll ft file' ops

/-- the last call for the entry of `site` was with timestamp `t` -/
def LastSet {T : Type} (ops : List (Str × Option T)) (site : Str) (t : Option T) : Prop :=
  ∃ before s' after, ops = before ++ (s', t) :: after ∧ SameKey s' site ∧ ∀ op ∈ after, ¬ SameKey op.1 site

end Resync.Spec
