import Mathlib.Data.Rat.Floor
/-
Specification: IEEE 754 double precision numbers.
-/

namespace Resync.Spec

/-- The values of finite doubles (without the upper limit): integers of at most 53 bits times a power of two, at least 2^-1074. -/
def IsDouble (q : Rat) : Prop := ∃ m e : Int, |m| < 2 ^ 53 ∧ -1074 ≤ e ∧ q = m * (2 : Rat) ^ e

/-- `t` is a double closest to `q`. -/
def Nearest (t q : Rat) : Prop := IsDouble t ∧ ∀ d, IsDouble d → |t - q| ≤ |d - q|

end Resync.Spec
