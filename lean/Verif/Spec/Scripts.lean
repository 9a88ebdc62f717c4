import Mathlib.Data.Real.Basic
import Mathlib.Tactic.NormNum

/-! # What the conversion script should do -/

namespace Qcd.Spec

/-- The momenta of a table: the first column of the lines with sixteen columns. -/
def momenta (file : List (List (Option ℝ))) : List ℝ :=
  (file.filter (fun ll => ll.length = 16)).filterMap (fun ll => ll.head?.join)

/-- A table whose lines with sixteen columns hold a momentum `p` and, in column `idx`, the value
`y p`; the momentum is one of those allowed. -/
def Tabulates (file : List (List (Option ℝ))) (idx : ℕ) (y : ℝ → ℝ) (allowed : ℝ → Prop) : Prop :=
  ∀ ll ∈ file, ll.length = 16 → ∃ p, allowed p ∧ ll[0]? = some (some p) ∧ ll[idx]? = some (some (y p))

/-- The momenta at which the propagator `1/((J p + f) p²)` has no pole, neither for `f = -0.876` nor
for `f = f0`. -/
def convertible (J : ℝ → ℝ) (f0 p : ℝ) : Prop := p ≠ 0 ∧ J p - 0.876 ≠ 0 ∧ J p + f0 ≠ 0

end Qcd.Spec
