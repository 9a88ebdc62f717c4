import Verif.Model.FloatRoot

/-! # The charge density at zero temperature in floating-point arithmetic -/

namespace Qcd.F
variable {r : Rounding}

/-- `a <= b` of `f64`: false for NaN (types.rs l.8-9 (`R` is `f64`)). -/
noncomputable def le (a b : Fl r) : Bool := open Classical in decide (∃ x y, a.value = some x ∧ b.value = some y ∧ x ≤ y)

/-- qcd/thermal.rs l.296: `PI * PI`, with the constant `PI` of `f64`. -/
noncomputable def PI2 : Fl r := ofR Real.pi * ofR Real.pi

/-- qcd/thermal.rs l.310-317. The number of colours is an argument. -/
noncomputable def charge_density_zero_temp (nc : ℕ) (m mu : Fl r) : Fl r :=
  if le (Fl.absF mu) (Fl.absF m) then ofR 0 else
  let s : Fl r := if Fl.lt m mu then ofR 1 else ofR (-1)
  let fm := fermi_momentum m mu
  ofR (nc : ℝ) * s * (fm * fm * fm) / (ofR 3 * PI2)

/-- qcd/thermal.rs l.337-344. `pow` is the function `powf` of the mathematical library. -/
noncomputable def chemical_potential_zero_temp (pow : Fl r → Fl r → Fl r) (nc : ℕ) (m n : Fl r) : Fl r :=
  if Fl.beq n (ofR 0) then ofR 0 else
  let a := pow (ofR 3 * PI2 * Fl.absF n / ofR (nc : ℝ)) (ofR 2 / ofR 3)
  let s : Fl r := if Fl.lt (ofR 0) n then ofR 1 else ofR (-1)
  s * NumOps.sqrt (Fl.mulAdd m m a)

end Qcd.F
