import Verif.Model.ThermalIntegrals
import Verif.Model.Utils

/-! # Quark charge density and chemical potential: `qcd/thermal.rs`, module `quark`

The order of the tests and of the panics is that of the code; `x.powf(y)` is `Real.rpow`. -/

namespace Qcd.qcd.thermal.quark
open consts (Consts Integral get_default_integration_method)

/-- qcd/thermal.rs l.354-362 (`inlines::charge_density_i`). -/
noncomputable def charge_density_i (k : Consts ℝ) (q m beta mu : ℝ) : ℝ :=
  let en := energy q m
  (k.nc : ℝ) * q * q * (fermi_distribution en beta mu - fermi_distribution en beta (-mu)) / PI2

/-- qcd/thermal.rs l.298-304. -/
noncomputable def charge_density_with_method (ig : Integrator) (k : Consts ℝ) (m beta mu : ℝ)
    (integral : Integral ℝ) : ℝ :=
  ig.real (fun t => charge_density_i k ((1 - t) / t) m beta mu / (t * t)) (0, 1) integral

/-- qcd/thermal.rs l.306-308. -/
noncomputable def charge_density (ig : Integrator) (k : Consts ℝ) (m beta mu : ℝ) : ℝ :=
  charge_density_with_method ig k m beta mu (get_default_integration_method k)

/-- qcd/thermal.rs l.310-317. -/
noncomputable def charge_density_zero_temp (k : Consts ℝ) (m mu : ℝ) : ℝ :=
  open Classical in
  if |mu| ≤ |m| then 0 else
  let s : ℝ := if mu > m then 1 else -1
  let fm := fermi_momentum m mu
  (k.nc : ℝ) * s * (fm * fm * fm) / (3 * PI2)

/-- The result of a call that may panic (qcd/thermal.rs l.319-331). -/
inductive Res where
  | ok (x : ℝ)
  | panic

/-- qcd/thermal.rs l.319-331. `integral.get_tol()` is evaluated before `find_root` is called; the
`.unwrap()` of a failed search is the last `panic`. -/
noncomputable def chemical_potential_with_method (ig : Integrator) (k : Consts ℝ) (m beta n : ℝ)
    (integral : Integral ℝ) : Res :=
  open Classical in
  if n = 0 then .ok 0 else
  match integral.get_tol with
  | none => .panic
  | some tol =>
    match utils.find_root (utils.exactOps ℝ)
        (fun mu => n - charge_density_with_method ig k m beta mu integral) (0.5 * n, n) tol 1000 with
    | .some mu _ => .ok mu
    | .none => .panic
    | .panic => .panic

/-- qcd/thermal.rs l.333-335. -/
noncomputable def chemical_potential (ig : Integrator) (k : Consts ℝ) (m beta n : ℝ) : Res :=
  chemical_potential_with_method ig k m beta n (get_default_integration_method k)

/-- qcd/thermal.rs l.337-344. -/
noncomputable def chemical_potential_zero_temp (k : Consts ℝ) (m n : ℝ) : ℝ :=
  open Classical in
  if n = 0 then 0 else
  let a := (3 * PI2 * |n| / (k.nc : ℝ)) ^ ((2 : ℝ) / 3)
  let s : ℝ := if n > 0 then 1 else -1
  s * Real.sqrt (m * m + a)

end Qcd.qcd.thermal.quark
