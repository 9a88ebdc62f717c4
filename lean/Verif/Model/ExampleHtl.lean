import Verif.Model.ThermalIntegrals
import Verif.Model.Overall

/-! # `qcd-sme/examples/qed_htl_limit.rs`

The example program that compares the quark loop, turned into the electron loop of QED, with the hard-thermal-loop formulas.
Not modelled: titles, axes, messages, the text format of numbers (`fmt` is `{}`, `fmt2` is `{:.2}`). -/

namespace Qcd.examples.qed_htl_limit
open consts (Consts)

/-- l.10. -/
noncomputable def ME : ℝ := 1 / 1000

/-- l.13-18. -/
noncomputable def f_htl {T : Type} [Num T] (om : T) (p t : ℝ) : ℂ :=
  let k2 : T := -om * om - ofR (p * p)
  let p2 := p * p
  let k0 : ℂ := toC om * Complex.I
  toC (-k2 * ofR (t * t / 3) / ofR p2) * (1 - k0 / ((2 * p : ℝ) : ℂ) * Complex.log ((k0 + p) / (k0 - p)))

/-- l.21-23. -/
noncomputable def g_htl {T : Type} [Num T] (om : T) (p t : ℝ) : ℂ :=
  ((t * t / 6 : ℝ) : ℂ) - f_htl om p t / 2

/-- l.27-29. -/
noncomputable def f_ours {T : Type} [Num T] (ig : Integrator) (k : Consts ℝ) (om : T) (p t : ℝ) : ℂ :=
  -6 * gluon.thermal.polarization_quark_l_thermal_part_landau ig k om p ME (1 / t) 0

/-- l.33-35. -/
noncomputable def g_ours {T : Type} [Num T] (ig : Integrator) (k : Consts ℝ) (om : T) (p t : ℝ) : ℂ :=
  -6 * gluon.thermal.polarization_quark_t_thermal_part_landau ig k om p ME (1 / t) 0

/-- l.38. -/
noncomputable def om : ℝ := 1 / 100
/-- l.39. -/
noncomputable def ts : List ℝ := [1, 2, 5, 10]
/-- l.41-45 (`tc.grid` is the same expression). -/
noncomputable def momenta : List ℝ := tc.grid (1 / 100) (5 / 10) (2 / 100)

/-- l.49-114: the two plots of one temperature. -/
noncomputable def plots (ig : Integrator) (k : Consts ℝ) (fmt fmt2 : ℝ → String) (t : ℝ) : List tc.Plot :=
  let vals1 := momenta.map (fun p => f_htl om p t)
  let vals2 := momenta.map (fun p => f_ours ig k om p t)
  let vals3 := momenta.map (fun p => g_htl om p t)
  let vals4 := momenta.map (fun p => g_ours ig k om p t)
  let legends := ["$T=" ++ fmt t ++ "$ MeV (long., HTL)", "$T=" ++ fmt t ++ "$ MeV (long., ours)",
    "$T=" ++ fmt t ++ "$ MeV (trans., HTL)", "$T=" ++ fmt t ++ "$ MeV (trans., ours)"]
  [{ path := "target/qed_htl_limit/T" ++ fmt2 t ++ "_re.png"
     domain := momenta
     legend := legends
     images := [vals1.map (fun v => v.re), vals2.map (fun v => v.re), vals3.map (fun v => v.re), vals4.map (fun v => v.re)] },
   { path := "target/qed_htl_limit/T" ++ fmt2 t ++ "_im.png"
     domain := momenta
     legend := legends
     images := [vals1.map (fun v => v.im), vals2.map (fun v => v.im), vals3.map (fun v => v.im), vals4.map (fun v => v.im)] }]

/-- l.37-116 (`main`). -/
noncomputable def main (ig : Integrator) (k : Consts ℝ) (fmt fmt2 : ℝ → String) : List tc.Plot :=
  ts.flatMap (plots ig k fmt fmt2)

end Qcd.examples.qed_htl_limit
